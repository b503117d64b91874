import Verif.Float.Round
import Mathlib.Order.WithBot
import Mathlib.Data.Nat.Sqrt

/-!
# Floating point numbers

`Fp f` are the values of the binary format `f` (NaN payloads and signs are not distinguished), with
the operations of Rust's `f32`/`f64` used by the code: IEEE 754 arithmetic with round-to-nearest-even.
-/

namespace Verif

/-- A floating point value: NaN, an infinity (`neg` = its sign), or a representable rational, where
`nz` marks negative zero. -/
inductive Fp (f : Fmt) where
  | nan
  | inf (neg : Bool)
  | fin (q : ℚ) (nz : Bool) (h : f.Rep q) (hz : nz = true → q = 0)

/-- Rust `f32`. -/
abbrev F32 := Fp b32
/-- Rust `f64`. -/
abbrev F64 := Fp b64

/-- The integer nearest to `q`, away from zero in a tie (Rust `f32::round`). -/
def roundAway (q : ℚ) : ℤ := if 0 ≤ q then ⌊q + 1/2⌋ else -⌊-q + 1/2⌋

/-- Truncation towards zero. -/
def truncQ (q : ℚ) : ℤ := if 0 ≤ q then ⌊q⌋ else ⌈q⌉

/-- Saturating range of a 64-bit `isize`. -/
def isizeMin : ℤ := -2 ^ 63
/-- Saturating range of a 64-bit `isize`. -/
def isizeMax : ℤ := 2 ^ 63 - 1

/-- Clamp to the `isize` range. -/
def clampIsize (n : ℤ) : ℤ := max isizeMin (min isizeMax n)

namespace Fp
variable {f g : Fmt}

instance : DecidableEq (Fp f) := fun x y =>
  match x, y with
  | .nan, .nan => isTrue rfl
  | .inf a, .inf b => if h : a = b then isTrue (by rw [h]) else isFalse (by simpa using h)
  | .fin q a h1 h2, .fin r b h3 h4 =>
    if h : q = r ∧ a = b then isTrue (by obtain ⟨rfl, rfl⟩ := h; rfl)
    else isFalse (by simpa using h)
  | .nan, .inf _ => isFalse (by simp)
  | .nan, .fin .. => isFalse (by simp)
  | .inf _, .nan => isFalse (by simp)
  | .inf _, .fin .. => isFalse (by simp)
  | .fin .., .nan => isFalse (by simp)
  | .fin .., .inf _ => isFalse (by simp)

/-- Rounds the exact result `q` of an operation. `zs` is the sign of the zero when `q = 0`. -/
def ofRat (zs : Bool) (q : ℚ) : Fp f :=
  if h : |f.rnd q| < 2 ^ f.emax then
    .fin (f.rnd q) (decide (f.rnd q = 0) && (if q = 0 then zs else decide (q < 0)))
      (Fmt.rep_rnd h) (by
        intro h'
        simp only [Bool.and_eq_true, decide_eq_true_eq] at h'
        exact h'.1)
  else .inf (decide (q < 0))

/-- A literal of the source program: the decimal number rounded to the format. -/
def lit (q : ℚ) : Fp f := ofRat false q

/-- Positive zero. -/
def zero : Fp f := ofRat false 0

/-- Sign bit (`false` for NaN). -/
def sgn : Fp f → Bool
  | .nan => false
  | .inf a => a
  | .fin q nz _ _ => nz || decide (q < 0)

/-- Is it a NaN? -/
def isNaN : Fp f → Bool
  | .nan => true
  | _ => false

/-- Is it an infinity? -/
def isInf : Fp f → Bool
  | .inf _ => true
  | _ => false

/-- Is it neither NaN nor infinite? -/
def isFin : Fp f → Bool
  | .fin .. => true
  | _ => false

/-- The rational value of a finite number, 0 otherwise. -/
def val : Fp f → ℚ
  | .fin q _ _ _ => q
  | _ => 0

/-- Negation. -/
def neg : Fp f → Fp f
  | .nan => .nan
  | .inf a => .inf !a
  | .fin q nz h _ => .fin (-q) (decide (q = 0) && !nz) (Fmt.rep_neg h) (by
      intro h'; simp at h'; simp [h'.1])

/-- Absolute value. -/
def abs : Fp f → Fp f
  | .nan => .nan
  | .inf _ => .inf false
  | .fin q _ h _ => .fin |q| false (by
      rcases abs_choice q with e | e <;> rw [e]
      · exact h
      · exact Fmt.rep_neg h) (by simp)

/-- Addition. An exact zero sum is +0 unless both operands are -0. -/
def add : Fp f → Fp f → Fp f
  | .nan, _ => .nan
  | _, .nan => .nan
  | .inf a, .inf b => if a = b then .inf a else .nan
  | .inf a, .fin .. => .inf a
  | .fin .., .inf b => .inf b
  | .fin q a _ _, .fin r b _ _ => ofRat (a && b) (q + r)

/-- Subtraction. -/
def sub (x y : Fp f) : Fp f := add x (neg y)

/-- Multiplication. -/
def mul : Fp f → Fp f → Fp f
  | .nan, _ => .nan
  | _, .nan => .nan
  | .inf a, .inf b => .inf (a ^^ b)
  | .inf a, y@(.fin r _ _ _) => if r = 0 then .nan else .inf (a ^^ y.sgn)
  | x@(.fin q _ _ _), .inf b => if q = 0 then .nan else .inf (x.sgn ^^ b)
  | x@(.fin q _ _ _), y@(.fin r _ _ _) => ofRat (x.sgn ^^ y.sgn) (q * r)

/-- Division. -/
def div : Fp f → Fp f → Fp f
  | .nan, _ => .nan
  | _, .nan => .nan
  | .inf _, .inf _ => .nan
  | .inf a, y@(.fin ..) => .inf (a ^^ y.sgn)
  | x@(.fin ..), .inf b => ofRat (x.sgn ^^ b) 0
  | x@(.fin q _ _ _), y@(.fin r _ _ _) =>
    if r = 0 then (if q = 0 then .nan else .inf (x.sgn ^^ y.sgn))
    else ofRat (x.sgn ^^ y.sgn) (q / r)

/-- Integer square root, one binary digit per step (`k` digits). -/
def sqrtDigits : ℕ → ℕ → ℕ
  | 0, _ => 0
  | k + 1, n =>
    if (2 * sqrtDigits k (n / 4) + 1) * (2 * sqrtDigits k (n / 4) + 1) ≤ n then
      2 * sqrtDigits k (n / 4) + 1
    else 2 * sqrtDigits k (n / 4)

/-- Integer square root. -/
def isqrt (n : ℕ) : ℕ := sqrtDigits (Nat.log2 n + 1) n

/-- A rational that rounds like the square root of `q` (a finite value of the format): the exact root
when it is a multiple of `2^(qmin-1)`, otherwise the middle of the interval between two such multiples
that contains it. No rounding boundary lies strictly inside such an interval. -/
def sqrtQ (f : Fmt) (q : ℚ) : ℚ :=
  let j : ℕ := (1 - f.qmin).toNat
  let n : ℕ := ⌊q * 4 ^ j⌋.toNat
  let s : ℕ := isqrt n
  if s * s = n then s / 2 ^ j else (2 * s + 1) / 2 ^ (j + 1)

/-- Square root. -/
def sqrt : Fp f → Fp f
  | .nan => .nan
  | .inf a => if a then .nan else .inf false
  | x@(.fin q _ _ _) => if q = 0 then x else if q < 0 then .nan else ofRat false (sqrtQ f q)

/-- Applies an integer-valued rounding, keeping the sign of zero (`round`, `floor`, `ceil`). -/
def toIntegral (i : ℚ → ℤ) : Fp f → Fp f
  | .nan => .nan
  | .inf a => .inf a
  | x@(.fin q _ _ _) => ofRat x.sgn (i q)

/-- Rust `round`: half away from zero. -/
def round : Fp f → Fp f := toIntegral roundAway
/-- Rust `floor`. -/
def floor : Fp f → Fp f := toIntegral Int.floor
/-- Rust `ceil`. -/
def ceil : Fp f → Fp f := toIntegral Int.ceil

/-- `<` (false with NaN). -/
def lt : Fp f → Fp f → Bool
  | .nan, _ => false
  | _, .nan => false
  | .inf a, .inf b => a && !b
  | .inf a, .fin .. => a
  | .fin .., .inf b => !b
  | .fin q _ _ _, .fin r _ _ _ => decide (q < r)

/-- `==` (false with NaN; zeros are equal). -/
def eq : Fp f → Fp f → Bool
  | .nan, _ => false
  | _, .nan => false
  | .inf a, .inf b => a == b
  | .inf _, .fin .. => false
  | .fin .., .inf _ => false
  | .fin q _ _ _, .fin r _ _ _ => decide (q = r)

/-- `<=` (false with NaN). -/
def le (x y : Fp f) : Bool := lt x y || eq x y

/-- Rust `f32::min`: a NaN operand is ignored. For zeros of different sign Rust leaves the choice
open; here the first operand is taken. -/
def min (x y : Fp f) : Fp f :=
  if x.isNaN then y else if y.isNaN then x else if lt y x then y else x

/-- Rust `f32::max`: a NaN operand is ignored. -/
def max (x y : Fp f) : Fp f :=
  if x.isNaN then y else if y.isNaN then x else if lt x y then y else x

/-- `isize as f32`. -/
def ofInt (n : ℤ) : Fp f := ofRat false n

/-- `f32 as isize`: truncation, saturating, NaN gives 0. -/
def toInt : Fp f → ℤ
  | .nan => 0
  | .inf a => if a then isizeMin else isizeMax
  | .fin q _ _ _ => clampIsize (truncQ q)

/-- Conversion between formats (`as f32`, `as f64`). -/
def cast : Fp f → Fp g
  | .nan => .nan
  | .inf a => .inf a
  | x@(.fin q _ _ _) => ofRat x.sgn q

/-! ## Finite values -/

/-- `x` is finite with value `q`. -/
def Is (x : Fp f) (q : ℚ) : Prop := ∃ nz h hz, x = .fin q nz h hz

lemma Is.rep {x : Fp f} {q : ℚ} (h : x.Is q) : f.Rep q := by
  obtain ⟨_, h, _, _⟩ := h; exact h

lemma Is.val {x : Fp f} {q : ℚ} (h : x.Is q) : x.val = q := by
  obtain ⟨_, _, _, rfl⟩ := h; rfl

lemma Is.unique {x : Fp f} {q r : ℚ} (h : x.Is q) (h' : x.Is r) : q = r := by
  rw [← h.val, ← h'.val]

lemma isFin_iff {x : Fp f} : x.isFin = true ↔ ∃ q, x.Is q := by
  constructor
  · intro h
    match x, h with
    | .fin q nz h1 h2, _ => exact ⟨q, nz, h1, h2, rfl⟩
  · rintro ⟨q, nz, h1, h2, rfl⟩; rfl

lemma isFin_is {x : Fp f} (h : x.isFin = true) : x.Is x.val := by
  obtain ⟨q, hq⟩ := isFin_iff.mp h
  rwa [hq.val]

lemma Is.isFin {x : Fp f} {q : ℚ} (h : x.Is q) : x.isFin = true := isFin_iff.mpr ⟨q, h⟩

lemma ofRat_is {zs : Bool} {q : ℚ} (h : |f.rnd q| < 2 ^ f.emax) :
    (ofRat zs q : Fp f).Is (f.rnd q) := by
  unfold ofRat
  rw [dif_pos h]
  exact ⟨_, _, _, rfl⟩

lemma ofRat_is_rep {zs : Bool} {q : ℚ} (h : f.Rep q) : (ofRat zs q : Fp f).Is q := by
  have h1 := Fmt.rnd_of_rep h
  have h2 : |f.rnd q| < 2 ^ f.emax := by rw [h1]; exact Fmt.rep_abs_lt h
  have := ofRat_is (zs := zs) h2
  rwa [h1] at this

lemma Is.neg {x : Fp f} {q : ℚ} (h : x.Is q) : x.neg.Is (-q) := by
  obtain ⟨_, _, _, rfl⟩ := h; exact ⟨_, _, _, rfl⟩

lemma Is.abs {x : Fp f} {q : ℚ} (h : x.Is q) : x.abs.Is |q| := by
  obtain ⟨_, _, _, rfl⟩ := h; exact ⟨_, _, _, rfl⟩

lemma Is.add {x y : Fp f} {q r : ℚ} (hx : x.Is q) (hy : y.Is r)
    (h : |f.rnd (q + r)| < 2 ^ f.emax) : (x.add y).Is (f.rnd (q + r)) := by
  obtain ⟨_, _, _, rfl⟩ := hx
  obtain ⟨_, _, _, rfl⟩ := hy
  exact ofRat_is h

lemma Is.sub {x y : Fp f} {q r : ℚ} (hx : x.Is q) (hy : y.Is r)
    (h : |f.rnd (q - r)| < 2 ^ f.emax) : (x.sub y).Is (f.rnd (q - r)) := by
  rw [sub_eq_add_neg] at h ⊢
  exact hx.add hy.neg h

lemma Is.mul {x y : Fp f} {q r : ℚ} (hx : x.Is q) (hy : y.Is r)
    (h : |f.rnd (q * r)| < 2 ^ f.emax) : (x.mul y).Is (f.rnd (q * r)) := by
  obtain ⟨_, _, _, rfl⟩ := hx
  obtain ⟨_, _, _, rfl⟩ := hy
  exact ofRat_is h

lemma Is.div {x y : Fp f} {q r : ℚ} (hx : x.Is q) (hy : y.Is r) (hr : r ≠ 0)
    (h : |f.rnd (q / r)| < 2 ^ f.emax) : (x.div y).Is (f.rnd (q / r)) := by
  obtain ⟨_, _, _, rfl⟩ := hx
  obtain ⟨_, _, _, rfl⟩ := hy
  simp only [Fp.div, if_neg hr]
  exact ofRat_is h

lemma Is.lt {x y : Fp f} {q r : ℚ} (hx : x.Is q) (hy : y.Is r) : x.lt y = decide (q < r) := by
  obtain ⟨_, _, _, rfl⟩ := hx
  obtain ⟨_, _, _, rfl⟩ := hy
  rfl

lemma Is.eq {x y : Fp f} {q r : ℚ} (hx : x.Is q) (hy : y.Is r) : x.eq y = decide (q = r) := by
  obtain ⟨_, _, _, rfl⟩ := hx
  obtain ⟨_, _, _, rfl⟩ := hy
  rfl

lemma Is.le {x y : Fp f} {q r : ℚ} (hx : x.Is q) (hy : y.Is r) : x.le y = decide (q ≤ r) := by
  unfold Fp.le
  rw [hx.lt hy, hx.eq hy, Bool.eq_iff_iff]
  simp [le_iff_lt_or_eq]

/-! ## Integers near representable numbers -/

lemma rep_near {q : ℚ} {n : ℤ} (h : f.Rep q) (h1 : |(n : ℚ) - q| ≤ 1)
    (h2 : (∃ k : ℤ, q = k) → (n : ℚ) = q) : f.Rep n := by
  obtain ⟨m, e, hm, he, h3, rfl⟩ := id h
  rcases le_or_gt 0 e with c | c
  · have : ((n : ℤ) : ℚ) = m * 2 ^ e := by
      apply h2
      refine ⟨m * 2 ^ e.toNat, ?_⟩
      have := two_zpow_int c
      push_cast at this ⊢
      rw [this]
    rw [this]; exact h
  · apply Fmt.rep_int
    have hp := f.prec_pos
    have h4 : |(m : ℚ) * 2 ^ e| ≤ 2 ^ f.prec / 2 := by
      rw [abs_mul, abs_of_pos (two_zpow_pos e)]
      have h5 : (2 : ℚ) ^ e ≤ 1 / 2 := by
        have := two_zpow_le (a := e) (b := -1) (by omega)
        simpa using this
      have h6 : |(m : ℚ)| ≤ 2 ^ f.prec := by exact_mod_cast hm.le
      have h7 : (0 : ℚ) < 2 ^ e := two_zpow_pos e
      have h8 : (0 : ℚ) ≤ |(m : ℚ)| := abs_nonneg _
      nlinarith
    have h5 : (2 : ℚ) ≤ 2 ^ f.prec := by
      calc (2 : ℚ) = 2 ^ 1 := by norm_num
        _ ≤ 2 ^ f.prec := by gcongr; norm_num
    have h6 : |(n : ℚ)| ≤ 2 ^ f.prec := by
      have := abs_sub_abs_le_abs_sub (n : ℚ) (m * 2 ^ e)
      linarith
    exact_mod_cast h6

lemma roundAway_err (q : ℚ) : |(roundAway q : ℚ) - q| ≤ 1 / 2 := by
  unfold roundAway
  split_ifs
  · have h1 := Int.floor_le (q + 1/2)
    have h2 := Int.lt_floor_add_one (q + 1/2)
    rw [abs_le]; constructor <;> linarith
  · have h1 := Int.floor_le (-q + 1/2)
    have h2 := Int.lt_floor_add_one (-q + 1/2)
    push_cast
    rw [abs_le]; constructor <;> linarith

lemma roundAway_int (n : ℤ) : roundAway n = n := by
  have h := roundAway_err n
  have h2 : |((roundAway n - n : ℤ) : ℚ)| < 1 := by push_cast; linarith
  have h3 : |roundAway (n : ℚ) - n| < 1 := by exact_mod_cast h2
  rw [abs_lt] at h3; omega

lemma roundAway_mono {a b : ℚ} (h : a ≤ b) : roundAway a ≤ roundAway b := by
  unfold roundAway
  split_ifs with h1 h2 h2
  · apply Int.floor_le_floor; linarith
  · linarith
  · have e1 : (0 : ℤ) ≤ ⌊-a + 1/2⌋ := by
      apply Int.floor_nonneg.mpr; linarith
    have e2 : (0 : ℤ) ≤ ⌊b + 1/2⌋ := by
      apply Int.floor_nonneg.mpr; linarith
    omega
  · have : ⌊-b + 1/2⌋ ≤ ⌊-a + 1/2⌋ := by apply Int.floor_le_floor; linarith
    omega

lemma roundAway_eq_of_lt {q : ℚ} {n : ℤ} (h : |q - n| < 1 / 2) : roundAway q = n := by
  have h1 := roundAway_err q
  have h2 : |((roundAway q - n : ℤ) : ℚ)| < 1 := by
    push_cast
    have := abs_sub_le (roundAway q : ℚ) q n
    linarith
  have h3 : |roundAway q - n| < 1 := by exact_mod_cast h2
  rw [abs_lt] at h3; omega

lemma rep_roundAway {q : ℚ} (h : f.Rep q) : f.Rep (roundAway q) := by
  apply rep_near h
  · have := roundAway_err q; linarith
  · rintro ⟨k, rfl⟩; rw [roundAway_int]

lemma rep_floor {q : ℚ} (h : f.Rep q) : f.Rep (⌊q⌋ : ℤ) := by
  apply rep_near h
  · have h1 := Int.floor_le q
    have h2 := Int.lt_floor_add_one q
    rw [abs_le]; constructor <;> linarith
  · rintro ⟨k, rfl⟩; simp

lemma rep_ceil {q : ℚ} (h : f.Rep q) : f.Rep (⌈q⌉ : ℤ) := by
  apply rep_near h
  · have h1 := Int.le_ceil q
    have h2 := Int.ceil_lt_add_one q
    rw [abs_le]; constructor <;> linarith
  · rintro ⟨k, rfl⟩; simp

lemma Is.round {x : Fp f} {q : ℚ} (h : x.Is q) : x.round.Is (roundAway q) := by
  have := rep_roundAway h.rep
  obtain ⟨_, _, _, rfl⟩ := h
  exact ofRat_is_rep this

lemma Is.floor {x : Fp f} {q : ℚ} (h : x.Is q) : x.floor.Is (⌊q⌋ : ℤ) := by
  have := rep_floor h.rep
  obtain ⟨_, _, _, rfl⟩ := h
  exact ofRat_is_rep this

lemma Is.ceil {x : Fp f} {q : ℚ} (h : x.Is q) : x.ceil.Is (⌈q⌉ : ℤ) := by
  have := rep_ceil h.rep
  obtain ⟨_, _, _, rfl⟩ := h
  exact ofRat_is_rep this

lemma truncQ_int (n : ℤ) : truncQ n = n := by
  unfold truncQ; split_ifs <;> simp

lemma Is.toInt {x : Fp f} {q : ℚ} (h : x.Is q) : x.toInt = clampIsize (truncQ q) := by
  obtain ⟨_, _, _, rfl⟩ := h
  rfl

lemma clampIsize_of_mem {n : ℤ} (h1 : isizeMin ≤ n) (h2 : n ≤ isizeMax) : clampIsize n = n := by
  unfold clampIsize
  rw [min_eq_right h2, max_eq_right h1]

/-- `round` then `as isize` of a finite value. -/
lemma Is.round_toInt {x : Fp f} {q : ℚ} (h : x.Is q) :
    x.round.toInt = clampIsize (roundAway q) := by
  rw [h.round.toInt, truncQ_int]

lemma is_ofInt {n : ℤ} (h : |n| ≤ 2 ^ f.prec) : (ofInt n : Fp f).Is n :=
  ofRat_is_rep (Fmt.rep_int h)

/-! ## Order -/

/-- Non-NaN values in a linear order (NaN is put at the bottom; see the lemmas for its treatment). -/
def key : Fp f → WithBot (WithTop ℚ)
  | .nan => ⊥
  | .inf true => ⊥
  | .inf false => ((⊤ : WithTop ℚ) : WithBot (WithTop ℚ))
  | .fin q _ _ _ => ((q : WithTop ℚ) : WithBot (WithTop ℚ))

lemma lt_iff_key {x y : Fp f} (hx : x.isNaN = false) (hy : y.isNaN = false) :
    x.lt y = true ↔ x.key < y.key := by
  rcases x with _ | (_ | _) | _ <;> rcases y with _ | (_ | _) | _ <;>
    simp_all [lt, key, isNaN, WithBot.bot_lt_coe]
  exact WithBot.coe_lt_coe.mpr (WithTop.coe_lt_top _)

lemma eq_iff_key {x y : Fp f} (hx : x.isNaN = false) (hy : y.isNaN = false) :
    x.eq y = true ↔ x.key = y.key := by
  rcases x with _ | (_ | _) | _ <;> rcases y with _ | (_ | _) | _ <;>
    simp_all [eq, key, isNaN]

lemma le_iff_key {x y : Fp f} (hx : x.isNaN = false) (hy : y.isNaN = false) :
    x.le y = true ↔ x.key ≤ y.key := by
  unfold le
  rw [Bool.or_eq_true, lt_iff_key hx hy, eq_iff_key hx hy, le_iff_lt_or_eq]

lemma notNaN_of_lt {x y : Fp f} (h : x.lt y = true) : x.isNaN = false ∧ y.isNaN = false := by
  rcases x with _ | _ | _ <;> rcases y with _ | _ | _ <;> simp_all [lt, isNaN]

lemma notNaN_of_eq {x y : Fp f} (h : x.eq y = true) : x.isNaN = false ∧ y.isNaN = false := by
  rcases x with _ | _ | _ <;> rcases y with _ | _ | _ <;> simp_all [eq, isNaN]

lemma notNaN_of_le {x y : Fp f} (h : x.le y = true) : x.isNaN = false ∧ y.isNaN = false := by
  unfold le at h
  rw [Bool.or_eq_true] at h
  rcases h with h | h
  · exact notNaN_of_lt h
  · exact notNaN_of_eq h

/-- `<=` is true exactly on ordered non-NaN values. -/
lemma le_iff {x y : Fp f} :
    x.le y = true ↔ x.isNaN = false ∧ y.isNaN = false ∧ x.key ≤ y.key := by
  constructor
  · intro h
    obtain ⟨h1, h2⟩ := notNaN_of_le h
    exact ⟨h1, h2, (le_iff_key h1 h2).mp h⟩
  · rintro ⟨h1, h2, h3⟩; exact (le_iff_key h1 h2).mpr h3

lemma lt_iff {x y : Fp f} :
    x.lt y = true ↔ x.isNaN = false ∧ y.isNaN = false ∧ x.key < y.key := by
  constructor
  · intro h
    obtain ⟨h1, h2⟩ := notNaN_of_lt h
    exact ⟨h1, h2, (lt_iff_key h1 h2).mp h⟩
  · rintro ⟨h1, h2, h3⟩; exact (lt_iff_key h1 h2).mpr h3

lemma key_is {x : Fp f} {q : ℚ} (h : x.Is q) : x.key = ((q : WithTop ℚ) : WithBot (WithTop ℚ)) := by
  obtain ⟨_, _, _, rfl⟩ := h; rfl

lemma notNaN_is {x : Fp f} {q : ℚ} (h : x.Is q) : x.isNaN = false := by
  obtain ⟨_, _, _, rfl⟩ := h; rfl

lemma notNaN_ofRat {zs : Bool} {q : ℚ} : (ofRat zs q : Fp f).isNaN = false := by
  unfold ofRat; split_ifs <;> rfl

lemma key_ofRat_fin {zs : Bool} {q : ℚ} (h : |f.rnd q| < 2 ^ f.emax) :
    (ofRat zs q : Fp f).key = ((f.rnd q : WithTop ℚ) : WithBot (WithTop ℚ)) :=
  key_is (ofRat_is h)

lemma ofRat_overflow {zs : Bool} {q : ℚ} (h : ¬ |f.rnd q| < 2 ^ f.emax) :
    (ofRat zs q : Fp f) = .inf (decide (q < 0)) := by
  unfold ofRat; rw [dif_neg h]

/-- Rounding is monotone, overflow included. -/
lemma ofRat_mono {a b : Bool} {q r : ℚ} (h : q ≤ r) :
    (ofRat a q : Fp f).key ≤ (ofRat b r : Fp f).key := by
  have hm := Fmt.rnd_mono (f := f) h
  by_cases h1 : |f.rnd q| < 2 ^ f.emax <;> by_cases h2 : |f.rnd r| < 2 ^ f.emax
  · rw [key_ofRat_fin h1, key_ofRat_fin h2]; exact_mod_cast hm
  · rw [ofRat_overflow h2]
    rcases lt_or_ge r 0 with hr | hr
    · exfalso
      apply h2
      rw [abs_lt] at h1 ⊢
      have : f.rnd r ≤ 0 := by
        have := Fmt.rnd_nonneg (f := f) (q := -r) (by linarith)
        simp at this; exact this
      exact ⟨by linarith, by have := two_zpow_pos f.emax; linarith⟩
    · rw [decide_eq_false (not_lt.mpr hr), key_ofRat_fin h1]
      simp [key]
  · rw [ofRat_overflow h1]
    rcases lt_or_ge q 0 with hq | hq
    · simp [key, hq]
    · exfalso
      apply h1
      rw [abs_lt] at h2 ⊢
      have := Fmt.rnd_nonneg (f := f) hq
      exact ⟨by have := two_zpow_pos f.emax; linarith, by linarith⟩
  · rw [ofRat_overflow h1, ofRat_overflow h2]
    rcases lt_or_ge q 0 with hq | hq
    · simp [key, hq]
    · simp [key, not_lt.mpr hq, not_lt.mpr (hq.trans h)]

end Fp
end Verif
