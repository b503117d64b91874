import Verif.Spec.Mirror
import Verif.Lemmas.Ray
import Verif.Lemmas.F32
import Verif.Model.Geom

/-!
# Float operations on numbers of opposite sign
-/

namespace Verif

namespace Fp
variable {f : Fmt}

/-- `y` is `x` (`s = false`) or its negation (`s = true`), up to the sign of zeros. -/
def Opp (s : Bool) : Fp f → Fp f → Prop
  | .nan, .nan => True
  | .inf a, .inf b => b = (a ^^ s)
  | .fin q _ _ _, .fin r _ _ _ => r = if s then -q else q
  | _, _ => False

lemma Opp.refl (x : Fp f) : Opp false x x := by
  rcases x with _ | _ | _ <;> simp [Opp]

lemma Opp.neg_self (x : Fp f) : Opp true x x.neg := by
  rcases x with _ | _ | _ <;> simp [Opp, Fp.neg]

lemma opp_ofRat (s a b : Bool) (q r : ℚ) (h : r = if s then -q else q) :
    Opp s (ofRat a q : Fp f) (ofRat b r) := by
  subst h
  unfold ofRat
  cases s
  · simp only [Bool.false_eq_true, if_false]
    split_ifs <;> simp [Opp]
  · simp only [if_true, Fmt.rnd_neg, abs_neg]
    by_cases c : |f.rnd q| < 2 ^ f.emax
    · rw [dif_pos c, dif_pos c]; simp [Opp]
    · rw [dif_neg c, dif_neg c]
      have hq : q ≠ 0 := by
        rintro rfl
        apply c
        have : f.rnd 0 = 0 := Fmt.rnd_of_rep (Fmt.rep_int (n := 0) (by simp)) |>.trans (by simp)
        rw [this, abs_zero]; positivity
      simp only [Opp, Bool.xor_true]
      rcases lt_or_gt_of_ne hq with h | h
      · simp [h, not_lt.mpr h.le]
      · simp [h, not_lt.mpr h.le]

variable {s t : Bool} {x x' y y' : Fp f}

lemma Opp.neg (h : Opp s x x') : Opp s x.neg x'.neg := by
  rcases x with _ | a | ⟨q, _, _, _⟩ <;> rcases x' with _ | a' | ⟨q', _, _, _⟩ <;> simp only [Opp] at h
  · trivial
  · cases a <;> cases a' <;> cases s <;> simp_all [Opp, Fp.neg]
  · cases s <;> simp_all [Opp, Fp.neg]

lemma Opp.add (h : Opp s x x') (g : Opp s y y') : Opp s (x.add y) (x'.add y') := by
  rcases x with _ | a | ⟨q, _, _, _⟩ <;> rcases x' with _ | a' | ⟨q', _, _, _⟩ <;> simp only [Opp] at h <;>
    rcases y with _ | b | ⟨r, _, _, _⟩ <;> rcases y' with _ | b' | ⟨r', _, _, _⟩ <;> simp only [Opp] at g <;>
    simp only [Fp.add, Opp]
  · subst h g
    cases a <;> cases b <;> cases s <;> simp
  · exact h
  · exact g
  · apply opp_ofRat
    subst h g
    cases s <;> simp [add_comm]

lemma Opp.sub (h : Opp s x x') (g : Opp s y y') : Opp s (x.sub y) (x'.sub y') := h.add g.neg

lemma opp_sgn {q r : ℚ} {nz nz' h1 h2 h3 h4} (h : Opp s (.fin q nz h1 h2 : Fp f) (.fin r nz' h3 h4)) (h0 : q ≠ 0) :
    sgn (.fin r nz' h3 h4 : Fp f) = (sgn (.fin q nz h1 h2 : Fp f) ^^ s) := by
  simp only [Opp] at h
  have hr : r ≠ 0 := by cases s <;> simp_all
  have e1 : nz = false := by cases nz <;> simp_all
  have e2 : nz' = false := by cases nz' <;> simp_all
  subst e1 e2 h
  simp only [sgn, Bool.false_or]
  cases s
  · simp
  · simp only [if_true, Bool.xor_true]
    rcases lt_or_gt_of_ne h0 with h | h
    · simp [h, not_lt.mpr h.le]
    · simp [h, not_lt.mpr h.le]

lemma Opp.mul (h : Opp s x x') (g : Opp t y y') : Opp (s ^^ t) (x.mul y) (x'.mul y') := by
  rcases x with _ | a | ⟨q, _, _, _⟩ <;> rcases x' with _ | a' | ⟨q', _, _, _⟩ <;> try exact h.elim
  · exact (by rcases y with _ | _ | _ <;> rcases y' with _ | _ | _ <;> trivial)
  · rcases y with _ | b | ⟨r, _, _, _⟩ <;> rcases y' with _ | b' | ⟨r', _, _, _⟩ <;> try exact g.elim
    · trivial
    · simp only [Opp] at h g
      subst h g
      simp only [Fp.mul, Opp]
      cases a <;> cases b <;> cases s <;> cases t <;> rfl
    · simp only [Fp.mul]
      by_cases hr : r = 0
      · have : r' = 0 := by simp only [Opp] at g; cases t <;> simp_all
        rw [if_pos hr, if_pos this]; trivial
      · have : r' ≠ 0 := by simp only [Opp] at g; cases t <;> simp_all
        rw [if_neg hr, if_neg this, opp_sgn g hr]
        simp only [Opp] at h ⊢
        subst h
        generalize sgn _ = z
        cases a <;> cases s <;> cases t <;> cases z <;> rfl
  · rcases y with _ | b | ⟨r, _, _, _⟩ <;> rcases y' with _ | b' | ⟨r', _, _, _⟩ <;> try exact g.elim
    · trivial
    · simp only [Fp.mul]
      by_cases hr : q = 0
      · have : q' = 0 := by simp only [Opp] at h; cases s <;> simp_all
        rw [if_pos hr, if_pos this]; trivial
      · have : q' ≠ 0 := by simp only [Opp] at h; cases s <;> simp_all
        rw [if_neg hr, if_neg this, opp_sgn h hr]
        simp only [Opp] at g ⊢
        subst g
        generalize sgn _ = z
        cases b <;> cases s <;> cases t <;> cases z <;> rfl
    · apply opp_ofRat
      simp only [Opp] at h g
      subst h g
      cases s <;> cases t <;> simp

/-- Division by a number that is not zero. -/
lemma Opp.div (h : Opp s x x') (g : Opp t y y') (h0 : y.eq (lit 0) = false) :
    Opp (s ^^ t) (x.div y) (x'.div y') := by
  rcases x with _ | a | ⟨q, _, _, _⟩ <;> rcases x' with _ | a' | ⟨q', _, _, _⟩ <;> try exact h.elim
  · exact (by rcases y with _ | _ | _ <;> rcases y' with _ | _ | _ <;> trivial)
  · rcases y with _ | b | ⟨r, _, _, _⟩ <;> rcases y' with _ | b' | ⟨r', _, _, _⟩ <;> try exact g.elim
    · trivial
    · trivial
    · have hr : r ≠ 0 := by
        rintro rfl
        rw [Is.eq ⟨_, _, _, rfl⟩ (show (lit 0 : Fp f).Is 0 from ofRat_is_rep (Fmt.rep_int (n := 0) (by simp)))] at h0
        simp at h0
      simp only [Fp.div]
      rw [opp_sgn g hr]
      simp only [Opp] at h ⊢
      subst h
      generalize sgn _ = z
      cases a <;> cases s <;> cases t <;> cases z <;> rfl
  · rcases y with _ | b | ⟨r, _, _, _⟩ <;> rcases y' with _ | b' | ⟨r', _, _, _⟩ <;> try exact g.elim
    · trivial
    · apply opp_ofRat; simp
    · have hr : r ≠ 0 := by
        rintro rfl
        rw [Is.eq ⟨_, _, _, rfl⟩ (show (lit 0 : Fp f).Is 0 from ofRat_is_rep (Fmt.rep_int (n := 0) (by simp)))] at h0
        simp at h0
      have : r' ≠ 0 := by simp only [Opp] at g; cases t <;> simp_all
      simp only [Fp.div]
      rw [if_neg hr, if_neg this]
      apply opp_ofRat
      simp only [Opp] at h g
      subst h g
      cases s <;> cases t <;> simp [neg_div, div_neg]

/-- Division by the same number. -/
lemma Opp.div_same (h : Opp s x x') (y : Fp f) : Opp s (x.div y) (x'.div y) := by
  rcases x with _ | a | ⟨q, _, _, _⟩ <;> rcases x' with _ | a' | ⟨q', _, _, _⟩ <;> try exact h.elim
  · exact (by rcases y with _ | _ | _ <;> trivial)
  · rcases y with _ | b | ⟨r, _, _, _⟩
    · trivial
    · trivial
    · simp only [Opp] at h
      subst h
      simp only [Fp.div, Opp]
      generalize sgn _ = z
      cases a <;> cases s <;> cases z <;> rfl
  · rcases y with _ | b | ⟨r, _, _, _⟩
    · trivial
    · apply opp_ofRat; simp
    · simp only [Fp.div]
      by_cases hr : r = 0
      · rw [if_pos hr, if_pos hr]
        by_cases hq : q = 0
        · have : q' = 0 := by simp only [Opp] at h; cases s <;> simp_all
          rw [if_pos hq, if_pos this]; trivial
        · have : q' ≠ 0 := by simp only [Opp] at h; cases s <;> simp_all
          rw [if_neg hq, if_neg this, opp_sgn h hq]
          simp only [Opp]
          generalize sgn _ = z
          generalize sgn _ = w
          cases w <;> cases s <;> cases z <;> rfl
      · rw [if_neg hr, if_neg hr]
        apply opp_ofRat
        simp only [Opp] at h
        subst h
        cases s <;> simp [neg_div]

lemma Opp.abs_eq (h : Opp s x x') : x.abs = x'.abs := by
  rcases x with _ | a | ⟨q, _, _, _⟩ <;> rcases x' with _ | a' | ⟨q', _, _, _⟩ <;> try exact h.elim
  · rfl
  · rfl
  · simp only [Opp] at h
    cases s <;> simp_all [Fp.abs]

lemma Opp.mul_self (h : Opp s x x') : x.mul x = x'.mul x' := by
  rcases x with _ | a | ⟨q, nz, _, hz⟩ <;> rcases x' with _ | a' | ⟨q', nz', _, hz'⟩ <;> try exact h.elim
  · rfl
  · cases a <;> cases a' <;> rfl
  · simp only [Opp] at h
    simp only [Fp.mul, Bool.xor_self]
    subst h
    cases s <;> simp

lemma Opp.lt_eq (h : Opp false x x') (g : Opp false y y') : x.lt y = x'.lt y' := by
  rcases x with _ | a | ⟨q, _, _, _⟩ <;> rcases x' with _ | a' | ⟨q', _, _, _⟩ <;> simp only [Opp] at h <;>
    rcases y with _ | b | ⟨r, _, _, _⟩ <;> rcases y' with _ | b' | ⟨r', _, _, _⟩ <;> simp only [Opp] at g <;>
    simp_all [Fp.lt]

lemma zero_is' : (lit 0 : Fp f).Is 0 := ofRat_is_rep (Fmt.rep_int (n := 0) (by simp))

lemma Opp.eq_zero (h : Opp s x x') : x.eq (lit 0) = x'.eq (lit 0) := by
  rcases x with _ | a | ⟨q, _, _, _⟩ <;> rcases x' with _ | a' | ⟨q', _, _, _⟩ <;> try exact h.elim
  · rfl
  · obtain ⟨_, _, _, e⟩ := zero_is' (f := f)
    rw [e]; rfl
  · rw [Is.eq ⟨_, _, _, rfl⟩ zero_is', Is.eq ⟨_, _, _, rfl⟩ zero_is']
    simp only [Opp] at h
    cases s <;> simp_all

lemma Opp.signum (h : Opp s x x') (hn : x.isNaN = false) : Opp s (f32Signum x) (f32Signum x') := by
  unfold f32Signum
  have e := h.eq_zero
  change x.eq (lit 0) = x'.eq (lit 0) at e
  change Opp s (if x.eq (lit 0) = true then _ else if Fp.lt (lit 0) x = true then _ else _)
    (if x'.eq (lit 0) = true then _ else if Fp.lt (lit 0) x' = true then _ else _)
  rw [← e]
  split_ifs with h1 h2 h3 h3
  · exact opp_ofRat _ _ _ _ _ (by simp)
  · cases s
    · exact Opp.refl _
    · exfalso
      rcases x with _ | a | ⟨q, _, _, _⟩ <;> rcases x' with _ | a' | ⟨q', _, _, _⟩ <;> try exact h.elim
      · cases hn
      · obtain ⟨_, _, _, e⟩ := zero_is' (f := f)
        rw [e] at h2 h3
        simp only [Opp] at h
        cases a <;> simp_all [Fp.lt]
      · rw [zero_is'.lt ⟨_, _, _, rfl⟩] at h2 h3
        simp only [Opp] at h
        simp_all
        linarith
  · cases s
    · exfalso
      rw [Opp.lt_eq (Opp.refl _) h] at h2
      exact h3 h2
    · exact opp_ofRat _ _ _ _ _ (by simp)
  · cases s
    · exfalso
      rw [Opp.lt_eq (Opp.refl _) h] at h2
      exact h2 h3
    · exact opp_ofRat _ _ _ _ _ (by simp)
  · cases s
    · exact Opp.refl _
    · exfalso
      rcases x with _ | a | ⟨q, _, _, _⟩ <;> rcases x' with _ | a' | ⟨q', _, _, _⟩ <;> try exact h.elim
      · cases hn
      · obtain ⟨_, _, _, e⟩ := zero_is' (f := f)
        rw [e] at h2 h3
        simp only [Opp] at h
        cases a <;> simp_all [Fp.lt]
      · rw [Is.eq ⟨_, _, _, rfl⟩ zero_is'] at h1
        rw [zero_is'.lt ⟨_, _, _, rfl⟩] at h2 h3
        simp only [Opp] at h
        simp at h1 h2 h3 h
        exact h1 (le_antisymm h2 (by linarith))

lemma roundAway_neg (q : ℚ) : roundAway (-q) = - roundAway q := by
  unfold roundAway
  rcases lt_trichotomy q 0 with h | h | h
  · rw [if_pos (by linarith), if_neg (by linarith)]; simp
  · subst h; simp; norm_num
  · rw [if_neg (by linarith), if_pos h.le]; simp

/-- The cell coordinate of the opposite quotient, when the conversion does not saturate. -/
lemma Opp.cell (h : Opp s x x') (h1 : isizeMin < x.round.toInt) (h2 : x.round.toInt < isizeMax) :
    x'.round.toInt = if s then -x.round.toInt else x.round.toInt := by
  rcases x with _ | a | ⟨q, _, _, _⟩ <;> rcases x' with _ | a' | ⟨q', _, _, _⟩ <;> try exact h.elim
  · cases s <;> rfl
  · exfalso
    cases a
    · exact lt_irrefl _ h2
    · exact lt_irrefl _ h1
  · rw [Is.round_toInt ⟨_, _, _, rfl⟩] at *
    rw [Is.round_toInt ⟨_, _, _, rfl⟩] at *
    simp only [Opp] at h
    unfold clampIsize isizeMin isizeMax at *
    subst h
    cases s
    · simp
    · simp only [if_true, roundAway_neg]
      omega

end Fp

/-! ## Rays -/

open Spec Scalar
open Fp (Opp)

variable {D : ℕ} {f : Fmt} {σ : Fin D → Bool} {o e o' e' b b' : Point D (Fp f)} {r ml : Fp f}

lemma isz_opp {s : Bool} {n : ℤ} (h1 : isizeMin < n) (h2 : n ≤ isizeMax) :
    isz (if s then -n else n) = .ok (if s then -n else n) := by
  refine isz_ok.mpr ⟨rfl, ?_⟩
  unfold InIsize
  unfold isizeMin isizeMax at *
  split_ifs <;> omega

lemma normSquared_opp {v w : Point D (Fp f)} (h : ∀ i, Opp (σ i) (v i) (w i)) :
    normSquared v = normSquared w := by
  have e : ∀ i, v i *. v i = w i *. w i := fun i => (h i).mul_self
  match D, v, w, e with
  | 0, _, _, _ => rfl
  | 1, _, _, _ => rfl
  | 2, v, w, e => simp only [normSquared, e]
  | 3, v, w, e => simp only [normSquared, e]
  | _ + 4, _, _, _ => rfl

lemma selDim_opp {v w : Point D (Fp f)} (h : ∀ i, Opp false (v i) (w i)) : selDim v = selDim w := by
  have e : ∀ i j, (v i <. v j) = (w i <. w j) := fun i j => (h i).lt_eq (h j)
  match D, v, w, e with
  | 0, _, _, _ => rfl
  | 1, _, _, _ => rfl
  | 2, v, w, e => simp only [selDim, e]
  | 3, v, w, e => simp only [selDim, e]
  | _ + 4, _, _, _ => rfl

lemma pointFromCell_opp (hb : ∀ i, Opp (σ i) (b i) (b' i)) (c : Cell D) (i : Fin D) :
    Opp (σ i) (pointFromCell c b r i) (pointFromCell (mirCell σ c) b' r i) := by
  have h : Opp (σ i) (Fp.ofInt (c i) : Fp f) (Fp.ofInt (mirCell σ c i)) := by
    apply Fp.opp_ofRat
    unfold mirCell
    split_ifs <;> simp
  have := (h.mul (Opp.refl r))
  rw [Bool.xor_false] at this
  exact this.add (hb i)

lemma rayDir_opp (ho : ∀ i, Opp (σ i) (o i) (o' i)) (he : ∀ i, Opp (σ i) (e i) (e' i)) (i : Fin D) :
    Opp (σ i) (rayDir o e i) (rayDir o' e' i) := by
  have h : ∀ i, Opp (σ i) (e i -. o i) (e' i -. o' i) := fun i => (he i).sub (ho i)
  have hn : norm (fun i => e i -. o i) = norm (fun i => e' i -. o' i) := by
    unfold norm; rw [normSquared_opp h]
  unfold rayDir
  simp only [hn]
  exact (h i).div_same _

lemma cellFromPoint_opp (hp : ∀ i, Opp (σ i) (o i) (o' i)) (hb : ∀ i, Opp (σ i) (b i) (b' i))
    (h : Mirrorable (cellFromPoint o b r)) : cellFromPoint o' b' r = mirCell σ (cellFromPoint o b r) := by
  funext i
  obtain ⟨h1, h2⟩ := h i
  exact (((hp i).sub (hb i)).div_same r).cell (lt_of_le_of_lt (by omega) h1) h2

/-- Two loop contexts that are mirror images. -/
structure MirCtx (σ : Fin D → Bool) (c c' : RayCtx D (Fp f)) : Prop where
  origin : ∀ i, Opp (σ i) (c.origin i) (c'.origin i)
  boundsMin : ∀ i, Opp (σ i) (c.boundsMin i) (c'.boundsMin i)
  resolution : c'.resolution = c.resolution
  maxLen : c'.maxLen = c.maxLen
  step : ∀ i, toInt (c'.step i) = if σ i then -toInt (c.step i) else toInt (c.step i)
  unit : ∀ i, |toInt (c.step i)| ≤ 1
  tDelta : ∀ i, Opp false (c.tDelta i) (c'.tDelta i)
  endCell : c'.endCell = mirCell σ c.endCell

lemma mirCell_inj {c d : Cell D} : mirCell σ c = mirCell σ d ↔ c = d := by
  constructor
  · intro h
    funext i
    have := congrFun h i
    unfold mirCell at this
    split_ifs at this <;> omega
  · rintro rfl; rfl

lemma mirCell_update (c : Cell D) (i : Fin D) (x : ℤ) :
    Function.update (mirCell σ c) i (if σ i then -x else x) = mirCell σ (Function.update c i x) := by
  funext j
  unfold mirCell
  by_cases h : j = i
  · subst h; simp
  · simp [Function.update_of_ne h]

lemma tooFar_opp {c c' : RayCtx D (Fp f)} (h : MirCtx σ c c') (x : Cell D) :
    c'.tooFar (mirCell σ x) = c.tooFar x := by
  unfold RayCtx.tooFar
  rw [h.maxLen, h.resolution]
  congr 2
  refine (normSquared_opp (σ := σ) fun i => ?_).symm
  exact (pointFromCell_opp h.boundsMin x i).sub (h.origin i)

lemma castLoop_opp {c c' : RayCtx D (Fp f)} (h : MirCtx σ c c') {n : ℕ} :
    ∀ {cell : Cell D} {t t' : Point D (Fp f)} {rest x}, (∀ i, Opp false (t i) (t' i)) → Mirrorable cell →
      (∀ z ∈ rest, Mirrorable z) → castLoop c n cell t = .ok (rest, x) →
      castLoop c' n (mirCell σ cell) t' = .ok (rest.map (mirCell σ), x.map (mirCell σ)) := by
  induction n with
  | zero => intro cell t t' rest x _ _ _ hl; cases hl
  | succ n ih =>
    intro cell t t' rest x ht hc hr hl
    unfold castLoop at hl ⊢
    rw [← selDim_opp ht]
    split at hl
    · cases hl
    · rename_i dim hd
      obtain ⟨y, hy, hl⟩ := M.bind_eq_ok.mp hl
      obtain ⟨rfl, -⟩ := isz_ok.mp hy
      have hs : mirCell σ cell dim + toInt (c'.step dim) =
          if σ dim then -(cell dim + toInt (c.step dim)) else cell dim + toInt (c.step dim) := by
        rw [h.step]; unfold mirCell; split_ifs <;> ring
      have hu := abs_le.mp (h.unit dim)
      obtain ⟨c1, c2⟩ := hc dim
      simp only [hs]
      rw [isz_opp (by omega) (by omega)]
      simp only [M.bind_ok]
      simp only [mirCell_update, h.endCell, mirCell_inj, tooFar_opp h]
      dsimp only at hl
      split_ifs at hl ⊢ with k1 k2
      · cases hl; rfl
      · cases hl; rfl
      · obtain ⟨⟨rest', x'⟩, h3, h4⟩ := M.bind_eq_ok.mp hl
        cases h4
        rw [ih (t' := Function.update t' dim (t' dim +. c'.tDelta dim)) ?_ ?_ ?_ h3]
        · rfl
        · intro i
          by_cases hi : i = dim
          · subst hi
            rw [Function.update_self, Function.update_self]
            exact (ht i).add (h.tDelta i)
          · simpa [Function.update_of_ne hi] using ht i
        · exact hr _ (by simp)
        · exact fun z hz => hr z (by simp [hz])

lemma signum_eq_zero {x : Fp f} (h : (f32Signum x ==. lit 0) = false) : x.eq (Fp.lit 0) = false := by
  by_contra hc
  rw [Bool.not_eq_false] at hc
  unfold f32Signum at h
  rw [if_pos (show (x ==. lit 0) = true from hc)] at h
  have : (Fp.lit 0 : Fp f).eq (Fp.lit 0) = true := by rw [Fp.zero_is'.eq Fp.zero_is']; simp
  exact absurd (h.symm.trans this) (by simp)

lemma tMax0_opp {s : Bool} {d d' o o' b b' : Fp f} {n n' : ℤ} (hd : Opp s d d') (hn : d.isNaN = false)
    (ho : Opp s o o') (hb : Opp s b b') (hc : n' = if s then -n else n) :
    Opp false (tMax0 (f32Signum d) d o b r n) (tMax0 (f32Signum d') d' o' b' r n') := by
  have hs := hd.signum hn
  unfold tMax0
  have e : (f32Signum d ==. lit 0) = (f32Signum d' ==. lit 0) := hs.eq_zero
  rw [← e]
  split_ifs with h0
  · exact Opp.refl _
  · have h1 : Opp s (Fp.ofInt n : Fp f) (Fp.ofInt n') := by
      apply Fp.opp_ofRat
      subst hc
      split_ifs <;> simp
    have h2 := h1.mul (Opp.refl r)
    have h3 := (hs.mul (Opp.refl r)).mul (Opp.refl (Fp.lit (1/2) : Fp f))
    rw [Bool.xor_false] at h2
    rw [Bool.xor_false, Bool.xor_false] at h3
    have h4 := (((h2.add hb).add h3).sub ho).div hd (signum_eq_zero (by simpa using h0))
    rw [Bool.xor_self] at h4
    exact h4

lemma rayCtx_opp [ScalarLaws (Fp f)] {mb mb' : Point D (Fp f)} (ho : ∀ i, Opp (σ i) (o i) (o' i))
    (he : ∀ i, Opp (σ i) (e i) (e' i)) (hb : ∀ i, Opp (σ i) (b i) (b' i))
    (hn : ∀ i, (rayDir o e i).isNaN = false) (hc : Mirrorable (cellFromPoint e b r)) :
    MirCtx σ (rayCtx o e ⟨b, mb⟩ r ml) (rayCtx o' e' ⟨b', mb'⟩ r ml) where
  origin := ho
  boundsMin := hb
  resolution := rfl
  maxLen := rfl
  step i := by
    have h := (rayDir_opp ho he i).signum (hn i)
    simp only [rayCtx, vecSignum]
    rcases signum_cases (rayDir o e i) with h1 | h1 | h1 <;> rcases signum_cases (rayDir o' e' i) with h2 | h2 | h2
    all_goals
      rw [h1, h2] at h
      rw [h1, h2]
      simp only [ScalarLaws.toInt_zero, ScalarLaws.toInt_one, ScalarLaws.toInt_neg_one]
    all_goals
      have i0 : (lit 0 : Fp f).Is 0 := Fp.zero_is'
      have i1 : (lit 1 : Fp f).Is ((1 : ℤ) : ℚ) := by
        have := Fp.is_ofInt (f := f) (n := 1) (by simpa using one_le_pow₀ (by norm_num : (1 : ℤ) ≤ 2))
        simpa [Fp.ofInt, Fp.lit, lit] using this
      have i2 : (lit (-1) : Fp f).Is ((-1 : ℤ) : ℚ) := by
        have := Fp.is_ofInt (f := f) (n := -1) (by simpa using one_le_pow₀ (by norm_num : (1 : ℤ) ≤ 2))
        simpa [Fp.ofInt, Fp.lit, lit] using this
      obtain ⟨_, _, _, e0⟩ := i0
      obtain ⟨_, _, _, e1⟩ := i1
      obtain ⟨_, _, _, e2⟩ := i2
      simp only [e0, e1, e2, Opp] at h
      split_ifs at h ⊢ <;> first | rfl | (exfalso; revert h; norm_num)
  unit i := by
    simp only [rayCtx, vecSignum]
    rcases signum_cases (rayDir o e i) with h | h | h <;>
      rw [h] <;> simp [ScalarLaws.toInt_zero, ScalarLaws.toInt_one, ScalarLaws.toInt_neg_one]
  tDelta i := by
    have hd := rayDir_opp ho he i
    have hs := hd.signum (hn i)
    change Opp false (tDelta0 (f32Signum (rayDir o e i)) (rayDir o e i) r)
      (tDelta0 (f32Signum (rayDir o' e' i)) (rayDir o' e' i) r)
    unfold tDelta0
    have e1 : (f32Signum (rayDir o e i) ==. lit 0) = (f32Signum (rayDir o' e' i) ==. lit 0) := hs.eq_zero
    have e2 : Scalar.abs (rayDir o e i) = Scalar.abs (rayDir o' e' i) := hd.abs_eq
    rw [e1, e2]
    exact Opp.refl _
  endCell := cellFromPoint_opp he hb hc

end Verif
