import Verif.Lemmas.Scale
import Verif.Props.RayWide

/-!
# `cast_ray` in another unit of length
-/

namespace Verif
open Spec Scalar

/-- The value `q` of `x`, and `q * 2 ^ k` of `y`: bounded and on a grid. -/
structure Unit2 (k g B : ℤ) (q : ℚ) (x y : F32) : Prop where
  fst : x.Is q
  snd : y.Is (q * 2 ^ k)
  le : |q| ≤ 2 ^ B
  le' : |q * 2 ^ k| ≤ 2 ^ B
  grid : OnGrid g q
  grid' : OnGrid g (q * 2 ^ k)

variable {k l g h B C E : ℤ} {q s : ℚ} {x x' y y' : F32}

lemma Unit2.mono (a : Unit2 k g B q x x') (hg : h ≤ g) (hB : B ≤ C) : Unit2 k h C q x x' :=
  ⟨a.fst, a.snd, a.le.trans (two_zpow_le hB), a.le'.trans (two_zpow_le hB), a.grid.mono hg, a.grid'.mono hg⟩

lemma Unit2.tight (a : Unit2 k g B q x x') (h1 : |q| ≤ 2 ^ C) (h2 : |q * 2 ^ k| ≤ 2 ^ C) : Unit2 k g C q x x' :=
  ⟨a.fst, a.snd, h1, h2, a.grid, a.grid'⟩

lemma Unit2.neg (a : Unit2 k g B q x x') : Unit2 k g B (-q) x.neg x'.neg :=
  ⟨a.fst.neg, by rw [neg_mul]; exact a.snd.neg, by rw [abs_neg]; exact a.le, by rw [neg_mul, abs_neg]; exact a.le',
    a.grid.neg, by rw [neg_mul]; exact a.grid'.neg⟩

lemma pow_succ_le {a b : ℚ} (ha : |a| ≤ 2 ^ B) (hb : |b| ≤ 2 ^ B) : |a + b| ≤ 2 ^ (B + 1) := by
  rw [two_zpow_add]
  have := abs_add_le a b
  norm_num
  linarith

lemma qmin_b32 : b32.qmin = -149 := rfl

lemma Unit2.add (a : Unit2 k g B q x x') (b : Unit2 k g B s y y') (hB : 0 ≤ B) (hB' : B ≤ 126) :
    Unit2 k g (B + 1) (b32.rnd (q + s)) (x.add y) (x'.add y') := by
  have h1 := pow_succ_le a.le b.le
  have h2 := pow_succ_le a.le' b.le'
  rw [← add_mul] at h2
  obtain ⟨h3, h4⟩ := F32.pow_up (by omega) (by omega) h1
  obtain ⟨h5, h6⟩ := F32.pow_up (by omega) (by omega) h2
  have e : b32.rnd ((q + s) * 2 ^ k) = b32.rnd (q + s) * 2 ^ k :=
    Fmt.rnd_scale_grid ((OnGrid.of_rep a.fst.rep).add (OnGrid.of_rep b.fst.rep))
      (by rw [add_mul]; exact (OnGrid.of_rep a.snd.rep).add (OnGrid.of_rep b.snd.rep))
  refine ⟨a.fst.add b.fst h3, ?_, h4, ?_, Fmt.grid_rnd (a.grid.add b.grid), ?_⟩
  · rw [← e]
    have := a.snd.add b.snd (by rw [← add_mul]; exact h5)
    rwa [← add_mul] at this
  · rw [← e]; exact h6
  · rw [← e]
    exact Fmt.grid_rnd (by rw [add_mul]; exact a.grid'.add b.grid')

lemma Unit2.sub (a : Unit2 k g B q x x') (b : Unit2 k g B s y y') (hB : 0 ≤ B) (hB' : B ≤ 126) :
    Unit2 k g (B + 1) (b32.rnd (q - s)) (x.sub y) (x'.sub y') := by
  rw [sub_eq_add_neg]
  exact a.add b.neg hB hB'

/-- A product or a quotient: not zero by underflow. -/
lemma scale_big {v : ℚ} (h : v = 0 ∨ 2 ^ (-126 : ℤ) ≤ |v|) (h' : v * 2 ^ k = 0 ∨ 2 ^ (-126 : ℤ) ≤ |v * 2 ^ k|) :
    b32.rnd (v * 2 ^ k) = b32.rnd v * 2 ^ k := by
  rcases h with rfl | h
  · rw [zero_mul, F32.rnd_zero, zero_mul]
  · rcases h' with h' | h'
    · rcases mul_eq_zero.mp h' with rfl | h''
      · rw [zero_mul, F32.rnd_zero, zero_mul]
      · exact absurd h'' (two_zpow_pos k).ne'
    · exact Fmt.rnd_scale h h'

lemma Unit2.mul (a : Unit2 k g B q x x') (b : Unit2 l h C s y y') (hg : -126 ≤ g + h) (hE : 0 ≤ E) (hE' : E ≤ 127)
    (h1 : |q * s| ≤ 2 ^ E) (h2 : |q * s * 2 ^ (k + l)| ≤ 2 ^ E) :
    Unit2 (k + l) (g + h) E (b32.rnd (q * s)) (x.mul y) (x'.mul y') := by
  obtain ⟨h3, h4⟩ := F32.pow_up (by omega) (by omega) h1
  obtain ⟨h5, h6⟩ := F32.pow_up (by omega) (by omega) h2
  have ee : q * s * 2 ^ (k + l) = q * 2 ^ k * (s * 2 ^ l) := by rw [two_zpow_add]; ring
  have g1 := a.grid.mul b.grid
  have g2 := a.grid'.mul b.grid'
  rw [← ee] at g2
  have e : b32.rnd (q * s * 2 ^ (k + l)) = b32.rnd (q * s) * 2 ^ (k + l) := by
    refine scale_big ?_ ?_
    · rcases eq_or_ne (q * s) 0 with c | c
      · exact .inl c
      · exact .inr ((two_zpow_le hg).trans (g1.le c))
    · rcases eq_or_ne (q * s * 2 ^ (k + l)) 0 with c | c
      · exact .inl c
      · exact .inr ((two_zpow_le hg).trans (g2.le c))
  refine ⟨a.fst.mul b.fst h3, ?_, h4, by rw [← e]; exact h6, Fmt.grid_rnd g1, by rw [← e]; exact Fmt.grid_rnd g2⟩
  rw [← e]
  have := a.snd.mul b.snd (by rw [← ee]; exact h5)
  rwa [← ee] at this

lemma pow_mul_le {a b : ℚ} (ha : |a| ≤ 2 ^ B) (hb : |b| ≤ 2 ^ C) : |a * b| ≤ 2 ^ (B + C) := by
  rw [abs_mul, two_zpow_add]
  gcongr

/-- With the obvious bound. -/
lemma Unit2.mul' (a : Unit2 k g B q x x') (b : Unit2 l h C s y y') (hg : -126 ≤ g + h) (hE : 0 ≤ B + C) (hE' : B + C ≤ 127) :
    Unit2 (k + l) (g + h) (B + C) (b32.rnd (q * s)) (x.mul y) (x'.mul y') := by
  refine a.mul b hg hE hE' (pow_mul_le a.le b.le) ?_
  rw [show q * s * 2 ^ (k + l) = q * 2 ^ k * (s * 2 ^ l) by rw [two_zpow_add]; ring]
  exact pow_mul_le a.le' b.le'

/-- A number that is no length. -/
lemma Unit2.same (h1 : x.Is q) (h2 : y.Is q) (hB : |q| ≤ 2 ^ B) (hg : OnGrid g q) : Unit2 0 g B q x y :=
  ⟨h1, by simpa using h2, hB, by simpa using hB, hg, by simpa using hg⟩

lemma Unit2.lt_eq (a : Unit2 k g B q x x') (b : Unit2 k h C s y y') : x.lt y = x'.lt y' := by
  rw [a.fst.lt b.fst, a.snd.lt b.snd]
  simp only [mul_lt_mul_iff_left₀ (two_zpow_pos k)]

lemma Unit2.eq_eq (a : Unit2 k g B q x x') (b : Unit2 k h C s y y') : x.eq y = x'.eq y' := by
  rw [a.fst.eq b.fst, a.snd.eq b.snd]
  simp only [mul_left_inj' (two_zpow_pos k).ne']

lemma Unit2.le_eq (a : Unit2 k g B q x x') (b : Unit2 k h C s y y') : x.le y = x'.le y' := by
  unfold Fp.le; rw [a.lt_eq b, a.eq_eq b]

lemma Unit2.zero (k g B : ℤ) : Unit2 k g B 0 (Fp.lit 0 : F32) (Fp.lit 0) :=
  ⟨F32.zero_is, by simpa using F32.zero_is, by rw [abs_zero]; positivity, by rw [zero_mul, abs_zero]; positivity,
    ⟨0, by simp⟩, ⟨0, by simp⟩⟩

/-- The quotient of two lengths is no length: the same rounded rational. -/
lemma Unit2.quot (a : Unit2 k g B q x x') (b : Unit2 k h C s y y') (hs : s ≠ 0) (hh : B - h ≤ 127) :
    (x.div y).Is (b32.rnd (q / s)) ∧ (x'.div y').Is (b32.rnd (q / s)) := by
  have hk := (two_zpow_pos k).ne'
  have e : q * 2 ^ k / (s * 2 ^ k) = q / s := by field_simp
  have hb : |q / s| ≤ 2 ^ (127 : ℤ) := by
    have h1 := b.grid.le hs
    have h2 := a.le
    have hp := two_zpow_pos h
    rw [abs_div, div_le_iff₀ (lt_of_lt_of_le hp h1)]
    calc |q| ≤ 2 ^ B := h2
      _ ≤ 2 ^ (127 + h) := two_zpow_le (by omega)
      _ = 2 ^ (127 : ℤ) * 2 ^ h := two_zpow_add _ _
      _ ≤ _ := by gcongr
  have hov := (F32.pow_up (by norm_num) le_rfl hb).1
  refine ⟨a.fst.div b.fst hs hov, ?_⟩
  have := a.snd.div b.snd (mul_ne_zero hs hk) (by rw [e]; exact hov)
  rwa [e] at this

/-- A length divided by a number that is no length. -/
lemma Unit2.div (a : Unit2 k g B q x x') (h1 : y.Is s) (h2 : y'.Is s) (hlo : 2 ^ (-h) ≤ |s|) (hhi : |s| ≤ 4)
    (hg : -124 ≤ g) (hB : 0 ≤ B + h) (hB' : B + h ≤ 127) :
    ∃ t, (x.div y).Is t ∧ (x'.div y').Is (t * 2 ^ k) ∧ |t| ≤ 2 ^ (B + h) ∧ |t * 2 ^ k| ≤ 2 ^ (B + h) := by
  have hsp : 0 < |s| := lt_of_lt_of_le (two_zpow_pos _) hlo
  have hs : s ≠ 0 := abs_pos.mp hsp
  have hle : ∀ {v : ℚ}, |v| ≤ 2 ^ B → |v / s| ≤ 2 ^ (B + h) := by
    intro v hv
    rw [abs_div, div_le_iff₀ hsp]
    calc |v| ≤ 2 ^ B := hv
      _ = 2 ^ (B + h) * 2 ^ (-h) := by rw [← two_zpow_add]; congr 1; ring
      _ ≤ _ := by gcongr
  have hlow : ∀ {v : ℚ}, OnGrid g v → v / s = 0 ∨ 2 ^ (-126 : ℤ) ≤ |v / s| := by
    intro v hv
    rcases eq_or_ne v 0 with rfl | c
    · left; simp
    · right
      have := hv.le c
      rw [abs_div, le_div_iff₀ hsp]
      calc (2 : ℚ) ^ (-126 : ℤ) * |s| ≤ 2 ^ (-126 : ℤ) * 4 := by gcongr
        _ = 2 ^ (-124 : ℤ) := by norm_num
        _ ≤ 2 ^ g := two_zpow_le hg
        _ ≤ |v| := this
  have e0 : q * 2 ^ k / s = q / s * 2 ^ k := by ring
  have e : b32.rnd (q / s * 2 ^ k) = b32.rnd (q / s) * 2 ^ k :=
    scale_big (hlow a.grid) (by rw [← e0]; exact hlow a.grid')
  obtain ⟨b1, b2⟩ := F32.pow_up (by omega) (by omega) (hle a.le)
  obtain ⟨b3, b4⟩ := F32.pow_up (by omega) (by omega) (hle a.le')
  rw [e0, e] at b3 b4
  refine ⟨b32.rnd (q / s), a.fst.div h1 hs b1, ?_, b2, b4⟩
  have := a.snd.div h2 hs (by rw [e0, e]; exact b3)
  rwa [e0, e] at this

/-! ## Cells and points -/

lemma cell_abs_le (p b r : F32) : |cellCoordFromPointCoord p b r| ≤ 2 ^ 63 := by
  have : ∀ z : F32, |z.toInt| ≤ 2 ^ 63 := by
    intro z
    match z with
    | .nan => simp [Fp.toInt]
    | .inf true => simp [Fp.toInt, isizeMin]
    | .inf false => simp [Fp.toInt, isizeMax]
    | .fin q _ _ _ =>
      simp only [Fp.toInt]
      unfold clampIsize isizeMin isizeMax
      rw [abs_le]; omega
  exact this _

/-- The cell of a point, and its size. -/
lemma cell_unit {p p' b b' r r' : F32} {a c ρ : ℚ} (hp : Unit2 k (-60) 24 a p p') (hb : Unit2 k (-60) 24 c b b')
    (hr : Unit2 k (-60) 20 ρ r r') (h0 : 0 < ρ) :
    cellCoordFromPointCoord p' b' r' = cellCoordFromPointCoord p b r ∧
      |(cellCoordFromPointCoord p b r : ℚ)| * ρ ≤ 2 ^ (27 : ℤ) ∧
      |(cellCoordFromPointCoord p b r : ℚ)| * (ρ * 2 ^ k) ≤ 2 ^ (27 : ℤ) := by
  have hs := hp.sub hb (by norm_num) (by norm_num)
  obtain ⟨q1, q2⟩ := hs.quot hr h0.ne' (by norm_num)
  have e1 : cellCoordFromPointCoord p b r = clampIsize (roundAway (b32.rnd (b32.rnd (a - c) / ρ))) := q1.round_toInt
  have e2 : cellCoordFromPointCoord p' b' r' = clampIsize (roundAway (b32.rnd (b32.rnd (a - c) / ρ))) := q2.round_toInt
  have hk := two_zpow_pos k
  set d := b32.rnd (a - c) with hd
  have hc : |(cellCoordFromPointCoord p b r : ℚ)| ≤ 2 * (|d| / ρ) + 1 := by
    have c1 : |cellCoordFromPointCoord p b r| ≤ |roundAway (b32.rnd (d / ρ))| := by
      rw [e1]
      unfold clampIsize isizeMin isizeMax
      rcases abs_cases (roundAway (b32.rnd (d / ρ))) with ⟨h1, h2⟩ | ⟨h1, h2⟩ <;> rw [h1, abs_le] <;> omega
    have c2 : |(cellCoordFromPointCoord p b r : ℚ)| ≤ |(roundAway (b32.rnd (d / ρ)) : ℚ)| := by exact_mod_cast c1
    have c3 := Fp.roundAway_err (b32.rnd (d / ρ))
    have c4 := abs_sub_abs_le_abs_sub (roundAway (b32.rnd (d / ρ)) : ℚ) (b32.rnd (d / ρ))
    have c5 := F32.err (d / ρ)
    have c6 := abs_sub_abs_le_abs_sub (b32.rnd (d / ρ)) (d / ρ)
    have c7 : |d / ρ| = |d| / ρ := by rw [abs_div, abs_of_pos h0]
    rw [c7] at c5 c6
    have c8 : 0 ≤ |d| / ρ := by positivity
    norm_num at c5
    linarith
  refine ⟨by rw [e1, e2], ?_, ?_⟩
  · have h1 := hs.le
    have h2 := hr.le
    rw [abs_of_pos h0] at h2
    calc |(cellCoordFromPointCoord p b r : ℚ)| * ρ ≤ (2 * (|d| / ρ) + 1) * ρ := by gcongr
      _ = 2 * |d| + ρ := by field_simp
      _ ≤ _ := by norm_num at h1 h2 ⊢; linarith
  · have h1 := hs.le'
    have h2 := hr.le'
    rw [abs_of_pos (mul_pos h0 hk)] at h2
    rw [abs_mul, abs_of_pos hk] at h1
    calc |(cellCoordFromPointCoord p b r : ℚ)| * (ρ * 2 ^ k) ≤ (2 * (|d| / ρ) + 1) * (ρ * 2 ^ k) := by gcongr
      _ = 2 * (|d| * 2 ^ k) + ρ * 2 ^ k := by field_simp
      _ ≤ _ := by norm_num at h1 h2 ⊢; linarith

lemma ofInt_unit (n : ℤ) (hn : |n| ≤ 2 ^ 63) :
    Unit2 0 0 63 (b32.rnd n) (Fp.ofInt n : F32) (Fp.ofInt n) := by
  have h1 : |(n : ℚ)| ≤ 2 ^ (63 : ℤ) := by exact_mod_cast hn
  obtain ⟨h2, h3⟩ := F32.pow_up (by norm_num) (by norm_num) h1
  exact .same (Fp.ofRat_is h2) (Fp.ofRat_is h2) h3 (Fmt.grid_rnd ⟨n, by simp⟩)

/-- The point of any cell. -/
lemma point_unit {b b' r r' : F32} {c ρ : ℚ} (hb : Unit2 k (-60) 24 c b b') (hr : Unit2 k (-60) 20 ρ r r') {n : ℤ}
    (hn : |n| ≤ 2 ^ 63) :
    ∃ a, Unit2 k (-60) 84 a (pointCoordFromCellCoord n b r) (pointCoordFromCellCoord n b' r') := by
  have h1 := (ofInt_unit n hn).mul' hr (by norm_num) (by norm_num) (by norm_num)
  rw [zero_add, zero_add] at h1
  exact ⟨_, (h1.add (hb.mono le_rfl (by norm_num)) (by norm_num) (by norm_num)).mono le_rfl (by norm_num)⟩

/-- The point of a cell near by. -/
lemma point_unit_near {b b' r r' : F32} {c ρ : ℚ} (hb : Unit2 k (-60) 24 c b b') (hr : Unit2 k (-60) 20 ρ r r')
    (h0 : 0 < ρ) {n : ℤ} (hn : |n| ≤ 2 ^ 63) (h1 : |(n : ℚ)| * ρ ≤ 2 ^ (27 : ℤ)) (h2 : |(n : ℚ)| * (ρ * 2 ^ k) ≤ 2 ^ (27 : ℤ)) :
    ∃ a, Unit2 k (-60) 29 a (pointCoordFromCellCoord n b r) (pointCoordFromCellCoord n b' r') := by
  obtain ⟨-, i2⟩ := F32.rnd_int n
  have hk := two_zpow_pos k
  have h3 := (ofInt_unit n hn).mul (E := 28) hr (by norm_num) (by norm_num) (by norm_num) (by
      rw [abs_mul, abs_of_pos h0]
      calc |b32.rnd n| * ρ ≤ 2 * |(n : ℚ)| * ρ := by gcongr
        _ ≤ _ := by norm_num at h1 ⊢; linarith) (by
      rw [zero_add, mul_assoc, abs_mul, abs_of_pos (mul_pos h0 hk)]
      calc |b32.rnd n| * (ρ * 2 ^ k) ≤ 2 * |(n : ℚ)| * (ρ * 2 ^ k) := by gcongr
        _ ≤ _ := by norm_num at h2 ⊢; linarith)
  rw [zero_add, zero_add] at h3
  exact ⟨_, h3.add (hb.mono le_rfl (by norm_num)) (by norm_num) (by norm_num)⟩

/-! ## The norm and the direction -/

variable {D : ℕ}

lemma normSquared_unit (hD : D = 2 ∨ D = 3) {a : Fin D → ℚ} {v v' : Point D F32}
    (hv : ∀ i, Unit2 k g B (a i) (v i) (v' i)) (hg : -63 ≤ g) (hB : 0 ≤ B) (hB' : B ≤ 62) :
    ∃ Q, Unit2 (k + k) (g + g) (B + B + 3) Q (normSquared v) (normSquared v') := by
  have hm := fun i => (hv i).mul' (hv i) (by omega) (by omega) (by omega)
  have hz : ∀ E : ℤ, Unit2 (k + k) (g + g) E 0 (Fp.lit 0 : F32) (Fp.lit 0) := fun E => .zero _ _ _
  rcases hD with rfl | rfl
  · have h1 := (hm 0).add (hm 1) (by omega) (by omega)
    exact ⟨_, ((hz _).add h1 (by omega) (by omega)).mono le_rfl (by omega)⟩
  · have h1 := (hm 0).add (hm 1) (by omega) (by omega)
    have h2 := h1.add ((hm 2).mono le_rfl (by omega)) (by omega) (by omega)
    exact ⟨_, ((hz _).add h2 (by omega) (by omega)).mono le_rfl (by omega)⟩

lemma norm_unit (hD : D = 2 ∨ D = 3) {a : Fin D → ℚ} {v v' : Point D F32}
    (hv : ∀ i, Unit2 k (-60) 21 (a i) (v i) (v' i)) {j : Fin D} (hj : a j ≠ 0) :
    ∃ L, (norm v).Is L ∧ (norm v').Is (L * 2 ^ k) ∧ 0 < L ∧ (∀ i, |a i| / 3 ≤ L) ∧ L ≤ 2 ^ (23 : ℤ) := by
  obtain ⟨Q, hQ⟩ := normSquared_unit hD hv (by norm_num) (by norm_num) (by norm_num)
  obtain ⟨L, h1, h2, h3⟩ := norm_is (B := 2 ^ 21) hD (fun i => (hv i).fst)
    (fun i => by have := (hv i).le; norm_num at this ⊢; exact this) (by norm_num) (by norm_num) (fun i => by
      rcases eq_or_ne (a i) 0 with c | c
      · exact .inl c
      · refine .inr (le_trans ?_ ((hv i).grid.le c)); norm_num)
  have hL : 0 < L := lt_of_lt_of_le (by positivity) (h2 j)
  have hQ1 := hQ.fst
  have hQ0 : 0 ≤ Q := by
    obtain ⟨Q', i1, i2, -, -⟩ := normSquared_is (B := 2 ^ 21) hD (fun i => (hv i).fst)
      (fun i => by have := (hv i).le; norm_num at this ⊢; exact this) (by norm_num) (by norm_num)
    rw [hQ1.unique i1]; exact i2
  have hk2 : (2 : ℤ) * k = k + k := by ring
  have hLe : L = b32.rnd (Fp.sqrtQ b32 Q) := h1.unique (hQ1.sqrt hQ0)
  have hQp : Q ≠ 0 := by
    rintro rfl
    rw [Fp.sqrtQ_zero, F32.rnd_zero] at hLe
    exact hL.ne' hLe
  have hQpos : 0 < Q := lt_of_le_of_ne hQ0 hQp.symm
  have hkk := two_zpow_pos (k + k)
  have l1 := hQ.grid.le hQp
  have l2 := hQ.grid'.le (mul_ne_zero hQp hkk.ne')
  have u1 := hQ.le
  have u2 := hQ.le'
  rw [abs_of_pos hQpos] at l1 u1
  rw [abs_of_pos (mul_pos hQpos hkk)] at l2 u2
  norm_num at l1 l2 u1 u2
  have l1 : (2 : ℚ) ^ (-120 : ℤ) ≤ Q := by norm_num; exact l1
  have l2 : (2 : ℚ) ^ (-120 : ℤ) ≤ Q * 2 ^ (k + k) := by norm_num; exact l2
  have l3 : (2 : ℚ) ^ (-120 - (k + k)) ≤ Q := by
    rw [two_zpow_sub, div_le_iff₀ hkk]; exact l2
  have hkb : k ≤ 84 := by
    have : (2 : ℚ) ^ (-120 + (k + k)) ≤ 2 ^ (45 : ℤ) := by
      rw [two_zpow_add]
      calc (2 : ℚ) ^ (-120 : ℤ) * 2 ^ (k + k) ≤ Q * 2 ^ (k + k) := by gcongr
        _ ≤ _ := by norm_num; exact u2
    have := two_zpow_le_iff.mp this
    omega
  have hsq : b32.rnd (Fp.sqrtQ b32 (Q * 2 ^ (k + k))) = b32.rnd (Fp.sqrtQ b32 Q * 2 ^ k) := by
    rw [← hk2]
    refine Fp.sqrtQ_scale (g := max (-84) (-84 - k)) hQ1.rep (by rw [hk2]; exact hQ.snd.rep) hQpos ?_ ?_ ?_
    · rw [qmin_b32]; omega
    · rw [qmin_b32]; omega
    · change (2 : ℚ) ^ (2 * (max (-84) (-84 - k) + (24 : ℕ))) ≤ Q
      rcases le_total (-84) (-84 - k) with c | c
      · rw [max_eq_right c]
        refine le_trans (two_zpow_le ?_) l3
        push_cast; omega
      · rw [max_eq_left c]
        refine le_trans (two_zpow_le ?_) l1
        norm_num
  have hroot : ∀ {m : ℤ}, -149 ≤ m → (2 : ℚ) ^ (m + m) ≤ Q → 2 ^ m ≤ Fp.sqrtQ b32 Q := by
    intro m hm hle
    have hz : ∃ z : ℤ, (2 : ℚ) ^ m * 2 ^ (1 - b32.qmin).toNat = z := by
      refine ⟨2 ^ (m + 150).toNat, ?_⟩
      rw [two_zpow_int (by omega), two_zpow_add]
      simp [b32]
    obtain ⟨z, hz⟩ := hz
    exact (Fp.sqrtQ_grid hQ1.rep hQ0 (two_zpow_pos m).le hz).1 (by rw [← two_zpow_add]; exact hle)
  have s0 : 0 ≤ Fp.sqrtQ b32 Q := Fp.sqrtQ_nonneg _ _
  have s1 := hroot (m := -60) (by norm_num) (by norm_num at l1 ⊢; exact l1)
  have s2 := hroot (m := -60 - k) (by omega) (by convert l3 using 2; ring)
  have hsc : b32.rnd (Fp.sqrtQ b32 Q * 2 ^ k) = b32.rnd (Fp.sqrtQ b32 Q) * 2 ^ k := by
    refine scale_big (.inr ?_) (.inr ?_)
    · rw [abs_of_nonneg s0]
      exact (two_zpow_le (by norm_num)).trans s1
    · rw [abs_of_nonneg (mul_nonneg s0 (two_zpow_pos k).le)]
      rw [two_zpow_sub, div_le_iff₀ (two_zpow_pos k)] at s2
      exact (two_zpow_le (by norm_num)).trans s2
  refine ⟨L, h1, ?_, hL, h2, by norm_num at h3 ⊢; linarith⟩
  have := hQ.snd.sqrt (mul_pos hQpos hkk).le
  rw [hsq, hsc, ← hLe] at this
  exact this

/-- The direction of a ray is no length. -/
lemma dir_unit (hD : D = 2 ∨ D = 3) {a b : Fin D → ℚ} {o o' e e' : Point D F32}
    (ho : ∀ i, Unit2 k (-60) 20 (a i) (o i) (o' i)) (he : ∀ i, Unit2 k (-60) 20 (b i) (e i) (e' i)) {j : Fin D}
    (hj : a j ≠ b j) (i : Fin D) :
    ∃ d, (rayDir o e i).Is d ∧ (rayDir o' e' i).Is d ∧ |d| ≤ 4 ∧ (d = 0 ∨ 2 ^ (-83 : ℤ) ≤ |d|) := by
  have hs : ∀ i, Unit2 k (-60) 21 (b32.rnd (b i - a i)) (e i -. o i) (e' i -. o' i) := fun i =>
    (he i).sub (ho i) (by norm_num) (by norm_num)
  have hne : b32.rnd (b j - a j) ≠ 0 := by
    intro h0
    have hg : OnGrid (-60) (b j - a j) := by
      rw [sub_eq_add_neg]; exact (he j).grid.add (ho j).grid.neg
    have := F32.pow_low (by norm_num) (by norm_num) (hg.le (sub_ne_zero.mpr hj.symm))
    rw [h0, abs_zero] at this
    exact absurd this (not_le.mpr (two_zpow_pos _))
  obtain ⟨L, h1, h2, h3, h4, h5⟩ := norm_unit hD hs hne
  have hk := (two_zpow_pos k).ne'
  have hq : |b32.rnd (b i - a i) / L| ≤ 2 ^ (2 : ℤ) := by
    rw [abs_div, abs_of_pos h3, div_le_iff₀ h3]
    have := h4 i
    norm_num
    linarith
  obtain ⟨o1, o2⟩ := F32.pow_up (by norm_num) (by norm_num) hq
  refine ⟨b32.rnd (b32.rnd (b i - a i) / L), (hs i).fst.div h1 h3.ne' o1, ?_, by norm_num at o2 ⊢; exact o2, ?_⟩
  · have e : b32.rnd (b i - a i) * 2 ^ k / (L * 2 ^ k) = b32.rnd (b i - a i) / L := by field_simp
    have := (hs i).snd.div h2 (mul_ne_zero h3.ne' hk) (by rw [e]; exact o1)
    rw [e] at this
    exact this
  · rcases eq_or_ne (b32.rnd (b i - a i)) 0 with c | c
    · left; rw [c, zero_div, F32.rnd_zero]
    · right
      refine F32.pow_low (by norm_num) (by norm_num) ?_
      rw [abs_div, abs_of_pos h3, le_div_iff₀ h3]
      calc (2 : ℚ) ^ (-83 : ℤ) * L ≤ 2 ^ (-83 : ℤ) * 2 ^ (23 : ℤ) := by gcongr
        _ = 2 ^ (-60 : ℤ) := by rw [← two_zpow_add]; norm_num
        _ ≤ _ := (hs i).grid.le c

/-! ## Times -/

/-- A time of the ray (a length): infinite in both units, or a number that is bounded. -/
def Times (k B : ℤ) (x y : F32) : Prop :=
  (x = .inf false ∧ y = .inf false) ∨ ∃ q : ℚ, x.Is q ∧ y.Is (q * 2 ^ k) ∧ |q| ≤ 2 ^ B ∧ |q * 2 ^ k| ≤ 2 ^ B

lemma Times.mono (a : Times k B x x') (hB : B ≤ C) : Times k C x x' := by
  rcases a with a | ⟨q, h1, h2, h3, h4⟩
  · exact .inl a
  · exact .inr ⟨q, h1, h2, h3.trans (two_zpow_le hB), h4.trans (two_zpow_le hB)⟩

lemma Times.lt_eq (a : Times k B x x') (b : Times k C y y') : x.lt y = x'.lt y' := by
  rcases a with ⟨rfl, rfl⟩ | ⟨q, h1, h2, -, -⟩ <;> rcases b with ⟨rfl, rfl⟩ | ⟨s, h3, h4, -, -⟩
  · rfl
  · obtain ⟨_, _, _, rfl⟩ := h3; obtain ⟨_, _, _, rfl⟩ := h4; rfl
  · obtain ⟨_, _, _, rfl⟩ := h1; obtain ⟨_, _, _, rfl⟩ := h2; rfl
  · rw [h1.lt h3, h2.lt h4]
    simp only [mul_lt_mul_iff_left₀ (two_zpow_pos k)]

/-- Additions to a huge number are lost. -/
lemma stall127 {v : ℚ} (h : |v| ≤ 2 ^ (127 : ℤ) + 2 ^ (103 : ℤ)) : |b32.rnd v| ≤ 2 ^ (127 : ℤ) := by
  have e : b32.rnd (2 ^ (127 : ℤ) + 2 ^ (103 : ℤ)) = 2 ^ (127 : ℤ) := by decide +kernel
  obtain ⟨h1, h2⟩ := abs_le.mp h
  rw [abs_le]
  constructor
  · have := Fmt.rnd_mono (f := b32) h1
    rwa [Fmt.rnd_neg, e] at this
  · have := Fmt.rnd_mono (f := b32) h2
    rwa [e] at this

lemma Times.add (a : Times k 127 x x') (b : Times k 103 y y') : Times k 127 (x.add y) (x'.add y') := by
  rcases a with ⟨rfl, rfl⟩ | ⟨q, h1, h2, h3, h4⟩ <;> rcases b with ⟨rfl, rfl⟩ | ⟨s, g1, g2, g3, g4⟩
  · exact .inl ⟨rfl, rfl⟩
  · obtain ⟨_, _, _, rfl⟩ := g1; obtain ⟨_, _, _, rfl⟩ := g2; exact .inl ⟨rfl, rfl⟩
  · obtain ⟨_, _, _, rfl⟩ := h1; obtain ⟨_, _, _, rfl⟩ := h2; exact .inl ⟨rfl, rfl⟩
  · have e : b32.rnd ((q + s) * 2 ^ k) = b32.rnd (q + s) * 2 ^ k :=
      Fmt.rnd_scale_grid ((OnGrid.of_rep h1.rep).add (OnGrid.of_rep g1.rep))
        (by rw [add_mul]; exact (OnGrid.of_rep h2.rep).add (OnGrid.of_rep g2.rep))
    have b1 := stall127 ((abs_add_le q s).trans (add_le_add h3 g3))
    have b2 := stall127 ((abs_add_le (q * 2 ^ k) (s * 2 ^ k)).trans (add_le_add h4 g4))
    have hlt : (2 : ℚ) ^ (127 : ℤ) < 2 ^ b32.emax := two_zpow_lt (by simp [b32])
    have i2 := h2.add g2 (b2.trans_lt hlt)
    rw [← add_mul, e] at i2 b2
    exact .inr ⟨_, h1.add g1 (b1.trans_lt hlt), i2, b1, b2⟩

/-- The first border crossings and the steps between them. -/
lemma axis_unit_fin {o o' b b' r r' dir dir' : F32} {a c ρ d : ℚ} (ho : Unit2 k (-60) 20 a o o')
    (hb : Unit2 k (-60) 24 c b b') (hr : Unit2 k (-60) 20 ρ r r') (h0 : 0 < ρ) (hd : dir.Is d) (hd' : dir'.Is d)
    (hd4 : |d| ≤ 4) (hlo : d = 0 ∨ 2 ^ (-83 : ℤ) ≤ |d|) :
    f32Signum dir' = f32Signum dir ∧
      Times k 127 (tMax0 (f32Signum dir) dir o b r (cellCoordFromPointCoord o b r))
        (tMax0 (f32Signum dir') dir' o' b' r' (cellCoordFromPointCoord o' b' r')) ∧
      Times k 103 (tDelta0 (f32Signum dir) dir r) (tDelta0 (f32Signum dir') dir' r') ∧
      (d ≠ 0 → tMax0 (f32Signum dir) dir o b r (cellCoordFromPointCoord o b r) ≠ .inf false ∧
        tDelta0 (f32Signum dir) dir r ≠ .inf false) := by
  have hsig : f32Signum dir' = f32Signum dir := by rw [signum_is hd, signum_is hd']
  refine ⟨hsig, ?_⟩
  obtain ⟨hc, hc1, hc2⟩ := cell_unit (ho.mono le_rfl (by norm_num)) hb hr h0
  have hin : |cellCoordFromPointCoord o b r| ≤ 2 ^ 63 := cell_abs_le _ _ _
  rcases hlo with rfl | hlo
  · have e0 : f32Signum dir = lit 0 := by rw [signum_is hd, if_pos rfl]
    have e1 : ((lit 0 : F32) ==. lit 0) = true := by decide +kernel
    rw [hsig, e0]
    unfold tMax0 tDelta0
    rw [if_pos e1, if_pos e1, if_pos e1, if_pos e1]
    exact ⟨.inl ⟨rfl, rfl⟩, .inl ⟨rfl, rfl⟩, fun h => absurd rfl h⟩
  · have hd0 : d ≠ 0 := by
      rintro rfl
      rw [abs_zero] at hlo
      exact absurd hlo (not_le.mpr (two_zpow_pos _))
    obtain ⟨s, S, hs, hS, hsg, hS0⟩ : ∃ (s : ℤ) (S : F32), (s = 1 ∨ s = -1) ∧ S.Is s ∧
        f32Signum dir = S ∧ Scalar.eq S (Scalar.lit 0) = false := by
      have := signum_is hd
      rw [if_neg hd0] at this
      by_cases h1 : 0 < d
      · rw [if_pos h1] at this
        exact ⟨1, _, .inl rfl, F32.lit_int_is (n := 1) (by norm_num), this, by decide +kernel⟩
      · rw [if_neg h1] at this
        exact ⟨-1, _, .inr rfl, F32.lit_int_is (n := -1) (by norm_num), this, by decide +kernel⟩
    have hSu : Unit2 0 0 0 (s : ℚ) S S :=
      .same hS hS (by rcases hs with rfl | rfl <;> norm_num) ⟨s, by simp⟩
    have hhalf : (Scalar.lit (1 / 2) : F32).Is (1 / 2) :=
      Fp.ofRat_is_rep ⟨1, -1, by simp [b32], by simp [b32], by simp [b32], by norm_num⟩
    have hHu : Unit2 0 (-1) 0 (1 / 2 : ℚ) (Scalar.lit (1 / 2)) (Scalar.lit (1 / 2)) :=
      .same hhalf hhalf (by norm_num) ⟨1, by norm_num⟩
    obtain ⟨P, hP⟩ := point_unit_near hb hr h0 hin hc1 hc2
    have h1 := (hSu.mul' hr (by norm_num) (by norm_num) (by norm_num)).mul' hHu (by norm_num) (by norm_num) (by norm_num)
    simp only [zero_add, add_zero] at h1
    have h2 := (hP.mono (h := -61) (C := 29) (by norm_num) le_rfl).add (h1.mono (by norm_num) (by norm_num)) (by norm_num)
      (by norm_num)
    have h3 := h2.sub (ho.mono (by norm_num) (by norm_num)) (by norm_num) (by norm_num)
    obtain ⟨t, t1, t2, t3, t4⟩ := h3.div (h := 83) hd hd' hlo hd4 (by norm_num) (by norm_num) (by norm_num)
    obtain ⟨u, u1, u2, u3, u4⟩ := hr.div (h := 83) hd.abs hd'.abs (by rwa [abs_abs]) (by rwa [abs_abs]) (by norm_num)
      (by norm_num) (by norm_num)
    have hS0' : ¬ (Scalar.eq S (Scalar.lit 0) = true) := by rw [hS0]; simp
    rw [hsig, hsg, hc]
    unfold tMax0 tDelta0
    rw [if_neg hS0', if_neg hS0', if_neg hS0', if_neg hS0']
    refine ⟨.inr ⟨t, t1, t2, t3.trans (two_zpow_le (by norm_num)), t4.trans (two_zpow_le (by norm_num))⟩,
      .inr ⟨u, u1, u2, u3, u4⟩, fun _ => ⟨?_, ?_⟩⟩
    · obtain ⟨_, _, _, e⟩ := t1
      exact fun h => by cases e.symm.trans h
    · obtain ⟨_, _, _, e⟩ := u1
      exact fun h => by cases e.symm.trans h

lemma axis_unit {o o' b b' r r' dir dir' : F32} {a c ρ d : ℚ} (ho : Unit2 k (-60) 20 a o o')
    (hb : Unit2 k (-60) 24 c b b') (hr : Unit2 k (-60) 20 ρ r r') (h0 : 0 < ρ) (hd : dir.Is d) (hd' : dir'.Is d)
    (hd4 : |d| ≤ 4) (hlo : d = 0 ∨ 2 ^ (-83 : ℤ) ≤ |d|) :
    f32Signum dir' = f32Signum dir ∧
      Times k 127 (tMax0 (f32Signum dir) dir o b r (cellCoordFromPointCoord o b r))
        (tMax0 (f32Signum dir') dir' o' b' r' (cellCoordFromPointCoord o' b' r')) ∧
      Times k 103 (tDelta0 (f32Signum dir) dir r) (tDelta0 (f32Signum dir') dir' r') :=
  have h := axis_unit_fin ho hb hr h0 hd hd' hd4 hlo
  ⟨h.1, h.2.1, h.2.2.1⟩

/-! ## The range limit -/

/-- Positive infinity or a number above `p`. -/
def Above (p : ℚ) (x : F32) : Prop := x = .inf false ∨ ∃ q, x.Is q ∧ p < q

/-- Positive infinity or not negative. -/
def NonNeg (x : F32) : Prop := x = .inf false ∨ ∃ q, x.Is q ∧ 0 ≤ q

lemma ofRat_nonNeg {z : Bool} {v : ℚ} (h : 0 ≤ v) : NonNeg (Fp.ofRat z v : F32) := by
  rcases F32.ofRat_cases z v with h1 | ⟨h1, -⟩
  · exact .inr ⟨_, h1, Fmt.rnd_nonneg h⟩
  · left; rw [h1]; simpa using h

lemma NonNeg.add (hx : NonNeg x) (hy : NonNeg y) : NonNeg (x.add y) := by
  rcases hx with rfl | ⟨q, ⟨_, _, _, rfl⟩, hq⟩ <;> rcases hy with rfl | ⟨t, ⟨_, _, _, rfl⟩, ht⟩
  · exact .inl rfl
  · exact .inl rfl
  · exact .inl rfl
  · exact ofRat_nonNeg (by linarith)

lemma Above.add {p : ℚ} (h : 0 ≤ p) (hx : Above p x) (hy : NonNeg y) : Above p (x.add y) := by
  rcases hx with rfl | ⟨q, hq, hp⟩ <;> rcases hy with rfl | ⟨t, ht, h0⟩
  · exact .inl rfl
  · obtain ⟨_, _, _, rfl⟩ := ht; exact .inl rfl
  · obtain ⟨_, _, _, rfl⟩ := hq; exact .inl rfl
  · have hrep := hq.rep
    obtain ⟨_, _, _, rfl⟩ := hq
    obtain ⟨_, _, _, rfl⟩ := ht
    rcases F32.ofRat_cases _ (q + t) with h1 | ⟨h1, -⟩
    · exact .inr ⟨_, h1, hp.trans_le (Fmt.le_rnd_of_rep hrep (by linarith))⟩
    · refine .inl (h1.trans ?_)
      congr
      simpa using (by linarith : 0 ≤ q + t)

lemma Above.add' {p : ℚ} (h : 0 ≤ p) (hx : NonNeg x) (hy : Above p y) : Above p (x.add y) := by
  have e : x.add y = y.add x := by
    rcases x with _ | a | _ <;> rcases y with _ | b | _ <;> try rfl
    · cases a <;> cases b <;> rfl
    · simp only [Fp.add, add_comm, Bool.and_comm]
  rw [e]
  exact hy.add h hx

lemma sq_nonNeg (hx : x.Is q) : NonNeg (x.mul x) := by
  obtain ⟨_, _, _, rfl⟩ := hx
  exact ofRat_nonNeg (mul_self_nonneg _)

/-- The squared norm of a vector with a coordinate that is far longer than the limit. -/
lemma far_limit (hD : D = 2 ∨ D = 3) {v : Point D F32} {a : Fin D → ℚ} {ml : F32} {lam : ℚ} (hv : ∀ i, (v i).Is (a i))
    (hml : ml.Is lam) (h1 : 2 ^ (-60 : ℤ) ≤ lam) (h2 : lam ≤ 2 ^ (20 : ℤ)) {i : Fin D} (hi : 2 ^ (40 : ℤ) * lam ≤ |a i|) :
    Fp.lt (ml.mul ml) (normSquared v) = true := by
  have hl0 : 0 < lam := lt_of_lt_of_le (two_zpow_pos _) h1
  have hll : |lam * lam| ≤ 2 ^ (40 : ℤ) := by
    rw [abs_of_pos (by positivity)]
    calc lam * lam ≤ 2 ^ (20 : ℤ) * 2 ^ (20 : ℤ) := by gcongr
      _ = _ := by norm_num
  have hl1 : (1 / 2 ^ 120 : ℚ) ≤ lam * lam := by
    calc (1 / 2 ^ 120 : ℚ) = 2 ^ (-60 : ℤ) * 2 ^ (-60 : ℤ) := by norm_num
      _ ≤ _ := by gcongr
  obtain ⟨o1, o2⟩ := F32.pow_up (by norm_num) (by norm_num) hll
  have hm := hml.mul hml o1
  set p := b32.rnd (lam * lam) with hp
  have hp0 : 0 ≤ p := Fmt.rnd_nonneg (by positivity)
  have hpu : p ≤ 2 * (lam * lam) := by
    have := abs_le.mp (F32.err_rel (q := lam * lam) (by rw [abs_of_pos (by positivity)]; norm_num at hl1 ⊢; linarith))
    rw [abs_of_pos (by positivity : 0 < lam * lam)] at this
    have := this.2
    norm_num at this hl1
    linarith
  have hsq : 2 ^ (80 : ℤ) * (lam * lam) ≤ a i * a i := by
    rw [← abs_mul_abs_self (a i)]
    calc (2 : ℚ) ^ (80 : ℤ) * (lam * lam) = 2 ^ (40 : ℤ) * lam * (2 ^ (40 : ℤ) * lam) := by
          rw [show (80 : ℤ) = 40 + 40 by norm_num, two_zpow_add]; ring
      _ ≤ _ := by gcongr
  have hAi : Above p (Fp.mul (v i) (v i)) := by
    obtain ⟨_, _, _, ev⟩ := hv i
    rw [ev]
    rcases F32.ofRat_cases _ (a i * a i) with c | ⟨c, -⟩
    · refine .inr ⟨_, c, ?_⟩
      have h0 : 0 ≤ a i * a i := mul_self_nonneg _
      have := abs_le.mp (F32.err_rel (q := a i * a i) (by
        rw [abs_of_nonneg h0]; norm_num at hl1 hsq ⊢; linarith))
      rw [abs_of_nonneg h0] at this
      have := this.1
      norm_num at this hl1 hsq
      linarith
    · refine .inl (c.trans ?_)
      congr
      simpa using mul_self_nonneg (a i)
  have hA : Above p (normSquared v) := by
    have hn := fun j => sq_nonNeg (hv j)
    have hz : NonNeg (Fp.lit 0 : F32) := .inr ⟨0, F32.zero_is, le_rfl⟩
    rcases hD with rfl | rfl
    · refine Above.add' (y := Fp.add (Fp.mul (v 0) (v 0)) (Fp.mul (v 1) (v 1))) hp0 hz ?_
      obtain rfl | rfl : i = 0 ∨ i = 1 := by omega
      · exact Above.add hp0 hAi (hn 1)
      · exact Above.add' hp0 (hn 0) hAi
    · refine Above.add' (y := Fp.add (Fp.add (Fp.mul (v 0) (v 0)) (Fp.mul (v 1) (v 1))) (Fp.mul (v 2) (v 2))) hp0 hz ?_
      obtain rfl | rfl | rfl : i = 0 ∨ i = 1 ∨ i = 2 := by omega
      · exact Above.add hp0 (Above.add hp0 hAi (hn 1)) (hn 2)
      · exact Above.add hp0 (Above.add' hp0 (hn 0) hAi) (hn 2)
      · exact Above.add' hp0 ((hn 0).add (hn 1)) hAi
  rcases hA with h | ⟨Q, hQ, hlt⟩
  · rw [h]
    obtain ⟨_, _, _, e⟩ := hm
    rw [e]; rfl
  · rw [hm.lt hQ]; simpa using hlt

/-- Two loop contexts in different units. -/
structure UnitCtx (k : ℤ) (c c' : RayCtx D F32) : Prop where
  origin : ∀ i, ∃ q, Unit2 k (-60) 20 q (c.origin i) (c'.origin i)
  boundsMin : ∀ i, ∃ q, Unit2 k (-60) 24 q (c.boundsMin i) (c'.boundsMin i)
  resolution : ∃ q, Unit2 k (-60) 20 q c.resolution c'.resolution
  maxLen : ∃ q, Unit2 k (-60) 20 q c.maxLen c'.maxLen
  step : c'.step = c.step
  tDelta : ∀ i, Times k 103 (c.tDelta i) (c'.tDelta i)
  endCell : c'.endCell = c.endCell

lemma tooFar_unit (hD : D = 2 ∨ D = 3) {c c' : RayCtx D F32} (h : UnitCtx k c c') {z : Cell D} (hz : ∀ i, |z i| ≤ 2 ^ 63) :
    c'.tooFar z = c.tooFar z := by
  obtain ⟨lam, hl⟩ := h.maxLen
  obtain ⟨ρ, hr⟩ := h.resolution
  have e1 : (lit 0 <. c.maxLen) = (lit 0 <. c'.maxLen) := (Unit2.zero k (-60) 20).lt_eq hl
  unfold RayCtx.tooFar
  rw [← e1]
  cases hc : (lit 0 <. c.maxLen)
  · rfl
  · rw [Bool.true_and, Bool.true_and]
    have hl0 : 0 < lam := by
      have : Fp.lt (Fp.lit 0) c.maxLen = true := hc
      rw [F32.zero_is.lt hl.fst] at this
      simpa using this
    have hk := two_zpow_pos k
    have hd : ∀ i, ∃ q, Unit2 k (-60) 85 q (pointFromCell z c.boundsMin c.resolution i -. c.origin i)
        (pointFromCell z c'.boundsMin c'.resolution i -. c'.origin i) := fun i => by
      obtain ⟨b, hb⟩ := h.boundsMin i
      obtain ⟨o, ho⟩ := h.origin i
      obtain ⟨a, ha⟩ := point_unit hb hr (hz i)
      exact ⟨_, ha.sub (ho.mono le_rfl (by norm_num)) (by norm_num) (by norm_num)⟩
    choose q hq using hd
    by_cases hsm : ∀ i, |q i| ≤ 2 ^ (60 : ℤ) ∧ |q i * 2 ^ k| ≤ 2 ^ (60 : ℤ)
    · obtain ⟨Q, hQ⟩ := normSquared_unit hD (fun i => (hq i).tight (hsm i).1 (hsm i).2) (by norm_num) (by norm_num)
        (by norm_num)
      exact ((hl.mul' hl (by norm_num) (by norm_num) (by norm_num)).lt_eq hQ).symm
    · push Not at hsm
      obtain ⟨i, hi⟩ := hsm
      have l1 := hl.le
      have l2 := hl.le'
      have l3 := hl.grid.le hl0.ne'
      have l4 := hl.grid'.le (mul_pos hl0 hk).ne'
      rw [abs_of_pos hl0] at l1 l3
      rw [abs_of_pos (mul_pos hl0 hk)] at l2 l4
      have big : 2 ^ (40 : ℤ) * lam ≤ |q i| := by
        by_cases h1 : |q i| ≤ 2 ^ (60 : ℤ)
        · have h2 := hi h1
          rw [abs_mul, abs_of_pos hk] at h2
          have : 2 ^ (40 : ℤ) * lam * 2 ^ k ≤ |q i| * 2 ^ k := by
            rw [mul_assoc]
            norm_num at l2 h2 ⊢
            linarith
          exact le_of_mul_le_mul_right this hk
        · norm_num at h1 l1 ⊢
          linarith
      have big' : 2 ^ (40 : ℤ) * (lam * 2 ^ k) ≤ |q i * 2 ^ k| := by
        rw [abs_mul, abs_of_pos hk, ← mul_assoc]
        gcongr
      have f1 := far_limit hD (fun j => (hq j).fst) hl.fst l3 l1 big
      have f2 := far_limit hD (fun j => (hq j).snd) hl.snd l4 l2 big'
      exact f2.trans f1.symm

lemma selDim_unit {t t' : Point D F32} (h : ∀ i, Times k B (t i) (t' i)) : selDim t = selDim t' := by
  have e : ∀ i j, (t i <. t j) = (t' i <. t' j) := fun i j => (h i).lt_eq (h j)
  match D, t, t', e with
  | 0, _, _, _ => rfl
  | 1, _, _, _ => rfl
  | 2, v, w, e => simp only [selDim, e]
  | 3, v, w, e => simp only [selDim, e]
  | _ + 4, _, _, _ => rfl

lemma castLoop_unit (hD : D = 2 ∨ D = 3) {c c' : RayCtx D F32} (h : UnitCtx k c c') (n : ℕ) :
    ∀ {cell : Cell D} {t t' : Point D F32}, (∀ i, Times k 127 (t i) (t' i)) → (∀ i, |cell i| ≤ 2 ^ 63) →
      castLoop c' n cell t' = castLoop c n cell t := by
  induction n with
  | zero => intros; rfl
  | succ n ih =>
    intro cell t t' ht hc
    unfold castLoop
    rw [← selDim_unit ht]
    cases hd : selDim t with
    | none => rfl
    | some dim =>
      dsimp only
      rw [h.step]
      cases hx : isz (cell dim + toInt (c.step dim)) with
      | error => rfl
      | ok x =>
        have hxb : |x| ≤ 2 ^ 63 := by
          obtain ⟨rfl, hin⟩ := isz_ok.mp hx
          unfold InIsize at hin
          rw [abs_le]
          constructor <;> unfold isizeMin isizeMax at hin <;> omega
        have hcb : ∀ i, |Function.update cell dim x i| ≤ 2 ^ 63 := fun i => by
          by_cases hi : i = dim
          · subst hi; rwa [Function.update_self]
          · rw [Function.update_of_ne hi]; exact hc i
        simp only [M.bind_ok]
        rw [h.endCell, tooFar_unit hD h hcb, ih (t := Function.update t dim (t dim +. c.tDelta dim)) _ hcb]
        intro i
        by_cases hi : i = dim
        · subst hi
          rw [Function.update_self, Function.update_self]
          exact (ht i).add (h.tDelta i)
        · simpa [Function.update_of_ne hi] using ht i

lemma Unit2.ofRescaled (h : Rescaled k B x y) : ∃ q, Unit2 k (-60) B q x y := by
  obtain ⟨q, h1, h2, ⟨h3, h4⟩, ⟨h5, h6⟩⟩ := h
  exact ⟨q, h1, h2, h3, h5, h4, h6⟩

lemma cellFromPoint_unit {p p' b b' : Point D F32} {r r' : F32} (hp : RescaledPt k 24 p p') (hb : RescaledPt k 24 b b')
    (hr : RescaledRes k r r') : cellFromPoint p' b' r' = cellFromPoint p b r := by
  funext i
  obtain ⟨a, ha⟩ := Unit2.ofRescaled (hp i)
  obtain ⟨c, hc⟩ := Unit2.ofRescaled (hb i)
  obtain ⟨ρ, hρ⟩ := Unit2.ofRescaled hr.1
  have h0 := hr.2
  rw [hρ.fst.val] at h0
  exact (cell_unit ha hc hρ h0).1

lemma rescaledPt_mono {p p' : Point D F32} (h : RescaledPt k B p p') (hB : B ≤ C) : RescaledPt k C p p' := fun i => by
  obtain ⟨q, h1, h2, ⟨h3, h4⟩, ⟨h5, h6⟩⟩ := h i
  exact ⟨q, h1, h2, ⟨h3.trans (two_zpow_le hB), h4⟩, ⟨h5.trans (two_zpow_le hB), h6⟩⟩

/-- `cast_ray` in another unit. -/
lemma castRay_unit (n : ℕ) {o o' e e' : Point D F32} {b b' : Bounds D F32} {r r' ml ml' : F32} (ho : RescaledPt k 20 o o')
    (he : RescaledPt k 20 e e') (hb : RescaledPt k 24 b.min b'.min) (hr : RescaledRes k r r') (hml : Rescaled k 20 ml ml') :
    castRay n o' e' b' r' ml' = castRay n o e b r ml := by
  unfold castRay
  by_cases hD : D = 2 ∨ D = 3
  · rw [if_pos hD, if_pos hD]
    have co := cellFromPoint_unit (rescaledPt_mono ho (by norm_num)) hb hr
    have ce := cellFromPoint_unit (rescaledPt_mono he (by norm_num)) hb hr
    simp only [co, ce]
    by_cases hs : cellFromPoint o b.min r = cellFromPoint e b.min r
    · rw [if_pos hs, if_pos hs]
    · rw [if_neg hs, if_neg hs]
      choose a ha using fun i => Unit2.ofRescaled (ho i)
      choose d hd using fun i => Unit2.ofRescaled (he i)
      choose c hc using fun i => Unit2.ofRescaled (hb i)
      obtain ⟨ρ, hρ⟩ := Unit2.ofRescaled hr.1
      have h0 := hr.2
      rw [hρ.fst.val] at h0
      obtain ⟨j, hj⟩ : ∃ j, a j ≠ d j := by
        by_contra hne
        push Not at hne
        apply hs
        funext i
        have q1 := (((ha i).mono le_rfl (by norm_num : (20 : ℤ) ≤ 24)).sub (hc i) (by norm_num) (by norm_num)).quot hρ h0.ne'
          (by norm_num)
        have q2 := (((hd i).mono le_rfl (by norm_num : (20 : ℤ) ≤ 24)).sub (hc i) (by norm_num) (by norm_num)).quot hρ h0.ne'
          (by norm_num)
        rw [← hne i] at q2
        exact q1.1.round_toInt.trans q2.1.round_toInt.symm
      choose δ d1 d2 d3 d4 using dir_unit hD ha hd hj
      have hax := fun i => axis_unit (ha i) (hc i) hρ h0 (d1 i) (d2 i) (d3 i) (d4 i)
      have hctx : UnitCtx k (rayCtx o e b r ml) (rayCtx o' e' b' r' ml') :=
        ⟨fun i => ⟨_, ha i⟩, fun i => ⟨_, hc i⟩, ⟨_, hρ⟩, Unit2.ofRescaled hml, funext fun i => (hax i).1,
          fun i => (hax i).2.2, ce⟩
      rw [castLoop_unit hD hctx n (t := fun i => tMax0 (vecSignum (rayDir o e) i) (rayDir o e i) (o i) (b.min i) r
        (cellFromPoint o b.min r i))]
      · intro i
        have := (hax i).2.1
        have hci : cellCoordFromPointCoord (o' i) (b'.min i) r' = cellCoordFromPointCoord (o i) (b.min i) r := congrFun co i
        rw [hci] at this
        exact this
      · exact fun i => cell_abs_le _ _ _
  · rw [if_neg hD, if_neg hD]

/-- `cast_rays` in another unit. -/
lemma castRays_unit (n : ℕ) {o o' : Point D F32} {cloud cloud' : PointCloud D F32} {b b' : Bounds D F32} {r r' ml ml' : F32}
    (ho : RescaledPt k 20 o o') (hcl : RescaledCloud k cloud cloud') (hb : RescaledPt k 24 b.min b'.min)
    (hr : RescaledRes k r r') (hml : Rescaled k 20 ml ml') :
    castRays n o' cloud' b' r' ml' = castRays n o cloud b r ml := by
  have key : ∀ {ps ps' : List (Point D F32)}, List.Forall₂ (RescaledPt k 20) ps ps' → ∀ acc,
      ps'.foldlM (fun acc p => do
        let r ← castRay n o' p b' r' ml'
        .ok (castRaysStep acc r)) acc =
      (ps.foldlM (fun acc p => do
        let r ← castRay n o p b r ml
        .ok (castRaysStep acc r)) acc : M (List (Cell D) × List (Cell D))) := by
    intro ps ps' h
    induction h with
    | nil => intro acc; rfl
    | cons h _ ih =>
      intro acc
      rw [List.foldlM_cons, List.foldlM_cons, castRay_unit n ho h hb hr hml]
      congr 1
      funext a
      exact ih a
  unfold castRays
  rw [key hcl]

end Verif
