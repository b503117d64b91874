import Verif.Props.Approx
import Verif.Props.Order
import Verif.Props.Disc
import Verif.Props.Split
import Verif.Spec.Extent

/-!
# C116: a larger extent needs a larger map
-/

namespace Verif.Props
open Spec Scalar

section
variable {r v v' : F32} {ρ : ℚ}

/-- Two different values of the format are apart by at least a 2^24th of the smaller. -/
lemma rep_apart {c c' : ℚ} (h : b32.Rep c) (h' : b32.Rep c') (hlt : c < c') :
    min |c| |c'| * (1 / 2 ^ 24) ≤ c' - c := by
  obtain ⟨m, e, h1, -, -, rfl⟩ := h
  obtain ⟨m', e', h1', -, -, rfl⟩ := h'
  have hb : ∀ {m e : ℤ}, |m| < 2 ^ b32.prec → |(m : ℚ) * 2 ^ e| * (1 / 2 ^ 24) ≤ 2 ^ e := by
    intro m e h1
    have h5 : |(m : ℚ)| ≤ 2 ^ 24 := by
      have h6 : |m| ≤ 2 ^ 24 := by simp only [b32] at h1; omega
      exact_mod_cast h6
    rw [abs_mul, abs_of_pos (two_zpow_pos e)]
    have := two_zpow_pos e
    have h7 : |(m : ℚ)| * 2 ^ e ≤ 2 ^ 24 * 2 ^ e := by gcongr
    norm_num at h7 ⊢
    linarith
  have key : ∀ {m m' e e' : ℤ}, e ≤ e' → (m : ℚ) * 2 ^ e ≠ m' * 2 ^ e' →
      (2 : ℚ) ^ e ≤ |(m' : ℚ) * 2 ^ e' - m * 2 ^ e| := by
    intro m m' e e' hle hne
    obtain ⟨n, rfl⟩ := Int.le.dest hle
    have e1 : (m' : ℚ) * 2 ^ (e + (n : ℤ)) - m * 2 ^ e = ((m' * 2 ^ n - m : ℤ) : ℚ) * 2 ^ e := by
      rw [two_zpow_add]
      push_cast
      rw [zpow_natCast]
      ring
    have hz : m' * 2 ^ n - m ≠ 0 := by
      intro h0
      rw [h0, Int.cast_zero, zero_mul] at e1
      exact hne (by linarith)
    rw [e1, abs_mul, abs_of_pos (two_zpow_pos e)]
    have h2 : (1 : ℚ) ≤ |((m' * 2 ^ n - m : ℤ) : ℚ)| := by exact_mod_cast Int.one_le_abs hz
    have := two_zpow_pos e
    nlinarith
  have hpos : |(m' : ℚ) * 2 ^ e' - m * 2 ^ e| = m' * 2 ^ e' - m * 2 ^ e := abs_of_pos (by linarith)
  rcases le_total e e' with hle | hle
  · have h2 := key hle hlt.ne
    have h3 := hb (e := e) h1
    rw [hpos] at h2
    exact (mul_le_mul_of_nonneg_right (min_le_left _ _) (by norm_num)).trans (h3.trans h2)
  · have h2 := key hle hlt.ne'
    have h3 := hb (e := e') h1'
    rw [abs_sub_comm, hpos] at h2
    exact (mul_le_mul_of_nonneg_right (min_le_right _ _) (by norm_num)).trans (h3.trans h2)

/-- What the default relative comparison compares. -/
lemma relativeEq_cases {a b : F32} {x y : ℚ} (ha : a.Is x) (hb : b.Is y) : relativeEq a b = true ↔
    x = y ∨ FLe (Fp.ofRat false |x - y|) (lit (1 / 2 ^ 23) : F32) ∨
      FLe (Fp.ofRat false |x - y|) (Fp.ofRat false (max |x| |y| * (1 / 2 ^ 23)) : F32) := by
  have hle : ∀ u w : F32, Scalar.le u w = true ↔ FLe u w := fun u w => Fp.le_iff_FLe
  have hmul : ∃ zs, Scalar.mul (if Scalar.lt (Scalar.abs a) (Scalar.abs b) = true then Scalar.abs b else Scalar.abs a)
      (lit (1 / 2 ^ 23) : F32) = (Fp.ofRat zs (max |x| |y| * (1 / 2 ^ 23)) : F32) :=
    mul_ofRat (large_is ha hb) F32.eps_is
  obtain ⟨zs, ht⟩ := hmul
  have hzs : ∀ u : F32, FLe u (Fp.ofRat zs (max |x| |y| * (1 / 2 ^ 23))) ↔
      FLe u (Fp.ofRat false (max |x| |y| * (1 / 2 ^ 23))) := fun u =>
    ⟨fun h => Fp.FLe_trans h (Fp.FLe_ofRat le_rfl), fun h => Fp.FLe_trans h (Fp.FLe_ofRat le_rfl)⟩
  have e1 : Scalar.eq a b = decide (x = y) := by
    change a.eq b = _
    rw [ha.eq hb]
  have e2 : Scalar.isInf a = false := Fp.notInf_is ha
  have e3 : Scalar.isInf b = false := Fp.notInf_is hb
  unfold relativeEq
  simp only [e1, e2, e3, Bool.or_self, Bool.false_eq_true, if_false, absdiff ha hb, ht]
  by_cases hxy : x = y
  · simp [hxy]
  · simp only [hxy, decide_false, Bool.false_eq_true, if_false, false_or]
    by_cases h1 : Scalar.le (Fp.ofRat false |x - y| : F32) (lit (1 / 2 ^ 23)) = true
    · rw [if_pos h1]
      exact ⟨fun _ => .inl ((hle _ _).mp h1), fun _ => rfl⟩
    · rw [if_neg h1, hle, hzs]
      have h2 : ¬ FLe (Fp.ofRat false |x - y| : F32) (lit (1 / 2 ^ 23)) := fun h => h1 ((hle _ _).mpr h)
      tauto

/-- A quotient that counts as whole, rounded up: every quotient between it and the whole number does so, too. -/
lemma whole_between {a a' : F32} {c c' : ℚ} (ha : a.Is c) (ha' : a'.Is c') (hle : c ≤ c')
    (hk : c' ≤ (roundAway c : ℤ)) (h : relativeEq a a.round = true) : relativeEq a' a'.round = true := by
  have hk2 : roundAway c' = roundAway c := by
    refine le_antisymm ?_ (Fp.roundAway_mono hle)
    have := Fp.roundAway_mono hk
    rwa [Fp.roundAway_int] at this
  have herr := Fp.roundAway_err c
  have hr' := ha'.round
  rw [hk2] at hr'
  have hround := ha.round
  rw [relativeEq_cases ha hround] at h
  rw [relativeEq_cases ha' hr']
  generalize roundAway c = k at *
  have hd : |c' - k| ≤ |c - k| := by
    rw [abs_of_nonpos (by linarith), abs_of_nonpos (by linarith)]
    linarith
  have hmono : FLe (Fp.ofRat false |c' - k| : F32) (Fp.ofRat false |c - k|) := Fp.FLe_ofRat hd
  rcases h with h | h | h
  · left
    linarith
  · exact .inr (.inl (Fp.FLe_trans hmono h))
  · rcases lt_trichotomy k 0 with hk0 | hk0 | hk0
    · have hk1 : (k : ℚ) ≤ -1 := by exact_mod_cast Int.le_sub_one_of_lt hk0
      rcases hle.eq_or_lt with rfl | hlt
      · exact .inr (.inr h)
      rw [abs_le] at herr
      have hc0 : c < 0 := by linarith
      have hc0' : c' < 0 := by linarith
      have hkq : (k : ℚ) < 0 := by linarith
      have hrel : relativeEqWith (lit (1 / 2 ^ 23)) (lit (1 / 2 ^ 23)) a a.round = true :=
        (relativeEq_cases ha hround).mpr (.inr (.inr h))
      have h1 := rel_close ha hround F32.eps_is F32.eps_is (by norm_num) (by norm_num) (by norm_num) hrel
      have h2 := rep_apart ha.rep ha'.rep hlt
      rw [abs_of_neg hc0, abs_of_neg hc0', min_eq_right (by linarith)] at h2
      rw [abs_of_neg hc0, abs_of_neg hkq, abs_of_neg (by linarith : c - (k : ℚ) < 0), max_eq_left (a := -c) (by linarith),
        max_eq_right (by norm_num; linarith)] at h1
      refine .inr (.inr (Fp.FLe_ofRat ?_))
      rw [abs_of_nonpos (by linarith), abs_of_neg hc0', abs_of_neg hkq, max_eq_left (by linarith)]
      norm_num at h1 h2 ⊢
      linarith
    · subst hk0
      refine .inr (.inl (Fp.FLe_trans hmono (Fp.FLe_trans h ?_)))
      rw [Int.cast_zero, abs_zero, max_eq_left (abs_nonneg c)]
      refine abs_rnd_le F32.eps_is ?_
      rw [Int.cast_zero, zero_sub, abs_neg] at herr
      norm_num at herr ⊢
      linarith
    · have hk1 : (1 : ℚ) ≤ k := by exact_mod_cast hk0
      rw [abs_le] at herr
      have e : ∀ {z : ℚ}, c ≤ z → z ≤ k → max |z| |(k : ℚ)| = k := by
        intro z h1 h2
        rw [abs_of_nonneg (by linarith), abs_of_nonneg (by linarith), max_eq_right h2]
      rw [e le_rfl (by linarith)] at h
      rw [e hle hk]
      exact .inr (.inr (Fp.FLe_trans hmono h))

/-- The cells of the rounded corners. -/
lemma disc_cells (hr : Res r ρ) {x : ℚ} (hv : v.Is x) (hx : |x| ≤ 2 ^ 18 * ρ) :
    (v.div r).Is (b32.rnd (x / ρ)) ∧
    cellOf r (Bounds.discMin r v) = (if relativeEq (v.div r) (v.div r).round = true then roundAway (b32.rnd (x / ρ))
      else ⌊b32.rnd (x / ρ)⌋) ∧
    cellOf r (Bounds.discMax r true v) = if relativeEq (v.div r) (v.div r).round = true
      then roundAway (b32.rnd (x / ρ)) + 1 else ⌈b32.rnd (x / ρ)⌉ := by
  have hpos := hr.pos
  obtain ⟨h1, h2, h3⟩ := floor_ceil_range hr hx
  have hq : |x / ρ| ≤ 2 ^ 18 := by rw [abs_div, abs_of_pos hpos, div_le_iff₀ hpos]; exact hx
  have hc := hv.div hr.1 hpos.ne' (F32.noOvf (hq.trans (by norm_num)))
  refine ⟨hc, ?_, ?_⟩
  · by_cases he : relativeEq (v.div r) (v.div r).round = true
    · rw [if_pos he, show Bounds.discMin r v = v from if_pos he]
      have h4 := whole_near hr (by norm_num) le_rfl hx hc he
      obtain ⟨d, g1, g2⟩ := cellCoord_is (M := 2 ^ 18) hr F32.zero_is hv (by rw [sub_zero]; exact hx) (by norm_num)
        (by norm_num)
      rw [sub_zero] at g2
      rw [show cellOf r v = roundAway d from g1]
      apply Fp.roundAway_eq_of_lt
      have t1 := abs_sub_le d (x / ρ) (roundAway (b32.rnd (x / ρ)))
      norm_num at t1 g2 h4 ⊢
      linarith
    · rw [if_neg he, show Bounds.discMin r v = (v.div r).floor.mul r from if_neg he]
      exact cellOf_scaled hr h2 hc.floor
  · by_cases he : relativeEq (v.div r) (v.div r).round = true
    · have hd : Bounds.discMax r true v = v.add r := by unfold Bounds.discMax; exact if_pos he
      rw [if_pos he, hd]
      have h4 := whole_near hr (by norm_num) le_rfl hx hc he
      have hs : |x + ρ| ≤ (2 ^ 18 + 1) * ρ := by
        have := abs_add_le x ρ
        rw [abs_of_pos hpos] at this
        linarith
      have i1 := hv.add hr.1 (F32.noOvf_res hpos hr.2.2 (by norm_num) (by norm_num) hs)
      have e1 := F32.err_res hr.2.1 hs
      have b1 : |b32.rnd (x + ρ) - 0| ≤ (2 ^ 18 + 2) * ρ := by
        rw [sub_zero]
        have := abs_sub_abs_le_abs_sub (b32.rnd (x + ρ)) (x + ρ)
        have e2 : ((2 ^ 18 + 1) / 2 ^ 24 + 1 / 2 ^ 50) * ρ ≤ 1 * ρ := by gcongr; norm_num
        linarith
      obtain ⟨d, g1, g2⟩ := cellCoord_is hr F32.zero_is i1 b1 (by norm_num) (by norm_num)
      rw [show cellOf r (v.add r) = roundAway d from g1]
      rw [sub_zero] at g2
      have e3 : |b32.rnd (x + ρ) / ρ - (x / ρ + 1)| ≤ (2 ^ 18 + 1) / 2 ^ 24 + 1 / 2 ^ 50 := by
        rw [show b32.rnd (x + ρ) / ρ - (x / ρ + 1) = (b32.rnd (x + ρ) - (x + ρ)) / ρ by field_simp, abs_div,
          abs_of_pos hpos, div_le_iff₀ hpos]
        exact e1
      apply Fp.roundAway_eq_of_lt
      push_cast
      rw [abs_lt]
      rw [abs_le] at g2 e3 h4
      norm_num at g2 e3 h4 ⊢
      constructor <;> linarith [g2.1, g2.2, e3.1, e3.2, h4.1, h4.2]
    · have hd : Bounds.discMax r true v = (v.div r).ceil.mul r := by unfold Bounds.discMax; exact if_neg he
      rw [if_neg he, hd]
      exact cellOf_scaled hr h3 hc.ceil

/-- C116, one coordinate: a greater value is not rounded to a lower cell, neither as a lower nor as an upper corner. -/
theorem C116_corner (hr : Res r ρ) {x x' : ℚ} (hv : v.Is x) (hv' : v'.Is x') (hx : |x| ≤ 2 ^ 18 * ρ)
    (hx' : |x'| ≤ 2 ^ 18 * ρ) (hle : x ≤ x') :
    cellOf r (Bounds.discMin r v) ≤ cellOf r (Bounds.discMin r v') ∧
    cellOf r (Bounds.discMax r true v) ≤ cellOf r (Bounds.discMax r true v') := by
  have hpos := hr.pos
  obtain ⟨a1, a2, a3⟩ := disc_cells hr hv hx
  obtain ⟨b1, b2, b3⟩ := disc_cells hr hv' hx'
  have hc : b32.rnd (x / ρ) ≤ b32.rnd (x' / ρ) := Fmt.rnd_mono (by gcongr)
  have hra := Fp.roundAway_mono hc
  have hnear : ∀ c : ℚ, ⌊c⌋ ≤ roundAway c ∧ ⌈c⌉ ≤ roundAway c + 1 := by
    intro c
    have h1 := Fp.roundAway_mono (Int.floor_le c)
    rw [Fp.roundAway_int] at h1
    exact ⟨h1, (Int.ceil_le_floor_add_one c).trans (by omega)⟩
  rw [a2, a3, b2, b3]
  generalize b32.rnd (x / ρ) = c at *
  generalize b32.rnd (x' / ρ) = c' at *
  by_cases he : relativeEq (v.div r) (v.div r).round = true <;>
    by_cases he' : relativeEq (v'.div r) (v'.div r).round = true
  · simp only [if_pos he, if_pos he']
    omega
  · simp only [if_pos he, if_neg he']
    have hlt : (roundAway c : ℚ) < c' := by
      by_contra hcon
      exact he' (whole_between a1 b1 hc (not_lt.mp hcon) he)
    exact ⟨Int.le_floor.mpr hlt.le, Int.lt_ceil.mpr hlt⟩
  · simp only [if_neg he, if_pos he']
    have h1 := hnear c
    have h2 := hnear c'
    omega
  · simp only [if_neg he, if_neg he']
    exact ⟨Int.floor_le_floor hc, Int.ceil_le_ceil hc⟩
end

section
variable {D : ℕ} {nm nm1 nm2 : LidarNoiseModel F32} {m m1 m2 : GridMap D F32 F32} {cb : CellBounds D} {r : F32} {ρ : ℚ}
  {origin : Point D F32} {cloud cloud' : PointCloud D F32} {parts : List (PointCloud D F32)}

/-- C116: a box in another one, both in the working range: the cells of the rounded box lie in those of the other one
rounded. -/
theorem C116_cells {b b' d d' : Bounds D F32} (hr : Res r ρ) (hb : Request b ρ) (hb' : Request b' ρ) (h : Spec.Sub b b')
    (hd : b.discretized r true = .ok d) (hd' : b'.discretized r true = .ok d') :
    CellSub (CellBounds.fromBounds d r) (CellBounds.fromBounds d' r) := by
  have e : ∀ {b d : Bounds D F32}, b.discretized r true = .ok d →
      d = ⟨fun i => Bounds.discMin r (b.min i), fun i => Bounds.discMax r true (b.max i)⟩ := by
    intro b d hd
    unfold Bounds.discretized Bounds.new at hd
    split at hd
    · exact (Except.ok.inj hd).symm
    · cases hd
  rw [e hd, e hd', fromBounds_eq _ hr.1 hr.pos, fromBounds_eq _ hr.1 hr.pos]
  intro i
  obtain ⟨x, y, h1, h2, -, h3, h4⟩ := hb i
  obtain ⟨x', y', h1', h2', -, h3', h4'⟩ := hb' i
  obtain ⟨s1, s2⟩ := h i
  exact ⟨(C116_corner hr h1' h1 h3' h3 ((Fp.FLe_is h1' h1).mp s1)).1,
    (C116_corner hr h2 h2' h4 h4' ((Fp.FLe_is h2 h2').mp s2)).2⟩

/-- Clouds that reach as far cover as much. -/
lemma reach_covers {clouds1 clouds2 : List (PointCloud D F32)} (hr : Res r ρ) (hc1 : ∀ c ∈ clouds1, CloudInRange c ρ)
    (hc2 : ∀ c ∈ clouds2, CloudInRange c ρ) (h : ReachAsFar clouds1 clouds2) {s : CellBounds D}
    (hs : ∀ c ∈ clouds2, CellSub (discCells r c.bounds) s) : ∀ c ∈ clouds1, CellSub (discCells r c.bounds) s := by
  intro c hc i
  obtain ⟨x, y, h1, h2, -, h3, h4⟩ := request_of_cloud hr.pos (hc1 c hc) i
  obtain ⟨⟨d, hd, k1⟩, d', hd', k2⟩ := h c hc i
  obtain ⟨x', -, h1', -, -, h3', -⟩ := request_of_cloud hr.pos (hc2 d hd) i
  obtain ⟨-, y', -, h2', -, -, h4'⟩ := request_of_cloud hr.pos (hc2 d' hd') i
  exact ⟨(hs d hd i).1.trans (C116_corner hr h1' h1 h3' h3 ((Fp.FLe_is h1' h1).mp k1)).1,
    (C116_corner hr h2 h2' h4 h4' ((Fp.FLe_is h2 h2').mp k2)).2.trans (hs d' hd' i).2⟩

/-- C116: two sequences of scans into the same map, with any noise models and sensors. If the second reaches as far as
the first, the first map lies in the second. -/
theorem C116_scans (hD : D ≤ 3) (hP : Placed m cb ρ) {scans1 scans2 : List (Point D F32 × PointCloud D F32)}
    (hc1 : ∀ s ∈ scans1, CloudInRange s.2 ρ) (hc2 : ∀ s ∈ scans2, CloudInRange s.2 ρ) (hne : scans1 ≠ [])
    (h : ReachAsFar (scans1.map Prod.snd) (scans2.map Prod.snd)) (h1 : Scans nm1 m scans1 m1)
    (h2 : Scans nm2 m scans2 m2) : ∃ cb1 cb2, Placed m1 cb1 ρ ∧ Placed m2 cb2 ρ ∧ CellSub cb1 cb2 := by
  have hD0 : D = 0 ∨ 0 < D := Nat.eq_zero_or_pos D
  have hmem : ∀ {l : List (Point D F32 × PointCloud D F32)}, (∀ s ∈ l, CloudInRange s.2 ρ) →
      ∀ c ∈ l.map Prod.snd, CloudInRange c ρ := by
    intro l hl c hc
    obtain ⟨s, hs, rfl⟩ := List.mem_map.mp hc
    exact hl s hs
  obtain ⟨cb1, p1, p2, p3, p4⟩ := boxes_scans hD hP hc1 hne h1
  by_cases hne2 : scans2 = []
  · subst hne2
    rcases hD0 with rfl | hpos
    · cases h2
      exact ⟨cb1, cb, p1, hP, fun i => i.elim0⟩
    · obtain ⟨s, hs⟩ := List.exists_mem_of_ne_nil _ hne
      obtain ⟨⟨d, hd, -⟩, -⟩ := h s.2 (List.mem_map_of_mem hs) ⟨0, hpos⟩
      cases hd
  · obtain ⟨cb2, q1, q2, q3, q4⟩ := boxes_scans hD hP hc2 hne2 h2
    exact ⟨cb1, cb2, p1, q1, p4.least cb2 q4.tiles (reach_covers hP.res (hmem hc1) (hmem hc2) h q4.covers) q4.old⟩

/-- A cloud that fits lies, rounded, in the box of the map, which is made of whole tiles. -/
lemma fits_covers (hD : D ≤ 3) (hP : Placed m cb ρ) (hc : CloudInRange cloud ρ) (hf : Fits m cloud) :
    Aligned m.tileSize cb ∧ CellSub (discCells m.resolution cloud.bounds) cb := by
  have hreq := request_of_cloud hP.res.pos hc
  obtain ⟨me, ncb, e1, e0, e2, -, -⟩ := expand_spec hD hP hreq (Fp.lit 0 : F32)
  rw [show m.expandBounds cloud.bounds (Fp.lit 0) = .ok m from hf m rfl rfl rfl] at e1
  cases e1
  obtain ⟨ncb', h0', a1, a2, -⟩ := newCellBounds_spec hP hreq
  rw [e0] at h0'
  cases h0'
  have hcb : ncb = cb := by rw [← hP.cells, ← e2.cells]
  rw [← hcb]
  exact ⟨a1, a2⟩

lemma covers_fits (hP : Placed m cb ρ) (hc : CloudInRange cloud ρ) (ha : Aligned m.tileSize cb)
    (h : CellSub (discCells m.resolution cloud.bounds) cb) : Fits m cloud := by
  refine C67_fits hP hc ha fun b' hb' => ?_
  rw [discretized_eq hP.res (request_of_cloud hP.res.pos hc)] at hb'
  cases hb'
  rw [fromBounds_eq _ hP.res.1 hP.res.pos]
  exact h

/-- C116: clouds that reach no farther than clouds that fit into a map fit into it. -/
theorem C116_fits (hD : D ≤ 3) (hP : Placed m cb ρ) {clouds1 clouds2 : List (PointCloud D F32)}
    (hc1 : ∀ c ∈ clouds1, CloudInRange c ρ) (hc2 : ∀ c ∈ clouds2, CloudInRange c ρ) (hne : clouds2 ≠ [])
    (h : ReachAsFar clouds1 clouds2) (hf : ∀ c ∈ clouds2, Fits m c) : ∀ c ∈ clouds1, Fits m c := by
  obtain ⟨a, ha⟩ := List.exists_mem_of_ne_nil _ hne
  have h1 := (fits_covers hD hP (hc2 a ha) (hf a ha)).1
  exact fun c hc => covers_fits hP (hc1 c hc) h1
    (reach_covers hP.res hc1 hc2 h (fun d hd => (fits_covers hD hP (hc2 d hd) (hf d hd)).2) c hc)

lemma part_sub (h : ∀ p ∈ cloud.points, p ∈ cloud'.points) : Spec.Sub cloud.bounds cloud'.bounds := by
  intro i
  obtain ⟨h1, h2, h3⟩ := C14_bounds_contain cloud' i
  exact C14_bounds_least cloud i _ _ ⟨h1, h2⟩ fun p hp hn => h3 p (h p hp) hn

lemma parts_reach (hc : CloudInRange cloud ρ) (h : PartsOf parts cloud) (hne : parts ≠ []) :
    ReachAsFar parts [cloud] ∧ ReachAsFar [cloud] parts := by
  refine ⟨fun c hcm i => ?_, fun c hcm i => ?_⟩
  · have hs := part_sub (cloud := c) (cloud' := cloud) (fun p hp => (h p).mpr ⟨c, hcm, hp⟩) i
    exact ⟨⟨cloud, List.mem_singleton_self _, hs.1⟩, cloud, List.mem_singleton_self _, hs.2⟩
  · rw [List.mem_singleton.mp hcm]
    have key : ∀ (ps : List (Point D F32)) (b : Bounds D F32) (P : F32 → Prop),
        P (b.min i) → P (b.max i) → (∀ p ∈ ps, P (p i)) →
        P ((ps.foldl PointCloud.boundsStep b).min i) ∧ P ((ps.foldl PointCloud.boundsStep b).max i) := by
      intro ps
      induction ps with
      | nil => intro b P h1 h2 _; exact ⟨h1, h2⟩
      | cons p ps ih =>
        intro b P h1 h2 h3
        have hp := h3 p List.mem_cons_self
        refine ih (PointCloud.boundsStep b p) P ?_ ?_ fun q hq => h3 q (List.mem_cons_of_mem _ hq)
        · unfold PointCloud.boundsStep; dsimp only; split_ifs <;> assumption
        · unfold PointCloud.boundsStep; dsimp only; split_ifs <;> assumption
    obtain ⟨a, ha⟩ := List.exists_mem_of_ne_nil _ hne
    have hpt : ∀ p ∈ cloud.points, ∃ d ∈ parts, FLe (d.bounds.min i) (p i) ∧ FLe (p i) (d.bounds.max i) := by
      intro p hp
      obtain ⟨d, hd, hpd⟩ := (h p).mp hp
      obtain ⟨x, hx, -⟩ := hc p hp i
      exact ⟨d, hd, (C14_bounds_contain d i).2.2 p hpd (Fp.notNaN_is hx)⟩
    obtain ⟨z1, z2, -⟩ := C14_bounds_contain a i
    have k1 := key cloud.points Bounds.empty (fun u => ∃ d ∈ parts, FLe (d.bounds.min i) u) ⟨a, ha, z1⟩ ⟨a, ha, z1⟩
      fun p hp => let ⟨d, hd, h1, _⟩ := hpt p hp; ⟨d, hd, h1⟩
    have k2 := key cloud.points Bounds.empty (fun u => ∃ d ∈ parts, FLe u (d.bounds.max i)) ⟨a, ha, z2⟩ ⟨a, ha, z2⟩
      fun p hp => let ⟨d, hd, _, h1⟩ := hpt p hp; ⟨d, hd, h1⟩
    exact ⟨k1.1, k2.2⟩

/-- C116, for C115: a cloud fits into a map exactly if all its parts do. -/
theorem C116_parts_fit (hD : D ≤ 3) (hP : Placed m cb ρ) (hc : CloudInRange cloud ρ) (h : PartsOf parts cloud)
    (hne : parts ≠ []) : Fits m cloud ↔ ∀ a ∈ parts, Fits m a := by
  obtain ⟨r1, r2⟩ := parts_reach hc h hne
  have hcp : ∀ a ∈ parts, CloudInRange a ρ := fun a ha p hp => hc p ((h p).mpr ⟨a, ha, hp⟩)
  have hcw : ∀ c ∈ [cloud], CloudInRange c ρ := fun c hcm => by rw [List.mem_singleton.mp hcm]; exact hc
  exact ⟨fun hf => C116_fits hD hP hcp hcw (by simp) r1 fun c hcm => by rw [List.mem_singleton.mp hcm]; exact hf,
    fun hf => C116_fits hD hP hcw hcp hne r2 hf cloud (List.mem_singleton_self _)⟩

/-- C116, for C115 with a map that grows: taking a scan in one piece and taking it in parts gives the same bounds and
size. -/
theorem C116_parts (hD : D ≤ 3) (hP : Placed m cb ρ) (hc : CloudInRange cloud ρ) (h : PartsOf parts cloud)
    (hne : parts ≠ []) {ord : List (Cell D) → List (Cell D)} (ho : IsOrder ord)
    (h1 : Integrates ord nm m origin cloud m1) (h2 : Scans nm m (parts.map fun a => (origin, a)) m2) :
    m2.bounds = m1.bounds ∧ m2.resolution = m1.resolution ∧ m2.data.shape = m1.data.shape := by
  have h1' : Scans nm m [(origin, cloud)] m1 := .step ho h1 (.done _)
  have hmap : (parts.map fun a => (origin, a)).map Prod.snd = parts := by
    rw [List.map_map]
    exact List.map_id _
  have hcp : ∀ s ∈ parts.map fun a => (origin, a), CloudInRange s.2 ρ := by
    intro s hs
    obtain ⟨a, ha, rfl⟩ := List.mem_map.mp hs
    exact fun p hp => hc p ((h p).mpr ⟨a, ha, hp⟩)
  have hcw : ∀ s ∈ [(origin, cloud)], CloudInRange s.2 ρ := by
    intro s hs
    rw [List.mem_singleton.mp hs]
    exact hc
  obtain ⟨r1, r2⟩ := parts_reach hc h hne
  obtain ⟨ca, cw, q1, q2, q3⟩ := C116_scans hD hP hcp hcw (by simpa using hne) (by rw [hmap]; exact r1) h2 h1'
  obtain ⟨cw', ca', q4, q5, q6⟩ := C116_scans hD hP hcw hcp (by simp) (by rw [hmap]; exact r2) h1' h2
  have e1 : ca' = ca := by rw [← q1.cells, ← q5.cells]
  have e2 : cw' = cw := by rw [← q2.cells, ← q4.cells]
  subst e1 e2
  have e : ca' = cw' := by
    ext i
    · exact le_antisymm (q6 i).1 (q3 i).1
    · exact le_antisymm (q3 i).2 (q6 i).2
  subst e
  obtain ⟨-, -, -, b3, -⟩ := boxes_scans hD hP hcp (by simpa using hne) h2
  obtain ⟨-, -, -, w3, -⟩ := boxes_scans hD hP hcw (by simp) h1'
  refine ⟨by rw [q1.bounds, q2.bounds, b3, w3], b3.trans w3.symm, ?_⟩
  funext i
  have := q1.shape i
  have := q2.shape i
  omega
end

/-! ## Examples -/

lemma reachAB : ReachAsFar [scanA.2, scanB.2] [scanAB] ∧ ReachAsFar [scanAB] [scanA.2, scanB.2] :=
  parts_reach (scanAB_range (scanA.1, scanAB) (by simp)) scanAB_parts (by simp)

/-- The scan in parts makes a new map grow as far as the scan in one piece: the hypotheses of `C116_scans` and
`C116_parts`. -/
example : ∃ (m m1 m2 : GridMap 2 F32 F32), Placed m CellBounds.empty 1 ∧ CloudInRange scanAB 1 ∧
    PartsOf [scanA.2, scanB.2] scanAB ∧ Integrates id defaultNM m scanA.1 scanAB m1 ∧
    Scans defaultNM m ([scanA.2, scanB.2].map fun a => (scanA.1, a)) m2 ∧ m1.bounds ≠ m.bounds ∧
    m2.bounds = m1.bounds ∧ ∃ cb1 cb2, Placed m1 cb1 1 ∧ Placed m2 cb2 1 ∧ CellSub cb1 cb2 := by
  have hr : Res (Fp.lit 1 : F32) 1 := ⟨by decide +kernel, by norm_num, by norm_num⟩
  obtain ⟨m, hm, hP⟩ := new_empty_placed (D := 2) (by norm_num) hr (t := 4) (by norm_num) (by norm_num) (Fp.lit 0 : F32)
  have h : (do
      let m : GridMap 2 F32 F32 ← GridMap.new (Fp.lit 1) Bounds.empty 4 (Fp.lit 0)
      let m1 ← defaultNM.integratePointCloud id 10 m scanA.1 scanAB
      let a ← defaultNM.integratePointCloud id 10 m scanA.1 scanA.2
      let _ ← defaultNM.integratePointCloud id 10 a scanA.1 scanB.2
      if m1.bounds.max 0 ≠ m.bounds.max 0 then return () else .error .fuel) = Except.ok () := by decide +kernel
  rw [hm, M.bind_ok] at h
  simp only [M.bind_eq_ok] at h
  obtain ⟨m1, hm1, a, ha, m2, hm2, h⟩ := h
  have hid : IsOrder (id : List (Cell 2) → List (Cell 2)) := fun l => .refl l
  have hc := scanAB_range (scanA.1, scanAB) (by simp)
  have hS : Scans defaultNM m ([scanA.2, scanB.2].map fun a => (scanA.1, a)) m2 :=
    .step hid ⟨10, ha⟩ (.step hid ⟨10, hm2⟩ (.done _))
  refine ⟨m, m1, m2, hP, hc, scanAB_parts, ⟨10, hm1⟩, hS, ?_,
    (C116_parts (by norm_num) hP hc scanAB_parts (by simp) hid ⟨10, hm1⟩ hS).1, ?_⟩
  · intro hb
    rw [hb, if_neg (by simp)] at h
    cases h
  · refine C116_scans (by norm_num) hP (scans1 := [(scanA.1, scanAB)])
      (scans2 := [scanA.2, scanB.2].map fun a => (scanA.1, a)) ?_ ?_ (by simp) reachAB.2
      (.step hid ⟨10, hm1⟩ (.done _)) hS
    · intro s hs
      rw [List.mem_singleton.mp hs]
      exact hc
    · intro s hs
      exact scansAB_range s hs

/-- A map into which the parts fit, and so the whole: the hypotheses of `C116_fits` and `C116_parts_fit`. -/
example : ∃ (m : GridMap 2 F32 F32) (cb : CellBounds 2), Placed m cb 1 ∧ (∀ a ∈ [scanA.2, scanB.2], Fits m a) ∧
    Fits m scanAB := by
  have hr : Res (Fp.lit 1 : F32) 1 := ⟨by decide +kernel, by norm_num, by norm_num⟩
  obtain ⟨m, hm, hP⟩ := new_empty_placed (D := 2) (by norm_num) hr (t := 4) (by norm_num) (by norm_num) (Fp.lit 0 : F32)
  have h : (do
      let m : GridMap 2 F32 F32 ← GridMap.new (Fp.lit 1) Bounds.empty 4 (Fp.lit 0)
      let a ← defaultNM.integratePointCloud id 10 m scanA.1 scanA.2
      let _ ← defaultNM.integratePointCloud id 10 a scanB.1 scanB.2
      return ()) = Except.ok () := by decide +kernel
  rw [hm, M.bind_ok] at h
  simp only [M.bind_eq_ok] at h
  obtain ⟨a, ha, b, hb, -⟩ := h
  have hid : IsOrder (id : List (Cell 2) → List (Cell 2)) := fun l => .refl l
  have hS : Scans defaultNM m [scanA, scanB] b := .step hid ⟨10, ha⟩ (.step hid ⟨10, hb⟩ (.done _))
  obtain ⟨cb, hPb, -⟩ := boxes_scans (by norm_num) hP scansAB_range (by simp) hS
  have hf := C67_then_fits (by norm_num) hP scansAB_range hS
  have hfp : ∀ a ∈ [scanA.2, scanB.2], Fits b a := by
    intro a ha
    rcases List.mem_cons.mp ha with rfl | ha
    · exact hf scanA (by simp)
    · rw [List.mem_singleton.mp ha]
      exact hf scanB (by simp)
  exact ⟨b, cb, hPb, hfp, (C116_parts_fit (by norm_num) hPb (scanAB_range (scanA.1, scanAB) (by simp)) scanAB_parts
    (by simp)).mpr hfp⟩

/-- Boxes for `C116_cells`, with corners on grid lines and off them. -/
example : ∃ d d' : Bounds 2 F32,
    (⟨fun _ => Fp.lit 0, fun _ => Fp.lit 2⟩ : Bounds 2 F32).discretized (Fp.lit 1) true = .ok d ∧
    (⟨fun _ => Fp.lit (-1 / 4), fun _ => Fp.lit (7 / 2)⟩ : Bounds 2 F32).discretized (Fp.lit 1) true = .ok d' ∧
    CellSub (CellBounds.fromBounds d (Fp.lit 1)) (CellBounds.fromBounds d' (Fp.lit 1)) := by
  have hr : Res (Fp.lit 1 : F32) 1 := ⟨by decide +kernel, by norm_num, by norm_num⟩
  have e0 : (Fp.lit 0 : F32).Is 0 := by decide +kernel
  have e1 : (Fp.lit 2 : F32).Is 2 := by decide +kernel
  have e2 : (Fp.lit (-1 / 4) : F32).Is (-1 / 4) := by decide +kernel
  have e3 : (Fp.lit (7 / 2) : F32).Is (7 / 2) := by decide +kernel
  have h : (do
      let _ ← (⟨fun _ => Fp.lit 0, fun _ => Fp.lit 2⟩ : Bounds 2 F32).discretized (Fp.lit 1) true
      let _ ← (⟨fun _ => Fp.lit (-1 / 4), fun _ => Fp.lit (7 / 2)⟩ : Bounds 2 F32).discretized (Fp.lit 1) true
      return ()) = Except.ok () := by decide +kernel
  simp only [M.bind_eq_ok] at h
  obtain ⟨d, hd, d', hd', -⟩ := h
  have l1 : Spec.FLe (Fp.lit (-1 / 4) : F32) (Fp.lit 0) := by decide +kernel
  have l2 : Spec.FLe (Fp.lit 2 : F32) (Fp.lit (7 / 2)) := by decide +kernel
  exact ⟨d, d', hd, hd', C116_cells hr (fun _ => ⟨0, 2, e0, e1, by norm_num, by norm_num, by norm_num⟩)
    (fun _ => ⟨-1 / 4, 7 / 2, e2, e3, by norm_num, by norm_num, by norm_num [abs_div]⟩) (fun _ => ⟨l1, l2⟩) hd hd'⟩

/-- Two positions on either side of a grid line, for `C116_corner`: 7/8 and 1. -/
example : cellOf (Fp.lit 1 : F32) (Bounds.discMin (Fp.lit 1) (Fp.lit (7 / 8))) ≤
    cellOf (Fp.lit 1 : F32) (Bounds.discMin (Fp.lit 1) (Fp.lit 1)) :=
  (C116_corner (ρ := 1) ⟨by decide +kernel, by norm_num, by norm_num⟩ (x := 7 / 8) (x' := 1) (by decide +kernel)
    (by decide +kernel) (by norm_num [abs_div]) (by norm_num) (by norm_num)).1

end Verif.Props
