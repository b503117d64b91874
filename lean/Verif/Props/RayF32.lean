import Verif.Lemmas.RaySteps
import Verif.Spec.Rays
import Verif.Spec.Run
import Verif.Props.Convert

/-!
# C22, C24, C25: rays in f32
-/

namespace Verif.Props
open Spec Scalar

variable {D : ℕ} {M ρ : ℚ} {o e : Point D F32} {bounds : Bounds D F32} {r : F32} {x y q : Fin D → ℚ}

/-- Everything the loop knows about its axes. -/
lemma axes (hD : D = 2 ∨ D = 3) (h : RayRange M o e bounds.min r x y q ρ) (ml : F32)
    (hne : cellFromPoint o bounds.min r ≠ cellFromPoint e bounds.min r) :
    ∃ L : ℚ, 0 < L ∧ (∀ i, |y i - x i| / 4 ≤ L) ∧
      (∀ i, y i = x i → cellFromPoint e bounds.min r i = cellFromPoint o bounds.min r i ∧
        (rayCtx o e bounds r ml).s i = 0 ∧
        ∀ k, (rayCtx o e bounds r ml).tAt (t0 o e bounds r) i k = Scalar.inf) ∧
      (∀ i, y i ≠ x i → 0 ≤ (rayCtx o e bounds r ml).s i *
          (cellFromPoint e bounds.min r i - cellFromPoint o bounds.min r i) ∧
        AxisInfo (rayCtx o e bounds r ml) (t0 o e bounds r) i M ρ (y i - x i)
        ((rayCtx o e bounds r ml).s i * (q i + cellFromPoint o bounds.min r i * ρ - x i)) L) ∧
      ∃ i, y i ≠ x i := by
  obtain ⟨L, h1, h2, h3⟩ := len_is hD h
  have hcell : ∀ i, y i = x i → cellFromPoint e bounds.min r i = cellFromPoint o bounds.min r i := by
    intro i hi
    have a1 : FLe (e i) (o i) := (Fp.FLe_is (h.end_ i) (h.origin i)).mpr hi.le
    have a2 : FLe (o i) (e i) := (Fp.FLe_is (h.origin i) (h.end_ i)).mpr hi.ge
    exact le_antisymm (C03_monotone (h.offset i) h.res h.pos a1) (C03_monotone (h.offset i) h.res h.pos a2)
  have hmv : ∃ i, y i ≠ x i := by
    by_contra hc
    push Not at hc
    exact hne (funext fun i => (hcell i (hc i)).symm)
  have hL : 0 < L := by
    obtain ⟨i, hi⟩ := hmv
    have := abs_pos.mpr (sub_ne_zero.mpr hi)
    linarith [h2 i]
  refine ⟨L, hL, h2, ?_, ?_, hmv⟩
  · intro i hi
    obtain ⟨s1, s2, s3⟩ := axis_still h hL h1 ml hi
    exact ⟨hcell i hi, s1, tAt_still s2 s3⟩
  · intro i hi
    have hax := axis_moving h hL h1 h2 h3 ml hi
    refine ⟨?_, hax⟩
    have ht := hax.toward
    have hw := abs_pos.mpr (sub_ne_zero.mpr hi)
    rw [← ht] at hw
    rcases hax.step with hs | hs
    · rw [hs] at hw ⊢
      push_cast at hw
      have : FLe (o i) (e i) := (Fp.FLe_is (h.origin i) (h.end_ i)).mpr (by linarith)
      have := C03_monotone (h.offset i) h.res h.pos this
      change 0 ≤ 1 * (cellCoordFromPointCoord _ _ _ - cellCoordFromPointCoord _ _ _)
      linarith
    · rw [hs] at hw ⊢
      push_cast at hw
      have : FLe (e i) (o i) := (Fp.FLe_is (h.end_ i) (h.origin i)).mpr (by linarith)
      have := C03_monotone (h.offset i) h.res h.pos this
      change 0 ≤ -1 * (cellCoordFromPointCoord _ _ _ - cellCoordFromPointCoord _ _ _)
      linarith

/-- Cells of the ends are near the offset. -/
lemma cell_small {b p : Point D F32} {z : ℚ} {i : Fin D} (hr : Res r ρ) (hb : (b i).Is (q i))
    (hM1 : 1 ≤ M) (hM : M ≤ 2 ^ 20) (hp : (p i).Is z) (hz : |z - q i| ≤ M * ρ) :
    |cellFromPoint p b r i| ≤ 2 ^ 20 + 1 := by
  obtain ⟨d, h1, h2⟩ := cellCoord_is hr hb hp hz (hM.trans (by norm_num)) hM1
  have h3 := Fp.roundAway_err d
  have hc : cellFromPoint p b r i = roundAway d := h1
  rw [hc]
  have h4 : |(z - q i) / ρ| ≤ M := by
    rw [abs_div, abs_of_pos hr.pos, div_le_iff₀ hr.pos]; exact hz
  have h5 := abs_sub_abs_le_abs_sub d ((z - q i) / ρ)
  have h6 := abs_sub_abs_le_abs_sub (roundAway d : ℚ) d
  have h7 : |(roundAway d : ℚ)| ≤ ((2 ^ 20 + 1 : ℤ) : ℚ) := by
    push_cast
    norm_num at h2 hM ⊢
    linarith
  exact_mod_cast h7

lemma inIsize_of_abs {n : ℤ} (h : |n| ≤ 2 ^ 60) : InIsize n := by
  rw [abs_le] at h
  unfold InIsize isizeMin isizeMax
  constructor <;> linarith [h.1, h.2]

/-! ## C25 -/

/-- C25: a ray along an axis, without range limit, returns the straight run of cells from the origin's cell
to the end's cell, and the end's cell. -/
theorem C25_axis_aligned (hD : D = 2 ∨ D = 3) (h : RayRange M o e bounds.min r x y q ρ) {ml : F32}
    (hml : Scalar.lt (lit 0) ml = false) (a : Fin D) (ha : ∀ j, j ≠ a → y j = x j) :
    Casts o e bounds r ml (run (cellFromPoint o bounds.min r) (cellFromPoint e bounds.min r) a)
        (some (cellFromPoint e bounds.min r)) ∧
      ∀ j, j ≠ a → cellFromPoint e bounds.min r j = cellFromPoint o bounds.min r j := by
  set oc := cellFromPoint o bounds.min r with hoc
  set ec := cellFromPoint e bounds.min r with hec
  by_cases hne : oc = ec
  · refine ⟨⟨0, ?_⟩, fun j _ => by rw [hne]⟩
    unfold castRay
    rw [if_pos hD]
    dsimp only
    rw [← hoc, ← hec, if_pos hne, hne]
    simp [run]
  set c := rayCtx o e bounds r ml with hc
  obtain ⟨L, hL, -, hstill, hmove, m, hm⟩ := axes hD h ml hne
  rw [← hc, ← hoc, ← hec] at hstill hmove
  have hma : y a ≠ x a := by
    by_cases hma : m = a
    · exact hma ▸ hm
    · exact absurd (ha m hma) hm
  obtain ⟨hah, hax⟩ := hmove a hma
  have hcs : ∀ j, j ≠ a → c.s j = 0 := fun j hj => (hstill j (ha j hj)).2.1
  have hcj : ∀ j, j ≠ a → ec j = oc j := fun j hj => (hstill j (ha j hj)).1
  refine ⟨?_, hcj⟩
  have hoa : ∀ i, |oc i| ≤ 2 ^ 20 + 1 := fun i =>
    cell_small h.toRes (h.offset i) h.M_lo h.M_hi (h.origin i) (h.origin_near i)
  have hea : ∀ i, |ec i| ≤ 2 ^ 20 + 1 := fun i =>
    cell_small h.toRes (h.offset i) h.M_lo h.M_hi (h.end_ i) (h.end_near i)
  set n := (ec a - oc a).natAbs with hn
  have hn24 : n + 1 < 2 ^ 24 := by
    have h1 := abs_le.mp (hoa a)
    have h2 := abs_le.mp (hea a)
    omega
  have hec0 : ec a ≠ oc a := by
    intro h1
    apply hne
    funext j
    by_cases hj : j = a
    · rw [hj, h1]
    · rw [hcj j hj]
  have hsg : c.s a = (ec a - oc a).sign ∧ c.s a * n = ec a - oc a := by
    rcases hax.step with h1 | h1
    · rw [h1] at hah ⊢
      have h2 : 0 < ec a - oc a := by omega
      rw [Int.sign_eq_one_of_pos h2]
      exact ⟨rfl, by omega⟩
    · rw [h1] at hah ⊢
      have h2 : ec a - oc a < 0 := by omega
      rw [Int.sign_eq_neg_one_of_neg h2]
      exact ⟨rfl, by omega⟩
  set N : Fin D → ℕ := fun i => if i = a then n else 0 with hN
  have hNa : N a = n := by simp [hN]
  have hNj : ∀ j, j ≠ a → N j = 0 := fun j hj => by simp [hN, hj]
  have hdim : ∀ d, 0 < N d → d = a := by
    intro d hd
    by_contra hda
    rw [hNj d hda] at hd
    exact lt_irrefl _ hd
  set g : ℕ → Cell D := fun k => Function.update oc a (oc a + (ec a - oc a).sign * k) with hg
  have hgk : ∀ k : Fin D → ℕ, (∀ i, k i ≤ N i) → c.cellAt oc k = g (k a) := by
    intro k hk
    funext j
    by_cases hj : j = a
    · subst hj
      simp only [RayCtx.cellAt, hg, Function.update_self, hsg.1]
    · simp only [RayCtx.cellAt, hg, Function.update_of_ne hj, hcs j hj]
      ring
  have hend : c.endCell = c.cellAt oc N := by
    rw [hgk N (fun _ => le_rfl), hNa]
    funext j
    change ec j = g n j
    by_cases hj : j = a
    · subst hj
      simp only [hg, Function.update_self, ← hsg.1]
      linarith [hsg.2]
    · simp only [hg, Function.update_of_ne hj]
      exact hcj j hj
  have hsel : ∀ k : Fin D → ℕ, (∀ i, k i ≤ N i) → ∀ d,
      selDim (fun i => c.tAt (t0 o e bounds r) i (k i)) = some d → d = a := by
    intro k hk d hd
    by_contra hda
    have hka := hk a
    obtain ⟨T, hT, -⟩ := tAt_finite hax (k a) (by omega)
    have hnan : ∀ i, (c.tAt (t0 o e bounds r) i (k i)).isNaN = false := by
      intro i
      by_cases hi : i = a
      · rw [hi]; exact Fp.notNaN_is hT
      · rw [(hstill i (ha i hi)).2.2]; rfl
    have hle := selDim_le hd hnan a
    rw [(hstill d (ha d hda)).2.2] at hle
    have : (Scalar.inf : F32).lt (c.tAt (t0 o e bounds r) a (k a)) = false := by
      obtain ⟨_, _, _, h1⟩ := hT
      rw [h1]; rfl
    have h2 : (c.tAt (t0 o e bounds r) a (k a)).lt (Scalar.inf : F32) = true := by
      obtain ⟨_, _, _, h1⟩ := hT
      rw [h1]; rfl
    rw [Fp.not_lt_of_FLe hle] at h2
    cases h2
  have hupd : ∀ k : Fin D → ℕ, (∀ i, k i ≤ N i) → k a < n →
      ∀ i, Function.update k a (k a + 1) i ≤ N i := by
    intro k hk hlt i
    by_cases hi : i = a
    · subst hi; rw [Function.update_self, hNa]; exact hlt
    · rw [Function.update_of_ne hi]; exact hk i
  obtain ⟨l, hl, hQ⟩ := c.exists_path (a := oc) (T := c.tAt (t0 o e bounds r)) (N := N)
    (Q := fun k l => l = (List.range' (k a + 1) (n - k a)).map g)
    (by
      intro i
      by_cases hi : i = a
      · rw [hi]
        rcases hax.step with h1 | h1
        · exact .inl h1
        · exact .inr (.inl h1)
      · exact .inr (.inr ⟨hcs i hi, hNj i hi⟩))
    (fun i k => rfl) hend
    (fun i => inIsize_of_abs ((hoa i).trans (by norm_num)))
    (fun i => inIsize_of_abs ((hea i).trans (by norm_num)))
    (by
      intro k hk hkN
      obtain ⟨d, hd⟩ := selDim_some hD (fun i => c.tAt (t0 o e bounds r) i (k i))
      have hda := hsel k hk d hd
      refine ⟨d, hd, ?_⟩
      rw [hda]
      refine lt_of_le_of_ne (hk a) fun h1 => hkN (funext fun i => ?_)
      by_cases hi : i = a
      · rw [hi, h1]
      · have := hk i
        rw [hNj i hi] at this ⊢
        omega)
    (by
      intro k d hk hd hk'
      have hda := hsel k hk d hd
      subst hda
      have h1 := congrFun hk' d
      rw [Function.update_self, hNa] at h1
      rw [← h1]
      simp only [Nat.add_sub_cancel_left, List.range'_one, List.map_cons, List.map_nil]
      rw [hend, hgk N (fun _ => le_rfl), hNa, h1])
    (by
      intro k d l hk hlt hd hQ
      have hda := hsel k hk d hd
      subst hda
      rw [hNa] at hlt
      rw [hgk _ (hupd k hk hlt), hQ, Function.update_self]
      have h1 : n - k d = (n - (k d + 1)) + 1 := by omega
      rw [h1, List.range'_succ, List.map_cons])
    (fun _ => 0) (fun i => Nat.zero_le _) (by
      intro h1
      have := congrFun h1 a
      rw [hNa] at this
      omega)
  have hz : c.cellAt oc (fun _ => 0) = oc := by
    funext i; simp [RayCtx.cellAt]
  have hne0 := hl.ne_nil
  rw [hz] at hl
  have hfar : ∀ z, c.tooFar z = false := by
    intro z
    unfold RayCtx.tooFar
    rw [show c.maxLen = ml from rfl, hml]
    rfl
  have hloop := hl.castLoop_near (fun z _ => hfar z)
  have hcast := castRay_path hD hne hloop
  refine ⟨l.length, ?_⟩
  rw [hcast, hQ]
  have hn1 : n = n - 1 + 1 := by omega
  have e1 : oc :: ((List.range' (0 + 1) (n - 0)).map g).dropLast = run oc ec a := by
    unfold run
    rw [List.range_eq_range', ← hn, Nat.sub_zero, zero_add, hn1, List.range'_succ (s := 0), List.map_cons,
      ← List.map_dropLast]
    congr 1
    · simp
    · rw [← List.range'_append_1 (s := 1) (m := n - 1) (n := 1)]
      simp
      intro _ _ _
      rfl
  rw [show oc :: (List.map g (List.range' (0 + 1) (n - 0))).dropLast = run oc ec a from e1]
  rfl

/-- The working range for given numbers, by computation. -/
lemma rayRange_val {o e b : Point D F32} {r : F32} {M : ℚ}
    (h : r.isFin = true ∧ 1 / 2 ^ 20 ≤ r.val ∧ r.val ≤ 2 ^ 20 ∧ 1 ≤ M ∧ M ≤ 2 ^ 20 ∧
      ∀ i, (o i).isFin = true ∧ (e i).isFin = true ∧ (b i).isFin = true ∧
        |(o i).val - (b i).val| ≤ M * r.val ∧ |(e i).val - (b i).val| ≤ M * r.val ∧ |(b i).val| ≤ M * r.val ∧
        ((e i).val = (o i).val ∨ r.val / 2 ^ 40 ≤ |(e i).val - (o i).val|)) :
    RayRange M o e b r (fun i => (o i).val) (fun i => (e i).val) (fun i => (b i).val) r.val := by
  obtain ⟨h1, h2, h3, h4, h5, h6⟩ := h
  exact ⟨Fp.isFin_is h1, h2, h3, h4, h5, fun i => Fp.isFin_is (h6 i).1, fun i => Fp.isFin_is (h6 i).2.1,
    fun i => Fp.isFin_is (h6 i).2.2.1, fun i => (h6 i).2.2.2.1, fun i => (h6 i).2.2.2.2.1,
    fun i => (h6 i).2.2.2.2.2.1, fun i => (h6 i).2.2.2.2.2.2⟩

/-- A ray of 67 cells of side 0.1. -/
example : (∃ x y q ρ, RayRange 100 (![Fp.lit (1/3), Fp.lit (1/5)] : Point 2 F32) ![Fp.lit 7, Fp.lit (1/5)]
    ![Fp.lit (-1), Fp.lit (-1)] (Fp.lit (1/10)) x y q ρ ∧ ∀ j, j ≠ 0 → y j = x j) ∧
    (run (cellFromPoint (![Fp.lit (1/3), Fp.lit (1/5)] : Point 2 F32) ![Fp.lit (-1), Fp.lit (-1)] (Fp.lit (1/10)))
      (cellFromPoint (![Fp.lit 7, Fp.lit (1/5)] : Point 2 F32) ![Fp.lit (-1), Fp.lit (-1)] (Fp.lit (1/10)))
      0).length = 67 :=
  ⟨⟨_, _, _, _, rayRange_val (by decide +kernel), by decide +kernel⟩, by decide +kernel⟩

/-! ## C22 -/

/-- A cell far from the offset is beyond the range limit. -/
lemma far_cell (hD : D = 2 ∨ D = 3) (h : RayRange M o e bounds.min r x y q ρ) {ml : F32} {lam : ℚ}
    (hml : ml.Is lam) (h0 : 0 < lam) (hle : lam ≤ M * ρ) {z : Cell D} (hz : ∀ i, |z i| ≤ 2 ^ 22)
    {i : Fin D} (hi : |z i| = 2 ^ 22) : (rayCtx o e bounds r ml).tooFar z = true := by
  have hp := h.pos
  have hlo := h.lo
  have hhi := h.hi
  have hM1 := h.M_lo
  have hM := h.M_hi
  have hP : ∀ j, (pointFromCell z bounds.min r j).Is (cellPoint (z j) (q j) ρ) ∧
      |cellPoint (z j) (q j) ρ - (z j * ρ + q j)| ≤ 1 * ρ := by
    intro j
    have hzq : |(z j : ℚ)| ≤ 2 ^ 22 := by exact_mod_cast hz j
    obtain ⟨h1, h2⟩ := pointCoord_is (c := z j) (N := 2 ^ 22) h.toRes (h.offset j) hzq
      ((h.offset_near j).trans (by gcongr; exact hM.trans (by norm_num))) (by norm_num) (by norm_num)
    refine ⟨h1, h2.trans ?_⟩
    refine mul_le_mul_of_nonneg_right ?_ hp.le
    norm_num
  -- from the origin to the centres
  have hdist : ∀ j, (pointFromCell z bounds.min r j -. o j).Is (b32.rnd (cellPoint (z j) (q j) ρ - x j)) ∧
      |cellPoint (z j) (q j) ρ - x j - z j * ρ| ≤ (M + 1) * ρ ∧
      |b32.rnd (cellPoint (z j) (q j) ρ - x j) - (cellPoint (z j) (q j) ρ - x j)| ≤ 1 * ρ := by
    intro j
    obtain ⟨h1, h2⟩ := hP j
    have h3 : |cellPoint (z j) (q j) ρ - x j - z j * ρ| ≤ (M + 1) * ρ := by
      have e1 : cellPoint (z j) (q j) ρ - x j - z j * ρ
          = (cellPoint (z j) (q j) ρ - (z j * ρ + q j)) - (x j - q j) := by ring
      rw [e1]
      have := abs_sub (cellPoint (z j) (q j) ρ - (z j * ρ + q j)) (x j - q j)
      linarith [h.origin_near j]
    have h4 : |(z j : ℚ) * ρ| ≤ 2 ^ 22 * ρ := by
      rw [abs_mul, abs_of_pos hp]
      have : |(z j : ℚ)| ≤ 2 ^ 22 := by exact_mod_cast hz j
      gcongr
    have h5 : |cellPoint (z j) (q j) ρ - x j| ≤ 2 ^ 23 * ρ := by
      have := abs_sub_abs_le_abs_sub (cellPoint (z j) (q j) ρ - x j) (z j * ρ)
      have h6 : (M + 1) * ρ ≤ (2 ^ 20 + 1) * ρ := by gcongr
      linarith
    have h6 := F32.err_res h.toRes.2.1 h5
    refine ⟨h1.sub (h.origin j) (F32.noOvf_res hp h.toRes.2.2 (by norm_num) (by norm_num) h5), h3, ?_⟩
    refine h6.trans (mul_le_mul_of_nonneg_right (by norm_num) hp.le)
  have hbound : ∀ j, |b32.rnd (cellPoint (z j) (q j) ρ - x j)| ≤ 2 ^ 23 * ρ := by
    intro j
    obtain ⟨-, h2, h3⟩ := hdist j
    have h4 : |(z j : ℚ) * ρ| ≤ 2 ^ 22 * ρ := by
      rw [abs_mul, abs_of_pos hp]
      have : |(z j : ℚ)| ≤ 2 ^ 22 := by exact_mod_cast hz j
      gcongr
    have h5 := abs_sub_abs_le_abs_sub (cellPoint (z j) (q j) ρ - x j) (z j * ρ)
    have h6 := abs_sub_abs_le_abs_sub (b32.rnd (cellPoint (z j) (q j) ρ - x j)) (cellPoint (z j) (q j) ρ - x j)
    have h7 : (M + 1) * ρ ≤ (2 ^ 20 + 1) * ρ := by gcongr
    linarith
  obtain ⟨Q, g1, g2, g3, -⟩ := normSquared_is (B := 2 ^ 23 * ρ) hD (fun j => (hdist j).1) hbound
    (by norm_num at hlo ⊢; linarith) (by norm_num at hhi ⊢; linarith)
  -- the square of the limit
  have hlam2 : lam * lam ≤ 2 ^ 40 * (ρ * ρ) := by
    have : lam ≤ 2 ^ 20 * ρ := hle.trans (by gcongr)
    calc lam * lam ≤ 2 ^ 20 * ρ * (2 ^ 20 * ρ) := by gcongr
      _ = _ := by ring
  have hρρ : ρ * ρ ≤ 2 ^ 40 := by
    calc ρ * ρ ≤ 2 ^ 20 * 2 ^ 20 := by gcongr
      _ = _ := by norm_num
  have hρρ1 : (1 / 2 ^ 40 : ℚ) ≤ ρ * ρ := by
    calc (1 / 2 ^ 40 : ℚ) = 1 / 2 ^ 20 * (1 / 2 ^ 20) := by norm_num
      _ ≤ ρ * ρ := by gcongr
  have hm := hml.mul hml (F32.noOvf (by
    rw [abs_of_nonneg (by positivity)]; norm_num at hlam2 hρρ ⊢; linarith))
  -- the coordinate that is far
  set a := b32.rnd (cellPoint (z i) (q i) ρ - x i) with ha
  have ha1 : 2 ^ 21 * ρ ≤ |a| := by
    obtain ⟨-, h2, h3⟩ := hdist i
    have h4 : |(z i : ℚ) * ρ| = 2 ^ 22 * ρ := by
      rw [abs_mul, abs_of_pos hp]
      have : |(z i : ℚ)| = 2 ^ 22 := by exact_mod_cast hi
      rw [this]
    have h5 := abs_sub_abs_le_abs_sub ((z i : ℚ) * ρ) (cellPoint (z i) (q i) ρ - x i)
    rw [abs_sub_comm ((z i : ℚ) * ρ)] at h5
    have h6 := abs_sub_abs_le_abs_sub (cellPoint (z i) (q i) ρ - x i) a
    rw [abs_sub_comm _ a] at h6
    have h7 : (M + 1) * ρ ≤ (2 ^ 20 + 1) * ρ := by gcongr
    linarith
  have haa : 2 ^ 42 * (ρ * ρ) ≤ a * a := by
    rw [← abs_mul_abs_self a]
    calc 2 ^ 42 * (ρ * ρ) = 2 ^ 21 * ρ * (2 ^ 21 * ρ) := by ring
      _ ≤ _ := by gcongr
  have hE1 := abs_le.mp (F32.err (lam * lam))
  have hE2 := abs_le.mp (F32.err (a * a))
  rw [abs_of_nonneg (mul_self_nonneg lam)] at hE1
  rw [abs_of_nonneg (mul_self_nonneg a)] at hE2
  have hlt : b32.rnd (lam * lam) < Q := by
    refine lt_of_lt_of_le ?_ (g3 i)
    rw [← ha]
    norm_num at hE1 hE2 haa hlam2 hρρ1 ⊢
    linarith [hE1.2, hE2.1]
  have c1 : Scalar.lt (lit 0) ml = true := by
    change Fp.lt (Fp.lit 0) ml = true
    rw [F32.zero_is.lt hml]; simpa using h0
  have c2 : Scalar.lt (ml *. ml) (normSquared fun j => pointFromCell z bounds.min r j -. o j) = true := by
    have : Fp.lt (Fp.mul ml ml) (normSquared fun j => pointFromCell z bounds.min r j -. o j) = true := by
      rw [Fp.Is.lt hm g1]; simpa using hlt
    exact this
  unfold RayCtx.tooFar
  change ((lit 0 <. ml) && ((ml *. ml) <. normSquared fun j => pointFromCell z bounds.min r j -. o j)) = true
  rw [c1, c2]
  rfl

/-- C22: with a positive range limit `cast_ray` returns, in f32, in the working range. -/
theorem C22_f32_returns (hD : D = 2 ∨ D = 3) (h : RayRange M o e bounds.min r x y q ρ) {ml : F32} {lam : ℚ}
    (hml : ml.Is lam) (h0 : 0 < lam) (hle : lam ≤ M * ρ) : ∃ ray res, Casts o e bounds r ml ray res := by
  set oc := cellFromPoint o bounds.min r with hoc
  set ec := cellFromPoint e bounds.min r with hec
  by_cases hne : oc = ec
  · refine ⟨[], some ec, 0, ?_⟩
    unfold castRay
    rw [if_pos hD]
    dsimp only
    rw [← hoc, ← hec, if_pos hne]
  set c := rayCtx o e bounds r ml with hc
  obtain ⟨L, hL, -, hstill, hmove, m, hm⟩ := axes hD h ml hne
  rw [← hc, ← hoc, ← hec] at hstill hmove
  have hoa : ∀ i, |oc i| ≤ 2 ^ 20 + 1 := fun i =>
    cell_small h.toRes (h.offset i) h.M_lo h.M_hi (h.origin i) (h.origin_near i)
  -- while the cell is near, no axis has made many steps
  have hk : ∀ k : Fin D → ℕ, (∀ i, |c.cellAt oc k i| < 2 ^ 22) → (∀ i, c.s i = 0 → k i = 0) →
      ∀ i, k i ≤ 2 ^ 22 + 2 ^ 20 + 1 := by
    intro k h1 h2 i
    have h3 := abs_lt.mp (h1 i)
    have h4 := abs_le.mp (hoa i)
    unfold RayCtx.cellAt at h3
    by_cases hi : y i = x i
    · rw [h2 i (hstill i hi).2.1]; norm_num
    · rcases (hmove i hi).2.step with h5 | h5 <;> rw [h5] at h3 <;> omega
  have hret := castLoop_returns c (a := oc) (t := t0 o e bounds r)
    (Good := fun k => (∀ i, |c.cellAt oc k i| < 2 ^ 22) ∧ ∀ i, c.s i = 0 → k i = 0) (K := 3 * 2 ^ 23)
    (by
      rintro k ⟨h1, h2⟩
      have h3 := hk k h1 h2
      have h4 : ∑ i, k i ≤ ∑ _i : Fin D, (2 ^ 22 + 2 ^ 20 + 1) := Finset.sum_le_sum fun i _ => h3 i
      rw [Finset.sum_const, Finset.card_univ, Fintype.card_fin, smul_eq_mul] at h4
      rcases hD with rfl | rfl <;> omega)
    (by
      rintro k ⟨h1, h2⟩
      have h3 := hk k h1 h2
      obtain ⟨d, hd⟩ := selDim_some hD (fun i => c.tAt (t0 o e bounds r) i (k i))
      have hfin : ∀ i, y i ≠ x i → ∃ T, (c.tAt (t0 o e bounds r) i (k i)).Is T := by
        intro i hi
        obtain ⟨T, hT, -⟩ := tAt_finite (hmove i hi).2 (k i) (by have := h3 i; omega)
        exact ⟨T, hT⟩
      have hnan : ∀ i, (c.tAt (t0 o e bounds r) i (k i)).isNaN = false := by
        intro i
        by_cases hi : y i = x i
        · rw [(hstill i hi).2.2]; rfl
        · obtain ⟨T, hT⟩ := hfin i hi
          exact Fp.notNaN_is hT
      have hdm : y d ≠ x d := by
        intro hdm
        have hle := selDim_le hd hnan m
        rw [(hstill d hdm).2.2] at hle
        obtain ⟨T, hT⟩ := hfin m hm
        have h2 : (c.tAt (t0 o e bounds r) m (k m)).lt (Scalar.inf : F32) = true := by
          obtain ⟨_, _, _, h1⟩ := hT
          rw [h1]; rfl
        rw [Fp.not_lt_of_FLe hle] at h2
        cases h2
      have hstep := (hmove d hdm).2.step
      have hnext : ∀ i, |c.cellAt oc (Function.update k d (k d + 1)) i| ≤ 2 ^ 22 := by
        intro i
        have h5 := abs_lt.mp (h1 i)
        rw [← c.cellAt_step]
        by_cases hi : i = d
        · subst hi
          rw [Function.update_self, abs_le]
          rcases hstep with h6 | h6 <;> rw [h6] <;> constructor <;> omega
        · rw [Function.update_of_ne hi]; exact (h1 i).le
      refine ⟨d, hd, ?_, ?_⟩
      · apply inIsize_of_abs
        have h5 := abs_lt.mp (h1 d)
        rw [abs_le]
        rcases hstep with h6 | h6 <;> rw [h6] <;> constructor <;> omega
      · intro hnf
        refine ⟨fun i => lt_of_le_of_ne (hnext i) fun h5 => ?_, ?_⟩
        · rw [far_cell hD h hml h0 hle hnext h5] at hnf
          cases hnf
        · intro i hi
          by_cases hid : i = d
          · subst hid; rcases hstep with h6 | h6 <;> rw [hi] at h6 <;> omega
          · rw [Function.update_of_ne hid]; exact h2 i hi)
  have hz : c.cellAt oc (fun _ => 0) = oc := by
    funext i; simp [RayCtx.cellAt]
  obtain ⟨⟨l, res⟩, hr⟩ := hret (3 * 2 ^ 23) (fun _ => 0) ⟨by
    intro i
    rw [hz]
    exact lt_of_le_of_lt (hoa i) (by norm_num), fun _ _ => rfl⟩ (by omega)
  rw [hz] at hr
  exact ⟨_, _, _, castRay_path hD hne hr⟩

/-- The case of `C22_border_missed` with a limit of 10 cells. -/
example : ∃ x y q ρ, RayRange 100 (![Fp.lit 0, Fp.lit 1] : Point 2 F32) ![Fp.lit (1/2), Fp.lit (1/2)]
    ![Fp.lit 0, Fp.lit 0] (Fp.lit 1) x y q ρ ∧ (Fp.lit 10 : F32).Is 10 ∧ (10 : ℚ) ≤ 100 * ρ :=
  ⟨_, _, _, _, rayRange_val (by decide +kernel), F32.lit_int_is (n := 10) (by norm_num),
    by decide +kernel⟩

/-! ## C24 -/

/-- C24: a ray of at most `K` cells along each axis, whose end keeps the margin
`(5 M + K² + 10 K + 23) / 2^24` (in cells) from the borders of its cell along the axes that move, reaches
its end cell, unless a cell of the box between the two cells is beyond the range limit. -/
theorem C24_reaches_end (hD : D = 2 ∨ D = 3) (h : RayRange M o e bounds.min r x y q ρ) {K : ℕ}
    (hK : ∀ i, |cellFromPoint e bounds.min r i - cellFromPoint o bounds.min r i| ≤ K)
    (hmargin : ∀ i, y i ≠ x i → |y i - (q i + cellFromPoint e bounds.min r i * ρ)| ≤
      (1 / 2 - (5 * M + K ^ 2 + 10 * K + 23) / 2 ^ 24) * ρ) {ml : F32}
    (hfar : Scalar.lt (lit 0) ml = true → ∀ z, Between (cellFromPoint o bounds.min r)
      (cellFromPoint e bounds.min r) z → ¬ Beyond o bounds r ml z) :
    ∃ ray, Casts o e bounds r ml ray (some (cellFromPoint e bounds.min r)) := by
  set oc := cellFromPoint o bounds.min r with hoc
  set ec := cellFromPoint e bounds.min r with hec
  by_cases hne : oc = ec
  · refine ⟨[], 0, ?_⟩
    unfold castRay
    rw [if_pos hD]
    dsimp only
    rw [← hoc, ← hec, if_pos hne]
  set c := rayCtx o e bounds r ml with hc
  obtain ⟨L, hL, hL4, hstill, hmove, m, hm⟩ := axes hD h ml hne
  rw [← hc, ← hoc, ← hec] at hstill hmove
  have hp := h.pos
  have hlo := h.lo
  have hM1 := h.M_lo
  have hMhi := h.M_hi
  have hoa : ∀ i, |oc i| ≤ 2 ^ 20 + 1 := fun i =>
    cell_small h.toRes (h.offset i) h.M_lo h.M_hi (h.origin i) (h.origin_near i)
  have hea : ∀ i, |ec i| ≤ 2 ^ 20 + 1 := fun i =>
    cell_small h.toRes (h.offset i) h.M_lo h.M_hi (h.end_ i) (h.end_near i)
  set N : Fin D → ℕ := fun i => (ec i - oc i).natAbs with hN
  have hNK : ∀ i, N i ≤ K := by
    intro i
    have h1 := abs_le.mp (hK i)
    simp only [hN]
    omega
  have hN0 : ∀ i, y i = x i → N i = 0 := by
    intro i hi
    simp only [hN, (hstill i hi).1, sub_self, Int.natAbs_zero]
  have hNs : ∀ i, y i ≠ x i → c.s i * (ec i - oc i) = N i := by
    intro i hi
    obtain ⟨h1, h2⟩ := hmove i hi
    simp only [hN]
    rcases h2.step with h3 | h3 <;> rw [h3] at h1 ⊢ <;> omega
  have hcell : ∀ k : Fin D → ℕ, (∀ i, k i ≤ N i) → Between oc ec (c.cellAt oc k) := by
    intro k hk i
    unfold RayCtx.cellAt
    have h1 := hk i
    by_cases hi : y i = x i
    · rw [(hstill i hi).2.1, (hstill i hi).1]; simp
    · have h2 := hNs i hi
      rcases (hmove i hi).2.step with h3 | h3 <;> rw [h3] at h2 ⊢ <;> omega
  have hend : c.endCell = c.cellAt oc N := by
    funext i
    change ec i = oc i + c.s i * N i
    by_cases hi : y i = x i
    · rw [(hstill i hi).2.1, (hstill i hi).1]; ring
    · rw [← hNs i hi]
      rcases (hmove i hi).2.step with h3 | h3 <;> rw [h3] <;> ring
  -- `t_max` before and after the length of the ray
  set μ : ℚ := (5 * M + K ^ 2 + 10 * K + 23) / 2 ^ 24 with hμ
  have hμhalf : μ ≤ 1 / 2 := by
    have h1 := (abs_nonneg _).trans (hmargin m hm)
    by_contra h2
    have : (1 / 2 - μ) * ρ < 0 := mul_neg_of_neg_of_pos (by linarith) hp
    linarith
  have herr : ∀ i, y i ≠ x i → ∀ k ≤ N i, ∃ T, (c.tAt (t0 o e bounds r) i k).Is T ∧
      (k < N i → T < L) ∧ (k = N i → L < T) := by
    intro i hi k hk
    obtain ⟨-, hax⟩ := hmove i hi
    have hw : 0 < |y i - x i| := abs_pos.mpr (sub_ne_zero.mpr hi)
    have hA : |(c.s i : ℚ) * (q i + oc i * ρ - x i)| ≤ ρ := by
      have h1 := (origin_cell h i).2
      rw [← hoc] at h1
      have h2 : |(c.s i : ℚ)| = 1 := by rcases hax.step with h3 | h3 <;> rw [h3] <;> norm_num
      rw [abs_mul, h2, one_mul, abs_sub_comm]
      refine h1.trans ?_
      have : (1 / 2 + (2 * M + 2) / 2 ^ 24) * ρ ≤ 1 * ρ := by
        refine mul_le_mul_of_nonneg_right ?_ hp.le
        norm_num at hMhi ⊢
        linarith
      linarith
    have hkK : (k : ℚ) ≤ K := by exact_mod_cast hk.trans (hNK i)
    have hk0 : (0 : ℚ) ≤ k := by positivity
    have hsq : (k : ℚ) * k ≤ K ^ 2 := by rw [sq]; gcongr
    have hE : 5 * M + 22 + (k * k + 10 * k : ℕ) ≤ 2 ^ 24 * μ - 1 := by
      rw [hμ]
      push_cast
      rw [mul_div_cancel₀ _ (by norm_num)]
      linarith
    obtain ⟨T, h1, h2⟩ := tAt_err hax hA (by positivity) (by
      rw [div_le_iff₀ hL]; linarith [hL4 i]) hlo (by linarith) k (by linarith)
    have h2' := abs_le.mp h2
    have hEμ : ((5 * M + 22 + (k * k + 10 * k : ℕ)) / 2 ^ 24) * ρ < μ * ρ := by
      refine mul_lt_mul_of_pos_right ?_ hp
      rw [div_lt_iff₀ (by norm_num)]
      linarith
    -- where the end lies
    have hpos : |(|y i - x i| - (c.s i : ℚ) * (q i + oc i * ρ - x i) - N i * ρ)| ≤ (1 / 2 - μ) * ρ := by
      have h3 := hmargin i hi
      have h4 : (c.s i : ℚ) * (ec i - oc i) = N i := by exact_mod_cast hNs i hi
      have h5 : |y i - x i| - (c.s i : ℚ) * (q i + oc i * ρ - x i) - N i * ρ
          = c.s i * (y i - (q i + ec i * ρ)) := by
        rw [← hax.toward, ← h4]; ring
      have h6 : |(c.s i : ℚ)| = 1 := by rcases hax.step with h3 | h3 <;> rw [h3] <;> norm_num
      rw [h5, abs_mul, h6, one_mul]
      exact h3
    have hpos' := abs_le.mp hpos
    refine ⟨T, h1, fun hlt => ?_, fun heq => ?_⟩
    · have h3 : (k : ℚ) + 1 ≤ N i := by exact_mod_cast hlt
      have h4 : ((k : ℚ) + 1) * ρ ≤ N i * ρ := by gcongr
      have h5 : T * (|y i - x i| / L) < |y i - x i| := by linarith [hpos'.1, h2'.2]
      rw [← mul_div_assoc, div_lt_iff₀ hL, mul_comm] at h5
      exact lt_of_mul_lt_mul_left h5 hw.le
    · have h3 : (k : ℚ) = N i := by exact_mod_cast heq
      have h4 : (k : ℚ) * ρ = N i * ρ := by rw [h3]
      have h5 : |y i - x i| < T * (|y i - x i| / L) := by linarith [hpos'.2, h2'.1]
      rw [← mul_div_assoc, lt_div_iff₀ hL, mul_comm T] at h5
      exact lt_of_mul_lt_mul_left h5 hw.le
  have hnan : ∀ k : Fin D → ℕ, (∀ i, k i ≤ N i) → ∀ i, (c.tAt (t0 o e bounds r) i (k i)).isNaN = false := by
    intro k hk i
    by_cases hi : y i = x i
    · rw [(hstill i hi).2.2]; rfl
    · obtain ⟨T, hT, -⟩ := herr i hi (k i) (hk i)
      exact Fp.notNaN_is hT
  obtain ⟨l, hl, hQ⟩ := c.exists_path (a := oc) (T := c.tAt (t0 o e bounds r)) (N := N)
    (Q := fun _ l => ∀ z ∈ l, Between oc ec z)
    (by
      intro i
      by_cases hi : y i = x i
      · exact .inr (.inr ⟨(hstill i hi).2.1, hN0 i hi⟩)
      · rcases (hmove i hi).2.step with h1 | h1
        · exact .inl h1
        · exact .inr (.inl h1))
    (fun i k => rfl) hend
    (fun i => inIsize_of_abs ((hoa i).trans (by norm_num)))
    (fun i => inIsize_of_abs ((hea i).trans (by norm_num)))
    (by
      intro k hk hkN
      obtain ⟨d, hd⟩ := selDim_some hD (fun i => c.tAt (t0 o e bounds r) i (k i))
      obtain ⟨j, hj⟩ : ∃ j, k j < N j := by
        by_contra hcon
        push Not at hcon
        exact hkN (funext fun i => le_antisymm (hk i) (hcon i))
      have hjm : y j ≠ x j := by
        intro h1
        rw [hN0 j h1] at hj
        omega
      obtain ⟨Tj, hTj, hjL, -⟩ := herr j hjm (k j) (hk j)
      have hle := selDim_le hd (hnan k hk) j
      have hdm : y d ≠ x d := by
        intro hdm
        rw [(hstill d hdm).2.2] at hle
        have h2 : (c.tAt (t0 o e bounds r) j (k j)).lt (Scalar.inf : F32) = true := by
          obtain ⟨_, _, _, h1⟩ := hTj
          rw [h1]; rfl
        rw [Fp.not_lt_of_FLe hle] at h2
        cases h2
      obtain ⟨Td, hTd, -, hdL⟩ := herr d hdm (k d) (hk d)
      have hTT : Td ≤ Tj := (Fp.FLe_is hTd hTj).mp hle
      refine ⟨d, hd, lt_of_le_of_ne (hk d) fun h1 => ?_⟩
      linarith [hjL hj, hdL h1])
    (by
      intro k d _ _ _ z hz
      rw [List.mem_singleton] at hz
      rw [hz, hend]
      exact hcell N fun _ => le_rfl)
    (by
      intro k d l hk hlt _ hQ z hz
      rcases List.mem_cons.mp hz with rfl | hz
      · refine hcell _ fun i => ?_
        by_cases hi : i = d
        · subst hi; rw [Function.update_self]; exact hlt
        · rw [Function.update_of_ne hi]; exact hk i
      · exact hQ z hz)
    (fun _ => 0) (fun i => Nat.zero_le _) (by
      intro h1
      apply hne
      funext i
      have h2 := congrFun h1 i
      simp only [hN] at h2
      omega)
  have hz : c.cellAt oc (fun _ => 0) = oc := by
    funext i; simp [RayCtx.cellAt]
  rw [hz] at hl
  have hnf : ∀ z ∈ l.dropLast, c.tooFar z = false := by
    intro z hz
    have h1 := hQ z (List.dropLast_subset l hz)
    cases h2 : c.tooFar z with
    | false => rfl
    | true =>
      unfold RayCtx.tooFar at h2
      rw [Bool.and_eq_true] at h2
      exact absurd h2.2 (hfar h2.1 z h1)
  exact ⟨_, _, castRay_path hD hne (hl.castLoop_near hnf)⟩

/-- C24 with an explicit sufficient range: `2 K + 4` cells. -/
theorem C24_range (hD : D = 2 ∨ D = 3) (h : RayRange M o e bounds.min r x y q ρ) {K : ℕ} (hK12 : K ≤ 2 ^ 12)
    (hK : ∀ i, |cellFromPoint e bounds.min r i - cellFromPoint o bounds.min r i| ≤ K)
    (hmargin : ∀ i, y i ≠ x i → |y i - (q i + cellFromPoint e bounds.min r i * ρ)| ≤
      (1 / 2 - (5 * M + K ^ 2 + 10 * K + 23) / 2 ^ 24) * ρ) {ml : F32} {lam : ℚ} (hml : ml.Is lam)
    (hlam : (2 * K + 4) * ρ ≤ lam) (hlam' : lam ≤ 2 ^ 60) :
    ∃ ray, Casts o e bounds r ml ray (some (cellFromPoint e bounds.min r)) := by
  refine C24_reaches_end hD h hK hmargin fun _ z hz => ?_
  have hp := h.pos
  have hlo := h.lo
  have hhi := h.hi
  have hM1 := h.M_lo
  have hM := h.M_hi
  have hK0 : (0 : ℚ) ≤ K := by positivity
  have hKb : (K : ℚ) * ρ ≤ 2 ^ 59 := by linarith
  have hP : ∀ j, (pointFromCell z bounds.min r j -. o j).Is (b32.rnd (cellPoint (z j) (q j) ρ - x j)) ∧
      |b32.rnd (cellPoint (z j) (q j) ρ - x j)| ≤ (K + 11 / 10) * ρ := by
    intro j
    obtain ⟨ho1, ho2⟩ := origin_cell h j
    have he1 := cell_small h.toRes (h.offset j) hM1 hM (h.end_ j) (h.end_near j)
    have ho1' := cell_small h.toRes (h.offset j) hM1 hM (h.origin j) (h.origin_near j)
    have hzj := hz j
    have hKj := abs_le.mp (hK j)
    have hz1 : |z j| ≤ 2 ^ 20 + 1 := by
      rw [abs_le] at he1 ho1' ⊢
      omega
    have hz2 : |z j - cellFromPoint o bounds.min r j| ≤ K := by
      rw [abs_le]
      omega
    have hz1q : |(z j : ℚ)| ≤ 2 ^ 20 + 1 := by exact_mod_cast hz1
    have hz2q : |(z j : ℚ) - cellFromPoint o bounds.min r j| ≤ K := by exact_mod_cast hz2
    obtain ⟨h1, h2⟩ := pointCoord_is (c := z j) (N := 2 ^ 20 + 1) h.toRes (h.offset j) hz1q
      ((h.offset_near j).trans (by gcongr; linarith)) (by norm_num) (by norm_num)
    have h3 : |cellPoint (z j) (q j) ρ - x j| ≤ (K + 1) * ρ := by
      have e1 : cellPoint (z j) (q j) ρ - x j = (cellPoint (z j) (q j) ρ - (z j * ρ + q j))
          + ((z j - cellFromPoint o bounds.min r j) * ρ
            - (x j - (q j + cellFromPoint o bounds.min r j * ρ))) := by ring
      rw [e1]
      refine (abs_add_le _ _).trans ?_
      have e2 := abs_sub (((z j : ℚ) - cellFromPoint o bounds.min r j) * ρ)
        (x j - (q j + cellFromPoint o bounds.min r j * ρ))
      rw [abs_mul, abs_of_pos hp] at e2
      have e3 : |(z j : ℚ) - cellFromPoint o bounds.min r j| * ρ ≤ K * ρ := by gcongr
      have e4 : (1 / 2 + (2 * M + 2) / 2 ^ 24) * ρ ≤ (1 / 2 + 1 / 4) * ρ := by
        refine mul_le_mul_of_nonneg_right ?_ hp.le
        norm_num at hM ⊢
        linarith
      have e5 : (3 * (2 ^ 20 + 1) + 2) / 2 ^ 24 * ρ ≤ 1 / 4 * ρ :=
        mul_le_mul_of_nonneg_right (by norm_num) hp.le
      linarith
    have h4 := F32.err_res h.toRes.2.1 h3
    have hK2 : (K : ℚ) ≤ 4096 := by exact_mod_cast hK12
    refine ⟨h1.sub (h.origin j) (F32.noOvf_res hp h.toRes.2.2 (by norm_num; linarith)
      (by linarith) h3), ?_⟩
    have h5 := abs_sub_abs_le_abs_sub (b32.rnd (cellPoint (z j) (q j) ρ - x j)) (cellPoint (z j) (q j) ρ - x j)
    have h6 : ((K + 1) / 2 ^ 24 + 1 / 2 ^ 50) * ρ ≤ 1 / 10 * ρ := by
      refine mul_le_mul_of_nonneg_right ?_ hp.le
      norm_num
      linarith
    linarith
  have hK2 : (K : ℚ) ≤ 4096 := by exact_mod_cast hK12
  have hBB : ((K : ℚ) + 11 / 10) * ρ ≤ (4096 + 11 / 10) * 2 ^ 20 := by gcongr
  obtain ⟨Q, g1, g2, -, g4⟩ := normSquared_is (B := (K + 11 / 10) * ρ) hD (fun j => (hP j).1)
    (fun j => (hP j).2) (by norm_num at hlo ⊢; nlinarith) (by norm_num at hBB ⊢; linarith)
  have hl0 : 0 ≤ lam := le_trans (by positivity) hlam
  have hll : lam * lam ≤ 2 ^ 120 := by
    calc lam * lam ≤ 2 ^ 60 * 2 ^ 60 := by gcongr
      _ = _ := by norm_num
  have hm := hml.mul hml (F32.noOvf (by
    rw [abs_of_nonneg (by positivity)]; exact hll.trans (by norm_num)))
  have hlow : (2 * K + 4) * ρ * ((2 * K + 4) * ρ) ≤ lam * lam := by gcongr
  have hE := abs_le.mp (F32.err (lam * lam))
  rw [abs_of_nonneg (mul_self_nonneg lam)] at hE
  have hle : Q ≤ b32.rnd (lam * lam) := by
    have e1 : 4 * ((K + 11 / 10) * ρ * ((K + 11 / 10) * ρ)) = (2 * K + 22 / 10) * ρ * ((2 * K + 22 / 10) * ρ) := by
      ring
    have hρρ1 : (1 / 2 ^ 40 : ℚ) ≤ ρ * ρ := by
      calc (1 / 2 ^ 40 : ℚ) = 1 / 2 ^ 20 * (1 / 2 ^ 20) := by norm_num
        _ ≤ ρ * ρ := by gcongr
    have e2 : (2 * K + 22 / 10) * ρ * ((2 * K + 22 / 10) * ρ) + ρ * ρ
        ≤ (2 * K + 4) * ρ * ((2 * K + 4) * ρ) * (1 - 1 / 2 ^ 24) := by
      have e3 : (2 * (K : ℚ) + 22 / 10) * (2 * K + 22 / 10) + 1 ≤ (2 * K + 4) * (2 * K + 4) * (1 - 1 / 2 ^ 24) := by
        norm_num
        nlinarith
      have e4 : 0 ≤ ρ * ρ := by positivity
      nlinarith
    have e5 : (2 * (K : ℚ) + 4) * ρ * ((2 * K + 4) * ρ) * (1 - 1 / 2 ^ 24) ≤ lam * lam * (1 - 1 / 2 ^ 24) :=
      mul_le_mul_of_nonneg_right hlow (by norm_num)
    have e6 : (1 / 2 ^ 150 : ℚ) ≤ 1 / 2 ^ 40 := by norm_num
    rw [e1] at g4
    linarith [hE.1]
  unfold Beyond
  have : Fp.lt (Fp.mul ml ml) (normSquared fun j => pointFromCell z bounds.min r j -. o j) = false := by
    rw [Fp.Is.lt hm g1]; simpa using hle
  rw [show Scalar.lt (ml *. ml) (normSquared fun j => pointFromCell z bounds.min r j -. o j) = false from this]
  simp

/-- A ray of 67 and 30 cells of side 0.1 in f32, its end in the middle of a cell. -/
example : ∃ x y q ρ, RayRange 100 (![Fp.lit (1/3), Fp.lit (1/5)] : Point 2 F32) ![Fp.lit 7, Fp.lit (16/5)]
      ![Fp.lit (-1), Fp.lit (-1)] (Fp.lit (1/10)) x y q ρ ∧
    (∀ i, |cellFromPoint (![Fp.lit 7, Fp.lit (16/5)] : Point 2 F32) ![Fp.lit (-1), Fp.lit (-1)] (Fp.lit (1/10)) i
      - cellFromPoint (![Fp.lit (1/3), Fp.lit (1/5)] : Point 2 F32) ![Fp.lit (-1), Fp.lit (-1)]
        (Fp.lit (1/10)) i| ≤ (67 : ℕ)) ∧
    (∀ i, |y i - (q i + cellFromPoint (![Fp.lit 7, Fp.lit (16/5)] : Point 2 F32) ![Fp.lit (-1), Fp.lit (-1)]
        (Fp.lit (1/10)) i * ρ)| ≤ (1 / 2 - (5 * 100 + (67 : ℕ) ^ 2 + 10 * (67 : ℕ) + 23) / 2 ^ 24) * ρ) ∧
    (Fp.lit 15 : F32).Is 15 ∧ (2 * (67 : ℕ) + 4) * ρ ≤ 15 :=
  ⟨_, _, _, _, rayRange_val (by decide +kernel), by decide +kernel, by decide +kernel,
    F32.lit_int_is (n := 15) (by norm_num), by decide +kernel⟩

end Verif.Props
