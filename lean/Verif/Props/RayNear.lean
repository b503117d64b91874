import Verif.Props.RayF32
import Verif.Props.Ray
import Verif.Spec.Follows

/-!
# C57: how far rays in f32 are from the segment
-/

namespace Verif.Props
open Spec Scalar

variable {D : ℕ} {M ρ : ℚ} {o e : Point D F32} {bounds : Bounds D F32} {r : F32} {x y q : Fin D → ℚ}

/-- The tolerance: in cells, for rays of at most `K` cells along each axis. -/
lemma tol_bounds (h : RayRange M o e bounds.min r x y q ρ) {K : ℕ} :
    (2 * M + 2) / 2 ^ 24 ≤ (5 * M + K ^ 2 + 10 * K + 23) / 2 ^ 24 := by
  have := h.M_lo
  have hk : (0 : ℚ) ≤ (K : ℚ) ^ 2 + 10 * K := by positivity
  refine div_le_div_of_nonneg_right ?_ (by norm_num)
  linarith

/-- The loop follows the ray. -/
lemma follows_loop (hD : D = 2 ∨ D = 3) (h : RayRange M o e bounds.min r x y q ρ) {ml : F32}
    (hne : cellFromPoint o bounds.min r ≠ cellFromPoint e bounds.min r) {K : ℕ} {tol : ℚ}
    (htol : tol = (5 * M + K ^ 2 + 10 * K + 23) / 2 ^ 24 * ρ)
    (hKM : 5 * M + K ^ 2 + 10 * K + 23 ≤ 2 ^ 24) {n : ℕ} {l res}
    (hloop : castLoop (rayCtx o e bounds r ml) n (cellFromPoint o bounds.min r) (t0 o e bounds r)
      = .ok (l, res))
    (hK : ∀ z ∈ (cellFromPoint o bounds.min r :: l) ++ res.toList, ∀ i,
      |z i - cellFromPoint o bounds.min r i| ≤ K) :
    ∃ v, Follows q ρ tol (lineAt x y) 0 v ((cellFromPoint o bounds.min r :: l) ++ res.toList) := by
  set oc := cellFromPoint o bounds.min r with hoc
  set ec := cellFromPoint e bounds.min r with hec
  set c := rayCtx o e bounds r ml with hc
  obtain ⟨L, hL, hL4, hstill, hmove, m, hm⟩ := axes hD h ml hne
  rw [← hc, ← hoc, ← hec] at hstill hmove
  have hp := h.pos
  have hlo := h.lo
  have hM1 := h.M_lo
  have hMhi := h.M_hi
  set A : Fin D → ℚ := fun i => (c.s i : ℚ) * (q i + oc i * ρ - x i) with hAdef
  have hsabs : ∀ i, y i ≠ x i → |(c.s i : ℚ)| = 1 := by
    intro i hi
    rcases (hmove i hi).2.step with h3 | h3 <;> rw [h3] <;> norm_num
  have horg : ∀ i, |x i - (q i + oc i * ρ)| ≤ ρ / 2 + tol := by
    intro i
    have h1 := (origin_cell h i).2
    rw [← hoc] at h1
    have h2 := mul_le_mul_of_nonneg_right (tol_bounds h (K := K)) hp.le
    rw [htol]
    linarith
  have hAtol : ∀ i, y i ≠ x i → |A i| ≤ ρ / 2 + tol := by
    intro i hi
    rw [hAdef]
    dsimp only
    rw [abs_mul, hsabs i hi, one_mul, abs_sub_comm]
    exact horg i
  have hA1 : ∀ i, y i ≠ x i → |A i| ≤ ρ := by
    intro i hi
    rw [hAdef]
    dsimp only
    rw [abs_mul, hsabs i hi, one_mul, abs_sub_comm]
    have h1 := (origin_cell h i).2
    rw [← hoc] at h1
    refine h1.trans ?_
    have : (1 / 2 + (2 * M + 2) / 2 ^ 24) * ρ ≤ 1 * ρ := by
      refine mul_le_mul_of_nonneg_right ?_ hp.le
      norm_num at hMhi ⊢
      linarith
    linarith
  have herr : ∀ i, y i ≠ x i → ∀ k ≤ K, ∃ T, (c.tAt (t0 o e bounds r) i k).Is T ∧
      |T / L * |y i - x i| - (A i + (k + 1 / 2) * ρ)| ≤ tol := by
    intro i hi k hk
    have hkK : (k : ℚ) ≤ K := by exact_mod_cast hk
    have hk0 : (0 : ℚ) ≤ k := by positivity
    have hsq : (k : ℚ) * k ≤ K ^ 2 := by rw [sq]; gcongr
    obtain ⟨T, h1, h2⟩ := tAt_err (hmove i hi).2 (hA1 i hi) (by positivity) (by
      rw [div_le_iff₀ hL]; linarith [hL4 i]) hlo (by linarith) k (by push_cast; linarith)
    refine ⟨T, h1, ?_⟩
    rw [show T / L * |y i - x i| = T * (|y i - x i| / L) by ring]
    refine h2.trans ?_
    rw [htol]
    refine mul_le_mul_of_nonneg_right ?_ hp.le
    refine div_le_div_of_nonneg_right ?_ (by norm_num)
    push_cast
    linarith
  -- a state: all axes at time `t`
  have hnear : ∀ (k : Fin D → ℕ) (t : ℚ), (∀ i, y i ≠ x i → A i + (k i - 1 / 2) * ρ - tol ≤ t * |y i - x i| ∧
      t * |y i - x i| ≤ A i + (k i + 1 / 2) * ρ + tol) → NearCell q ρ tol (c.cellAt oc k) (lineAt x y t) := by
    intro k t ht i
    unfold lineAt RayCtx.cellAt
    by_cases hi : y i = x i
    · rw [(hstill i hi).2.1, hi]
      have := horg i
      push_cast
      rw [sub_self, mul_zero, add_zero, zero_mul, add_zero]
      exact this
    · obtain ⟨t1, t2⟩ := ht i hi
      have htw := (hmove i hi).2.toward
      have h1 := hsabs i hi
      have h2 : (c.s i : ℚ) * c.s i = 1 := by
        rcases (hmove i hi).2.step with h3 | h3 <;> rw [h3] <;> norm_num
      rw [← one_mul |_|, ← h1, ← abs_mul]
      have e1 : (c.s i : ℚ) * (x i + t * (y i - x i) - (q i + ((oc i + c.s i * (k i : ℤ) : ℤ) : ℚ) * ρ))
          = t * |y i - x i| - A i - k i * ρ := by
        rw [← htw, hAdef]
        push_cast
        linear_combination (-(k i : ℚ) * ρ) * h2
      rw [e1, abs_le]
      constructor <;> linarith
  clear_value A
  clear hAdef
  have key : ∀ n k s l res, castLoop c n (c.cellAt oc k) (fun i => c.tAt (t0 o e bounds r) i (k i)) = .ok (l, res) →
      0 ≤ s → (∀ i, y i ≠ x i → A i + (k i - 1 / 2) * ρ - tol ≤ s * |y i - x i| ∧
        s * |y i - x i| ≤ A i + (k i + 1 / 2) * ρ + tol) →
      (∀ z ∈ (c.cellAt oc k :: l) ++ res.toList, ∀ i, |z i - oc i| ≤ K) →
      ∃ v, Follows q ρ tol (lineAt x y) s v ((c.cellAt oc k :: l) ++ res.toList) := by
    intro n
    induction n with
    | zero => intro k s l res hl; cases hl
    | succ n ih =>
      intro k s l res hl hs hinv hb
      have hkK : ∀ i, y i ≠ x i → k i ≤ K := by
        intro i hi
        have h1 := hb (c.cellAt oc k) (by simp) i
        unfold RayCtx.cellAt at h1
        rw [add_sub_cancel_left] at h1
        have h2 := abs_le.mp h1
        rcases (hmove i hi).2.step with h3 | h3 <;> rw [h3] at h2 <;> omega
      obtain ⟨d, hd⟩ := selDim_some hD (fun i => c.tAt (t0 o e bounds r) i (k i))
      have hnan : ∀ i, (c.tAt (t0 o e bounds r) i (k i)).isNaN = false := by
        intro i
        by_cases hi : y i = x i
        · rw [(hstill i hi).2.2]; rfl
        · obtain ⟨T, hT, -⟩ := herr i hi (k i) (hkK i hi)
          exact Fp.notNaN_is hT
      have hdm : y d ≠ x d := by
        intro hdm
        have hle := selDim_le hd hnan m
        rw [(hstill d hdm).2.2] at hle
        obtain ⟨T, hT, -⟩ := herr m hm (k m) (hkK m hm)
        have h2 : (c.tAt (t0 o e bounds r) m (k m)).lt (Scalar.inf : F32) = true := by
          obtain ⟨_, _, _, h1⟩ := hT
          rw [h1]; rfl
        rw [Fp.not_lt_of_FLe hle] at h2
        cases h2
      obtain ⟨Td, hTd, hTd2⟩ := herr d hdm (k d) (hkK d hdm)
      have hTd2' := abs_le.mp hTd2
      set s' := max s (Td / L) with hs'
      have hss : s ≤ s' := le_max_left _ _
      have htol0 : 0 ≤ tol := le_trans (abs_nonneg _) hTd2
      have hup : ∀ i, y i ≠ x i → s' * |y i - x i| ≤ A i + (k i + 1 / 2) * ρ + tol := by
        intro i hi
        rcases max_cases s (Td / L) with ⟨h1, -⟩ | ⟨h1, -⟩
        · rw [hs', h1]; exact (hinv i hi).2
        · rw [hs', h1]
          obtain ⟨Ti, hTi, hTi2⟩ := herr i hi (k i) (hkK i hi)
          have hle : Td ≤ Ti := (Fp.FLe_is hTd hTi).mp (selDim_le hd hnan i)
          have h2 : Td / L * |y i - x i| ≤ Ti / L * |y i - x i| := by gcongr
          linarith [(abs_le.mp hTi2).2]
      have hseg : ∀ t, s ≤ t → t ≤ s' → NearCell q ρ tol (c.cellAt oc k) (lineAt x y t) := by
        intro t h1 h2
        refine hnear k t fun i hi => ⟨?_, ?_⟩
        · have : s * |y i - x i| ≤ t * |y i - x i| := by gcongr
          linarith [(hinv i hi).1]
        · have : t * |y i - x i| ≤ s' * |y i - x i| := by gcongr
          linarith [hup i hi]
      set k' := Function.update k d (k d + 1) with hk'
      have hinv' : ∀ i, y i ≠ x i → A i + (k' i - 1 / 2) * ρ - tol ≤ s' * |y i - x i| ∧
          s' * |y i - x i| ≤ A i + (k' i + 1 / 2) * ρ + tol := by
        intro i hi
        by_cases hid : i = d
        · subst hid
          rw [hk', Function.update_self]
          have h1 : Td / L * |y i - x i| ≤ s' * |y i - x i| := by gcongr; exact le_max_right _ _
          have h2 := hup i hi
          push_cast
          constructor <;> linarith [hTd2'.1]
        · rw [hk', Function.update_of_ne hid]
          have h1 : s * |y i - x i| ≤ s' * |y i - x i| := by gcongr
          exact ⟨by linarith [(hinv i hi).1], hup i hi⟩
      simp only [castLoop, hd] at hl
      rw [show toInt (c.step d) = c.s d from rfl] at hl
      obtain ⟨w, hw, hl⟩ := Verif.M.bind_eq_ok.mp hl
      obtain ⟨rfl, -⟩ := isz_ok.mp hw
      rw [c.cellAt_step, ← hk'] at hl
      split_ifs at hl with c1 c2
      · cases hl
        rw [← c1]
        refine ⟨s', .next hss hseg (.last le_rfl ?_)⟩
        intro t t1 t2
        obtain rfl := le_antisymm t2 t1
        exact hnear k' _ hinv'
      · cases hl
        refine ⟨s', .last hss hseg⟩
      · obtain ⟨⟨rest, res'⟩, hrest, hl⟩ := Verif.M.bind_eq_ok.mp hl
        cases hl
        have e1 : Function.update (fun i => c.tAt (t0 o e bounds r) i (k i)) d
            (c.tAt (t0 o e bounds r) d (k d) +. c.tDelta d)
            = fun i => c.tAt (t0 o e bounds r) i (k' i) := by
          funext i
          by_cases hid : i = d
          · subst hid; rw [hk', Function.update_self, Function.update_self]; rfl
          · rw [hk', Function.update_of_ne hid, Function.update_of_ne hid]
        rw [e1] at hrest
        obtain ⟨v, hv⟩ := ih k' s' rest res' hrest (hs.trans hss) hinv' (by
          intro z hz
          exact hb z (by
            simp only [List.cons_append, List.mem_cons, List.mem_append] at hz ⊢
            tauto))
        exact ⟨v, .next hss hseg hv⟩
  have hz : c.cellAt oc (fun _ => 0) = oc := by
    funext i; simp [RayCtx.cellAt]
  have := key n (fun _ => 0) 0 l res (by rw [hz]; exact hloop) le_rfl (by
    intro i hi
    have := abs_le.mp (hAtol i hi)
    push_cast
    constructor <;> linarith) (by rw [hz]; exact hK)
  rwa [hz] at this

section
variable {tol : ℚ} {p : ℚ → Fin D → ℚ} {u v : ℚ} {l : List (Cell D)}

lemma Follows.le (h : Follows q ρ tol p u v l) : u ≤ v := by
  induction h with
  | last h => exact h
  | next h _ _ ih => exact h.trans ih

/-- Every cell of the list is visited. -/
lemma Follows.mem (h : Follows q ρ tol p u v l) {z : Cell D} (hz : z ∈ l) :
    ∃ t, u ≤ t ∧ t ≤ v ∧ NearCell q ρ tol z (p t) := by
  induction h with
  | last h1 h2 =>
    rw [List.mem_singleton] at hz
    subst hz
    exact ⟨_, le_rfl, h1, h2 _ le_rfl h1⟩
  | next h1 h2 h3 ih =>
    rcases List.mem_cons.mp hz with rfl | hz
    · exact ⟨_, le_rfl, h1.trans (Follows.le h3), h2 _ le_rfl h1⟩
    · obtain ⟨t, t1, t2, t3⟩ := ih hz
      exact ⟨t, h1.trans t1, t2, t3⟩

/-- At every time the point is in a cell of the list. -/
lemma Follows.covers (h : Follows q ρ tol p u v l) {t : ℚ} (h1 : u ≤ t) (h2 : t ≤ v) :
    ∃ z ∈ l, NearCell q ρ tol z (p t) := by
  induction h with
  | last _ h4 => exact ⟨_, List.mem_singleton_self _, h4 t h1 h2⟩
  | @next u v' w z z' l h3 h4 _ ih =>
    rcases le_total t v' with h5 | h5
    · exact ⟨z, List.mem_cons_self, h4 t h1 h5⟩
    · obtain ⟨z, hz, hz'⟩ := ih h5 h2
      exact ⟨z, List.mem_cons_of_mem _ hz, hz'⟩

/-- If the point is in the last cell at time 1, and, being past time 1 in a cell of the list, is in it at
time 1 too, then it follows the list until time 1. -/
lemma Follows.until_one (h : Follows q ρ tol (lineAt x y) u v l) (hne : l ≠ [])
    (hlast : NearCell q ρ tol (l.getLast hne) (lineAt x y 1))
    (hback : ∀ z ∈ l, ∀ t, 1 ≤ t → NearCell q ρ tol z (lineAt x y t) → NearCell q ρ tol z (lineAt x y 1)) :
    Follows q ρ tol (lineAt x y) (min u 1) 1 l := by
  induction h with
  | @last u v z h1 h2 =>
    refine .last (min_le_right _ _) fun t t1 t2 => ?_
    rw [List.getLast_singleton] at hlast
    rcases le_total u 1 with h3 | h3
    · rw [min_eq_left h3] at t1
      have hu := h2 u le_rfl h1
      intro i
      have a1 := abs_le.mp (hu i)
      have a2 := abs_le.mp (hlast i)
      unfold lineAt at a1 a2 ⊢
      rw [abs_le]
      rcases le_total 0 (y i - x i) with hw | hw
      · have b1 := mul_le_mul_of_nonneg_right t1 hw
        have b2 := mul_le_mul_of_nonneg_right t2 hw
        constructor <;> linarith [a1.1, a2.2]
      · have b1 := mul_le_mul_of_nonpos_right t1 hw
        have b2 := mul_le_mul_of_nonpos_right t2 hw
        constructor <;> linarith [a2.1, a1.2]
    · rw [min_eq_right h3] at t1
      obtain rfl := le_antisymm t2 t1
      exact hlast
  | @next u v w z z' l h1 h2 h3 ih =>
    have ih' := ih (by simp) (by rwa [List.getLast_cons (by simp)] at hlast)
      (fun z hz => hback z (List.mem_cons_of_mem _ hz))
    refine .next (min_le_min_right 1 h1) (fun t t1 t2 => ?_) ih'
    rcases le_total u 1 with h4 | h4
    · rw [min_eq_left h4] at t1
      exact h2 t t1 (t2.trans (min_le_left _ _))
    · rw [min_eq_right h4] at t1
      obtain rfl := le_antisymm (t2.trans (min_le_right _ _)) t1
      exact hback z List.mem_cons_self u h4 (h2 u le_rfl h1)

end

/-- The values of `cast_ray` come from its loop. -/
lemma casts_loop {ml : F32} {ray res} (hr : Casts o e bounds r ml ray res)
    (hne : cellFromPoint o bounds.min r ≠ cellFromPoint e bounds.min r) :
    ∃ n l, ray = cellFromPoint o bounds.min r :: l ∧
      castLoop (rayCtx o e bounds r ml) n (cellFromPoint o bounds.min r) (t0 o e bounds r) = .ok (l, res) := by
  obtain ⟨n, hn⟩ := hr
  unfold castRay at hn
  split_ifs at hn with h1
  dsimp only at hn
  rw [if_neg hne] at hn
  obtain ⟨⟨l, res'⟩, hl, hn⟩ := Verif.M.bind_eq_ok.mp hn
  cases hn
  exact ⟨n, l, rfl, hl⟩

/-- C57: in f32 a ray that leaves the cell of its origin, whatever the range limit, is a list of cells that the
half line from the origin through the end follows, in this order, with the boxes of the cells widened by
`(5 M + K² + 10 K + 23) / 2^24` cells, if the ray is of at most `K` cells along each axis. -/
theorem C57_follows_line (hD : D = 2 ∨ D = 3) (h : RayRange M o e bounds.min r x y q ρ) {ml : F32} {ray res}
    (hr : Casts o e bounds r ml ray res)
    (hne : cellFromPoint o bounds.min r ≠ cellFromPoint e bounds.min r) {K : ℕ}
    (hKM : 5 * M + K ^ 2 + 10 * K + 23 ≤ 2 ^ 24)
    (hK : ∀ z ∈ ray ++ res.toList, ∀ i, |z i - cellFromPoint o bounds.min r i| ≤ K) :
    ∃ v, Follows q ρ ((5 * M + K ^ 2 + 10 * K + 23) / 2 ^ 24 * ρ) (lineAt x y) 0 v (ray ++ res.toList) := by
  obtain ⟨n, l, rfl, hl⟩ := casts_loop hr hne
  exact follows_loop hD h hne rfl hKM hl hK

/-- C57: in f32 a ray that reaches its end is a list of cells that the segment from the origin to the end
follows, in this order, with the boxes of the cells widened by `(5 M + K² + 10 K + 23) / 2^24` cells. -/
theorem C57_follows_segment (hD : D = 2 ∨ D = 3) (h : RayRange M o e bounds.min r x y q ρ) {ml : F32} {ray ec}
    (hr : Casts o e bounds r ml ray (some ec)) {K : ℕ} (hKM : 5 * M + K ^ 2 + 10 * K + 23 ≤ 2 ^ 24)
    (hK : ∀ i, |cellFromPoint e bounds.min r i - cellFromPoint o bounds.min r i| ≤ K) :
    Follows q ρ ((5 * M + K ^ 2 + 10 * K + 23) / 2 ^ 24 * ρ) (lineAt x y) 0 1 (ray ++ [ec]) := by
  have hp := h.pos
  have htb := mul_le_mul_of_nonneg_right (tol_bounds h (K := K)) hp.le
  have hsym : RayRange M e o bounds.min r y x q ρ :=
    ⟨h.res, h.lo, h.hi, h.M_lo, h.M_hi, h.end_, h.origin, h.offset, h.end_near, h.origin_near, h.offset_near,
      fun i => (h.apart i).imp Eq.symm fun h1 => by rwa [abs_sub_comm]⟩
  -- the ends in their cells
  have hend : NearCell q ρ ((5 * M + K ^ 2 + 10 * K + 23) / 2 ^ 24 * ρ) (cellFromPoint e bounds.min r)
      (lineAt x y 1) := by
    intro i
    have h1 := (origin_cell hsym i).2
    unfold lineAt
    rw [show x i + 1 * (y i - x i) = y i by ring]
    linarith
  obtain rfl : ec = cellFromPoint e bounds.min r := by
    rcases (C18_end_not_in_ray hr).2.2 with h1 | h1 <;> simpa using h1
  by_cases hne : cellFromPoint o bounds.min r = cellFromPoint e bounds.min r
  · obtain ⟨n, hn⟩ := hr
    unfold castRay at hn
    rw [if_pos hD] at hn
    dsimp only at hn
    rw [if_pos hne] at hn
    cases hn
    refine .last zero_le_one fun t t1 t2 i => ?_
    have h1 := (origin_cell h i).2
    rw [hne] at h1
    have a1 := abs_le.mp h1
    have a2 := abs_le.mp (hend i)
    unfold lineAt at a2 ⊢
    rw [abs_le]
    rcases le_total 0 (y i - x i) with hw | hw
    · have b1 := mul_le_mul_of_nonneg_right t1 hw
      have b2 := mul_le_mul_of_nonneg_right t2 hw
      constructor <;> linarith [a1.1, a2.2]
    · have b1 := mul_le_mul_of_nonpos_right t1 hw
      have b2 := mul_le_mul_of_nonpos_right t2 hw
      constructor <;> linarith [a2.1, a1.2]
  have hbox : ∀ z ∈ ray ++ [cellFromPoint e bounds.min r],
      Between (cellFromPoint o bounds.min r) (cellFromPoint e bounds.min r) z := by
    intro z hz
    rcases List.mem_append.mp hz with hz | hz
    · exact C19_in_box hr z hz
    · rw [List.mem_singleton] at hz
      subst hz
      exact fun i => ⟨min_le_right _ _, le_max_right _ _⟩
  obtain ⟨v, hv⟩ := C57_follows_line hD h hr hne hKM (fun z hz i => by
    have h1 := hbox z hz i
    have h2 := abs_le.mp (hK i)
    rw [abs_le]
    omega)
  have := Follows.until_one hv (by simp) (by simpa using hend) (by
    intro z hz t ht hzt i
    have h1 := hbox z hz i
    have a1 := abs_le.mp (hzt i)
    have a2 := abs_le.mp (hend i)
    unfold lineAt at a1 a2 ⊢
    rw [abs_le]
    rcases le_total 0 (y i - x i) with hw | hw
    · have hle : cellFromPoint o bounds.min r i ≤ cellFromPoint e bounds.min r i :=
        C03_monotone (h.offset i) h.res hp ((Fp.FLe_is (h.origin i) (h.end_ i)).mpr (by linarith))
      have hz' : (z i : ℚ) ≤ cellFromPoint e bounds.min r i := by
        have : z i ≤ cellFromPoint e bounds.min r i := by omega
        exact_mod_cast this
      have b1 := mul_le_mul_of_nonneg_right ht hw
      have b2 := mul_le_mul_of_nonneg_right hz' hp.le
      constructor <;> linarith [a1.2, a2.1]
    · have hle : cellFromPoint e bounds.min r i ≤ cellFromPoint o bounds.min r i :=
        C03_monotone (h.offset i) h.res hp ((Fp.FLe_is (h.end_ i) (h.origin i)).mpr (by linarith))
      have hz' : (cellFromPoint e bounds.min r i : ℚ) ≤ z i := by
        have : cellFromPoint e bounds.min r i ≤ z i := by omega
        exact_mod_cast this
      have b1 := mul_le_mul_of_nonpos_right ht hw
      have b2 := mul_le_mul_of_nonneg_right hz' hp.le
      constructor <;> linarith [a1.1, a2.2])
  rwa [min_eq_left zero_le_one] at this

/-- C57: in f32 no cell of a ray that reaches its end is farther than the tolerance from the segment. -/
theorem C57_near_segment (hD : D = 2 ∨ D = 3) (h : RayRange M o e bounds.min r x y q ρ) {ml : F32} {ray ec}
    (hr : Casts o e bounds r ml ray (some ec)) {K : ℕ} (hKM : 5 * M + K ^ 2 + 10 * K + 23 ≤ 2 ^ 24)
    (hK : ∀ i, |cellFromPoint e bounds.min r i - cellFromPoint o bounds.min r i| ≤ K) {z : Cell D}
    (hz : z ∈ ray ++ [ec]) :
    ∃ t : ℚ, 0 ≤ t ∧ t ≤ 1 ∧ ∀ i, |x i + t * (y i - x i) - (q i + z i * ρ)| ≤
      ρ / 2 + (5 * M + K ^ 2 + 10 * K + 23) / 2 ^ 24 * ρ :=
  Follows.mem (C57_follows_segment hD h hr hKM hK) hz

/-- C57: in f32 no point of the segment is farther than the tolerance from the cells of a ray that reaches its
end. -/
theorem C57_covers_segment (hD : D = 2 ∨ D = 3) (h : RayRange M o e bounds.min r x y q ρ) {ml : F32} {ray ec}
    (hr : Casts o e bounds r ml ray (some ec)) {K : ℕ} (hKM : 5 * M + K ^ 2 + 10 * K + 23 ≤ 2 ^ 24)
    (hK : ∀ i, |cellFromPoint e bounds.min r i - cellFromPoint o bounds.min r i| ≤ K) {t : ℚ} (h0 : 0 ≤ t)
    (h1 : t ≤ 1) :
    ∃ z ∈ ray ++ [ec], ∀ i, |x i + t * (y i - x i) - (q i + z i * ρ)| ≤
      ρ / 2 + (5 * M + K ^ 2 + 10 * K + 23) / 2 ^ 24 * ρ :=
  Follows.covers (C57_follows_segment hD h hr hKM hK) h0 h1

/-- A ray of 67 and 30 cells of side 0.1 in f32: every cell is within 1/2950 of a cell, 0.034 mm, of the
segment. -/
example : ∃ x y q ρ ray, RayRange 100 (![Fp.lit (1/3), Fp.lit (1/5)] : Point 2 F32) ![Fp.lit 7, Fp.lit (16/5)]
      ![Fp.lit (-1), Fp.lit (-1)] (Fp.lit (1/10)) x y q ρ ∧
    (∀ i, |cellFromPoint (![Fp.lit 7, Fp.lit (16/5)] : Point 2 F32) ![Fp.lit (-1), Fp.lit (-1)] (Fp.lit (1/10)) i
      - cellFromPoint (![Fp.lit (1/3), Fp.lit (1/5)] : Point 2 F32) ![Fp.lit (-1), Fp.lit (-1)]
        (Fp.lit (1/10)) i| ≤ (67 : ℕ)) ∧
    Casts (![Fp.lit (1/3), Fp.lit (1/5)] : Point 2 F32) ![Fp.lit 7, Fp.lit (16/5)]
      ⟨![Fp.lit (-1), Fp.lit (-1)], ![Fp.lit 10, Fp.lit 10]⟩ (Fp.lit (1/10)) (Fp.lit 15) ray
      (some (cellFromPoint (![Fp.lit 7, Fp.lit (16/5)] : Point 2 F32) ![Fp.lit (-1), Fp.lit (-1)]
        (Fp.lit (1/10)))) ∧
    ((5 * 100 + (67 : ℕ) ^ 2 + 10 * (67 : ℕ) + 23) / 2 ^ 24 : ℚ) ≤ 1 / 2950 := by
  have h1 : RayRange 100 (![Fp.lit (1/3), Fp.lit (1/5)] : Point 2 F32) ![Fp.lit 7, Fp.lit (16/5)]
      ![Fp.lit (-1), Fp.lit (-1)] (Fp.lit (1/10)) _ _ _ _ := rayRange_val (by decide +kernel)
  have h2 : ∀ i, |cellFromPoint (![Fp.lit 7, Fp.lit (16/5)] : Point 2 F32) ![Fp.lit (-1), Fp.lit (-1)]
      (Fp.lit (1/10)) i - cellFromPoint (![Fp.lit (1/3), Fp.lit (1/5)] : Point 2 F32) ![Fp.lit (-1), Fp.lit (-1)]
        (Fp.lit (1/10)) i| ≤ (67 : ℕ) := by decide +kernel
  obtain ⟨ray, hr⟩ := C24_range (.inl rfl) (bounds := ⟨![Fp.lit (-1), Fp.lit (-1)], ![Fp.lit 10, Fp.lit 10]⟩)
    h1 (by norm_num) h2 (by decide +kernel)
    (F32.lit_int_is (n := 15) (by norm_num)) (by decide +kernel) (by norm_num)
  exact ⟨_, _, _, _, ray, h1, h2, hr, by norm_num⟩

end Verif.Props
