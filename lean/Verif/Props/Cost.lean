import Mathlib.Algebra.Order.Chebyshev
import Verif.Spec.Cost
import Verif.Props.RangeLimit
import Verif.Props.Machine
import Verif.Props.Disc

/-!
# C91: bounds on work and memory
-/

namespace Verif.Props
open Spec Scalar

section
variable {F : Type} [Scalar F] {D : ℕ} {origin end_ : Point D F} {bounds : Bounds D F} {res ml : F}
  {ray : List (Cell D)} {e : Option (Cell D)} {cloud : PointCloud D F} {free occ : List (Cell D)}

lemma castLoop_work {c : RayCtx D F} {fuel : ℕ} {cell : Cell D} {t : Point D F} {rest e}
    (h : castLoop c fuel cell t = .ok (rest, e)) (n : ℕ) : castLoop c n cell t = .ok (rest, e) ↔ rest.length < n := by
  induction fuel generalizing cell t rest n with
  | zero => simp [castLoop] at h
  | succ k ih =>
    cases n with
    | zero => simp [castLoop]
    | succ n =>
      simp only [castLoop] at h ⊢
      cases hd : selDim t with
      | none => rw [hd] at h; cases h
      | some d =>
        rw [hd] at h
        dsimp only at h ⊢
        cases hx : isz (cell d + toInt (c.step d)) with
        | error e => rw [hx] at h; cases h
        | ok x =>
          rw [hx] at h
          rw [M.bind_ok] at h ⊢
          split_ifs at h ⊢ with h1 h2
          · cases h
            simp
          · cases h
            simp
          · rw [M.bind_eq_ok] at h
            obtain ⟨⟨rest', e'⟩, h3, h4⟩ := h
            cases h4
            rw [M.bind_eq_ok]
            simp only [List.length_cons, Nat.add_lt_add_iff_right]
            rw [← ih h3 n]
            constructor
            · rintro ⟨⟨r, e''⟩, h5, h6⟩
              cases h6
              exact h5
            · exact fun h5 => ⟨_, h5, rfl⟩

/-- C91: the work of a ray is its output: `cast_ray` returns within `n` rounds of its loop exactly if the ray has at most
`n` cells. -/
theorem C91_work (h : Casts origin end_ bounds res ml ray e) (n : ℕ) :
    castRay n origin end_ bounds res ml = .ok (ray, e) ↔ ray.length ≤ n := by
  obtain ⟨fuel, h⟩ := h
  unfold castRay at h ⊢
  dsimp only at h ⊢
  split_ifs at h ⊢ with h1 h2
  · cases h
    simp
  · rw [M.bind_eq_ok] at h
    obtain ⟨⟨rest, e'⟩, h3, h4⟩ := h
    cases h4
    rw [M.bind_eq_ok, List.length_cons, Nat.succ_le_iff, ← castLoop_work h3 n]
    constructor
    · rintro ⟨⟨r, e''⟩, h5, h6⟩
      cases h6
      exact h5
    · exact fun h5 => ⟨_, h5, rfl⟩

/-- C91: without a range limit `cast_ray` returns exactly if it does within as many rounds as there are steps from the
origin's cell to the end's. -/
theorem C91_decides [ScalarLaws F] (hml : Scalar.lt (lit 0) ml = false) :
    (∃ ray e, Casts origin end_ bounds res ml ray e) ↔
    ∃ ray e, castRay (∑ i, (cellFromPoint end_ bounds.min res i - cellFromPoint origin bounds.min res i).natAbs)
      origin end_ bounds res ml = .ok (ray, e) := by
  refine ⟨fun ⟨ray, e, h⟩ => ⟨ray, e, (C91_work h _).mpr ?_⟩, fun ⟨ray, e, h⟩ => ⟨ray, e, _, h⟩⟩
  obtain rfl := C21_no_limit h hml
  have := C19_shortest h
  zify
  exact this.le

/-- C91: the work and the output of a scan: if no ray to a point has more than `B` cells, `B` rounds per point are enough,
there are at most as many occupied cells as points and at most `B` times as many free cells. -/
theorem C91_scan (h : CastsRays origin cloud bounds res ml free occ) {B : ℕ}
    (hB : ∀ p ∈ cloud.points, ∀ ray e, Casts origin p bounds res ml ray e → ray.length ≤ B) :
    castRays B origin cloud bounds res ml = .ok (free, occ) ∧ occ.length ≤ cloud.points.length ∧
      free.length ≤ B * cloud.points.length := by
  have hnd := castRays_nodup h
  obtain ⟨n, h⟩ := h
  obtain ⟨rs, f0, h1, h2, rfl⟩ := castRays_ok h
  have hlen := h1.length_eq
  have hB' : ∀ r ∈ rs, r.1.length ≤ B := by
    intro r hr
    obtain ⟨p, hp, hpr⟩ := (forall₂_exists h1).1 r hr
    exact hB p hp r.1 r.2 ⟨n, hpr⟩
  have hwork : List.Forall₂ (fun p r => castRay B origin p bounds res ml = .ok r) cloud.points rs :=
    forall₂_mem h1 fun p hp r hpr => (C91_work ⟨n, hpr⟩ B).mpr (hB p hp r.1 r.2 ⟨n, hpr⟩)
  obtain ⟨m1, m2, -, -⟩ := castRaysStep_fold rs ([], [])
  rw [h2] at m1 m2
  refine ⟨?_, ?_, ?_⟩
  · unfold castRays
    rw [M.bind_eq_ok]
    exact ⟨(f0, occ), castRays_fold.mpr ⟨rs, hwork, h2⟩, rfl⟩
  · have hsub : occ ⊆ rs.filterMap Prod.snd := by
      intro x hx
      obtain ⟨r, hr, hrx⟩ := ((m2 x).mp hx).resolve_left (by simp)
      exact List.mem_filterMap.mpr ⟨r, hr, hrx⟩
    calc occ.length ≤ (rs.filterMap Prod.snd).length := (hnd.2.subperm hsub).length_le
      _ ≤ rs.length := List.length_filterMap_le _ _
      _ = _ := hlen.symm
  · have hsub : occ.foldl (fun s c => hsRemove c s) f0 ⊆ rs.flatMap Prod.fst := by
      intro x hx
      obtain ⟨r, hr, hrx⟩ := ((m1 x).mp (mem_foldl_hsRemove.mp hx).1).resolve_left (by simp)
      exact List.mem_flatMap.mpr ⟨r, hr, hrx⟩
    calc _ ≤ (rs.flatMap Prod.fst).length := (hnd.1.subperm hsub).length_le
      _ ≤ B * rs.length := by
        rw [List.length_flatMap, mul_comm, ← smul_eq_mul]
        have := List.sum_le_card_nsmul (rs.map fun r => r.1.length) B (by
          intro x hx
          obtain ⟨r, hr, rfl⟩ := List.mem_map.mp hx
          exact hB' r hr)
        simpa using this
      _ = _ := by rw [hlen]

/-- How many steps there are from one cell to another. -/
lemma chain_steps {oc : Cell D} : ∀ {l : List (Cell D)} {a : Cell D}, List.IsChain Adjacent (a :: l) →
    (a :: l).Pairwise (fun a b => Between oc b a) →
    ((a :: l).length : ℤ) + ∑ i, |a i - oc i| = 1 + ∑ i, |(a :: l).getLast (by simp) i - oc i|
  | [], a, _, _ => by simp
  | b :: l, a, hc, hp => by
    rw [List.isChain_cons_cons] at hc
    have ih := chain_steps hc.2 (List.pairwise_cons.mp hp).2
    have hbt : Between oc b a := (List.pairwise_cons.mp hp).1 b List.mem_cons_self
    obtain ⟨d, hd, hrest⟩ := hc.1
    have e : ∑ i, |b i - oc i| = 1 + ∑ i, |a i - oc i| := by
      have h1 : ∀ i, |b i - oc i| = |a i - oc i| + |b i - a i| := by
        intro i
        obtain ⟨h1, h2⟩ := hbt i
        rcases le_total (oc i) (b i) with h | h
        · rw [min_eq_left h] at h1
          rw [max_eq_right h] at h2
          rw [abs_of_nonneg (by omega), abs_of_nonneg (by omega), abs_of_nonneg (by omega)]
          omega
        · rw [min_eq_right h] at h1
          rw [max_eq_left h] at h2
          rw [abs_of_nonpos (by omega), abs_of_nonpos (by omega), abs_of_nonpos (by omega)]
          omega
      have h2 : ∑ i, |b i - a i| = 1 := by
        rw [Finset.sum_eq_single d (fun j _ hj => by rw [hrest j hj]; simp) (by simp), hd]
      simp only [h1, Finset.sum_add_distrib, h2]
      ring
    rw [List.getLast_cons (by simp), List.length_cons]
    push_cast at ih ⊢
    linarith

/-- The number of cells of a ray, cut or not. -/
lemma ray_length [ScalarLaws F] (h : Casts origin end_ bounds res ml ray e) (hne : ray ≠ []) :
    (ray.length : ℤ) = 1 + ∑ i, |ray.getLast hne i - cellFromPoint origin bounds.min res i| := by
  obtain ⟨h1, h2, -⟩ := C17_connected h hne
  have h3 := C19_no_return h
  cases ray with
  | nil => exact absurd rfl hne
  | cons a l =>
    have := chain_steps h2 h3
    simp only [List.head_cons] at h1
    subst h1
    simpa using this

end

section
variable {D : ℕ} {M ρ lam : ℚ} {o e : Point D F32} {bounds : Bounds D F32} {r ml : F32} {x y q : Fin D → ℚ}
  {ray : List (Cell D)} {res : Option (Cell D)}

/-- C91: with a range limit `lam`, in the working range, a ray has at most `√D · lam/ρ` cells, up to rounding errors and
borders. -/
theorem C91_range (hD : D = 2 ∨ D = 3) (h : RayRange M o e bounds.min r x y q ρ) (hM : M ≤ 2 ^ 19)
    (hml : ml.Is lam) (h0 : 1 / 2 ^ 60 ≤ lam) (hle : lam ≤ M * ρ) (hr : Casts o e bounds r ml ray res) :
    (ray.length : ℝ) ≤ √D * (lam * (1 + 1 / 2 ^ 20) / ρ) + 2 * D + 1 := by
  have hp := h.pos
  have hM1 := h.M_lo
  have h60 : lam ≤ 2 ^ 60 := hle.trans (by
    calc M * ρ ≤ 2 ^ 19 * 2 ^ 20 := by gcongr; exact h.hi
      _ ≤ _ := by norm_num)
  by_cases hne : ray = []
  · rw [hne]
    have : (0 : ℝ) ≤ lam * (1 + 1 / 2 ^ 20) / ρ := by
      have h1 : (0 : ℝ) < ρ := by exact_mod_cast hp
      have h2 : (0 : ℝ) ≤ lam := by exact_mod_cast (le_trans (by norm_num) h0)
      positivity
    simp only [List.length_nil, Nat.cast_zero]
    positivity
  have hlen := ray_length hr hne
  set oc := cellFromPoint o bounds.min r with hoc
  have hocn : ∀ i, |x i - (q i + oc i * ρ)| ≤ (5 / 8) * ρ := by
    intro i
    refine (cell_near (q := q i) (z := x i) h.toRes (h.offset i) (h.origin i) (h.origin_near i) hM1 h.M_hi).trans ?_
    gcongr
    have := h.M_hi
    norm_num at this ⊢
    linarith
  set L : ℚ := lam * (1 + 1 / 2 ^ 20) + rangeTol (2 * M + 4) ρ with hL
  have htol : rangeTol (2 * M + 4) ρ ≤ 11 / 16 * ρ := by
    unfold rangeTol
    rw [← mul_assoc]
    gcongr
    norm_num at hM ⊢
    linarith
  -- cells near the sensor stay near
  have near : ∀ z : Cell D, z = oc ∨ DistLe x (centre q ρ z) L → ∀ i, |(z i : ℚ)| ≤ 2 * M + 2 := by
    intro z hz i
    have e1 : |x i - (q i + z i * ρ)| ≤ (M + 1 / 2 + 11 / 16) * ρ := by
      rcases hz with rfl | ⟨hL0, hz⟩
      · exact (hocn i).trans (by gcongr; linarith)
      · have h1 : (centre q ρ z i - x i) ^ 2 ≤ L ^ 2 :=
          le_trans (Finset.single_le_sum (f := fun i => (centre q ρ z i - x i) ^ 2) (fun _ _ => sq_nonneg _)
            (Finset.mem_univ i)) hz
        have h2 : |centre q ρ z i - x i| ≤ L := abs_le_of_sq_le_sq h1 hL0
        rw [abs_sub_comm] at h2
        refine (show |x i - (q i + z i * ρ)| ≤ L from h2).trans ?_
        have h3 : lam * (1 + 1 / 2 ^ 20) ≤ (M + 1 / 2) * ρ := by
          calc lam * (1 + 1 / 2 ^ 20) ≤ M * ρ * (1 + 1 / 2 ^ 20) := by gcongr
            _ = M * (1 + 1 / 2 ^ 20) * ρ := by ring
            _ ≤ _ := by
              gcongr
              norm_num at hM ⊢
              linarith
        linarith
    have e2 := abs_sub_abs_le_abs_sub ((z i : ℚ) * ρ) (x i - q i)
    rw [abs_sub_comm (z i * ρ) (x i - q i), show x i - q i - z i * ρ = x i - (q i + z i * ρ) by ring, abs_mul, abs_of_pos hp] at e2
    have e3 := h.origin_near i
    have e4 : |(z i : ℚ)| * ρ ≤ (2 * M + 2) * ρ := by linarith
    exact le_of_mul_le_mul_right e4 hp
  have hN : (2 * M + 4) ≤ 2 ^ 21 := by norm_num at hM ⊢; linarith
  obtain ⟨hhead, hchain, -⟩ := C17_connected hr hne
  have all : ∀ z ∈ ray, z = oc ∨ DistLe x (centre q ρ z) L := by
    have key : ∀ (l : List (Cell D)) (a : Cell D), List.IsChain Adjacent (a :: l) → (∀ z ∈ a :: l, z ∈ ray) →
        (a = oc ∨ DistLe x (centre q ρ a) L) → ∀ z ∈ a :: l, z = oc ∨ DistLe x (centre q ρ z) L := by
      intro l
      induction l with
      | nil => intro a _ _ ha z hz; rw [List.mem_singleton] at hz; exact hz ▸ ha
      | cons b l ih =>
        intro a hc hsub ha z hz
        rw [List.isChain_cons_cons] at hc
        rcases List.mem_cons.mp hz with rfl | hz
        · exact ha
        · refine ih b hc.2 (fun z hz => hsub z (List.mem_cons_of_mem _ hz)) ?_ z hz
          refine C68_free_in_range hD h (by linarith) hN hml h0 h60 hr (hsub b (by simp)) fun i => ?_
          have h1 := near a ha i
          obtain ⟨d, hd, hrest⟩ := hc.1
          have h2 : |(b i : ℚ)| ≤ |(a i : ℚ)| + 1 := by
            by_cases hi : i = d
            · subst hi
              have h3 : |((b i : ℤ) : ℚ) - a i| = 1 := by exact_mod_cast hd
              have := abs_sub_abs_le_abs_sub (b i : ℚ) (a i)
              linarith
            · rw [hrest i hi]; linarith
          linarith
    cases hray : ray with
    | nil => exact absurd hray hne
    | cons a l =>
      subst hray
      exact key l a hchain (fun z hz => hz) (.inl hhead)
  set z := ray.getLast hne with hz
  have hsum : ∑ i, |((z i : ℤ) : ℝ) - oc i| ≤ √D * (lam * (1 + 1 / 2 ^ 20) / ρ) + 2 * D := by
    have hpr : (0 : ℝ) < ρ := by exact_mod_cast hp
    have hlam : (0 : ℝ) ≤ lam := by exact_mod_cast (le_trans (by norm_num) h0)
    rcases all z (List.getLast_mem hne) with hzo | ⟨hL0, hzd⟩
    · rw [hzo]
      simp only [sub_self, abs_zero, Finset.sum_const_zero]
      positivity
    have hL0' : (0 : ℝ) ≤ L := by exact_mod_cast hL0
    have e1 : ∑ i, |((centre q ρ z i : ℚ) : ℝ) - x i| ≤ √D * L := by
      have h1 := sq_sum_le_card_mul_sum_sq (s := Finset.univ) (f := fun i : Fin D => |((centre q ρ z i : ℚ) : ℝ) - x i|)
      have h2 : (∑ i, ((centre q ρ z i : ℚ) - x i : ℝ) ^ 2) ≤ (L : ℝ) ^ 2 := by exact_mod_cast hzd
      simp only [sq_abs, Finset.card_univ, Fintype.card_fin] at h1
      refine abs_le_of_sq_le_sq' ?_ (by positivity) |>.2
      rw [mul_pow, Real.sq_sqrt (by positivity)]
      exact h1.trans (by gcongr)
    have e2 : ∀ i, |((z i : ℤ) : ℝ) - oc i| * ρ ≤ |((centre q ρ z i : ℚ) : ℝ) - x i| + 5 / 8 * ρ := by
      intro i
      have h1 : |(x i : ℝ) - (q i + oc i * ρ)| ≤ 5 / 8 * ρ := by
        have := hocn i
        rw [← Rat.cast_le (K := ℝ)] at this
        push_cast at this
        exact this
      have h2 := abs_add_le (((centre q ρ z i : ℚ) : ℝ) - x i) ((x i : ℝ) - (q i + oc i * ρ))
      rw [show (((centre q ρ z i : ℚ) : ℝ) - x i) + ((x i : ℝ) - (q i + oc i * ρ)) = (((z i : ℤ) : ℝ) - oc i) * ρ by
        unfold centre; push_cast; ring, abs_mul, abs_of_pos hpr] at h2
      linarith
    have e3 : (∑ i, |((z i : ℤ) : ℝ) - oc i|) * ρ ≤ √D * L + D * (5 / 8 * ρ) := by
      rw [Finset.sum_mul]
      refine (Finset.sum_le_sum fun i _ => e2 i).trans ?_
      rw [Finset.sum_add_distrib]
      simp only [Finset.sum_const, Finset.card_univ, Fintype.card_fin, nsmul_eq_mul]
      linarith
    have e4 : (L : ℝ) ≤ lam * (1 + 1 / 2 ^ 20) + 11 / 16 * ρ := by
      have : L ≤ lam * (1 + 1 / 2 ^ 20) + 11 / 16 * ρ := by linarith
      rw [← Rat.cast_le (K := ℝ)] at this
      push_cast at this
      exact this
    have e5 : √(D : ℝ) ≤ D := by
      have hD1 : (1 : ℝ) ≤ D := by rcases hD with h | h <;> rw [h] <;> norm_num
      exact Real.sqrt_le_iff.mpr ⟨by positivity, by nlinarith⟩
    have e6 : (∑ i, |((z i : ℤ) : ℝ) - oc i|) * ρ ≤ (√D * (lam * (1 + 1 / 2 ^ 20) / ρ) + 2 * D) * ρ := by
      have h1 : (√D * (lam * (1 + 1 / 2 ^ 20) / ρ) + 2 * D) * ρ = √D * (lam * (1 + 1 / 2 ^ 20)) + 2 * D * ρ := by
        field_simp
      have h2 : √(D : ℝ) * L ≤ √D * (lam * (1 + 1 / 2 ^ 20)) + D * (11 / 16 * ρ) := by
        refine (mul_le_mul_of_nonneg_left e4 (Real.sqrt_nonneg _)).trans ?_
        rw [mul_add]
        gcongr
      have h3 : (0 : ℝ) ≤ D * ρ := by positivity
      rw [h1]
      linarith
    exact le_of_mul_le_mul_right e6 hpr
  have : ((ray.length : ℤ) : ℝ) = 1 + ∑ i, |((z i : ℤ) : ℝ) - oc i| := by
    rw [hlen]; push_cast; rfl
  push_cast at this
  linarith

end

/-! ## Memory -/

section
open Viz
variable {Map Cell Pt : Type} [DecidableEq Cell] {ops : MapOps Map Cell Pt} {n : ℕ} {m₀ : Map}

/-- A worker that has integrated and not reset yet. -/
def NotReset (pc : WorkerPc) : Prop := pc = .lockCells ∨ pc = .copy ∨ pc = .reset

set_option maxHeartbeats 4000000 in
/-- The list of changed cells of the map is empty when a worker comes to integrate. -/
lemma changed_nil (h0 : ops.changed m₀ = []) (hreset : ∀ m, ops.changed (ops.reset m) = []) {s : State Map Cell Pt}
    (h : Reach ops n m₀ s) : ops.changed s.map = [] ∨ s.mapPoisoned = true ∨
      ∃ (k : ℕ) (pc : WorkerPc) (r : ℕ), s.workers[k]? = some (pc, r) ∧ NotReset pc := by
  induction h with
  | init => exact .inl h0
  | step s s' hr hs ih =>
    rcases ih with ih | ih | ⟨k, pc, r, hk, hpc⟩
    · cases hs
      case wIntegrate k r m h1 h2 =>
        exact .inr (.inr ⟨k, .lockCells, r, by simp [setW, lt_of_getW h1], .inl rfl⟩)
      case wReset => exact .inl (hreset _)
      all_goals exact .inl ih
    · cases hs <;> first | exact .inr (.inl ih) | exact .inr (.inl rfl)
    · have hb : Busy pc := by rcases hpc with rfl | rfl | rfl <;> simp [Busy]
      have hinv := Reach.inv hr
      obtain ⟨b1, b2, b3⟩ := hinv.busy k pc r hk hb
      have same : ∀ {j : ℕ} {pc' : WorkerPc} {r' : ℕ}, s.workers[j]? = some (pc', r') → Busy pc' → pc' = pc := by
        intro j pc' r' hj hb'
        obtain ⟨-, -, c3⟩ := hinv.busy j pc' r' hj hb'
        obtain rfl : j = k := by omega
        rw [hj] at hk
        cases hk
        rfl
      have keep : ∀ {j : ℕ} {pc' pc'' : WorkerPc} {r' : ℕ}, s.workers[j]? = some (pc', r') → pc' ≠ pc →
          (s.workers.set j (pc'', r'))[k]? = some (pc, r) := by
        intro j pc' pc'' r' hj hne
        have : j ≠ k := by
          rintro rfl
          rw [hj] at hk
          cases hk
          exact hne rfl
        rw [List.getElem?_set_ne this, hk]
      cases hs
      case checkBusy => exact .inr (.inr ⟨k, pc, r, hk, hpc⟩)
      case checkDone => exact .inr (.inr ⟨k, pc, r, hk, hpc⟩)
      case lockCells h1 _ _ => rw [b1] at h1; cases h1
      case lockCellsPoisoned h1 _ _ => rw [b1] at h1; cases h1
      case lockMap h1 _ _ => rw [b1] at h1; cases h1
      case lockMapPoisoned h1 _ _ => rw [b1] at h1; cases h1
      case process h1 _ => rw [b1] at h1; cases h1
      case processPanic h1 _ => rw [b1] at h1; cases h1
      case clearFlag h1 => rw [b1] at h1; cases h1
      case spawn h1 _ => rw [b1] at h1; cases h1
      case spawnPanic h1 _ => rw [b1] at h1; cases h1
      case wLockMap j r' h1 _ _ =>
        have := same h1 (by simp [Busy])
        rcases hpc with rfl | rfl | rfl <;> cases this
      case wLockMapPoisoned j r' h1 _ _ =>
        have := same h1 (by simp [Busy])
        rcases hpc with rfl | rfl | rfl <;> cases this
      case wIntegrate j r' m h1 _ =>
        have := same h1 (by simp [Busy])
        rcases hpc with rfl | rfl | rfl <;> cases this
      case wIntegratePanic j r' h1 _ => exact .inr (.inl rfl)
      case wLockCells j r' h1 _ _ =>
        exact .inr (.inr ⟨j, .copy, r', by simp [setW, lt_of_getW h1], .inr (.inl rfl)⟩)
      case wLockCellsPoisoned => exact .inr (.inl rfl)
      case wCopy j r' h1 => exact .inr (.inr ⟨j, .reset, r', by simp [setW, lt_of_getW h1], .inr (.inr rfl)⟩)
      case wReset => exact .inl (hreset _)
      case wSetFlag j r' h1 =>
        have := same h1 (by simp [Busy])
        rcases hpc with rfl | rfl | rfl <;> cases this
      case wUnlock j r' h1 =>
        exact .inr (.inr ⟨k, pc, r, keep h1 (by rcases hpc with rfl | rfl | rfl <;> simp), hpc⟩)

lemma integrate_changed (h0 : ops.changed m₀ = []) (hreset : ∀ m, ops.changed (ops.reset m) = [])
    {s : State Map Cell Pt} (h : Reach ops n m₀ s) {k r : ℕ} (hk : s.workers[k]? = some (.integrate, r)) :
    ops.changed s.map = [] := by
  have hinv := Reach.inv h
  obtain ⟨b1, b2, b3⟩ := hinv.busy k _ r hk (by simp [Busy])
  rcases changed_nil h0 hreset h with h1 | h1 | ⟨j, pc, r', hj, hpc⟩
  · exact h1
  · rcases hinv.poisonM h1 with h2 | ⟨h2, h3⟩
    · rw [b1] at h2; cases h2
    · have := h3 _ r (by rw [← b3]; exact hk)
      cases this
  · obtain ⟨-, -, c3⟩ := hinv.busy j pc r' hj (by rcases hpc with rfl | rfl | rfl <;> simp [Busy])
    obtain rfl : j = k := by omega
    rw [hj] at hk
    cases hk
    rcases hpc with h | h | h <;> cases h

/-- A condition on cells that holds of all changed cells holds of everything the visualizer stores. -/
lemma reach_stored {I : Map → Prop} {R : Cell → Prop} (hI0 : I m₀) (h0 : ops.changed m₀ = [])
    (hint : ∀ r m m', I m → ops.changed m = [] → ops.integrate r m = .ret m' →
      I m' ∧ (ops.changed m').Nodup ∧ ∀ c ∈ ops.changed m', R c)
    (hreset : ∀ m, I m → I (ops.reset m)) (hnil : ∀ m, ops.changed (ops.reset m) = []) {s : State Map Cell Pt}
    (h : Reach ops n m₀ s) : I s.map ∧ ((ops.changed s.map).Nodup ∧ ∀ c ∈ ops.changed s.map, R c) ∧
      (s.cells.Nodup ∧ ∀ c ∈ s.cells, R c) ∧ ∀ c, s.tracked c ≠ none → R c := by
  induction h with
  | init => exact ⟨hI0, by simp [Viz.init, h0], by simp [Viz.init], by simp [Viz.init]⟩
  | step s s' hr hs ih =>
    obtain ⟨a1, a2, a3, a4⟩ := ih
    cases hs
    case process t h1 h2 =>
      refine ⟨a1, a2, by simp, fun c hc => ?_⟩
      rcases processCells_by_set (ops := ops) (m := s.map) s.cells s.tracked with ⟨-, h3⟩ | ⟨-, h3⟩
      · rw [h3] at h2; cases h2
      · rw [h3] at h2
        cases h2
        dsimp only at hc
        by_cases hm : c ∈ s.cells
        · exact a3.2 c hm
        · rw [if_neg hm] at hc
          exact a4 c hc
    case wIntegrate k r m h1 h2 =>
      obtain ⟨b1, b2⟩ := hint r s.map m a1 (integrate_changed h0 hnil hr h1) h2
      exact ⟨b1, b2, a3, a4⟩
    case wCopy k r h1 => exact ⟨a1, a2, a2, a4⟩
    case wReset k r h1 =>
      refine ⟨hreset _ a1, ?_, a3, a4⟩
      simp [hnil]
    all_goals exact ⟨a1, a2, a3, a4⟩

/-- C91: at most one worker thread is alive: all but the last have run to their end. -/
theorem C91_one_thread {s : State Map Cell Pt} (h : Reach ops n m₀ s) {k : ℕ} {pc : WorkerPc} {r : ℕ}
    (hk : s.workers[k]? = some (pc, r)) : k + 1 = s.workers.length ∨ pc = .done := by
  have key : (s.main = .process ∨ s.main = .clearFlag ∨ s.main = .spawn →
      ∀ (k : ℕ) pc r, s.workers[k]? = some (pc, r) → pc = .done) ∧
      ∀ (k : ℕ) pc r, s.workers[k]? = some (pc, r) → k + 1 = s.workers.length ∨ pc = .done := by
    clear hk
    induction h with
    | init => simp [Viz.init]
    | step s s' hr hs ih =>
      have hinv := Reach.inv hr
      obtain ⟨a1, a2⟩ := ih
      obtain ⟨i1, i2, i3, i4, i5, i6, i7, i8, i9, i10, i11, i12, i13⟩ := hinv
      cases hs
      case checkBusy => exact ⟨a1, a2⟩
      all_goals
        constructor <;> simp only [setW, List.length_set] <;> grind [Busy, HoldsMap]
  exact key.2 k pc r hk

end

section
open Viz
variable {D : ℕ} {m m' : GridMap D F32 F32} {cb : CellBounds D} {ρ : ℚ} {cloud : PointCloud D F32} {M N T : ℕ}
  {nm : LidarNoiseModel F32} {origin : Point D F32} {ord : List (Cell D) → List (Cell D)}

lemma shapeProd_le {B : ℕ} : ∀ {D : ℕ} {s : Fin D → ℕ}, (∀ i, s i ≤ B) → shapeProd s ≤ B ^ D
  | 0, _, _ => by simp [shapeProd]
  | D + 1, s, h => by
    rw [pow_succ, mul_comm]
    exact Nat.mul_le_mul (h 0) (shapeProd_le fun i => h i.succ)

/-- The map reaches at most as many tiles as clouds within `M` cells need. -/
def SmallMap (M T : ℕ) (ρ : ℚ) (m : GridMap D F32 F32) : Prop :=
  ∃ cb, Placed m cb ρ ∧ m.tileSize = T ∧ (cb = CellBounds.empty ∨
    ∀ i, -((M + T + 1) / T : ℕ) * (T : ℤ) ≤ cb.min i ∧ cb.max i ≤ ((M + T + 1) / T : ℕ) * (T : ℤ))

lemma SmallMap.shape (h : SmallMap M T ρ m) (i : Fin D) : m.data.shape i ≤ 2 * (M + T + 1) := by
  obtain ⟨cb, hP, -, hcb⟩ := h
  have h1 := hP.shape i
  rcases hcb with rfl | hcb
  · simp only [CellBounds.empty] at h1
    omega
  · obtain ⟨h2, h3⟩ := hcb i
    have h4 : ((M + T + 1) / T : ℕ) * T ≤ M + T + 1 := Nat.div_mul_le_self _ _
    have h5 : (((M + T + 1) / T : ℕ) : ℤ) * T ≤ M + T + 1 := by exact_mod_cast h4
    rw [neg_mul] at h2
    omega

lemma smallMap_expand (hD : D ≤ 3) (h : SmallMap M T ρ m) (hM1 : 1 ≤ M) (hM : M ≤ 2 ^ 18)
    (hcl : WithinCells M ρ cloud) : ∃ me, m.expandBounds cloud.bounds (Fp.lit 0) = .ok me ∧ SmallMap M T ρ me := by
  obtain ⟨cb, hP, hT, hcb⟩ := h
  have hpos := hP.res.pos
  have hMq : (M : ℚ) ≤ 262144 := by exact_mod_cast hM
  have hT1 : 1 ≤ T := hT ▸ hP.tile_pos
  have hcloud : CloudInRange cloud ρ := by
    intro p hp i
    obtain ⟨y, h1, h2⟩ := hcl p hp i
    exact ⟨y, h1, h2.trans (by norm_num; gcongr)⟩
  obtain ⟨me', ncb, h1, h2, h3⟩ := C34_not_larger hD hP (request_of_cloud hpos hcloud) (Fp.lit 0 : F32)
  refine ⟨me', h1, ncb, h2, by rw [← hT]; exact (C36_expandBounds h1).2.1, .inr fun i => ?_⟩
  have hc := cloud_bounds_pred cloud i (fun v => ∃ x, v.Is x ∧ |x| ≤ M * ρ)
      ⟨0, F32.zero_is, by rw [abs_zero]; positivity⟩ fun p hp => hcl p hp i
  obtain ⟨⟨x, hx, hx'⟩, y, hy, hy'⟩ := hc
  have hk : M + 2 ≤ (M + T + 1) / T * T := by
    have h4 := Nat.div_add_mod (M + T + 1) T
    have h5 := Nat.mod_lt (M + T + 1) (show 0 < T by omega)
    rw [mul_comm] at h4
    omega
  generalize (M + T + 1) / T = K at *
  have hkq : (M + 2 : ℚ) ≤ K * (T : ℚ) := by exact_mod_cast hk
  obtain ⟨a1, -⟩ := h3 i x y hx hy (-(K : ℤ))
  obtain ⟨-, a2⟩ := h3 i x y hx hy (K : ℤ)
  rw [hT] at a1 a2
  refine ⟨a1 (fun hne => (hcb.resolve_left hne i).1) ?_, a2 (fun hne => (hcb.resolve_left hne i).2) ?_⟩
  · refine le_trans ?_ (neg_le_of_abs_le hx')
    rw [← neg_mul]
    gcongr
    push_cast
    linarith
  · refine (le_of_abs_le hy').trans ?_
    gcongr
    push_cast
    linarith

lemma smallMap_integrate (hD : D ≤ 3) (h : SmallMap M T ρ m) (hM1 : 1 ≤ M) (hM : M ≤ 2 ^ 18)
    (hcl : WithinCells M ρ cloud) (ho : IsOrder ord) (hi : Integrates ord nm m origin cloud m') : SmallMap M T ρ m' := by
  obtain ⟨me, free, occ, e1, -, -, -, -, e6, e7, e8, -, e10⟩ := C38_integrate ho hi
  obtain ⟨me', h1, ncb, h2, h3, h4⟩ := smallMap_expand hD h hM1 hM hcl
  rw [e1] at h1
  cases h1
  exact ⟨ncb, placed_of_shape h2 e7 e6 e8 e10, e8.trans h3, h4⟩

lemma box_card {B : ℕ} : (Fintype.piFinset fun _ : Fin D => Finset.Ico (0 : ℤ) B).card = B ^ D := by simp

lemma stores_of {B : ℕ} {s : State (GridMap D F32 F32) (Cell D) (Point D F32)} (h1 : ∀ i, s.map.data.shape i ≤ B)
    (h2 : s.map.changedCells.Nodup ∧ ∀ c ∈ s.map.changedCells, ∀ i, 0 ≤ c i ∧ c i < B)
    (h3 : s.cells.Nodup ∧ ∀ c ∈ s.cells, ∀ i, 0 ≤ c i ∧ c i < B)
    (h4 : ∀ c, s.tracked c ≠ none → ∀ i, 0 ≤ c i ∧ c i < B) : StoresAtMost (B ^ D) s := by
  have list : ∀ l : List (Cell D), l.Nodup → (∀ c ∈ l, ∀ i, 0 ≤ c i ∧ c i < B) → l.length ≤ B ^ D := by
    intro l hn hl
    rw [← List.toFinset_card_of_nodup hn, ← box_card]
    refine Finset.card_le_card fun c hc => ?_
    simpa using hl c (by simpa using hc)
  have hsub : {c | s.tracked c ≠ none} ⊆ ((Fintype.piFinset fun _ : Fin D => Finset.Ico (0 : ℤ) B : Finset (Cell D)) :
      Set (Cell D)) := by
    intro c hc
    simpa using h4 c hc
  refine ⟨?_, list _ h2.1 h2.2, list _ h3.1 h3.2, (Finset.finite_toSet _).subset hsub, ?_⟩
  · rw [s.map.data.len]
    exact shapeProd_le h1
  · rw [← box_card, ← Set.ncard_coe_finset]
    exact Set.ncard_le_ncard hsub (Finset.finite_toSet _)

lemma stored_small (hD : D ≤ 3) {recs : ℕ → Point D F32 × PointCloud D F32} {n : ℕ} {m₀ : GridMap D F32 F32}
    {ord : ℕ → List (Cell D) → List (Cell D)} (ho : ∀ r, IsOrder (ord r))
    (h0 : Placed m₀ CellBounds.empty ρ) (ht0 : m₀.changedCells = []) (hM1 : 1 ≤ M) (hM : M ≤ 2 ^ 18)
    (hN : N = M + m₀.tileSize + 1) (hcl : ∀ r, WithinCells M ρ (recs r).2)
    {s : State (GridMap D F32 F32) (Cell D) (Point D F32)} (hr : Reach (occOps nm recs ord) n m₀ s) :
    SmallMap M m₀.tileSize ρ s.map ∧
      (s.map.changedCells.Nodup ∧ ∀ c ∈ s.map.changedCells, ∀ i, 0 ≤ c i ∧ c i < (2 * N : ℕ)) ∧
      (s.cells.Nodup ∧ ∀ c ∈ s.cells, ∀ i, 0 ≤ c i ∧ c i < (2 * N : ℕ)) ∧
      ∀ c, s.tracked c ≠ none → ∀ i, 0 ≤ c i ∧ c i < (2 * N : ℕ) := by
  exact reach_stored (ops := occOps nm recs ord) (I := SmallMap M m₀.tileSize ρ)
    (R := fun c => ∀ i, 0 ≤ c i ∧ c i < (2 * N : ℕ)) ⟨_, h0, rfl, .inl rfl⟩ ht0
    (fun r m m' hI hch hi => by
      have hI1 : SmallMap M m₀.tileSize ρ (m.setTrackChanges true) := by
        obtain ⟨cb, b1, b2⟩ := hI
        exact ⟨cb, placed_of_shape b1 rfl rfl rfl rfl, b2⟩
      have hx := occOps_ret hi
      have hs := smallMap_integrate hD hI1 hM1 hM (hcl r) (ho r) hx
      refine ⟨hs, ?_⟩
      obtain ⟨me, free, occ, new, f1, f2, f3, f4, f5, -⟩ := C40_tracked (ho r) hx rfl
      obtain ⟨me', free', occ', e1, e2, e3, e4, -⟩ := C38_integrate (ho r) hx
      rw [e1] at f1
      cases f1
      have hch' : (m.setTrackChanges true).changedCells = [] := hch
      rw [hch', List.nil_append] at f3
      have f3' : (occOps nm recs ord).changed m' = new := f3
      rw [f3']
      refine ⟨f4, fun c hc i => ?_⟩
      have hocc : c ∈ occ ↔ c ∈ occ' := (C28_occupied f2 c).trans (C28_occupied e2 c).symm
      have hfo : c ∈ free' ∨ c ∈ occ' := ((f5 c).mp hc).imp (fun h => by
        obtain ⟨g1, g2⟩ := (C28_free f2 c).mp h
        exact (C28_free e2 c).mpr ⟨g1, fun h => g2 (hocc.mpr h)⟩) hocc.mp
      obtain ⟨k1, k2⟩ := castsRays_machine e2
      have hmc : MachineCell c := hfo.elim (k1 c) (k2 c)
      have hin : InGrid m' c := by
        by_contra hno
        have h1 := (C31_get m' hmc).2 hno
        rcases hfo with hc | hc
        · obtain ⟨v, -, hv⟩ := e3 c hc
          rw [h1] at hv
          cases hv
        · obtain ⟨v, -, hv⟩ := e4 c hc
          rw [h1] at hv
          cases hv
      have h3 := hs.shape i
      have h4 := hin i
      refine ⟨h4.1, lt_of_lt_of_le h4.2 ?_⟩
      rw [hN]
      exact_mod_cast h3)
    (fun m hI => by
      obtain ⟨cb, b1, b2⟩ := hI
      exact ⟨cb, placed_of_shape b1 rfl rfl rfl rfl, b2⟩)
    (fun _ => rfl) hr

/-- C91: the visualizer runs in bounded memory. If all points of all recordings are within `M` cells of the start, then
at every moment of every run, with a relaxed flag and any hash orders, the map, the lists of changed cells and the table
of drawn cells have at most `(2 N)^D` entries each, `N` being `M`, a tile and a cell; and at most one worker thread is
alive. No scan has to be clear; the number of scans played does not matter. -/
theorem C91_memory (hD : D ≤ 3) {recs : ℕ → Point D F32 × PointCloud D F32} {n : ℕ} {m₀ : GridMap D F32 F32}
    (h0 : Placed m₀ CellBounds.empty ρ) (ht0 : m₀.changedCells = []) (hM1 : 1 ≤ M) (hM : M ≤ 2 ^ 18)
    (hN : N = M + m₀.tileSize + 1) (hcl : ∀ r, WithinCells M ρ (recs r).2)
    {w : WState (GridMap D F32 F32) (Cell D) (Point D F32)} (hr : AnyWReach nm recs n m₀ w) :
    StoresAtMost ((2 * N) ^ D) w.prog ∧
      ∀ (k : ℕ) pc r, w.prog.workers[k]? = some (pc, r) → k + 1 = w.prog.workers.length ∨ pc = .done := by
  have ho : ∀ r : ℕ, IsOrder ((fun _ l => l : ℕ → List (Cell D) → List (Cell D)) r) := fun _ l => .refl l
  obtain ⟨s, h1, h2⟩ := C90_reach ho hr
  constructor
  · obtain ⟨a1, a2, a3, a4⟩ := stored_small hD ho h0 ht0 hM1 hM hN hcl h1
    have hs : StoresAtMost ((2 * N) ^ D) s := stores_of (fun i => hN ▸ a1.shape i) a2 a3 a4
    refine ⟨?_, ?_, ?_, ?_⟩
    · have e : w.prog.map.data = s.map.data := h2.map.data
      rw [e]
      exact hs.map
    · exact h2.map.changed.length_eq.trans_le hs.changed
    · exact h2.cells.length_eq.trans_le hs.cells
    · have e : w.prog.tracked = s.tracked := h2.tracked
      rw [e]
      exact hs.tracked
  · intro k pc r hk
    have e : w.prog.workers = s.workers := h2.workers
    rw [e] at hk ⊢
    exact C91_one_thread h1 hk

/-- A run without end of the recordings of `clearRecs`, a relaxed flag and any hash orders: at every moment everything
stored has at most 484 entries, though at some moment 9 workers have been started. -/
example : ∃ τ, AnyWExecution defaultNM clearRecs 1 smallMap τ ∧ AnyWFair defaultNM clearRecs 1 τ ∧
    (∃ i, (τ i).prog.workers.length = 9) ∧ ∀ i, StoresAtMost 484 (τ i).prog := by
  have ho : ∀ r : ℕ, IsOrder ((fun _ l => l : ℕ → List (Cell 2) → List (Cell 2)) r) := fun _ l => .refl l
  obtain ⟨τ, h1, h2⟩ := anyWFair_exists (nm := defaultNM) (recs := clearRecs) (n := 1) (m₀ := smallMap)
    fun w hw => anyW_go ho (fun s hs => (C82_visualizer (nm := defaultNM) (recs := clearRecs) (n := 1) (K := 8) (N := 11)
      (.inl rfl) (by norm_num) smallMap_placed rfl rfl ho (by norm_num) (by norm_num) (M := 8) (by norm_num) rfl
      (by norm_num) (fun r _ => ⟨_, clearRecs_clear r⟩) hs).2.2) hw
  refine ⟨τ, h1, h2, ?_, fun i => ?_⟩
  · obtain ⟨σ, h3, h4, h5⟩ := C90_runs ho h1
    obtain ⟨i, -, h6⟩ := C82_every_run (K := 8) (N := 11) (.inl rfl) (by norm_num) smallMap_placed rfl rfl ho
      (by norm_num) (by norm_num) (M := 8) (by norm_num) rfl (by norm_num) (fun r _ => ⟨_, clearRecs_clear r⟩) h3 (h5 h2) 9
    have e : (τ i).prog.workers = (σ i).workers := (h4 i).workers
    exact ⟨i, by rw [e, h6]⟩
  · exact (C91_memory (M := 8) (N := 11) (by norm_num) smallMap_placed rfl (by norm_num) (by norm_num) rfl
      (fun r => clear_within (clearRecs_clear r)) (anyW_reach h1 i)).1

end

/-- Three rounds, not two, for a ray of three cells without a limit; four for one with a limit. -/
example : (∃ r, castRay 3 (![Fp.lit 0, Fp.lit 0] : Point 2 F32) ![Fp.lit 2, Fp.lit 1]
    ⟨![Fp.lit 0, Fp.lit 0], ![Fp.lit 9, Fp.lit 9]⟩ (Fp.lit 1) (Fp.lit 0) = .ok r) ∧
    ¬ (castRay 2 (![Fp.lit 0, Fp.lit 0] : Point 2 F32) ![Fp.lit 2, Fp.lit 1]
      ⟨![Fp.lit 0, Fp.lit 0], ![Fp.lit 9, Fp.lit 9]⟩ (Fp.lit 1) (Fp.lit 0) =
        .ok ([![0, 0], ![1, 0], ![1, 1]], some ![2, 1])) := by
  have h : Casts (![Fp.lit 0, Fp.lit 0] : Point 2 F32) ![Fp.lit 2, Fp.lit 1]
    ⟨![Fp.lit 0, Fp.lit 0], ![Fp.lit 9, Fp.lit 9]⟩ (Fp.lit 1) (Fp.lit 0)
    [![0, 0], ![1, 0], ![1, 1]] (some ![2, 1]) := ⟨3, by decide +kernel⟩
  exact ⟨⟨_, (C91_work h 3).mpr (by simp)⟩, fun h2 => absurd ((C91_work h 2).mp h2) (by simp)⟩
example : Scalar.lt (lit 0) (Fp.lit 0 : F32) = false := by decide +kernel

/-- A scan of two points with rays of at most 3 cells. -/
example : ∃ free occ, castRays 3 (![Fp.lit 0, Fp.lit 0] : Point 2 F32)
    (PointCloud.fromPoints [![Fp.lit 2, Fp.lit 1], ![Fp.lit 1, Fp.lit 1]])
    ⟨![Fp.lit 0, Fp.lit 0], ![Fp.lit 9, Fp.lit 9]⟩ (Fp.lit 1) (Fp.lit 0) = .ok (free, occ) := by
  have key : (castRays 3 (![Fp.lit 0, Fp.lit 0] : Point 2 F32)
    (PointCloud.fromPoints [![Fp.lit 2, Fp.lit 1], ![Fp.lit 1, Fp.lit 1]])
    ⟨![Fp.lit 0, Fp.lit 0], ![Fp.lit 9, Fp.lit 9]⟩ (Fp.lit 1) (Fp.lit 0)).toOption.isSome = true := by decide +kernel
  obtain ⟨⟨f, o⟩, h⟩ := Option.isSome_iff_exists.mp key
  refine ⟨f, o, ?_⟩
  revert h
  cases castRays 3 (![Fp.lit 0, Fp.lit 0] : Point 2 F32)
    (PointCloud.fromPoints [![Fp.lit 2, Fp.lit 1], ![Fp.lit 1, Fp.lit 1]])
    ⟨![Fp.lit 0, Fp.lit 0], ![Fp.lit 9, Fp.lit 9]⟩ (Fp.lit 1) (Fp.lit 0) <;> simp [Except.toOption]

/-- A ray of length 7.3 with the limit 3 at a resolution of 0.1 has at most 48 cells. -/
example : ∃ ray res, Casts (![Fp.lit (1/3), Fp.lit (1/5)] : Point 2 F32) ![Fp.lit 7, Fp.lit (16/5)]
      ⟨![Fp.lit (-1), Fp.lit (-1)], ![Fp.lit 9, Fp.lit 9]⟩ (Fp.lit (1/10)) (Fp.lit 3) ray res ∧
      (ray.length : ℝ) ≤ 48 := by
  have h1 : RayRange 100 (![Fp.lit (1/3), Fp.lit (1/5)] : Point 2 F32) ![Fp.lit 7, Fp.lit (16/5)]
      ![Fp.lit (-1), Fp.lit (-1)] (Fp.lit (1/10)) _ _ _ _ := rayRange_val (by decide +kernel)
  have e : (Fp.lit (1/10) : F32).val = 13421773 / 2 ^ 27 := by decide +kernel
  rw [e] at h1
  have key : (castRay 60 (![Fp.lit (1/3), Fp.lit (1/5)] : Point 2 F32) ![Fp.lit 7, Fp.lit (16/5)]
      ⟨![Fp.lit (-1), Fp.lit (-1)], ![Fp.lit 9, Fp.lit 9]⟩ (Fp.lit (1/10)) (Fp.lit 3)).toOption.isSome = true := by
    decide +kernel
  obtain ⟨⟨ray, res⟩, h2⟩ := Option.isSome_iff_exists.mp key
  have h3 : castRay 60 (![Fp.lit (1/3), Fp.lit (1/5)] : Point 2 F32) ![Fp.lit 7, Fp.lit (16/5)]
      ⟨![Fp.lit (-1), Fp.lit (-1)], ![Fp.lit 9, Fp.lit 9]⟩ (Fp.lit (1/10)) (Fp.lit 3) = .ok (ray, res) := by
    revert h2
    cases castRay 60 (![Fp.lit (1/3), Fp.lit (1/5)] : Point 2 F32) ![Fp.lit 7, Fp.lit (16/5)]
      ⟨![Fp.lit (-1), Fp.lit (-1)], ![Fp.lit 9, Fp.lit 9]⟩ (Fp.lit (1/10)) (Fp.lit 3) <;> simp [Except.toOption]
  refine ⟨ray, res, ⟨60, h3⟩, ?_⟩
  have h4 := C91_range (lam := 3) (.inl rfl) h1 (by norm_num) (by decide +kernel) (by norm_num) (by norm_num) ⟨60, h3⟩
  refine h4.trans ?_
  have h5 : √((2 : ℕ) : ℝ) ≤ 1.4143 := Real.sqrt_le_iff.mpr ⟨by norm_num, by norm_num⟩
  calc _ ≤ 1.4143 * (((3 : ℚ) : ℝ) * (1 + 1 / 2 ^ 20) / ((13421773 / 2 ^ 27 : ℚ) : ℝ)) + 2 * ((2 : ℕ) : ℝ) + 1 := by
        gcongr
    _ ≤ 48 := by push_cast; norm_num

end Verif.Props
