import Verif.Lemmas.ScaleRay
import Verif.Spec.Flat

/-!
# Rays in a plane of three-dimensional space
-/

namespace Verif
open Spec Scalar

lemma fine_unit {B : ℤ} {x : F32} (h : Fine B x) : ∃ q, Unit2 0 (-60) B q x x := by
  obtain ⟨q, h1, h2, h3⟩ := h
  have e : q * 2 ^ (0 : ℤ) = q := by rw [zpow_zero, mul_one]
  exact ⟨q, h1, by rwa [e], h2, by rwa [e], h3, by rwa [e]⟩

lemma flatCell_injective (h : ℤ) : Function.Injective (flatCell h) := by
  intro a b e
  funext i
  obtain rfl | rfl : i = 0 ∨ i = 1 := by omega
  · exact congrFun e 0
  · exact congrFun e 1

/-! ## Zero in sums -/

lemma lit0_add_of_is {x y : F32} {q : ℚ} (hx : x.Is q) (hy : y.Is q) : (Fp.lit 0 : F32).add x = (Fp.lit 0).add y := by
  have e : (Fp.lit 0 : F32) = .fin 0 false Fmt.rep_zero (by simp) := by decide +kernel
  obtain ⟨_, _, _, rfl⟩ := hx
  obtain ⟨_, _, _, rfl⟩ := hy
  rw [e]
  rfl

lemma zero_mul_self {w : F32} (hw : w.Is 0) : w.mul w = Fp.lit 0 := by
  obtain ⟨a, _, _, rfl⟩ := hw
  change Fp.ofRat (_ ^^ _) (0 * 0) = Fp.ofRat _ _
  simp

lemma lit0_add_add (s : F32) : (Fp.lit 0 : F32).add (s.add (Fp.lit 0)) = (Fp.lit 0).add s := by
  have e : (Fp.lit 0 : F32) = .fin 0 false Fmt.rep_zero (by simp) := by decide +kernel
  match s with
  | .nan => rw [e]; rfl
  | .inf b => rw [e]; rfl
  | .fin q nz h hz =>
    refine lit0_add_of_is (q := q) ?_ ⟨_, _, _, rfl⟩
    rw [e]
    change (Fp.ofRat (nz && false) (q + 0) : F32).Is q
    rw [add_zero]
    exact Fp.ofRat_is_rep h

lemma normSquared_flat {v : Point 3 F32} {u : Point 2 F32} (h0 : v 0 = u 0) (h1 : v 1 = u 1) (h2 : (v 2).Is 0) :
    normSquared v = normSquared u := by
  change (Fp.lit 0 : F32).add (Fp.add (Fp.add (Fp.mul (v 0) (v 0)) (Fp.mul (v 1) (v 1))) (Fp.mul (v 2) (v 2))) =
    (Fp.lit 0 : F32).add (Fp.add (Fp.mul (u 0) (u 0)) (Fp.mul (u 1) (u 1)))
  rw [h0, h1, zero_mul_self h2, lit0_add_add]

lemma sub_self_is {z : F32} {q : ℚ} (h : z.Is q) : (z.sub z).Is 0 := by
  have := h.sub h (by rw [sub_self, F32.rnd_zero, abs_zero]; positivity)
  rwa [sub_self, F32.rnd_zero] at this

/-! ## Times -/

/-- A time that stays finite. -/
def FinT (B : ℤ) (x : F32) : Prop := ∃ q, x.Is q ∧ |q| ≤ 2 ^ B

/-- Infinite, or a time that stays finite. -/
def AnyT (B : ℤ) (x : F32) : Prop := x = .inf false ∨ FinT B x

lemma FinT.add {x y : F32} (hx : FinT 127 x) (hy : FinT 103 y) : FinT 127 (x.add y) := by
  obtain ⟨q, h1, h3⟩ := hx
  obtain ⟨s, g1, g3⟩ := hy
  have b1 := stall127 ((abs_add_le q s).trans (add_le_add h3 g3))
  have hlt : (2 : ℚ) ^ (127 : ℤ) < 2 ^ b32.emax := two_zpow_lt (by simp [b32])
  exact ⟨_, h1.add g1 (b1.trans_lt hlt), b1⟩

lemma AnyT.add {x y : F32} (hx : AnyT 127 x) (hy : AnyT 103 y) : AnyT 127 (x.add y) := by
  rcases hx with rfl | hx <;> rcases hy with rfl | hy
  · exact .inl rfl
  · obtain ⟨_, ⟨_, _, _, rfl⟩, _⟩ := hy; exact .inl rfl
  · obtain ⟨_, ⟨_, _, _, rfl⟩, _⟩ := hx; exact .inl rfl
  · exact .inr (hx.add hy)

lemma AnyT.of_times {B : ℤ} {x : F32} (h : Times 0 B x x) : AnyT B x := by
  rcases h with ⟨rfl, -⟩ | ⟨q, h1, -, h3, -⟩
  · exact .inl rfl
  · exact .inr ⟨q, h1, h3⟩

lemma selDim_flat {t : Point 2 F32} {t3 : Point 3 F32} (h0 : t3 0 = t 0) (h1 : t3 1 = t 1) (h2 : t3 2 = .inf false)
    (ht : ∀ i, AnyT 127 (t i)) (hf : ∃ i, FinT 127 (t i)) :
    ∃ d, selDim t = some d ∧ selDim t3 = some d.castSucc := by
  have lt : ∀ {x : F32}, FinT 127 x → (x <. (.inf false : F32)) = true := fun {x} h => by
    obtain ⟨_, ⟨_, _, _, rfl⟩, _⟩ := h; rfl
  have nlt : ∀ x : F32, ((.inf false : F32) <. x) = false := fun x => by
    cases x with
    | inf b => cases b <;> rfl
    | _ => rfl
  simp only [selDim, h0, h1, h2]
  by_cases c : (t 0 <. t 1) = true
  · refine ⟨0, by rw [if_pos c], ?_⟩
    rw [if_pos c]
    rcases ht 0 with e | e
    · rw [e, nlt] at c; cases c
    · rw [if_pos (lt e)]; rfl
  · refine ⟨1, by rw [if_neg c], ?_⟩
    rw [if_neg c]
    rcases ht 1 with e | e
    · exfalso
      obtain ⟨i, hi⟩ := hf
      obtain rfl | rfl : i = 0 ∨ i = 1 := by omega
      · rw [e] at c; exact c (lt hi)
      · rw [e] at hi; obtain ⟨_, ⟨_, _, _, h⟩, _⟩ := hi; cases h
    · rw [if_pos (lt e)]; rfl

lemma flatPt_update (z : F32) (t : Point 2 F32) (d : Fin 2) (x : F32) :
    Function.update (flatPt z t) d.castSucc x = flatPt z (Function.update t d x) := by
  funext i
  obtain rfl | rfl : d = 0 ∨ d = 1 := by omega
  all_goals
    obtain rfl | rfl | rfl : i = 0 ∨ i = 1 ∨ i = 2 := by omega
    all_goals simp [flatPt, Function.update]

lemma flatCell_update (h : ℤ) (c : Cell 2) (d : Fin 2) (x : ℤ) :
    Function.update (flatCell h c) d.castSucc x = flatCell h (Function.update c d x) := by
  funext i
  obtain rfl | rfl : d = 0 ∨ d = 1 := by omega
  all_goals
    obtain rfl | rfl | rfl : i = 0 ∨ i = 1 ∨ i = 2 := by omega
    all_goals simp [flatCell, Function.update]

lemma flatPt_castSucc (z : F32) (t : Point 2 F32) (d : Fin 2) : flatPt z t d.castSucc = t d := by
  obtain rfl | rfl : d = 0 ∨ d = 1 := by omega
  all_goals rfl

lemma flatCell_castSucc (h : ℤ) (t : Cell 2) (d : Fin 2) : flatCell h t d.castSucc = t d := by
  obtain rfl | rfl : d = 0 ∨ d = 1 := by omega
  all_goals rfl

/-- The loop contexts of a ray in the plane, in two and in three dimensions. -/
structure FlatCtx (h : ℤ) (c : RayCtx 2 F32) (c3 : RayCtx 3 F32) : Prop where
  step : ∀ d : Fin 2, c3.step d.castSucc = c.step d
  tDelta : ∀ d : Fin 2, c3.tDelta d.castSucc = c.tDelta d
  endCell : c3.endCell = flatCell h c.endCell
  tooFar : ∀ z, c3.tooFar (flatCell h z) = c.tooFar z

/-- The result of a ray, put into layer `h`. -/
def liftRay (h : ℤ) (r : List (Cell 2) × Option (Cell 2)) : List (Cell 3) × Option (Cell 3) :=
  (r.1.map (flatCell h), r.2.map (flatCell h))

lemma castLoop_flat {h : ℤ} {c : RayCtx 2 F32} {c3 : RayCtx 3 F32} (hc : FlatCtx h c c3) (hd : ∀ i, AnyT 103 (c.tDelta i))
    {j : Fin 2} (hj : FinT 103 (c.tDelta j)) (n : ℕ) :
    ∀ {cell : Cell 2} {t : Point 2 F32}, (∀ i, AnyT 127 (t i)) → FinT 127 (t j) →
      castLoop c3 n (flatCell h cell) (flatPt (.inf false) t) = (castLoop c n cell t).map (liftRay h) := by
  induction n with
  | zero => intros; rfl
  | succ n ih =>
    intro cell t ht htj
    obtain ⟨d, e2, e3⟩ := selDim_flat (t := t) (t3 := flatPt (.inf false) t) rfl rfl rfl ht ⟨j, htj⟩
    unfold castLoop
    rw [e2, e3]
    dsimp only
    rw [flatCell_castSucc, hc.step]
    cases hx : isz (cell d + toInt (c.step d)) with
    | error => rfl
    | ok x =>
      simp only [M.bind_ok]
      rw [flatCell_update, flatPt_update, flatPt_castSucc, hc.tDelta, hc.endCell, hc.tooFar]
      by_cases he : Function.update cell d x = c.endCell
      · rw [if_pos he, if_pos (by rw [he])]
        rfl
      · rw [if_neg he, if_neg fun e => he (flatCell_injective h e)]
        split_ifs
        · rfl
        · rw [ih (t := Function.update t d (t d +. c.tDelta d))]
          · cases castLoop c n (Function.update cell d x) (Function.update t d (t d +. c.tDelta d)) with
            | error => rfl
            | ok r => rfl
          · intro i
            by_cases hi : i = d
            · subst hi; rw [Function.update_self]; exact (ht i).add (hd i)
            · rw [Function.update_of_ne hi]; exact ht i
          · by_cases hi : j = d
            · subst hi; rw [Function.update_self]; exact htj.add hj
            · rw [Function.update_of_ne hi]; exact htj

lemma cellFromPoint_flat (z : F32) (p : Point 2 F32) {b : Point 2 F32} {b3 : Point 3 F32} (h0 : b3 0 = b 0) (h1 : b3 1 = b 1)
    (r : F32) : cellFromPoint (flatPt z p) b3 r = flatCell (cellCoordFromPointCoord z (b3 2) r) (cellFromPoint p b r) := by
  funext i
  obtain rfl | rfl | rfl : i = 0 ∨ i = 1 ∨ i = 2 := by omega
  · change cellCoordFromPointCoord _ _ _ = cellCoordFromPointCoord _ _ _; rw [h0]; rfl
  · change cellCoordFromPointCoord _ _ _ = cellCoordFromPointCoord _ _ _; rw [h1]; rfl
  · rfl

/-- A ray in a layer, whose height is that of the centres of the layer. -/
lemma castRay_flat (n : ℕ) {o e : Point 2 F32} {b : Bounds 2 F32} {b3 : Bounds 3 F32} {r ml z : F32} (ho : FinePt 20 o)
    (he : FinePt 20 e) (hb : FinePt 24 b.min) (h0 : b3.min 0 = b.min 0) (h1 : b3.min 1 = b.min 1) (hr : Fine 20 r)
    (hr0 : 0 < r.val) {ζ : ℚ} (hz : z.Is ζ) {h : ℤ} (hh : cellCoordFromPointCoord z (b3.min 2) r = h)
    (hcen : (pointCoordFromCellCoord h (b3.min 2) r).Is ζ) :
    castRay n (flatPt z o) (flatPt z e) b3 r ml = (castRay n o e b r ml).map (liftRay h) := by
  have co := cellFromPoint_flat z o h0 h1 r
  have ce := cellFromPoint_flat z e h0 h1 r
  rw [hh] at co ce
  unfold castRay
  rw [if_pos (show (3 : ℕ) = 2 ∨ (3 : ℕ) = 3 from .inr rfl), if_pos (show (2 : ℕ) = 2 ∨ (2 : ℕ) = 3 from .inl rfl)]
  dsimp only
  rw [co, ce]
  by_cases hs : cellFromPoint o b.min r = cellFromPoint e b.min r
  · rw [if_pos hs, if_pos (by rw [hs])]; rfl
  · rw [if_neg hs, if_neg fun x => hs (flatCell_injective h x)]
    choose a ha using fun i => fine_unit (ho i)
    choose d hd using fun i => fine_unit (he i)
    choose c hc using fun i => fine_unit (hb i)
    obtain ⟨ρ, hρ⟩ := fine_unit hr
    rw [hρ.fst.val] at hr0
    obtain ⟨j, hj⟩ : ∃ j, a j ≠ d j := by
      by_contra hne
      push Not at hne
      apply hs
      funext i
      have q1 := (((ha i).mono le_rfl (by norm_num : (20 : ℤ) ≤ 24)).sub (hc i) (by norm_num) (by norm_num)).quot hρ hr0.ne'
        (by norm_num)
      have q2 := (((hd i).mono le_rfl (by norm_num : (20 : ℤ) ≤ 24)).sub (hc i) (by norm_num) (by norm_num)).quot hρ hr0.ne'
        (by norm_num)
      rw [← hne i] at q2
      exact q1.1.round_toInt.trans q2.1.round_toInt.symm
    -- the direction
    have hs2 : ∀ i, Unit2 0 (-60) 21 (b32.rnd (d i - a i)) (e i -. o i) (e i -. o i) := fun i =>
      (hd i).sub (ha i) (by norm_num) (by norm_num)
    have hne : b32.rnd (d j - a j) ≠ 0 := by
      intro hz0
      have hg : OnGrid (-60) (d j - a j) := by
        rw [sub_eq_add_neg]; exact (hd j).grid.add (ha j).grid.neg
      have := F32.pow_low (by norm_num) (by norm_num) (hg.le (sub_ne_zero.mpr hj.symm))
      rw [hz0, abs_zero] at this
      exact absurd this (not_le.mpr (two_zpow_pos _))
    obtain ⟨L, hL, -, hL0, hL1, hL2⟩ := norm_unit (.inl rfl) hs2 hne
    have hz0 : (flatPt z e 2 -. flatPt z o 2).Is 0 := sub_self_is hz
    have hnorm : norm (fun i => flatPt z e i -. flatPt z o i) = norm fun i => e i -. o i := by
      unfold norm
      rw [normSquared_flat (u := fun i => e i -. o i) rfl rfl hz0]
    have hdir : ∀ i : Fin 2, rayDir (flatPt z o) (flatPt z e) i.castSucc = rayDir o e i := fun i => by
      unfold rayDir
      dsimp only
      rw [hnorm, flatPt_castSucc, flatPt_castSucc]
    have hdirz : (rayDir (flatPt z o) (flatPt z e) 2).Is 0 := by
      unfold rayDir
      dsimp only
      rw [hnorm]
      have := hz0.div hL hL0.ne' (by rw [zero_div, F32.rnd_zero, abs_zero]; positivity)
      rwa [zero_div, F32.rnd_zero] at this
    have hsz : f32Signum (rayDir (flatPt z o) (flatPt z e) 2) = lit 0 := by rw [signum_is hdirz, if_pos rfl]
    have e1 : ((lit 0 : F32) ==. lit 0) = true := by decide +kernel
    choose δ d1 d2 d3 d4 using dir_unit (.inl rfl) ha hd hj
    have hax := fun i => axis_unit_fin (ha i) (hc i) hρ hr0 (d1 i) (d2 i) (d3 i) (d4 i)
    -- the axis that moves
    have hδ : δ j ≠ 0 := by
      intro h0
      have h5 := (hs2 j).fst.div hL hL0.ne' (by
        refine (F32.pow_up (k := 2) (by norm_num) (by norm_num) ?_).1
        rw [abs_div, abs_of_pos hL0, div_le_iff₀ hL0]
        have := hL1 j
        norm_num
        linarith)
      have h6 := (d1 j).unique h5
      rw [h0] at h6
      have := F32.pow_low (k := -83) (by norm_num) (by norm_num) (v := b32.rnd (d j - a j) / L) (by
        rw [abs_div, abs_of_pos hL0, le_div_iff₀ hL0]
        calc (2 : ℚ) ^ (-83 : ℤ) * L ≤ 2 ^ (-83 : ℤ) * 2 ^ (23 : ℤ) := by gcongr
          _ = 2 ^ (-60 : ℤ) := by rw [← two_zpow_add]; norm_num
          _ ≤ _ := (hs2 j).grid.le hne)
      rw [← h6, abs_zero] at this
      exact absurd this (not_le.mpr (two_zpow_pos _))
    have hfj := (hax j).2.2.2 hδ
    have hctx : FlatCtx h (rayCtx o e b r ml) (rayCtx (flatPt z o) (flatPt z e) b3 r ml) := by
      refine ⟨fun i => ?_, fun i => ?_, ce, fun w => ?_⟩
      · change f32Signum _ = f32Signum _; rw [hdir]
      · change tDelta0 (f32Signum _) _ _ = tDelta0 (f32Signum _) _ _; rw [hdir]
      · unfold RayCtx.tooFar
        congr 1
        congr 1
        refine normSquared_flat ?_ ?_ ?_
        · change (pointCoordFromCellCoord _ (b3.min 0) _ -. _) = (pointCoordFromCellCoord _ (b.min 0) _ -. _)
          rw [h0]; rfl
        · change (pointCoordFromCellCoord _ (b3.min 1) _ -. _) = (pointCoordFromCellCoord _ (b.min 1) _ -. _)
          rw [h1]; rfl
        · have := hcen.sub hz (by rw [sub_self, F32.rnd_zero, abs_zero]; positivity)
          rwa [sub_self, F32.rnd_zero] at this
    have ht3 : (fun i => tMax0 (vecSignum (rayDir (flatPt z o) (flatPt z e)) i) (rayDir (flatPt z o) (flatPt z e) i)
          (flatPt z o i) (b3.min i) r (flatCell h (cellFromPoint o b.min r) i)) =
        flatPt (.inf false) fun i => tMax0 (vecSignum (rayDir o e) i) (rayDir o e i) (o i) (b.min i) r
          (cellFromPoint o b.min r i) := by
      funext i
      obtain rfl | rfl | rfl : i = 0 ∨ i = 1 ∨ i = 2 := by omega
      · have := hdir 0
        change tMax0 (f32Signum (rayDir (flatPt z o) (flatPt z e) (Fin.castSucc 0))) (rayDir (flatPt z o) (flatPt z e) (Fin.castSucc 0)) _ _ _ _ = _
        rw [this, h0]; rfl
      · have := hdir 1
        change tMax0 (f32Signum (rayDir (flatPt z o) (flatPt z e) (Fin.castSucc 1))) (rayDir (flatPt z o) (flatPt z e) (Fin.castSucc 1)) _ _ _ _ = _
        rw [this, h1]; rfl
      · change tMax0 (f32Signum _) _ _ _ _ _ = _
        rw [hsz]
        unfold tMax0
        rw [if_pos e1]; rfl
    rw [ht3, castLoop_flat hctx (fun i => .of_times (hax i).2.2.1) (j := j)]
    · cases castLoop (rayCtx o e b r ml) n (cellFromPoint o b.min r) _ with
      | error => rfl
      | ok r => rfl
    · exact (AnyT.of_times (hax j).2.2.1).resolve_left hfj.2
    · exact fun i => .of_times (hax i).2.1
    · exact (AnyT.of_times (hax j).2.1).resolve_left hfj.1

/-! ## Scans -/

section
variable {α β : Type} [DecidableEq α] [DecidableEq β] {f : α → β}

lemma hsInsert_map (hf : Function.Injective f) (a : α) (s : List α) : hsInsert (f a) (s.map f) = (hsInsert a s).map f := by
  unfold hsInsert
  by_cases h : a ∈ s
  · rw [if_pos h, if_pos (List.mem_map_of_mem h)]
  · rw [if_neg h, if_neg fun h' => h ((List.mem_map_of_injective hf).mp h'), List.map_append]; rfl

lemma foldl_hsInsert_map (hf : Function.Injective f) (l s : List α) :
    (l.map f).foldl (fun s c => hsInsert c s) (s.map f) = (l.foldl (fun s c => hsInsert c s) s).map f := by
  induction l generalizing s with
  | nil => rfl
  | cons a l ih => rw [List.map_cons, List.foldl_cons, List.foldl_cons, hsInsert_map hf, ih]

lemma hsRemove_map (hf : Function.Injective f) (a : α) (s : List α) : hsRemove (f a) (s.map f) = (hsRemove a s).map f := by
  unfold hsRemove
  rw [List.filter_map]
  congr 1
  refine List.filter_congr fun x _ => ?_
  simp [hf.eq_iff]

lemma foldl_hsRemove_map (hf : Function.Injective f) (l s : List α) :
    (l.map f).foldl (fun s c => hsRemove c s) (s.map f) = (l.foldl (fun s c => hsRemove c s) s).map f := by
  induction l generalizing s with
  | nil => rfl
  | cons a l ih => rw [List.map_cons, List.foldl_cons, List.foldl_cons, hsRemove_map hf, ih]

end

/-- The sets of a scan, put into layer `h`. -/
def liftSets (h : ℤ) (s : List (Cell 2) × List (Cell 2)) : List (Cell 3) × List (Cell 3) :=
  (s.1.map (flatCell h), s.2.map (flatCell h))

lemma castRaysStep_flat (h : ℤ) (acc : List (Cell 2) × List (Cell 2)) (r : List (Cell 2) × Option (Cell 2)) :
    castRaysStep (liftSets h acc) (liftRay h r) = liftSets h (castRaysStep acc r) := by
  obtain ⟨ray, e⟩ := r
  unfold castRaysStep liftSets liftRay
  dsimp only
  rw [foldl_hsInsert_map (flatCell_injective h)]
  cases e with
  | none => rfl
  | some e =>
    simp only [Option.map_some]
    rw [hsInsert_map (flatCell_injective h)]

/-- The same for `cast_rays`. -/
lemma castRays_flat (n : ℕ) {o : Point 2 F32} {cloud : PointCloud 2 F32} {cloud3 : PointCloud 3 F32} {b : Bounds 2 F32}
    {b3 : Bounds 3 F32} {r ml z : F32} (ho : FinePt 20 o) (hp : ∀ p ∈ cloud.points, FinePt 20 p) (hb : FinePt 24 b.min)
    (hcl : FlatCloud z cloud cloud3) (h0 : b3.min 0 = b.min 0) (h1 : b3.min 1 = b.min 1) (hr : Fine 20 r) (hr0 : 0 < r.val)
    {ζ : ℚ} (hz : z.Is ζ) {h : ℤ} (hh : cellCoordFromPointCoord z (b3.min 2) r = h)
    (hcen : (pointCoordFromCellCoord h (b3.min 2) r).Is ζ) :
    castRays n (flatPt z o) cloud3 b3 r ml = (castRays n o cloud b r ml).map (liftSets h) := by
  have key : ∀ (ps : List (Point 2 F32)), (∀ p ∈ ps, FinePt 20 p) → ∀ acc : List (Cell 2) × List (Cell 2),
      (ps.map (flatPt z)).foldlM (fun acc p => do
        let r ← castRay n (flatPt z o) p b3 r ml
        .ok (castRaysStep acc r)) (liftSets h acc) =
      (ps.foldlM (fun acc p => do
        let r ← castRay n o p b r ml
        .ok (castRaysStep acc r)) acc : M (List (Cell 2) × List (Cell 2))).map (liftSets h) := by
    intro ps
    induction ps with
    | nil => intros; rfl
    | cons p ps ih =>
      intro hps acc
      rw [List.map_cons, List.foldlM_cons, List.foldlM_cons,
        castRay_flat n ho (hps p List.mem_cons_self) hb h0 h1 hr hr0 hz hh hcen]
      cases castRay n o p b r ml with
      | error => rfl
      | ok x =>
        have := ih (fun q hq => hps q (List.mem_cons_of_mem _ hq)) (castRaysStep acc x)
        rw [← castRaysStep_flat] at this
        exact this
  unfold castRays
  rw [hcl]
  have := key cloud.points hp ([], [])
  rw [show (([] : List (Cell 3)), ([] : List (Cell 3))) = liftSets h ([], []) from rfl, this]
  cases (cloud.points.foldlM (fun acc p => do
        let r ← castRay n o p b r ml
        .ok (castRaysStep acc r)) ([], []) : M (List (Cell 2) × List (Cell 2))) with
  | error => rfl
  | ok x =>
    change Except.ok _ = Except.ok _
    unfold liftSets
    dsimp only
    rw [foldl_hsRemove_map (flatCell_injective h)]

end Verif
