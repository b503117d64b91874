import Verif.Model.Release
import Verif.Spec.Release
import Verif.Props.Fair
import Verif.Props.Alive

/-!
# C85: builds without overflow checks
-/

namespace Verif.Props
open Spec Scalar

section

variable {e : Err} {α β : Type}

lemma _root_.Verif.Spec.SameUnless.refl (a : M α) : SameUnless e a a := .inr rfl

lemma _root_.Verif.Spec.SameUnless.bind {a b : M α} {f g : α → M β} (h : SameUnless e a b) (hf : ∀ x, SameUnless e (f x) (g x)) :
    SameUnless e (a >>= f) (b >>= g) := by
  rcases h with h | h
  · left; rw [h]; rfl
  · subst h
    cases b with
    | error _ => exact .inr rfl
    | ok x => exact hf x

lemma _root_.Verif.Spec.SameUnless.ite {p : Prop} [Decidable p] {a b c d : M α} (h : SameUnless e a b) (h' : SameUnless e c d) :
    SameUnless e (if p then a else c) (if p then b else d) := by
  split_ifs <;> assumption

lemma _root_.Verif.Spec.SameUnless.seqFin {D : ℕ} {f g : Fin D → M α} (h : ∀ i, SameUnless e (f i) (g i)) :
    SameUnless e (Verif.seqFin f) (Verif.seqFin g) := by
  induction D with
  | zero => exact .inr rfl
  | succ D ih => exact (h 0).bind fun _ => (ih fun i => h i.succ).bind fun _ => .refl _

lemma _root_.Verif.Spec.SameUnless.foldlM {f g : β → α → M β} (h : ∀ b a, SameUnless e (f b a) (g b a)) (l : List α) (b : β) :
    SameUnless e (l.foldlM f b) (l.foldlM g b) := by
  induction l generalizing b with
  | nil => exact .inr rfl
  | cons a l ih =>
    rw [List.foldlM_cons, List.foldlM_cons]
    exact (h b a).bind ih

/-- With an outcome other than `e`, both have it. -/
lemma _root_.Verif.Spec.SameUnless.eq {a b : M α} (h : SameUnless e a b) (ha : a ≠ .error e) : b = a := h.resolve_left ha

end

/-- C85: without overflow checks the result is the one value of the type `isize` that differs from the exact result by
a multiple of 2^64. -/
theorem C85_wrap (n : ℤ) : ∃ v k : ℤ, wrap n = .ok v ∧ v = n + k * 2 ^ 64 ∧ InIsize v := by
  refine ⟨_, -((n + 2 ^ 63) / 2 ^ 64), rfl, ?_, ?_⟩
  · have := Int.emod_add_mul_ediv (n + 2 ^ 63) (2 ^ 64)
    linarith
  · unfold InIsize isizeMin isizeMax
    omega

lemma isz_wrap (n : ℤ) : SameUnlessOverflow (isz n) (wrap n) := by
  unfold isz
  split_ifs with h
  · right
    unfold InIsize isizeMin isizeMax at h
    unfold wrap
    congr 1
    omega
  · exact .inl rfl

section

variable {F A : Type} [Scalar F] {D : ℕ} {e : Err} {ck ck' : ℤ → M ℤ}

/-- C85: the functions of `Model/Release.lean`, with overflow checks, are those of the rest of the model. -/
theorem C85_checked :
    (∀ size offset : Cell D, Build.sizeCellBounds isz size offset = Bounds.sizeCellBounds size offset) ∧
    (∀ (cb : CellBounds D) (t : ℕ), Build.discretized isz cb t = cb.discretized t) ∧
    (∀ (r : F) (b : Bounds D F) (t : ℕ) (a : A), Build.newMap isz r b t a = GridMap.new r b t a) ∧
    (∀ (m : GridMap D F A) (b : Bounds D F) (a : A), Build.expandBounds isz m b a = m.expandBounds b a) ∧
    (∀ (n : ℕ) (o p : Point D F) (b : Bounds D F) (r ml : F),
      Build.castRay isz n o p b r ml = castRay n o p b r ml) ∧
    (∀ (n : ℕ) (o : Point D F) (c : PointCloud D F) (b : Bounds D F) (r ml : F),
      Build.castRays isz n o c b r ml = castRays n o c b r ml) ∧
    (∀ (ord : List (Cell D) → List (Cell D)) (n : ℕ) (nm : LidarNoiseModel F) (m : GridMap D F F) (o : Point D F)
      (c : PointCloud D F), Build.integratePointCloud isz ord n nm m o c = nm.integratePointCloud ord n m o c) := by
  have hloop : ∀ (c : RayCtx D F) (n : ℕ) (cell : Cell D) (t : Point D F),
      Build.castLoop isz c n cell t = castLoop c n cell t := by
    intro c n
    induction n with
    | zero => intros; rfl
    | succ n ih =>
      intro cell t
      unfold Build.castLoop castLoop
      cases selDim t with
      | none => rfl
      | some d => simp only [ih]
  have hray : ∀ (n : ℕ) (o p : Point D F) (b : Bounds D F) (r ml : F),
      Build.castRay isz n o p b r ml = castRay n o p b r ml := by
    intro n o p b r ml
    unfold Build.castRay castRay
    simp only [hloop]
  have hrays : ∀ (n : ℕ) (o : Point D F) (c : PointCloud D F) (b : Bounds D F) (r ml : F),
      Build.castRays isz n o c b r ml = castRays n o c b r ml := by
    intro n o c b r ml
    unfold Build.castRays castRays
    simp only [hray]
  refine ⟨fun _ _ => rfl, fun _ _ => rfl, fun _ _ _ _ => rfl, fun _ _ _ => rfl, hray, hrays, fun ord n nm m o c => ?_⟩
  unfold Build.integratePointCloud LidarNoiseModel.integratePointCloud
  simp only [hrays]
  rfl

lemma sizeCellBounds_same (h : ∀ n, SameUnless e (ck n) (ck' n)) (size offset : Cell D) :
    SameUnless e (Build.sizeCellBounds ck size offset) (Build.sizeCellBounds ck' size offset) :=
  (SameUnless.seqFin fun _ => h _).bind fun _ => (SameUnless.seqFin fun _ => h _).bind fun _ => .refl _

lemma discretized_same (h : ∀ n, SameUnless e (ck n) (ck' n)) (cb : CellBounds D) (t : ℕ) :
    SameUnless e (Build.discretized ck cb t) (Build.discretized ck' cb t) := by
  refine (SameUnless.seqFin fun i => ?_).bind fun _ => (SameUnless.seqFin fun i => ?_).bind fun _ => .refl _
  · exact (SameUnless.refl _).bind fun _ => (h _).bind fun _ =>
      .ite (.refl _) (.ite ((h _).bind fun _ => h _) (h _))
  · exact (SameUnless.refl _).bind fun _ => (h _).bind fun _ =>
      .ite (.refl _) (.ite (h _) ((h _).bind fun _ => h _))

lemma ndarray_same (h : ∀ n, SameUnless e (ck n) (ck' n)) (r : F) (b : Bounds D F) (a : A) :
    SameUnless e (Build.ndarrayWithBounds ck r b a) (Build.ndarrayWithBounds ck' r b a) :=
  (SameUnless.foldlM (fun _ _ => h _) _ _).bind fun _ => .refl _

lemma newMap_same (h : ∀ n, SameUnless e (ck n) (ck' n)) (r : F) (b : Bounds D F) (t : ℕ) (a : A) :
    SameUnless e (Build.newMap ck r b t a) (Build.newMap ck' r b t a) :=
  (ndarray_same h r b a).bind fun _ => .refl _

lemma copyOld_same (h : ∀ n, SameUnless e (ck n) (ck' n)) (m : GridMap D F A) (cb ncb : CellBounds D)
    (toData : NdArray D A) :
    SameUnless e (Build.copyOld ck m cb ncb toData) (Build.copyOld ck' m cb ncb toData) := by
  refine (SameUnless.seqFin fun _ => h _).bind fun _ => (SameUnless.seqFin fun _ => h _).bind fun _ => ?_
  exact .ite ((SameUnless.seqFin fun _ => h _).bind fun _ => .refl _) (.refl _)

lemma expandBounds_same (h : ∀ n, SameUnless e (ck n) (ck' n)) (m : GridMap D F A) (b : Bounds D F) (a : A) :
    SameUnless e (Build.expandBounds ck m b a) (Build.expandBounds ck' m b a) := by
  refine ((SameUnless.refl _).bind fun _ => discretized_same h _ _).bind fun ncb => ?_
  refine .ite (.refl _) ((ndarray_same h _ _ _).bind fun toData => ?_)
  exact .ite (.refl _) ((copyOld_same h _ _ _ _).bind fun _ => .refl _)

lemma castLoop_same (h : ∀ n, SameUnless e (ck n) (ck' n)) (c : RayCtx D F) (n : ℕ) (cell : Cell D) (t : Point D F) :
    SameUnless e (Build.castLoop ck c n cell t) (Build.castLoop ck' c n cell t) := by
  induction n generalizing cell t with
  | zero => exact .refl _
  | succ n ih =>
    unfold Build.castLoop
    split
    · exact .refl _
    · exact (h _).bind fun _ => .ite (.refl _) (.ite (.refl _) ((ih _ _).bind fun _ => .refl _))

/-- More fuel. -/
lemma castLoop_fuel (c : RayCtx D F) (n k : ℕ) (cell : Cell D) (t : Point D F) :
    SameUnless .fuel (Build.castLoop ck c n cell t) (Build.castLoop ck c (n + k) cell t) := by
  induction n generalizing cell t with
  | zero => exact .inl rfl
  | succ n ih =>
    rw [Nat.add_right_comm]
    unfold Build.castLoop
    split
    · exact .refl _
    · exact (SameUnless.refl _).bind fun _ => .ite (.refl _) (.ite (.refl _) ((ih _ _).bind fun _ => .refl _))

lemma castRay_same' {n n' : ℕ} (h : ∀ (c : RayCtx D F) (cell : Cell D) (t : Point D F),
      SameUnless e (Build.castLoop ck c n cell t) (Build.castLoop ck' c n' cell t))
    (o p : Point D F) (b : Bounds D F) (r ml : F) :
    SameUnless e (Build.castRay ck n o p b r ml) (Build.castRay ck' n' o p b r ml) :=
  .ite (.ite (.refl _) ((h _ _ _).bind fun _ => .refl _)) (.refl _)

lemma castRays_same' {n n' : ℕ} (h : ∀ (c : RayCtx D F) (cell : Cell D) (t : Point D F),
      SameUnless e (Build.castLoop ck c n cell t) (Build.castLoop ck' c n' cell t))
    (o : Point D F) (cl : PointCloud D F) (b : Bounds D F) (r ml : F) :
    SameUnless e (Build.castRays ck n o cl b r ml) (Build.castRays ck' n' o cl b r ml) :=
  (SameUnless.foldlM (fun _ _ => (castRay_same' h _ _ _ _ _).bind fun _ => .refl _) _ _).bind fun _ => .refl _

lemma integrate_same' {n n' : ℕ} (h0 : ∀ (m : GridMap D F F) (b : Bounds D F) (a : F),
      SameUnless e (Build.expandBounds ck m b a) (Build.expandBounds ck' m b a))
    (h : ∀ (c : RayCtx D F) (cell : Cell D) (t : Point D F),
      SameUnless e (Build.castLoop ck c n cell t) (Build.castLoop ck' c n' cell t))
    (ord : List (Cell D) → List (Cell D)) (nm : LidarNoiseModel F) (m : GridMap D F F) (o : Point D F)
    (cl : PointCloud D F) :
    SameUnless e (Build.integratePointCloud ck ord n nm m o cl) (Build.integratePointCloud ck' ord n' nm m o cl) :=
  (h0 _ _ _).bind fun _ => (castRays_same' h _ _ _ _ _).bind fun _ => .refl _

/-- C85: `CellBounds::discretized`, and the cell bounds of `Bounds::from_size_cells`. -/
theorem C85_cell_bounds : (∀ (cb : CellBounds D) (t : ℕ),
      SameUnlessOverflow (cb.discretized t) (Build.discretized wrap cb t)) ∧
    ∀ size offset : Cell D, SameUnlessOverflow (Bounds.sizeCellBounds size offset)
      (Build.sizeCellBounds wrap size offset) :=
  ⟨fun cb t => discretized_same isz_wrap cb t, fun s o => sizeCellBounds_same isz_wrap s o⟩

/-- C85: `cast_ray` does the same in both builds, unless the one with overflow checks panics on an overflow. -/
theorem C85_cast_ray (n : ℕ) (o p : Point D F) (b : Bounds D F) (r ml : F) :
    SameUnlessOverflow (castRay n o p b r ml) (Build.castRay wrap n o p b r ml) := by
  rw [← (C85_checked (A := F)).2.2.2.2.1]
  exact castRay_same' (fun c cell t => castLoop_same isz_wrap c n cell t) o p b r ml

/-- C85: so does `cast_rays`. -/
theorem C85_cast_rays (n : ℕ) (o : Point D F) (c : PointCloud D F) (b : Bounds D F) (r ml : F) :
    SameUnlessOverflow (castRays n o c b r ml) (Build.castRays wrap n o c b r ml) := by
  rw [← (C85_checked (A := F)).2.2.2.2.2.1]
  exact castRays_same' (fun c cell t => castLoop_same isz_wrap c n cell t) o c b r ml

/-- C85: so do the constructor of grid maps and `expand_bounds`. -/
theorem C85_grid_map :
    (∀ (r : F) (b : Bounds D F) (t : ℕ) (a : A),
      SameUnlessOverflow (GridMap.new r b t a) (Build.newMap wrap r b t a)) ∧
    ∀ (m : GridMap D F A) (b : Bounds D F) (a : A),
      SameUnlessOverflow (m.expandBounds b a) (Build.expandBounds wrap m b a) :=
  ⟨fun r b t a => newMap_same isz_wrap r b t a, fun m b a => expandBounds_same isz_wrap m b a⟩

/-- C85: and so does integrating a scan. -/
theorem C85_integrate (ord : List (Cell D) → List (Cell D)) (n : ℕ) (nm : LidarNoiseModel F) (m : GridMap D F F)
    (o : Point D F) (c : PointCloud D F) :
    SameUnlessOverflow (nm.integratePointCloud ord n m o c) (Build.integratePointCloud wrap ord n nm m o c) := by
  rw [← (C85_checked (A := F)).2.2.2.2.2.2]
  exact integrate_same' (fun m b a => expandBounds_same isz_wrap m b a)
    (fun c cell t => castLoop_same isz_wrap c n cell t) ord nm m o c

/-- C85: without overflow checks `cast_ray` does not panic in two and three dimensions: it returns or runs on. -/
theorem C85_no_panic (hD : D = 2 ∨ D = 3) (n : ℕ) (o p : Point D F) (b : Bounds D F) (r ml : F) (q : Panic) :
    Build.castRay wrap n o p b r ml ≠ .error (.panic q) := by
  have hloop : ∀ (c : RayCtx D F) (n : ℕ) (cell : Cell D) (t : Point D F),
      Build.castLoop wrap c n cell t ≠ .error (.panic q) := by
    intro c n
    induction n with
    | zero => intro cell t h; cases h
    | succ n ih =>
      intro cell t h
      unfold Build.castLoop at h
      obtain ⟨d, hd⟩ : ∃ d, selDim t = some d := by
        rcases hD with rfl | rfl
        · exact ⟨_, rfl⟩
        · exact ⟨_, rfl⟩
      rw [hd] at h
      simp only [wrap, M.bind_ok] at h
      split_ifs at h
      cases h' : Build.castLoop wrap c n (Function.update cell d
        ((cell d + toInt (c.step d) + 2 ^ 63) % 2 ^ 64 - 2 ^ 63)) (Function.update t d (t d +. c.tDelta d)) with
      | error x => rw [h'] at h; injection h with h; subst h; exact ih _ _ h'
      | ok x => rw [h'] at h; cases h
  intro h
  unfold Build.castRay at h
  rw [if_pos hD] at h
  simp only at h
  split_ifs at h
  cases h' : Build.castLoop wrap (rayCtx o p b r ml) n (cellFromPoint o b.min r) (fun i =>
    tMax0 (vecSignum (rayDir o p) i) (rayDir o p i) (o i) (b.min i) r (cellFromPoint o b.min r i)) with
  | error x => rw [h'] at h; injection h with h; subst h; exact hloop _ _ _ _ h'
  | ok x => rw [h'] at h; cases h

end

section

variable {F : Type} [Scalar F] {D : ℕ} {nm : LidarNoiseModel F} {recs : ℕ → Point D F × PointCloud D F}
  {ord : ℕ → List (Cell D) → List (Cell D)}

open Viz

/-- C85: where integrating a scan in the visualizer does not panic with overflow checks, it has the same outcome
without: the same map, or no end. -/
theorem C85_worker (r : ℕ) (m : GridMap D F F) (h : (Viz.occOps nm recs ord).integrate r m ≠ .panic) :
    (Build.occOps wrap nm recs ord).integrate r m = (Viz.occOps nm recs ord).integrate r m := by
  have key := fun fuel => C85_integrate (ord r) fuel nm (m.setTrackChanges true) (recs r).1 (recs r).2
  have huniq : ∀ {n₁ n₂ m₁ m₂},
      Build.integratePointCloud wrap (ord r) n₁ nm (m.setTrackChanges true) (recs r).1 (recs r).2 = .ok m₁ →
      Build.integratePointCloud wrap (ord r) n₂ nm (m.setTrackChanges true) (recs r).1 (recs r).2 = .ok m₂ →
      m₁ = m₂ := by
    intro n₁ n₂ m₁ m₂ h₁ h₂
    have g : ∀ n k, SameUnless .fuel
        (Build.integratePointCloud wrap (ord r) n nm (m.setTrackChanges true) (recs r).1 (recs r).2)
        (Build.integratePointCloud wrap (ord r) (n + k) nm (m.setTrackChanges true) (recs r).1 (recs r).2) :=
      fun n k => integrate_same' (fun _ _ _ => .refl _) (fun c cell t => castLoop_fuel c n k cell t) _ _ _ _ _
    have e₁ := (g n₁ n₂).eq (by rw [h₁]; simp)
    have e₂ := (g n₂ n₁).eq (by rw [h₂]; simp)
    rw [h₁] at e₁
    rw [h₂, Nat.add_comm, e₁] at e₂
    injection e₂
  simp only [Viz.occOps] at h
  simp only [Build.occOps, Viz.occOps]
  split_ifs at h with h1 h2
  · obtain ⟨n, hn⟩ := h1.choose_spec
    have e := (key n).eq (by rw [hn]; simp)
    rw [hn] at e
    have h1' : ∃ m' fuel,
        Build.integratePointCloud wrap (ord r) fuel nm (m.setTrackChanges true) (recs r).1 (recs r).2 = .ok m' :=
      ⟨_, n, e⟩
    rw [dif_pos h1', dif_pos h1]
    obtain ⟨n', hn'⟩ := h1'.choose_spec
    exact congrArg _ (huniq hn' e)
  · exact absurd rfl h
  · have hfuel : ∀ n, Build.integratePointCloud wrap (ord r) n nm (m.setTrackChanges true) (recs r).1 (recs r).2 =
        .error .fuel := by
      intro n
      cases hn : nm.integratePointCloud (ord r) n (m.setTrackChanges true) (recs r).1 (recs r).2 with
      | ok m' => exact absurd ⟨m', n, hn⟩ h1
      | error x =>
        cases x with
        | panic q => exact absurd ⟨n, q, hn⟩ h2
        | fuel => rw [(key n).eq (by rw [hn]; simp), hn]
    rw [dif_neg (by simp [hfuel]), if_neg (by simp [hfuel]), dif_neg h1, if_neg h2]

lemma step_same {M C P : Type} [DecidableEq C] {ops ops' : MapOps M C P} {n : ℕ} {s s' : State M C P}
    (h0 : ops' = { ops with integrate := ops'.integrate })
    (h : ∀ (k r : ℕ), s.workers[k]? = some (.integrate, r) → ops'.integrate r s.map = ops.integrate r s.map) :
    Step ops' n s s' ↔ Step ops n s s' := by
  obtain ⟨f, c, rs, oc, pt⟩ := ops'
  obtain ⟨f', c', rs', oc', pt'⟩ := ops
  simp only [MapOps.mk.injEq, true_and] at h0
  obtain ⟨rfl, rfl, rfl, rfl⟩ := h0
  have hp : ∀ (m : M) (l t), processCells (⟨f, c, rs, oc, pt⟩ : MapOps M C P) m l t =
      processCells ⟨f', c, rs, oc, pt⟩ m l t := by
    intro m l
    induction l with
    | nil => intro t; rfl
    | cons x l ih =>
      intro t
      unfold processCells
      simp only [ih]
  constructor
  · intro hs
    cases hs with
    | checkBusy h1 h2 => exact .checkBusy s h1 h2
    | checkDone h1 h2 => exact .checkDone s h1 h2
    | lockCells h1 h2 h3 => exact .lockCells s h1 h2 h3
    | lockCellsPoisoned h1 h2 h3 => exact .lockCellsPoisoned s h1 h2 h3
    | lockMap h1 h2 h3 => exact .lockMap s h1 h2 h3
    | lockMapPoisoned h1 h2 h3 => exact .lockMapPoisoned s h1 h2 h3
    | clearFlag h1 => exact .clearFlag s h1
    | spawn h1 h2 => exact .spawn s h1 h2
    | spawnPanic h1 h2 => exact .spawnPanic s h1 h2
    | wLockMap k r h1 h2 h3 => exact .wLockMap s k r h1 h2 h3
    | wLockMapPoisoned k r h1 h2 h3 => exact .wLockMapPoisoned s k r h1 h2 h3
    | wLockCells k r h1 h2 h3 => exact .wLockCells s k r h1 h2 h3
    | wLockCellsPoisoned k r h1 h2 h3 => exact .wLockCellsPoisoned s k r h1 h2 h3
    | wCopy k r h1 => exact .wCopy s k r h1
    | wReset k r h1 => exact .wReset s k r h1
    | wSetFlag k r h1 => exact .wSetFlag s k r h1
    | wUnlock k r h1 => exact .wUnlock s k r h1
    | process t h1 h2 => exact .process s t h1 ((hp _ _ _).symm.trans h2)
    | processPanic h1 h2 => exact .processPanic s h1 ((hp _ _ _).symm.trans h2)
    | wIntegrate k r m h1 h2 => exact .wIntegrate s k r m h1 ((h k r h1).symm.trans h2)
    | wIntegratePanic k r h1 h2 => exact .wIntegratePanic s k r h1 ((h k r h1).symm.trans h2)
  · intro hs
    cases hs with
    | checkBusy h1 h2 => exact .checkBusy s h1 h2
    | checkDone h1 h2 => exact .checkDone s h1 h2
    | lockCells h1 h2 h3 => exact .lockCells s h1 h2 h3
    | lockCellsPoisoned h1 h2 h3 => exact .lockCellsPoisoned s h1 h2 h3
    | lockMap h1 h2 h3 => exact .lockMap s h1 h2 h3
    | lockMapPoisoned h1 h2 h3 => exact .lockMapPoisoned s h1 h2 h3
    | clearFlag h1 => exact .clearFlag s h1
    | spawn h1 h2 => exact .spawn s h1 h2
    | spawnPanic h1 h2 => exact .spawnPanic s h1 h2
    | wLockMap k r h1 h2 h3 => exact .wLockMap s k r h1 h2 h3
    | wLockMapPoisoned k r h1 h2 h3 => exact .wLockMapPoisoned s k r h1 h2 h3
    | wLockCells k r h1 h2 h3 => exact .wLockCells s k r h1 h2 h3
    | wLockCellsPoisoned k r h1 h2 h3 => exact .wLockCellsPoisoned s k r h1 h2 h3
    | wCopy k r h1 => exact .wCopy s k r h1
    | wReset k r h1 => exact .wReset s k r h1
    | wSetFlag k r h1 => exact .wSetFlag s k r h1
    | wUnlock k r h1 => exact .wUnlock s k r h1
    | process t h1 h2 => exact .process s t h1 ((hp _ _ _).trans h2)
    | processPanic h1 h2 => exact .processPanic s h1 ((hp _ _ _).trans h2)
    | wIntegrate k r m h1 h2 => exact .wIntegrate s k r m h1 ((h k r h1).trans h2)
    | wIntegratePanic k r h1 h2 => exact .wIntegratePanic s k r h1 ((h k r h1).trans h2)

/-- C85: if no integration panics in any run of the visualizer with overflow checks, then the runs without are the
same. -/
theorem C85_visualizer {n : ℕ} {m₀ : GridMap D F F}
    (h : ∀ s, Reach (Viz.occOps nm recs ord) n m₀ s → ∀ (k r : ℕ), s.workers[k]? = some (.integrate, r) →
      (Viz.occOps nm recs ord).integrate r s.map ≠ .panic)
    (s : State (GridMap D F F) (Cell D) (Point D F)) :
    Reach (Build.occOps wrap nm recs ord) n m₀ s ↔ Reach (Viz.occOps nm recs ord) n m₀ s := by
  constructor
  · intro hr
    induction hr with
    | init => exact .init
    | step s s' _ hs ih =>
      exact .step s s' ih ((step_same rfl fun k r hk => C85_worker r s.map (h s ih k r hk)).mp hs)
  · intro hr
    induction hr with
    | init => exact .init
    | step s s' hr hs ih =>
      exact .step s s' ih ((step_same rfl fun k r hk => C85_worker r s.map (h s hr k r hk)).mpr hs)

end

section

variable {D : ℕ} {nm : LidarNoiseModel F32} {recs : ℕ → Point D F32 × PointCloud D F32}
  {ord : ℕ → List (Cell D) → List (Cell D)}

open Viz

/-- C85: recordings of clear scans are played in the same way by both builds. -/
theorem C85_recording {n M N K T : ℕ} {ρ : ℚ} {m₀ : GridMap D F32 F32} (hD : D = 2 ∨ D = 3) (hn : 0 < n)
    (h0 : Placed m₀ CellBounds.empty ρ) (ht0 : m₀.changedCells = []) (hT : m₀.tileSize = T)
    (ho : ∀ r, IsOrder (ord r)) (hlo : 1 / 2 ^ 20 ≤ ρ) (hhi : ρ ≤ 2 ^ 20) (hM1 : 1 ≤ M) (hN : N = M + T + 1)
    (hN18 : N ≤ 2 ^ 18) (hcl : ∀ r < n, ∃ x, ClearRec M N K T ρ x (recs r).1 (recs r).2)
    (s : State (GridMap D F32 F32) (Cell D) (Point D F32)) :
    Reach (Build.occOps wrap nm recs ord) n m₀ s ↔ Reach (Viz.occOps nm recs ord) n m₀ s := by
  refine C85_visualizer (fun s hs k r hk => ?_) s
  obtain ⟨m', hm⟩ := (C82_visualizer hD hn h0 ht0 hT ho hlo hhi hM1 hN hN18 hcl hs).2.1 k r hk
  rw [occOps_integrate hm]
  simp

end

/-- C85: an overflow that one build reports and the other does not: the tiles of a machine box, of which the second
build makes a box whose upper corner is far below its lower one. -/
theorem C85_differs : ∃ cb : CellBounds 2, Machine cb ∧ (∀ i, cb.min i < cb.max i) ∧
    cb.discretized 100 = .error (.panic .overflow) ∧
    ∃ nb, Build.discretized wrap cb 100 = .ok nb ∧ ∀ i, nb.max i < nb.min i := by
  refine ⟨⟨![0, 0], ![2 ^ 63 - 1, 2 ^ 63 - 1]⟩, ?_, by decide, by decide +kernel, ?_⟩
  · unfold Machine
    decide +kernel
  · exact ⟨⟨![0, 0], ![-2 ^ 63 + 92, -2 ^ 63 + 92]⟩, by decide +kernel, by decide⟩

/-- C85: and a ray, from a point beyond the last cell number to a point 2^42 cells away, with a range limit of 2^50:
the second build takes the point for one out of range. -/
theorem C85_differs_ray : ∃ (o p : Point 2 F32) (b : Bounds 2 F32) (c : Cell 2),
    castRay 3 o p b (Fp.lit 1) (Fp.lit (2 ^ 50)) = .error (.panic .overflow) ∧
    Build.castRay wrap 3 o p b (Fp.lit 1) (Fp.lit (2 ^ 50)) = .ok ([c], none) :=
  ⟨![Fp.lit (2 ^ 63), Fp.lit (1 / 2)], ![Fp.lit (2 ^ 63 + 2 ^ 42), Fp.lit (2 ^ 20)],
    ⟨![Fp.lit 0, Fp.lit 0], ![Fp.lit 9, Fp.lit 9]⟩, ![isizeMax, 1], by decide +kernel, by decide +kernel⟩

/-- The box of `C85_cell_bounds`, in the range of both builds. -/
example : Build.discretized wrap (⟨![-3, 5], ![7, 9]⟩ : CellBounds 2) 4 = .ok ⟨![-4, 4], ![8, 12]⟩ := by
  decide +kernel

/-- A ray of five cells, and the same without overflow checks. -/
example : Build.castRay (F := F32) wrap 9 ![Fp.lit (1 / 2), Fp.lit (1 / 2)] ![Fp.lit (7 / 2), Fp.lit (3 / 2)]
      ⟨![Fp.lit 0, Fp.lit 0], ![Fp.lit 9, Fp.lit 9]⟩ (Fp.lit 1) (Fp.lit 60) =
    castRay (F := F32) 9 ![Fp.lit (1 / 2), Fp.lit (1 / 2)] ![Fp.lit (7 / 2), Fp.lit (3 / 2)]
      ⟨![Fp.lit 0, Fp.lit 0], ![Fp.lit 9, Fp.lit 9]⟩ (Fp.lit 1) (Fp.lit 60) := by
  refine (C85_cast_ray _ _ _ _ _ _).eq ?_
  decide +kernel

/-- The recording of `C82_plays`, without overflow checks: nine scans. -/
example : ∃ s, Viz.Reach (Build.occOps wrap defaultNM clearRecs fun _ l => l) 1 smallMap s ∧ s.workers.length = 9 := by
  have ho : ∀ _ : ℕ, IsOrder (fun l : List (Cell 2) => l) := fun _ l => List.Perm.refl l
  obtain ⟨s, h1, -, h3⟩ := C82_plays (nm := defaultNM) (recs := clearRecs) (ord := fun _ l => l) (n := 1)
    (m₀ := smallMap) (K := 8) (N := 11) (.inl rfl) (by norm_num) smallMap_placed rfl rfl ho (by norm_num) (by norm_num)
    (M := 8) (by norm_num) rfl (by norm_num) (fun r _ => ⟨_, clearRecs_clear r⟩) 9
  refine ⟨s, (C85_recording (K := 8) (N := 11) (.inl rfl) (by norm_num) smallMap_placed rfl rfl ho (by norm_num)
    (by norm_num) (M := 8) (by norm_num) rfl (by norm_num) (fun r _ => ⟨_, clearRecs_clear r⟩) s).mpr h1, ?_⟩
  rw [h3]
  simp

end Verif.Props
