import Verif.Spec.Memory
import Verif.Props.Cost

/-!
# C101: a machine with limited memory
-/

namespace Verif.Props
open Spec Scalar

section
variable {F : Type} [Scalar F] {D B : ℕ}

lemma lift_ok {α : Type} {x : M α} {a : α} : Mem.lift x = .ok a ↔ x = .ok a := by
  rcases x with (e | _) | a' <;> simp [Mem.lift]

lemma lift_panic {α : Type} {x : M α} {p : Panic} : Mem.lift x = .error (.panic p) ↔ x = .error (.panic p) := by
  rcases x with (e | _) | a' <;> simp [Mem.lift]

lemma lift_abort {α : Type} {x : M α} : Mem.lift x = .error .abort ↔ x = .error .fuel := by
  rcases x with (e | _) | a' <;> simp [Mem.lift]

lemma L_bind_ok {α β : Type} (a : α) (k : α → Mem.L β) : (Except.ok a >>= k) = k a := rfl
lemma L_bind_error {α β : Type} (e : Mem.Stop) (k : α → Mem.L β) : (Except.error e >>= k : Mem.L β) = .error e := rfl

lemma L_bind_eq_ok {α β : Type} {x : Mem.L α} {k : α → Mem.L β} {b : β} :
    (x >>= k) = .ok b ↔ ∃ a, x = .ok a ∧ k a = .ok b := by
  cases x <;> simp [L_bind_ok, L_bind_error]

lemma L_bind_eq_error {α β : Type} {x : Mem.L α} {k : α → Mem.L β} {e : Mem.Stop} :
    (x >>= k) = .error e ↔ x = .error e ∨ ∃ a, x = .ok a ∧ k a = .error e := by
  cases x <;> simp [L_bind_ok, L_bind_error]

lemma M_bind_eq_error {α β : Type} {x : M α} {k : α → M β} {e : Err} :
    (x >>= k) = .error e ↔ x = .error e ∨ ∃ a, x = .ok a ∧ k a = .error e := by
  cases x <;> simp

lemma lift_bind {α β : Type} (x : M α) (k : α → M β) : Mem.lift (x >>= k) = (Mem.lift x >>= fun a => Mem.lift (k a)) := by
  rcases x with (e | _) | a' <;> rfl

lemma alloc_ok {k : ℕ} {u : Unit} : Mem.alloc B k = .ok u ↔ k ≤ B := by
  unfold Mem.alloc
  split_ifs <;> simp_all

lemma alloc_not_panic {k : ℕ} {p : Panic} : Mem.alloc B k ≠ .error (.panic p) := by
  unfold Mem.alloc
  split_ifs <;> simp

/-! ## Rays -/

lemma mem_castLoop {c : RayCtx D F} {room : ℕ} {cell : Cell D} {t : Point D F} :
    Mem.castLoop c room cell t = Mem.lift (castLoop c (room + 1) cell t) := by
  induction room generalizing cell t with
  | zero =>
    rw [Mem.castLoop, castLoop]
    cases selDim t with
    | none => rfl
    | some d =>
      dsimp only
      rw [lift_bind]
      congr 1
      funext x
      split_ifs <;> rfl
  | succ n ih =>
    rw [Mem.castLoop, castLoop]
    cases selDim t with
    | none => rfl
    | some d =>
      dsimp only
      rw [lift_bind]
      congr 1
      funext x
      split_ifs
      · rfl
      · rfl
      · rw [ih, lift_bind]
        rfl

/-- C101, one ray: with room for `B` cells, a ray ends as it does in the unlimited model within `B` rounds of the loop, and
if it takes more the process is ended. -/
theorem C101_ray {origin end_ : Point D F} {bounds : Bounds D F} {res ml : F} :
    Mem.castRay B origin end_ bounds res ml = Mem.lift (castRay B origin end_ bounds res ml) := by
  unfold Mem.castRay castRay
  dsimp only
  split_ifs
  · rfl
  · cases B with
    | zero => rfl
    | succ n =>
      have : Mem.alloc (n + 1) 1 = .ok () := alloc_ok.mpr (by omega)
      rw [this, L_bind_ok, lift_bind, Nat.add_sub_cancel, mem_castLoop]
      rfl
  · rfl

lemma hsInsert_length {α : Type} [DecidableEq α] (a : α) (s : List α) : s.length ≤ (hsInsert a s).length := by
  unfold hsInsert
  split_ifs <;> simp

lemma castRaysStep_length (acc : List (Cell D) × List (Cell D)) (r : List (Cell D) × Option (Cell D)) :
    acc.1.length ≤ (castRaysStep acc r).1.length ∧ acc.2.length ≤ (castRaysStep acc r).2.length := by
  unfold castRaysStep
  constructor
  · dsimp only
    generalize acc.1 = s
    induction r.1 generalizing s with
    | nil => exact le_rfl
    | cons c l ih => exact (hsInsert_length c s).trans (ih _)
  · dsimp only
    split
    · exact hsInsert_length _ _
    · exact le_rfl

section
variable {origin : Point D F} {cloud : PointCloud D F} {bounds : Bounds D F} {res ml : F}

/-- The fold of `cast_rays`. -/
abbrev raysFold (n : ℕ) (origin : Point D F) (bounds : Bounds D F) (res ml : F) (ps : List (Point D F))
    (acc : List (Cell D) × List (Cell D)) : M (List (Cell D) × List (Cell D)) :=
  ps.foldlM (fun acc p => do
    let r ← castRay n origin p bounds res ml
    .ok (castRaysStep acc r)) acc

/-- The fold of `cast_rays` on the limited machine. -/
abbrev memFold (B : ℕ) (origin : Point D F) (bounds : Bounds D F) (res ml : F) (ps : List (Point D F))
    (acc : List (Cell D) × List (Cell D)) : Mem.L (List (Cell D) × List (Cell D)) :=
  ps.foldlM (fun acc p => do
    let r ← Mem.castRay B origin p bounds res ml
    let acc' := castRaysStep acc r
    Mem.alloc B acc'.1.length
    Mem.alloc B acc'.2.length
    .ok acc') acc

lemma raysFold_length {n : ℕ} {ps : List (Point D F)} {acc y : List (Cell D) × List (Cell D)}
    (h : raysFold n origin bounds res ml ps acc = .ok y) : acc.1.length ≤ y.1.length ∧ acc.2.length ≤ y.2.length := by
  induction ps generalizing acc with
  | nil => cases h; exact ⟨le_rfl, le_rfl⟩
  | cons p ps ih =>
    unfold raysFold at h
    rw [List.foldlM_cons, M.bind_eq_ok] at h
    obtain ⟨a, h1, h2⟩ := h
    rw [M.bind_eq_ok] at h1
    obtain ⟨r, -, h3⟩ := h1
    cases h3
    obtain ⟨h4, h5⟩ := ih h2
    obtain ⟨h6, h7⟩ := castRaysStep_length acc r
    exact ⟨h6.trans h4, h7.trans h5⟩

lemma memFold_ok {ps : List (Point D F)} {acc y : List (Cell D) × List (Cell D)}
    (ha : acc.1.length ≤ B ∧ acc.2.length ≤ B) :
    memFold B origin bounds res ml ps acc = .ok y ↔
      raysFold B origin bounds res ml ps acc = .ok y ∧ y.1.length ≤ B ∧ y.2.length ≤ B := by
  induction ps generalizing acc with
  | nil =>
    unfold memFold raysFold
    simp only [List.foldlM_nil]
    constructor
    · intro h; cases h; exact ⟨rfl, ha⟩
    · rintro ⟨h, -⟩; cases h; rfl
  | cons p ps ih =>
    unfold memFold raysFold
    rw [List.foldlM_cons, List.foldlM_cons, L_bind_eq_ok, M.bind_eq_ok]
    constructor
    · rintro ⟨a, h1, h2⟩
      rw [L_bind_eq_ok] at h1
      obtain ⟨r, h3, h4⟩ := h1
      rw [L_bind_eq_ok] at h4
      obtain ⟨_, h5, h6⟩ := h4
      rw [L_bind_eq_ok] at h6
      obtain ⟨_, h7, h8⟩ := h6
      cases h8
      obtain ⟨h9, h10⟩ := (ih ⟨alloc_ok.mp h5, alloc_ok.mp h7⟩).mp h2
      rw [C101_ray, lift_ok] at h3
      exact ⟨⟨_, by rw [h3]; rfl, h9⟩, h10⟩
    · rintro ⟨⟨a, h1, h2⟩, h3⟩
      rw [M.bind_eq_ok] at h1
      obtain ⟨r, h4, h5⟩ := h1
      cases h5
      obtain ⟨h6, h7⟩ := raysFold_length h2
      have h8 := alloc_ok (B := B) (u := ()).mpr (h6.trans h3.1)
      have h9 := alloc_ok (B := B) (u := ()).mpr (h7.trans h3.2)
      refine ⟨castRaysStep acc r, ?_, (ih ⟨h6.trans h3.1, h7.trans h3.2⟩).mpr ⟨h2, h3⟩⟩
      rw [C101_ray, lift_ok.mpr h4, L_bind_ok]
      dsimp only
      rw [h8, L_bind_ok, h9, L_bind_ok]

lemma memFold_panic {ps : List (Point D F)} {acc : List (Cell D) × List (Cell D)} {p : Panic}
    (h : memFold B origin bounds res ml ps acc = .error (.panic p)) :
    raysFold B origin bounds res ml ps acc = .error (.panic p) := by
  induction ps generalizing acc with
  | nil => cases h
  | cons q ps ih =>
    unfold memFold at h
    unfold raysFold
    rw [List.foldlM_cons, L_bind_eq_error] at h
    rw [List.foldlM_cons, M_bind_eq_error]
    rcases h with h | ⟨a, h1, h2⟩
    · left
      rw [L_bind_eq_error] at h
      rw [M_bind_eq_error]
      rcases h with h | ⟨r, -, h4⟩
      · left
        rwa [C101_ray, lift_panic] at h
      · dsimp only at h4
        rw [L_bind_eq_error] at h4
        rcases h4 with h4 | ⟨-, -, h4⟩
        · exact absurd h4 alloc_not_panic
        · rw [L_bind_eq_error] at h4
          rcases h4 with h4 | ⟨-, -, h4⟩
          · exact absurd h4 alloc_not_panic
          · cases h4
    · right
      rw [L_bind_eq_ok] at h1
      obtain ⟨r, h3, h4⟩ := h1
      dsimp only at h4
      rw [L_bind_eq_ok] at h4
      obtain ⟨-, -, h4⟩ := h4
      rw [L_bind_eq_ok] at h4
      obtain ⟨-, -, h4⟩ := h4
      cases h4
      rw [C101_ray, lift_ok] at h3
      exact ⟨_, by rw [h3]; rfl, ih h2⟩

lemma nodup_ncard {α : Type} [DecidableEq α] {l : List α} (h : l.Nodup) {s : Set α} (hs : ∀ x, x ∈ l ↔ x ∈ s) :
    s.ncard = l.length := by
  have : s = (l.toFinset : Set α) := by
    ext x
    rw [← hs]
    simp
  rw [this, Set.ncard_coe_finset, List.toFinset_card_of_nodup h]

lemma raysFold_card {n : ℕ} {f0 o0 : List (Cell D)}
    (h : raysFold n origin bounds res ml cloud.points ([], []) = .ok (f0, o0)) :
    (passed origin cloud bounds res ml).ncard = f0.length ∧ (ends origin cloud bounds res ml).ncard = o0.length := by
  obtain ⟨rs, h1, h2⟩ := castRays_fold.mp h
  obtain ⟨h3, h4, h5, h6⟩ := castRaysStep_fold rs (([] : List (Cell D)), ([] : List (Cell D)))
  rw [h2] at h3 h4 h5 h6
  have hc : CastsRays origin cloud bounds res ml (o0.foldl (fun s c => hsRemove c s) f0) o0 := by
    refine ⟨n, ?_⟩
    have h' : raysFold n origin bounds res ml cloud.points ([], []) = .ok (f0, o0) := h
    unfold castRays
    unfold raysFold at h'
    rw [h']
    rfl
  obtain ⟨g1, g2⟩ := forall₂_exists h1
  refine ⟨nodup_ncard (h5 List.nodup_nil) fun x => ?_, nodup_ncard (h6 List.nodup_nil) fun x => C28_occupied hc x⟩
  rw [h3]
  constructor
  · rintro (h | ⟨r, hr, hx⟩)
    · cases h
    · obtain ⟨p, hp, hr'⟩ := g1 r hr
      exact ⟨p, hp, r.1, r.2, ⟨n, hr'⟩, hx⟩
  · rintro ⟨p, hp, ray, e, hc, hx⟩
    obtain ⟨r, hr, hr'⟩ := g2 p hp
    obtain ⟨e1, -⟩ := casts_unique hc ⟨n, hr'⟩
    exact .inr ⟨r, hr, e1 ▸ hx⟩

lemma mem_castRays_ok {free occ : List (Cell D)} :
    Mem.castRays B origin cloud bounds res ml = .ok (free, occ) ↔
      castRays B origin cloud bounds res ml = .ok (free, occ) ∧
        (passed origin cloud bounds res ml).ncard ≤ B ∧ (ends origin cloud bounds res ml).ncard ≤ B := by
  unfold Mem.castRays castRays
  rw [L_bind_eq_ok, M.bind_eq_ok]
  constructor
  · rintro ⟨⟨f0, o0⟩, h1, h2⟩
    obtain ⟨h3, h4, h5⟩ := (memFold_ok ⟨Nat.zero_le _, Nat.zero_le _⟩).mp h1
    cases h2
    obtain ⟨h6, h7⟩ := raysFold_card h3
    exact ⟨⟨_, h3, rfl⟩, h6.trans_le h4, h7.trans_le h5⟩
  · rintro ⟨⟨⟨f0, o0⟩, h1, h2⟩, h3, h4⟩
    cases h2
    obtain ⟨h6, h7⟩ := raysFold_card h1
    rw [h6] at h3
    rw [h7] at h4
    exact ⟨_, (memFold_ok ⟨Nat.zero_le _, Nat.zero_le _⟩).mpr ⟨h1, h3, h4⟩, rfl⟩

lemma mem_castRays_panic {p : Panic} (h : Mem.castRays B origin cloud bounds res ml = .error (.panic p)) :
    castRays B origin cloud bounds res ml = .error (.panic p) := by
  unfold Mem.castRays at h
  unfold castRays
  rw [L_bind_eq_error] at h
  rw [M_bind_eq_error]
  rcases h with h | ⟨a, -, h⟩
  · exact .inl (memFold_panic h)
  · cases h

/-- What the free and the occupied cells number together. -/
lemma castRays_card {free occ : List (Cell D)} (h : CastsRays origin cloud bounds res ml free occ) :
    (passed origin cloud bounds res ml ∪ ends origin cloud bounds res ml).ncard = free.length + occ.length := by
  obtain ⟨n1, n2⟩ := castRays_nodup h
  rw [← List.length_append]
  refine nodup_ncard (n1.append n2 fun x hx hx' => C27_disjoint h x hx hx') fun x => ?_
  rw [List.mem_append, C28_free h, C28_occupied h]
  change _ ↔ _ ∨ _
  by_cases hx : ∃ p ∈ cloud.points, ∃ ray, Casts origin p bounds res ml ray (some x)
  · exact ⟨fun _ => .inr hx, fun _ => .inr hx⟩
  · simp only [hx, not_false_eq_true, and_true, or_false]
    exact ⟨.inl, fun h => h.resolve_right hx⟩

lemma castLoop_panic_mono {c : RayCtx D F} {n : ℕ} {cell : Cell D} {t : Point D F} {p : Panic}
    (h : castLoop c n cell t = .error (.panic p)) (k : ℕ) : castLoop c (n + k) cell t = .error (.panic p) := by
  induction n generalizing cell t with
  | zero => cases h
  | succ n ih =>
    rw [show n + 1 + k = n + k + 1 by omega]
    rw [castLoop] at h ⊢
    cases hd : selDim t with
    | none => rw [hd] at h; exact h
    | some d =>
      rw [hd] at h
      dsimp only at h ⊢
      rw [M_bind_eq_error] at h ⊢
      rcases h with h | ⟨x, h1, h2⟩
      · exact .inl h
      · refine .inr ⟨x, h1, ?_⟩
        split_ifs at h2 ⊢
        rw [M_bind_eq_error] at h2 ⊢
        rcases h2 with h2 | ⟨x, -, h2⟩
        · exact .inl (ih h2)
        · cases h2

lemma castRay_panic_mono {n : ℕ} {end_ : Point D F} {p : Panic}
    (h : castRay n origin end_ bounds res ml = .error (.panic p)) (k : ℕ) :
    castRay (n + k) origin end_ bounds res ml = .error (.panic p) := by
  unfold castRay at h ⊢
  dsimp only at h ⊢
  split_ifs at h ⊢
  · rw [M_bind_eq_error] at h ⊢
    rcases h with h | ⟨x, -, h2⟩
    · exact .inl (castLoop_panic_mono h k)
    · cases h2
  · exact h

lemma castRays_panic_mono {n : ℕ} {p : Panic} (h : castRays n origin cloud bounds res ml = .error (.panic p)) (k : ℕ) :
    castRays (n + k) origin cloud bounds res ml = .error (.panic p) := by
  have key : ∀ {ps : List (Point D F)} {acc : List (Cell D) × List (Cell D)},
      raysFold n origin bounds res ml ps acc = .error (.panic p) →
      raysFold (n + k) origin bounds res ml ps acc = .error (.panic p) := by
    intro ps
    induction ps with
    | nil => intro acc h; cases h
    | cons q ps ih =>
      intro acc h
      unfold raysFold at h ⊢
      rw [List.foldlM_cons, M_bind_eq_error] at h ⊢
      rcases h with h | ⟨a, h1, h2⟩
      · left
        rw [M_bind_eq_error] at h ⊢
        rcases h with h | ⟨r, -, h⟩
        · exact .inl (castRay_panic_mono h k)
        · cases h
      · right
        rw [M.bind_eq_ok] at h1
        obtain ⟨r, h3, h4⟩ := h1
        exact ⟨a, by rw [castRay_mono h3 k]; exact h4, ih h2⟩
  unfold castRays at h ⊢
  rw [M_bind_eq_error] at h ⊢
  rcases h with h | ⟨a, -, h⟩
  · exact .inl (key h)
  · cases h

/-! ## Growing -/

lemma ndarray_length {r : F} {b : Bounds D F} {v : F} {a : NdArray D F} (h : ndarrayWithBounds r b v = .ok a) :
    ∃ n : ℤ, isizeProd (List.ofFn (cellFromPoint b.max b.min r)) = .ok n ∧ 0 ≤ n ∧ a.data.length = n.toNat ∧
      NdArray.fromShapeVec (toNdIndex (cellFromPoint b.max b.min r)) (List.replicate n.toNat v) = .ok a := by
  unfold ndarrayWithBounds at h
  rw [M.bind_eq_ok] at h
  obtain ⟨n, h1, h2⟩ := h
  split_ifs at h2 with h3
  refine ⟨n, h1, not_lt.mp h3, ?_, h2⟩
  unfold NdArray.fromShapeVec at h2
  split_ifs at h2
  cases h2
  exact List.length_replicate

lemma mem_ndarray_ok {r : F} {b : Bounds D F} {v : F} {a : NdArray D F} :
    Mem.ndarrayWithBounds B r b v = .ok a ↔
      ndarrayWithBounds r b v = .ok a ∧ a.data.length ≤ B ∧ 4 * a.data.length < 2 ^ 63 := by
  constructor
  · intro h
    unfold Mem.ndarrayWithBounds at h
    rw [L_bind_eq_ok] at h
    obtain ⟨n, h1, h2⟩ := h
    rw [lift_ok] at h1
    split_ifs at h2 with h3
    rw [L_bind_eq_ok] at h2
    obtain ⟨_, h4, h5⟩ := h2
    rw [alloc_ok] at h4
    rw [lift_ok] at h5
    have h6 : ndarrayWithBounds r b v = .ok a := by
      unfold ndarrayWithBounds
      rw [M.bind_eq_ok]
      exact ⟨n, h1, by rw [if_neg (by omega)]; exact h5⟩
    obtain ⟨n', h7, h8, h9, -⟩ := ndarray_length h6
    rw [h1] at h7
    cases h7
    exact ⟨h6, by omega, by omega⟩
  · rintro ⟨h1, h2, h3⟩
    obtain ⟨n, h4, h5, h6, h7⟩ := ndarray_length h1
    unfold Mem.ndarrayWithBounds
    rw [L_bind_eq_ok]
    refine ⟨n, lift_ok.mpr h4, ?_⟩
    rw [if_neg (by omega), L_bind_eq_ok]
    exact ⟨(), alloc_ok.mpr (by omega), lift_ok.mpr h7⟩

lemma mem_ndarray_panic {r : F} {b : Bounds D F} {v : F} {p : Panic}
    (h : Mem.ndarrayWithBounds B r b v = .error (.panic p)) :
    p = .capacity ∨ ndarrayWithBounds r b v = .error (.panic p) := by
  unfold Mem.ndarrayWithBounds at h
  rw [L_bind_eq_error] at h
  unfold ndarrayWithBounds
  rw [M_bind_eq_error]
  rcases h with h | ⟨n, h1, h2⟩
  · exact .inr (.inl (lift_panic.mp h))
  · rw [lift_ok] at h1
    split_ifs at h2 with h3
    · cases h2
      exact .inl rfl
    · rw [L_bind_eq_error] at h2
      rcases h2 with h2 | ⟨_, -, h2⟩
      · exact absurd h2 alloc_not_panic
      · exact .inr (.inr ⟨n, h1, by rw [if_neg (by omega)]; exact lift_panic.mp h2⟩)

/-- If the array could be made on a machine with enough memory, here it is made or the process ends. -/
lemma mem_ndarray_cases {r : F} {b : Bounds D F} {v : F} {a : NdArray D F} (h : ndarrayWithBounds r b v = .ok a)
    (h4 : 4 * a.data.length < 2 ^ 63) :
    Mem.ndarrayWithBounds B r b v = .ok a ∨ Mem.ndarrayWithBounds B r b v = .error .abort := by
  rcases hx : Mem.ndarrayWithBounds B r b v with (q | _) | a'
  · exfalso
    obtain ⟨n, k1, k2, k3, k4⟩ := ndarray_length h
    unfold Mem.ndarrayWithBounds at hx
    dsimp only at hx
    rw [lift_ok.mpr k1, L_bind_ok] at hx
    rw [if_neg (by omega), L_bind_eq_error] at hx
    rcases hx with hx | ⟨_, -, hx⟩
    · exact alloc_not_panic hx
    · rw [lift_panic, k4] at hx
      cases hx
  · exact .inr rfl
  · obtain ⟨k, -⟩ := mem_ndarray_ok.mp hx
    rw [h] at k
    cases k
    exact .inl rfl

omit [Scalar F] in
lemma copyOld_length {m : GridMap D F F} {cb ncb : CellBounds D} {d d' : NdArray D F} (h : m.copyOld cb ncb d = .ok d') :
    d'.data.length = d.data.length := by
  unfold GridMap.copyOld at h
  rw [M.bind_eq_ok] at h
  obtain ⟨_, -, h⟩ := h
  rw [M.bind_eq_ok] at h
  obtain ⟨_, -, h⟩ := h
  split_ifs at h
  rw [M.bind_eq_ok] at h
  obtain ⟨_, -, h⟩ := h
  unfold NdArray.sliceAssign at h
  rw [M.bind_eq_ok] at h
  obtain ⟨_, -, h⟩ := h
  rw [M.bind_eq_ok] at h
  obtain ⟨_, -, h⟩ := h
  dsimp only at h
  split_ifs at h
  cases h
  rw [NdArray.len, NdArray.len]
  cases d.data.head? <;> rfl

/-- The array of the grown map. -/
def grown (m : GridMap D F F) (ncb : CellBounds D) (d : NdArray D F) : M (NdArray D F) :=
  if m.bounds.beq Bounds.empty then .ok d else m.copyOld (CellBounds.fromBounds m.bounds m.resolution) ncb d

lemma expand_unfold {m : GridMap D F F} {b : Bounds D F} {v : F} : m.expandBounds b v = (do
    let ncb ← m.newCellBounds b
    if ncb = CellBounds.fromBounds m.bounds m.resolution then .ok m else do
      let d ← ndarrayWithBounds m.resolution (Bounds.fromCellBounds ncb m.resolution) v
      let d' ← grown m ncb d
      .ok { m with bounds := Bounds.fromCellBounds ncb m.resolution, data := d' }) := by
  unfold GridMap.expandBounds grown
  dsimp only
  split_ifs <;> rfl

lemma mem_expand_unfold {m : GridMap D F F} {b : Bounds D F} {v : F} : Mem.expandBounds B m b v = (do
    let ncb ← Mem.lift (m.newCellBounds b)
    if ncb = CellBounds.fromBounds m.bounds m.resolution then .ok m else do
      let d ← Mem.ndarrayWithBounds B m.resolution (Bounds.fromCellBounds ncb m.resolution) v
      let d' ← Mem.lift (grown m ncb d)
      .ok { m with bounds := Bounds.fromCellBounds ncb m.resolution, data := d' }) := by
  unfold Mem.expandBounds grown
  dsimp only
  split_ifs <;> rfl

lemma grown_length {m : GridMap D F F} {ncb : CellBounds D} {d d' : NdArray D F} (h : grown m ncb d = .ok d') :
    d'.data.length = d.data.length := by
  unfold grown at h
  split_ifs at h
  · cases h
    rfl
  · exact copyOld_length h

lemma mem_expand_ok {m me : GridMap D F F} {b : Bounds D F} {v : F} (hm : GridFits B m) :
    Mem.expandBounds B m b v = .ok me ↔ m.expandBounds b v = .ok me ∧ GridFits B me := by
  rw [mem_expand_unfold, expand_unfold, L_bind_eq_ok, M.bind_eq_ok]
  constructor
  · rintro ⟨ncb, h1, h2⟩
    rw [lift_ok] at h1
    split_ifs at h2 with h3
    · cases h2
      exact ⟨⟨ncb, h1, by rw [if_pos h3]⟩, hm⟩
    · rw [L_bind_eq_ok] at h2
      obtain ⟨d, h4, h5⟩ := h2
      rw [L_bind_eq_ok] at h5
      obtain ⟨d', h6, h7⟩ := h5
      rw [lift_ok] at h6
      obtain ⟨k1, k2, k3⟩ := mem_ndarray_ok.mp h4
      have h8 := grown_length h6
      cases h7
      refine ⟨⟨ncb, h1, ?_⟩, h8 ▸ k2, h8 ▸ k3⟩
      rw [if_neg h3, k1, M.bind_ok, h6]
      rfl
  · rintro ⟨⟨ncb, h1, h2⟩, h3⟩
    refine ⟨ncb, lift_ok.mpr h1, ?_⟩
    split_ifs at h2 ⊢ with h4
    · cases h2
      rfl
    · rw [M.bind_eq_ok] at h2
      obtain ⟨d, h4, h5⟩ := h2
      rw [M.bind_eq_ok] at h5
      obtain ⟨d', h6, h7⟩ := h5
      have h8 := grown_length h6
      cases h7
      obtain ⟨k2, k3⟩ := h3
      rw [mem_ndarray_ok.mpr ⟨h4, h8 ▸ k2, h8 ▸ k3⟩, L_bind_ok, h6]
      rfl

lemma mem_expand_plain {m me : GridMap D F F} {b : Bounds D F} {v : F} (h : Mem.expandBounds B m b v = .ok me) :
    m.expandBounds b v = .ok me := by
  rw [mem_expand_unfold, L_bind_eq_ok] at h
  rw [expand_unfold, M.bind_eq_ok]
  obtain ⟨ncb, h1, h2⟩ := h
  refine ⟨ncb, lift_ok.mp h1, ?_⟩
  split_ifs at h2 ⊢ with h3
  · cases h2
    rfl
  · rw [L_bind_eq_ok] at h2
    obtain ⟨d, h4, h5⟩ := h2
    rw [L_bind_eq_ok] at h5
    obtain ⟨d', h6, h7⟩ := h5
    cases h7
    rw [(mem_ndarray_ok.mp h4).1, M.bind_ok, lift_ok.mp h6]
    rfl

lemma mem_expand_panic {m : GridMap D F F} {b : Bounds D F} {v : F} {p : Panic}
    (h : Mem.expandBounds B m b v = .error (.panic p)) : p = .capacity ∨ m.expandBounds b v = .error (.panic p) := by
  rw [mem_expand_unfold, L_bind_eq_error] at h
  rw [expand_unfold, M_bind_eq_error]
  rcases h with h | ⟨ncb, h1, h2⟩
  · exact .inr (.inl (lift_panic.mp h))
  · rw [lift_ok] at h1
    split_ifs at h2 with h3
    rw [L_bind_eq_error] at h2
    rcases h2 with h2 | ⟨d, h4, h5⟩
    · rcases mem_ndarray_panic h2 with h | h
      · exact .inl h
      · exact .inr (.inr ⟨ncb, h1, by rw [if_neg h3, h]; rfl⟩)
    · rw [L_bind_eq_error] at h5
      rcases h5 with h5 | ⟨d', -, h5⟩
      · refine .inr (.inr ⟨ncb, h1, ?_⟩)
        rw [if_neg h3, (mem_ndarray_ok.mp h4).1, M.bind_ok, lift_panic.mp h5]
        rfl
      · cases h5

lemma mem_expand_cases {m me : GridMap D F F} {b : Bounds D F} {v : F} (h : m.expandBounds b v = .ok me)
    (hb : 4 * me.data.data.length < 2 ^ 63) :
    Mem.expandBounds B m b v = .ok me ∨ Mem.expandBounds B m b v = .error .abort := by
  rw [expand_unfold, M.bind_eq_ok] at h
  obtain ⟨ncb, h1, h2⟩ := h
  rw [mem_expand_unfold, lift_ok.mpr h1, L_bind_ok]
  split_ifs at h2 ⊢ with h3
  · cases h2
    exact .inl rfl
  · rw [M.bind_eq_ok] at h2
    obtain ⟨d, h4, h5⟩ := h2
    rw [M.bind_eq_ok] at h5
    obtain ⟨d', h6, h7⟩ := h5
    have h8 := grown_length h6
    cases h7
    rcases mem_ndarray_cases (B := B) h4 (by rw [← h8]; exact hb) with h | h
    · rw [h, L_bind_ok, h6]
      exact .inl rfl
    · rw [h]
      exact .inr rfl

/-! ## Integrating -/

omit [Scalar F] in
lemma set_rest {m m' : GridMap D F F} {c : Cell D} {v : F} (h : m.set c v = .ok m') :
    m'.changedCells = m.changedCells ∧ m'.trackChanges = m.trackChanges := by
  unfold GridMap.set at h
  rw [M.bind_eq_ok] at h
  obtain ⟨d, -, h⟩ := h
  cases h
  exact ⟨rfl, rfl⟩

omit [Scalar F] in
lemma upd_rest {g : F → F} {l : List (Cell D)} {m m' : GridMap D F F} (h : l.foldlM (upd g) m = .ok m') :
    m'.changedCells = m.changedCells := by
  induction l generalizing m with
  | nil => cases h; rfl
  | cons c l ih =>
    rw [List.foldlM_cons, M.bind_eq_ok] at h
    obtain ⟨m1, h1, h2⟩ := h
    unfold upd at h1
    rw [M.bind_eq_ok] at h1
    obtain ⟨v, -, h3⟩ := h1
    rw [ih h2, (set_rest h3).1]

omit [Scalar F] in
lemma upd_no_fuel {g : F → F} {l : List (Cell D)} {m : GridMap D F F} : l.foldlM (upd g) m ≠ .error .fuel := by
  induction l generalizing m with
  | nil => intro h; cases h
  | cons c l ih =>
    rw [List.foldlM_cons]
    intro h
    rw [M_bind_eq_error] at h
    rcases h with h | ⟨a, -, h⟩
    · unfold upd at h
      rw [M_bind_eq_error] at h
      rcases h with h | ⟨v, -, h⟩
      · unfold GridMap.get NdArray.get at h
        split_ifs at h
        cases h
      · unfold GridMap.set NdArray.set at h
        split_ifs at h <;> cases h
    · exact ih h

variable {ord : List (Cell D) → List (Cell D)} {nm : LidarNoiseModel F} {m m' me : GridMap D F F}

/-- What is done once the rays are cast. -/
def enter (ord : List (Cell D) → List (Cell D)) (nm : LidarNoiseModel F) (me : GridMap D F F)
    (fo : List (Cell D) × List (Cell D)) : M (GridMap D F F) := do
  let m1 ← (ord fo.1).foldlM (upd nm.missValue) me
  let m2 ← (ord fo.2).foldlM (upd nm.hitValue) m1
  .ok (if me.trackChanges then m2.addChangedCells (ord fo.1 ++ ord fo.2) else m2)

/-- The same on the limited machine. -/
def memEnter (B : ℕ) (ord : List (Cell D) → List (Cell D)) (nm : LidarNoiseModel F) (me : GridMap D F F)
    (fo : List (Cell D) × List (Cell D)) : Mem.L (GridMap D F F) := do
  if me.trackChanges then Mem.alloc B (fo.1.length + fo.2.length) else .ok ()
  let m1 ← Mem.lift ((ord fo.1).foldlM (upd nm.missValue) me)
  let m2 ← Mem.lift ((ord fo.2).foldlM (upd nm.hitValue) m1)
  if me.trackChanges then do
    Mem.alloc B (m2.changedCells.length + (fo.1.length + fo.2.length))
    .ok (m2.addChangedCells (ord fo.1 ++ ord fo.2))
  else .ok m2

lemma mem_integrate_unfold : Mem.integratePointCloud B ord nm m origin cloud =
    (Mem.expandBounds B m cloud.bounds nm.defaultCellValue >>= fun me =>
      Mem.castRays B origin cloud me.bounds me.resolution nm.maxRange >>= memEnter B ord nm me) := rfl

lemma integrate_unfold' {fuel : ℕ} : nm.integratePointCloud ord fuel m origin cloud =
    (m.expandBounds cloud.bounds nm.defaultCellValue >>= fun me =>
      castRays fuel origin cloud me.bounds me.resolution nm.maxRange >>= enter ord nm me) := rfl

lemma memEnter_fits {fo : List (Cell D) × List (Cell D)}
    (h : me.trackChanges = true → me.changedCells.length + (fo.1.length + fo.2.length) ≤ B) :
    memEnter B ord nm me fo = Mem.lift (enter ord nm me fo) := by
  unfold memEnter enter
  cases ht : me.trackChanges with
  | false =>
    simp only [Bool.false_eq_true, if_false]
    rw [L_bind_ok, lift_bind]
    congr 1
    funext m1
    rw [lift_bind]
    rfl
  | true =>
    have h := h ht
    simp only [if_true]
    rw [alloc_ok (u := ()) |>.mpr (by omega), L_bind_ok, lift_bind]
    rcases h1 : (ord fo.1).foldlM (upd nm.missValue) me with (_ | _) | m1
    · rfl
    · rfl
    · rw [lift_ok.mpr rfl, L_bind_ok, L_bind_ok, lift_bind]
      rcases h2 : (ord fo.2).foldlM (upd nm.hitValue) m1 with (_ | _) | m2
      · rfl
      · rfl
      · rw [lift_ok.mpr rfl, L_bind_ok, L_bind_ok, upd_rest h2, upd_rest h1, alloc_ok (u := ()) |>.mpr h]
        rfl

lemma memEnter_ok {fo : List (Cell D) × List (Cell D)} : memEnter B ord nm me fo = .ok m' ↔
    enter ord nm me fo = .ok m' ∧ (me.trackChanges = true → me.changedCells.length + (fo.1.length + fo.2.length) ≤ B) := by
  by_cases h : me.trackChanges = true → me.changedCells.length + (fo.1.length + fo.2.length) ≤ B
  · rw [memEnter_fits h, lift_ok]
    exact ⟨fun h' => ⟨h', h⟩, fun h' => h'.1⟩
  · constructor
    · intro h'
      obtain ⟨ht, hB⟩ := Classical.not_imp.mp h
      unfold memEnter at h'
      simp only [ht, if_true] at h'
      rw [L_bind_eq_ok] at h'
      obtain ⟨_, -, h'⟩ := h'
      rw [L_bind_eq_ok] at h'
      obtain ⟨m1, h1, h'⟩ := h'
      rw [L_bind_eq_ok] at h'
      obtain ⟨m2, h2, h'⟩ := h'
      rw [L_bind_eq_ok] at h'
      obtain ⟨_, h3, h'⟩ := h'
      rw [alloc_ok, upd_rest (lift_ok.mp h2), upd_rest (lift_ok.mp h1)] at h3
      exact absurd h3 hB
    · intro h'
      exact absurd h'.2 h

lemma memEnter_panic {fo : List (Cell D) × List (Cell D)} {p : Panic} (h : memEnter B ord nm me fo = .error (.panic p)) :
    enter ord nm me fo = .error (.panic p) := by
  unfold memEnter at h
  unfold enter
  cases ht : me.trackChanges with
  | false =>
    simp only [ht, Bool.false_eq_true, if_false] at h ⊢
    rw [L_bind_ok, L_bind_eq_error] at h
    rcases h with h | ⟨m1, h1, h⟩
    · rw [lift_panic.mp h]
      rfl
    · rw [lift_ok.mp h1, M.bind_ok]
      rw [L_bind_eq_error] at h
      rcases h with h | ⟨m2, h1, h⟩
      · rw [lift_panic.mp h]
        rfl
      · cases h
  | true =>
    simp only [ht, if_true] at h ⊢
    rw [L_bind_eq_error] at h
    rcases h with h | ⟨_, -, h⟩
    · exact absurd h alloc_not_panic
    rw [L_bind_eq_error] at h
    rcases h with h | ⟨m1, h1, h⟩
    · rw [lift_panic.mp h]
      rfl
    · rw [lift_ok.mp h1, M.bind_ok]
      rw [L_bind_eq_error] at h
      rcases h with h | ⟨m2, h1, h⟩
      · rw [lift_panic.mp h]
        rfl
      · rw [L_bind_eq_error] at h
        rcases h with h | ⟨_, -, h⟩
        · exact absurd h alloc_not_panic
        · cases h

lemma enter_no_fuel {fo : List (Cell D) × List (Cell D)} : enter ord nm me fo ≠ .error .fuel := by
  intro h
  unfold enter at h
  rw [M_bind_eq_error] at h
  rcases h with h | ⟨m1, -, h⟩
  · exact upd_no_fuel h
  · rw [M_bind_eq_error] at h
    rcases h with h | ⟨m1, -, h⟩
    · exact upd_no_fuel h
    · cases h

lemma castRays_enough {n : ℕ} {free occ : List (Cell D)} (h : castRays n origin cloud bounds res ml = .ok (free, occ))
    (hB : ∀ p ∈ cloud.points, ∀ ray e, Casts origin p bounds res ml ray e → ray.length ≤ B) :
    castRays B origin cloud bounds res ml = .ok (free, occ) := by
  unfold castRays at h ⊢
  rw [M.bind_eq_ok] at h ⊢
  obtain ⟨⟨f0, o0⟩, h1, h2⟩ := h
  obtain ⟨rs, h3, h4⟩ := castRays_fold.mp h1
  refine ⟨(f0, o0), castRays_fold.mpr ⟨rs, ?_, h4⟩, h2⟩
  refine List.forall₂_iff_get.mpr ⟨h3.length_eq, fun i hi hi' => ?_⟩
  have hc := h3.get hi hi'
  exact (C91_work ⟨n, hc⟩ B).mpr (hB _ (List.get_mem _ _) _ _ ⟨n, hc⟩)

/-- C101: on a machine on which no allocation holds more than `B` entries, `integrate_point_cloud` returns exactly if it
does on one without a limit, with the same map, and nothing it keeps has more than `B` entries. -/
theorem C101_returns_iff (hm : GridFits B m) : Mem.integratePointCloud B ord nm m origin cloud = .ok m' ↔
    Integrates ord nm m origin cloud m' ∧
      ∃ me, m.expandBounds cloud.bounds nm.defaultCellValue = .ok me ∧ MemFits B me nm.maxRange origin cloud := by
  rw [mem_integrate_unfold]
  constructor
  · intro h
    rw [L_bind_eq_ok] at h
    obtain ⟨me, h1, h⟩ := h
    rw [L_bind_eq_ok] at h
    obtain ⟨⟨free, occ⟩, h2, h⟩ := h
    obtain ⟨h3, h4⟩ := (mem_expand_ok hm).mp h1
    obtain ⟨h5, h6, h7⟩ := mem_castRays_ok.mp h2
    obtain ⟨h8, h9⟩ := memEnter_ok.mp h
    refine ⟨⟨B, by rw [integrate_unfold', h3, M.bind_ok, h5, M.bind_ok, h8]⟩, me, h3, h4, ?_, h6, h7, fun ht => ?_⟩
    · intro p hp ray e hc
      obtain ⟨rs, f0, k1, -⟩ := castRays_ok h5
      obtain ⟨r, -, hr⟩ := (forall₂_exists k1).2 p hp
      obtain ⟨rfl, rfl⟩ := casts_unique hc ⟨B, hr⟩
      exact (C91_work ⟨B, hr⟩ B).mp hr
    · rw [castRays_card ⟨B, h5⟩]
      exact h9 ht
  · rintro ⟨⟨n, h⟩, me, h1, hf⟩
    rw [integrate_unfold', h1, M.bind_ok, M.bind_eq_ok] at h
    obtain ⟨⟨free, occ⟩, h2, h3⟩ := h
    rw [(mem_expand_ok hm).mpr ⟨h1, hf.grid⟩, L_bind_ok,
      mem_castRays_ok.mpr ⟨castRays_enough h2 hf.ray, hf.passed, hf.ends⟩, L_bind_ok]
    refine memEnter_ok.mpr ⟨h3, fun ht => ?_⟩
    have := hf.changed ht
    rwa [castRays_card ⟨n, h2⟩] at this

/-- C101: it panics for no other reasons than on a machine without a limit, or since the array would have more bytes than
can be counted in isize (`capacity`). -/
theorem C101_panics {p : Panic} (h : Mem.integratePointCloud B ord nm m origin cloud = .error (.panic p)) :
    p = .capacity ∨ ∃ n, nm.integratePointCloud ord n m origin cloud = .error (.panic p) := by
  rw [mem_integrate_unfold, L_bind_eq_error] at h
  rcases h with h | ⟨me, h1, h⟩
  · rcases mem_expand_panic h with h | h
    · exact .inl h
    · exact .inr ⟨0, by rw [integrate_unfold', h]; rfl⟩
  · right
    refine ⟨B, ?_⟩
    rw [integrate_unfold', mem_expand_plain h1, M.bind_ok]
    rw [L_bind_eq_error] at h
    rcases h with h | ⟨⟨free, occ⟩, h2, h⟩
    · rw [mem_castRays_panic h]
      rfl
    · rw [(mem_castRays_ok.mp h2).1, M.bind_ok, memEnter_panic h]

/-- C101: if the rays return and nothing it keeps has more than `B` entries, then the process is not ended, and it panics
exactly if it does on a machine without a limit. -/
theorem C101_same (hm : GridFits B m) (he : m.expandBounds cloud.bounds nm.defaultCellValue = .ok me)
    (hr : ∀ p ∈ cloud.points, ∃ ray e, Casts origin p me.bounds me.resolution nm.maxRange ray e)
    (hf : MemFits B me nm.maxRange origin cloud) :
    Mem.integratePointCloud B ord nm m origin cloud ≠ .error .abort ∧
      ∀ p, Mem.integratePointCloud B ord nm m origin cloud = .error (.panic p) ↔
        ∃ n, nm.integratePointCloud ord n m origin cloud = .error (.panic p) := by
  obtain ⟨free, occ, n, hc⟩ : ∃ free occ, CastsRays origin cloud me.bounds me.resolution nm.maxRange free occ :=
    C28_returns_iff.mpr hr
  have hB := castRays_enough hc hf.ray
  have h1 : Mem.integratePointCloud B ord nm m origin cloud = Mem.lift (enter ord nm me (free, occ)) := by
    rw [mem_integrate_unfold, (mem_expand_ok hm).mpr ⟨he, hf.grid⟩, L_bind_ok,
      mem_castRays_ok.mpr ⟨hB, hf.passed, hf.ends⟩, L_bind_ok]
    refine memEnter_fits fun ht => ?_
    have := hf.changed ht
    rwa [castRays_card ⟨n, hc⟩] at this
  rw [h1]
  refine ⟨fun h => enter_no_fuel (lift_abort.mp h), fun p => ?_⟩
  rw [lift_panic]
  constructor
  · intro h
    exact ⟨n, by rw [integrate_unfold', he, M.bind_ok, hc, M.bind_ok, h]⟩
  · rintro ⟨k, h⟩
    rw [integrate_unfold', he, M.bind_ok, M_bind_eq_error] at h
    rcases h with h | ⟨fo, h2, h⟩
    · have h2 := castRays_panic_mono h n
      rw [Nat.add_comm, castRays_mono hc k] at h2
      cases h2
    · have h3 := castRays_mono h2 n
      rw [Nat.add_comm, castRays_mono hc k] at h3
      cases h3
      exact h

/-- C101: if on a machine without a limit it would still be running after `B` rounds of the loop of a ray, and the array is
not too large for isize, then here the process ends. -/
theorem C101_endless (he : m.expandBounds cloud.bounds nm.defaultCellValue = .ok me)
    (h4 : 4 * me.data.data.length < 2 ^ 63)
    (h : nm.integratePointCloud ord B m origin cloud = .error .fuel) :
    Mem.integratePointCloud B ord nm m origin cloud = .error .abort := by
  rw [mem_integrate_unfold]
  rcases mem_expand_cases (B := B) he h4 with h1 | h1
  · rw [h1, L_bind_ok]
    rw [integrate_unfold', he, M.bind_ok, M_bind_eq_error] at h
    rcases h with h | ⟨a, -, h⟩
    · rcases hx : Mem.castRays B origin cloud me.bounds me.resolution nm.maxRange with (p | _) | ⟨free, occ⟩
      · rw [mem_castRays_panic hx] at h
        cases h
      · rfl
      · rw [(mem_castRays_ok.mp hx).1] at h
        cases h
    · exact absurd h enter_no_fuel
  · rw [h1]
    rfl

end

end

/-! ## The hypotheses are met -/

/-- A ray of three cells needs room for three. -/
example : Mem.castRay 3 (![Fp.lit (1 / 2), Fp.lit (1 / 2)] : Point 2 F32) ![Fp.lit (7 / 2), Fp.lit (1 / 2)]
      ⟨![Fp.lit 0, Fp.lit 0], ![Fp.lit 4, Fp.lit 4]⟩ (Fp.lit 1) (Fp.lit 60) =
        .ok ([![1, 1], ![2, 1], ![3, 1]], some ![4, 1]) ∧
    Mem.castRay 2 (![Fp.lit (1 / 2), Fp.lit (1 / 2)] : Point 2 F32) ![Fp.lit (7 / 2), Fp.lit (1 / 2)]
      ⟨![Fp.lit 0, Fp.lit 0], ![Fp.lit 4, Fp.lit 4]⟩ (Fp.lit 1) (Fp.lit 60) = .error .abort := by
  constructor <;> decide +kernel

/-- What a call on the limited machine ended with. -/
def stoppedWith {α : Type} (s : Mem.Stop) : Mem.L α → Bool
  | .ok _ => false
  | .error s' => s = s'

lemma stopped_iff {α : Type} {s : Mem.Stop} {x : Mem.L α} : stoppedWith s x = true ↔ x = .error s := by
  rcases x with s' | a
  · simp only [stoppedWith, decide_eq_true_eq, Except.error.injEq]
    exact eq_comm
  · simp [stoppedWith]

def hasReturned {α : Type} : Mem.L α → Bool
  | .ok _ => true
  | .error _ => false

lemma returned_iff {α : Type} {x : Mem.L α} : hasReturned x = true ↔ ∃ a, x = .ok a := by
  rcases x with s' | a <;> simp [hasReturned]

def outOfFuel {α : Type} : M α → Bool
  | .error .fuel => true
  | _ => false

lemma outOfFuel_iff {α : Type} {x : M α} : outOfFuel x = true ↔ x = .error .fuel := by
  rcases x with (p | _) | a <;> simp [outOfFuel]

lemma smallMap_fits (B : ℕ) : GridFits B smallMap := ⟨Nat.zero_le _, by show 4 * 0 < 2 ^ 63; norm_num⟩

/-- The first scan of `smallRecs` makes an array of eight entries: with room for eight the call returns, -/
lemma small_fits : ∃ m', Mem.integratePointCloud 8 (fun l => l) smallNM smallMap (smallRecs 0).1 (smallRecs 0).2 =
    .ok m' := by
  rw [← returned_iff]
  decide +kernel

example : ∃ m' me, Integrates (fun l => l) smallNM smallMap (smallRecs 0).1 (smallRecs 0).2 m' ∧
    smallMap.expandBounds (smallRecs 0).2.bounds smallNM.defaultCellValue = .ok me ∧
    MemFits 8 me smallNM.maxRange (smallRecs 0).1 (smallRecs 0).2 := by
  obtain ⟨m', h⟩ := small_fits
  obtain ⟨h1, me, h2⟩ := (C101_returns_iff (smallMap_fits _)).mp h
  exact ⟨m', me, h1, h2⟩

/-- with room for seven it does not. -/
example : ¬ ∃ m', Integrates (fun l => l) smallNM smallMap (smallRecs 0).1 (smallRecs 0).2 m' ∧
    ∃ me, smallMap.expandBounds (smallRecs 0).2.bounds smallNM.defaultCellValue = .ok me ∧
      MemFits 7 me smallNM.maxRange (smallRecs 0).1 (smallRecs 0).2 := by
  rintro ⟨m', h⟩
  have h0 : Mem.integratePointCloud 7 (fun l => l) smallNM smallMap (smallRecs 0).1 (smallRecs 0).2 = .error .abort := by
    rw [← stopped_iff]
    decide +kernel
  rw [(C101_returns_iff (smallMap_fits _)).mpr h] at h0
  cases h0

/-- The hypotheses of `C101_same`. -/
example : ∃ me, smallMap.expandBounds (smallRecs 0).2.bounds smallNM.defaultCellValue = .ok me ∧
    (∀ p ∈ (smallRecs 0).2.points, ∃ ray e, Casts (smallRecs 0).1 p me.bounds me.resolution smallNM.maxRange ray e) ∧
    MemFits 8 me smallNM.maxRange (smallRecs 0).1 (smallRecs 0).2 := by
  obtain ⟨m', h⟩ := small_fits
  obtain ⟨⟨n, h1⟩, me, h2, h3⟩ := (C101_returns_iff (smallMap_fits _)).mp h
  rw [integrate_unfold', h2, M.bind_ok, M.bind_eq_ok] at h1
  obtain ⟨⟨free, occ⟩, h4, -⟩ := h1
  exact ⟨me, h2, C28_returns_iff.mp ⟨free, occ, n, h4⟩, h3⟩

/-- Panics: an array of 2^62 entries, which are too many bytes to be counted; the sensor outside the grid. -/
example : Mem.integratePointCloud 8 (fun l => l) smallNM smallMap ![Fp.lit (1 / 2), Fp.lit (1 / 2)]
      (PointCloud.fromPoints [![Fp.lit (2 ^ 30), Fp.lit (2 ^ 30)], ![Fp.lit (-2 ^ 30), Fp.lit (-2 ^ 30)]]) =
        .error (.panic .capacity) ∧
    Mem.integratePointCloud 8 (fun l => l) smallNM smallMap ![Fp.lit (-1 / 2), Fp.lit (1 / 2)] (smallRecs 0).2 =
      .error (.panic .index) := by
  constructor <;> rw [← stopped_iff] <;> decide +kernel

/-- The scan with a NaN coordinate of the sensor: the loop goes on and on. -/
lemma small_endless : smallNM.integratePointCloud (fun l => l) 20 smallMap (![.nan, Fp.lit (1 / 2)] : Point 2 F32)
    (smallRecs 0).2 = .error Err.fuel := outOfFuel_iff.mp (by decide +kernel)

/-- The hypotheses of `C101_endless`. -/
example : Mem.integratePointCloud 20 (fun l => l) smallNM smallMap (![.nan, Fp.lit (1 / 2)] : Point 2 F32)
    (smallRecs 0).2 = .error .abort := by
  obtain ⟨m', h⟩ := small_fits
  obtain ⟨-, me, h2, h3⟩ := (C101_returns_iff (smallMap_fits _)).mp h
  exact C101_endless h2 h3.grid.2 small_endless

end Verif.Props
