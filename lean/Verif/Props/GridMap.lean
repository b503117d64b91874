import Mathlib.Tactic.FinCases
import Mathlib.Tactic.Ring
import Verif.Lemmas.NdArray
import Verif.Lemmas.Mono
import Verif.Spec.Grid

/-!
# C30, C31, C36: fresh maps, get/set, what operations leave alone
-/

namespace Verif.Props
open Spec

variable {F A : Type} {D : ℕ}

/-! ## Cells as indices -/

lemma usize_of_neg {n : ℤ} (h : InIsize n) (hn : n < 0) : isizeMax < usizeOfIsize n := by
  obtain ⟨h1, h2⟩ := h
  unfold usizeOfIsize isizeMin isizeMax at *
  rw [if_neg (by omega)]
  omega

lemma usize_inj {a b : ℤ} (ha : InIsize a) (hb : InIsize b) (h : usizeOfIsize a = usizeOfIsize b) :
    a = b := by
  obtain ⟨h1, h2⟩ := ha
  obtain ⟨h3, h4⟩ := hb
  unfold usizeOfIsize isizeMin isizeMax at *
  split_ifs at h <;> omega

lemma inShape_iff (m : GridMap D F A) {c : Cell D} (hc : MachineCell c) :
    InShape m.data.shape (toNdIndex c) ↔ InGrid m c := by
  refine forall_congr' fun i => ?_
  unfold toNdIndex
  by_cases h : c i < 0
  · have := usize_of_neg (hc i) h
    have := m.data.shape_le i
    constructor <;> intro h' <;> omega
  · unfold usizeOfIsize
    rw [if_pos (by omega)]
    omega

lemma toNdIndex_inj {c c' : Cell D} (hc : MachineCell c) (hc' : MachineCell c')
    (h : toNdIndex c = toNdIndex c') : c = c' := by
  funext i; exact usize_inj (hc i) (hc' i) (congrFun h i)

/-! ## C31 -/

/-- C31: `get` returns a value for the cells of the grid and panics (index out of bounds) for all
others, negative coordinates included. -/
theorem C31_get (m : GridMap D F A) {c : Cell D} (hc : MachineCell c) :
    (InGrid m c → ∃ v, m.get c = .ok v) ∧ (¬ InGrid m c → m.get c = .error (.panic .index)) := by
  rw [← inShape_iff m hc]
  exact ⟨fun h => NdArray.get_ok h, fun h => NdArray.get_panic h⟩

/-- C31: `set` succeeds for the cells of the grid and panics for all others. -/
theorem C31_set (m : GridMap D F A) {c : Cell D} (v : A) (hc : MachineCell c) :
    (InGrid m c → ∃ m', m.set c v = .ok m') ∧
    (¬ InGrid m c → m.set c v = .error (.panic .index)) := by
  rw [← inShape_iff m hc]
  constructor
  · intro h
    obtain ⟨d, hd⟩ := NdArray.set_ok (v := v) h
    exact ⟨{ m with data := d }, by unfold GridMap.set; rw [hd]; rfl⟩
  · intro h
    unfold GridMap.set; rw [NdArray.set_panic h]; rfl

lemma set_data {m m' : GridMap D F A} {c : Cell D} {v : A} (h : m.set c v = .ok m') :
    ∃ d, m.data.set (toNdIndex c) v = .ok d ∧ m' = { m with data := d } := by
  unfold GridMap.set at h
  rw [M.bind_eq_ok] at h
  obtain ⟨d, hd, h⟩ := h
  exact ⟨d, hd, by cases h; rfl⟩

/-- C31: after `set c v`, cell `c` reads `v`, every other cell reads what it read before (out of grid
ones panic as before), and the grid is the same. -/
theorem C31_get_set (m m' : GridMap D F A) {c : Cell D} {v : A} (hc : MachineCell c)
    (h : m.set c v = .ok m') :
    m'.get c = .ok v ∧ (∀ c', MachineCell c' → c' ≠ c → m'.get c' = m.get c') ∧
      (∀ c', InGrid m' c' ↔ InGrid m c') := by
  obtain ⟨d, hd, rfl⟩ := set_data h
  refine ⟨NdArray.get_set_self hd, fun c' hc' hne => ?_, fun c' => ?_⟩
  · exact NdArray.get_set_ne hd fun h' => hne (toNdIndex_inj hc' hc h')
  · unfold InGrid
    rw [show ({ m with data := d } : GridMap D F A).data.shape = m.data.shape from
      (NdArray.set_shape hd).1]

/-- C31: a `set` followed by a `set` of another cell: the order does not matter. -/
theorem C31_set_comm (m a b a' b' : GridMap D F A) {c c' : Cell D} {v v' : A} (hc : MachineCell c)
    (hc' : MachineCell c') (hne : c ≠ c') (h1 : m.set c v = .ok a) (h2 : a.set c' v' = .ok a')
    (h3 : m.set c' v' = .ok b) (h4 : b.set c v = .ok b') : a' = b' := by
  obtain ⟨d1, hd1, rfl⟩ := set_data h1
  obtain ⟨d2, hd2, rfl⟩ := set_data h2
  obtain ⟨d3, hd3, rfl⟩ := set_data h3
  obtain ⟨d4, hd4, rfl⟩ := set_data h4
  have hix : toNdIndex c ≠ toNdIndex c' := fun h => hne (toNdIndex_inj hc hc' h)
  have e : d2 = d4 := by
    apply NdArray.ext_get
    · rw [(NdArray.set_shape hd2).1, (NdArray.set_shape hd1).1, (NdArray.set_shape hd4).1,
        (NdArray.set_shape hd3).1]
    · intro ix _
      by_cases i1 : ix = toNdIndex c
      · subst i1
        rw [NdArray.get_set_ne hd2 hix, NdArray.get_set_self hd1, NdArray.get_set_self hd4]
      · by_cases i2 : ix = toNdIndex c'
        · subst i2
          rw [NdArray.get_set_self hd2, NdArray.get_set_ne hd4 i1, NdArray.get_set_self hd3]
        · rw [NdArray.get_set_ne hd2 i2, NdArray.get_set_ne hd1 i1, NdArray.get_set_ne hd4 i1,
            NdArray.get_set_ne hd3 i2]
  subst e; rfl

/-! ## C30 -/

variable [Scalar F]

/-- The size in cells that `new` gives the grid. -/
def sizeOf (r : F) (b : Bounds D F) : Cell D := cellFromPoint b.max b.min r

lemma nonzeroProd_pos {D : ℕ} (s : Fin D → ℕ) : 1 ≤ nonzeroProd s := by
  induction D with
  | zero => exact le_rfl
  | succ D ih =>
    simp only [nonzeroProd]
    have h1 : 1 ≤ (if s 0 = 0 then 1 else s 0) := by split_ifs <;> omega
    exact Nat.mul_pos h1 (ih _)

lemma isizeProd_aux {D : ℕ} (size : Fin D → ℤ) (acc : ℕ) (h0 : ∀ i, 0 ≤ size i)
    (h : (acc * nonzeroProd (fun i => (size i).toNat) : ℤ) ≤ isizeMax) :
    (List.ofFn size).foldlM (fun acc x => isz (acc * x)) (acc : ℤ)
      = .ok ((acc * shapeProd (fun i => (size i).toNat) : ℕ) : ℤ) := by
  induction D generalizing acc with
  | zero => simp [shapeProd]
  | succ D ih =>
    rw [List.ofFn_succ, List.foldlM_cons]
    obtain ⟨n, hn⟩ := Int.eq_ofNat_of_zero_le (h0 0)
    simp only [nonzeroProd, shapeProd, hn, Int.toNat_natCast] at h ⊢
    have hp := nonzeroProd_pos fun i : Fin D => (size i.succ).toNat
    have hle : acc * n ≤ acc * (if n = 0 then 1 else n) := Nat.mul_le_mul_left _ (by split_ifs <;> omega)
    have hle2 : acc * n * nonzeroProd (fun i : Fin D => (size i.succ).toNat)
        ≤ acc * ((if n = 0 then 1 else n) * nonzeroProd fun i : Fin D => (size i.succ).toNat) := by
      rw [← mul_assoc]; exact Nat.mul_le_mul_right _ hle
    have hle3 : acc * n ≤ acc * n * nonzeroProd (fun i : Fin D => (size i.succ).toNat) :=
      Nat.le_mul_of_pos_right _ hp
    have h' : ((acc * n * nonzeroProd (fun i : Fin D => (size i.succ).toNat) : ℕ) : ℤ) ≤ isizeMax := by
      refine le_trans ?_ h
      exact_mod_cast hle2
    have e : isz ((acc : ℤ) * (n : ℕ)) = .ok ((acc * n : ℕ) : ℤ) := by
      rw [isz_ok]
      refine ⟨by push_cast; rfl, ?_, ?_⟩
      · unfold isizeMin; have : (0 : ℤ) ≤ (acc : ℤ) * (n : ℤ) := by positivity
        omega
      · refine le_trans ?_ h'
        exact_mod_cast hle3
    rw [e, M.bind_ok, ih (fun i => size i.succ) (acc * n) (fun i => h0 i.succ)
      (by exact_mod_cast h'), mul_assoc]

/-- A fresh array: which sizes work, and what it holds. -/
lemma ndarrayWithBounds_ok {r : F} {b : Bounds D F} (v : A) (h0 : ∀ i, 0 ≤ sizeOf r b i)
    (h : (nonzeroProd (fun i => (sizeOf r b i).toNat) : ℤ) ≤ isizeMax) :
    ∃ a : NdArray D A, ndarrayWithBounds r b v = .ok a ∧
      (∀ i, (a.shape i : ℤ) = sizeOf r b i) ∧ ∀ ix, InShape a.shape ix → a.get ix = .ok v := by
  have e : toNdIndex (sizeOf r b) = fun i => (sizeOf r b i).toNat := by
    funext i; unfold toNdIndex usizeOfIsize; rw [if_pos (h0 i)]
  have hp : isizeProd (List.ofFn (sizeOf r b))
      = .ok ((shapeProd (fun i => (sizeOf r b i).toNat) : ℕ) : ℤ) := by
    have := isizeProd_aux (sizeOf r b) 1 h0 (by simpa using h)
    simpa [isizeProd] using this
  unfold ndarrayWithBounds
  simp only
  rw [show cellFromPoint b.max b.min r = sizeOf r b from rfl, hp, M.bind_ok, if_neg (by omega), e]
  have hf : ∃ a : NdArray D A, NdArray.fromShapeVec (fun i => (sizeOf r b i).toNat)
      (List.replicate (shapeProd fun i => (sizeOf r b i).toNat) v) = .ok a := by
    unfold NdArray.fromShapeVec
    rw [dif_pos h, dif_pos (by simp)]
    exact ⟨_, rfl⟩
  obtain ⟨a, ha⟩ := hf
  rw [Int.toNat_natCast, ha]
  refine ⟨a, rfl, fun i => ?_, fun ix hix => ?_⟩
  · rw [(NdArray.get_fromShapeVec (ix := fun _ => 0) ha).1]
    have := h0 i
    exact Int.toNat_of_nonneg this
  · have := NdArray.get_fromShapeVec (ix := ix) ha
    exact this.2 (by rw [← this.1]; exact hix)

lemma ndarrayWithBounds_get {r : F} {b : Bounds D F} {v : A} {a : NdArray D A}
    (h : ndarrayWithBounds r b v = .ok a) :
    a.shape = toNdIndex (sizeOf r b) ∧ ∀ ix, InShape a.shape ix → a.get ix = .ok v := by
  unfold ndarrayWithBounds at h
  rw [M.bind_eq_ok] at h
  obtain ⟨n, -, h⟩ := h
  split_ifs at h
  have h1 := fun ix => NdArray.get_fromShapeVec (ix := ix) h
  exact ⟨(h1 fun _ => 0).1, fun ix hix => (h1 ix).2 (by rw [← (h1 ix).1]; exact hix)⟩

/-- C30: whenever `new` returns a map, the map has the given resolution, bounds and tile size, does
not track changes and has none recorded; every cell of its grid reads the given value and every other cell panics. -/
theorem C30_new {r : F} {b : Bounds D F} {t : ℕ} {v : A} {m : GridMap D F A}
    (h : GridMap.new r b t v = .ok m) :
    m.resolution = r ∧ m.bounds = b ∧ m.tileSize = t ∧ m.trackChanges = false ∧
    m.changedCells = [] ∧
    ∀ c, MachineCell c →
      (InGrid m c → m.get c = .ok v) ∧ (¬ InGrid m c → m.get c = .error (.panic .index)) := by
  unfold GridMap.new at h
  rw [M.bind_eq_ok] at h
  obtain ⟨d, hd, h⟩ := h
  cases h
  refine ⟨rfl, rfl, rfl, rfl, rfl, fun c hc => ⟨fun hg => ?_, (C31_get _ hc).2⟩⟩
  exact (ndarrayWithBounds_get hd).2 _ ((inShape_iff _ hc).mpr hg)

/-- C30: `from_ndarray` takes over the array, the resolution, the bounds and the tile size, with tracking off and nothing
recorded; exactly the cells of the array can be read. -/
theorem C30_from_ndarray (a : NdArray D A) (r : F) (b : Bounds D F) (t : ℕ) :
    (GridMap.fromNdarray a r b t).resolution = r ∧ (GridMap.fromNdarray a r b t).bounds = b ∧
    (GridMap.fromNdarray a r b t).tileSize = t ∧ (GridMap.fromNdarray a r b t).trackChanges = false ∧
    (GridMap.fromNdarray a r b t).changedCells = [] ∧
    ∀ c, MachineCell c → ((∃ v, (GridMap.fromNdarray a r b t).get c = .ok v) ↔ ∀ i, 0 ≤ c i ∧ c i < a.shape i) := by
  refine ⟨rfl, rfl, rfl, rfl, rfl, fun c hc => ?_⟩
  have h := C31_get (GridMap.fromNdarray a r b t) hc
  constructor
  · rintro ⟨v, hv⟩
    by_contra hno
    rw [h.2 hno] at hv
    cases hv
  · exact h.1

/-- C30: in two dimensions the cell (i, j) of a map made from an array is element i * columns + j of its rows one after
the other. -/
theorem C30_from_ndarray_2 (a : NdArray 2 A) (r : F) (b : Bounds 2 F) (t : ℕ) {i j : ℕ} (hi : i < a.shape 0)
    (hj : j < a.shape 1) :
    ∃ v, a.data[i * a.shape 1 + j]? = some v ∧ (GridMap.fromNdarray a r b t).get ![(i : ℤ), (j : ℤ)] = .ok v := by
  have hn : toNdIndex ![(i : ℤ), (j : ℤ)] = ![i, j] := by
    funext x; fin_cases x <;> simp [toNdIndex, usizeOfIsize]
  have hs : InShape a.shape ![i, j] := by intro x; fin_cases x <;> assumption
  have hf : flatIndex a.shape ![i, j] = i * a.shape 1 + j := by simp [flatIndex, shapeProd]
  have hl : i * a.shape 1 + j < a.data.length := by rw [a.len, ← hf]; exact flatIndex_lt hs
  refine ⟨_, List.getElem?_eq_getElem hl, ?_⟩
  change a.get _ = _
  rw [hn]
  unfold NdArray.get
  simp only [dif_pos hs, hf]

/-- C30: in three dimensions the cell (i, j, k) is element (i * rows + j) * columns + k. -/
theorem C30_from_ndarray_3 (a : NdArray 3 A) (r : F) (b : Bounds 3 F) (t : ℕ) {i j k : ℕ} (hi : i < a.shape 0)
    (hj : j < a.shape 1) (hk : k < a.shape 2) :
    ∃ v, a.data[(i * a.shape 1 + j) * a.shape 2 + k]? = some v ∧
      (GridMap.fromNdarray a r b t).get ![(i : ℤ), (j : ℤ), (k : ℤ)] = .ok v := by
  have hn : toNdIndex ![(i : ℤ), (j : ℤ), (k : ℤ)] = ![i, j, k] := by
    funext x; fin_cases x <;> simp [toNdIndex, usizeOfIsize]
  have hs : InShape a.shape ![i, j, k] := by intro x; fin_cases x <;> assumption
  have hf : flatIndex a.shape ![i, j, k] = (i * a.shape 1 + j) * a.shape 2 + k := by
    simp [flatIndex, shapeProd]; ring
  have hl : (i * a.shape 1 + j) * a.shape 2 + k < a.data.length := by rw [a.len, ← hf]; exact flatIndex_lt hs
  refine ⟨_, List.getElem?_eq_getElem hl, ?_⟩
  change a.get _ = _
  rw [hn]
  unfold NdArray.get
  simp only [dif_pos hs, hf]

/-- An array of two rows and three columns. -/
example : ∃ (a : NdArray 2 ℕ) (b : Bounds 2 F32), 1 < a.shape 0 ∧ 2 < a.shape 1 ∧
    (GridMap.fromNdarray a (Fp.lit 1) b 4).get ![((1 : ℕ) : ℤ), ((2 : ℕ) : ℤ)] = .ok 23 :=
  ⟨⟨![2, 3], [11, 12, 13, 21, 22, 23], rfl, by decide⟩, Bounds.empty, by decide, by decide, rfl⟩

/-- C30: the grid of a fresh map has the size of the bounds in cells, which is not negative. In f32
arithmetic, NaN and infinities included. -/
theorem C30_new_size {f : Fmt} {r : Fp f} {b : Bounds D (Fp f)} {t : ℕ} {v : A} {m : GridMap D (Fp f) A}
    (h : GridMap.new r b t v = .ok m) (i : Fin D) :
    (m.data.shape i : ℤ) = cellFromPoint b.max b.min r i := by
  unfold GridMap.new at h
  rw [M.bind_eq_ok] at h
  obtain ⟨d, hd, h⟩ := h
  cases h
  have hs := (ndarrayWithBounds_get hd).1
  have h1 := d.shape_le i
  have h2 : InIsize (sizeOf r b i) := Fp.toInt_bounds _
  simp only
  rw [hs] at h1 ⊢
  unfold toNdIndex at h1 ⊢
  by_cases hn : sizeOf r b i < 0
  · have := usize_of_neg h2 hn
    omega
  · unfold usizeOfIsize
    rw [if_pos (by omega)]
    exact Int.toNat_of_nonneg (by omega)

/-- C30: `new` returns exactly if the size in cells is non-negative on every axis and the array is
addressable (the product of the nonzero sizes fits isize). In f32 arithmetic, NaN and infinities
included. -/
theorem C30_new_returns_iff {f : Fmt} (r : Fp f) (b : Bounds D (Fp f)) (t : ℕ) (v : A) :
    (∃ m, GridMap.new r b t v = .ok m) ↔
    (∀ i, 0 ≤ cellFromPoint b.max b.min r i) ∧
      (nonzeroProd (fun i => (cellFromPoint b.max b.min r i).toNat) : ℤ) ≤ isizeMax := by
  constructor
  · rintro ⟨m, hm⟩
    have hs := C30_new_size hm
    refine ⟨fun i => by rw [← hs i]; positivity, ?_⟩
    have : (fun i => (cellFromPoint b.max b.min r i).toNat) = m.data.shape := by
      funext i; rw [← hs i]; simp
    rw [this]; exact m.data.valid
  · rintro ⟨h0, h1⟩
    obtain ⟨a, ha, -, -⟩ := ndarrayWithBounds_ok (r := r) (b := b) v h0 h1
    exact ⟨⟨a, r, b, t, false, []⟩, by unfold GridMap.new; rw [ha]; rfl⟩

/-- C30: `new` either returns a map or panics. -/
theorem C30_new_total (r : F) (b : Bounds D F) (t : ℕ) (v : A) :
    (∃ m, GridMap.new r b t v = .ok m) ∨ ∃ p, GridMap.new r b t v = .error (.panic p) := by
  cases h : GridMap.new r b t v with
  | ok m => exact .inl ⟨m, rfl⟩
  | error e =>
    refine .inr ?_
    cases e with
    | panic p => exact ⟨p, rfl⟩
    | fuel =>
      exfalso
      unfold GridMap.new ndarrayWithBounds isizeProd at h
      have nofuel : ∀ (l : List ℤ) (acc : ℤ),
          l.foldlM (fun acc x => isz (acc * x)) acc ≠ .error .fuel := by
        intro l
        induction l with
        | nil => intro acc h; cases h
        | cons x l ih =>
          intro acc h
          rw [List.foldlM_cons] at h
          unfold isz at h
          split_ifs at h
          · exact ih _ h
          · cases h
      cases hp : (List.ofFn (cellFromPoint b.max b.min r)).foldlM (fun acc x => isz (acc * x)) 1 with
      | error e =>
        simp only [hp, M.bind_err] at h
        apply nofuel _ _ (hp.trans ?_)
        cases h; rfl
      | ok n =>
        simp only [hp, M.bind_ok] at h
        unfold NdArray.fromShapeVec at h
        split_ifs at h <;> cases h

/-- C30: the default map stores no cell at all, so every access panics. -/
theorem C30_default : ∃ m : GridMap (D + 1) F A, GridMap.default_ = .ok m ∧
    m.bounds = Bounds.empty ∧ m.tileSize = 100 ∧ m.resolution = Scalar.lit (1 / 10) ∧
    m.trackChanges = false ∧ m.changedCells = [] ∧
    ∀ c, MachineCell c → m.get c = .error (.panic .index) := by
  have h : ∃ d : NdArray (D + 1) A, NdArray.fromShapeVec (fun _ => 0) [] = .ok d := by
    unfold NdArray.fromShapeVec
    have h1 : ∀ D : ℕ, nonzeroProd (fun _ : Fin D => 0) = 1 := by
      intro D; induction D with
      | zero => rfl
      | succ D ih => simp only [nonzeroProd, ih, if_true]
    rw [dif_pos (by rw [h1]; unfold isizeMax; norm_num), dif_pos (by simp [shapeProd])]
    exact ⟨_, rfl⟩
  obtain ⟨d, hd⟩ := h
  refine ⟨⟨d, DEFAULT_RESOLUTION, Bounds.empty, DEFAULT_TILE_SIZE, false, []⟩, ?_, rfl, rfl, rfl, rfl,
    rfl, ?_⟩
  · unfold GridMap.default_; rw [hd]; rfl
  · intro c hc
    refine (C31_get _ hc).2 fun hg => ?_
    have hs : d.shape = fun _ => 0 := by
      unfold NdArray.fromShapeVec at hd
      split_ifs at hd
      cases hd; rfl
    have := hg 0
    simp only [hs] at this
    omega

/-- Concrete bounds: 3 × 2 cells of 1/2. -/
example : ∀ i, 0 ≤ cellFromPoint (![Fp.lit 2, Fp.lit 1] : Point 2 F32) ![Fp.lit (1/2), Fp.lit 0]
    (Fp.lit (1/2)) i := by decide +kernel

/-! ## C36 -/

omit [Scalar F] in
/-- C36: `set` changes the grid only. -/
theorem C36_set {m m' : GridMap D F A} {c : Cell D} {v : A} (h : m.set c v = .ok m') :
    SameConfig m m' ∧ m'.bounds = m.bounds := by
  obtain ⟨d, -, rfl⟩ := set_data h
  exact ⟨⟨rfl, rfl, rfl, rfl⟩, rfl⟩

/-- C36: `expand_bounds` changes grid and bounds only. -/
theorem C36_expandBounds {m m' : GridMap D F A} {b : Bounds D F} {v : A}
    (h : m.expandBounds b v = .ok m') : SameConfig m m' := by
  unfold GridMap.expandBounds at h
  rw [M.bind_eq_ok] at h
  obtain ⟨ncb, -, h⟩ := h
  dsimp only at h
  split_ifs at h
  · cases h; exact ⟨rfl, rfl, rfl, rfl⟩
  · rw [M.bind_eq_ok] at h
    obtain ⟨d, -, h⟩ := h
    rw [M.bind_eq_ok] at h
    obtain ⟨d', -, h⟩ := h
    cases h; exact ⟨rfl, rfl, rfl, rfl⟩
  · rw [M.bind_eq_ok] at h
    obtain ⟨d, -, h⟩ := h
    rw [M.bind_eq_ok] at h
    obtain ⟨d', -, h⟩ := h
    cases h; exact ⟨rfl, rfl, rfl, rfl⟩

omit [Scalar F] in
/-- C36: recording changes touches neither grid nor bounds; new records go to the end; clearing forgets
all of them; the tracking flag changes nothing else. -/
theorem C36_changes (m : GridMap D F A) (cells : List (Cell D)) (flag : Bool) :
    (m.addChangedCells cells).changedCells = m.changedCells ++ cells ∧
    (m.addChangedCells cells).data = m.data ∧ (m.addChangedCells cells).bounds = m.bounds ∧
    (m.clearChangedCells).changedCells = [] ∧ m.clearChangedCells.data = m.data ∧
    m.clearChangedCells.bounds = m.bounds ∧
    SameConfig m { m.setTrackChanges flag with trackChanges := m.trackChanges } ∧
    (m.setTrackChanges flag).trackChanges = flag ∧ (m.setTrackChanges flag).data = m.data ∧
    (m.setTrackChanges flag).bounds = m.bounds :=
  ⟨rfl, rfl, rfl, rfl, rfl, rfl, ⟨rfl, rfl, rfl, rfl⟩, rfl, rfl, rfl⟩

end Verif.Props
