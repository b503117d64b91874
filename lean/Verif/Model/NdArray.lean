import Verif.Rust

/-!
# Model of the part of `ndarray` 0.13 used by the grid map

Owned arrays in standard (row-major) layout: a shape and the flat list of elements.
-/

namespace Verif

/-- Number of elements of a shape. -/
def shapeProd : {D : ℕ} → (Fin D → ℕ) → ℕ
  | 0, _ => 1
  | _ + 1, s => s 0 * shapeProd fun i => s i.succ

/-- Row-major position of an index. -/
def flatIndex : {D : ℕ} → (Fin D → ℕ) → (Fin D → ℕ) → ℕ
  | 0, _, _ => 0
  | _ + 1, s, ix => ix 0 * shapeProd (fun i => s i.succ) + flatIndex (fun i => s i.succ) fun i => ix i.succ

/-- Is the index inside the shape? -/
def InShape {D : ℕ} (s ix : Fin D → ℕ) : Prop := ∀ i, ix i < s i

instance {D : ℕ} (s ix : Fin D → ℕ) : Decidable (InShape s ix) := by unfold InShape; infer_instance

lemma flatIndex_lt {D : ℕ} {s ix : Fin D → ℕ} (h : InShape s ix) : flatIndex s ix < shapeProd s := by
  induction D with
  | zero => simp [flatIndex, shapeProd]
  | succ D ih =>
    have h0 := h 0
    have h1 := ih (s := fun i => s i.succ) (ix := fun i => ix i.succ) (fun i => h i.succ)
    simp only [flatIndex, shapeProd]
    calc _ < ix 0 * shapeProd (fun i => s i.succ) + shapeProd (fun i => s i.succ) := by omega
      _ = (ix 0 + 1) * shapeProd (fun i => s i.succ) := by rw [Nat.succ_mul]
      _ ≤ _ := Nat.mul_le_mul_right _ h0

/-- The product of the axis lengths that are not zero. -/
def nonzeroProd : {D : ℕ} → (Fin D → ℕ) → ℕ
  | 0, _ => 1
  | _ + 1, s => (if s 0 = 0 then 1 else s 0) * nonzeroProd fun i => s i.succ

/-- `nd::Array<A, NdD>`. `valid` is an invariant ndarray maintains for every array. -/
structure NdArray (D : ℕ) (A : Type) where
  shape : Fin D → ℕ
  data : List A
  len : data.length = shapeProd shape
  valid : (nonzeroProd shape : ℤ) ≤ isizeMax

namespace NdArray
variable {D : ℕ} {A : Type}

/-- Indexing `self.data[ix]`: panics when an index is out of bounds. -/
def get (a : NdArray D A) (ix : Fin D → ℕ) : M A :=
  if h : InShape a.shape ix then
    .ok (a.data[flatIndex a.shape ix]'(by rw [a.len]; exact flatIndex_lt h))
  else .error (.panic .index)

/-- Indexed assignment `self.data[ix] = v`: panics when an index is out of bounds. -/
def set (a : NdArray D A) (ix : Fin D → ℕ) (v : A) : M (NdArray D A) :=
  if InShape a.shape ix then
    .ok ⟨a.shape, a.data.set (flatIndex a.shape ix) v, by rw [List.length_set, a.len],
      a.valid⟩
  else .error (.panic .index)

/-- `Array::from_shape_vec(shape, vec).unwrap()`: fails if the product of the nonzero axis lengths
exceeds `isize::MAX` or the number of elements does not match. -/
def fromShapeVec (shape : Fin D → ℕ) (v : List A) : M (NdArray D A) :=
  if hv : (nonzeroProd shape : ℤ) ≤ isizeMax then
    if h : v.length = shapeProd shape then .ok ⟨shape, v, h, hv⟩ else .error (.panic .unwrap)
  else .error (.panic .unwrap)

/-- All elements of a shape in row-major order. -/
def tabList : {D : ℕ} → (Fin D → ℕ) → ((Fin D → ℕ) → A) → List A
  | 0, _, g => [g Fin.elim0]
  | _ + 1, s, g => (List.range (s 0)).flatMap fun k => tabList (fun i => s i.succ) fun ix => g (Fin.cons k ix)

lemma tabList_length {s : Fin D → ℕ} {g : (Fin D → ℕ) → A} : (tabList s g).length = shapeProd s := by
  induction D with
  | zero => simp [tabList, shapeProd]
  | succ D ih =>
    simp only [tabList, shapeProd, List.length_flatMap, ih]
    simp

/-- The array with the given elements. -/
def tab (s : Fin D → ℕ) (hs : (nonzeroProd s : ℤ) ≤ isizeMax) (g : (Fin D → ℕ) → A) : NdArray D A :=
  ⟨s, tabList s g, tabList_length, hs⟩

/-- The absolute index of a slice bound: negative numbers count from the end (`abs_index` of
ndarray). The sum wraps like `as usize` if still negative. -/
def absIndex (len : ℕ) (i : ℤ) : ℕ := usizeOfIsize (if i < 0 then len + i else i)

/-- One axis of `s![a..b]`: start and end; an end before the start is moved to the start; panics when
out of range. -/
def sliceAxis (len : ℕ) (a b : ℤ) : M (ℕ × ℕ) :=
  let start := absIndex len a
  let stop := if absIndex len b < start then start else absIndex len b
  if start ≤ len ∧ stop ≤ len then .ok (start, stop) else .error (.panic .slice)

/-- `to.slice_mut(s![a₁..b₁]).assign(&from.slice(s![a₂..b₂]))`: the element at `ix` of the target slice
becomes the element at the corresponding place of the source slice; a source axis of length 1 is
repeated; other length mismatches panic. -/
def sliceAssign (dst : NdArray D A) (a1 b1 : Fin D → ℤ) (src : NdArray D A) (a2 b2 : Fin D → ℤ) :
    M (NdArray D A) := do
  let st ← seqFin fun i => sliceAxis (dst.shape i) (a1 i) (b1 i)
  let sf ← seqFin fun i => sliceAxis (src.shape i) (a2 i) (b2 i)
  let lt : Fin D → ℕ := fun i => (st i).2 - (st i).1
  let lf : Fin D → ℕ := fun i => (sf i).2 - (sf i).1
  if ∀ i, lf i = lt i ∨ lf i = 1 then
    let new : (Fin D → ℕ) → Option A := fun ix =>
      if ∀ i, (st i).1 ≤ ix i ∧ ix i < (st i).2 then
        src.data[flatIndex src.shape fun i =>
          (sf i).1 + (if lf i = lt i then ix i - (st i).1 else 0)]?
      else none
    let old : (Fin D → ℕ) → Option A := fun ix => dst.data[flatIndex dst.shape ix]?
    .ok (match dst.data.head? with
      | none => dst
      | some d => tab dst.shape dst.valid fun ix => ((new ix).orElse fun _ => old ix).getD d)
  else .error (.panic .shape)

end NdArray
end Verif
