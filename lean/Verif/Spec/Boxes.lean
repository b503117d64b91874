import Verif.Model.Geom

/-!
# Specification vocabulary: boxes of cells and of points
-/

namespace Verif.Spec

variable {D : ℕ}

/-- All four corners' coordinates are machine integers. -/
def Machine (cb : CellBounds D) : Prop := ∀ i, InIsize (cb.min i) ∧ InIsize (cb.max i)

/-- The box `a` lies inside the box `b`. -/
def CellSub (a b : CellBounds D) : Prop := ∀ i, b.min i ≤ a.min i ∧ a.max i ≤ b.max i

/-- The corners of the box are multiples of `t`. -/
def Aligned (t : ℕ) (cb : CellBounds D) : Prop := ∀ i, (t : ℤ) ∣ cb.min i ∧ (t : ℤ) ∣ cb.max i

/-- The order of the extended number line on floats, NaN being unrelated to everything. -/
def FLe {f : Fmt} (x y : Fp f) : Prop := x.isNaN = false ∧ y.isNaN = false ∧ x.key ≤ y.key

/-- The point lies in the closed box. -/
def InBox {f : Fmt} (p : Point D (Fp f)) (b : Bounds D (Fp f)) : Prop :=
  ∀ i, FLe (b.min i) (p i) ∧ FLe (p i) (b.max i)

/-- No coordinate is NaN. -/
def NoNaN {f : Fmt} (p : Point D (Fp f)) : Prop := ∀ i, (p i).isNaN = false

/-- The box is ordered: a value that `Bounds::new` accepts. -/
def Ordered {f : Fmt} (b : Bounds D (Fp f)) : Prop := ∀ i, FLe (b.min i) (b.max i)

/-- The box `a` lies inside the box `b`. -/
def Sub {f : Fmt} (a b : Bounds D (Fp f)) : Prop :=
  ∀ i, FLe (b.min i) (a.min i) ∧ FLe (a.max i) (b.max i)

end Verif.Spec
