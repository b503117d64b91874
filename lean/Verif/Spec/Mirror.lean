import Verif.Spec.Rays

/-!
# Mirror images

Reflections in coordinate planes: `σ i` says whether axis `i` is flipped. Used by C65.
-/

namespace Verif.Spec

variable {D : ℕ} {f : Fmt}

/-- The mirror image of a point: the sign bit of the flipped coordinates changes. -/
def mirPoint (σ : Fin D → Bool) (p : Point D (Fp f)) : Point D (Fp f) :=
  fun i => if σ i then (p i).neg else p i

/-- The mirror image of a cell (the lower corner of the grid, cell 0, is the centre). -/
def mirCell (σ : Fin D → Bool) (c : Cell D) : Cell D := fun i => if σ i then -(c i) else c i

/-- The cell's coordinates, and those of its neighbours, have a negative that is a machine integer. -/
def Mirrorable (c : Cell D) : Prop := ∀ i, isizeMin + 1 < c i ∧ c i < isizeMax

end Verif.Spec
