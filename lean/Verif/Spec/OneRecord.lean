import Verif.Spec.Obstacle

/-!
# Specification vocabulary: cloud files that differ in some records
-/

namespace Verif.Spec

/-- The three numbers of record `j` of a cloud file; its last four bytes, the reflectance, do not count. -/
noncomputable def recordOf (bytes : List (BitVec 8)) (j : ℕ) : Point 3 F32 := fun n =>
  Viz.f32OfBits (wordAt bytes (16 * j + 4 * n.val))

/-- Record `j` of the file occurs nowhere in the other file. -/
def OnlyIn (bytes other : List (BitVec 8)) (j : ℕ) : Prop :=
  j < bytes.length / 16 ∧ ∀ j' < other.length / 16, recordOf other j' ≠ recordOf bytes j

/-- The half line from `X` through `Y` stays off the world cell by `δ` cells, though `X` and `Y` are only known within
`ε`. -/
def LinePasses (ρ δ ε : ℝ) (X Y : Fin 3 → ℝ) (w : Cell 3) : Prop :=
  ∀ t : ℝ, 0 ≤ t → ∃ i, (1 / 2 + δ) * ρ + (1 + 2 * t) * ε < |X i + t * (Y i - X i) - w i * ρ|

/-- The line from the sensor `X` through every record of the file that occurs nowhere in the other, moved by the pose, is
a ray in the working range and stays off the world cell. -/
def RecordsPass (N : ℕ) (ρ ε roll pitch yaw : ℝ) (X : Fin 3 → ℝ) (bytes other : List (BitVec 8)) (w : Cell 3) : Prop :=
  ∀ j, OnlyIn bytes other j → ∀ Y, Y = rigid roll pitch yaw X (fun m => ((recordOf bytes j m).val : ℝ)) →
    (∃ K, AimsReal N K ρ ε X Y) ∧ LinePasses ρ (rayTol N (2 * N)) ε X Y w

end Verif.Spec
