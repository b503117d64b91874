import Verif.Spec.Rigid
import Verif.Model.Frame

/-!
# Specification vocabulary: the picture of a frame
-/

namespace Verif.Spec
open Viz

/-- `order` runs through the keys of the table, each once. -/
def Lists {Cell Pt : Type} (order : List Cell) (table : Cell → Option Pt) : Prop :=
  order.Nodup ∧ ∀ c, c ∈ order ↔ table c ≠ none

/-- The colour with these parts of red, green and blue. -/
def colour (r g b : ℚ) : Point 3 F32 := ![Fp.lit r, Fp.lit g, Fp.lit b]

/-- Three lines from `start`, the first red, the second green, the third blue. -/
def threeLines (start : Point 3 F32) (stop : Fin 3 → Point 3 F32) : List Draw :=
  [.line start (stop 0) (colour 1 0 0), .line start (stop 1) (colour 0 1 0), .line start (stop 2) (colour 0 0 1)]

/-- The lines go, up to `e₁` at the start and `e₂` at the ends, from the place of a sensor to the points at distance one
on its axes; the sensor is at `T` and turned by the angles. -/
def AxesAt (e₁ e₂ : ℝ) (roll pitch yaw : ℝ) (T : Fin 3 → ℝ) (start : Point 3 F32) (stop : Fin 3 → Point 3 F32) : Prop :=
  (∀ i, NearReal (start i) (T i) e₁) ∧ ∀ a i, NearReal (stop a i) (rigid roll pitch yaw T (Pi.single a 1) i) e₂

end Verif.Spec
