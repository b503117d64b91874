import Verif.Spec.Bad
import Verif.Spec.Gps

/-!
# Specification vocabulary: scans whose sensor position is not known
-/

namespace Verif.Spec

variable {D : ℕ}

/-- A scan from a sensor position with a NaN coordinate; every other number, of the sensor or of a point, is of at
most `M` cells. -/
structure LostScan (M : ℕ) (ρ : ℚ) (origin : Point D F32) (cloud : PointCloud D F32) : Prop where
  lost : IsBad origin
  sensor : ∀ i, origin i = .nan ∨ ∃ x, (origin i).Is x ∧ |x| ≤ M * ρ
  coords : NanCoords M ρ cloud

/-- Going by the coordinates that are numbers, the point is certainly not in the sensor's cell or straight below it
along axis `d`: it is two cells or more aside on another axis, or two cells or more above. -/
def Elsewhere (ρ : ℚ) (d : Fin D) (origin p : Point D F32) : Prop :=
  (∃ i, i ≠ d ∧ ∃ x y, (origin i).Is x ∧ (p i).Is y ∧ 2 * ρ ≤ |y - x|) ∨
    ∃ x y, (origin d).Is x ∧ (p d).Is y ∧ x + 2 * ρ ≤ y

/-- What the visualizer is asked to play, for C99: the recordings before number `r` are in the working range but for
NaN coordinates of points; the sensor position of recording `r` has a NaN coordinate, and some point of it is
not in the sensor's cell or straight below; or recording `r` has an infinite coordinate, whatever the others, and the
tile size divides neither 2^63 nor 2^63 - 1. -/
structure LostPlay (M T : ℕ) (ρ lam : ℚ) (d : Fin D) (r : ℕ) (recs : ℕ → Point D F32 × PointCloud D F32) : Prop where
  last : ∀ j, j ≤ d
  M_lo : 1 ≤ M
  M_hi : M + T + 1 ≤ 2 ^ 18
  scans : ∀ r' < r, ∃ x, NanScan M ρ (recs r').1 (recs r').2 x
  lost : (LostScan M ρ (recs r).1 (recs r).2 ∧ ∃ p ∈ (recs r).2.points, Elsewhere ρ d (recs r).1 p) ∨
    (¬ T ∣ 2 ^ 63 ∧ ¬ T ∣ 2 ^ 63 - 1 ∧ ∃ p ∈ (recs r).2.points, ∃ i s, p i = .inf s)
  lam_pos : 0 < lam
  lam_hi : lam ≤ M * ρ

/-- A place of which some of the three numbers may be missing. -/
structure Known where
  lat : Option ℚ
  lon : Option ℚ
  alt : Option ℚ

/-- The numbers there are belong to a place on the globe. -/
structure Known.Ok (p : Known) : Prop where
  lat : ∀ q, p.lat = some q → |q| ≤ 90
  lon : ∀ q, p.lon = some q → |q| ≤ 180
  alt : ∀ q, p.alt = some q → |q| ≤ 10 ^ 6

/-- The place, with zero for the missing numbers. -/
def Known.place (p : Known) : Place := ⟨p.lat.getD 0, p.lon.getD 0, p.alt.getD 0⟩

/-- The axes on which the offset from one place to another cannot be told: east takes latitude and longitude, north
latitude, up the altitude. -/
def Known.Missing (p o : Known) : Fin 3 → Prop :=
  ![(p.lat = none ∨ o.lat = none) ∨ (p.lon = none ∨ o.lon = none), p.lat = none ∨ o.lat = none,
    p.alt = none ∨ o.alt = none]

/-- The text is a decimal number; or, where the number is missing, `nan` in letters of either case with an optional
sign. -/
def NumberOrNan (s : List Char) : Option ℚ → Prop
  | some q => decimal s = some q
  | none => (signed s).2.map Char.toLower = "nan".toList

/-- The text holds the place, with `nan` for missing numbers, and the angles as its first six fields. -/
def SaysKnown (text : List Char) (p : Known) (roll pitch yaw : ℚ) : Prop :=
  ∃ a b c d e g rest, Fields text (a :: b :: c :: d :: e :: g :: rest) ∧
    NumberOrNan a p.lat ∧ NumberOrNan b p.lon ∧ NumberOrNan c p.alt ∧
    decimal d = some roll ∧ decimal e = some pitch ∧ decimal g = some yaw

/-- A scan in the working range on the axes that are not missing, from real numbers known up to `ε`; and some point
of it is `2 ρ` or more aside on such an axis, or above. -/
structure KnownScan (M : ℕ) (ρ ε : ℝ) (missing : Fin 3 → Prop) (X : Fin 3 → ℝ) (pts : (Fin 3 → ℝ) → Prop) : Prop where
  sensor_near : ∀ i, ¬ missing i → |X i| + ε ≤ M * ρ
  points_near : ∀ i, ¬ missing i → ∀ Y, pts Y → |Y i| + ε ≤ M * ρ
  elsewhere : ∃ Y, pts Y ∧ ((∃ i, i ≠ 2 ∧ ¬ missing i ∧ 2 * ρ + 2 * ε ≤ |Y i - X i|) ∨
    ¬ missing 2 ∧ X 2 + 2 * ρ + 2 * ε ≤ Y 2)

end Verif.Spec
