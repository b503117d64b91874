import Verif.Spec.Bad
import Verif.Spec.Gps

/-!
# Specification vocabulary: records with angles that are not finite, or infinite places
-/

namespace Verif.Spec

/-- A text that the reader takes for a number: a decimal number, or a word for infinity or NaN. -/
def Numeral (s : List Char) : Prop := (∃ q, decimal s = some q) ∨ Special s

/-- The text begins with six numerals. -/
def SixNumerals (text : List Char) : Prop :=
  ∃ a b c d e g rest, Fields text (a :: b :: c :: d :: e :: g :: rest) ∧ Numeral a ∧ Numeral b ∧ Numeral c ∧
    Numeral d ∧ Numeral e ∧ Numeral g

/-- After an optional sign, the text is `inf` or `infinity`, in letters of either case. -/
def InfWord (s : List Char) : Prop := (signed s).2.map Char.toLower ∈ ["inf".toList, "infinity".toList]

/-- The text begins with the place in decimal and three numerals, of which one at least is a word for infinity or
NaN: an angle that is not finite. -/
def WrongAngle (text : List Char) (p : Place) : Prop :=
  ∃ a b c d e g rest, Fields text (a :: b :: c :: d :: e :: g :: rest) ∧
    decimal a = some p.lat ∧ decimal b = some p.lon ∧ decimal c = some p.alt ∧
    Numeral d ∧ Numeral e ∧ Numeral g ∧ (Special d ∨ Special e ∨ Special g)

/-- The text begins with three numerals and the angles in decimal. The latitude or the altitude is infinite; or
the longitude is, and the latitude is a decimal number within 80 degrees of `lat0`. -/
def InfinitePlace (text : List Char) (lat0 roll pitch yaw : ℚ) : Prop :=
  ∃ a b c d e g rest, Fields text (a :: b :: c :: d :: e :: g :: rest) ∧ Numeral a ∧ Numeral b ∧ Numeral c ∧
    decimal d = some roll ∧ decimal e = some pitch ∧ decimal g = some yaw ∧
    (InfWord a ∨ InfWord c ∨ InfWord b ∧ ∃ lat, decimal a = some lat ∧ |lat| ≤ 90 ∧ |lat - lat0| ≤ 80)

end Verif.Spec
