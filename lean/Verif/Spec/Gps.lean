import Verif.Spec.Kitti
import Verif.Spec.Rigid

/-!
# Specification vocabulary: decimal texts and positions on the earth
-/

namespace Verif.Spec
open Kitti

/-- The number written by a row of digits. -/
def digitsNat (s : List Char) : ℕ := s.foldl (fun n c => 10 * n + (c.toNat - '0'.toNat)) 0

/-- Strips a sign. -/
def signed (s : List Char) : ℚ × List Char :=
  match s with
  | '-' :: r => (-1, r)
  | '+' :: r => (1, r)
  | _ => (1, s)

/-- Digits with an optional point; at least one digit. -/
def unsignedDecimal (s : List Char) : Option ℚ :=
  let whole := s.takeWhile Char.isDigit
  match s.dropWhile Char.isDigit with
  | [] => if whole = [] then none else some (digitsNat whole)
  | '.' :: frac =>
    if frac.all Char.isDigit ∧ whole ++ frac ≠ [] then some (digitsNat (whole ++ frac) / 10 ^ frac.length)
    else none
  | _ => none

/-- The exponent: an optional sign and at least one digit. -/
def exponent (s : List Char) : Option ℤ :=
  let (sg, r) := signed s
  if r.all Char.isDigit ∧ r ≠ [] then some ((if sg = -1 then -1 else 1) * digitsNat r) else none

/-- The number a decimal text stands for: an optional sign, digits with an optional point, an optional exponent
after `e` or `E`. -/
def decimal (s : List Char) : Option ℚ := do
  let (sg, r) := signed s
  let mant ← unsignedDecimal (r.takeWhile fun c => c != 'e' && c != 'E')
  match r.dropWhile fun c => c != 'e' && c != 'E' with
  | [] => some (sg * mant)
  | _ :: ex => do
    let x ← exponent ex
    some (sg * mant * 10 ^ x)

/-- After an optional sign, the text is `inf`, `infinity` or `nan`, in letters of either case. -/
def Special (s : List Char) : Prop :=
  (signed s).2.map Char.toLower ∈ ["inf".toList, "infinity".toList, "nan".toList]

/-- The characters a float can be written with. -/
def floatChars : List Char := "0123456789+-.eEinftyaINFTYA".toList

/-- The parser reads decimal texts, correctly rounded (`str::parse`). -/
def ReadsDecimals {f : Fmt} (parse : List Char → Option (Fp f)) : Prop :=
  ∀ s q, decimal s = some q → ∃ zs, parse s = some (Fp.ofRat zs q)

/-- What is asked of the functions the OXTS reader takes from outside (`src/kitti/oxt_reader.rs:13, 36, 38-40`):
correctly rounded parsing, an accurate f64 cosine, pi / 180, the IEEE conversion from f64 to f32. -/
structure AccurateEnv {R : Type} (env : OxtEnv F64 F32 R) : Prop where
  parseG : ReadsDecimals env.parseG
  parseF : ReadsDecimals env.parseF
  cos : ∀ (x : F64) (q : ℚ), x.Is q → |q| ≤ 4 → ∃ c : ℚ, (env.cos x).Is c ∧ |(c : ℝ) - Real.cos q| ≤ 1 / 2 ^ 50
  radPerDeg : ∃ c : ℚ, env.radPerDeg.Is c ∧ |(c : ℝ) - Real.pi / 180| ≤ 1 / 2 ^ 57
  cast : ∀ (x : F64) (q : ℚ), x.Is q → ∃ zs, env.cast x = Fp.ofRat zs q

/-- A place on the earth: degrees, degrees, metres. -/
structure Place where
  lat : ℚ
  lon : ℚ
  alt : ℚ

/-- On the globe, up to a thousand kilometres above or below the sea. -/
structure Place.Ok (p : Place) : Prop where
  lat : |p.lat| ≤ 90
  lon : |p.lon| ≤ 180
  alt : |p.alt| ≤ 10 ^ 6

/-- East, north and up in metres, as the code has it: a degree of latitude is a 360th of 40 008 000 m, a degree
of longitude a 360th of 40 075 160 m times the cosine of the *difference* of latitudes. -/
noncomputable def Place.offset (p o : Place) : Fin 3 → ℝ :=
  ![(p.lon - o.lon) * (40075160 * Real.cos ((p.lat - o.lat) * (Real.pi / 180))) / 360,
    (p.lat - o.lat) * 40008000 / 360, p.alt - o.alt]

/-- The length of the arc from `o` to the meridian of `p` along the circle of latitude of `o`, whose circumference
is that of the equator times the cosine of the latitude. -/
noncomputable def Place.east (p o : Place) : ℝ :=
  (p.lon - o.lon) * (40075160 * Real.cos (o.lat * (Real.pi / 180))) / 360

/-- The text holds the place and the angles as its first six fields, in decimal. -/
def Says (text : List Char) (p : Place) (roll pitch yaw : ℚ) : Prop :=
  ∃ a b c d e g rest, Fields text (a :: b :: c :: d :: e :: g :: rest) ∧
    decimal a = some p.lat ∧ decimal b = some p.lon ∧ decimal c = some p.alt ∧
    decimal d = some roll ∧ decimal e = some pitch ∧ decimal g = some yaw

end Verif.Spec
