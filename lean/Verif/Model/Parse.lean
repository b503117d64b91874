import Verif.Model.Kitti

/-!
# `str::parse::<f64>` and `str::parse::<f32>`

The standard library function called at `src/kitti/oxt_reader.rs:13`, after the grammar in its documentation
(`FromStr for f64`): one pass over the characters, the result correctly rounded. Versions of Rust before 1.55
compared the words with case and did not know `infinity`.
-/

namespace Verif.Kitti

open Verif

/-- Reads digits: their value, appended to `acc`, and their number, added to `n`; and the rest of the text. -/
def scanDigits : ℕ → ℕ → List Char → ℕ × ℕ × List Char
  | acc, n, [] => (acc, n, [])
  | acc, n, c :: r =>
    if c.isDigit then scanDigits (10 * acc + (c.toNat - '0'.toNat)) (n + 1) r else (acc, n, c :: r)

/-- Reads a sign; true if it is a minus. -/
def scanSign : List Char → Bool × List Char
  | '-' :: r => (true, r)
  | '+' :: r => (false, r)
  | s => (false, s)

/-- Reads a point and the digits after it: the digits appended to `acc`, and their number. -/
def scanFraction (acc : ℕ) : List Char → ℕ × ℕ × List Char
  | '.' :: r => scanDigits acc 0 r
  | s => (acc, 0, s)

/-- Reads an exponent up to the end of the text. -/
def scanExponent (s : List Char) : Option ℤ :=
  let sg := scanSign s
  let d := scanDigits 0 0 sg.2
  if d.2.1 = 0 ∨ d.2.2 ≠ [] then none else some (if sg.1 then -(d.1 : ℤ) else d.1)

/-- After `k` digits before the point and `l` after it, which make `m`: the end of the text, or an exponent. -/
def scanTail (m k l : ℕ) (r : List Char) : Option ℚ :=
  if k + l = 0 then none
  else
    match r with
    | [] => some ((m : ℚ) * 10 ^ (-(l : ℤ)))
    | c :: r =>
      if c = 'e' ∨ c = 'E' then (scanExponent r).map fun (x : ℤ) => (m : ℚ) * 10 ^ (x - l) else none

/-- `Number` of the grammar: digits with an optional point, at least one digit, an optional exponent, the end of
the text. -/
def scanNumber (s : List Char) : Option ℚ :=
  let a := scanDigits 0 0 s
  let b := scanFraction a.1 a.2.2
  scanTail b.1 a.2.1 b.2.1 b.2.2

/-- `str::parse` for floats. -/
def parseFloat {f : Fmt} (s : List Char) : Option (Fp f) :=
  let (neg, r) := scanSign s
  match scanNumber r with
  | some q => some (Fp.ofRat neg (if neg then -q else q))
  | none =>
    let word := r.map Char.toLower
    if word = ['i', 'n', 'f'] ∨ word = ['i', 'n', 'f', 'i', 'n', 'i', 't', 'y'] then some (.inf neg)
    else if word = ['n', 'a', 'n'] then some .nan
    else none

/-- The environment of the reader with this parser, given the cosine, pi / 180, the conversion of f64 to f32 and
the conversion of angles. -/
def parsingEnv {R : Type} (cos : F64 → F64) (radPerDeg : F64) (cast : F64 → F32) (euler : F32 → F32 → F32 → R) :
    OxtEnv F64 F32 R := ⟨parseFloat, parseFloat, cos, radPerDeg, cast, euler⟩

/-! ## Text from bytes -/

/-- A continuation byte of UTF-8, 10xxxxxx. -/
def isCont (b : BitVec 8) : Bool := 0x80 ≤ b.toNat && b.toNat ≤ 0xBF

/-- Whether `b1` may follow `b0` in a sequence of three bytes (`core::str::validations`). -/
def okAfter3 (b0 b1 : BitVec 8) : Bool :=
  (b0 == 0xE0 && 0xA0 ≤ b1.toNat && b1.toNat ≤ 0xBF) || (0xE1 ≤ b0.toNat && b0.toNat ≤ 0xEC && isCont b1) ||
  (b0 == 0xED && 0x80 ≤ b1.toNat && b1.toNat ≤ 0x9F) || (0xEE ≤ b0.toNat && b0.toNat ≤ 0xEF && isCont b1)

/-- Whether `b1` may follow `b0` in a sequence of four bytes. -/
def okAfter4 (b0 b1 : BitVec 8) : Bool :=
  (b0 == 0xF0 && 0x90 ≤ b1.toNat && b1.toNat ≤ 0xBF) || (0xF1 ≤ b0.toNat && b0.toNat ≤ 0xF3 && isCont b1) ||
  (b0 == 0xF4 && 0x80 ≤ b1.toNat && b1.toNat ≤ 0x8F)

/-- `str::from_utf8`: none if the bytes are not UTF-8. -/
def fromUtf8 : List (BitVec 8) → Option (List Char)
  | [] => some []
  | b0 :: r =>
    if b0.toNat < 0x80 then (fromUtf8 r).map (Char.ofNat b0.toNat :: ·)
    else
      match r with
      | [] => none
      | b1 :: r =>
        if 0xC2 ≤ b0.toNat ∧ b0.toNat ≤ 0xDF then
          if isCont b1 then (fromUtf8 r).map (Char.ofNat (b0.toNat % 32 * 64 + b1.toNat % 64) :: ·) else none
        else
          match r with
          | [] => none
          | b2 :: r =>
            if okAfter3 b0 b1 then
              if isCont b2 then
                (fromUtf8 r).map
                  (Char.ofNat (b0.toNat % 16 * 4096 + b1.toNat % 64 * 64 + b2.toNat % 64) :: ·)
              else none
            else
              match r with
              | [] => none
              | b3 :: r =>
                if okAfter4 b0 b1 && isCont b2 && isCont b3 then
                  (fromUtf8 r).map (Char.ofNat
                    (b0.toNat % 8 * 262144 + b1.toNat % 64 * 4096 + b2.toNat % 64 * 64 + b3.toNat % 64) :: ·)
                else none

/-- `read_to_string` (`src/kitti/oxt_reader.rs:48`), given the outcome of reading all bytes: bytes that are not
UTF-8 are invalid data. -/
def readToString (input : Io (List (BitVec 8))) : Io (List Char) :=
  match input with
  | .error e => .error e
  | .ok bytes =>
    match fromUtf8 bytes with
    | some text => .ok text
    | none => .error .invalidData

end Verif.Kitti
