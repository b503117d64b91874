import Verif.Spec.Gps

/-!
# Specification vocabulary: UTF-8
-/

namespace Verif.Spec

/-- The UTF-8 encoding of a character (RFC 3629, section 3). -/
def utf8Char (c : Char) : List (BitVec 8) :=
  let n := c.toNat
  if n < 0x80 then [.ofNat 8 n]
  else if n < 0x800 then [.ofNat 8 (0xC0 + n / 64), .ofNat 8 (0x80 + n % 64)]
  else if n < 0x10000 then
    [.ofNat 8 (0xE0 + n / 4096), .ofNat 8 (0x80 + n / 64 % 64), .ofNat 8 (0x80 + n % 64)]
  else
    [.ofNat 8 (0xF0 + n / 262144), .ofNat 8 (0x80 + n / 4096 % 64), .ofNat 8 (0x80 + n / 64 % 64),
      .ofNat 8 (0x80 + n % 64)]

/-- The UTF-8 encoding of a text. -/
def utf8 (text : List Char) : List (BitVec 8) := text.flatMap utf8Char

/-- The bytes consist of these fields, separated by single bytes 0x20. -/
def ByteFields (bytes : List (BitVec 8)) (fs : List (List (BitVec 8))) : Prop :=
  fs ≠ [] ∧ (∀ f ∈ fs, 0x20 ∉ f) ∧ [0x20].intercalate fs = bytes

end Verif.Spec
