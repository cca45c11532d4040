/-!
# Specification of bit and byte strings

Independent of the model: a byte string *is* a string of bits, most significant bit of each byte first,
and a group of bits *is* the number it spells in base two.
-/
namespace Spec

/-- The `w` low bits of `v`, most significant first. -/
def bitsOfNat : (w : Nat) → (v : Nat) → List Bool
  | 0, _ => []
  | w + 1, v => v.testBit w :: bitsOfNat w v

/-- The number a group of bits spells, most significant first. -/
def bitsVal (bs : List Bool) : Nat := bs.foldl (fun a b => 2 * a + b.toNat) 0

/-- The bit string of a byte string. -/
def bitsOf (bytes : List UInt8) : List Bool := bytes.flatMap fun b => bitsOfNat 8 b.toNat

/-- Cut a bit string into consecutive groups of the given widths and return the numbers they spell. -/
def takeVals : List Bool → List Nat → List Nat
  | _, [] => []
  | bs, w :: ws => bitsVal (bs.take w) :: takeVals (bs.drop w) ws

/-- The big-endian number of a byte string. -/
def beVal (bytes : List UInt8) : Nat := bytes.foldl (fun a b => 256 * a + b.toNat) 0

/-- The `w`-byte big-endian representation of `v` (modulo `256^w`). -/
def beBytes : (w : Nat) → (v : Nat) → List UInt8
  | 0, _ => []
  | w + 1, v => UInt8.ofNat (v / 256 ^ w) :: beBytes w v

end Spec

namespace Spec

/-- A field of `w` bits at bit offset `off` is cut by the byte boundaries into pieces; does a piece of exactly
six bits occur? (The first piece fills the current byte, then whole bytes, then the rest.) -/
def hasSixBitPiece (off w : Nat) : Bool :=
  let first := min (8 - off % 8) w
  first == 6 || (w - first) % 8 == 6

/-- No field of the list is cut into a six bit piece, starting at bit offset `off`. -/
def noSixBitPiece (off : Nat) : List (Nat × Nat) → Bool
  | [] => true
  | (_, w) :: fs => !hasSixBitPiece off w && noSixBitPiece (off + w) fs

/-- The bit string of a list of (value, width) fields. -/
def fieldBits (fs : List (Nat × Nat)) : List Bool := fs.flatMap fun f => bitsOfNat f.2 f.1

/-- Total width of a list of (value, width) fields. -/
def fieldsWidth (fs : List (Nat × Nat)) : Nat := (fs.map (·.2)).sum

end Spec
