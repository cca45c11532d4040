import Verif.Model.Num
/-!
# Text: `std::string` and the number conversions of the C library

A string is its list of bytes.
-/
namespace Sps

/-- A `std::string`. -/
abbrev Text := List UInt8

/-- The bytes of an ASCII string. -/
def ascii (s : String) : List UInt8 := s.toList.map fun c => UInt8.ofNat c.toNat

namespace Text

/-- `CRCN`, `/repo/src/module/http/sps_http_parser.hpp:38`. -/
def crlf : Text := [13, 10]

/-- `s.find_first_of(c)`: what is before the first `c` and what is behind it; `none` is `npos`. -/
def cut (c : UInt8) : Text → Option (Text × Text)
  | [] => none
  | b :: r => if b = c then some ([], r) else (cut c r).map fun (x, y) => (b :: x, y)

/-- What is behind the last `c` (`rfind`); `none` is `npos`. -/
def afterLast (c : UInt8) : Text → Option Text
  | [] => none
  | b :: r => match afterLast c r with
    | some x => some x
    | none => if b = c then some r else none

/-- A digit of `operator<<` for numbers (`std::hex` writes lower case). -/
def digit (d : Nat) : UInt8 := if d < 10 then UInt8.ofNat (48 + d) else UInt8.ofNat (87 + d)

/-- The digits of a number in `base`; 64 are enough for every 64-bit number. -/
def digits (base : Nat) : (fuel : Nat) → Nat → Text
  | 0, _ => []
  | fuel + 1, n => if n < base then [digit n] else digits base fuel (n / base) ++ [digit (n % base)]

/-- `ss << n` for an unsigned number below 2^64. -/
def dec (n : Nat) : Text := digits 10 64 n
/-- `ss << std::hex << n`. -/
def hex (n : Nat) : Text := digits 16 64 n
/-- `ss << n` for an `int`. -/
def decInt (n : Int) : Text := if n < 0 then 45 :: dec n.natAbs else dec n.natAbs

/-- `isspace` in the C locale. -/
def isSpace (b : UInt8) : Bool := b == 32 || (9 ≤ b && b ≤ 13)

/-- The value of a digit in `base`. -/
def digitVal (base : Nat) (b : UInt8) : Option Nat :=
  let v := if 48 ≤ b ∧ b ≤ 57 then some (b.toNat - 48) else if 97 ≤ b ∧ b ≤ 122 then some (b.toNat - 87)
    else if 65 ≤ b ∧ b ≤ 90 then some (b.toNat - 55) else none
  v.filter (· < base)

/-- The value of the digits at the front, most significant first. -/
def number (base : Nat) (acc : Nat) : Text → Nat
  | [] => acc
  | b :: r => match digitVal base b with
    | some d => number base (acc * base + d) r
    | none => acc

/-- Sign and rest of a number after white space, as `strtol` and `strtoul` take it. -/
def signed (s : Text) : Bool × Text :=
  match s.dropWhile isSpace with
  | 45 :: r => (true, r)
  | 43 :: r => (false, r)
  | r => (false, r)

/-- The prefix `0x` is skipped when a hexadecimal digit follows. -/
def skip0x : Text → Text
  | 48 :: x :: d :: r => if (x = 120 ∨ x = 88) ∧ (digitVal 16 d).isSome then d :: r else 48 :: x :: d :: r
  | r => r

/-- `strtoul(s, nullptr, 16)` (64-bit `unsigned long`). -/
def strtoul16 (s : Text) : Nat :=
  let n := number 16 0 (skip0x (signed s).2)
  if 2 ^ 64 ≤ n then 2 ^ 64 - 1 else if (signed s).1 then (2 ^ 64 - n) % 2 ^ 64 else n

/-- `atoi(s)`: glibc converts the `long` of `strtol` to `int`. -/
def atoi (s : Text) : Int :=
  let n := number 10 0 (signed s).2
  if (signed s).1 then (if 2 ^ 63 ≤ n then 0 else i32 ((2 ^ 64 - n) % 2 ^ 64))
  else (if 2 ^ 63 ≤ n then -1 else i32 n)

end Text
end Sps
