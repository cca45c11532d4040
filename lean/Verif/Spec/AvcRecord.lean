import Verif.Spec.H264
/-!
# The records that the H.264 parser reads
-/
namespace Spec.H264
open Sps

/-- Parameter sets as ISO/IEC 14496-15 writes them: each behind its length in two bytes. -/
def stdSets (us : List (List UInt8)) : List UInt8 := us.flatMap fun u => beBytes 2 u.length ++ u

/-- Parameter sets as the parser reads them: each behind its length in *four* bytes, and before that a number of two bytes that counts the set and *two* of these four. -/
def ownSets (us : List (List UInt8)) : List UInt8 := us.flatMap fun u => beBytes 2 (u.length + 2) ++ (beBytes 4 u.length ++ u)

/-- A record around sets: version 1, profile, compatibility, level, six reserved bits, lengths of four bytes, three reserved bits, number of SPS, SPS, number of PPS, PPS. -/
def around (profile compat level : UInt8) (reserved6 reserved3 : Nat) (sets : List (List UInt8) → List UInt8) (spss ppss : List (List UInt8)) : List UInt8 :=
  [1, profile, compat, level, UInt8.ofNat (4 * reserved6 + 3), UInt8.ofNat (32 * reserved3 + spss.length)] ++ sets spss ++ UInt8.ofNat ppss.length :: sets ppss

end Spec.H264
