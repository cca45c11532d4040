import Verif.Model.Packet
/-! # What a joining player must be given, as a function of the publication history -/
namespace Spec
open Sps

/-- The last element satisfying `f`. -/
def lastOf (f : AVPkt → Bool) (h : List AVPkt) : List AVPkt := ((h.filter f).getLast?).toList

/-- The part of a history from the last element satisfying `key` on; nothing if there is none. -/
def fromLast (key : AVPkt → Bool) : List AVPkt → List AVPkt
  | [] => []
  | p :: ps => if ps.any key then fromLast key ps else if key p then p :: ps else []

/-- Media packets: not a script and not a decoder configuration. -/
def isMedia (p : AVPkt) : Bool :=
  !(p.stream == .subtitle) && !(p.stream == .audio && p.pktType == 0) && !(p.stream == .video && p.pktType == 0)

/-- A key frame: a video packet whose frame type nibble is 1. -/
def isKey (p : AVPkt) : Bool := p.stream == .video && ((p.flags / 16) % 16 == 1)

/-- Start-up packets of a stream: latest script, audio configuration and video configuration, then the media from the
latest key frame on. -/
def startup (h : List AVPkt) : List AVPkt :=
  lastOf (fun p => p.stream == .subtitle) h ++
  lastOf (fun p => p.stream == .audio && p.pktType == 0) h ++
  lastOf (fun p => p.stream == .video && p.pktType == 0) h ++
  fromLast isKey (h.filter isMedia)

/-- Program tables of a transport stream packet: 2 is a program association table, 3 a program map. -/
def isTable (t : Nat) (p : AVPkt) : Bool := p.stream == .psi && ((p.pktType % 2 ^ 32).toNat &&& 0x8FFFFF == t)

/-- Start-up packets of a raw transport stream as it is: latest tables, then every other packet since the
beginning. -/
def startupRaw (h : List AVPkt) : List AVPkt :=
  lastOf (isTable 2) h ++ lastOf (isTable 3) h ++ h.filter (fun p => !isTable 2 p && !isTable 3 p)

end Spec
