import Verif.Model.Err
/-!
# Model of who owns the bodies of RTMP messages (`/repo/src/avformat/sps_avformat_librtmp_packet.cpp`)

Memory is a set of blocks that are in use. Giving back or using a block that is not in use is undefined (`none`).
-/
namespace Sps
namespace RtmpBody

/-- The memory: which blocks are in use. Blocks from `next` on never were. -/
structure Heap where
  live : Nat → Bool
  next : Nat

/-- `malloc`. -/
def Heap.alloc (h : Heap) : Nat × Heap := (h.next, ⟨fun b => if b = h.next then true else h.live b, h.next + 1⟩)

/-- `free`. -/
def Heap.free (h : Heap) (b : Nat) : Option Heap := if h.live b then some { h with live := fun x => if x = b then false else h.live x } else none

/-- `WrapRtmpPacket`, `/repo/src/avformat/sps_avformat_librtmp_packet.hpp:91-114`: `own` and `packet.m_body` (`none` is null). -/
structure Pkt where
  own : Bool
  body : Option Nat
deriving DecidableEq, Repr

/-- What librtmp's `RTMP_ReadPacket`, called until a packet is complete, leaves in a packet: a body of its own that is complete; or it fails, without a body, with a body that
is in no other place (it failed in the first chunk of the message), or with one that it has already given back (it failed in a later chunk: the body is also in the table of its
channels, which it clears when it closes the connection). -/
inductive Read
  | ready
  | failed
  | failedFirst
  | failedLater
deriving DecidableEq, Repr

/-- The result of the library: whether it succeeded, the body and the memory. -/
def Heap.read (h : Heap) : Read → Bool × Option Nat × Heap
  | .ready => match h.alloc with | (b, h) => (true, some b, h)
  | .failed => (false, none, h)
  | .failedFirst => match h.alloc with | (b, h) => (false, some b, h)
  | .failedLater => (false, some h.next, { h with next := h.next + 1 })

/-- `WrapRtmpPacket::reset`, `/repo/src/avformat/sps_avformat_librtmp_packet.cpp:128-132`, with librtmp's `RTMPPacket_Free`: a body is given back and forgotten. -/
def reset (h : Heap) (p : Pkt) : Option (Heap × Pkt) :=
  if p.own then match p.body with
    | some b => (h.free b).map fun h => (h, { p with body := none })
    | none => some (h, p)
  else some (h, p)

/-- `RtmpHook::recv_packet`, `/repo/src/avformat/sps_avformat_librtmp.cpp:522-539`. -/
def recv (h : Heap) (p : Pkt) (r : Read) : Option (Heap × Pkt) :=
  match reset h p with
  | none => none
  | some (h, p) => match h.read r with
    | (true, b, h) => some (h, { p with body := b })
    | (false, _, h) => some (h, { p with body := none })

/-- What the program does with its packets: `WrapRtmpPacket packet(own);`, receiving into one, letting one point to the memory of a packet of a stream
(`RtmpAVMuxer::write_packet`, `/repo/src/avformat/sps_avformat_rtmpenc.cpp:47-69`), looking at the body, and leaving the block the packet was made in. -/
inductive Op
  | new (i : Nat) (own : Bool)
  | recv (i : Nat) (r : Read)
  | lend (i : Nat) (b : Nat)
  | use (i : Nat)
  | leave (i : Nat)
deriving DecidableEq, Repr

/-- The memory, and the packets there are. -/
structure St where
  heap : Heap
  pkts : Nat → Option Pkt

/-- A packet is changed. -/
def St.set (s : St) (h : Heap) (i : Nat) (p : Option Pkt) : St := ⟨h, fun j => if j = i then p else s.pkts j⟩

/-- One step. The constructor, `/repo/src/avformat/sps_avformat_librtmp_packet.cpp:119-122`; the destructor, lines 124-126; `data`, lines 147-149. -/
def step (s : St) : Op → Option St
  | .new i own => some (s.set s.heap i (some ⟨own, none⟩))
  | .recv i r => match s.pkts i with
    | some p => (recv s.heap p r).map fun (h, p) => s.set h i (some p)
    | none => none
  | .lend i b => match s.pkts i with
    | some p => some (s.set s.heap i (some { p with body := some b }))
    | none => none
  | .use i => match s.pkts i with
    | some ⟨_, some b⟩ => if s.heap.live b then some s else none
    | some ⟨_, none⟩ => some s
    | none => none
  | .leave i => match s.pkts i with
    | some p => (reset s.heap p).map fun (h, _) => s.set h i none
    | none => none

/-- Several steps. -/
def run : St → List Op → Option St
  | s, [] => some s
  | s, o :: os => (step s o).bind fun s => run s os

end RtmpBody
end Sps
