import Verif.Model.RtmpChunk
/-!
# Model of the size of the chunks that are received (`RtmpHook::recv_packet` and `on_recv_packet`, `/repo/src/avformat/sps_avformat_librtmp.cpp`)

What a client sends is symbols, as in `Model/RtmpChunk`.
-/
namespace Sps
namespace RtmpChunk

/-- librtmp's `ReadN` in `RTMP_ReadPacket`. A header is bytes for it, too: here reading it as such is a failure. -/
def takeBytes : Nat → List Sym → Option (List UInt8 × List Sym)
  | 0, w => some ([], w)
  | n + 1, .byte b :: w => (takeBytes n w).map fun (bs, w) => (b :: bs, w)
  | _, _ => none

/-- An entry of librtmp's `m_vecChannelsIn`: a message of which some chunks have come. -/
structure Part where
  type : Nat
  len : Nat
  got : List UInt8
deriving DecidableEq, Repr

/-- librtmp's `RTMP_ReadPacket`: the header of a message or of a further chunk of one, then `m_inChunkSize` bytes, or what is left of the message if that is less. A message that begins on a channel
replaces one that is not complete. -/
def takeChunk (size : Nat) (parts : Nat → Option Part) : List Sym → Option (Nat × Part × List Sym)
  | .head c type _ len :: w => (takeBytes (min len size) w).map fun (bs, w) => (c, ⟨type, len, bs⟩, w)
  | .more c :: w => match parts c with
    | some p => (takeBytes (min (p.len - p.got.length) size) w).map fun (bs, w) => (c, { p with got := p.got ++ bs }, w)
    | none => none
  | _ => none

/-- Messages received one after the other, `/repo/src/avformat/sps_avformat_librtmp.cpp:522-551`: `recv_packet` reads chunks until a message is complete (`RTMPPacket_IsReady`, lines 527-539), then
`on_recv_packet`. `costs` is what the library counts for each (`m_nBytesIn`), and what a `send_pong` for it would return. A negative chunk size makes the library fail. `fuel` bounds the chunks.
Returns also the object afterwards. -/
def takeAll : (fuel : Nat) → RtmpHook → (Nat → Option Part) → List (Nat × Err) → List Sym → Option (List RtmpRecv × RtmpHook)
  | _, h, _, [], _ => some ([], h)
  | 0, _, _, _ :: _, _ => none
  | fuel + 1, h, parts, (nIn, sendErr) :: costs, w =>
    if h.inChunk < 0 then none
    else match takeChunk h.inChunk.toNat parts w with
      | none => none
      | some (c, p, w) =>
        if p.got.length = p.len then
          let m : RtmpRecv := { type := p.type, body := p.got, nIn := nIn, sendErr := sendErr }
          match h.onRecv m with
          | some (e, h, _) => if e ≠ Err.SUCCESS then none else (takeAll fuel h (fun d => if d = c then none else parts d) costs w).map fun (ms, h) => (m :: ms, h)
          | none => none
        else takeAll fuel h (fun d => if d = c then some p else parts d) ((nIn, sendErr) :: costs) w

end RtmpChunk
end Sps
