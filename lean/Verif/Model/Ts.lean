import Verif.Model.BProg
import Verif.Model.Num
import Verif.Model.Assoc
import Verif.Model.Bytes
/-!
# Model of the transport stream parser (`/repo/src/avformat/sps_avformat_ts.{hpp,cpp}`)

Header fields whose value nothing uses are read and dropped. Sections and packets are those of one call; the objects keep
no other state than what is modelled here.
-/
namespace Sps

/-- `TsPacket`, `sps_avformat_ts.hpp:572-612`, the fields of the fixed header. -/
structure TsHeader where
  tei : Nat
  pusi : Nat
  prio : Nat
  pid : Nat
  scrambling : Nat
  afc : Nat
  cc : Nat
deriving DecidableEq, Repr

namespace Ts
open BProg

/-- `if (flag) ...` for a step without result. -/
def onFlag (flag : Nat) (p : BProg Unit) : BProg Unit := if flag ≠ 0 then p else return ()

/-- The PCR, `sps_avformat_ts.cpp:839-841`. -/
def pcrField : BProg Unit := do
  let _ ← rd 33
  let _ ← rd 6
  let _ ← rd 9

/-- The OPCR, `sps_avformat_ts.cpp:846`. -/
def opcrField : BProg Unit := do
  let _ ← rdBytes 6

/-- The splice countdown, `sps_avformat_ts.cpp:850`. -/
def spliceField : BProg Unit := do
  let _ ← rd 8

/-- What is read as private data, `sps_avformat_ts.cpp:853-864`, guarded by the extension flag (sic). -/
def privField (flag : Nat) : BProg Err := do
  if flag ≠ 0 then
    let n ← rd 8
    let e ← acq n
    if e ≠ Err.SUCCESS then return e
    else
      let _ ← rdBytes n
      return Err.SUCCESS
  else return Err.SUCCESS

/-- The fields after the length of an adaptation field of `len` bytes, `sps_avformat_ts.cpp:829-870`. `stuffing_length` is
`uint16_t`. -/
def adaptationFields (len : Nat) (p0 : Int) : BProg Err := do
  let _ ← rd 1
  let _ ← rd 1
  let _ ← rd 1
  let pcr ← rd 1
  let opcr ← rd 1
  let splice ← rd 1
  let _ ← rd 1
  let ext ← rd 1
  onFlag pcr pcrField
  onFlag opcr opcrField
  onFlag splice spliceField
  let e ← privField ext
  if e ≠ Err.SUCCESS then return e
  else
    let p1 ← rdPos
    skp (((len : Int) - (p1 - p0)) % 2 ^ 16).toNat
    return Err.SUCCESS

/-- `TsAdaptationFiled::decode`, `sps_avformat_ts.cpp:809-871`. -/
def adaptation : BProg Err := do
  let e ← acq 1
  if e ≠ Err.SUCCESS then return e
  else
    let len ← rd 8
    let p0 ← rdPos
    if len = 0 then return Err.SUCCESS
    else
      let e ← acq len
      if e ≠ Err.SUCCESS then return e else adaptationFields len p0

/-- A header before anything is decoded, `sps_avformat_ts.hpp:583-611`. -/
def noHeader : TsHeader := { tei := 0, pusi := 0, prio := 0, pid := 0, scrambling := 0, afc := 0, cc := 0 }

/-- The fixed header after the sync byte, `sps_avformat_ts.cpp:894-901`. -/
def fixedHeader : BProg TsHeader := do
  let tei ← rd 1
  let pusi ← rd 1
  let prio ← rd 1
  let pid ← rd 13
  let scrambling ← rd 2
  let afc ← rd 2
  let cc ← rd 4
  return { tei := tei, pusi := pusi, prio := prio, pid := pid, scrambling := scrambling, afc := afc, cc := cc }

/-- `TsPacket::decode`, `sps_avformat_ts.cpp:878-959`, with `pkt_size` 188. -/
def packet : BProg (Err × TsHeader) := do
  let e ← acq 188
  if e ≠ Err.SUCCESS then return (Err.ERROR_TS_PACKET_SIZE, noHeader)
  else
    let sync ← rd 8
    if sync ≠ 0x47 then return (Err.ERROR_TS_PACKET_DECODE, noHeader)
    else
      let h ← fixedHeader
      if h.afc &&& 2 ≠ 0 then
        let e ← adaptation
        return (e, h)
      else return (Err.SUCCESS, h)

/-! ## Program specific information -/

/-- The section header, `sps_avformat_ts.cpp:72-90`: returns `section_length`. -/
def sectionHeader (pusi : Nat) : BProg Nat := do
  onFlag pusi (do let _ ← rd 8)
  let _ ← rd 8
  let _ ← rd 1
  let _ ← rd 1
  let _ ← rd 2
  let len ← rd 12
  let _ ← rd 16
  let _ ← rd 2
  let _ ← rd 5
  let _ ← rd 1
  let _ ← rd 8
  let _ ← rd 8
  return len

/-- `TsPsiProgram::decode`, `sps_avformat_ts.cpp:64-105`; `dflt` comes with the error of the first `acquire`. The four
bytes of the CRC are read whatever `psi_decode` returned. -/
def psi {α : Type} (dflt : α) (pusi : Nat) (body : Nat → BProg (Err × α)) : BProg (Err × α) := do
  let e ← acq 8
  if e ≠ Err.SUCCESS then return (e, dflt)
  else
    let len ← sectionHeader pusi
    let r ← body len
    let _ ← rd 32
    return r

/-- `TsSdtProgram::psi_decode`, `sps_avformat_ts.cpp:110-116`. -/
def sdtBody (_len : Nat) : BProg (Err × Unit) := do
  let _ ← rd 8
  return (Err.SUCCESS, ())

/-- The loop of `TsPatProgram::psi_decode`, `sps_avformat_ts.cpp:136-144`: the pids, `left` bytes to go. -/
def patLoop : (fuel left : Nat) → BProg (List Nat)
  | _, 0 => return []
  | 0, _ + 1 => return []
  | fuel + 1, left + 1 => do
    let _ ← rd 16
    let _ ← rd 3
    let pid ← rd 13
    let ps ← patLoop fuel (left + 1 - 4)
    return pid :: ps

/-- `TsPatProgram::psi_decode`, `sps_avformat_ts.cpp:122-155`: the pids to add. -/
def patBody (len : Nat) : BProg (Err × List Nat) := do
  if len > 9 then
    let e ← acq (len - 9)
    if e ≠ Err.SUCCESS then return (e, [])
    else
      let ps ← patLoop (len - 9) (len - 9)
      return (Err.SUCCESS, ps)
  else return (Err.SUCCESS, [])

/-- The descriptors of a stream, `sps_avformat_ts.cpp:219-230` (and `184-195`): skipped. -/
def descriptors (n : Nat) : BProg Err := do
  if n > 0 then
    let e ← acq n
    if e ≠ Err.SUCCESS then return e
    else
      let _ ← rdBytes n
      return Err.SUCCESS
  else return Err.SUCCESS

/-- The loop of `TsPmtProgram::psi_decode`, `sps_avformat_ts.cpp:202-234`: stream type and pid of each entry. -/
def pmtLoop : (fuel : Nat) → (left : Int) → BProg (Err × List (Nat × Nat))
  | 0, _ => return (Err.SUCCESS, [])
  | fuel + 1, left => do
    if left > 0 then
      let ty ← rd 8
      let _ ← rd 3
      let pid ← rd 13
      let _ ← rd 4
      let n ← rd 12
      let e ← descriptors n
      if e ≠ Err.SUCCESS then return (e, [])
      else
        let (e, es) ← pmtLoop fuel (left - (5 + n))
        if e ≠ Err.SUCCESS then return (e, []) else return (Err.SUCCESS, (ty, pid) :: es)
    else return (Err.SUCCESS, [])

/-- `TsPmtProgram::psi_decode`, `sps_avformat_ts.cpp:161-258`: the entries to register. -/
def pmtBody (len : Nat) : BProg (Err × List (Nat × Nat)) := do
  let e ← acq 4
  if e ≠ Err.SUCCESS then return (e, [])
  else
    let _ ← rd 3
    let _ ← rd 13
    let _ ← rd 4
    let _ ← rd 2
    let n ← rd 10
    let e ← descriptors n
    if e ≠ Err.SUCCESS then return (e, [])
    else pmtLoop len ((len : Int) - 5 - 4 - n - 4)

end Ts

/-! ## Packetized elementary streams -/

/-- `TsPesProgram` with its `TsPesContext`, `sps_avformat_ts.hpp:262-300, 454-460`. `buf` is the content of `pes_packets`
(`none`: no object), `cap` its capacity. -/
structure PesSt where
  streamType : Nat
  cc : Nat
  buf : Option (List UInt8)
  len : Nat
  cap : Nat
  pts : Int
  dts : Int
deriving DecidableEq, Repr

/-- What `on_pes_complete` is given: the context, `sps_avformat_ts.hpp:277-285`. `pid` is not part of it and only says here
which program completed. -/
structure PesDone where
  pid : Nat
  streamType : Nat
  pts : Int
  dts : Int
  data : List UInt8
  len : Nat
deriving DecidableEq, Repr

namespace PesSt
open BProg

/-- `TsPesProgram::TsPesProgram`, `sps_avformat_ts.cpp:362-371`. -/
def create (streamType : Nat) : PesSt :=
  { streamType := streamType, cc := 0x0f, buf := none, len := 0, cap := 0, pts := -1, dts := -1 }

/-- `TsPesContext::reset`, `sps_avformat_ts.cpp:265-271`. -/
def reset (s : PesSt) : PesSt := { s with buf := none, pts := -1, dts := -1, len := 0 }

/-- `TsPesContext::init`, `sps_avformat_ts.cpp:281-294`. -/
def init (s : PesSt) (sz : Nat) : PesSt :=
  { s with len := sz % 2 ^ 16, cap := if sz % 2 ^ 16 > 0 then sz % 2 ^ 16 else 1024 * 1024, buf := some [], pts := -1, dts := -1 }

/-- `TsPesContext::dump`, `sps_avformat_ts.cpp:296-340`. -/
def dump (s : PesSt) : BProg (Err × PesSt) :=
  match s.buf with
  | none => do
    let n ← rdSize
    skp n
    return (Err.SUCCESS, s)
  | some d => do
    let n ← rdSize
    let left := if s.len > 0 then min (subSz s.len d.length) n else n
    if sub32 s.cap d.length < left then return (Err.ERROR_TS_PACKET_DECODE, s)
    else
      let x ← rdBytes left
      let n ← rdSize
      skp n
      return (Err.SUCCESS, { s with buf := some (d ++ x) })

/-- `TsPesContext::on_payload_complete`, `sps_avformat_ts.cpp:342-360`: what the handler is given. `pes_packet_length` is
`uint16_t`. -/
def done (s : PesSt) (pid : Nat) (d : List UInt8) : PesDone :=
  { pid := pid, streamType := s.streamType, pts := s.pts, dts := s.dts, data := d,
    len := if s.len = 0 then d.length % 2 ^ 16 else s.len }

/-- A time stamp, `sps_avformat_ts.cpp:462-475` and `487-500`. -/
def stamp : BProg Nat := do
  let _ ← rd 4
  let a ← rd 3
  let _ ← rd 1
  let b ← rd 15
  let _ ← rd 1
  let c ← rd 15
  let _ ← rd 1
  return (((a <<< 30) &&& 0x1c0000000) ||| (b <<< 15)) ||| c

/-- Fields of `n` bytes that are there when the flag is set and are not used, `sps_avformat_ts.cpp:509-576`. -/
def optional (flag n : Nat) (s : PesSt) (k : BProg (Err × PesSt)) : BProg (Err × PesSt) :=
  if flag ≠ 0 then
    .acquire n fun e => if e ≠ Err.SUCCESS then .ret (e, s) else .skip n k
  else k

/-- A field with its length in front, `w` bits wide, `sps_avformat_ts.cpp:602-620` and `644-666`. -/
def counted (flag unused w : Nat) (s : PesSt) (k : BProg (Err × PesSt)) : BProg (Err × PesSt) :=
  if flag ≠ 0 then
    .acquire 1 fun e => if e ≠ Err.SUCCESS then .ret (e, s) else
    .bits unused fun _ => .bits w fun n =>
    .acquire n fun e => if e ≠ Err.SUCCESS then .ret (e, s) else .skip n k
  else k

/-- The extension, `sps_avformat_ts.cpp:578-667`. -/
def extension (flag : Nat) (s : PesSt) (k : BProg (Err × PesSt)) : BProg (Err × PesSt) :=
  if flag ≠ 0 then
    .acquire 1 fun e => if e ≠ Err.SUCCESS then .ret (e, s) else
    .bits 1 fun priv => .bits 1 fun pack => .bits 1 fun seq => .bits 1 fun std => .bits 3 fun _ => .bits 1 fun ext2 =>
    optional priv 16 s <| counted pack 0 8 s <| optional seq 2 s <| optional std 2 s <| counted ext2 1 7 s k
  else k

/-- After the optional fields, `sps_avformat_ts.cpp:669-684`: the rest of the header is skipped, then the payload is taken.
`p0` is the position after `pes_header_data_length`. -/
def finish (s : PesSt) (hlen : Nat) (p0 : Int) : BProg (Err × PesSt) :=
  .pos fun p1 =>
    let stuff : Int := hlen - (p1 - p0)
    .acquire ((stuff % 2 ^ 32).toNat) fun e => if e ≠ Err.SUCCESS then .ret (e, s) else
    .skip (u64 stuff) (dump s)

/-- The time stamps, `sps_avformat_ts.cpp:454-507`, then `k`. -/
def stamps (flags : Nat) (s : PesSt) (k : PesSt → BProg (Err × PesSt)) : BProg (Err × PesSt) := do
  let s := { s with pts := -1, dts := -1 }
  if flags &&& 2 > 0 then
    let e ← acq 5
    if e ≠ Err.SUCCESS then return (e, s)
    else
      let t ← stamp
      let s := { s with pts := t, dts := t }
      if flags = 3 then
        let e ← acq 5
        if e ≠ Err.SUCCESS then return (e, s)
        else
          let t ← stamp
          k { s with dts := t }
      else k s
  else k s

/-- The header of a unit with time stamps, `sps_avformat_ts.cpp:434-684`. -/
def header (s : PesSt) : BProg (Err × PesSt) :=
  .bits 2 fun _ => .bits 2 fun _ => .bits 1 fun _ => .bits 1 fun _ => .bits 1 fun _ => .bits 1 fun _ =>
  .bits 2 fun ptsDts => .bits 1 fun escr => .bits 1 fun rate => .bits 1 fun trick => .bits 1 fun copy => .bits 1 fun crc =>
  .bits 1 fun ext => .bits 8 fun hlen => .pos fun p0 =>
  stamps ptsDts s fun s =>
    optional escr 6 s <| optional rate 3 s <| optional trick 1 s <| optional copy 1 s <| optional crc 2 s <|
      extension ext s <| finish s hlen p0

/-- The stream ids without such a header, `sps_avformat_ts.cpp:429-432, 728-731`. -/
def plainIds : List Nat := [0xbc, 0xbf, 0xf0, 0xf1, 0xff, 0xf2, 0xf8]

/-- A unit start after the flush, `sps_avformat_ts.cpp:407-738`. -/
def start (s : PesSt) : BProg (Err × PesSt) := do
  let pre ← rd 24
  let id ← rd 8
  let len ← rd 16
  let s := s.init len
  if pre ≠ 1 then return (Err.ERROR_TS_PACKET_DECODE, s)
  else if id = 0xbe then
    let n ← rdSize
    skp n
    return (Err.SUCCESS, s)
  else if id ∈ plainIds then dump s
  else header s

end PesSt

/-- The program of a pid, `sps_avformat_ts.hpp:100-460`. -/
inductive TsProgram
  | pat
  | sdt
  | pmt
  | pes (s : PesSt)
deriving DecidableEq, Repr

/-- `TsProgramType`, `sps_avformat_ts.hpp:90-96`, as the constructors set it (the SDT program leaves it unknown). -/
def TsProgram.type : TsProgram → Nat
  | .sdt => 0
  | .pes _ => 1
  | .pat => 2
  | .pmt => 3

/-- `TsProgram::is_section`, `sps_avformat_ts.cpp:54-58`. -/
def TsProgram.isSection (p : TsProgram) : Bool := p.type == 2 || p.type == 3 || p.type == 4

/-- `IPesHandler` and `ITsPacketHandler`, `sps_avformat_ts.hpp:462-472`, as functions on a state; `none` is undefined
behaviour in the handler. -/
structure TsHandler (σ : Type) where
  onPes : PesDone → σ → Option (Err × σ)
  onPkt : List UInt8 → Nat → Nat → σ → Option (Err × σ)

/-- `TsContext`, `sps_avformat_ts.hpp:474-492`. -/
structure TsCtx where
  progs : Assoc Nat TsProgram
deriving DecidableEq, Repr

namespace TsCtx
open BProg

variable {σ : Type}

/-- `TsContext::TsContext`, `sps_avformat_ts.cpp:741-748`. -/
def create : TsCtx := { progs := (Assoc.insert [] 0 .pat : Assoc Nat TsProgram).insert 0x11 .sdt }

/-- `TsContext::add_program`, `sps_avformat_ts.cpp:791-800`. -/
def add (c : TsCtx) (pid : Nat) (p : TsProgram) : TsCtx := { progs := c.progs.insert pid p }

/-- The programs a PAT announces, `sps_avformat_ts.cpp:147-152`. -/
def addPmts (c : TsCtx) : List Nat → TsCtx
  | [] => c
  | pid :: ps => (c.add pid .pmt).addPmts ps

/-- The streams a PMT announces, `sps_avformat_ts.cpp:236-255`. -/
def addStreams (c : TsCtx) : List (Nat × Nat) → TsCtx
  | [] => c
  | (ty, pid) :: es =>
    if ty = 0x0f ∨ ty = 0x1b ∨ ty = 0x24 then
      match c.progs.find pid with
      | none => (c.add pid (.pes (.create ty))).addStreams es
      | some _ => c.addStreams es
    else c.addStreams es

/-- `TsPesProgram::decode`, `sps_avformat_ts.cpp:373-739`, with the flush (`273-279`, `342-360`). Returns the program state. -/
def decodePes (h : TsHandler σ) (pid : Nat) (hd : TsHeader) (s : PesSt) (rd : BitCtx) (st : σ) : Option (Err × PesSt × σ) :=
  if hd.pusi = 0 ∧ s.buf = none then some (Err.ERROR_TS_PACKET_DECODE, s, st)
  else if hd.cc ≠ (s.cc + 1) &&& 0x0f then some (Err.ERROR_TS_PACKET_CC_CONTINUE, s, st)
  else
    let s := { s with cc := hd.cc }
    if hd.pusi = 0 then ((s.dump).run rd).map fun ((e, s), _) => (e, s, st)
    else if rd.acquire 9 ≠ Err.SUCCESS then some (rd.acquire 9, s, st)
    else
      match s.buf with
      | none => ((s.start).run rd).map fun ((e, s), _) => (e, s, st)
      | some d => do
        let (e, st) ← h.onPes (s.done pid d) st
        if e ≠ Err.SUCCESS then return (e, s.reset, st)
        else (((s.reset).start).run rd).map fun ((e, s), _) => (e, s, st)

/-- `program->decode(&pkt, rd)`, `sps_avformat_ts.cpp:771`. -/
def decodeProgram (h : TsHandler σ) (c : TsCtx) (hd : TsHeader) (p : TsProgram) (rd : BitCtx) (st : σ) : Option (Err × TsCtx × σ) :=
  match p with
  | .pat => ((Ts.psi [] hd.pusi Ts.patBody).run rd).map fun ((e, ps), _) => (e, c.addPmts ps, st)
  | .pmt => ((Ts.psi [] hd.pusi Ts.pmtBody).run rd).map fun ((e, es), _) => (e, c.addStreams es, st)
  | .sdt => ((Ts.psi () hd.pusi Ts.sdtBody).run rd).map fun ((e, _), _) => (e, c, st)
  | .pes s => (decodePes h hd.pid hd s rd st).map fun (e, s, st) => (e, c.add hd.pid (.pes s), st)

/-- `TsContext::decode`, `sps_avformat_ts.cpp:750-784`, on the `p.length` bytes at the pointer. -/
def decode (h : TsHandler σ) (c : TsCtx) (st : σ) (p : List UInt8) : Option (Err × TsCtx × σ) := do
  let ((e, hd), rd) ← Ts.packet.run (BitCtx.init p)
  if e ≠ Err.SUCCESS then return (e, c, st)
  else match c.progs.find hd.pid with
    | none => return (e, c, st)
    | some prog =>
      if hd.afc &&& 1 = 0 ∧ prog.isSection = false then return (e, c, st)
      else
        let (e, c, st) ← decodeProgram h c hd prog rd st
        if e ≠ Err.SUCCESS then return (e, c, st)
        else
          let (e, st) ← h.onPkt p prog.type hd.pusi st
          return (e, c, st)

/-- `TsDemuxer::decode_packet`, `sps_avformat_tsdec.cpp:101-121`, on any buffer. Each pass takes 188 bytes. -/
def decodeAll (h : TsHandler σ) : (fuel : Nat) → TsCtx → σ → List UInt8 → Option (Err × TsCtx × σ)
  | 0, c, st, _ => some (Err.SUCCESS, c, st)
  | fuel + 1, c, st, p =>
    if p.length = 0 then some (Err.SUCCESS, c, st)
    else if p.length < 188 then some (Err.ERROR_TS_PACKET_SIZE, c, st)
    else do
      let (e, c, st) ← decode h c st (p.take 188)
      if e ≠ Err.SUCCESS then return (e, c, st) else decodeAll h fuel c st (p.drop 188)

end TsCtx

namespace TsDemuxer
variable {β : Type}

/-- The reader of `TsDemuxer::TsDemuxer`, `sps_avformat_tsdec.cpp:52-59`: a buffer of 188 bytes that is not rewound. -/
def reader (mem0 : List UInt8) (io : Io) : Reader := { buf := AVBuf.ofCap mem0 false, io := some io }

/-- `TsDemuxer::read_packet`, `sps_avformat_tsdec.cpp:65-91`. The packets that wait to be returned (`encoder_pkts`) are part of
the state of the handlers, which fill them; `pop` (`123-131`) takes the first. One unit of fuel per pass. -/
def readPacket (h : TsHandler σ) (pop : σ → Option (β × σ)) : (fuel : Nat) → Reader → TsCtx → σ →
    Option (Err × Option β × Reader × TsCtx × σ)
  | 0, _, _, _ => none
  | fuel + 1, r, c, st =>
    match pop st with
    | some (b, st) => some (Err.SUCCESS, some b, r, c, st)
    | none => do
      let (e, r) ← r.acquire 188
      if e ≠ Err.SUCCESS then return (e, none, r, c, st)
      else
        let (p, _) ← r.bytes 188
        let (e, c, st) ← TsCtx.decodeAll h 189 c st p
        if e ≠ Err.SUCCESS then return (e, none, r, c, st)
        else readPacket h pop fuel { r with buf := r.buf.clear } c st

/-- A caller that reads up to `n` packets and stops at the first error (`Stream` handlers do), with what it got. -/
def session (h : TsHandler σ) (pop : σ → Option (β × σ)) (fuel : Nat) : (n : Nat) → Reader → TsCtx → σ → Option (Err × List β × TsCtx × σ)
  | 0, _, c, st => some (Err.SUCCESS, [], c, st)
  | n + 1, r, c, st => do
    let (e, b, r, c, st) ← readPacket h pop fuel r c st
    if e ≠ Err.SUCCESS then return (e, [], c, st)
    else
      let (e, bs, c, st) ← session h pop fuel n r c st
      return (e, b.toList ++ bs, c, st)

end TsDemuxer

/-- What a codec parser is given. -/
inductive CodecInput
  | nothing
  | bytes (d : List UInt8)
  | uninitialised            -- more bytes than were stored in the buffer
deriving DecidableEq, Repr

/-- `TsDemuxer::on_pes_complete`, `on_h264` and `on_aac`, `sps_avformat_tsdec.cpp:133-197`: the pointer and length handed to
`encode_avc`. -/
def PesDone.codecInput (d : PesDone) : CodecInput :=
  if d.streamType = 0x1b then if d.len ≤ d.data.length then .bytes (d.data.take d.len) else .uninitialised
  else if d.streamType = 0x0f then .bytes d.data
  else .nothing

end Sps
