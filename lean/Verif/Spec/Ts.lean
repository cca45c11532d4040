import Verif.Spec.BProg
import Verif.Model.Ts
/-!
# Transport streams (ISO/IEC 13818-1)

The syntax tables of the standard, as lists of `(value, width)` fields, and what they announce.
-/
namespace Spec.Ts
open Sps

/-- Table 2-2, the fixed header of a packet: the fields at their bit offsets. -/
def header (p : List UInt8) : TsHeader where
  tei := field p 8 1
  pusi := field p 9 1
  prio := field p 10 1
  pid := field p 11 13
  scrambling := field p 24 2
  afc := field p 26 2
  cc := field p 28 4

/-- Bytes of the fixed-size optional fields of an adaptation field (Table 2-6): flags, PCR, OPCR, splice countdown. -/
def afBase (p : List UInt8) : Nat := 1 + 6 * field p 43 1 + 6 * field p 44 1 + field p 45 1

/-- Table 2-6: the adaptation field has room for the fields its flags announce, and lies in the packet. The first field with
a length of its own (private data or the extension) is checked, what follows it is not. -/
def afOk (p : List UInt8) : Prop :=
  field p 32 8 ≤ 183 ∧ (field p 32 8 = 0 ∨ (afBase p ≤ field p 32 8 ∧
    (field p 46 1 ≠ 0 ∨ field p 47 1 ≠ 0 → afBase p + 1 + field p (8 * (5 + afBase p)) 8 ≤ field p 32 8)))

/-- A well-formed packet: 188 bytes, the sync byte, and an adaptation field (if any) that fits. -/
structure packetOk (p : List UInt8) : Prop where
  size : p.length = 188
  sync : field p 0 8 = 0x47
  af : 2 ≤ field p 26 2 → afOk p

instance (p : List UInt8) : Decidable (afOk p) := by unfold afOk; infer_instance

/-- The number of bytes before the payload. -/
def payloadOff (p : List UInt8) : Nat := if 2 ≤ field p 26 2 then 5 + field p 32 8 else 4

/-- The payload bytes. -/
def payload (p : List UInt8) : List UInt8 := p.drop (payloadOff p)

/-- The packet carries a payload. -/
def hasPayload (p : List UInt8) : Prop := field p 26 2 % 2 = 1

instance (p : List UInt8) : Decidable (hasPayload p) := by unfold hasPayload; infer_instance

/-! ## Sections -/

/-- Table 2-30 up to the program loop: the bits of a PAT section header (pointer field first) with `n` bytes of programs. -/
def patHead (tsid version n : Nat) : List Bool :=
  fieldBits [(0, 8), (0, 8), (1, 1), (0, 1), (3, 2), (9 + n, 12), (tsid, 16), (3, 2), (version, 5), (1, 1), (0, 8), (0, 8)]

/-- Table 2-30, one program: its number and its pid. -/
def patEntryBits (e : Nat × Nat) : List Bool := fieldBits [(e.1, 16), (7, 3), (e.2, 13)]

/-- The bits of a PAT in a payload: each entry is a program number and a pid. -/
def patBits (tsid version : Nat) (entries : List (Nat × Nat)) (crc : Nat) : List Bool :=
  patHead tsid version (4 * entries.length) ++ entries.flatMap patEntryBits ++
    fieldBits [(crc, 32)]

/-- An entry of a PMT: stream type, pid and descriptors. -/
structure Entry where
  ty : Nat
  pid : Nat
  desc : List UInt8

/-- The bytes of an entry. -/
def Entry.size (e : Entry) : Nat := 5 + e.desc.length

/-- The values fit their fields. -/
def Entry.ok (e : Entry) : Prop := e.ty < 256 ∧ e.pid < 2 ^ 13 ∧ e.desc.length < 2 ^ 12

/-- Table 2-33, one entry. -/
def Entry.bits (e : Entry) : List Bool :=
  fieldBits [(e.ty, 8), (7, 3), (e.pid, 13), (15, 4), (e.desc.length, 12)] ++ bitsOf e.desc

/-- Table 2-33: the bits of a PMT in a payload (pointer field first), with the program descriptors `info`. -/
def pmtBits (number version pcr : Nat) (info : List UInt8) (entries : List Entry) (crc : Nat) : List Bool :=
  fieldBits [(0, 8), (2, 8), (1, 1), (0, 1), (3, 2), (13 + info.length + (entries.map Entry.size).sum, 12), (number, 16),
    (3, 2), (version, 5), (1, 1), (0, 8), (0, 8), (7, 3), (pcr, 13), (15, 4), (0, 2), (info.length, 10)] ++ bitsOf info ++
    (entries.flatMap Entry.bits) ++ fieldBits [(crc, 32)]

/-- The stream types the server knows: AAC, H.264 and H.265. -/
def supported (ty : Nat) : Prop := ty = 0x0f ∨ ty = 0x1b ∨ ty = 0x24

instance (ty : Nat) : Decidable (supported ty) := by unfold supported; infer_instance

/-! Announcements of arbitrary payloads, well-formed or not: what stands at the places of the entries. -/

/-- The pids listed by a payload read as a PAT section; `u` is 1 if there is a pointer field. -/
def patLists (q : List UInt8) (u pid : Nat) : Prop :=
  ∃ i, 4 * i + 9 < field q (8 * u + 12) 12 ∧ pid = field q (8 * (u + 8) + 32 * i + 19) 13

/-- The entries found from bit offset `off` with `left` bytes of the section to go. -/
inductive EntryAt (q : List UInt8) : (off : Nat) → (left : Int) → (ty pid : Nat) → Prop
  | here {off left} : 0 < left → EntryAt q off left (field q off 8) (field q (off + 11) 13)
  | next {off left ty pid} : 0 < left →
      EntryAt q (off + 40 + 8 * field q (off + 28) 12) (left - (5 + field q (off + 28) 12)) ty pid → EntryAt q off left ty pid

/-- The streams listed by a payload read as a PMT section. -/
def pmtLists (q : List UInt8) (u ty pid : Nat) : Prop :=
  EntryAt q (8 * (u + 12) + 8 * field q (8 * (u + 8) + 22) 10)
    ((field q (8 * u + 12) 12 : Int) - 13 - field q (8 * (u + 8) + 22) 10) ty pid

/-- What a pid is known for. -/
inductive Kind
  | pat
  | sdt
  | pmt
  | stream (ty : Nat)

/-- A pid is known for something after a history of packets, oldest first. -/
inductive Announced : List (List UInt8) → (pid : Nat) → Kind → Prop
  | pat {hist} : Announced hist 0 .pat
  | sdt {hist} : Announced hist 0x11 .sdt
  | program {hist p pid} : Announced hist (header p).pid .pat → patLists (payload p) (header p).pusi pid →
      Announced (hist ++ [p]) pid .pmt
  | stream {hist p ty pid} : Announced hist (header p).pid .pmt → pmtLists (payload p) (header p).pusi ty pid →
      supported ty → Announced (hist ++ [p]) pid (.stream ty)
  | earlier {hist p pid k} : Announced hist pid k → Announced (hist ++ [p]) pid k

/-- What the program of a pid stands for. -/
def kindOf : TsProgram → Kind
  | .pat => .pat
  | .sdt => .sdt
  | .pmt => .pmt
  | .pes s => .stream s.streamType

/-! ## Packetized elementary streams -/

/-- A 33 bit time stamp, Table 2-21 (`'0010' PTS[32..30] marker_bit PTS[29..15] marker_bit PTS[14..0] marker_bit`). -/
def stampBits (tag v : Nat) : List Bool :=
  fieldBits [(tag, 4), (v >>> 30, 3), (1, 1), (v >>> 15, 15), (1, 1), (v, 15), (1, 1)]

/-- The extension of a PES header. -/
structure PesExt where
  priv : Option (List UInt8)
  pack : Option (List UInt8)
  seq : Option (List UInt8)
  std : Option (List UInt8)
  ext2 : Option (List UInt8)

/-- The header of a PES packet, Table 2-21. -/
structure PesHead where
  sid : Nat
  len : Nat
  scrambling : Nat
  priority : Nat
  alignment : Nat
  copyright : Nat
  original : Nat
  pts : Option Nat
  dts : Option Nat
  escr : Option (List UInt8)
  rate : Option (List UInt8)
  trick : Option (List UInt8)
  copy : Option (List UInt8)
  crc : Option (List UInt8)
  ext : Option PesExt
  stuffing : List UInt8

/-- An optional field has its fixed size. -/
def sized (n : Nat) (x : Option (List UInt8)) : Prop := ∀ d, x = some d → d.length = n
/-- An optional field has at most a size. -/
def below (n : Nat) (x : Option (List UInt8)) : Prop := ∀ d, x = some d → d.length < n
/-- The flag of an optional field. -/
def flagOf {α : Type} (x : Option α) : Nat := if x.isSome then 1 else 0
/-- The bits of an optional field. -/
def optBits (x : Option (List UInt8)) : List Bool := bitsOf (x.getD [])
/-- The bits of an optional field with its length in `unused + w` bits before it. -/
def countedBits (unused w : Nat) (x : Option (List UInt8)) : List Bool :=
  match x with
  | none => []
  | some d => fieldBits [(1, unused), (d.length, w)] ++ bitsOf d
/-- The bytes of an optional field with a byte for its length. -/
def countedSize (x : Option (List UInt8)) : Nat :=
  match x with
  | none => 0
  | some d => 1 + d.length
/-- The bytes of an optional field. -/
def optSize (x : Option (List UInt8)) : Nat := (x.getD []).length

/-- The bits of an extension. -/
def PesExt.bits (x : PesExt) : List Bool :=
  fieldBits [(flagOf x.priv, 1), (flagOf x.pack, 1), (flagOf x.seq, 1), (flagOf x.std, 1), (7, 3), (flagOf x.ext2, 1)] ++
    (optBits x.priv ++ (countedBits 0 8 x.pack ++ (optBits x.seq ++ (optBits x.std ++ countedBits 1 7 x.ext2))))
/-- The bytes of an extension. -/
def PesExt.size (x : PesExt) : Nat :=
  1 + optSize x.priv + countedSize x.pack + optSize x.seq + optSize x.std + countedSize x.ext2
/-- Sizes of the fields of an extension. -/
def PesExt.ok (x : PesExt) : Prop := sized 16 x.priv ∧ below 256 x.pack ∧ sized 2 x.seq ∧ sized 2 x.std ∧ below 128 x.ext2

/-- The time stamps of a header: none, `'10'` PTS, `'11'` PTS and DTS. -/
def PesHead.stamps (h : PesHead) : List Bool :=
  match h.pts, h.dts with
  | none, _ => []
  | some t, none => stampBits 2 t
  | some t, some u => stampBits 3 t ++ stampBits 1 u
/-- `PTS_DTS_flags`. -/
def PesHead.stampFlags (h : PesHead) : Nat :=
  match h.pts, h.dts with
  | none, _ => 0
  | some _, none => 2
  | some _, some _ => 3
/-- The bytes of the time stamps. -/
def PesHead.stampSize (h : PesHead) : Nat :=
  match h.pts, h.dts with
  | none, _ => 0
  | some _, none => 5
  | some _, some _ => 10

/-- `PES_header_data_length`. -/
def PesHead.dataLength (h : PesHead) : Nat :=
  h.stampSize + optSize h.escr + optSize h.rate + optSize h.trick + optSize h.copy + optSize h.crc +
    (h.ext.map PesExt.size).getD 0 + h.stuffing.length

/-- The bits of a header. -/
def PesHead.bits (h : PesHead) : List Bool :=
  fieldBits [(1, 24), (h.sid, 8), (h.len, 16), (2, 2), (h.scrambling, 2), (h.priority, 1), (h.alignment, 1),
    (h.copyright, 1), (h.original, 1), (h.stampFlags, 2), (flagOf h.escr, 1), (flagOf h.rate, 1), (flagOf h.trick, 1), (flagOf h.copy, 1), (flagOf h.crc, 1),
    (flagOf h.ext, 1), (h.dataLength, 8)] ++
    (h.stamps ++ (optBits h.escr ++ (optBits h.rate ++ (optBits h.trick ++ (optBits h.copy ++ (optBits h.crc ++
      ((h.ext.map PesExt.bits).getD [] ++ bitsOf h.stuffing)))))))

/-- The stream ids without the optional header, and padding. -/
def otherIds : List Nat := [0xbc, 0xbe, 0xbf, 0xf0, 0xf1, 0xff, 0xf2, 0xf8]

/-- The header is one of the standard: values fit their fields and the stream id is one of a media stream. -/
structure PesHead.ok (h : PesHead) : Prop where
  sid : h.sid < 256
  media : h.sid ∉ otherIds
  len : h.len < 2 ^ 16
  pts : ∀ t, h.pts = some t → t < 2 ^ 33
  dts : ∀ t, h.dts = some t → t < 2 ^ 33
  escr : sized 6 h.escr
  rate : sized 3 h.rate
  trick : sized 1 h.trick
  copy : sized 1 h.copy
  crc : sized 2 h.crc
  ext : ∀ x, h.ext = some x → x.ok
  room : h.dataLength < 256

/-- The presentation time of a unit, -1 if there is none. -/
def PesHead.ptsOf (h : PesHead) : Int := match h.pts with | none => -1 | some t => t
/-- The decode time of a unit: the presentation time if it has none of its own. -/
def PesHead.dtsOf (h : PesHead) : Int :=
  match h.pts, h.dts with
  | none, _ => -1
  | some t, none => t
  | some _, some t => t

/-- What a packet of an elementary stream carries: the start of a unit or more of it. -/
inductive Piece
  | start (h : PesHead) (d : List UInt8)
  | cont (d : List UInt8)

/-- The packet belongs to `pid`, has continuity counter `cc` and carries the piece. -/
def carries (p : List UInt8) (pid cc : Nat) : Piece → Prop
  | .start h d => packetOk p ∧ hasPayload p ∧ (header p).pid = pid ∧ (header p).cc = cc ∧ (header p).pusi = 1 ∧ h.ok ∧
      bitsOf (payload p) = h.bits ++ bitsOf d
  | .cont d => packetOk p ∧ hasPayload p ∧ (header p).pid = pid ∧ (header p).cc = cc ∧ (header p).pusi = 0 ∧ payload p = d

/-- A unit that is not complete yet: its header and the data so far. -/
abbrev OpenUnit := Option (PesHead × List UInt8)

/-- The unit after a piece. -/
def after : OpenUnit → Piece → OpenUnit
  | _, .start h d => some (h, d)
  | some (h, x), .cont d => some (h, x ++ d)
  | none, .cont _ => none

/-- The units that pieces complete, in order: a unit is complete when the next one starts. -/
def completed : OpenUnit → List Piece → List (PesHead × List UInt8)
  | _, [] => []
  | u, .start h d :: r => u.toList ++ completed (some (h, d)) r
  | u, .cont d :: r => completed (after u (.cont d)) r

/-- The space for the data of a unit: the announced length, or a mebibyte. -/
def room (h : PesHead) : Nat := if h.len > 0 then h.len else 1024 * 1024

/-- A unit does not exceed the space for it. -/
def unitFits : OpenUnit → Prop
  | none => False
  | some (h, x) => x.length ≤ room h

/-- What the codec layer is told about a unit of the stream. -/
def report (pid ty : Nat) (u : PesHead × List UInt8) : PesDone :=
  { pid := pid, streamType := ty, pts := u.1.ptsOf, dts := u.1.dtsOf, data := u.2,
    len := if u.1.len = 0 then u.2.length % 2 ^ 16 else u.1.len }

/-! ## Histories -/

variable {σ : Type}

/-- Decode packets one after the other until one fails. -/
def feed (h : TsHandler σ) : TsCtx → σ → List (List UInt8) → Option (Err × TsCtx × σ)
  | c, st, [] => some (Err.SUCCESS, c, st)
  | c, st, p :: ps => do
    let (e, c, st) ← TsCtx.decode h c st p
    if e ≠ Err.SUCCESS then return (e, c, st) else feed h c st ps

/-- Decode packets one after the other, also after failures (the return codes are not looked at). -/
def replay (h : TsHandler σ) : TsCtx → σ → List (List UInt8) → Option (TsCtx × σ)
  | c, st, [] => some (c, st)
  | c, st, p :: ps => (TsCtx.decode h c st p).bind fun x => replay h x.2.1 x.2.2 ps

/-- The handler with a record of the units handed over. -/
def recorder (h : TsHandler σ) : TsHandler (List PesDone × σ) where
  onPes d s := (h.onPes d s.2).map fun (e, st) => (e, s.1 ++ [d], st)
  onPkt p ty u s := (h.onPkt p ty u s.2).map fun (e, st) => (e, s.1, st)

/-- A history of packets for `pid` after counter `cc` and unit `u`: packets of the stream with the counters in sequence and the
data within the space for it, and packets of other pids that do not announce `pid` as a program. -/
def history (pid : Nat) : (cc : Nat) → (u : OpenUnit) → List (List UInt8 × Option Piece) → Prop
  | _, _, [] => True
  | cc, u, (p, some x) :: r =>
    carries p pid ((cc + 1) % 16) x ∧ unitFits (after u x) ∧ history pid ((cc + 1) % 16) (after u x) r
  | cc, u, (p, none) :: r =>
    p.length = 188 ∧ (header p).pid ≠ pid ∧ ((header p).pid = 0 → ¬ patLists (payload p) (header p).pusi pid) ∧ history pid cc u r

/-- The pieces of the stream in a history. -/
def pieces (l : List (List UInt8 × Option Piece)) : List Piece := l.filterMap (·.2)

/-- The 188-byte packets of a buffer. -/
def chunks : (n : Nat) → List UInt8 → List (List UInt8)
  | 0, _ => []
  | n + 1, p => p.take 188 :: chunks n (p.drop 188)

/-- What a demuxer returns next from the byte string `s` that ends with `closed`: a packet that waits is returned; otherwise
the next 188 bytes are decoded. -/
def readStream {β : Type} (h : TsHandler σ) (pop : σ → Option (β × σ)) (closed : Err) :
    (fuel : Nat) → (s : List UInt8) → TsCtx → σ → Option (Err × Option β × List UInt8 × TsCtx × σ)
  | 0, _, _, _ => none
  | fuel + 1, s, c, st =>
    match pop st with
    | some (b, st) => some (Err.SUCCESS, some b, s, c, st)
    | none =>
      if s.length < 188 then some (closed, none, s, c, st)
      else do
        let (e, c, st) ← TsCtx.decode h c st (s.take 188)
        if e ≠ Err.SUCCESS then return (e, none, s, c, st)
        else readStream h pop closed fuel (s.drop 188) c st

end Spec.Ts
