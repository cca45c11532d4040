import Verif.Lemmas.TsRead
import Verif.Lemmas.TsSafe
/-!
# Transport streams (C24-C31, C64, C65)

`TsCtx.decode h c st p` decodes the packet `p` in the context `c` with the handlers `h` (the codec layer and the packet
cache) on their state `st`. `none` is a read outside the packet.
-/
namespace Sps.TsProps
open Spec BProg TsCtx

variable {σ : Type}

/-- Handlers that accept everything. -/
def quiet : TsHandler Unit where
  onPes _ st := some (Err.SUCCESS, st)
  onPkt _ _ _ st := some (Err.SUCCESS, st)

/-! Packets for the examples. -/

/-- A PAT with one program: its map is in pid 0x1000. -/
def patPkt : List UInt8 :=
  [0x47, 0x40, 0x00, 0x10, 0x00, 0x00, 0xb0, 0x0d, 0x00, 0x01, 0xc1, 0x00, 0x00, 0x00, 0x01, 0xf0, 0x00, 0x2a, 0xb1, 0x04, 0xb2] ++
    List.replicate 167 0xff

/-- A PMT with one H.264 stream in pid 0x100. -/
def pmtPkt : List UInt8 :=
  [0x47, 0x50, 0x00, 0x10, 0x00, 0x02, 0xb0, 0x12, 0x00, 0x01, 0xc1, 0x00, 0x00, 0xe1, 0x00, 0xf0, 0x00, 0x1b, 0xe1, 0x00, 0xf0, 0x00,
    0x15, 0xbd, 0x4d, 0x56] ++ List.replicate 162 0xff

/-- The start of a unit with presentation time 0 in pid 0x100, then 170 bytes of data. -/
def startPkt (cc x : UInt8) : List UInt8 :=
  [0x47, 0x41, 0x00, 0x10 ||| cc, 0, 0, 1, 0xe0, 0, 0, 0x80, 0x80, 0x05, 0x21, 0x00, 0x01, 0x00, 0x01] ++ List.replicate 170 x

/-- More of it: 100 bytes after an adaptation field. -/
def contPkt (cc x : UInt8) : List UInt8 := [0x47, 0x01, 0x00, 0x30 ||| cc, 83, 0] ++ List.replicate 82 0xff ++ List.replicate 100 x

/-- The header in `startPkt`. -/
def head0 : Ts.PesHead :=
  { sid := 0xe0, len := 0, scrambling := 0, priority := 0, alignment := 0, copyright := 0, original := 0, pts := some 0,
    dts := none, escr := none, rate := none, trick := none, copy := none, crc := none, ext := none, stuffing := [] }

theorem head0_ok : head0.ok :=
  ⟨by decide +kernel, by decide +kernel, by decide +kernel, by simp [head0], by simp [head0], by simp [head0, Ts.sized], by simp [head0, Ts.sized],
    by simp [head0, Ts.sized], by simp [head0, Ts.sized], by simp [head0, Ts.sized], by simp [head0], by decide +kernel⟩

theorem pat_ok : Ts.packetOk patPkt := ⟨by decide +kernel, by decide +kernel, fun h => absurd h (by decide +kernel)⟩
theorem pmt_ok : Ts.packetOk pmtPkt := ⟨by decide +kernel, by decide +kernel, fun h => absurd h (by decide +kernel)⟩

theorem start_carries (x : UInt8) (hx : x = 1 ∨ x = 3) (cc : UInt8) (hc : cc = 0 ∨ cc = 2) :
    Ts.carries (startPkt cc x) 0x100 cc.toNat (.start head0 (List.replicate 170 x)) := by
  rcases hx with rfl | rfl <;> rcases hc with rfl | rfl <;>
    exact ⟨⟨by decide +kernel, by decide +kernel, fun h => absurd h (by decide +kernel)⟩, by decide +kernel, by decide +kernel,
      by decide +kernel, by decide +kernel, head0_ok, by decide +kernel⟩

theorem cont_carries : Ts.carries (contPkt 1 2) 0x100 1 (.cont (List.replicate 100 2)) :=
  ⟨⟨by decide +kernel, by decide +kernel, fun _ => by decide +kernel⟩, by decide +kernel, by decide +kernel, by decide +kernel,
    by decide +kernel, by decide +kernel⟩

/-! ## C24: packet headers -/

/-- C24. Whatever the rest of the packet, when at least 188 bytes beginning with 0x47 are decoded, the header is the one of
the standard. -/
theorem C24_fields (p : List UInt8) (hp : 188 ≤ p.length) (hl : p.length < 2 ^ 32) (hs : field p 0 8 = 0x47) {e : Err}
    {hd : TsHeader} {rd : BitCtx} (h : Ts.packet.run (BitCtx.init p) = some ((e, hd), rd)) : hd = Spec.Ts.header p := by
  obtain ⟨o, s, h1, _⟩ := of_run (At.init p hl) h
  exact Ts.packet_fields p hp hs h1

/-- C24. A well-formed packet is accepted, and reading goes on at its payload: the reader stands at bit `8 * payloadOff p`
and what it reads next are the bits of the payload. -/
theorem C24_accepted (p : List UInt8) (hp : Spec.Ts.packetOk p) :
    ∃ rd, Ts.packet.run (BitCtx.init p) = some ((Err.SUCCESS, Spec.Ts.header p), rd) ∧
      8 * rd.pos - rd.remBits = 8 * Spec.Ts.payloadOff p ∧
      (bitsOf rd.buf).drop (8 * Spec.Ts.payloadOff p) = bitsOf (Spec.Ts.payload p) := by
  obtain ⟨rd, h1, h2⟩ := run_of (At.init p (by have := hp.size; omega)) (Ts.packet_ok p hp)
  exact ⟨rd, h1, h2.at_, h2.rest⟩

/-- C24. Fewer than 188 bytes, or another first byte, are rejected without any effect. -/
theorem C24_rejected (h : TsHandler σ) (c : TsCtx) (st : σ) (p : List UInt8) (hl : p.length < 2 ^ 32) :
    (p.length < 188 → decode h c st p = some (Err.ERROR_TS_PACKET_SIZE, c, st)) ∧
    (188 ≤ p.length → field p 0 8 ≠ 0x47 → decode h c st p = some (Err.ERROR_TS_PACKET_DECODE, c, st)) := by
  constructor
  · intro hp
    obtain ⟨rd, h1, _⟩ := run_of (At.init p hl) (Ts.packet_short p hp)
    unfold decode
    rw [h1]; rfl
  · intro hp hs
    obtain ⟨rd, h1, _⟩ := run_of (At.init p hl) (Ts.packet_sync p hp hs)
    unfold decode
    rw [h1]; rfl

example : ∃ rd, Ts.packet.run (BitCtx.init (contPkt 1 2)) =
    some ((Err.SUCCESS, { tei := 0, pusi := 0, prio := 0, pid := 0x100, scrambling := 0, afc := 3, cc := 1 }), rd) := by
  obtain ⟨rd, h, _⟩ := C24_accepted (contPkt 1 2) cont_carries.1
  have e : Spec.Ts.header (contPkt 1 2) = { tei := 0, pusi := 0, prio := 0, pid := 0x100, scrambling := 0, afc := 3, cc := 1 } := by
    decide +kernel
  exact ⟨rd, by rw [h, e]⟩

/-! ## C25: announced pids -/

/-- C25. A fresh context knows the pids of the PAT and of the SDT, and no other. -/
theorem C25_fresh (pid : Nat) :
    TsCtx.create.progs.find pid = if pid = 0 then some .pat else if pid = 0x11 then some .sdt else none := by
  unfold TsCtx.create
  rw [Assoc.find_insert, Assoc.find_insert, Assoc.find_nil]
  by_cases h0 : pid = 0
  · subst h0; rfl
  · simp [h0]

/-- C25. After any history of packets, accepted or not, every pid that is handled was announced: it is the one of the PAT or
of the SDT, or an earlier packet of a pid announced for PATs or PMTs lists it. -/
theorem C25_announced (h : TsHandler σ) (st : σ) (ps : List (List UInt8)) (hl : ∀ p ∈ ps, p.length = 188) {c : TsCtx} {st' : σ}
    (hr : Spec.Ts.replay h TsCtx.create st ps = some (c, st')) {pid : Nat} {prog : TsProgram} (hf : c.progs.find pid = some prog) :
    Spec.Ts.Announced ps pid (Spec.Ts.kindOf prog) := by
  have := replay_announced h ps [] _ st c st' hl ?_ hr pid prog hf
  · simpa using this
  intro pid prog hf
  rw [C25_fresh] at hf
  split at hf
  · rename_i h0; subst h0; cases hf; exact .pat
  · split at hf
    · rename_i h0; subst h0; cases hf; exact .sdt
    · cases hf

/-- C25. A packet of any other pid is ignored without error. -/
theorem C25_ignored (h : TsHandler σ) (c : TsCtx) (st : σ) (p : List UInt8) (hp : Spec.Ts.packetOk p)
    (hf : c.progs.find (Spec.Ts.header p).pid = none) : decode h c st p = some (Err.SUCCESS, c, st) :=
  decode_unknown h c st p hp hf

/-- The pid 0x100 is handled after the PAT and the PMT; on a fresh context its packets are ignored. -/
example : (Spec.Ts.replay quiet TsCtx.create () [patPkt, pmtPkt]).map (fun x => x.1.progs.find 0x100) =
    some (some (.pes (.create 0x1b))) := by decide +kernel

example : decode quiet TsCtx.create () (startPkt 0 1) = some (Err.SUCCESS, TsCtx.create, ()) :=
  C25_ignored _ _ _ _ (start_carries 1 (.inl rfl) 0 (.inl rfl)).1 (by decide +kernel)

/-! ## C26: the PAT -/

/-- C26, for sections within a packet directly after a pointer field of 0: the programs added are those that the section names.

Missing: sections that start later in the packet or go on in the next, and the network pid (the negations of C26). -/
theorem C26_pat_partial (h : TsHandler σ) (c : TsCtx) (st : σ) (p : List UInt8) (hp : Spec.Ts.packetOk p)
    (hk : c.progs.find (Spec.Ts.header p).pid = some .pat) (hu : (Spec.Ts.header p).pusi = 1)
    (tsid version crc : Nat) (entries : List (Nat × Nat)) (stuffing : List Bool) (hl : 9 + 4 * entries.length < 2 ^ 12)
    (he : ∀ e ∈ entries, e.2 < 2 ^ 13)
    (hb : bitsOf (Spec.Ts.payload p) = Spec.Ts.patBits tsid version entries crc ++ stuffing) :
    ∃ c', decode h c st p = (h.onPkt p 2 1 st).map (fun y => (y.1, c', y.2)) ∧
      ∀ pid, c'.progs.find pid = if pid ∈ entries.map (·.2) then some .pmt else c.progs.find pid := by
  obtain ⟨rd, ha, e⟩ := decode_ok h c st p hp hk (.inr rfl)
  refine ⟨c.addPmts (entries.map (·.2)), ?_, find_addPmts _ c⟩
  rw [e]
  simp only [decodeProgram]
  rw [hb] at ha
  obtain ⟨o, e2⟩ := Ts.pat_bits (8 * Spec.Ts.payloadOff p) tsid version crc entries stuffing hl he
  obtain ⟨rd2, h2, _⟩ := run_of ha e2
  rw [hu, h2]
  rfl

example : ∃ c', decode quiet TsCtx.create () patPkt = some (Err.SUCCESS, c', ()) ∧ c'.progs.find 0x1000 = some .pmt ∧
    c'.progs.find 0x1001 = none := by
  obtain ⟨c', h1, h2⟩ := C26_pat_partial quiet TsCtx.create () patPkt pat_ok (by decide +kernel) (by decide +kernel) 1 0 0x2ab104b2
    [(1, 0x1000)] (bitsOf (List.replicate 167 0xff)) (by decide +kernel) (by decide +kernel) (by decide +kernel)
  exact ⟨c', h1, by rw [h2]; decide +kernel, by rw [h2]; decide +kernel⟩

/-- A section that does not begin right after the pointer field (five bytes of another one come first). -/
def laterPat : List UInt8 :=
  [0x47, 0x40, 0x00, 0x10, 0x05, 1, 2, 3, 4, 5, 0x00, 0xb0, 0x0d, 0x00, 0x01, 0xc1, 0x00, 0x00, 0x00, 0x01, 0xf0, 0x00, 0x2a, 0xb1, 0x04, 0xb2] ++
    List.replicate 162 0xff

/-- C26 fails for sections that begin later in the packet: the pointer field is read and not followed. -/
theorem C26_negation_pointer : (decode quiet TsCtx.create () laterPat).map (fun x => x.2.1.progs.find 0x1000) ≠
    some (some .pmt) := by decide +kernel

/-- The first packet of a section with 50 programs. -/
def longPat : List UInt8 :=
  [0x47, 0x40, 0x00, 0x10, 0x00, 0x00, 0xb0, 0xd1, 0x00, 0x01, 0xc1, 0x00, 0x00] ++
    ((List.range 43).flatMap fun i => [0, UInt8.ofNat (i + 1), 0xf0, UInt8.ofNat i]) ++ [0, 44, 0xf0]

/-- C26 fails for sections of more than one packet: the first packet is rejected, and the programs in it are not added. -/
theorem C26_negation_long : longPat.length = 188 ∧
    decode quiet TsCtx.create () longPat = some (Err.ERROR_IO_NOT_ENOUGH, TsCtx.create, ()) := by decide +kernel

/-- A PAT with the network information table in pid 0x10 (program number 0). -/
def networkPat : List UInt8 :=
  [0x47, 0x40, 0x00, 0x10, 0x00, 0x00, 0xb0, 0x0d, 0x00, 0x01, 0xc1, 0x00, 0x00, 0x00, 0x00, 0xe0, 0x10, 0x2a, 0xb1, 0x04, 0xb2] ++
    List.replicate 167 0xff

/-- Program number 0 does not name a program map, but its pid is taken for one. -/
theorem C26_negation_network : (decode quiet TsCtx.create () networkPat).map (fun x => x.2.1.progs.find 0x10) =
    some (some .pmt) := by decide +kernel

/-! ## C27: the PMT -/

/-- C27, for sections within a packet directly after a pointer field of 0: the pids added are those of the entries with a
supported type whose pid was not known; the first entry of a pid counts.

Missing: sections that start later in the packet or go on in the next (the negation of C27). -/
theorem C27_pmt_partial (h : TsHandler σ) (c : TsCtx) (st : σ) (p : List UInt8) (hp : Spec.Ts.packetOk p)
    (hk : c.progs.find (Spec.Ts.header p).pid = some .pmt) (hu : (Spec.Ts.header p).pusi = 1)
    (number version pcr crc : Nat) (info : List UInt8) (entries : List Spec.Ts.Entry) (stuffing : List Bool) (hi : info.length < 2 ^ 10)
    (hl : 13 + info.length + (entries.map Spec.Ts.Entry.size).sum < 2 ^ 12) (he : ∀ e ∈ entries, e.ok)
    (hb : bitsOf (Spec.Ts.payload p) = Spec.Ts.pmtBits number version pcr info entries crc ++ stuffing) :
    ∃ c', decode h c st p = (h.onPkt p 3 1 st).map (fun y => (y.1, c', y.2)) ∧
      ∀ pid, c'.progs.find pid = match c.progs.find pid with
        | some prog => some prog
        | none => (entries.find? fun e => decide (Spec.Ts.supported e.ty) && e.pid == pid).map fun e => .pes (.create e.ty) := by
  obtain ⟨rd, ha, e⟩ := decode_ok h c st p hp hk (.inr rfl)
  refine ⟨c.addStreams (entries.map fun e => (e.ty, e.pid)), ?_, fun pid => ?_⟩
  · rw [e]
    simp only [decodeProgram]
    rw [hb] at ha
    obtain ⟨o, e2⟩ := Ts.pmt_bits (8 * Spec.Ts.payloadOff p) number version pcr crc info entries stuffing (by omega) hi hl he
    obtain ⟨rd2, h2, _⟩ := run_of ha e2
    rw [hu, h2]
    rfl
  · rw [find_addStreams]
    cases c.progs.find pid with
    | some x => rfl
    | none =>
      rw [Option.none_or, List.find?_map, Option.map_map]
      rfl

/-- A PMT with program descriptors, an MPEG audio stream (not supported) with a descriptor and two supported streams. -/
def richPmt : List UInt8 :=
  [0x47, 0x50, 0x00, 0x10, 0x00, 0x02, 0xb0, 0x22, 0x00, 0x01, 0xc1, 0x00, 0x00, 0xe1, 0x00, 0xf0, 0x03, 9, 1, 7,
    0x03, 0xe1, 0x01, 0xf0, 0x03, 0x0a, 1, 0, 0x1b, 0xe1, 0x00, 0xf0, 0x00, 0x0f, 0xe1, 0x02, 0xf0, 0x00, 0x15, 0xbd, 0x4d, 0x56] ++
    List.replicate 146 0xff

example : ∃ c', decode quiet (TsCtx.create.add 0x1000 .pmt) () richPmt = some (Err.SUCCESS, c', ()) ∧
    c'.progs.find 0x100 = some (.pes (.create 0x1b)) ∧ c'.progs.find 0x101 = none ∧ c'.progs.find 0x102 = some (.pes (.create 0x0f)) := by
  obtain ⟨c', h1, h2⟩ := C27_pmt_partial quiet (TsCtx.create.add 0x1000 .pmt) () richPmt
    ⟨by decide +kernel, by decide +kernel, fun h => absurd h (by decide +kernel)⟩ (by decide +kernel) (by decide +kernel) 1 0 0x100 0x15bd4d56
    [9, 1, 7] [⟨3, 0x101, [0x0a, 1, 0]⟩, ⟨0x1b, 0x100, []⟩, ⟨0x0f, 0x102, []⟩] (bitsOf (List.replicate 146 0xff)) (by decide +kernel) (by decide +kernel)
    (by simp [Spec.Ts.Entry.ok]) (by decide +kernel)
  exact ⟨c', h1, by rw [h2]; decide +kernel, by rw [h2]; decide +kernel, by rw [h2]; decide +kernel⟩

/-- C27 fails for sections that begin later in the packet. -/
def laterPmt : List UInt8 :=
  [0x47, 0x50, 0x00, 0x10, 0x02, 7, 7, 0x02, 0xb0, 0x12, 0x00, 0x01, 0xc1, 0x00, 0x00, 0xe1, 0x00, 0xf0, 0x00, 0x1b, 0xe1, 0x00, 0xf0, 0x00,
    0x15, 0xbd, 0x4d, 0x56] ++ List.replicate 160 0xff

theorem C27_negation_pointer : (decode quiet (TsCtx.create.add 0x1000 .pmt) () laterPmt).map (fun x => x.2.1.progs.find 0x100) ≠
    some (some (.pes (.create 0x1b))) := by decide +kernel

/-! ## C28: reassembly -/

/-- C28. A stream announced in pid `k`, then any history in which its packets, with the counters in sequence, are mixed with
packets of other pids: if all are accepted, the units handed to the codec layer for `k` are exactly the ones completed in it,
in order, each with the concatenation of its pieces and its times.

Missing: H.264 units with an announced length or of 64 KiB and more, and streams whose first
counter is not 0 (the negations of C28). -/
theorem C28_reassembly_partial (h : TsHandler σ) (k ty : Nat) (l : List (List UInt8 × Option Spec.Ts.Piece)) (c : TsCtx)
    (hc : ∀ x, c.progs.find x = some .pat → x = 0) (hk : c.progs.find k = some (.pes (.create ty)))
    (hl : Spec.Ts.history k 15 none l) (st : σ) {c' : TsCtx} {log : List PesDone} {st' : σ}
    (hr : Spec.Ts.feed (Spec.Ts.recorder h) c ([], st) (l.map (·.1)) = some (Err.SUCCESS, c', (log, st'))) :
    log.filter (fun d => d.pid == k) = (Spec.Ts.completed none (Spec.Ts.pieces l)).map (Spec.Ts.report k ty) := by
  obtain ⟨x, rfl, hx, _⟩ := feed_history h k ty l 15 none c [] st _ c' log st' hk ⟨rfl, rfl, rfl⟩ hc hl hr
  simpa using hx

/-- C28. The packets of the stream are all accepted when the handlers accept what they are given. -/
theorem C28_accepted (h : TsHandler σ) (h1 : ∀ d st, ∃ st', h.onPes d st = some (Err.SUCCESS, st'))
    (h2 : ∀ p t u st, ∃ st', h.onPkt p t u st = some (Err.SUCCESS, st')) (k ty : Nat) (l : List (List UInt8 × Spec.Ts.Piece)) (c : TsCtx)
    (hk : c.progs.find k = some (.pes (.create ty))) (hl : Spec.Ts.history k 15 none (l.map fun x => (x.1, some x.2))) (st : σ) :
    ∃ c' st', Spec.Ts.feed h c st (l.map (·.1)) = some (Err.SUCCESS, c', st') :=
  feed_progress h h1 h2 k ty l 15 none c st _ hk ⟨rfl, rfl, rfl⟩ hl

/-- C28. What the codec parsers are given of a unit: all the data of an AAC unit, and of an H.264 unit without an announced
length and below 64 KiB. -/
theorem C28_codec_input (k : Nat) (ph : Spec.Ts.PesHead) (x : List UInt8) :
    (Spec.Ts.report k 0x0f (ph, x)).codecInput = .bytes x ∧
    (ph.len = 0 → x.length < 2 ^ 16 → (Spec.Ts.report k 0x1b (ph, x)).codecInput = .bytes x) := by
  refine ⟨rfl, fun h0 hx => ?_⟩
  unfold PesDone.codecInput Spec.Ts.report
  simp only [h0, if_true, Nat.mod_eq_of_lt hx]
  rw [if_pos (Nat.le_refl _), List.take_length]

/-- C28 fails for H.264 units with an announced length: the length counts the rest of the header too, so the parser is given
bytes behind the data. -/
theorem C28_negation_announced_length (k : Nat) (ph : Spec.Ts.PesHead) (x : List UInt8)
    (hl : ph.len = 3 + ph.dataLength + x.length) : (Spec.Ts.report k 0x1b (ph, x)).codecInput = .uninitialised := by
  unfold PesDone.codecInput Spec.Ts.report
  simp only [if_true]
  rw [if_neg (by rw [if_neg (by omega)]; omega)]

/-- C28 fails for H.264 units of 64 KiB and more: they lose everything up to the size modulo 2^16. -/
theorem C28_negation_large (k : Nat) (ph : Spec.Ts.PesHead) (h0 : ph.len = 0) (x : List UInt8) (hx : x.length = 2 ^ 16 + 5) :
    (Spec.Ts.report k 0x1b (ph, x)).codecInput = .bytes (x.take 5) := by
  unfold PesDone.codecInput Spec.Ts.report
  simp only [h0, if_true, hx]
  rfl

/-- C28 fails for streams whose first packet does not have counter 0: it is rejected. -/
theorem C28_negation_first_counter : decode quiet (TsCtx.create.add 0x100 (.pes (.create 0x1b))) () (startPkt 2 1) =
    some (Err.ERROR_TS_PACKET_CC_CONTINUE, (TsCtx.create.add 0x100 (.pes (.create 0x1b))).add 0x100 (.pes (.create 0x1b)), ()) := by
  decide +kernel

/-- A unit in two packets with a PMT in between, then the next unit. -/
example : (Spec.Ts.feed (Spec.Ts.recorder quiet) (TsCtx.create.add 0x100 (.pes (.create 0x0f))) ([], ())
      [startPkt 0 1, pmtPkt, contPkt 1 2, startPkt 2 3]).map (fun x => (x.1, x.2.2.1)) = some (Err.SUCCESS,
    [{ pid := 0x100, streamType := 0x0f, pts := 0, dts := 0, data := List.replicate 170 1 ++ List.replicate 100 2, len := 270 }]) := by
  decide +kernel

example : Spec.Ts.history 0x100 15 none [(startPkt 0 1, some (.start head0 (List.replicate 170 1))), (pmtPkt, none),
    (contPkt 1 2, some (.cont (List.replicate 100 2))), (startPkt 2 3, some (.start head0 (List.replicate 170 3)))] :=
  ⟨start_carries 1 (.inl rfl) 0 (.inl rfl), by show _ ≤ _; decide +kernel, by decide +kernel, by decide +kernel, fun h => absurd h (by decide +kernel),
    cont_carries, by show _ ≤ _; decide +kernel, start_carries 3 (.inr rfl) 2 (.inr rfl), by show _ ≤ _; decide +kernel, trivial⟩

/-! ## C29: continuity -/

theorem history_open (k : Nat) : ∀ (l : List (List UInt8 × Option Spec.Ts.Piece)) (cc : Nat) (u : Spec.Ts.OpenUnit),
    Spec.Ts.history k cc u l → u ≠ none ∨ Spec.Ts.pieces l ≠ [] → (Spec.Ts.pieces l).foldl Spec.Ts.after u ≠ none
  | [], _, _, _, hu => by exact hu.elim id fun h => absurd rfl h
  | (p, none) :: l, cc, u, hl, hu => history_open k l cc u hl.2.2.2 hu
  | (p, some x) :: l, cc, u, hl, _ => by
    refine history_open k l _ (Spec.Ts.after u x) hl.2.2 (.inl fun h => ?_)
    have := hl.2.1
    rw [h] at this
    exact this

/-- C29. After any history of the stream, the counter of the next packet has to be the number of its packets modulo 16. A packet
with another counter is rejected; nothing is handed over, and no stream and no program changes. -/
theorem C29_gap (h : TsHandler σ) (k ty : Nat) (l : List (List UInt8 × Option Spec.Ts.Piece)) (c : TsCtx)
    (hc : ∀ x, c.progs.find x = some .pat → x = 0) (hk : c.progs.find k = some (.pes (.create ty)))
    (hl : Spec.Ts.history k 15 none l) (st : σ) {c' : TsCtx} {log : List PesDone} {st' : σ}
    (hr : Spec.Ts.feed (Spec.Ts.recorder h) c ([], st) (l.map (·.1)) = some (Err.SUCCESS, c', (log, st')))
    (p : List UInt8) (hp : Spec.Ts.packetOk p) (hpl : Spec.Ts.hasPayload p) (hpk : (Spec.Ts.header p).pid = k)
    (hcc : (Spec.Ts.header p).cc ≠ (Spec.Ts.pieces l).length % 16) :
    ∃ e c'', decode (Spec.Ts.recorder h) c' (log, st') p = some (e, c'', (log, st')) ∧ e ≠ Err.SUCCESS ∧
      (((Spec.Ts.pieces l).length ≠ 0 ∨ (Spec.Ts.header p).pusi = 1) → e = Err.ERROR_TS_PACKET_CC_CONTINUE) ∧
      ∀ x, c''.progs.find x = c'.progs.find x := by
  obtain ⟨x, rfl, _, s', hs', hcc', hb'⟩ := feed_history h k ty l 15 none c [] st _ c' log st' hk ⟨rfl, rfl, rfl⟩ hc hl hr
  subst hpk
  refine ⟨_, _, decode_gap _ c' _ p s' hp hpl hs' (by omega), ?_, ?_, fun x => ?_⟩
  · split <;> decide +kernel
  · intro h1
    rw [if_neg]
    rintro ⟨h2, h3⟩
    rcases h1 with h1 | h1
    · rw [hb'] at h3
      exact history_open _ l 15 none hl (.inr (fun h => h1 (by rw [h]; rfl))) h3
    · omega
  · rw [find_add]
    split
    · rename_i hx; rw [hx, hs']
    · rfl

/-- C29. After a loss the stream stays lost until the counter comes round: any number of packets of it whose counters are not
the expected one leave all programs and the handlers alone. -/
theorem C29_no_resync (h : TsHandler σ) (k : Nat) (s : PesSt) (st : σ) : ∀ (ps : List (List UInt8)) (c : TsCtx),
    c.progs.find k = some (.pes s) →
    (∀ p ∈ ps, Spec.Ts.packetOk p ∧ Spec.Ts.hasPayload p ∧ (Spec.Ts.header p).pid = k ∧ (Spec.Ts.header p).cc ≠ (s.cc + 1) % 16) →
    ∃ c', Spec.Ts.replay h c st ps = some (c', st) ∧ ∀ x, c'.progs.find x = c.progs.find x
  | [], c, _, _ => ⟨c, rfl, fun _ => rfl⟩
  | p :: ps, c, hk, hps => by
    obtain ⟨h1, h2, rfl, h4⟩ := hps p List.mem_cons_self
    have e := decode_gap h c st p s h1 h2 hk h4
    have hf : ∀ x, (c.add (Spec.Ts.header p).pid (.pes s)).progs.find x = c.progs.find x := by
      intro x
      rw [find_add]
      split
      · rename_i hx; rw [hx, hk]
      · rfl
    obtain ⟨c', h5, h6⟩ := C29_no_resync h _ s st ps (c.add (Spec.Ts.header p).pid (.pes s)) (by rw [hf, hk])
      (fun q hq => hps q (List.mem_cons_of_mem _ hq))
    refine ⟨c', ?_, fun x => by rw [h6, hf]⟩
    simp only [Spec.Ts.replay, e, Option.bind_some]
    exact h5

/-- After counters 0 and 1 the packet with counter 3 is rejected. -/
example : ∃ e c', decode (Spec.Ts.recorder quiet) (TsCtx.create.add 0x100 (.pes (.create 0x0f))) ([], ()) (startPkt 2 1) =
    some (e, c', ([], ())) ∧ e = Err.ERROR_TS_PACKET_CC_CONTINUE := by
  obtain ⟨e, c', h1, _, h2, _⟩ := C29_gap quiet 0x100 0x0f [] (TsCtx.create.add 0x100 (.pes (.create 0x0f)))
    (by intro x hx; rw [find_add, C25_fresh] at hx; by_cases h0 : x = 0; exact h0; rw [if_neg h0] at hx; split at hx <;> try split at hx
        all_goals cases hx)
    (by decide +kernel) trivial () rfl (startPkt 2 1) (start_carries 1 (.inl rfl) 2 (.inr rfl)).1 (start_carries 1 (.inl rfl) 2 (.inr rfl)).2.1
    (by decide +kernel) (by decide +kernel)
  exact ⟨e, c', h1, h2 (.inr (by decide +kernel))⟩

/-! ## C30: times -/

/-- C30. A unit with the times `t` and `u` (all 33-bit values) is reported with exactly them; without its own decode time it is
reported with its presentation time for both. -/
theorem C30_times (h : TsHandler σ) (k ty : Nat) (c : TsCtx) (hc : ∀ x, c.progs.find x = some .pat → x = 0)
    (hk : c.progs.find k = some (.pes (.create ty))) (st : σ) (p q : List UInt8) (ph ph' : Spec.Ts.PesHead) (d d' : List UInt8)
    (hp : Spec.Ts.carries p k 0 (.start ph d)) (hq : Spec.Ts.carries q k 1 (.start ph' d'))
    (hd : d.length ≤ Spec.Ts.room ph) (hd' : d'.length ≤ Spec.Ts.room ph') (t : Nat) (ht : ph.pts = some t) {c' : TsCtx}
    {log : List PesDone} {st' : σ}
    (hr : Spec.Ts.feed (Spec.Ts.recorder h) c ([], st) [p, q] = some (Err.SUCCESS, c', (log, st'))) :
    ∃ x, log.filter (fun d => d.pid == k) = [x] ∧ x.data = d ∧ x.pts = t ∧ x.dts = (ph.dts.getD t : Nat) := by
  have := C28_reassembly_partial h k ty [(p, some (.start ph d)), (q, some (.start ph' d'))] c hc hk
    ⟨hp, hd, hq, hd', trivial⟩ st hr
  refine ⟨_, this, rfl, ?_, ?_⟩
  · simp [Spec.Ts.report, Spec.Ts.PesHead.ptsOf, ht]
  · simp only [Spec.Ts.report, Spec.Ts.PesHead.dtsOf, ht]
    cases ph.dts <;> rfl

/-- Without time stamps both are -1. -/
theorem C30_no_times (k ty : Nat) (ph : Spec.Ts.PesHead) (d : List UInt8) (h : ph.pts = none) :
    (Spec.Ts.report k ty (ph, d)).pts = -1 ∧ (Spec.Ts.report k ty (ph, d)).dts = -1 := by
  simp [Spec.Ts.report, Spec.Ts.PesHead.ptsOf, Spec.Ts.PesHead.dtsOf, h]

/-- A unit with the largest presentation time and decode time 2^32 + 5. -/
def timesPkt : List UInt8 :=
  [0x47, 0x41, 0x00, 0x10, 0, 0, 1, 0xe0, 0, 0, 0x80, 0xc0, 10, 0x3f, 0xff, 0xff, 0xff, 0xff, 0x19, 0x00, 0x01, 0x00, 0x0b] ++ List.replicate 165 7

example : (Spec.Ts.feed (Spec.Ts.recorder quiet) (TsCtx.create.add 0x100 (.pes (.create 0x0f))) ([], ()) [timesPkt, startPkt 1 3]).map
    (fun x => x.2.2.1.map fun d => (d.pts, d.dts)) = some [(2 ^ 33 - 1, 2 ^ 32 + 5)] := by decide +kernel

example : Spec.Ts.carries timesPkt 0x100 0 (.start { head0 with pts := some (2 ^ 33 - 1), dts := some (2 ^ 32 + 5) } (List.replicate 165 7)) :=
  ⟨⟨by decide +kernel, by decide +kernel, fun h => absurd h (by decide +kernel)⟩, by decide +kernel, by decide +kernel,
    by decide +kernel, by decide +kernel,
    ⟨by decide +kernel, by decide +kernel, by decide +kernel, by simp, by simp, by simp [head0, Ts.sized], by simp [head0, Ts.sized],
      by simp [head0, Ts.sized], by simp [head0, Ts.sized], by simp [head0, Ts.sized], by simp [head0], by decide +kernel⟩, by decide +kernel⟩

/-! ## C31: whole packets -/

/-- The packets of a buffer of `188 * n` bytes are all of it. -/
theorem chunks_flatten : ∀ (n : Nat) (p : List UInt8), p.length = 188 * n → (Spec.Ts.chunks n p).flatten = p
  | 0, p, h => by simp at h; subst h; rfl
  | n + 1, p, h => by
    rw [Spec.Ts.chunks, List.flatten_cons, chunks_flatten n (p.drop 188) (by simp; omega), List.take_append_drop]

/-- C31. A buffer of a whole number of packets is processed packet by packet, in order, up to the first error; together the
packets are the buffer. -/
theorem C31_whole (h : TsHandler σ) (c : TsCtx) (st : σ) (p : List UInt8) (hp : p.length % 188 = 0) :
    decodeAll h (p.length + 1) c st p = Spec.Ts.feed h c st (Spec.Ts.chunks (p.length / 188) p) ∧
    (Spec.Ts.chunks (p.length / 188) p).flatten = p := by
  refine ⟨?_, chunks_flatten _ p (by omega)⟩
  rw [decodeAll_eq h _ c st p (by omega)]
  simp only [hp, ne_eq, not_true_eq_false, and_false, if_false]
  cases Spec.Ts.feed h c st (Spec.Ts.chunks (p.length / 188) p) <;> rfl

/-- C31. Any other buffer is not accepted: after the whole packets in it comes the error. -/
theorem C31_rejected (h : TsHandler σ) (c : TsCtx) (st : σ) (p : List UInt8) (hp : p.length % 188 ≠ 0) {e : Err} {c' : TsCtx} {st' : σ}
    (hr : decodeAll h (p.length + 1) c st p = some (e, c', st')) : e ≠ Err.SUCCESS := by
  rw [decodeAll_eq h _ c st p (by omega), Option.map_eq_some_iff] at hr
  obtain ⟨⟨e1, c1, st1⟩, _, h2⟩ := hr
  split at h2
  · cases h2; decide +kernel
  · rename_i h3
    cases h2
    intro he
    exact h3 ⟨he, hp⟩

example : (decodeAll quiet 377 TsCtx.create () (patPkt ++ pmtPkt)).map (fun x => (x.1, x.2.1.progs.find 0x100)) =
    some (Err.SUCCESS, some (.pes (.create 0x1b))) := by decide +kernel
example : (decodeAll quiet 288 TsCtx.create () (patPkt ++ pmtPkt.take 99)).map (fun x => x.1) =
    some Err.ERROR_TS_PACKET_SIZE := by decide +kernel

/-! ## C64: reading inside the packet -/

/-- C64, for elementary streams (and unknown pids): decoding a packet with a well-formed adaptation field never reads outside of
it, whatever the payload is. Missing: sections and packets whose adaptation field contradicts its flags, where it fails
(`C64_negation_section`, `C64_negation_adaptation`). -/
theorem C64_inside_partial (h : TsHandler σ) (h1 : ∀ d st, h.onPes d st ≠ none) (h2 : ∀ p t u st, h.onPkt p t u st ≠ none) (c : TsCtx)
    (st : σ) (p : List UInt8) (hp : Spec.Ts.packetOk p)
    (hk : c.progs.find (Spec.Ts.header p).pid = none ∨ ∃ s, c.progs.find (Spec.Ts.header p).pid = some (.pes s)) :
    decode h c st p ≠ none := by
  rcases hk with hk | ⟨s, hk⟩
  · rw [decode_unknown h c st p hp hk]; simp
  · exact decode_pes_safe h h1 h2 c st p hp s hk

/-- A payload of rubbish for a known stream. -/
example : decode quiet (TsCtx.create.add 0x100 (.pes (.create 0x1b))) () ([0x47, 0x41, 0x00, 0x10, 0, 0, 1] ++ List.replicate 181 0xff) ≠ none :=
  C64_inside_partial quiet (by simp [quiet]) (by simp [quiet]) _ _ _
    ⟨by decide +kernel, by decide +kernel, fun h => absurd h (by decide +kernel)⟩ (.inr ⟨.create 0x1b, by decide +kernel⟩)

/-- The first packet of a PMT with 40 H.264 streams. -/
def longPmt : List UInt8 :=
  [0x47, 0x50, 0x00, 0x10, 0x00, 0x02, 0xb0, 0xd5, 0x00, 0x01, 0xc1, 0x00, 0x00, 0xe1, 0x00, 0xf0, 0x00] ++
    ((List.range 34).flatMap fun i => [0x1b, 0xe1, UInt8.ofNat i, 0xf0, 0]) ++ [0x1b]

/-- C64 fails for a PMT longer than its packet: the loop over its entries runs over the end. -/
theorem C64_negation_section : longPmt.length = 188 ∧ decode quiet (TsCtx.create.add 0x1000 .pmt) () longPmt = none := by
  decide +kernel

/-- A packet whose adaptation field of one byte announces a PCR (six bytes). -/
def badAdaptation : List UInt8 := [0x47, 0x01, 0x00, 0x30, 1, 0x10] ++ List.replicate 182 0xff

/-- C64 fails for an adaptation field without room for the fields it announces: the length of its stuffing is then negative, as an
unsigned 16 bit number 65530, and that many bytes are skipped (a position outside the packet counts as a read there, see
`BProg.run`). -/
theorem C64_negation_adaptation : badAdaptation.length = 188 ∧
    decode quiet (TsCtx.create.add 0x100 (.pes (.create 0x1b))) () badAdaptation = none := by decide +kernel

/-! ## C65: any fragmentation -/

/-- C65. What a caller of the demuxer gets depends on the bytes of the transport only, not on the pieces they come in. -/
theorem C65_fragmentation {β : Type} (h : TsHandler σ) (pop : σ → Option (β × σ)) (mem1 mem2 : List UInt8) (hm1 : mem1.length = 188)
    (hm2 : mem2.length = 188) (io1 io2 : Io) (ho1 : ioOk io1 = true) (ho2 : ioOk io2 = true) (hn1 : noErr io1.evs = true)
    (hn2 : noErr io2.evs = true) (hc : io1.closed = io2.closed) (hs : streamOf io1.evs = streamOf io2.evs) (fuel n : Nat) (c : TsCtx) (st : σ) :
    TsDemuxer.session h pop fuel n (TsDemuxer.reader mem1 io1) c st = TsDemuxer.session h pop fuel n (TsDemuxer.reader mem2 io2) c st := by
  have a1 := TsDemuxer.AtTs.start mem1 hm1 io1 ho1 hn1
  have a2 := TsDemuxer.AtTs.start mem2 hm2 io2 ho2 hn2
  rw [← hc, ← hs] at a2
  refine TsDemuxer.session_eq h pop fuel _ ?_ n _ _ _ c st a1 a2
  unfold ioOk at ho1
  simp at ho1
  exact ho1.2

/-- C65. As long as no unit is completed, one call decodes all the whole packets of the transport in order, each once, and ends
with the first error, or with the end of the transport; a partial packet at the end is not decoded. -/
theorem C65_packets {β : Type} (h : TsHandler σ) (pop : σ → Option (β × σ)) (hp : ∀ st, pop st = none) (mem0 : List UInt8)
    (hm : mem0.length = 188) (io : Io) (ho : ioOk io = true) (hn : noErr io.evs = true) (c : TsCtx) (st : σ) (fuel : Nat)
    (hf : (streamOf io.evs).length / 188 < fuel) :
    (TsDemuxer.readPacket h pop fuel (TsDemuxer.reader mem0 io) c st).map (fun x => (x.1, x.2.2.2)) =
      (Spec.Ts.feed h c st (Spec.Ts.chunks ((streamOf io.evs).length / 188) (streamOf io.evs))).map fun x =>
        (if x.1 = Err.SUCCESS then io.closed else x.1, x.2) := by
  have hc : io.closed ≠ Err.SUCCESS := by unfold ioOk at ho; simp at ho; exact ho.2
  have e := TsDemuxer.readPacket_eq h pop io.closed hc fuel _ _ c st (TsDemuxer.AtTs.start mem0 hm io ho hn)
  have e2 := TsDemuxer.readStream_feed h pop hp io.closed fuel (streamOf io.evs) c st hf
  rw [← e2]
  cases hr : Spec.Ts.readStream h pop io.closed fuel (streamOf io.evs) c st with
  | none => rw [hr] at e; rw [e]; rfl
  | some x =>
    obtain ⟨e1, b, s', c', st'⟩ := x
    rw [hr] at e
    obtain ⟨r', e, _⟩ := e
    rw [e]; rfl

/-- Waiting packets come out in order. -/
def queue : List Nat → Option (Nat × List Nat)
  | [] => none
  | x :: xs => some (x, xs)

/-- A handler that makes a packet of the size of each unit. -/
def sizes : TsHandler (List Nat) where
  onPes d st := some (Err.SUCCESS, st ++ [d.data.length])
  onPkt _ _ _ st := some (Err.SUCCESS, st)

/-- Two units over two transports, one with 100-byte pieces. -/
example : (TsDemuxer.session sizes queue 9 3 (TsDemuxer.reader (List.replicate 188 0)
      { evs := [.data (startPkt 0 1 ++ contPkt 1 2), .data (startPkt 2 3 ++ startPkt 3 4)], closed := Err.ERROR_SOCKET_CLOSED })
      (TsCtx.create.add 0x100 (.pes (.create 0x0f))) []).map (fun x => (x.1, x.2.1)) = some (Err.ERROR_SOCKET_CLOSED, [270, 170]) := by
  decide +kernel
example : (TsDemuxer.session sizes queue 9 3 (TsDemuxer.reader (List.replicate 188 0)
      { evs := [.data ((startPkt 0 1).take 100), .data ((startPkt 0 1).drop 100 ++ contPkt 1 2 ++ (startPkt 2 3).take 7),
        .data ((startPkt 2 3).drop 7), .data (startPkt 3 4)], closed := Err.ERROR_SOCKET_CLOSED })
      (TsCtx.create.add 0x100 (.pes (.create 0x0f))) []).map (fun x => (x.1, x.2.1)) = some (Err.ERROR_SOCKET_CLOSED, [270, 170]) := by
  decide +kernel

end Sps.TsProps
