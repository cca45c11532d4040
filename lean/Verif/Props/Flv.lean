import Verif.Lemmas.FlvMux
/-!
# FLV (C17-C20)

The demuxer runs on the modelled `BytesReader` over a transport (`Reader.onIo mem0 io`): `mem0` is its buffer (1 MiB in
the code), `io` any fragmentation of a byte stream. `session n` reads the header and up to `n` packets.
-/
namespace Sps.FlvProps
open Spec ByteProg FlvDemuxer FlvMuxer

theorem noErr_init {mem0 : List UInt8} {io : Io} (h : noErr io.evs = true) :
    ∀ x, (Reader.onIo mem0 io).io = some x → noErr x.evs = true := by
  intro x hx; cases hx; exact h

theorem closed_ne {io : Io} (h : ioOk io = true) : io.closed ≠ 0 := by
  unfold ioOk at h; simp at h; exact h.2

/-! ## C18: the muxer writes a well-formed tag chain -/

/-- Any file header given by the caller has nine bytes; otherwise the default one is written. -/
def headerOf : Option (List UInt8) → List UInt8
  | some d => d
  | none => Flv.fileHeader

/-- C18. Muxing packets that FLV can carry writes the header and then the tags of the packets that are not filtered out,
each with the size of the tag before it, its own body length and the time stamp split in two. Whatever writes fail, what
is written is a prefix of that; when no write fails it is all of it. -/
theorem C18_tag_chain (tagMem : List UInt8) (ht : tagMem.length = 29) (fv fm fa : Bool) (h : Option (List UInt8))
    (hh : (headerOf h).length = 9) (ps : List AVPkt)
    (hp : ∀ p ∈ ps, Flv.carries p = true ∧ (Flv.body p).length < 2 ^ 24) (fails : List Err) :
    let m0 : FlvMuxer := { FlvMuxer.create tagMem with filterVideo := fv, filterMeta := fm, filterAudio := fa }
    let kept := ps.filter fun p => !((p.stream == .video && fv) || (p.stream == .audio && fa) || (p.stream == .subtitle && fm))
    ∃ e1 s1, writeHeader h { out := [], fails := fails } = (e1, s1) ∧
      (e1 ≠ Err.SUCCESS → s1.out = []) ∧ (fails = [] → e1 = Err.SUCCESS) ∧
      (e1 = Err.SUCCESS → ∃ e2 m s2, writePackets m0 ps s1 = some (e2, m, s2) ∧
        s2.out <+: headerOf h ++ Flv.chain 0 kept ∧
        (e2 = Err.SUCCESS → s2.out = headerOf h ++ Flv.chain 0 kept) ∧
        (fails = [] → e2 = Err.SUCCESS)) := by
  intro m0 kept
  have hw : writeHeader h { out := [], fails := fails } = Sink.write { out := [], fails := fails } (headerOf h) := by
    cases h with
    | none => rfl
    | some d => simp only [headerOf] at hh; simp [writeHeader, writeHeaderTo, hh, headerOf]
  have hk : ps.filter (fun p => !m0.filtered p.stream) = kept := by
    apply List.filter_congr
    intro p _
    have e : ∀ st : StreamType, m0.filtered st =
        ((st == .video && fv) || (st == .audio && fa) || (st == .subtitle && fm)) := by
      intro st
      show (FlvMuxer.filtered { tag := tagMem, prev := 0, filterVideo := fv, filterMeta := fm, filterAudio := fa } st) = _
      cases st <;> cases fv <;> cases fm <;> cases fa <;> rfl
    rw [e]
  refine ⟨(writeHeader h { out := [], fails := fails }).1, (writeHeader h { out := [], fails := fails }).2, rfl, ?_, ?_, ?_⟩
  · intro he
    rw [hw] at he ⊢
    rcases write_cases { out := [], fails := fails } (headerOf h) with ⟨a, _⟩ | ⟨_, b⟩
    · exact absurd a he
    · exact b
  · intro hf
    rw [hw, write_ok _ _ hf]
  · intro he
    obtain ⟨e, m', snk', sent, a1, a2, a3, a4, a5⟩ := writePackets_spec ps m0 (writeHeader h { out := [], fails := fails }).2 ht hp
    have ho : (writeHeader h { out := [], fails := fails }).2.out = headerOf h := by
      rw [hw] at he ⊢
      rcases write_cases { out := [], fails := fails } (headerOf h) with ⟨_, b⟩ | ⟨a, _⟩
      · rw [b]; rfl
      · exact absurd he a
    have hprev : m0.prev = 0 := rfl
    rw [hk, hprev] at a3 a4
    refine ⟨e, m', snk', a1, ?_, ?_, ?_⟩
    · rw [a2, ho]; exact (List.prefix_append_right_inj _).2 a3
    · intro h; rw [a2, ho, a4 h]
    · intro hf
      apply a5
      rw [hw, write_ok _ _ hf]
      exact hf

/-- C18, other packets: FLV has no tag for them, they are refused and nothing is written. -/
theorem C18_refuses (m : FlvMuxer) (p : AVPkt) (snk : Sink) (h : Flv.carries p = false) :
    m.writePacket p snk = some (Err.ERROR_FLV_UNKNOWN_TAG_TYPE, m, snk) := by
  unfold writePacket writePacketTo
  cases hs : p.stream <;> simp [Flv.carries, hs] at h <;> simp [tagType]

/-- A script, a key frame with a negative composition offset and an audio frame. -/
def sample : List AVPkt :=
  [{ stream := .subtitle, pktType := 0, payload := [2, 0, 10], dts := 0, pts := 0, flags := 0, codec := 0 },
   { stream := .video, pktType := 1, payload := [0, 0, 0, 1, 101], dts := 0x01020304, pts := 0x01020304 - 40, flags := 0x17, codec := 7 },
   { stream := .audio, pktType := 1, payload := [33], dts := 0x01020310, pts := 0x01020310, flags := 0xAF, codec := 10 }]

example : ∀ p ∈ sample, Flv.carries p = true ∧ (Flv.body p).length < 2 ^ 24 := by decide

example :
    ((FlvMuxer.writePackets (FlvMuxer.create (List.replicate 29 255)) sample { out := [], fails := [] }).map (·.2.2.out)) =
      some ([0, 0, 0, 0, 18, 0, 0, 3, 0, 0, 0, 0, 0, 0, 0, 2, 0, 10] ++
        [0, 0, 0, 14, 9, 0, 0, 10, 2, 3, 4, 1, 0, 0, 0, 0x17, 1, 255, 255, 216, 0, 0, 0, 1, 101] ++
        [0, 0, 0, 21, 8, 0, 0, 3, 2, 3, 16, 1, 0, 0, 0, 0xAF, 1, 33]) := by decide +kernel

/-! ## C17: mux then demux -/

theorem bits_bits8 (x : Int) : Flv.bits 8 ((Flv.bits 8 x : Nat) : Int) = Flv.bits 8 x := by unfold Flv.bits; omega
theorem bits_bits32 (x : Int) : Flv.bits 32 ((Flv.bits 32 x : Nat) : Int) = Flv.bits 32 x := by unfold Flv.bits; omega
theorem bits_signed24 (x : Int) : Flv.bits 24 (Flv.signed 24 (Flv.bits 24 x)) = Flv.bits 24 x := by
  unfold Flv.signed Flv.bits; split <;> omega

theorem wire_stream (p : AVPkt) : (Flv.wire p).stream = p.stream := by
  cases hs : p.stream <;> simp [Flv.wire, hs]
  split <;> rfl

theorem wire_dts (p : AVPkt) : Flv.bits 32 (Flv.wire p).dts = Flv.bits 32 p.dts := by
  have h : (Flv.wire p).dts = ((Flv.bits 32 p.dts : Nat) : Int) := by
    cases hs : p.stream <;> simp [Flv.wire, hs]
    split <;> rfl
  rw [h, bits_bits32]

theorem wire_body (p : AVPkt) : Flv.body (Flv.wire p) = Flv.body p := by
  cases hs : p.stream
  case video =>
    by_cases hc : Flv.isCommand (Flv.bits 8 p.flags) = true
    · simp only [Flv.body, Flv.wire, hs, hc, if_true, bits_bits8]
    · simp only [Flv.body, Flv.wire, hs, if_neg hc, bits_bits8]
      have : ((Flv.bits 32 p.dts : Nat) : Int) + Flv.signed 24 (Flv.bits 24 (p.pts - p.dts)) - ((Flv.bits 32 p.dts : Nat) : Int) =
        Flv.signed 24 (Flv.bits 24 (p.pts - p.dts)) := by omega
      rw [this, bits_signed24]
  all_goals simp only [Flv.body, Flv.wire, hs, bits_bits8]

theorem chain_wire (ps : List AVPkt) (prev : Nat) : Flv.chain prev (ps.map Flv.wire) = Flv.chain prev ps := by
  induction ps generalizing prev with
  | nil => rfl
  | cons p ps ih => simp only [List.map_cons, Flv.chain, wire_stream, wire_dts, wire_body, ih]

theorem supported_carries {cap : Nat} {p : AVPkt} (h : Flv.Supported cap p) : Flv.carries p = true := by
  rw [carries_iff]
  rcases h.format with ⟨h, _⟩ | ⟨h, _⟩ | ⟨h, _⟩ <;> simp [h]

/-- C17. Mux packets whose wire form is supported, deliver the output in any pieces, and demux it: the packets come back
in order, each in its wire form, and then the reader sees the end of the stream. -/
theorem C17_mux_demux (tagMem : List UInt8) (ht : tagMem.length = 29) (h : Option (List UInt8))
    (hh : (headerOf h).length = 9) (hflv : (headerOf h).take 3 = [70, 76, 86]) (mem0 : List UInt8) (hm : 15 ≤ mem0.length)
    (hm2 : mem0.length < 2 ^ 63) (ps : List AVPkt) (hs : ∀ p ∈ ps, Flv.Supported mem0.length (Flv.wire p)) :
    ∃ s1 m s2, writeHeader h { out := [], fails := [] } = (Err.SUCCESS, s1) ∧
      writePackets (FlvMuxer.create tagMem) ps s1 = some (Err.SUCCESS, m, s2) ∧
      ∀ io, ioOk io = true → noErr io.evs = true → streamOf io.evs = s2.out → ∀ n, ps.length < n →
        ∃ r, (session n).run (Reader.onIo mem0 io) = some ((ps.map Flv.wire, io.closed), r) := by
  have hp : ∀ p ∈ ps, Flv.carries p = true ∧ (Flv.body p).length < 2 ^ 24 := by
    intro p hq
    have := hs p hq
    refine ⟨?_, by rw [← wire_body]; exact this.fits.2⟩
    have := supported_carries this
    rw [carries_iff] at this ⊢
    rwa [wire_stream] at this
  obtain ⟨e1, s1, a1, -, a3, a4⟩ := C18_tag_chain tagMem ht false false false h hh ps hp []
  obtain ⟨e2, m, s2, b1, -, b3, b4⟩ := a4 (a3 rfl)
  refine ⟨s1, m, s2, ?_, ?_, ?_⟩
  · rw [a1, a3 rfl]
  · rw [b4 rfl] at b1; exact b1
  · intro io hok hno hst n hn
    have hout := b3 (b4 rfl)
    have hk : (ps.filter fun p => !((p.stream == .video && false) || (p.stream == .audio && false) || (p.stream == .subtitle && false))) = ps := by
      rw [List.filter_eq_self]; intro p _; simp
    rw [hk] at hout
    have hsp := session_spec (closed_ne hok) hm n (OnIo.init mem0 io hm2 hok) (noErr_init hno)
    rw [pending_onIo, hst, hout] at hsp
    obtain ⟨k, rfl⟩ : ∃ k, n = (ps.map Flv.wire).length + (k + 1) := ⟨n - ps.length - 1, by rw [List.length_map]; omega⟩
    have hfile : Flv.file mem0.length io.closed ((ps.map Flv.wire).length + (k + 1)) (headerOf h ++ Flv.chain 0 ps) =
        (ps.map Flv.wire, [io.closed], false) := by
      unfold Flv.file
      rw [if_neg (by simp [hh]), if_neg (by rw [List.take_append_of_le_length (by omega)]; simp [hflv]),
        List.drop_append_of_le_length (by omega), List.drop_of_length_le (by omega), List.nil_append, ← chain_wire]
      apply packets_chain
      intro p hq
      obtain ⟨q, hq1, rfl⟩ := List.mem_map.1 hq
      exact hs q hq1
    rw [hfile] at hsp
    rcases hsp with ⟨x, _⟩ | ⟨e, r', c1, c2⟩
    · simp at x
    · simp only [List.mem_singleton] at c2
      subst c2
      exact ⟨r', c1⟩

/-- C17: a supported packet is its own wire form, so it comes back unchanged. -/
theorem C17_supported_unchanged (cap : Nat) (p : AVPkt) (h : Flv.Supported cap p) : Flv.wire p = p := by
  have hdts := bits32_int p.dts h.dts.1 h.dts.2
  have hmsg := h.msg
  have hf := h.format
  clear h
  obtain ⟨msg, stream, pktType, payload, dts, pts, flags, codec⟩ := p
  simp only at hmsg hdts hf
  subst hmsg
  rcases hf with ⟨hs, ⟨fl, hf, hf1, hf2⟩, hcod, hpt, hpts⟩ | ⟨hs, fl, hf, hf1, hcod, hf2, hcmd⟩ | ⟨hs, hf, hcod, hpt, hpts⟩
  · subst hs hf hcod hpts
    simp only [Flv.wire, hdts, bits8_nat fl hf1, bits8_int pktType hpt.1 hpt.2, hf2]
    simp
  · subst hs hf hcod
    by_cases hcm : Flv.isCommand fl = true
    · rw [if_pos hcm] at hcmd
      obtain ⟨rfl, rfl⟩ := hcmd
      simp only [Flv.wire, hdts, bits8_nat fl hf1, hcm, if_true]
    · rw [if_neg hcm] at hcmd
      obtain ⟨c1, c2, c3, c4⟩ := hcmd
      have : dts + (pts - dts) = pts := by omega
      simp only [Flv.wire, hdts, bits8_nat fl hf1, if_neg hcm, bits8_int pktType c1 c2, signed_bits 24 _ rfl c3 c4, this]
  · subst hs hf hcod hpt hpts
    simp only [Flv.wire, hdts]

theorem sample_supported : ∀ p ∈ sample, Flv.Supported 1048576 (Flv.wire p) := by
  intro p hp
  simp only [sample, List.mem_cons, List.not_mem_nil, or_false] at hp
  rcases hp with rfl | rfl | rfl
  · exact ⟨rfl, by decide, by decide, by decide, .inr (.inr (by decide))⟩
  · exact ⟨rfl, by decide, by decide, by decide, .inr (.inl ⟨rfl, 0x17, by decide⟩)⟩
  · exact ⟨rfl, by decide, by decide, by decide, .inl ⟨rfl, ⟨0xAF, by decide⟩, by decide⟩⟩

example : sample.map Flv.wire = sample := by decide +kernel
example : (headerOf none).length = 9 ∧ (headerOf none).take 3 = [70, 76, 86] := by decide

/-! ## C19: decisions on tags -/

/-- C19, acceptance. For a complete tag of any type, time and body that fits the buffer, with anything behind it and under
any fragmentation: the demuxer returns a packet exactly when the tag is acceptable. -/
theorem C19_accepts_iff (mem0 : List UInt8) (hm : 15 ≤ mem0.length) (hm2 : mem0.length < 2 ^ 63) (io : Io)
    (hok : ioOk io = true) (hno : noErr io.evs = true) (prev ty ts : Nat) (b rest : List UInt8)
    (hs : streamOf io.evs = Flv.tag prev ty ts b ++ rest) (hty : ty < 256) (hts : ts < 2 ^ 32)
    (hb : b.length ≤ mem0.length) (hb2 : b.length < 2 ^ 24) :
    (∃ p r, readPacket.run (Reader.onIo mem0 io) = some ((Err.SUCCESS, some p), r)) ↔ Flv.acceptable ty b = true := by
  have h := readPacket_spec (OnIo.init mem0 io hm2 hok) (closed_ne hok) hm (noErr_init hno)
  rw [pending_onIo, hs, firstTag_tag _ _ _ _ _ _ _ hty hts hb hb2] at h
  have hacc : Flv.acceptable ty b = true ↔ ∃ p, Flv.judge ty ts b = .accept p := by
    unfold Flv.acceptable Flv.judge
    by_cases h8 : ty = 8
    · subst h8
      rcases b with _ | ⟨f, _ | ⟨t, _ | ⟨d, ds⟩⟩⟩ <;> simp <;> (try split) <;> simp_all
    · by_cases h9 : ty = 9
      · subst h9
        rcases b with _ | ⟨f, t⟩
        · simp
        · by_cases hcd : f.toNat % 16 ≠ 7 ∧ f.toNat % 16 ≠ 12
          · simp [hcd]
          · have hcd' : f.toNat % 16 = 7 ∨ f.toNat % 16 = 12 := by omega
            by_cases hcm : Flv.isCommand f.toNat = true
            · rcases t with _ | ⟨t0, t⟩ <;> simp [hcd, hcd', hcm]
            · rcases t with _ | ⟨t0, _ | ⟨c0, _ | ⟨c1, _ | ⟨c2, _ | ⟨d, ds⟩⟩⟩⟩⟩ <;> simp [hcd, hcd', hcm]
      · by_cases h18 : ty = 18
        · subst h18
          rcases b with _ | ⟨f, t⟩ <;> simp
        · simp [h8, h9, h18]
  rw [hacc]
  revert h
  generalize Flv.judge ty ts b = v
  cases v with
  | accept p =>
    rintro ⟨r', a1, -⟩
    exact ⟨fun _ => ⟨p, rfl⟩, fun _ => ⟨p, r', a1⟩⟩
  | reject e =>
    rintro ⟨r', a1⟩
    rw [a1]
    simp
  | tooShort es =>
    rintro (a1 | ⟨e, r', a1, a2⟩) <;> rw [a1] <;> simp

/-- C19, the specific outcome: the packet or the error is the one `Flv.judge` names. Partial: for a body too short for its
sub-header the demuxer reads bytes that do not belong to the tag. It then still returns no packet, but for an empty audio
or video body the reported error depends on those bytes (`C19_negation_empty_body`), and the read may leave the buffer. -/
theorem C19_decision_partial (mem0 : List UInt8) (hm : 15 ≤ mem0.length) (hm2 : mem0.length < 2 ^ 63) (io : Io)
    (hok : ioOk io = true) (hno : noErr io.evs = true) (prev ty ts : Nat) (b rest : List UInt8)
    (hs : streamOf io.evs = Flv.tag prev ty ts b ++ rest) (hty : ty < 256) (hts : ts < 2 ^ 32)
    (hb : b.length ≤ mem0.length) (hb2 : b.length < 2 ^ 24) :
    match Flv.judge ty ts b with
    | .accept p => ∃ r, readPacket.run (Reader.onIo mem0 io) = some ((Err.SUCCESS, some p), r)
    | .reject e => ∃ r, readPacket.run (Reader.onIo mem0 io) = some ((e, none), r)
    | .tooShort es => readPacket.run (Reader.onIo mem0 io) = none ∨
        ∃ e r, readPacket.run (Reader.onIo mem0 io) = some ((e, none), r) ∧ e ∈ es := by
  have h := readPacket_spec (OnIo.init mem0 io hm2 hok) (closed_ne hok) hm (noErr_init hno)
  rw [pending_onIo, hs, firstTag_tag _ _ _ _ _ _ _ hty hts hb hb2] at h
  revert h
  generalize Flv.judge ty ts b = v
  cases v with
  | accept p =>
    rintro ⟨r', a1, -⟩
    exact ⟨r', a1⟩
  | reject e => exact id
  | tooShort es => exact id

/-- An empty audio tag, and another byte behind it. -/
def emptyAudio (next : UInt8) : Io :=
  { evs := [.data (Flv.tag 0 8 0 [] ++ [next])], closed := Err.ERROR_SOCKET_CLOSED }

/-- C19 fails as stated: the error for an empty audio tag is decided by the byte that follows the tag. -/
theorem C19_negation_empty_body :
    (readPacket.run (Reader.onIo (List.replicate 32 0) (emptyAudio 0xAF))).map (·.1.1) = some Err.ERROR_FLV_TAG ∧
    (readPacket.run (Reader.onIo (List.replicate 32 0) (emptyAudio 0x00))).map (·.1.1) = some Err.ERROR_FLV_AUDIO_CODECID := by
  decide +kernel

/-- An empty video tag that ends where the buffer ends: the demuxer reads past the buffer. -/
theorem C19_negation_memory :
    (readPacket.run (Reader.onIo (List.replicate 15 0)
      { evs := [.data (Flv.tag 0 9 0 [])], closed := Err.ERROR_SOCKET_CLOSED })).isNone = true := by
  decide +kernel

example : ioOk (emptyAudio 3) = true ∧ noErr (emptyAudio 3).evs = true := by decide
example : Flv.judge 9 5 [0x17, 1, 255, 255, 255, 9] =
    .accept { stream := .video, pktType := 1, payload := [9], dts := 5, pts := 4, flags := 0x17, codec := 7 } := by decide
example : Flv.acceptable 8 [0xAF, 1, 33] = true ∧ Flv.acceptable 8 [0x2F, 1, 33] = false := by decide

/-! ## C20: fragmentation -/

/-- C20. Demuxing is a function of the byte stream: the packets are those of the specification `Flv.file`, whatever the
fragmentation and the initial memory, and so is the final error, except at the end that a too short body makes (partial). -/
theorem C20_stream_function_partial (mem0 : List UInt8) (hm : 15 ≤ mem0.length) (hm2 : mem0.length < 2 ^ 63) (io : Io)
    (hok : ioOk io = true) (hno : noErr io.evs = true) (n : Nat) :
    match Flv.file mem0.length io.closed n (streamOf io.evs) with
    | (ps, es, short) => (short = true ∧ (session n).run (Reader.onIo mem0 io) = none) ∨
        ∃ e r, (session n).run (Reader.onIo mem0 io) = some ((ps, e), r) ∧ e ∈ es := by
  have h := session_spec (closed_ne hok) hm n (OnIo.init mem0 io hm2 hok) (noErr_init hno)
  rw [pending_onIo] at h
  exact h

theorem packets_single (cap : Nat) (closed : Err) (n : Nat) (s : List UInt8) :
    (Flv.packets cap closed n s).2.2 = false → ∃ e, (Flv.packets cap closed n s).2.1 = [e] := by
  induction n generalizing s with
  | zero => exact fun _ => ⟨_, rfl⟩
  | succ n ih =>
    unfold Flv.packets
    split
    · exact ih _
    · exact fun _ => ⟨_, rfl⟩
    · simp

/-- C20. Two fragmentations of one stream, read into buffers of the same size with any initial memory: the same packets,
and the same final error unless the stream runs into a body that is too short for its sub-header (partial). -/
theorem C20_fragmentation_partial (mem1 mem2 : List UInt8) (hl : mem1.length = mem2.length) (hm : 15 ≤ mem1.length)
    (hm2 : mem1.length < 2 ^ 63) (io1 io2 : Io) (ok1 : ioOk io1 = true) (ok2 : ioOk io2 = true)
    (no1 : noErr io1.evs = true) (no2 : noErr io2.evs = true) (hs : streamOf io1.evs = streamOf io2.evs)
    (hc : io1.closed = io2.closed) (n : Nat) :
    (∀ x r, (session n).run (Reader.onIo mem1 io1) = some (x, r) → ∀ y r', (session n).run (Reader.onIo mem2 io2) = some (y, r') →
      x.1 = y.1) ∧
    ((Flv.file mem1.length io1.closed n (streamOf io1.evs)).2.2 = false →
      ∃ x r r', (session n).run (Reader.onIo mem1 io1) = some (x, r) ∧ (session n).run (Reader.onIo mem2 io2) = some (x, r')) := by
  have h1 := C20_stream_function_partial mem1 hm hm2 io1 ok1 no1 n
  have h2 := C20_stream_function_partial mem2 (hl ▸ hm) (hl ▸ hm2) io2 ok2 no2 n
  rw [← hl, ← hc, ← hs] at h2
  have hsg : (Flv.file mem1.length io1.closed n (streamOf io1.evs)).2.2 = false →
      ∃ e, (Flv.file mem1.length io1.closed n (streamOf io1.evs)).2.1 = [e] := by
    unfold Flv.file
    split
    · exact fun _ => ⟨_, rfl⟩
    · split
      · exact fun _ => ⟨_, rfl⟩
      · exact packets_single _ _ _ _
  revert h1 h2 hsg
  generalize Flv.file mem1.length io1.closed n (streamOf io1.evs) = f
  obtain ⟨ps, es, short⟩ := f
  intro h1 h2 hsg
  simp only at h1 h2 hsg
  constructor
  · intro x r hx y r' hy
    rcases h1 with ⟨_, a⟩ | ⟨e, r1, a, _⟩
    · rw [a] at hx; cases hx
    · rcases h2 with ⟨_, b⟩ | ⟨e', r2, b, _⟩
      · rw [b] at hy; cases hy
      · rw [a] at hx; rw [b] at hy
        cases hx; cases hy; rfl
  · intro hsh
    simp only at hsh
    obtain ⟨e0, he0⟩ := hsg hsh
    rw [he0] at h1 h2
    rw [hsh] at h1 h2
    rcases h1 with ⟨a, _⟩ | ⟨e, r1, a, b⟩
    · cases a
    · rcases h2 with ⟨a', _⟩ | ⟨e', r2, a', b'⟩
      · cases a'
      · simp only [List.mem_singleton] at b b'
        subst b; subst b'
        exact ⟨_, r1, r2, a, a'⟩

/-- C20 fails as stated: one stream, two fragmentations, two errors. -/
theorem C20_negation_empty_body :
    let s := Flv.fileHeader ++ Flv.tag 0 8 0 [] ++ [0xAF]
    let one : Io := { evs := [.data s], closed := Err.ERROR_SOCKET_CLOSED }
    let two : Io := { evs := [.data (s.take 24), .data (s.drop 24)], closed := Err.ERROR_SOCKET_CLOSED }
    streamOf one.evs = streamOf two.evs ∧
    ((session 1).run (Reader.onIo (List.replicate 40 0) one)).map (·.1.2) = some Err.ERROR_FLV_TAG ∧
    ((session 1).run (Reader.onIo (List.replicate 40 0) two)).map (·.1.2) = some Err.ERROR_FLV_AUDIO_CODECID := by
  decide +kernel

example : Flv.file 40 Err.ERROR_SOCKET_CLOSED 4 (Flv.fileHeader ++ Flv.chain 0 sample) = (sample, [Err.ERROR_SOCKET_CLOSED], false) := by
  decide +kernel

end Sps.FlvProps
