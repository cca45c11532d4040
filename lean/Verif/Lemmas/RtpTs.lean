import Verif.Lemmas.Rtp
import Verif.Lemmas.TsHist
import Verif.Lemmas.Bytes
/-!
# MPEG-TS over RTP
-/
namespace Sps
open Spec Spec.Rtp

/-! ### A change of the handlers' state that they do not notice -/

/-- `f` on the state of a result. -/
def onState {σ τ α : Type} (f : σ → τ) (x : Option (Err × α × σ)) : Option (Err × α × τ) := x.map fun x => (x.1, x.2.1, f x.2.2)

namespace TsCtx
variable {σ : Type}

/-- The handlers commute with `f`. -/
structure Commutes (h : TsHandler σ) (f : σ → σ) : Prop where
  pes : ∀ d s, h.onPes d (f s) = (h.onPes d s).map fun x => (x.1, f x.2)
  pkt : ∀ p t u s, h.onPkt p t u (f s) = (h.onPkt p t u s).map fun x => (x.1, f x.2)

theorem decodePes_map {h : TsHandler σ} {f : σ → σ} (hc : Commutes h f) (pid : Nat) (hd : TsHeader) (s : PesSt) (rd : BitCtx) (st : σ) :
    decodePes h pid hd s rd (f st) = onState f (decodePes h pid hd s rd st) := by
  unfold decodePes onState
  dsimp only
  split
  · rfl
  split
  · rfl
  split
  · rw [Option.map_map]; rfl
  split
  · rfl
  cases s.buf with
  | none => simp only; rw [Option.map_map]; rfl
  | some d =>
    simp only [bind, hc.pes, pure]
    cases h.onPes _ st with
    | none => rfl
    | some x =>
      simp only [Option.map_some, Option.bind_some]
      split
      · rfl
      · rw [Option.map_map]; rfl

theorem decodeProgram_map {h : TsHandler σ} {f : σ → σ} (hc : Commutes h f) (c : TsCtx) (hd : TsHeader) (p : TsProgram) (rd : BitCtx) (st : σ) :
    decodeProgram h c hd p rd (f st) = onState f (decodeProgram h c hd p rd st) := by
  unfold decodeProgram
  cases p with
  | pat => simp only [onState]; rw [Option.map_map]; rfl
  | sdt => simp only [onState]; rw [Option.map_map]; rfl
  | pmt => simp only [onState]; rw [Option.map_map]; rfl
  | pes s =>
    simp only
    rw [decodePes_map hc]
    simp only [onState, Option.map_map]
    rfl

theorem decode_map {h : TsHandler σ} {f : σ → σ} (hc : Commutes h f) (c : TsCtx) (st : σ) (p : List UInt8) :
    decode h c (f st) p = onState f (decode h c st p) := by
  unfold decode
  simp only [bind, pure]
  cases Ts.packet.run (BitCtx.init p) with
  | none => rfl
  | some x =>
    obtain ⟨⟨e, hd⟩, rd⟩ := x
    simp only [Option.bind_some]
    split
    · rfl
    cases c.progs.find hd.pid with
    | none => rfl
    | some prog =>
      simp only
      split
      · rfl
      rw [decodeProgram_map hc]
      cases decodeProgram h c hd prog rd st with
      | none => rfl
      | some y =>
        obtain ⟨e1, c1, st1⟩ := y
        simp only [onState, Option.map_some, Option.bind_some]
        split
        · rfl
        rw [hc.pkt]
        cases h.onPkt p prog.type hd.pusi st1 <;> rfl

theorem feed_map {h : TsHandler σ} {f : σ → σ} (hc : Commutes h f) : ∀ (ps : List (List UInt8)) (c : TsCtx) (st : σ),
    Ts.feed h c (f st) ps = onState f (Ts.feed h c st ps)
  | [], _, _ => rfl
  | p :: ps, c, st => by
    unfold Ts.feed
    simp only [bind, pure]
    rw [decode_map hc]
    cases decode h c st p with
    | none => rfl
    | some y =>
      obtain ⟨e1, c1, st1⟩ := y
      simp only [onState, Option.map_some, Option.bind_some]
      split
      · rfl
      · exact feed_map hc ps c1 st1

theorem feed_append (h : TsHandler σ) : ∀ (ps qs : List (List UInt8)) (c : TsCtx) (st : σ),
    Ts.feed h c st (ps ++ qs) = (Ts.feed h c st ps).bind fun x => if x.1 ≠ Err.SUCCESS then some x else Ts.feed h x.2.1 x.2.2 qs
  | [], qs, c, st => by simp [Ts.feed]
  | p :: ps, qs, c, st => by
    rw [List.cons_append, Ts.feed, Ts.feed]
    simp only [bind, pure]
    cases decode h c st p with
    | none => rfl
    | some y =>
      obtain ⟨e1, c1, st1⟩ := y
      simp only [Option.bind_some]
      by_cases he : e1 ≠ Err.SUCCESS
      · rw [if_pos he, if_pos he]; simp only [Option.bind_some]; rw [if_pos he]
      · rw [if_neg he, if_neg he, feed_append h ps qs]

theorem chunks_append : ∀ (n : Nat) (p q : List UInt8) (m : Nat), p.length = 188 * n →
    Ts.chunks (n + m) (p ++ q) = Ts.chunks n p ++ Ts.chunks m q
  | 0, p, q, m, h => by
    have : p = [] := List.length_eq_zero_iff.1 (by omega)
    subst this
    simp [Ts.chunks]
  | n + 1, p, q, m, h => by
    rw [show n + 1 + m = (n + m) + 1 by omega, Ts.chunks, Ts.chunks, List.take_append_of_le_length (by omega),
      List.drop_append_of_le_length (by omega), chunks_append n (p.drop 188) q m (by simp; omega), List.cons_append]

end TsCtx

namespace TsCodec

/-- Packets put in front of the queue. -/
def behind (q : List AVPkt) (st : TsCodec) : TsCodec := { st with queue := q ++ st.queue }

theorem handler_commutes (q : List AVPkt) : TsCtx.Commutes handler (behind q) := by
  constructor
  · intro d s
    simp only [handler, onPes, behind]
    cases d.codecInput with
    | nothing => rfl
    | uninitialised => rfl
    | bytes b =>
      simp only
      split
      · unfold onH264
        simp only [Option.map_map]
        congr 1
        funext x
        simp only [Function.comp]
        split <;> simp
      · unfold onAac
        simp only [Option.map_map]
        congr 1
        funext x
        simp only [Function.comp]
        split <;> simp
  · intro p t u s; rfl

end TsCodec

namespace RtpTs

theorem result_plain {d : List UInt8} (h : valid d) (hx : field d 3 1 = 0) : RtpHeader.result d = (.ok (header d), fixedSize d) := by
  have := h.fixed
  unfold RtpHeader.result
  have : 12 ≤ fixedSize d := by unfold fixedSize; omega
  rw [if_neg (by omega), if_neg (by omega), if_pos hx]

theorem payload_plain {d : List UInt8} (hx : field d 3 1 = 0) (hp : field d 2 1 = 0) : payload d = d.drop (fixedSize d) := by
  unfold payload headSize padSize
  rw [if_neg (by omega), if_neg (by omega), Nat.add_zero, Nat.sub_zero]
  exact List.take_of_length_le (by simp)

theorem packet_eq {d : List UInt8} (h : tsDatagram d) (c : TsCtx) (st : TsCodec) :
    packet c st d = (Ts.feed TsCodec.handler c st (Ts.chunks ((payload d).length / 188) (payload d))).map fun x =>
      if x.1 ≠ Err.SUCCESS then (x.1, x.2, []) else (x.1, (x.2.1, { x.2.2 with queue := [] }), x.2.2.queue) := by
  unfold packet
  obtain ⟨bc, h1, h2⟩ := RtpHeader.packet_eq Rtp.isTs (c, st) (decode c st) d h.valid.small
  rw [h2, result_plain h.valid h.extension]
  rw [result_plain h.valid h.extension] at h1
  have ht : Rtp.isTs (header d).payloadType = true := by
    rw [show (header d).payloadType = 33 from h.type]; decide
  simp only [ht, Bool.true_eq_false, if_false]
  simp only at h1
  rw [← payload_plain h.extension h.padding] at h1
  unfold decode
  rw [h1.size]
  obtain ⟨c', e, _⟩ := h1.bytes (payload d).length (Nat.le_refl _)
  rw [e]
  simp only [Option.bind_some, List.take_length]
  rw [TsCtx.decodeAll_eq _ _ c st _ (Nat.lt_succ_self _), Option.map_map]
  congr 1
  funext x
  obtain ⟨e, c1, st1⟩ := x
  simp only [Function.comp, h.whole, ne_eq, not_true_eq_false, and_false, if_false]

end RtpTs

namespace RtpDemuxer

theorem second_byte {d : List UInt8} (h : tsDatagram d) : ∃ b, d[1]? = some b ∧ b.toNat = 33 := by
  have hv := h.valid.fixed
  have h12 : 12 ≤ fixedSize d := by unfold fixedSize; omega
  obtain ⟨b, hb⟩ : ∃ b, d[1]? = some b := ⟨d[1], by simp⟩
  refine ⟨b, hb, ?_⟩
  match d, hb with
  | a :: b' :: r, hb =>
    simp at hb
    subst hb
    have h1 := h.type
    have h2 := h.mark
    have hw : ∀ o w, field (a :: b' :: r) (8 + o) w = field (b' :: r) o w := by
      intro o w
      unfold field
      rw [bitsOf_cons, show 8 + o = (bitsOfNat 8 a.toNat).length + o by rw [bitsOfNat_length], List.drop_length_add_append]
    have hx : ∀ o w, o + w ≤ 8 → field (b' :: r) o w = field [b'] o w := by
      intro o w how
      unfold field
      rw [bitsOf_cons, bitsOf_cons, List.drop_append_of_le_length (by rw [bitsOfNat_length]; omega),
        List.drop_append_of_le_length (by rw [bitsOfNat_length]; omega),
        List.take_append_of_le_length (by rw [List.length_drop, bitsOfNat_length]; omega),
        List.take_append_of_le_length (by rw [List.length_drop, bitsOfNat_length]; omega)]
    rw [show (9 : Nat) = 8 + 1 by rfl, hw, hx 1 7 (by decide)] at h1
    rw [show (8 : Nat) = 8 + 0 by rfl, hw, hx 0 1 (by decide)] at h2
    have t : ∀ n : Fin 256, field [UInt8.ofNat n.val] 1 7 = 33 → field [UInt8.ofNat n.val] 0 1 = 0 → n.val = 33 := by decide +kernel
    have := t ⟨b'.toNat, b'.toNat_lt⟩
    simp only [UInt8.ofNat_toNat] at this
    exact this h1 h2

theorem datagram_eq {d : RtpDemuxer} {p : List UInt8} (h : tsDatagram p) :
    d.datagram p = (RtpTs.packet (d.ts.getD (TsCtx.create, {})).1 (d.ts.getD (TsCtx.create, {})).2 p).map fun x =>
      (x.1, { ts := some x.2.1, queue := d.queue ++ x.2.2 }) := by
  obtain ⟨b, h1, h2⟩ := second_byte h
  unfold datagram
  rw [h1]
  simp only [h2]
  rw [if_neg (by decide)]
  cases d.ts with
  | none => simp only [ne_eq, not_true_eq_false, if_false, Option.getD_none]
  | some x => rfl

/-- The payloads one after the other. -/
theorem deliver_feed : ∀ (ds : List (List UInt8)) (d : RtpDemuxer), (∀ p ∈ ds, tsDatagram p) →
    (∀ x, d.ts = some x → x.2.queue = []) → ds ≠ [] →
    match Ts.feed TsCodec.handler (d.ts.getD (TsCtx.create, {})).1 (d.ts.getD (TsCtx.create, {})).2
        (Ts.chunks ((ds.map payload).flatten.length / 188) (ds.map payload).flatten) with
    | none => deliver d ds = none
    | some (e, c, st) => ∃ d', deliver d ds = some (e, d') ∧
        (e = Err.SUCCESS → d' = { ts := some (c, { st with queue := [] }), queue := d.queue ++ st.queue })
  | [], _, _, _, h => absurd rfl h
  | p :: ds, d, h, hq, _ => by
    have hp := h p (by simp)
    have hw := hp.whole
    have hsum : ((p :: ds).map payload).flatten.length / 188 = (payload p).length / 188 + (ds.map payload).flatten.length / 188 := by
      simp only [List.map_cons, List.flatten_cons, List.length_append]; omega
    rw [hsum, List.map_cons, List.flatten_cons, TsCtx.chunks_append _ _ _ _ (by omega), TsCtx.feed_append, deliver, datagram_eq hp,
      RtpTs.packet_eq hp]
    generalize hs0 : d.ts.getD (TsCtx.create, {}) = s0
    have hq0 : s0.2.queue = [] := by
      cases ht : d.ts with
      | none => rw [ht] at hs0; subst hs0; rfl
      | some x => rw [ht] at hs0; subst hs0; exact hq x ht
    cases hf : Ts.feed TsCodec.handler s0.1 s0.2 (Ts.chunks ((payload p).length / 188) (payload p)) with
    | none => rfl
    | some y =>
      obtain ⟨e, c, st⟩ := y
      simp only [Option.map_some, Option.bind_some]
      by_cases he : e = Err.SUCCESS
      · subst he
        simp only [ne_eq, not_true_eq_false, if_false]
        by_cases hds : ds = []
        · subst hds
          simp only [List.map_nil, List.flatten_nil, List.length_nil, Nat.zero_div, Ts.chunks, Ts.feed]
          exact ⟨_, rfl, fun _ => rfl⟩
        · have ih := deliver_feed ds { ts := some (c, { st with queue := [] }), queue := d.queue ++ st.queue } (fun q hq => h q (by simp [hq]))
            (by intro x hx; cases hx; rfl) hds
          simp only [Option.getD_some] at ih
          have hm := TsCtx.feed_map (TsCodec.handler_commutes st.queue)
            (Ts.chunks ((ds.map payload).flatten.length / 188) (ds.map payload).flatten) c { st with queue := [] }
          rw [show TsCodec.behind st.queue { st with queue := [] } = st by simp [TsCodec.behind]] at hm
          rw [hm]
          cases hr : Ts.feed TsCodec.handler c { st with queue := [] } (Ts.chunks ((ds.map payload).flatten.length / 188) (ds.map payload).flatten) with
          | none => rw [hr] at ih; exact ih
          | some z =>
            rw [hr] at ih
            obtain ⟨e2, c2, st2⟩ := z
            simp only at ih
            obtain ⟨d', i1, i2⟩ := ih
            simp only [onState, Option.map_some]
            refine ⟨d', i1, fun h => ?_⟩
            rw [i2 h]
            simp [TsCodec.behind]
      · simp only [ne_eq, he, not_false_eq_true, if_true]
        exact ⟨_, rfl, fun h => h.elim⟩

/-! ### Reading the packets -/

/-- The packets that wait do not influence what a datagram does. -/
theorem datagram_queue (s : Option (TsCtx × TsCodec)) (a b : List AVPkt) (p : List UInt8) :
    datagram { ts := s, queue := a ++ b } p = (datagram { ts := s, queue := b } p).map fun x => (x.1, { x.2 with queue := a ++ x.2.queue }) := by
  unfold datagram
  cases p[1]? with
  | none => rfl
  | some c =>
    simp only
    split
    · rw [Option.map_map]; congr 1; funext r; cases r <;> rfl
    · cases s with
      | none =>
        simp only
        split
        · rfl
        · rw [Option.map_map]; congr 1; funext r; simp [Function.comp]
      | some x =>
        simp only
        rw [Option.map_map]; congr 1; funext r; simp [Function.comp]

theorem deliver_queue (a : List AVPkt) : ∀ (ds : List (List UInt8)) (s : Option (TsCtx × TsCodec)) (b : List AVPkt),
    deliver { ts := s, queue := a ++ b } ds = (deliver { ts := s, queue := b } ds).map fun x => (x.1, { x.2 with queue := a ++ x.2.queue })
  | [], _, _ => rfl
  | p :: ds, s, b => by
    rw [deliver, deliver, datagram_queue]
    cases datagram { ts := s, queue := b } p with
    | none => rfl
    | some x =>
      obtain ⟨e, d⟩ := x
      simp only [Option.map_some, Option.bind_some]
      split
      · rfl
      · rw [deliver_queue a ds d.ts d.queue]

/-- One datagram as one read into the cleared buffer. -/
theorem acquire_datagram (r : Reader) (p : List UInt8) (evs : List IoEv) (cl : Err) (hr : r.io = some { evs := .data p :: evs, closed := cl })
    (hp : 12 ≤ p.length) (hc : p.length ≤ r.buf.cap) (hcap : r.buf.cap < 2 ^ 31) :
    ∃ r', Reader.acquire { r with buf := r.buf.clear } 12 = some (Err.SUCCESS, r') ∧ (∃ r'', r'.bytes r'.size = some (p, r'')) ∧
      r'.io = some { evs := evs, closed := cl } ∧ r'.buf.cap = r.buf.cap ∧ r'.buf.rewindable = r.buf.rewindable := by
  have hs : ∀ n, n < 2 ^ 31 → subSz n 0 = n := by intro n hn; unfold subSz; omega
  have hm : p.length ≤ r.buf.mem.length := hc
  have hb : ∃ r'', Reader.bytes { buf := { mem := p ++ r.buf.mem.drop p.length, ptr := 0, fin := p.length, rewindable := r.buf.rewindable }, io := some { evs := evs, closed := cl } } (Reader.size { buf := { mem := p ++ r.buf.mem.drop p.length, ptr := 0, fin := p.length, rewindable := r.buf.rewindable }, io := some { evs := evs, closed := cl } }) = some (p, r'') := by
    unfold Reader.bytes Reader.size AVBuf.size
    simp only [hs p.length (by omega), AVBuf.cap, List.length_append, List.length_drop, Nat.zero_add]
    rw [if_pos (by omega), List.drop_zero, List.take_left']
    · exact ⟨_, rfl⟩
    · rfl
  refine ⟨{ buf := { mem := p ++ r.buf.mem.drop p.length, ptr := 0, fin := p.length, rewindable := r.buf.rewindable }, io := some { evs := evs, closed := cl } },
    ?_, hb, rfl, ?_, rfl⟩
  · have h1 : (AVBuf.clear r.buf).size = 0 := hs 0 (by decide)
    have h2 : (AVBuf.clear r.buf).noRewindCap = r.buf.cap := hs _ hcap
    have h3 : (AVBuf.clear r.buf).remain = r.buf.cap := hs _ hcap
    unfold Reader.acquire
    simp only [h1, h2]
    rw [if_neg (by omega), if_neg (show ¬ (AVBuf.clear r.buf).capSize < 12 by
      unfold AVBuf.capSize; rw [h2]; split
      · exact (by omega : ¬ r.buf.cap < 12)
      · omega), if_neg (by omega)]
    simp only [h2]
    rw [if_pos (by omega), Reader.acquireLoop]
    simp only [hr, h3, Io.read]
    rw [if_neg (by omega), if_pos hc]
    simp only [AVBuf.poke, AVBuf.clear, AVBuf.cap, Nat.zero_add, hm, if_true, AVBuf.append, AVBuf.size, List.take_zero, List.nil_append]
    rw [hs _ (by omega), if_neg (by omega)]
  · simp [AVBuf.cap]; omega

/-- The transport has the datagrams `ds`, which fit the buffer. -/
structure On (r : Reader) (ds : List (List UInt8)) (cl : Err) : Prop where
  io : r.io = some { evs := ds.map .data, closed := cl }
  cap : 12 ≤ r.buf.cap
  cap_lt : r.buf.cap < 2 ^ 31
  fit : ∀ p ∈ ds, 12 ≤ p.length ∧ p.length ≤ r.buf.cap

theorem acquire_closed (r : Reader) (cl : Err) (h : On r [] cl) :
    ∃ r', Reader.acquire { r with buf := r.buf.clear } 12 = some (cl, r') := by
  have hs : ∀ n, n < 2 ^ 31 → subSz n 0 = n := by intro n hn; unfold subSz; omega
  have h12 := h.cap
  have h1 : (AVBuf.clear r.buf).size = 0 := hs 0 (by decide)
  have h2 : (AVBuf.clear r.buf).noRewindCap = r.buf.cap := hs _ h.cap_lt
  have h3 : (AVBuf.clear r.buf).remain = r.buf.cap := hs _ h.cap_lt
  unfold Reader.acquire
  simp only [h1, h2]
  rw [if_neg (by omega), if_neg (show ¬ (AVBuf.clear r.buf).capSize < 12 by
    unfold AVBuf.capSize; rw [h2]; split
    · exact (by omega : ¬ r.buf.cap < 12)
    · omega), if_neg (by omega)]
  simp only [h2]
  rw [if_pos (by omega), Reader.acquireLoop]
  simp only [h.io, h3, Io.read, List.map_nil]
  rw [if_neg (by omega)]
  exact ⟨_, rfl⟩

/-- One call of `read_packet`: the next packet, or the end of the transport. -/
theorem readPacket_all (cl : Err) (hcl : cl ≠ Err.SUCCESS) : ∀ (ds : List (List UInt8)) (fuel : Nat) (r : Reader) (d d' : RtpDemuxer),
    ds.length < fuel → On r ds cl → deliver d ds = some (Err.SUCCESS, d') →
    (d'.queue = [] ∧ ∃ r', readPacket fuel r d = some (cl, none, r', d')) ∨
    (∃ a ds2 r2 d2 d3, readPacket fuel r d = some (Err.SUCCESS, some a, r2, d2) ∧ ds2.length ≤ ds.length ∧ On r2 ds2 cl ∧
      deliver d2 ds2 = some (Err.SUCCESS, d3) ∧ d' = { d3 with queue := a :: d3.queue })
  | ds, 0, _, _, _, hf, _, _ => by omega
  | ds, fuel + 1, r, { ts := s, queue := a :: q }, d', hf, hr, hd => by
    refine Or.inr ⟨a, ds, { r with buf := r.buf.clear }, { ts := s, queue := q }, ?_⟩
    have hq := deliver_queue [a] ds s q
    rw [List.singleton_append, hd] at hq
    cases h3 : deliver { ts := s, queue := q } ds with
    | none => rw [h3] at hq; cases hq
    | some x =>
      obtain ⟨e, d3⟩ := x
      rw [h3] at hq
      simp only [Option.map_some, Option.some.injEq, Prod.mk.injEq] at hq
      obtain ⟨he, hd3⟩ := hq
      subst he
      exact ⟨d3, rfl, Nat.le_refl _, ⟨hr.io, hr.cap, hr.cap_lt, hr.fit⟩, rfl, hd3⟩
  | [], fuel + 1, r, { ts := s, queue := [] }, d', hf, hr, hd => by
    cases hd
    obtain ⟨r', h1⟩ := acquire_closed r cl hr
    refine Or.inl ⟨rfl, r', ?_⟩
    rw [readPacket]
    simp only [h1, Option.bind_some]
    rw [if_pos hcl]
  | p :: ds, fuel + 1, r, { ts := s, queue := [] }, d', hf, hr, hd => by
    obtain ⟨h12, hfit⟩ := hr.fit p (by simp)
    obtain ⟨r', h1, ⟨r'', h2⟩, h3, h4, h5⟩ := acquire_datagram r p _ cl hr.io h12 hfit hr.cap_lt
    rw [deliver] at hd
    cases hp : datagram { ts := s, queue := [] } p with
    | none => rw [hp] at hd; cases hd
    | some x =>
      obtain ⟨e, d1⟩ := x
      rw [hp] at hd
      simp only [Option.bind_some] at hd
      split at hd
      · rename_i he; cases hd; exact absurd rfl he
      · rename_i he
        simp only [List.length_cons] at hf
        have := readPacket_all cl hcl ds fuel r' d1 d' (by omega)
          ⟨h3, h4 ▸ hr.cap, h4 ▸ hr.cap_lt, fun q hq => h4 ▸ hr.fit q (by simp [hq])⟩ hd
        have hstep : readPacket (fuel + 1) r { ts := s, queue := [] } = readPacket fuel r' d1 := by
          rw [readPacket]
          simp only [h1, Option.bind_some, ne_eq, not_true_eq_false, if_false, h2, hp, he]
        rw [hstep]
        rcases this with h | ⟨a, ds2, r2, d2, d3, g1, g2, g3⟩
        · exact Or.inl h
        · exact Or.inr ⟨a, ds2, r2, d2, d3, g1, by simp only [List.length_cons]; omega, g3⟩

/-- Reading until the transport is closed returns the packets of all the datagrams in order. -/
theorem session_all (cl : Err) (hcl : cl ≠ Err.SUCCESS) (fuel : Nat) : ∀ (n : Nat) (ds : List (List UInt8)) (r : Reader) (d d' : RtpDemuxer),
    ds.length < fuel → On r ds cl → deliver d ds = some (Err.SUCCESS, d') → n = d'.queue.length →
    session fuel (n + 1) r d = some (cl, d'.queue, { d' with queue := [] })
  | n, ds, r, d, d', hf, hr, hd, hn => by
    rw [session]
    rcases readPacket_all cl hcl ds fuel r d d' hf hr hd with ⟨h1, r', h2⟩ | ⟨a, ds2, r2, d2, d3, g1, g2, g3, g4, g5⟩
    · rw [h2]
      simp only [Option.bind_some]
      rw [if_pos hcl, h1]
      obtain ⟨t, q⟩ := d'
      simp only at h1
      rw [h1]
    · subst g5
      simp only [List.length_cons] at hn
      match n, hn with
      | n + 1, hn =>
        rw [g1]
        simp only [Option.bind_some, ne_eq, not_true_eq_false, if_false]
        rw [session_all cl hcl fuel n ds2 r2 d2 d3 (by omega) g3 g4 (by omega)]
        rfl

end RtpDemuxer
end Sps
