import Verif.Lemmas.RtpCodec
import Verif.Props.Rtp
/-!
# The RTP demuxer for an agreed codec (C122)
-/
namespace Sps.RtpCodecProps
open Spec Spec.Rtp Sps.RtpCodecDemuxer

/-! ## Helpers -/

/-- The second byte of a packet with an agreed payload type is not that of RTCP, with and without marker bit. -/
theorem second_byte {d : List UInt8} (h : dynamicDatagram d) : ∃ b, d[1]? = some b ∧ Rtp.isRtcp b.toNat = false := by
  have hv := h.valid.fixed
  have h12 : 12 ≤ fixedSize d := by unfold fixedSize; omega
  obtain ⟨b, hb⟩ : ∃ b, d[1]? = some b := ⟨d[1], by simp⟩
  refine ⟨b, hb, ?_⟩
  match d, hb with
  | a :: b' :: r, hb =>
    simp at hb
    subst hb
    have h1 := h.type
    have hw : ∀ o w, field (a :: b' :: r) (8 + o) w = field (b' :: r) o w := by
      intro o w
      unfold field
      rw [bitsOf_cons, show 8 + o = (bitsOfNat 8 a.toNat).length + o by rw [bitsOfNat_length], List.drop_length_add_append]
    have hx : ∀ o w, o + w ≤ 8 → field (b' :: r) o w = field [b'] o w := by
      intro o w how
      unfold field
      rw [bitsOf_cons, bitsOf_cons, List.drop_append_of_le_length (by rw [bitsOfNat_length]; omega),
        List.drop_append_of_le_length (by rw [bitsOfNat_length]; omega),
        List.take_append_of_le_length (by rw [List.length_drop, bitsOfNat_length]; omega),
        List.take_append_of_le_length (by rw [List.length_drop, bitsOfNat_length]; omega)]
    rw [show (9 : Nat) = 8 + 1 by rfl, hw, hx 1 7 (by decide)] at h1
    have t : ∀ n : Fin 256, 96 ≤ field [UInt8.ofNat n.val] 1 7 → Rtp.isRtcp n.val = false := by decide +kernel
    have := t ⟨b'.toNat, b'.toNat_lt⟩
    simp only [UInt8.ofNat_toNat] at this
    exact this h1

theorem dynamic_type {d : List UInt8} (h : dynamicDatagram d) : Rtp.isDynamic (header d).payloadType = true := by
  have h1 := h.type
  have h2 : field d 9 7 < 2 ^ 7 := by
    unfold field
    refine Nat.lt_of_lt_of_le (bitsVal_lt _) (Nat.pow_le_pow_right (by decide) ?_)
    rw [List.length_take]; omega
  simp only [Rtp.isDynamic, Bool.and_eq_true, decide_eq_true_eq, show (header d).payloadType = field d 9 7 from rfl]
  omega

/-- The front of every decoder on such a packet: the payload decoder gets the header and a context at the payload. -/
theorem packet_body {α : Type} (st : α) (body : RtpHeader → BitCtx → Option (Err × α × List AVPkt)) {d : List UInt8} (h : dynamicDatagram d) :
    ∃ c, c.Al (payload d) ∧ RtpHeader.packet Rtp.isDynamic st body d = body (header d) c := by
  obtain ⟨c, h1, h2⟩ := RtpHeader.packet_eq Rtp.isDynamic st body d h.valid.small
  rw [RtpTs.result_plain h.valid h.extension] at h1 h2
  refine ⟨c, by rw [RtpTs.payload_plain h.extension h.padding]; exact h1, ?_⟩
  rw [h2]
  simp only [dynamic_type h, Bool.true_eq_false, if_false]

/-- `decode_step` for a context somewhere in a packet. -/
theorem decode_al {p : List UInt8} {bc : BitCtx} (al : bc.Al p) (mem0 : List UInt8) (hm : mem0.length = 2 ^ 20) (now : Int) (h : RtpHeader)
    {s : Option CharBuf} {a : Option (List UInt8)} (ha : RtpH264.Holds s a) :
    match step (context now h.timestamp) a p with
    | none => RtpH264.decode mem0 now s h bc = none
    | some (e, a', pk) => ∃ s', RtpH264.decode mem0 now s h bc = some (e, s', pk) ∧ RtpH264.Holds s' a' := by
  match p, al with
  | [], al => rw [RtpH264.decode_nil _ _ _ _ al]; exact ⟨s, rfl, ha⟩
  | b :: r, al =>
    rw [RtpH264.decode_eq _ _ _ _ al]
    rw [step]
    by_cases h1 : 1 ≤ b.toNat % 32 ∧ b.toNat % 32 ≤ 23
    · rw [if_pos h1, if_pos h1]; exact ⟨s, rfl, ha⟩
    · rw [if_neg h1, if_neg h1]
      by_cases h2 : 24 ≤ b.toNat % 32 ∧ b.toNat % 32 ≤ 27
      · rw [if_pos h2, if_pos h2]
        cases aggregate (context now h.timestamp) (b.toNat % 32) (b :: r) with
        | none => rfl
        | some x => exact ⟨s, rfl, ha⟩
      · rw [if_neg h2, if_neg h2]
        by_cases h3 : b.toNat % 32 = 28 ∨ b.toNat % 32 = 29
        · rw [if_pos h3, if_pos h3]; exact RtpH264.fu_step al mem0 hm now h.timestamp ha
        · rw [if_neg h3, if_neg h3]; exact ⟨s, rfl, ha⟩

theorem arrive_heard (env : Nat → List UInt8 × Int) (he : ∀ n, (env n).1.length = 2 ^ 20) : ∀ (ds : List (List UInt8)) (n : Nat) (q : List AVPkt)
    (s : Option CharBuf) (a : Option (List UInt8)), RtpH264.Holds s a → (∀ p ∈ ds, dynamicDatagram p) →
    match heard a (calls env n ds) with
    | none => arrive env { dec := some (.h264 s), n := n, queue := q } ds = none
    | some (e, pk) => ∃ d, arrive env { dec := some (.h264 s), n := n, queue := q } ds = some (e, d) ∧ d.queue = q ++ pk
  | [], _, q, _, _, _, _ => ⟨_, rfl, by simp⟩
  | p :: ds, n, q, s, a, ha, h => by
    have hp := h p (by simp)
    obtain ⟨b, hb, hr⟩ := second_byte hp
    obtain ⟨c, hc, hk⟩ := packet_body s (RtpH264.decode (env n).1 (env n).2 s) hp
    have hs := decode_al hc (env n).1 (he n) (env n).2 (header p) ha
    have hd : datagram env { dec := some (.h264 s), n := n, queue := q } p =
        (RtpH264.decode (env n).1 (env n).2 s (header p) c).map fun (e, s, pk) => (e, { dec := some (.h264 s), n := n + 1, queue := q ++ pk }) := by
      unfold datagram
      rw [hb]
      simp only [hr, Bool.false_eq_true, if_false]
      unfold RtpCodecDemuxer.decode RtpH264.packet
      simp only
      rw [hk]
    rw [calls, heard, arrive, hd]
    simp only
    cases ht : step (context (env n).2 (header p).timestamp) a (payload p) with
    | none => rw [ht] at hs; simp only at hs; rw [hs]; rfl
    | some x =>
      obtain ⟨e, a', pk⟩ := x
      rw [ht] at hs
      obtain ⟨s', h1, h2⟩ := hs
      rw [h1]
      simp only [Option.map_some, Option.bind_some]
      by_cases hee : e = Err.SUCCESS
      · subst hee
        simp only [ne_eq, not_true_eq_false, if_false]
        have ih := arrive_heard env he ds (n + 1) (q ++ pk) s' a' h2 fun x hx => h x (by simp [hx])
        cases hh : heard a' (calls env (n + 1) ds) with
        | none => rw [hh] at ih; exact ih
        | some y =>
          rw [hh] at ih
          obtain ⟨d, i1, i2⟩ := ih
          exact ⟨d, i1, by rw [i2, List.append_assoc]⟩
      · simp only [ne_eq, hee, not_false_eq_true, if_true]
        exact ⟨_, rfl, rfl⟩

/-! ## C122 -/

/-- **C122**, H.264: a demuxer that was told that the codec is H.264 accepts it, and whatever datagrams with agreed payload types arrive, with
and without marker bit, the packets that wait are what RFC 6184's dispatch makes of the payloads, in order, up to the first error. -/
theorem C122_h264 (env : Nat → List UInt8 × Int) (he : ∀ n, (env n).1.length = 2 ^ 20) (ds : List (List UInt8)) (h : ∀ p ∈ ds, dynamicDatagram p) :
    (initCodec 7 {}).1 = Err.SUCCESS ∧
    match heard none (calls env 0 ds) with
    | none => arrive env (initCodec 7 {}).2 ds = none
    | some (e, pk) => ∃ d, arrive env (initCodec 7 {}).2 ds = some (e, d) ∧ d.queue = pk := by
  refine ⟨rfl, ?_⟩
  have := arrive_heard env he ds 0 [] none none trivial h
  simpa [initCodec] using this

/-- **C122**, H.264: a caller that reads packets from a transport on which these datagrams arrive gets exactly these packets, in order, and then
the error with which the transport ends. -/
theorem C122_read (env : Nat → List UInt8 × Int) (he : ∀ n, (env n).1.length = 2 ^ 20) (ds : List (List UInt8)) (h : ∀ p ∈ ds, dynamicDatagram p)
    (cl : Err) (hcl : cl ≠ Err.SUCCESS) (mem0 : List UInt8) (hm : mem0.length < 2 ^ 31) (hm12 : 12 ≤ mem0.length)
    (hfit : ∀ p ∈ ds, p.length ≤ mem0.length) {pk : List AVPkt} (hh : heard none (calls env 0 ds) = some (Err.SUCCESS, pk)) :
    ∃ d, session env (ds.length + 1) (pk.length + 1) (Reader.onIo mem0 { evs := ds.map .data, closed := cl }) (initCodec 7 {}).2 = some (cl, pk, d) := by
  have := (C122_h264 env he ds h).2
  rw [hh] at this
  obtain ⟨d, h1, h2⟩ := this
  refine ⟨{ d with queue := [] }, ?_⟩
  rw [← h2]
  refine session_all env cl hcl (ds.length + 1) _ ds _ _ d (Nat.lt_succ_self _) ⟨rfl, hm12, hm, ?_⟩ h1 rfl
  intro p hp
  refine ⟨?_, hfit p hp⟩
  have := (h p hp).valid.fixed
  unfold fixedSize at this
  omega

/-- **C122**, RTCP packets between the media packets change nothing, whatever the codec. -/
theorem C122_reports (env : Nat → List UInt8 × Int) : ∀ (ds : List (List UInt8)) (d : RtpCodecDemuxer),
    arrive env d ds = arrive env d (ds.filter fun p => !rtcpWhole p)
  | [], d => rfl
  | p :: ps, d => by
    cases h : rtcpWhole p with
    | true =>
      have hd : datagram env d p = some (Err.SUCCESS, d) := by
        have := rtcp_datagram {} p h
        unfold RtpDemuxer.datagram at this
        unfold datagram
        cases hb : p[1]? with
        | none => rw [hb] at this; cases this
        | some b =>
          simp only [rtcpWhole, Bool.and_eq_true, Bool.or_eq_true, decide_eq_true_eq, beq_iff_eq] at h
          obtain ⟨⟨h1, h2⟩, h3⟩ := h
          obtain ⟨b', hb', hb2⟩ := rtcp_byte (p := p) (by omega)
          rw [hb] at hb'
          cases hb'
          have ht : 200 ≤ rtcpType p ∧ rtcpType p ≤ 204 := by rcases h3 with (((h | h) | h) | h) | h <;> omega
          have hr : Rtp.isRtcp b.toNat = true := by simp only [Rtp.isRtcp, Bool.and_eq_true, decide_eq_true_eq]; omega
          rw [hb] at this
          simp only [hr, if_true] at this ⊢
          cases hx : Rtcp.decode p with
          | none => rw [hx] at this; cases this
          | some r =>
            rw [hx] at this
            cases r with
            | error e => simp at this; subst this; rfl
            | ok r => rfl
      rw [List.filter_cons_of_neg (by rw [h]; decide), arrive, hd, Option.bind_some]
      simp only
      rw [if_neg (by decide)]
      exact C122_reports env ps d
    | false =>
      rw [List.filter_cons_of_pos (by rw [h]; decide), arrive, arrive]
      congr 1
      funext x
      obtain ⟨e, d'⟩ := x
      simp only
      rw [C122_reports env ps d']

/-- `C67_units` for a context somewhere in a packet. -/
theorem units_al (h : RtpHeader) (us : List (Nat × List UInt8)) {p : List UInt8} {bc : BitCtx} (al : bc.Al p) (hp : bitsOf p = aacBits us)
    (hu : ∀ u ∈ us, u.1 < 8 ∧ u.2.length < 2 ^ 13) (hn : us.length < 2 ^ 12) :
    RtpAac.decode h bc = some (Err.SUCCESS, us.map fun u => aacPacket h.timestamp u.2) := by
  have hs : bc.pos + p.length < 2 ^ 29 := by have := al.length; have := al.pos_le; have := al.small; omega
  have h13 : ∀ l : List (Nat × List UInt8), (fieldBits (l.flatMap fun u => [(u.2.length, 13), (u.1, 3)])).length = 16 * l.length := by
    intro l
    induction l with
    | nil => rfl
    | cons a l ih =>
      rw [List.flatMap_cons]
      simp only [List.cons_append, List.nil_append, BProg.fieldBits_cons, List.length_append, bitsOfNat_length, List.length_cons]
      rw [ih]
      omega
  have hlen := congrArg List.length hp
  unfold aacBits at hp hlen
  simp only [BProg.fieldBits_cons, List.length_append, bitsOfNat_length, bitsOf_length, h13 us] at hlen
  have hb : Spec.onBits RtpAac.auHeader (8 * bc.pos) (bitsOf p) =
      some (.ok (us.map (·.2.length)), 8 * (bc.pos + (2 + 2 * us.length)), bitsOf (us.flatMap (·.2))) := by
    unfold RtpAac.auHeader
    rw [hp]
    simp only [BProg.fieldBits_cons, List.append_assoc]
    have e16 : 16 * us.length % 2 ^ 16 = 16 * us.length := Nat.mod_eq_of_lt (by omega)
    have hnb : ((16 * us.length + 7) / 8) / 2 = us.length := by omega
    rw [BProg.on_bind, BProg.acq_on _ _ _ (by decide) (by simp [bitsOfNat_length])]
    simp only [Option.bind_some]
    rw [if_neg (by decide)]
    simp (discharger := decide) only [BProg.on_bind, BProg.rd_field, Option.bind_some, e16, hnb]
    rw [BProg.acq_on _ _ _ (by omega) (by rw [List.length_append, h13 us]; omega)]
    simp only [Option.bind_some]
    rw [if_neg (by decide)]
    simp only [BProg.on_bind]
    rw [RtpAac.sizes_bits us _ _ hu]
    simp only [Option.bind_some, BProg.on_pure]
    congr 3
    omega
  obtain ⟨c, h1, h2⟩ := BProg.run_of al.at hb
  have al2 := BProg.At.al h2 (by omega)
  unfold RtpAac.decode
  rw [h1]
  simp only [Option.bind_some]
  have hm : us.map (·.2.length) = (us.map (·.2)).map (·.length) := by rw [List.map_map]; rfl
  have hf : us.flatMap (·.2) = (us.map (·.2)).flatten := by rw [List.flatMap_def]
  rw [hf] at al2
  rw [hm, RtpAac.units_al h.timestamp (us.map (·.2)) c [] [] (by simpa using al2), List.nil_append, List.map_map]
  rfl

/-- **C122** fails for AAC: the codec is known and its decoder is set up, but the caller is told that it is not supported. -/
theorem C122_negation_aac (d : RtpCodecDemuxer) : initCodec 10 d = (Err.ERROR_RTP_PROBE, { d with dec := some .aac }) := rfl

/-- **C122**, other codecs are refused and nothing changes. -/
theorem C122_refused (id : Nat) (h : id ≠ 7) (h' : id ≠ 10) (d : RtpCodecDemuxer) : initCodec id d = (Err.ERROR_RTP_PROBE, d) := by
  unfold initCodec; rw [if_neg h, if_neg h']

theorem arrive_units (env : Nat → List UInt8 × Int) : ∀ (xs : List (List UInt8 × List (Nat × List UInt8))) (n : Nat) (q : List AVPkt),
    (∀ x ∈ xs, aacDatagram x.1 x.2) →
    arrive env { dec := some .aac, n := n, queue := q } (xs.map (·.1)) = some (Err.SUCCESS,
      { dec := some .aac, n := n + xs.length, queue := q ++ xs.flatMap fun x => x.2.map fun u => aacPacket (header x.1).timestamp u.2 })
  | [], n, q, _ => by simp [arrive]
  | (p, us) :: xs, n, q, h => by
    have hp := h (p, us) (by simp)
    obtain ⟨b, hb, hr⟩ := second_byte hp.datagram
    obtain ⟨c, hc, hk⟩ := packet_body () (fun h c => (RtpAac.decode h c).map fun (e, pk) => (e, (), pk)) hp.datagram
    have hd : datagram env { dec := some .aac, n := n, queue := q } p =
        some (Err.SUCCESS, { dec := some .aac, n := n + 1, queue := q ++ us.map fun u => aacPacket (header p).timestamp u.2 }) := by
      unfold datagram
      rw [hb]
      simp only [hr, Bool.false_eq_true, if_false]
      unfold RtpCodecDemuxer.decode RtpAac.packet
      simp only
      rw [hk, units_al (header p) us hc hp.units hp.small hp.few]
      rfl
    rw [List.map_cons, arrive, hd]
    simp only [Option.bind_some, ne_eq, not_true_eq_false, if_false]
    rw [arrive_units env xs (n + 1) _ fun x hx => h x (by simp [hx])]
    simp [List.append_assoc]
    omega

/-- **C122**, AAC: a caller that goes on in spite of the error gets exactly the access units of all datagrams, in order, with the time stamp of
their datagram.

Missing: `init_codec` reports an error for AAC (`C122_negation_aac`). -/
theorem C122_aac_partial (env : Nat → List UInt8 × Int) (xs : List (List UInt8 × List (Nat × List UInt8))) (h : ∀ x ∈ xs, aacDatagram x.1 x.2) :
    ∃ d, arrive env (initCodec 10 {}).2 (xs.map (·.1)) = some (Err.SUCCESS, d) ∧
      d.queue = xs.flatMap fun x => x.2.map fun u => aacPacket (header x.1).timestamp u.2 :=
  ⟨_, arrive_units env xs 0 [] h, rfl⟩

/-- **C122**, without a codec the demuxer is the one that finds transport streams (C66). -/
theorem C122_none (env : Nat → List UInt8 × Int) : ∀ (ds : List (List UInt8)) (s : Option (TsCtx × TsCodec)) (n : Nat) (q : List AVPkt),
    (arrive env { dec := s.map .ts, n := n, queue := q } ds).map (fun x => (x.1, x.2.queue)) =
      (deliver { ts := s, queue := q } ds).map fun x => (x.1, x.2.queue)
  | [], _, _, _ => rfl
  | p :: ds, s, n, q => by
    rw [arrive, deliver]
    have key : ∀ (y : Option (Err × (TsCtx × TsCodec) × List AVPkt)),
        ((y.map fun (e, s, pk) => (e, ({ dec := some (.ts s), n := n + 1, queue := q ++ pk } : RtpCodecDemuxer))).bind fun (e, d) =>
          if e ≠ Err.SUCCESS then some (e, d) else arrive env d ds).map (fun x => (x.1, x.2.queue)) =
        ((y.map fun (e, s, pk) => (e, ({ ts := some s, queue := q ++ pk } : RtpDemuxer))).bind fun (e, d) =>
          if e ≠ Err.SUCCESS then some (e, d) else deliver d ds).map (fun x => (x.1, x.2.queue)) := by
      intro y
      cases y with
      | none => rfl
      | some y =>
        obtain ⟨e, s', pk⟩ := y
        simp only [Option.map_some, Option.bind_some]
        split
        · rfl
        · exact C122_none env ds (some s') (n + 1) (q ++ pk)
    unfold datagram RtpDemuxer.datagram
    cases p[1]? with
    | none => rfl
    | some b =>
      simp only
      split
      · cases Rtcp.decode p with
        | none => rfl
        | some r =>
          cases r with
          | error e =>
            simp only [Option.map_some, Option.bind_some]
            split
            · rfl
            · exact C122_none env ds s n q
          | ok r =>
            simp only [Option.map_some, Option.bind_some]
            split
            · rfl
            · exact C122_none env ds s n q
      · cases s with
        | none =>
          simp only [Option.map_none]
          split
          · simp
          · exact key _
        | some x => exact key _

/-! ## What a sender sends -/

theorem heard_append : ∀ (cs cs' : List Call) (st st' : Option (List UInt8)) (l : List (Err × List AVPkt)), answers st cs = some (l, st') →
    (∀ x ∈ l, x.1 = Err.SUCCESS) → heard st (cs ++ cs') = (heard st' cs').map fun x => (x.1, l.flatMap (·.2) ++ x.2)
  | [], cs', st, st', l, h, _ => by
    cases h
    cases hh : heard st cs' <;> simp [hh]
  | c :: cs, cs', st, st', l, h, hl => by
    rw [answers] at h
    rw [List.cons_append, heard]
    cases hs : step (context c.now c.header.timestamp) st c.payload with
    | none => rw [hs] at h; cases h
    | some x =>
      obtain ⟨e, s1, pk⟩ := x
      rw [hs] at h
      simp only [Option.bind_some, Option.map_eq_some_iff] at h ⊢
      obtain ⟨y, h1, h2⟩ := h
      obtain ⟨l', s2⟩ := y
      cases h2
      have he : e = Err.SUCCESS := hl (e, pk) (by simp)
      rw [if_neg (by simp [he]), heard_append cs cs' s1 s2 l' h1 fun x hx => hl x (by simp [hx]), Option.map_map]
      congr 1
      funext x
      simp

theorem answers_fragments (h : UInt8) (don : Option (UInt8 × UInt8)) (d : List UInt8) (ds : List (List UInt8)) (hd : ds ≠ [])
    (hl : (h :: d ++ ds.flatten).length ≤ 2 ^ 20) (cs : List Call) (last : Call)
    (hp : (cs ++ [last]).map (·.payload) = fragments h don d ds) :
    answers none (cs ++ [last]) = some (List.replicate cs.length (Err.SUCCESS, []) ++ [unitAnswer (context last.now last.header.timestamp) (h :: d ++ ds.flatten)],
      if (unitAnswer (context last.now last.header.timestamp) (h :: d ++ ds.flatten)).1 = Err.SUCCESS then none else some (h :: d ++ ds.flatten)) := by
  match cs, hp with
  | [], hp =>
    have := congrArg List.length hp
    match ds, hd with
    | [x], _ => simp [fragments, tailFragments] at this
    | x :: y :: l, _ => simp [fragments, tailFragments] at this
  | c :: cs, hp =>
    simp only [List.cons_append, List.map_cons, fragments, List.cons.injEq] at hp
    obtain ⟨hp1, hp2⟩ := hp
    have hl1 : ([h] ++ d).length ≤ 2 ^ 20 := by simp at hl ⊢; omega
    rw [List.cons_append, answers, hp1, step_fragment]
    simp only [Option.isSome_none, Bool.false_eq_true, and_false, if_false, if_true]
    rw [if_neg (by omega)]
    simp only [Option.bind_some]
    have he : h :: d ++ ds.flatten = ([h] ++ d) ++ ds.flatten := by simp
    rw [he] at hl ⊢
    rw [answers_tail h ds ([h] ++ d) cs last hd hp2 hl]
    simp [List.replicate_succ]

theorem unitAnswer_ok (ctx : CodecCtx) {u : List UInt8} (h : unitOk u) : (unitAnswer ctx u).1 = Err.SUCCESS := by
  obtain ⟨b, r, rfl, _, _, h3, h4⟩ := h
  unfold unitAnswer
  simp only
  rw [if_neg (by omega), answer_ok]
  intro s hs
  unfold H264.spsOf H264.lastOf at hs
  by_cases h7 : b.toNat % 32 = 7
  · simp [H264.unitType, h7] at hs
    rw [← hs]
    exact h4 h7
  · simp [H264.unitType, h7] at hs

theorem heard_sent {cs : List Call} {pk : List AVPkt} (h : Sent cs pk) : heard none cs = some (Err.SUCCESS, pk) := by
  induction h with
  | nil => rfl
  | single c cs pk hu h ih =>
    obtain ⟨b, r, hb, h1, h2, h3, h4⟩ := id hu
    have ha : answers none [c] = some ([unitAnswer (context c.now c.header.timestamp) c.payload], none) := by
      rw [answers, hb, step]
      simp only
      rw [if_pos ⟨h1, h2⟩]
      rfl
    have := heard_append [c] cs none none _ ha (by intro x hx; simp only [List.mem_singleton] at hx; rw [hx]; exact unitAnswer_ok _ hu)
    rw [List.singleton_append] at this
    rw [this, ih]
    simp
  | fragmented xs last cs pk h don d ds hd hl hu hp _ ih =>
    have ha := answers_fragments h don d ds hd hl xs last hp
    rw [if_pos (unitAnswer_ok _ hu)] at ha
    rw [heard_append (xs ++ [last]) cs none none _ ha (by
      intro x hx
      simp only [List.mem_append, List.mem_singleton, List.mem_replicate] at hx
      rcases hx with ⟨_, rfl⟩ | rfl
      · rfl
      · exact unitAnswer_ok _ hu), ih]
    simp

/-- **C122**, end to end: a sender that puts every NAL unit into a packet of its own or into fragments, cut anywhere, in any mixture: the reader
of packets gets for every unit what the parser makes of it, in order, once each, and then the end of the transport. -/
theorem C122_units (env : Nat → List UInt8 × Int) (he : ∀ n, (env n).1.length = 2 ^ 20) (ds : List (List UInt8)) (h : ∀ p ∈ ds, dynamicDatagram p)
    (cl : Err) (hcl : cl ≠ Err.SUCCESS) (mem0 : List UInt8) (hm : mem0.length < 2 ^ 31) (hm12 : 12 ≤ mem0.length)
    (hfit : ∀ p ∈ ds, p.length ≤ mem0.length) {pk : List AVPkt} (hs : Sent (calls env 0 ds) pk) :
    ∃ d, RtpCodecDemuxer.session env (ds.length + 1) (pk.length + 1) (Reader.onIo mem0 { evs := ds.map .data, closed := cl }) (initCodec 7 {}).2 = some (cl, pk, d) :=
  C122_read env he ds h cl hcl mem0 hm hm12 hfit (heard_sent hs)

/-! ## Examples -/

/-- A picture in two fragments (the second with the marker bit), then a unit in a packet of its own. -/
def fragA : List UInt8 := [0x80, 96, 0, 1, 0, 0, 0, 180, 0, 0, 0, 7, 0x7c, 0x85, 1, 2]
def fragB : List UInt8 := [0x80, 96 + 128, 0, 2, 0, 0, 0, 180, 0, 0, 0, 7, 0x7c, 0x45, 3]
def singleC : List UInt8 := [0x80, 96, 0, 3, 0, 0, 1, 104, 0, 0, 0, 7, 0x41, 9]

def env0 : Nat → List UInt8 × Int := fun n => (List.replicate (2 ^ 20) 0, n)

theorem datagrams : ∀ p ∈ [fragA, fragB, singleC], dynamicDatagram p := by
  intro p hp
  simp only [List.mem_cons, List.not_mem_nil, or_false] at hp
  rcases hp with rfl | rfl | rfl <;>
    exact ⟨⟨by decide +kernel, by decide +kernel, by decide +kernel, by decide +kernel⟩, by decide +kernel, by decide +kernel, by decide +kernel⟩

example : (∀ n, (env0 n).1.length = 2 ^ 20) ∧
    heard none (calls env0 0 [fragA, fragB, singleC]) = some (Err.SUCCESS,
      [{ stream := .video, pktType := 1, payload := [0, 0, 0, 4, 0x65, 1, 2, 3], dts := 1, pts := 2, flags := 0x17, codec := 7 },
       { stream := .video, pktType := 1, payload := [0, 0, 0, 2, 0x41, 9], dts := 2, pts := 4, flags := 0x27, codec := 7 }]) :=
  ⟨fun n => List.length_replicate, by decide +kernel⟩

example : Sent (calls env0 0 [fragA, fragB, singleC])
    ((unitAnswer (context 1 180) [0x65, 1, 2, 3]).2 ++ ((unitAnswer (context 2 360) [0x41, 9]).2 ++ [])) :=
  .fragmented [⟨_, 0, header fragA, payload fragA⟩] ⟨_, 1, header fragB, payload fragB⟩ [⟨_, 2, header singleC, payload singleC⟩] _
    0x65 none [1, 2] [[3]] (by simp) (by decide) ⟨0x65, _, rfl, by decide, by decide, by decide, by decide⟩ (by decide +kernel)
    (.single ⟨_, 2, header singleC, payload singleC⟩ [] [] ⟨0x41, [9], by decide +kernel, by decide, by decide, by decide, by decide⟩ .nil)

/-- Two access units in a packet. -/
def aacTwo : List UInt8 := [0x80, 97, 0, 1, 0, 0, 3, 132, 0, 0, 0, 7, 0, 32, 0, 16, 0, 8, 0xaa, 0xbb, 0xcc]

example : aacDatagram aacTwo [(0, [0xaa, 0xbb]), (0, [0xcc])] :=
  ⟨⟨⟨by decide +kernel, by decide +kernel, by decide +kernel, by decide +kernel⟩, by decide +kernel, by decide +kernel, by decide +kernel⟩,
    by decide +kernel, by decide +kernel, by decide⟩

end Sps.RtpCodecProps
