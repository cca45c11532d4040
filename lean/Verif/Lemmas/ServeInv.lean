import Verif.Lemmas.Rtmp
import Verif.Lemmas.TsTap
import Verif.Lemmas.StreamJoin
import Verif.Lemmas.Source
import Verif.Props.Flv
import Verif.Props.Stream
/-! # The invariant of stream requests over HTTP, RTMP and SRT -/
namespace Sps.Sys
open Spec HttpStream World FlvMuxer FlvDemuxer ByteProg StreamProps FlvProps RProg

theorem chain_append (ps : List AVPkt) : ∀ n, ∃ m, ∀ qs, Flv.chain n (ps ++ qs) = Flv.chain n ps ++ Flv.chain m qs := by
  induction ps with
  | nil => intro n; exact ⟨n, by simp [Flv.chain]⟩
  | cons p ps ih =>
    intro n
    obtain ⟨m, hm⟩ := ih (11 + (Flv.body p).length)
    refine ⟨m, fun qs => ?_⟩
    simp only [List.cons_append, Flv.chain, hm, List.append_assoc]

theorem flvResponse_prefix (reason : Int → Text) (ps qs : List AVPkt) : flvResponse reason ps <+: flvResponse reason (ps ++ qs) := by
  unfold flvResponse
  obtain ⟨m, hm⟩ := chain_append ps 0
  rw [hm, ← List.append_assoc]
  exact List.prefix_append _ _

/-- The file starts with the FLV signature. -/
def flvStart (b : List UInt8) : Prop := 9 ≤ b.length ∧ b.take 3 = [70, 76, 86]

theorem uploaded_start {b : List UInt8} (h : flvStart b) (q : Req) (cl : Err) (n : Nat) :
    uploaded q b cl n = (Flv.packets q.mem.length cl n (b.drop 9)).1 := by
  unfold uploaded Flv.file
  rw [if_neg (by have := h.1; omega), if_neg (by simp [h.2])]

theorem uploaded_zero (q : Req) (b : List UInt8) (cl : Err) : uploaded q b cl 0 = [] := by
  unfold uploaded Flv.file
  split
  · rfl
  · split <;> rfl

/-- How far the upload of `b` has come: the packets read so far are `ps`. -/
def Progress (q : Req) (b : List UInt8) (cl : Err) (rd : SReader HttpSrc) (headed : Bool) (ps : List AVPkt) : Prop :=
  cl ≠ 0 ∧ ∃ (R : Bool → HttpSrc → List UInt8 → Prop) (pend : List UInt8), Serves cl R ∧ SReader.Holds q.mem.length R rd 0 pend ∧
    if headed then flvStart b ∧ ∀ m, Flv.packets q.mem.length cl (ps.length + m) (b.drop 9) =
        (ps ++ (Flv.packets q.mem.length cl m pend).1, (Flv.packets q.mem.length cl m pend).2)
    else ps = [] ∧ pend = b

theorem Progress.uploaded {q : Req} {b : List UInt8} {cl : Err} {rd : SReader HttpSrc} {headed : Bool} {ps : List AVPkt}
    (h : Progress q b cl rd headed ps) : ps = uploaded q b cl ps.length := by
  obtain ⟨-, R, pend, -, -, h⟩ := h
  cases headed with
  | false =>
    simp only [Bool.false_eq_true, if_false] at h
    rw [h.1]; exact (uploaded_zero q b cl).symm
  | true =>
    simp only [if_true] at h
    rw [uploaded_start h.1]
    have := h.2 0
    rw [Nat.add_zero] at this
    rw [this]
    simp [Flv.packets]

/-- The header has been read. -/
theorem Progress.header {q : Req} (hm : 15 ≤ q.mem.length) {b : List UInt8} {cl : Err} {rd rd' : SReader HttpSrc} {ps : List AVPkt} {e : Err} {p : AVPkt}
    (h : Progress q b cl rd false ps) (hr : readHeader.runOn rd = some ((e, some p), rd')) : Progress q b cl rd' true ps := by
  obtain ⟨hcl, R, pend, hR, hH, h⟩ := h
  simp only [Bool.false_eq_true, if_false] at h
  obtain ⟨rfl, rfl⟩ := h
  have hh := on_readHeader hcl hm pend
  have S := sim_source hR q.mem.length
  by_cases h9 : pend.length < 9
  · rw [if_pos h9] at hh
    obtain ⟨r', a1, -⟩ := S.sim _ hH hh
    have a1 : readHeader.runOn rd = _ := a1
    rw [a1] at hr; simp at hr
  · rw [if_neg h9] at hh
    by_cases h33 : pend.take 3 ≠ [70, 76, 86]
    · rw [if_pos h33] at hh
      obtain ⟨r', a1, -⟩ := S.sim _ hH hh
      have a1 : readHeader.runOn rd = _ := a1
      rw [a1] at hr; simp at hr
    · rw [if_neg h33] at hh
      obtain ⟨r', a1, a2⟩ := S.sim _ hH hh
      have a1 : readHeader.runOn rd = _ := a1
      rw [a1] at hr
      simp only [Option.some.injEq, Prod.mk.injEq] at hr
      obtain ⟨-, rfl⟩ := hr
      refine ⟨hcl, R, _, hR, a2, ?_⟩
      rw [if_pos rfl]
      exact ⟨⟨by omega, by simpa using h33⟩, fun m => by simp⟩

/-- A packet has been read. -/
theorem Progress.packet {q : Req} (hm : 15 ≤ q.mem.length) {b : List UInt8} {cl : Err} {rd rd' : SReader HttpSrc} {ps : List AVPkt} {e : Err} {p : AVPkt}
    (h : Progress q b cl rd true ps) (hr : readPacket.runOn rd = some ((e, some p), rd')) : Progress q b cl rd' true (ps ++ [p]) := by
  obtain ⟨hcl, R, pend, hR, hH, h⟩ := h
  simp only [if_true] at h
  obtain ⟨h5, h6⟩ := h
  have hp := readPacket_sim (sim_source hR q.mem.length) hH hcl hm
  have hpk : ∀ m, Flv.packets q.mem.length cl (m + 1) pend =
      match Flv.firstTag q.mem.length cl pend with
      | (.accept p, r) => let x := Flv.packets q.mem.length cl m r; (p :: x.1, x.2)
      | (.reject e, _) => ([], [e], false)
      | (.tooShort es, _) => ([], es, true) := fun m => rfl
  revert hp hpk
  generalize Flv.firstTag q.mem.length cl pend = x
  obtain ⟨v, rest⟩ := x
  cases v with
  | reject e =>
    rintro ⟨r', a1⟩ -
    have a1 : readPacket.runOn rd = _ := a1
    rw [a1] at hr; simp at hr
  | tooShort es =>
    rintro (a1 | ⟨e, r', a1, -⟩) -
    · have a1 : readPacket.runOn rd = _ := a1
      rw [a1] at hr; simp at hr
    · have a1 : readPacket.runOn rd = _ := a1
      rw [a1] at hr; simp at hr
  | accept p' =>
    rintro ⟨r', a1, a2⟩ hpk
    have a1 : readPacket.runOn rd = _ := a1
    rw [a1] at hr
    simp only [Option.some.injEq, Prod.mk.injEq] at hr
    obtain ⟨⟨-, rfl⟩, rfl⟩ := hr
    refine ⟨hcl, R, rest, hR, a2, ?_⟩
    rw [if_pos rfl]
    refine ⟨h5, fun m => ?_⟩
    have := h6 (m + 1)
    rw [hpk] at this
    simp only [List.length_append, List.length_cons, List.length_nil, List.append_assoc, List.cons_append, List.nil_append] at this ⊢
    rw [show ps.length + (0 + 1) + m = ps.length + (m + 1) by omega]
    exact this

/-- There is no header. -/
theorem Progress.header_fail {q : Req} (hm : 15 ≤ q.mem.length) {b : List UInt8} {cl : Err} {rd rd' : SReader HttpSrc} {ps : List AVPkt} {e : Err}
    (h : Progress q b cl rd false ps) (hr : readHeader.runOn rd = some ((e, none), rd')) : ∃ n0, ∀ n, n0 ≤ n → ps = Spec.uploaded q b cl n := by
  obtain ⟨hcl, R, pend, hR, hH, h⟩ := h
  simp only [Bool.false_eq_true, if_false] at h
  obtain ⟨rfl, rfl⟩ := h
  have hh := on_readHeader hcl hm pend
  have S := sim_source hR q.mem.length
  refine ⟨0, fun n _ => ?_⟩
  unfold Spec.uploaded Flv.file
  by_cases h9 : pend.length < 9
  · rw [if_pos h9]
  · rw [if_neg h9] at hh ⊢
    by_cases h33 : pend.take 3 ≠ [70, 76, 86]
    · rw [if_pos h33]
    · rw [if_neg h33] at hh
      obtain ⟨r', a1, -⟩ := S.sim _ hH hh
      have a1 : readHeader.runOn rd = _ := a1
      rw [a1] at hr; simp at hr

/-- There is no further packet. -/
theorem Progress.packet_fail {q : Req} (hm : 15 ≤ q.mem.length) {b : List UInt8} {cl : Err} {rd rd' : SReader HttpSrc} {ps : List AVPkt} {e : Err}
    (h : Progress q b cl rd true ps) (hr : readPacket.runOn rd = some ((e, none), rd')) : ∃ n0, ∀ n, n0 ≤ n → ps = Spec.uploaded q b cl n := by
  obtain ⟨hcl, R, pend, hR, hH, h⟩ := h
  simp only [if_true] at h
  obtain ⟨h5, h6⟩ := h
  have hp := readPacket_sim (sim_source hR q.mem.length) hH hcl hm
  have hpk : ∀ m, Flv.packets q.mem.length cl (m + 1) pend =
      match Flv.firstTag q.mem.length cl pend with
      | (.accept p, r) => let x := Flv.packets q.mem.length cl m r; (p :: x.1, x.2)
      | (.reject e, _) => ([], [e], false)
      | (.tooShort es, _) => ([], es, true) := fun m => rfl
  have hall : (∀ m, (Flv.packets q.mem.length cl (m + 1) pend).1 = []) → ∃ n0, ∀ n, n0 ≤ n → ps = Spec.uploaded q b cl n := by
    intro h0
    refine ⟨ps.length + 1, fun n hn => ?_⟩
    rw [uploaded_start h5]
    have := h6 (n - ps.length - 1 + 1)
    rw [show ps.length + (n - ps.length - 1 + 1) = n by omega] at this
    rw [this, h0]
    simp
  revert hp hpk
  generalize Flv.firstTag q.mem.length cl pend = x
  obtain ⟨v, rest⟩ := x
  cases v with
  | reject e =>
    rintro - hpk
    exact hall (fun m => by rw [hpk])
  | tooShort es =>
    rintro - hpk
    exact hall (fun m => by rw [hpk])
  | accept p' =>
    rintro ⟨r', a1, a2⟩ hpk
    have a1 : readPacket.runOn rd = _ := a1
    rw [a1] at hr
    simp at hr

/-- The messages of packets. -/
def messages (ps : List AVPkt) : List RtmpMsg := ps.filterMap fun p => (RtmpMuxer.encode 20 p).2

theorem messages_append (ps qs : List AVPkt) : messages (ps ++ qs) = messages ps ++ messages qs := List.filterMap_append

theorem messages_prefix (ps qs : List AVPkt) : messages ps <+: messages (ps ++ qs) := by
  rw [messages_append]; exact List.prefix_append _ _

theorem rtmpWrite_spec (ps : List AVPkt) : ∀ {snk snk' : MsgSink} {e : Err}, rtmpWrite ps snk = (e, snk') →
    ∃ sent, snk'.out = snk.out ++ sent ∧ sent <+: messages ps ∧ (e = Err.SUCCESS → sent = messages ps) := by
  induction ps with
  | nil =>
    intro snk snk' e h
    simp only [rtmpWrite, Prod.mk.injEq] at h
    obtain ⟨rfl, rfl⟩ := h
    exact ⟨[], by simp, List.nil_prefix, fun _ => rfl⟩
  | cons p ps ih =>
    intro snk snk' e h
    simp only [rtmpWrite] at h
    have hw : ∃ sent, (RtmpMuxer.writePacket 20 p snk).2.out = snk.out ++ sent ∧ sent <+: messages [p] ∧
        ((RtmpMuxer.writePacket 20 p snk).1 = Err.SUCCESS → sent = messages [p]) := by
      unfold RtmpMuxer.writePacket
      have hm : messages [p] = ((RtmpMuxer.encode 20 p).2).toList := by
        unfold messages
        cases h : (RtmpMuxer.encode 20 p).2 <;> simp [h]
      rw [hm]
      cases hx : RtmpMuxer.encode 20 p with
      | mk e0 o =>
        cases o with
        | none => exact ⟨[], by simp, List.nil_prefix, fun _ => rfl⟩
        | some m =>
          simp only [MsgSink.write, Option.toList_some]
          split
          · exact ⟨[m], rfl, List.prefix_rfl, fun _ => rfl⟩
          · split
            · exact ⟨[m], rfl, List.prefix_rfl, fun _ => rfl⟩
            · rename_i hne
              exact ⟨[], by simp, List.nil_prefix, fun h => absurd h hne⟩
    obtain ⟨s1, w1, w2, w3⟩ := hw
    generalize RtmpMuxer.writePacket 20 p snk = x at *
    obtain ⟨e1, snk1⟩ := x
    simp only at h w1 w2 w3
    have hc : messages (p :: ps) = messages [p] ++ messages ps := messages_append [p] ps
    split at h
    · rename_i hne
      simp only [Prod.mk.injEq] at h
      obtain ⟨rfl, rfl⟩ := h
      refine ⟨s1, w1, ?_, fun he => absurd he hne⟩
      rw [hc]
      exact w2.trans (List.prefix_append _ _)
    · rename_i he
      have he : e1 = Err.SUCCESS := by simpa using he
      obtain ⟨s2, v1, v2, v3⟩ := ih h
      have := w3 he
      subst this
      refine ⟨messages [p] ++ s2, by rw [v1, w1, List.append_assoc], ?_, fun he => ?_⟩
      · rw [hc]; exact (List.prefix_append_right_inj _).2 v2
      · rw [hc, v3 he]

/-- The first `n` packets of `b` were accepted, and gave the packets `ps` and those that still wait, and the copies `raw`. -/
def SrtFed (b : List UInt8) (n : Nat) (ctx : TsCtx) (st : TsCodec) (ps raw : List AVPkt) : Prop :=
  188 * n ≤ b.length ∧ Ts.feed TsTap.handler TsCtx.create ({}, []) (Ts.chunks n b) = some (Err.SUCCESS, ctx, ({ st with queue := ps ++ st.queue }, raw))

/-- The publisher of `b` is over: no further packet came, or the next one was not accepted. -/
def SrtOver (b : List UInt8) (ps raw : List AVPkt) : Prop :=
  ∃ n ctx st, st.queue = [] ∧ SrtFed b n ctx st ps raw ∧ (b.length < 188 * (n + 1) ∨ (188 * (n + 1) ≤ b.length ∧
    ∃ e x, e ≠ Err.SUCCESS ∧ Ts.feed TsTap.handler TsCtx.create ({}, []) (Ts.chunks (n + 1) b) = some (e, x)))

theorem SrtFed.step {b : List UInt8} {n : Nat} {ctx ctx' : TsCtx} {st st' : TsCodec} {ps raw raw' : List AVPkt} (h : SrtFed b n ctx st ps raw)
    (hb : 188 * (n + 1) ≤ b.length) (hq : st.queue = []) (hd : TsCtx.decode TsTap.handler ctx (st, []) ((b.drop (188 * n)).take 188) = some (Err.SUCCESS, ctx', (st', raw'))) :
    SrtFed b (n + 1) ctx' st' ps (raw ++ raw') := by
  refine ⟨hb, ?_⟩
  rw [TsCtx.chunks_succ, TsCtx.feed_then _ _ _ _ _ h.2]
  apply TsCtx.feed_one
  have := (TsTap.image_before ps raw).decode ctx (st, []) ((b.drop (188 * n)).take 188)
  rw [hd] at this
  simp only [List.append_nil, Option.map_some] at this
  exact this

theorem SrtFed.fail {b : List UInt8} {n : Nat} {ctx ctx' : TsCtx} {st st' : TsCodec} {ps raw raw' : List AVPkt} (h : SrtFed b n ctx st ps raw)
    (hb : 188 * (n + 1) ≤ b.length) (hq : st.queue = []) {e : Err} (he : e ≠ Err.SUCCESS)
    (hd : TsCtx.decode TsTap.handler ctx (st, []) ((b.drop (188 * n)).take 188) = some (e, ctx', (st', raw'))) :
    raw' = [] ∧ SrtOver b ps raw := by
  refine ⟨TsTap.decode_rejected ctx (st, []) _ (by simp; omega) hd he, n, ctx, st, hq, h, .inr ⟨hb, e, (ctx', ({ st' with queue := ps ++ st'.queue }, raw ++ raw')), he, ?_⟩⟩
  · rw [TsCtx.chunks_succ, TsCtx.feed_then _ _ _ _ _ h.2]
    have := (TsTap.image_before ps raw).decode ctx (st, []) ((b.drop (188 * n)).take 188)
    rw [hd] at this
    simp only [List.append_nil, Option.map_some] at this
    simp only [Ts.feed, this, Option.bind_eq_bind, Option.bind_some]
    rw [if_pos he]; rfl

/-- What is true of a connection, depending on what it does. -/
def ConnOk (env : Site.Env) (q : Req) (L : Log) (w : World) (k : Conn) : Prop :=
  match k.job with
  | .done .nothing _ => True
  | .done (.player c) _ => (∃ cid, (.play (StreamHandler.key q.url), .joined c cid) ∈ L) ∧ k.snk.out <+: flvResponse env.reason (received c L)
  | .done (.publisher cid) _ => (.publish (StreamHandler.key q.url), .published cid) ∈ L ∧ (∃ key, w.view cid = some (key, .plain, false)) ∧
      ∀ b cl, Sends q b cl → ∃ n0, ∀ n, n0 ≤ n → publishedTo cid L = uploaded q b cl n
  | .waits u tag own => u = q.url ∧ tag = q.tag ∧ k.rsp = rsp0 ∧ k.snk = { out := [], fails := q.fails } ∧
      ∀ e, own = some e → e < w.edges.length ∧ (.edgeRequest (StreamHandler.key q.url), .edgeStarted e) ∈ L
  | .flvPub cid rd headed => (.publish (StreamHandler.key q.url), .published cid) ∈ L ∧ (∃ key, w.view cid = some (key, .plain, true)) ∧
      ∀ b cl, Sends q b cl → Progress q b cl rd headed (publishedTo cid L)
  | .pub cid => (.publish (StreamHandler.key q.url), .published cid) ∈ L
  | .view c mux => (∃ cid, (.play (StreamHandler.key q.url), .joined c cid) ∈ L) ∧ c < w.clients.length ∧ Good (k.rsp, k.snk) ∧
      k.snk.out = flvResponse env.reason (received c L) ∧ mux.tag.length = 29 ∧ (∀ st, mux.filtered st = false) ∧
      (∀ qs, Flv.chain 0 (received c L ++ qs) = Flv.chain 0 (received c L) ++ Flv.chain mux.prev qs) ∧ (.leave c, .ok) ∉ L
  | .nullView c => (∃ cid, (.play (StreamHandler.key q.url), .joined c cid) ∈ L) ∧ c < w.clients.length ∧ k.snk.out = []
  | .done (.rtmpPlayer c sent) _ => (∃ cid, (.play (StreamHandler.key q.url), .joined c cid) ∈ L) ∧ sent <+: messages (received c L)
  | .done (.rtmpPublisher cid) _ => (.publish (StreamHandler.key q.url), .published cid) ∈ L ∧ (∃ key, w.view cid = some (key, .plain, false)) ∧
      ∃ ms cl, q.via = .rtmp true ms cl ∧ publishedTo cid L = Rtmp.media ms
  | .rtmpWaits u fails own => u = q.url ∧ fails = q.fails ∧
      ∀ e, own = some e → e < w.edges.length ∧ (.edgeRequest (StreamHandler.key q.url), .edgeStarted e) ∈ L
  | .rtmpPub cid ms closed => (.publish (StreamHandler.key q.url), .published cid) ∈ L ∧ (∃ key, w.view cid = some (key, .plain, true)) ∧
      ∃ ms0, q.via = .rtmp true ms0 closed ∧ Rtmp.media ms0 = publishedTo cid L ++ Rtmp.media ms ∧ ∃ pre, ms0 = pre ++ ms
  | .rtmpView c snk => (∃ cid, (.play (StreamHandler.key q.url), .joined c cid) ∈ L) ∧ c < w.clients.length ∧
      snk.out = messages (received c L) ∧ (.leave c, .ok) ∉ L
  | .otherView c => ∃ cid, (.play (StreamHandler.key q.url), .joined c cid) ∈ L
  | .done (.srtPlayer c) _ => (∃ cid, (.play (tsKey (srtKey q.url)), .joined c cid) ∈ L) ∧ k.snk.out <+: (received c L).flatMap (·.payload)
  | .srtView c => (∃ cid, (.play (tsKey (srtKey q.url)), .joined c cid) ∈ L) ∧ c < w.clients.length ∧
      k.snk.out = (received c L).flatMap (·.payload) ∧ (.leave c, .ok) ∉ L
  | .done (.srtPublisher cid) _ => (.publishSrt (srtKey q.url), .published cid) ∈ L ∧ (∃ key, w.view cid = some (key, .srtAv, false)) ∧
      ∀ b cl, Arrives q.io b cl → SrtOver b (publishedTo cid L) (publishedTo (cid + 1) L)
  | .srtPub cid rd ctx st => (.publishSrt (srtKey q.url), .published cid) ∈ L ∧ (∃ key, w.view cid = some (key, .srtAv, true)) ∧
      ∀ b cl, Arrives q.io b cl → cl ≠ Err.SUCCESS ∧ ∃ n, TsDemuxer.AtTs rd cl (b.drop (188 * n)) ∧ SrtFed b n ctx st (publishedTo cid L) (publishedTo (cid + 1) L)

theorem ConnOk.frame {env : Site.Env} {q : Req} {L : Log} {w : World} {k : Conn} (h : ConnOk env q L w k) (hi : Inv2 w L) (op : WOp)
    (ho : k.job.owns op = false) : ConnOk env q (L ++ [(op, (w.step op).2)]) (w.step op).1 k := by
  obtain ⟨job, rsp, snk⟩ := k
  have hl := step_lengths w op
  have hm : ∀ x : WOp × WOut, x ∈ L → x ∈ L ++ [(op, (w.step op).2)] := fun x hx => List.mem_append_left _ hx
  cases job with
  | done was ret =>
    cases was with
    | nothing => trivial
    | player c =>
      obtain ⟨⟨cid, h1⟩, h2⟩ := h
      refine ⟨⟨cid, hm _ h1⟩, ?_⟩
      rw [received_append]
      exact List.IsPrefix.trans h2 (flvResponse_prefix _ _ _)
    | publisher cid =>
      obtain ⟨h1, ⟨key, h2⟩, h3⟩ := h
      refine ⟨hm _ h1, ⟨key, step_closed w op h2⟩, fun b cl hb => ?_⟩
      obtain ⟨n, h3⟩ := h3 b cl hb
      refine ⟨n, fun n' hn => ?_⟩
      rw [publishedTo_append, h3 n' hn]
      have : publishedTo cid [(op, (w.step op).2)] = [] := by
        by_cases hp : ∃ p, op = .put cid p
        · obtain ⟨p, rfl⟩ := hp
          simp only [World.step, put_closed h2 p]; rfl
        · exact published_other _ (fun p he => hp ⟨p, he⟩)
      rw [this, List.append_nil]
    | rtmpPlayer c sent =>
      obtain ⟨⟨cid, h1⟩, h2⟩ := h
      refine ⟨⟨cid, hm _ h1⟩, ?_⟩
      rw [received_append]
      exact List.IsPrefix.trans h2 (messages_prefix _ _)
    | rtmpPublisher cid =>
      obtain ⟨h1, ⟨key, h2⟩, ms, cl, h3, h4⟩ := h
      refine ⟨hm _ h1, ⟨key, step_closed w op h2⟩, ms, cl, h3, ?_⟩
      rw [publishedTo_append, h4]
      have : publishedTo cid [(op, (w.step op).2)] = [] := by
        by_cases hp : ∃ p, op = .put cid p
        · obtain ⟨p, rfl⟩ := hp
          simp only [World.step, put_closed h2 p]; rfl
        · exact published_other _ (fun p he => hp ⟨p, he⟩)
      rw [this, List.append_nil]
    | srtPlayer c =>
      obtain ⟨⟨cid, h1⟩, h2⟩ := h
      refine ⟨⟨cid, hm _ h1⟩, ?_⟩
      rw [received_append, List.flatMap_append]
      exact List.IsPrefix.trans h2 (List.prefix_append _ _)
    | srtPublisher cid =>
      obtain ⟨h1, ⟨key, h2⟩, h3⟩ := h
      have h4 := hi.twin cid key false h2
      refine ⟨hm _ h1, ⟨key, step_closed w op h2⟩, fun b cl hb => ?_⟩
      have hn : ∀ {i : Nat} {k : Key} {s : Src}, w.view i = some (k, s, false) → publishedTo i [(op, (w.step op).2)] = [] := by
        intro i k s hv
        by_cases hp : ∃ p, op = .put i p
        · obtain ⟨p, rfl⟩ := hp
          simp only [World.step, put_closed hv p]; rfl
        · exact published_other _ (fun p he => hp ⟨p, he⟩)
      rw [publishedTo_append, publishedTo_append, hn h2, hn h4, List.append_nil, List.append_nil]
      exact h3 b cl hb
  | waits u tag own =>
    obtain ⟨h1, h2, h3, h4, h5⟩ := h
    exact ⟨h1, h2, h3, h4, fun e he => ⟨Nat.lt_of_lt_of_le (h5 e he).1 (step_edges_length w op), hm _ (h5 e he).2⟩⟩
  | flvPub cid rd headed =>
    obtain ⟨h1, ⟨key, h2⟩, h5⟩ := h
    have hu : op ≠ .unpublish cid := by rintro rfl; simp [Job.owns] at ho
    have hp : publishedTo cid [(op, (w.step op).2)] = [] := by
      apply published_other; rintro p rfl; simp [Job.owns] at ho
    refine ⟨hm _ h1, ⟨key, step_open hi op h2 hu⟩, ?_⟩
    rw [publishedTo_append, hp, List.append_nil]
    exact h5
  | pub cid => exact hm _ h
  | view c mux =>
    obtain ⟨⟨cid, h1⟩, h2, h3, h4, h5, h6, h7, h8⟩ := h
    have hr : received c [(op, (w.step op).2)] = [] := by
      apply received_other; rintro rfl; simp [Job.owns] at ho
    refine ⟨⟨cid, hm _ h1⟩, Nat.lt_of_lt_of_le h2 hl.1, h3, ?_, h5, h6, ?_, ?_⟩
    · rw [received_append, hr, List.append_nil]; exact h4
    · rw [received_append, hr, List.append_nil]; exact h7
    · intro hm
      rcases List.mem_append.1 hm with hm | hm
      · exact h8 hm
      · simp only [List.mem_singleton, Prod.mk.injEq] at hm
        rw [← hm.1] at ho; simp [Job.owns] at ho
  | nullView c =>
    obtain ⟨⟨cid, h1⟩, h2, h3⟩ := h
    exact ⟨⟨cid, hm _ h1⟩, Nat.lt_of_lt_of_le h2 hl.1, h3⟩
  | rtmpWaits u fails own =>
    obtain ⟨h1, h2, h5⟩ := h
    exact ⟨h1, h2, fun e he => ⟨Nat.lt_of_lt_of_le (h5 e he).1 (step_edges_length w op), hm _ (h5 e he).2⟩⟩
  | rtmpPub cid ms closed =>
    obtain ⟨h1, ⟨key, h2⟩, h5⟩ := h
    have hu : op ≠ .unpublish cid := by rintro rfl; simp [Job.owns] at ho
    have hp : publishedTo cid [(op, (w.step op).2)] = [] := by
      apply published_other; rintro p rfl; simp [Job.owns] at ho
    refine ⟨hm _ h1, ⟨key, step_open hi op h2 hu⟩, ?_⟩
    rw [publishedTo_append, hp, List.append_nil]
    exact h5
  | rtmpView c snk =>
    obtain ⟨⟨cid, h1⟩, h2, h3, h8⟩ := h
    have hr : received c [(op, (w.step op).2)] = [] := by
      apply received_other; rintro rfl; simp [Job.owns] at ho
    refine ⟨⟨cid, hm _ h1⟩, Nat.lt_of_lt_of_le h2 hl.1, ?_, ?_⟩
    · rw [received_append, hr, List.append_nil]; exact h3
    · intro hm
      rcases List.mem_append.1 hm with hm | hm
      · exact h8 hm
      · simp only [List.mem_singleton, Prod.mk.injEq] at hm
        rw [← hm.1] at ho; simp [Job.owns] at ho
  | otherView c =>
    obtain ⟨cid, h1⟩ := h
    exact ⟨cid, hm _ h1⟩
  | srtPub cid rd ctx st =>
    obtain ⟨h1, ⟨key, h2⟩, h5⟩ := h
    have hu : op ≠ .unpublish cid := by rintro rfl; simp [Job.owns] at ho
    have hp : publishedTo cid [(op, (w.step op).2)] = [] := by
      apply published_other; rintro p rfl; simp [Job.owns] at ho
    have hp1 : publishedTo (cid + 1) [(op, (w.step op).2)] = [] := by
      apply published_other; rintro p rfl; simp [Job.owns] at ho
    refine ⟨hm _ h1, ⟨key, step_fed hi op (.inr rfl) h2 hu⟩, ?_⟩
    rw [publishedTo_append, publishedTo_append, hp, hp1, List.append_nil, List.append_nil]
    exact h5
  | srtView c =>
    obtain ⟨⟨cid, h1⟩, h2, h3, h8⟩ := h
    have hr : received c [(op, (w.step op).2)] = [] := by
      apply received_other; rintro rfl; simp [Job.owns] at ho
    refine ⟨⟨cid, hm _ h1⟩, Nat.lt_of_lt_of_le h2 hl.1, ?_, ?_⟩
    · rw [received_append, hr, List.append_nil]; exact h3
    · intro hm
      rcases List.mem_append.1 hm with hm | hm
      · exact h8 hm
      · simp only [List.mem_singleton, Prod.mk.injEq] at hm
        rw [← hm.1] at ho; simp [Job.owns] at ho

theorem ConnOk.frames {env : Site.Env} {q : Req} {k : Conn} (ops : List WOp) : ∀ {L : Log} {w : World}, ConnOk env q L w k → Inv2 w L →
    (∀ op ∈ ops, k.job.owns op = false) → ConnOk env q (L ++ (w.run ops).2) (w.run ops).1 k := by
  induction ops with
  | nil => intro L w h _ _; simpa [World.run] using h
  | cons op ops ih =>
    intro L w h hi ho
    obtain ⟨a, b⟩ := run_snd_cons w op ops
    have := ih (h.frame hi op (ho op (by simp))) (step_inv2 hi op) (fun o h => ho o (by simp [h]))
    rw [a, b]
    simpa [List.append_assoc] using this

/-- Owned pieces are about existing objects. -/
theorem ConnOk.owns_lt {env : Site.Env} {q : Req} {L : Log} {w : World} {k : Conn} (h : ConnOk env q L w k) (hi : Inv2 w L) {op : WOp}
    (ho : k.job.owns op = true) : match op with
      | .put cid _ | .unpublish cid => cid < w.caches.length
      | .dump c | .leave c => c < w.clients.length
      | .edgeDrop e => e < w.edges.length
      | _ => False := by
  obtain ⟨job, rsp, snk⟩ := k
  cases job <;> cases op <;> simp only [Job.owns, Bool.false_eq_true, beq_iff_eq, Bool.or_eq_true] at ho
  · obtain ⟨_, _, _, _, h5⟩ := h; exact (h5 _ ho).1
  · obtain ⟨_, ⟨key, h2⟩, _⟩ := h; subst ho; exact view_lt h2
  · obtain ⟨_, ⟨key, h2⟩, _⟩ := h; subst ho; exact view_lt h2
  · obtain ⟨_, h2, _⟩ := h; subst ho; exact h2
  · obtain ⟨_, h2, _⟩ := h; subst ho; exact h2
  · obtain ⟨_, h2, _⟩ := h; subst ho; exact h2
  · obtain ⟨_, h2, _⟩ := h; subst ho; exact h2
  · obtain ⟨_, _, h5⟩ := h; exact (h5 _ ho).1
  · obtain ⟨_, ⟨key, h2⟩, _⟩ := h; subst ho; exact view_lt h2
  · obtain ⟨_, ⟨key, h2⟩, _⟩ := h; subst ho; exact view_lt h2
  · obtain ⟨_, h2, _⟩ := h; subst ho; exact h2
  · obtain ⟨_, h2, _⟩ := h; subst ho; exact h2
  · obtain ⟨_, ⟨key, h2⟩, _⟩ := h
    rcases ho with rfl | rfl
    · exact view_lt h2
    · exact view_lt (hi.twin _ _ _ h2)
  · obtain ⟨_, ⟨key, h2⟩, _⟩ := h; subst ho; exact view_lt h2
  · obtain ⟨_, h2, _⟩ := h; subst ho; exact h2
  · obtain ⟨_, h2, _⟩ := h; subst ho; exact h2

/-- The invariant: `rqs` are the requests so far, `L` the log so far. -/
structure SInv (env : Site.Env) (rqs : List Req) (L : Log) (s : Sys) : Prop where
  world : World.init.run (L.map Prod.fst) = (s.w, L)
  len : s.conns.length = rqs.length
  ok : ∀ (i : Nat) (k : Conn) (q : Req), s.conns[i]? = some k → rqs[i]? = some q → ConnOk env q L s.w k
  apart : ∀ (i j : Nat) (ki kj : Conn), i ≠ j → s.conns[i]? = some ki → s.conns[j]? = some kj → ∀ op, ki.job.owns op = true → kj.job.owns op = false

theorem SInv.inv {env : Site.Env} {rqs : List Req} {L : Log} {s : Sys} (h : SInv env rqs L s) : World.Inv s.w L := by
  have := World.run_inv (L.map Prod.fst) World.Inv.init
  rw [h.world] at this
  simpa using this

theorem SInv.inv2 {env : Site.Env} {rqs : List Req} {L : Log} {s : Sys} (h : SInv env rqs L s) : Inv2 s.w L := by
  have := run_inv2 (L.map Prod.fst) Inv2.init
  rw [h.world] at this
  simpa using this

theorem SInv.init (env : Site.Env) : SInv env [] [] Sys.init :=
  ⟨rfl, rfl, by simp [Sys.init], by simp [Sys.init]⟩

/-- Everything but connection `i` stays. -/
theorem SInv.at {env : Site.Env} {rqs rqs' : List Req} {L l : Log} {s s' : Sys} (h : SInv env rqs L s) (i : Nat) {q : Req} {k : Conn}
    (hrun : s.w.run (l.map Prod.fst) = (s'.w, l)) (hlen : s'.conns.length = rqs'.length)
    (hc : ∀ j : Nat, j ≠ i → s'.conns[j]? = s.conns[j]?) (hq : ∀ j : Nat, j ≠ i → rqs'[j]? = rqs[j]?)
    (hci : s'.conns[i]? = some k) (hqi : rqs'[i]? = some q)
    (hfree : ∀ op ∈ l.map Prod.fst, ∀ (j : Nat) (kj : Conn), j ≠ i → s.conns[j]? = some kj → kj.job.owns op = false)
    (hown : ∀ op, k.job.owns op = true → ∀ (j : Nat) (kj : Conn), j ≠ i → s.conns[j]? = some kj → kj.job.owns op = false)
    (hk : ConnOk env q (L ++ l) s'.w k) : SInv env rqs' (L ++ l) s' := by
  refine ⟨?_, hlen, ?_, ?_⟩
  · rw [List.map_append, run_append, h.world]
    simp [hrun]
  · intro j kj qj hj hqj
    by_cases hji : j = i
    · subst hji
      rw [hci] at hj; rw [hqi] at hqj
      cases hj; cases hqj
      exact hk
    · rw [hc j hji] at hj
      rw [hq j hji] at hqj
      have := (h.ok j kj qj hj hqj).frames (l.map Prod.fst) h.inv2 (fun op ho => hfree op ho j kj hji hj)
      rw [hrun] at this
      exact this
  · intro a b ka kb hab ha hb op ho
    by_cases ha1 : a = i
    · subst ha1
      rw [hci] at ha; cases ha
      rw [hc b (Ne.symm hab)] at hb
      exact hown op ho b kb (Ne.symm hab) hb
    · rw [hc a ha1] at ha
      by_cases hb1 : b = i
      · subst hb1
        rw [hci] at hb; cases hb
        cases hko : k.job.owns op with
        | false => rfl
        | true => rw [hown op hko a ka ha1 ha] at ho; simp at ho
      · rw [hc b hb1] at hb
        exact h.apart a b ka kb hab ha hb op ho

/-- No connection changes. -/
theorem SInv.rest {env : Site.Env} {rqs : List Req} {L l : Log} {s : Sys} {w : World} (h : SInv env rqs L s)
    (hrun : s.w.run (l.map Prod.fst) = (w, l))
    (hfree : ∀ op ∈ l.map Prod.fst, ∀ (j : Nat) (kj : Conn), s.conns[j]? = some kj → kj.job.owns op = false) :
    SInv env rqs (L ++ l) ⟨w, s.conns⟩ := by
  refine ⟨?_, h.len, ?_, h.apart⟩
  · rw [List.map_append, run_append, h.world]
    simp [hrun]
  · intro j kj qj hj hqj
    have := (h.ok j kj qj hj hqj).frames (l.map Prod.fst) h.inv2 (fun op ho => hfree op ho j kj hj)
    rw [hrun] at this
    exact this

theorem SInv.same {env : Site.Env} {rqs : List Req} {L : Log} {s : Sys} (h : SInv env rqs L s) : SInv env rqs (L ++ []) s := by
  rw [List.append_nil]; exact h

theorem received_fresh (c : Nat) (ops : List WOp) : ∀ w : World, (w.run ops).1.clients.length ≤ c → received c (w.run ops).2 = [] := by
  induction ops with
  | nil => intro w _; rfl
  | cons op ops ih =>
    intro w h
    obtain ⟨a, b⟩ := run_snd_cons w op ops
    rw [b] at h
    rw [a, received_cons, ih _ h, List.append_nil]
    have hw : ∀ (ops : List WOp) (w : World), w.clients.length ≤ (w.run ops).1.clients.length := by
      intro ops
      induction ops with
      | nil => intro w; exact Nat.le_refl _
      | cons o ops ih => intro w; rw [(run_snd_cons w o ops).2]; exact Nat.le_trans (step_lengths w o).1 (ih _)
    have hc : w.clients.length ≤ c := Nat.le_trans (step_lengths w op).1 (Nat.le_trans (hw ops _) h)
    by_cases hd : op = .dump c
    · subst hd
      simp only [World.step, dump, List.getElem?_eq_none hc]; rfl
    · exact received_other _ hd

theorem left_fresh (c : Nat) (ops : List WOp) : ∀ w : World, (w.run ops).1.clients.length ≤ c → (.leave c, .ok) ∉ (w.run ops).2 := by
  induction ops with
  | nil => intro w _; simp [World.run]
  | cons op ops ih =>
    intro w h
    obtain ⟨a, b⟩ := run_snd_cons w op ops
    rw [b] at h
    have hw : ∀ (ops : List WOp) (w : World), w.clients.length ≤ (w.run ops).1.clients.length := by
      intro ops
      induction ops with
      | nil => intro w; exact Nat.le_refl _
      | cons o ops ih => intro w; rw [(run_snd_cons w o ops).2]; exact Nat.le_trans (step_lengths w o).1 (ih _)
    have hc : w.clients.length ≤ c := Nat.le_trans (step_lengths w op).1 (Nat.le_trans (hw ops _) h)
    rw [a, List.mem_cons]
    rintro (hm | hm)
    · exact step_leave w op hc hm.symm
    · exact ih _ h hm

theorem SInv.left_new {env : Site.Env} {rqs : List Req} {L : Log} {s : Sys} (h : SInv env rqs L s) {c : Nat}
    (hc : s.w.clients.length ≤ c) : (.leave c, .ok) ∉ L := by
  have := left_fresh c (L.map Prod.fst) World.init
  rw [h.world] at this
  exact this hc

theorem SInv.received_new {env : Site.Env} {rqs : List Req} {L : Log} {s : Sys} (h : SInv env rqs L s) {c : Nat}
    (hc : s.w.clients.length ≤ c) : received c L = [] := by
  have := received_fresh c (L.map Prod.fst) World.init
  rw [h.world] at this
  exact this hc

theorem create_filtered (tag : List UInt8) (st : StreamType) : (FlvMuxer.create tag).filtered st = false := by
  cases st <;> rfl

/-- What `StreamHandler::play` from line 97 on leads to. -/
theorem afterAttach_spec {env : Site.Env} {q : Req} {L : Log} {w : World} (hq : ReqOk q) (hfresh : received w.clients.length L = [])
    (hleft : (.leave w.clients.length, .ok) ∉ L) (ret : Err) {w' : World} {l : Log} {k : Conn}
    (he : afterAttach env (StreamHandler.key q.url) (StreamHandler.attach env.outs env.junk ret q.url w) q.tag rsp0
      { out := [], fails := q.fails } = (w', l, k)) :
    w.run (l.map Prod.fst) = (w', l) ∧ ConnOk env q (L ++ l) w' k ∧
      (∀ op ∈ l.map Prod.fst, (∃ key, op = .play key) ∨ op = .leave w.clients.length) ∧
      (∀ op, k.job.owns op = true → op = .dump w.clients.length ∨ op = .leave w.clients.length) := by
  have hrefused : ∀ e, afterAttach env (StreamHandler.key q.url) (.refused e, w) q.tag rsp0 { out := [], fails := q.fails } = (w', l, k) →
      w.run (l.map Prod.fst) = (w', l) ∧ ConnOk env q (L ++ l) w' k ∧
      (∀ op ∈ l.map Prod.fst, (∃ key, op = .play key) ∨ op = .leave w.clients.length) ∧
      (∀ op, k.job.owns op = true → op = .dump w.clients.length ∨ op = .leave w.clients.length) := by
    intro e h
    simp only [afterAttach, close, Prod.mk.injEq] at h
    obtain ⟨rfl, rfl, rfl⟩ := h
    exact ⟨rfl, trivial, by simp, by simp [Job.owns]⟩
  unfold StreamHandler.attach at he
  split at he
  · exact hrefused _ he
  · split at he
    · exact hrefused _ he
    · rename_i f hf
      simp only [World.play_eq] at he
      split at he
      · rename_i w1 c cid hp
        split at hp
        · simp at hp
        · rename_i cid1 hreg
          split at hp
          · simp at hp
          · rename_i cc hcc
            have hplay : w.step (.play (StreamHandler.key q.url)) = (w1, .joined c cid) := by
              simp only [World.step, World.play_eq, hreg, hcc]; exact hp
            simp only [Prod.mk.injEq, WOut.joined.injEq] at hp
            obtain ⟨hw1, hc, hcid⟩ := hp
            subst hc
            have hclt : w.clients.length < w1.clients.length := by rw [← hw1]; simp
            have hmem : ∀ l' : Log, (WOp.play (StreamHandler.key q.url), WOut.joined w.clients.length cid) ∈
                L ++ (.play (StreamHandler.key q.url), .joined w.clients.length cid) :: l' := by intro l'; simp
            have hrec : ∀ o, received w.clients.length (L ++ [(.play (StreamHandler.key q.url), o)]) = [] := by
              intro o; rw [received_append, hfresh, received_other o (by simp)]; rfl
            simp only [afterAttach, startView] at he
            by_cases hflv : f.word = ascii "flv"
            · simp only [if_pos hflv] at he
              obtain ⟨e, x, sent, a1, a2, a3, a4, a5, -⟩ := writeHeader_spec env.reason { out := [], fails := q.fails } hq.fails
              rw [a1] at he
              by_cases hs : e = Err.SUCCESS
              · simp only [hs, ne_eq, not_true_eq_false, if_false, Prod.mk.injEq] at he
                obtain ⟨rfl, rfl, rfl⟩ := he
                refine ⟨?_, ?_, by simp, ?_⟩
                · simp [World.run, hplay]
                · obtain ⟨b1, b2⟩ := a4 hs
                  refine ⟨⟨cid, hmem _⟩, hclt, b2, ?_, hq.tag, create_filtered _, ?_, by simp [hleft]⟩
                  · rw [hrec, a2, b1]; simp [flvResponse, Flv.chain]
                  · rw [hrec]; simp [Flv.chain, FlvMuxer.create]
                · intro op ho
                  cases op <;> simp [Job.owns] at ho <;> subst ho <;> simp
              · simp only [ne_eq, hs, not_false_eq_true, if_true, Prod.mk.injEq] at he
                obtain ⟨rfl, rfl, rfl⟩ := he
                refine ⟨?_, ?_, by simp, ?_⟩
                · simp only [List.map_cons, List.map_nil, World.run, hplay]; rfl
                · rw [close_player _ _ _ _ _ (a5 hs)]
                  refine ⟨⟨cid, hmem _⟩, ?_⟩
                  rw [received_append, hfresh, received_cons, received_other _ (by simp), received_other _ (by simp), a2]
                  simpa [flvResponse, Flv.chain] using a3
                · rw [close_player _ _ _ _ _ (a5 hs)]; simp [Job.owns]
            · simp only [if_neg hflv, Prod.mk.injEq] at he
              obtain ⟨rfl, rfl, rfl⟩ := he
              refine ⟨by simp [World.run, hplay], ⟨⟨cid, hmem _⟩, hclt, rfl⟩, by simp, ?_⟩
              intro op ho
              cases op <;> simp [Job.owns] at ho <;> subst ho <;> simp
      · rename_i w1 o hno hp
        split at hp
        · simp only [Prod.mk.injEq] at hp
          obtain ⟨rfl, rfl⟩ := hp
          exact hrefused _ he
        · split at hp
          · simp only [Prod.mk.injEq] at hp
            obtain ⟨rfl, rfl⟩ := hp
            exact hrefused _ he
          · simp only [Prod.mk.injEq] at hp
            exact absurd hp.2.symm (hno _ _)

theorem publish_refused {ins : List Reg} {junk : Text} {h : Conf.Module} {u : Url} {w w' : World} {e : Err}
    (he : StreamHandler.publish ins junk h u w = (.refused e, w')) : w' = w := by
  unfold StreamHandler.publish at he
  split at he
  · simp at he; exact he.2.symm
  · split at he
    · simp at he; exact he.2.symm
    · simp only [World.publish] at he
      split at he
      · simp at he
      · rename_i w1 o hno hp
        simp only [Prod.mk.injEq] at he
        split at hp
        · simp at hp; rw [← he.2, ← hp.1]
        · simp at hp; exact absurd hp.2.symm (hno _)

theorem publish_accepted {ins : List Reg} {junk : Text} {h : Conf.Module} {u : Url} {w w' : World} {cid : Nat} {f : Reg}
    (he : StreamHandler.publish ins junk h u w = (.accepted cid f, w')) :
    cid = w.caches.length ∧ w.step (.publish (StreamHandler.key u)) = (w', .published cid) ∧
      w'.view cid = some (StreamHandler.key u, .plain, true) := by
  unfold StreamHandler.publish at he
  split at he
  · simp at he
  · split at he
    · simp at he
    · simp only [World.publish] at he
      split at he
      · rename_i w1 cid1 hp
        simp only [Prod.mk.injEq, StreamHandler.Admit.accepted.injEq] at he
        obtain ⟨⟨rfl, -⟩, rfl⟩ := he
        split at hp
        · simp at hp
        · rename_i hn
          simp only [Prod.mk.injEq, WOut.published.injEq] at hp
          obtain ⟨rfl, rfl⟩ := hp
          refine ⟨rfl, by simp [World.step, World.publish, hn], ?_⟩
          rw [view_newCache, if_pos rfl]
      · simp at he

theorem get_append_ne {α : Type} (l : List α) (x : α) {j : Nat} (h : j ≠ l.length) : (l ++ [x])[j]? = l[j]? := by
  rw [append_get_new, if_neg h]

theorem get_append_eq {α : Type} (l : List α) (x : α) : (l ++ [x])[l.length]? = some x := by simp

/-- A new connection. -/
theorem SInv.push {env : Site.Env} {rqs : List Req} {L l : Log} {s : Sys} {w : World} (h : SInv env rqs L s) {q : Req} {k : Conn}
    (hrun : s.w.run (l.map Prod.fst) = (w, l))
    (hfree : ∀ op ∈ l.map Prod.fst, ∀ (j : Nat) (kj : Conn), s.conns[j]? = some kj → kj.job.owns op = false)
    (hown : ∀ op, k.job.owns op = true → ∀ (j : Nat) (kj : Conn), s.conns[j]? = some kj → kj.job.owns op = false)
    (hk : ConnOk env q (L ++ l) w k) : SInv env (rqs ++ [q]) (L ++ l) ⟨w, s.conns ++ [k]⟩ := by
  refine h.at (s' := ⟨w, s.conns ++ [k]⟩) s.conns.length hrun (by simp [h.len]) ?_ ?_ (get_append_eq _ _) (by rw [h.len]; exact get_append_eq _ _)
    (fun op ho j kj _ hj => hfree op ho j kj hj) (fun op ho j kj _ hj => hown op ho j kj hj) hk
  · intro j hj; exact get_append_ne _ _ hj
  · intro j hj; rw [h.len] at hj; exact get_append_ne _ _ hj

/-- A connection goes on. -/
theorem SInv.put {env : Site.Env} {rqs : List Req} {L l : Log} {s : Sys} {w : World} (h : SInv env rqs L s) {i : Nat} {q : Req} {k0 k : Conn}
    (hi : s.conns[i]? = some k0) (hq : rqs[i]? = some q) (hrun : s.w.run (l.map Prod.fst) = (w, l))
    (hfree : ∀ op ∈ l.map Prod.fst, ∀ (j : Nat) (kj : Conn), j ≠ i → s.conns[j]? = some kj → kj.job.owns op = false)
    (hown : ∀ op, k.job.owns op = true → ∀ (j : Nat) (kj : Conn), j ≠ i → s.conns[j]? = some kj → kj.job.owns op = false)
    (hk : ConnOk env q (L ++ l) w k) : SInv env rqs (L ++ l) ⟨w, s.conns.set i k⟩ := by
  refine h.at (s' := ⟨w, s.conns.set i k⟩) i hrun (by simp [h.len]) ?_ (fun _ _ => rfl) ?_ hq hfree hown hk
  · intro j hj; exact List.getElem?_set_ne (Ne.symm hj)
  · exact List.getElem?_set_self (get_len hi)

/-- Nobody owns pieces about a new player. -/
theorem SInv.new_client {env : Site.Env} {rqs : List Req} {L : Log} {s : Sys} (h : SInv env rqs L s) {op : WOp}
    (ho : op = .dump s.w.clients.length ∨ op = .leave s.w.clients.length ∨ ∃ key, op = .play key) {j : Nat} {kj : Conn}
    (hj : s.conns[j]? = some kj) : kj.job.owns op = false := by
  cases hk : kj.job.owns op with
  | false => rfl
  | true =>
    have hlt := get_len hj
    rw [h.len] at hlt
    have := (h.ok j kj _ hj (List.getElem?_eq_getElem hlt)).owns_lt h.inv2 hk
    rcases ho with rfl | rfl | ⟨key, rfl⟩ <;> simp at this

theorem SInv.new_cache {env : Site.Env} {rqs : List Req} {L : Log} {s : Sys} (h : SInv env rqs L s) {op : WOp}
    (ho : (∃ p, op = .put s.w.caches.length p) ∨ op = .unpublish s.w.caches.length ∨ ∃ p, op = .put (s.w.caches.length + 1) p) {j : Nat} {kj : Conn}
    (hj : s.conns[j]? = some kj) : kj.job.owns op = false := by
  cases hk : kj.job.owns op with
  | false => rfl
  | true =>
    have hlt := get_len hj
    rw [h.len] at hlt
    have := (h.ok j kj _ hj (List.getElem?_eq_getElem hlt)).owns_lt h.inv2 hk
    rcases ho with ⟨p, rfl⟩ | rfl | ⟨p, rfl⟩ <;> simp at this

theorem SInv.new_edge {env : Site.Env} {rqs : List Req} {L : Log} {s : Sys} (h : SInv env rqs L s) {j : Nat} {kj : Conn}
    (hj : s.conns[j]? = some kj) : kj.job.owns (.edgeDrop s.w.edges.length) = false := by
  cases hk : kj.job.owns (.edgeDrop s.w.edges.length) with
  | false => rfl
  | true =>
    have hlt := get_len hj
    rw [h.len] at hlt
    have := (h.ok j kj _ hj (List.getElem?_eq_getElem hlt)).owns_lt h.inv2 hk
    simp at this

theorem edgeRequest_started {w : World} {k : Key} {e : Nat} (h : (w.edgeRequest k).2 = .edgeStarted e) :
    e = w.edges.length ∧ e < (w.edgeRequest k).1.edges.length := by
  unfold World.edgeRequest at h ⊢
  split at h
  · simp at h
  · split at h
    · simp at h
    · rename_i h1 _ h2
      simp only [h1, h2, WOut.edgeStarted.injEq] at h ⊢
      subst h
      simp

theorem close_owns (reason : Int → Text) (was : Role) (e : Err) (r : HttpRsp) (s : Sink) (op : WOp) :
    (close reason was e r s).job.owns op = false := by
  simp [close, Job.owns]

theorem httpRequest_inv {env : Site.Env} {rqs : List Req} {L : Log} {s : Sys} (h : SInv env rqs L s) {q : Req} (hq : ReqOk q) :
    SInv env (rqs ++ [q]) (L ++ (s.httpRequest env q).2) (s.httpRequest env q).1 := by
  have free0 : ∀ op ∈ ([] : Log).map Prod.fst, ∀ (j : Nat) (kj : Conn), s.conns[j]? = some kj → kj.job.owns op = false := by simp
  unfold httpRequest
  by_cases hm : q.url.method = ascii "POST"
  · simp only [if_pos hm]
    cases hp : StreamHandler.publish env.ins env.junk q.host q.url s.w with
    | mk a w' =>
      cases a with
      | refused e =>
        simp only
        have := publish_refused hp
        subst this
        exact h.push (l := []) rfl free0 (fun op ho => absurd ho (by rw [close_owns]; simp)) (by trivial)
      | accepted cid f =>
        simp only
        obtain ⟨hc, hs, hv⟩ := publish_accepted hp
        refine h.push (by simp [World.run, hs]) ?_ ?_ ?_
        · intro op ho j kj hj
          simp at ho
          subst ho
          cases hk : kj.job <;> simp [Job.owns]
        · intro op ho j kj hj
          apply h.new_cache _ hj
          split at ho
          · cases op <;> simp [Job.owns] at ho <;> subst ho <;> simp [hc]
          · simp [Job.owns] at ho
        · have hpub : publishedTo cid (L ++ [(.publish (StreamHandler.key q.url), .published cid)]) = [] := by
            rw [publishedTo_append, (h.inv.fresh cid (by omega)).1]; rfl
          split
          · refine ⟨by simp, ⟨_, hv⟩, fun b cl hb => ?_⟩
            obtain ⟨hcl, R, hR, k, hk⟩ := hb.elim (fun hb => HttpSrc.serves_body hb .server) fun hb => HttpSrc.serves_cut hb .server (.inl rfl)
            refine ⟨hcl, R, b, hR, SReader.Holds.init hq.mem.2 hk, ?_⟩
            rw [if_neg (by simp)]
            exact ⟨hpub, rfl⟩
          · show _ ∈ _
            simp
  · simp only [if_neg hm]
    unfold StreamHandler.play
    split
    · rename_i w' hp
      split at hp
      · simp only [Prod.mk.injEq, true_and] at hp
        subst hp
        have hown : ∀ e, (match (s.w.edgeRequest (StreamHandler.key q.url)).2 with | .edgeStarted e => some e | _ => none) = some e →
            (s.w.edgeRequest (StreamHandler.key q.url)).2 = .edgeStarted e := by
          intro e he
          split at he
          · rename_i e' he'
            simp only [Option.some.injEq] at he
            rw [he', he]
          · simp at he
        refine h.push (by simp [World.run, World.step]) ?_ ?_ ⟨rfl, rfl, rfl, rfl, ?_⟩
        · intro op ho j kj hj
          simp at ho
          subst ho
          cases hk : kj.job <;> simp [Job.owns]
        · intro op ho j kj hj
          cases op <;> simp only [Job.owns, Bool.false_eq_true, beq_iff_eq] at ho
          rename_i e
          have := (edgeRequest_started (hown e ho)).1
          subst this
          exact h.new_edge hj
        · intro e he
          have := hown e he
          refine ⟨(edgeRequest_started this).2, ?_⟩
          rw [this]
          simp
      · exfalso
        unfold StreamHandler.attach at hp
        split at hp
        · simp at hp
        · split at hp
          · simp at hp
          · split at hp <;> simp at hp
    · rename_i hne
      split at hne
      · exact absurd rfl (hne _)
      · rename_i hx
        rw [if_neg hx]
        obtain ⟨w', l, k, he⟩ : ∃ w' l k, afterAttach env (StreamHandler.key q.url) (StreamHandler.attach env.outs env.junk Err.SUCCESS q.url s.w)
            q.tag rsp0 { out := [], fails := q.fails } = (w', l, k) := ⟨_, _, _, rfl⟩
        rw [he]
        simp only
        obtain ⟨b1, b2, b3, b4⟩ := afterAttach_spec hq (h.received_new (Nat.le_refl _)) (h.left_new (Nat.le_refl _)) _ he
        refine h.push b1 ?_ ?_ b2
        · intro op ho j kj hj
          rcases b3 op ho with ⟨key, rfl⟩ | rfl
          · exact h.new_client (.inr (.inr ⟨key, rfl⟩)) hj
          · exact h.new_client (.inr (.inl rfl)) hj
        · intro op ho j kj hj
          rcases b4 op ho with rfl | rfl
          · exact h.new_client (.inl rfl) hj
          · exact h.new_client (.inr (.inl rfl)) hj

/-- What `StreamHandler::play` from line 97 on leads to for an RTMP player. -/
theorem rtmpAttach_spec {env : Site.Env} {q : Req} {L : Log} {w : World} (hfresh : received w.clients.length L = [])
    (hleft : (.leave w.clients.length, .ok) ∉ L) (ret : Err) {w' : World} {l : Log} {k : Conn}
    (he : rtmpAttach (StreamHandler.key q.url) (StreamHandler.attach env.outs env.junk ret q.url w) q.fails = (w', l, k)) :
    w.run (l.map Prod.fst) = (w', l) ∧ ConnOk env q (L ++ l) w' k ∧
      (∀ op ∈ l.map Prod.fst, (∃ key, op = .play key) ∨ op = .leave w.clients.length) ∧
      (∀ op, k.job.owns op = true → op = .dump w.clients.length ∨ op = .leave w.clients.length) := by
  have hrefused : ∀ e, rtmpAttach (StreamHandler.key q.url) (.refused e, w) q.fails = (w', l, k) →
      w.run (l.map Prod.fst) = (w', l) ∧ ConnOk env q (L ++ l) w' k ∧
      (∀ op ∈ l.map Prod.fst, (∃ key, op = .play key) ∨ op = .leave w.clients.length) ∧
      (∀ op, k.job.owns op = true → op = .dump w.clients.length ∨ op = .leave w.clients.length) := by
    intro e h
    simp only [rtmpAttach, bare, Prod.mk.injEq] at h
    obtain ⟨rfl, rfl, rfl⟩ := h
    exact ⟨rfl, trivial, by simp, by simp [Job.owns]⟩
  unfold StreamHandler.attach at he
  split at he
  · exact hrefused _ he
  · split at he
    · exact hrefused _ he
    · rename_i f hf
      simp only [World.play_eq] at he
      split at he
      · rename_i w1 c cid hp
        split at hp
        · simp at hp
        · rename_i cid1 hreg
          split at hp
          · simp at hp
          · rename_i cc hcc
            have hplay : w.step (.play (StreamHandler.key q.url)) = (w1, .joined c cid) := by
              simp only [World.step, World.play_eq, hreg, hcc]; exact hp
            simp only [Prod.mk.injEq, WOut.joined.injEq] at hp
            obtain ⟨hw1, hc, hcid⟩ := hp
            subst hc
            have hclt : w.clients.length < w1.clients.length := by rw [← hw1]; simp
            have hrec : ∀ o, received w.clients.length (L ++ [(.play (StreamHandler.key q.url), o)]) = [] := by
              intro o; rw [received_append, hfresh, received_other o (by simp)]; rfl
            simp only [rtmpAttach, Prod.mk.injEq] at he
            obtain ⟨rfl, rfl, rfl⟩ := he
            refine ⟨by simp [World.run, hplay], ?_, by simp, ?_⟩
            · by_cases hf : f.word = ascii "-"
              · rw [if_pos hf]
                refine ⟨⟨cid, by simp⟩, hclt, ?_, by simp [hleft]⟩
                rw [hrec]; rfl
              · rw [if_neg hf]
                exact ⟨cid, by simp⟩
            · intro op ho
              by_cases hf : f.word = ascii "-"
              · rw [if_pos hf] at ho
                cases op <;> simp [Job.owns, bare] at ho <;> subst ho <;> simp
              · rw [if_neg hf] at ho
                simp [Job.owns, bare] at ho
      · rename_i w1 o hno hp
        split at hp
        · simp only [Prod.mk.injEq] at hp
          obtain ⟨rfl, rfl⟩ := hp
          exact hrefused _ he
        · split at hp
          · simp only [Prod.mk.injEq] at hp
            obtain ⟨rfl, rfl⟩ := hp
            exact hrefused _ he
          · simp only [Prod.mk.injEq] at hp
            exact absurd hp.2.symm (hno _ _)

theorem rtmpRequest_inv {env : Site.Env} {rqs : List Req} {L : Log} {s : Sys} (h : SInv env rqs L s) {q : Req} {pub : Bool} {ms : List RtmpMsg} {closed : Err}
    (hv : q.via = .rtmp pub ms closed) :
    SInv env (rqs ++ [q]) (L ++ (s.rtmpRequest env q pub ms closed).2) (s.rtmpRequest env q pub ms closed).1 := by
  have free0 : ∀ op ∈ ([] : Log).map Prod.fst, ∀ (j : Nat) (kj : Conn), s.conns[j]? = some kj → kj.job.owns op = false := by simp
  unfold rtmpRequest
  by_cases hm : pub = true
  · simp only [if_pos hm]
    cases hp : StreamHandler.publish env.ins env.junk q.host q.url s.w with
    | mk a w' =>
      cases a with
      | refused e =>
        simp only
        have := publish_refused hp
        subst this
        exact h.push (l := []) rfl free0 (fun op ho => absurd ho (by simp [bare, Job.owns])) (by trivial)
      | accepted cid f =>
        simp only
        obtain ⟨hc, hs, hvw⟩ := publish_accepted hp
        refine h.push (by simp [World.run, hs]) ?_ ?_ ?_
        · intro op ho j kj hj
          simp at ho
          subst ho
          cases hk : kj.job <;> simp [Job.owns]
        · intro op ho j kj hj
          apply h.new_cache _ hj
          split at ho
          · cases op <;> simp [Job.owns, bare] at ho <;> subst ho <;> simp [hc]
          · simp [Job.owns, bare] at ho
        · have hpub : publishedTo cid (L ++ [(.publish (StreamHandler.key q.url), .published cid)]) = [] := by
            rw [publishedTo_append, (h.inv.fresh cid (by omega)).1]; rfl
          split
          · subst hm
            refine ⟨by simp, ⟨_, hvw⟩, ms, hv, ?_, [], rfl⟩
            rw [hpub]; rfl
          · show _ ∈ _
            simp
  · simp only [if_neg hm]
    unfold StreamHandler.play
    split
    · rename_i w' hp
      split at hp
      · simp only [Prod.mk.injEq, true_and] at hp
        subst hp
        have hown : ∀ e, (match (s.w.edgeRequest (StreamHandler.key q.url)).2 with | .edgeStarted e => some e | _ => none) = some e →
            (s.w.edgeRequest (StreamHandler.key q.url)).2 = .edgeStarted e := by
          intro e he
          split at he
          · rename_i e' he'
            simp only [Option.some.injEq] at he
            rw [he', he]
          · simp at he
        refine h.push (by simp [World.run, World.step]) ?_ ?_ ⟨rfl, rfl, ?_⟩
        · intro op ho j kj hj
          simp at ho
          subst ho
          cases hk : kj.job <;> simp [Job.owns]
        · intro op ho j kj hj
          cases op <;> simp only [Job.owns, bare, Bool.false_eq_true, beq_iff_eq] at ho
          rename_i e
          have := (edgeRequest_started (hown e ho)).1
          subst this
          exact h.new_edge hj
        · intro e he
          have := hown e he
          refine ⟨(edgeRequest_started this).2, ?_⟩
          rw [this]
          simp
      · exfalso
        unfold StreamHandler.attach at hp
        split at hp
        · simp at hp
        · split at hp
          · simp at hp
          · split at hp <;> simp at hp
    · rename_i hne
      split at hne
      · exact absurd rfl (hne _)
      · rename_i hx
        rw [if_neg hx]
        obtain ⟨w', l, k, he⟩ : ∃ w' l k, rtmpAttach (StreamHandler.key q.url) (StreamHandler.attach env.outs env.junk Err.SUCCESS q.url s.w) q.fails = (w', l, k) :=
          ⟨_, _, _, rfl⟩
        rw [he]
        simp only
        obtain ⟨b1, b2, b3, b4⟩ := rtmpAttach_spec (h.received_new (Nat.le_refl _)) (h.left_new (Nat.le_refl _)) _ he
        refine h.push b1 ?_ ?_ b2
        · intro op ho j kj hj
          rcases b3 op ho with ⟨key, rfl⟩ | rfl
          · exact h.new_client (.inr (.inr ⟨key, rfl⟩)) hj
          · exact h.new_client (.inr (.inl rfl)) hj
        · intro op ho j kj hj
          rcases b4 op ho with rfl | rfl
          · exact h.new_client (.inl rfl) hj
          · exact h.new_client (.inr (.inl rfl)) hj

theorem publishSrt_published {w w' : World} {k : Key} {cid : Nat} (hp : w.publishSrt k = (w', .published cid)) :
    cid = w.caches.length ∧ w.step (.publishSrt k) = (w', .published cid) ∧ w'.view cid = some (k, .srtAv, true) := by
  have hs : w.step (.publishSrt k) = (w', .published cid) := hp
  unfold World.publishSrt at hp
  split at hp
  · simp at hp
  · simp only [Prod.mk.injEq, WOut.published.injEq] at hp
    obtain ⟨rfl, rfl⟩ := hp
    refine ⟨rfl, hs, ?_⟩
    rw [view_newCache, if_neg (by simp [newCache]), view_newCache, if_pos rfl]

theorem srtRequest_inv {env : Site.Env} {rqs : List Req} {L : Log} {s : Sys} (h : SInv env rqs L s) {q : Req} (hq : ReqOk q) (hv : q.via = .srt) :
    SInv env (rqs ++ [q]) (L ++ (s.srtRequest q).2) (s.srtRequest q).1 := by
  have free0 : ∀ op ∈ ([] : Log).map Prod.fst, ∀ (j : Nat) (kj : Conn), s.conns[j]? = some kj → kj.job.owns op = false := by simp
  have hmem : q.mem.length = 188 := by
    have := hq.msgs
    rw [hv] at this
    exact this
  unfold srtRequest
  by_cases hm : q.url.method = ascii "request"
  · simp only [if_pos hm]
    split
    · rename_i w' c cid hp
      have hplay : s.w.step (.play (tsKey (srtKey q.url))) = (w', .joined c cid) := hp
      rw [World.play_eq] at hp
      split at hp
      · simp at hp
      split at hp
      · simp at hp
      simp only [Prod.mk.injEq, WOut.joined.injEq] at hp
      obtain ⟨hw1, rfl, hcid⟩ := hp
      have hclt : s.w.clients.length < w'.clients.length := by rw [← hw1]; simp
      refine h.push (by simp [World.run, hplay]) ?_ ?_ ⟨⟨cid, by simp⟩, hclt, ?_, ?_⟩
      · intro op ho j kj hj
        simp at ho
        exact h.new_client (.inr (.inr ⟨_, ho⟩)) hj
      · intro op ho j kj hj
        cases op <;> simp [Job.owns] at ho <;> subst ho
        · exact h.new_client (.inl rfl) hj
        · exact h.new_client (.inr (.inl rfl)) hj
      · rw [received_append, h.received_new (Nat.le_refl _), received_other _ (by simp)]; rfl
      · simp [h.left_new (Nat.le_refl _)]
    · rename_i w' o hno hp
      have : w' = s.w := by
        rw [World.play_eq] at hp
        split at hp
        · simp only [Prod.mk.injEq] at hp; exact hp.1.symm
        split at hp
        · simp only [Prod.mk.injEq] at hp; exact hp.1.symm
        · simp only [Prod.mk.injEq] at hp
          exact absurd hp.2.symm (hno _ _)
      subst this
      exact h.push (l := []) rfl free0 (fun op ho => absurd ho (by simp [Job.owns])) (by trivial)
  · simp only [if_neg hm]
    split
    · rename_i w' cid hp
      obtain ⟨rfl, hs, hvw⟩ := publishSrt_published hp
      refine h.push (by simp [World.run, hs]) ?_ ?_ ⟨by simp, ⟨_, hvw⟩, ?_⟩
      · intro op ho j kj hj
        simp at ho
        subst ho
        cases hk : kj.job <;> simp [Job.owns]
      · intro op ho j kj hj
        apply h.new_cache _ hj
        cases op <;> simp [Job.owns] at ho
        · rcases ho with rfl | rfl <;> simp
        · subst ho; simp
      · intro b cl hb
        have h1 : publishedTo s.w.caches.length (L ++ [(.publishSrt (srtKey q.url), .published s.w.caches.length)]) = [] := by
          rw [publishedTo_append, (h.inv.fresh _ (Nat.le_refl _)).1]; rfl
        have h2 : publishedTo (s.w.caches.length + 1) (L ++ [(.publishSrt (srtKey q.url), .published s.w.caches.length)]) = [] := by
          rw [publishedTo_append, (h.inv.fresh _ (Nat.le_succ _)).1]; rfl
        rw [h1, h2]
        have hok := hb.ok
        refine ⟨?_, 0, ?_, Nat.zero_le _, rfl⟩
        · rw [← hb.closed]
          simp only [ioOk, Bool.and_eq_true, bne_iff_ne] at hok
          exact hok.2
        · have := TsDemuxer.AtTs.start q.mem hmem q.io hok hb.noErr
          rw [hb.closed, hb.stream] at this
          exact this
    · rename_i w' o hno hp
      have : w' = s.w := by
        unfold World.publishSrt at hp
        split at hp
        · simp only [Prod.mk.injEq] at hp; exact hp.1.symm
        · simp only [Prod.mk.injEq] at hp
          exact absurd hp.2.symm (hno _)
      subst this
      exact h.push (l := []) rfl free0 (fun op ho => absurd ho (by simp [Job.owns])) (by trivial)

theorem request_inv {env : Site.Env} {rqs : List Req} {L : Log} {s : Sys} (h : SInv env rqs L s) {q : Req} (hq : ReqOk q) :
    SInv env (rqs ++ [q]) (L ++ (s.request env q).2) (s.request env q).1 := by
  unfold request
  split
  · exact httpRequest_inv h hq
  · rename_i hv
    exact rtmpRequest_inv h hv
  · rename_i hv
    exact srtRequest_inv h hq hv

theorem wake_inv {env : Site.Env} {rqs : List Req} {L : Log} {s : Sys} (h : SInv env rqs L s) (hqs : ∀ q ∈ rqs, ReqOk q) (i : Nat) (ret : Err) :
    SInv env rqs (L ++ (s.wake env i ret).2) (s.wake env i ret).1 := by
  unfold wake
  split
  · rename_i u tag own r snk hi
    have hlt := get_len hi
    rw [h.len] at hlt
    have hq := List.getElem?_eq_getElem hlt
    obtain ⟨rfl, rfl, hr, hsnk, hown⟩ := h.ok i _ _ hi hq
    have hr : r = rsp0 := hr
    have hsnk : snk = { out := [], fails := (rqs[i]).fails } := hsnk
    subst hr hsnk
    obtain ⟨w1, l0, hd⟩ : ∃ w1 l0, dropPull s.w own = (w1, l0) := ⟨_, _, rfl⟩
    rw [hd]
    simp only
    have h1 : SInv env rqs (L ++ l0) ⟨w1, s.conns.set i ⟨.waits rqs[i].url rqs[i].tag none, rsp0, { out := [], fails := rqs[i].fails }⟩⟩ := by
      refine h.put hi hq ?_ ?_ (fun op ho => ?_) ⟨rfl, rfl, rfl, rfl, by simp⟩
      · cases own <;> simp only [dropPull, Prod.mk.injEq] at hd <;> obtain ⟨rfl, rfl⟩ := hd <;> simp [World.run, World.step]
      · intro op ho j kj hj hkj
        cases own with
        | none =>
          simp only [dropPull, Prod.mk.injEq] at hd
          obtain ⟨rfl, rfl⟩ := hd
          simp at ho
        | some e =>
          simp only [dropPull, Prod.mk.injEq] at hd
          obtain ⟨rfl, rfl⟩ := hd
          simp at ho
          subst ho
          exact h.apart i j _ _ (Ne.symm hj) hi hkj _ (by simp [Job.owns])
      · cases op <;> simp [Job.owns] at ho
    obtain ⟨w', l, k, he⟩ : ∃ w' l k, afterAttach env (StreamHandler.key rqs[i].url) (StreamHandler.attach env.outs env.junk ret rqs[i].url w1)
        rqs[i].tag rsp0 { out := [], fails := rqs[i].fails } = (w', l, k) := ⟨_, _, _, rfl⟩
    rw [he]
    simp only
    obtain ⟨b1, b2, b3, b4⟩ := afterAttach_spec (hqs _ (List.getElem_mem hlt)) (h1.received_new (Nat.le_refl _)) (h1.left_new (Nat.le_refl _)) _ he
    have hi1 : (s.conns.set i ⟨.waits rqs[i].url rqs[i].tag none, rsp0, { out := [], fails := rqs[i].fails }⟩)[i]? = some _ :=
      List.getElem?_set_self (get_len hi)
    have h2 := h1.put hi1 hq b1 (k := k) ?_ ?_ b2
    · simpa using h2
    · intro op ho j kj _ hj
      rcases b3 op ho with ⟨key, rfl⟩ | rfl
      · exact h1.new_client (.inr (.inr ⟨key, rfl⟩)) hj
      · exact h1.new_client (.inr (.inl rfl)) hj
    · intro op ho j kj _ hj
      rcases b4 op ho with rfl | rfl
      · exact h1.new_client (.inl rfl) hj
      · exact h1.new_client (.inr (.inl rfl)) hj
  · rename_i u fails own r snk hi
    have hlt := get_len hi
    rw [h.len] at hlt
    have hq := List.getElem?_eq_getElem hlt
    obtain ⟨rfl, rfl, hown⟩ := h.ok i _ _ hi hq
    obtain ⟨w1, l0, hd⟩ : ∃ w1 l0, dropPull s.w own = (w1, l0) := ⟨_, _, rfl⟩
    rw [hd]
    simp only
    have h1 : SInv env rqs (L ++ l0) ⟨w1, s.conns.set i (bare (.rtmpWaits rqs[i].url rqs[i].fails none))⟩ := by
      refine h.put hi hq ?_ ?_ (fun op ho => ?_) ⟨rfl, rfl, by simp⟩
      · cases own <;> simp only [dropPull, Prod.mk.injEq] at hd <;> obtain ⟨rfl, rfl⟩ := hd <;> simp [World.run, World.step]
      · intro op ho j kj hj hkj
        cases own with
        | none =>
          simp only [dropPull, Prod.mk.injEq] at hd
          obtain ⟨rfl, rfl⟩ := hd
          simp at ho
        | some e =>
          simp only [dropPull, Prod.mk.injEq] at hd
          obtain ⟨rfl, rfl⟩ := hd
          simp at ho
          subst ho
          exact h.apart i j _ _ (Ne.symm hj) hi hkj _ (by simp [Job.owns])
      · cases op <;> simp [Job.owns, bare] at ho
    obtain ⟨w', l, k, he⟩ : ∃ w' l k, rtmpAttach (StreamHandler.key rqs[i].url) (StreamHandler.attach env.outs env.junk ret rqs[i].url w1)
        rqs[i].fails = (w', l, k) := ⟨_, _, _, rfl⟩
    rw [he]
    simp only
    obtain ⟨b1, b2, b3, b4⟩ := rtmpAttach_spec (h1.received_new (Nat.le_refl _)) (h1.left_new (Nat.le_refl _)) _ he
    have hi1 : (s.conns.set i (bare (.rtmpWaits rqs[i].url rqs[i].fails none)))[i]? = some _ :=
      List.getElem?_set_self (get_len hi)
    have h2 := h1.put hi1 hq b1 (k := k) ?_ ?_ b2
    · simpa using h2
    · intro op ho j kj _ hj
      rcases b3 op ho with ⟨key, rfl⟩ | rfl
      · exact h1.new_client (.inr (.inr ⟨key, rfl⟩)) hj
      · exact h1.new_client (.inr (.inl rfl)) hj
    · intro op ho j kj _ hj
      rcases b4 op ho with rfl | rfl
      · exact h1.new_client (.inl rfl) hj
      · exact h1.new_client (.inr (.inl rfl)) hj
  · exact h.same

theorem endPub_inv {env : Site.Env} {rqs : List Req} {L : Log} {s : Sys} (h : SInv env rqs L s) {i cid : Nat} {k0 : Conn} {q : Req}
    (hi : s.conns[i]? = some k0) (hq : rqs[i]? = some q) (ho : k0.job.owns (.unpublish cid) = true)
    (hmem : (.publish (StreamHandler.key q.url), .published cid) ∈ L) {key : Key} (hv : s.w.view cid = some (key, .plain, true))
    (hup : ∀ b cl, Sends q b cl → ∃ n0, ∀ n, n0 ≤ n → publishedTo cid L = uploaded q b cl n) (e : Err) (r : HttpRsp) (snk : Sink) :
    SInv env rqs (L ++ (s.endPub env i cid e r snk).2) (s.endPub env i cid e r snk).1 := by
  unfold endPub
  refine h.put hi hq (by simp [World.run, World.step]) ?_ (fun op ho => absurd ho (by rw [close_owns]; simp)) ?_
  · intro op hop j kj hj hkj
    simp at hop
    subst hop
    exact h.apart i j _ _ (Ne.symm hj) hi hkj _ ho
  · refine ⟨List.mem_append_left _ hmem, ⟨key, unpublish_open hv⟩, ?_⟩
    rw [publishedTo_append, published_other _ (by simp), List.append_nil]
    exact hup

theorem runPub_inv {env : Site.Env} {rqs : List Req} {L : Log} {s : Sys} (h : SInv env rqs L s) (hqs : ∀ q ∈ rqs, ReqOk q) {i cid : Nat}
    {rd : SReader HttpSrc} {headed : Bool} {r : HttpRsp} {snk : Sink} (hi : s.conns[i]? = some ⟨.flvPub cid rd headed, r, snk⟩) {s' : Sys} {l : Log}
    (he : s.runPub env i cid rd headed r snk = some (s', l)) : SInv env rqs (L ++ l) s' := by
  have hlt := get_len hi
  rw [h.len] at hlt
  have hq := List.getElem?_eq_getElem hlt
  have hrq := hqs _ (List.getElem_mem hlt)
  obtain ⟨h1, ⟨key, h2⟩, h5⟩ := h.ok i _ _ hi hq
  generalize rqs[i] = q at *
  have hown : ∀ rd' (hd : Bool) op, (Conn.mk (.flvPub cid rd' hd) r snk).job.owns op = true → ∀ (j : Nat) (kj : Conn), j ≠ i →
      s.conns[j]? = some kj → kj.job.owns op = false := by
    intro rd' hd op ho j kj hj hkj
    refine h.apart i j _ _ (Ne.symm hj) hi hkj op ?_
    revert ho
    cases op <;> simp [Job.owns]
  have hend : ∀ e, (∀ b cl, Sends q b cl → ∃ n0, ∀ n, n0 ≤ n → publishedTo cid L = uploaded q b cl n) → s.endPub env i cid e r snk = (s', l) →
      SInv env rqs (L ++ l) s' := by
    intro e hall hx
    have := endPub_inv h hi hq (by simp [Job.owns]) h1 h2 hall e r snk
    rw [hx] at this
    exact this
  unfold runPub at he
  cases headed with
  | false =>
    simp only [Bool.false_eq_true, if_false] at he
    cases hr : readHeader.runOn rd with
    | none => rw [hr] at he; simp at he
    | some x =>
      obtain ⟨⟨e, o⟩, rd'⟩ := x
      rw [hr] at he
      simp only [Option.map_some, Option.some.injEq] at he
      cases o with
      | none => exact hend _ (fun b cl hb => (h5 b cl hb).header_fail hrq.mem.1 hr) he
      | some p =>
        simp only [Prod.mk.injEq] at he
        obtain ⟨rfl, rfl⟩ := he
        refine h.put hi hq rfl (by simp) (hown _ _) ?_
        rw [List.append_nil]
        exact ⟨h1, ⟨key, h2⟩, fun b cl hb => (h5 b cl hb).header hrq.mem.1 hr⟩
  | true =>
    simp only [if_true] at he
    cases hr : readPacket.runOn rd with
    | none => rw [hr] at he; simp at he
    | some x =>
      obtain ⟨⟨e, o⟩, rd'⟩ := x
      rw [hr] at he
      simp only [Option.map_some, Option.some.injEq] at he
      cases o with
      | none => exact hend _ (fun b cl hb => (h5 b cl hb).packet_fail hrq.mem.1 hr) he
      | some p =>
        simp only [Prod.mk.injEq] at he
        obtain ⟨rfl, rfl⟩ := he
        have hput := put_open h2 p
        refine h.put hi hq (by simp [World.run, World.step]) ?_ (hown _ _) ?_
        · intro op hop j kj hj hkj
          simp at hop
          subst hop
          exact h.apart i j _ _ (Ne.symm hj) hi hkj _ (by simp [Job.owns])
        · have hpub : publishedTo cid (L ++ [(.put cid p, (s.w.put cid p).2)]) = publishedTo cid L ++ [p] := by
            rw [publishedTo_append, hput]; simp [publishedTo]
          refine ⟨List.mem_append_left _ h1, ⟨key, ?_⟩, fun b cl hb => ?_⟩
          · exact step_open h.inv2 (.put cid p) h2 (by simp)
          · rw [hpub]
            exact (h5 b cl hb).packet hrq.mem.1 hr

theorem received_pkts (c : Nat) (ps : List AVPkt) : received c [(.dump c, .pkts ps)] = ps := by simp [received]

theorem dump_pkts {w w' : World} {c : Nat} {o : WOut} (h : w.dump c = (w', o)) : w.step (.dump c) = (w', o) := h

theorem leave_owned {s : Sys} {env : Site.Env} {rqs : List Req} {L : Log} (h : SInv env rqs L s) {i c : Nat} {k0 : Conn}
    (hi : s.conns[i]? = some k0) (ho : ∀ op, op = .dump c ∨ op = .leave c → k0.job.owns op = true) (op : WOp)
    (hop : op = .dump c ∨ op = .leave c) (j : Nat) (kj : Conn) (hj : j ≠ i) (hkj : s.conns[j]? = some kj) : kj.job.owns op = false :=
  h.apart i j _ _ (Ne.symm hj) hi hkj _ (ho op hop)

/-- The packets a player got were published. -/
theorem received_small {L : Log} {w : World} (hw : World.init.run (L.map Prod.fst) = (w, L)) (hf : fitsFlv L) (c : Nat) :
    ∀ p ∈ received c L, (Flv.body p).length < 2 ^ 24 := by
  intro p hp
  have hd := C12_delivery (L.map Prod.fst) c
  rw [hw] at hd
  have : p ∈ entitled c [] L := by rw [← hd]; exact List.mem_append_left _ hp
  obtain ⟨op, cid, -, h3⟩ := mem_entitled L this
  exact hf cid p (by simpa using h3)

theorem runView_inv {env : Site.Env} {rqs : List Req} {L : Log} {s : Sys} (h : SInv env rqs L s) {i c : Nat}
    {mux : FlvMuxer} {r : HttpRsp} {snk : Sink} (hi : s.conns[i]? = some ⟨.view c mux, r, snk⟩) {s' : Sys} {l : Log}
    (he : s.runView env i c mux r snk = some (s', l)) (hfit : fitsFlv (L ++ l)) : SInv env rqs (L ++ l) s' := by
  have hlt := get_len hi
  rw [h.len] at hlt
  have hq := List.getElem?_eq_getElem hlt
  obtain ⟨⟨cid, h1⟩, h2, h3, h4, h5, h6, h7, h8⟩ := h.ok i _ _ hi hq
  generalize rqs[i] = q at *
  have hfree := leave_owned (c := c) h hi (by rintro op (rfl | rfl) <;> simp [Job.owns])
  unfold runView at he
  have hto : ¬ isRefusal Err.ERROR_SOCKET_TIMEOUT := by unfold isRefusal; decide
  split at he
  · rename_i w1 hd
    simp only [endView, Option.some.injEq, Prod.mk.injEq] at he
    obtain ⟨rfl, rfl⟩ := he
    refine h.put hi hq ?_ ?_ (fun op ho => absurd ho (by rw [close_owns]; simp)) ?_
    · simp [World.run, dump_pkts hd]; exact ⟨rfl, rfl⟩
    · intro op hop
      simp at hop
      rcases hop with rfl | rfl
      · exact hfree _ (.inl rfl)
      · exact hfree _ (.inr rfl)
    · rw [close_player _ _ _ _ _ hto]
      refine ⟨⟨cid, List.mem_append_left _ h1⟩, ?_⟩
      rw [h4, received_append]
      exact flvResponse_prefix _ _ _
  · rename_i w1 ps hne hd
    have hstep := dump_pkts hd
    have hworld : World.init.run ((L ++ [(WOp.dump c, WOut.pkts ps)]).map Prod.fst) = (w1, L ++ [(.dump c, .pkts ps)]) := by
      rw [List.map_append, run_append, h.world]
      simp [World.run, hstep]
    have hsmall : ∀ p ∈ ps, (Flv.body p).length < 2 ^ 24 := by
      intro p hp
      refine received_small hworld ?_ c p ?_
      · intro cid' p' hp'
        apply hfit cid' p'
        rw [publishedTo_append, published_other _ (by simp), List.append_nil] at hp'
        rw [publishedTo_append]
        exact List.mem_append_left _ hp'
      · rw [received_append, received_pkts]
        exact List.mem_append_right _ hp
    have hE : ¬ isRefusal Err.ERROR_FLV_UNKNOWN_TAG_TYPE := by unfold isRefusal; decide
    obtain ⟨e, m', ⟨r', snk'⟩, sent, a1, a2, a3, a4, a5, -⟩ := writePacketsTo_spec (appends_http env.reason) hE ps mux (r, snk) h5 h3 hsmall
    rw [a1] at he
    have hnf : ps.filter (fun p => !mux.filtered p.stream) = ps := by
      apply List.filter_eq_self.2
      intro p _
      rw [h6]; rfl
    rw [hnf] at a3 a4
    simp only [Option.map_some, Option.some.injEq] at he
    have hresp : flvResponse env.reason (received c L ++ ps) = flvResponse env.reason (received c L) ++ Flv.chain mux.prev ps := by
      unfold flvResponse
      rw [h7 ps, ← List.append_assoc]
    have ha2 : snk'.out = flvResponse env.reason (received c L) ++ sent := by
      have ha : snk'.out = snk.out ++ sent := a2
      have hb : snk.out = flvResponse env.reason (received c L) := h4
      rw [ha, hb]
    by_cases hs : e = Err.SUCCESS
    · simp only [hs, ne_eq, not_true_eq_false, if_false, Prod.mk.injEq] at he
      obtain ⟨rfl, rfl⟩ := he
      obtain ⟨b1, b2, b3, b4, b5⟩ := a4 hs
      refine h.put hi hq (by simp [World.run, hstep]) ?_ ?_ ?_
      · intro op hop
        simp at hop
        exact hfree _ (.inl hop)
      · intro op ho
        apply hfree
        cases op <;> simp [Job.owns] at ho <;> subst ho <;> simp
      · have hcl : c < w1.clients.length := by
          have := (step_lengths s.w (.dump c)).1
          rw [hstep] at this
          exact Nat.lt_of_lt_of_le h2 this
        refine ⟨⟨cid, List.mem_append_left _ h1⟩, hcl, b2, ?_, b3, by rw [b4]; exact h6, ?_, by simp [h8]⟩
        · rw [received_append, received_pkts, hresp, ← b1]; exact ha2
        · intro qs
          rw [received_append, received_pkts, List.append_assoc, h7, h7, List.append_assoc]
          congr 1
          exact b5 qs
    · simp only [ne_eq, hs, not_false_eq_true, if_true, endView, Prod.mk.injEq] at he
      obtain ⟨rfl, rfl⟩ := he
      refine h.put hi hq ?_ ?_ (fun op ho => absurd ho (by rw [close_owns]; simp)) ?_
      · simp [World.run, hstep]; exact ⟨rfl, rfl⟩
      · intro op hop
        simp at hop
        exact hfree _ hop
      · rw [close_player _ _ _ _ _ (a5 hs)]
        refine ⟨⟨cid, List.mem_append_left _ h1⟩, ?_⟩
        rw [received_append, List.singleton_append, received_cons, received_pkts, received_other _ (by simp), List.append_nil, hresp]
        show snk'.out <+: _
        rw [ha2]
        exact (List.prefix_append_right_inj _).2 a3
  · simp only [Option.some.injEq, Prod.mk.injEq] at he
    obtain ⟨rfl, rfl⟩ := he
    exact h.same

theorem runNull_inv {env : Site.Env} {rqs : List Req} {L : Log} {s : Sys} (h : SInv env rqs L s) {i c : Nat}
    {r : HttpRsp} {snk : Sink} (hi : s.conns[i]? = some ⟨.nullView c, r, snk⟩) {s' : Sys} {l : Log}
    (he : s.runNull env i c r snk = some (s', l)) : SInv env rqs (L ++ l) s' := by
  have hlt := get_len hi
  rw [h.len] at hlt
  have hq := List.getElem?_eq_getElem hlt
  obtain ⟨⟨cid, h1⟩, h2, hout⟩ := h.ok i _ _ hi hq
  have hout : snk.out = [] := hout
  generalize rqs[i] = q at *
  have hfree := leave_owned (c := c) h hi (by rintro op (rfl | rfl) <;> simp [Job.owns])
  have hto : ¬ isRefusal Err.ERROR_SOCKET_TIMEOUT := by unfold isRefusal; decide
  unfold runNull at he
  split at he
  · rename_i w1 hd
    simp only [endView, Option.some.injEq, Prod.mk.injEq] at he
    obtain ⟨rfl, rfl⟩ := he
    refine h.put hi hq ?_ ?_ (fun op ho => absurd ho (by rw [close_owns]; simp)) ?_
    · simp [World.run, dump_pkts hd]; exact ⟨rfl, rfl⟩
    · intro op hop
      simp at hop
      rcases hop with rfl | rfl
      · exact hfree _ (.inl rfl)
      · exact hfree _ (.inr rfl)
    · rw [close_player _ _ _ _ _ hto]
      refine ⟨⟨cid, List.mem_append_left _ h1⟩, ?_⟩
      show snk.out <+: _
      rw [hout]
      exact List.nil_prefix
  · rename_i w1 ps hne hd
    have hstep := dump_pkts hd
    split at he
    · simp at he
    · simp only [Option.some.injEq, Prod.mk.injEq] at he
      obtain ⟨rfl, rfl⟩ := he
      have hset : s.conns = s.conns.set i ⟨.nullView c, r, snk⟩ := by
        apply List.ext_getElem?
        intro j
        by_cases hj : i = j
        · subst hj; rw [List.getElem?_set_self (get_len hi), hi]
        · rw [List.getElem?_set_ne hj]
      rw [hset]
      refine h.put hi hq (by simp [World.run, hstep]) ?_ ?_ ?_
      · intro op hop
        simp at hop
        exact hfree _ (.inl hop)
      · intro op ho
        apply hfree
        cases op <;> simp [Job.owns] at ho <;> subst ho <;> simp
      · refine ⟨⟨cid, List.mem_append_left _ h1⟩, ?_⟩
        have := (step_lengths s.w (.dump c)).1
        rw [hstep] at this
        exact ⟨Nat.lt_of_lt_of_le h2 this, hout⟩
  · simp only [Option.some.injEq, Prod.mk.injEq] at he
    obtain ⟨rfl, rfl⟩ := he
    exact h.same

/-- What is read first is the first packet the messages carry. -/
theorem first_media {closed : Err} (ms : List RtmpMsg) : ∀ {e : Err} {o : Option AVPkt} {ms' : List RtmpMsg},
    Rtmp.first closed ms = some ((e, o), ms') →
    (∃ pre, ms = pre ++ ms') ∧ Rtmp.media ms = match o with | some p => p :: Rtmp.media ms' | none => [] := by
  induction ms with
  | nil =>
    intro e o ms' h
    simp only [Rtmp.first, Option.some.injEq, Prod.mk.injEq] at h
    obtain ⟨⟨rfl, rfl⟩, rfl⟩ := h
    exact ⟨⟨[], rfl⟩, rfl⟩
  | cons m ms ih =>
    intro e o ms' h
    simp only [Rtmp.first] at h
    simp only [Rtmp.media]
    cases hj : Rtmp.judge m with
    | skip =>
      rw [hj] at h
      obtain ⟨⟨pre, rfl⟩, h2⟩ := ih h
      exact ⟨⟨m :: pre, rfl⟩, h2⟩
    | accept p =>
      rw [hj] at h
      simp only [Option.some.injEq, Prod.mk.injEq] at h
      obtain ⟨⟨rfl, rfl⟩, rfl⟩ := h
      exact ⟨⟨[m], rfl⟩, rfl⟩
    | reject e' =>
      rw [hj] at h
      simp only [Option.some.injEq, Prod.mk.injEq] at h
      obtain ⟨⟨rfl, rfl⟩, rfl⟩ := h
      exact ⟨⟨[m], rfl⟩, rfl⟩
    | tooShort => rw [hj] at h; simp at h

theorem runRtmpPub_inv {env : Site.Env} {rqs : List Req} {L : Log} {s : Sys} (h : SInv env rqs L s) (hqs : ∀ q ∈ rqs, ReqOk q) {i cid : Nat}
    {ms : List RtmpMsg} {closed : Err} {r : HttpRsp} {snk : Sink} (hi : s.conns[i]? = some ⟨.rtmpPub cid ms closed, r, snk⟩) {s' : Sys} {l : Log}
    (he : s.runRtmpPub i cid ms closed = some (s', l)) : SInv env rqs (L ++ l) s' := by
  have hlt := get_len hi
  rw [h.len] at hlt
  have hq := List.getElem?_eq_getElem hlt
  have hrq := hqs _ (List.getElem_mem hlt)
  obtain ⟨h1, ⟨key, h2⟩, ms0, h5, h6, pre, h7⟩ := h.ok i _ _ hi hq
  generalize rqs[i] = q at *
  have hb : ∀ m ∈ ms, ∀ b, m.body = some b → b.length < 2 ^ 64 := by
    intro m hm
    have := hrq.msgs
    rw [h5] at this
    exact this m (by rw [h7]; exact List.mem_append_right _ hm)
  unfold runRtmpPub at he
  rw [RtmpDemuxer.readPacket_eq closed ms hb] at he
  cases hf : Rtmp.first closed ms with
  | none => rw [hf] at he; simp at he
  | some x =>
    obtain ⟨⟨e, o⟩, ms'⟩ := x
    rw [hf] at he
    obtain ⟨⟨pre', hp⟩, hm⟩ := first_media ms hf
    simp only [Option.map_some, Option.some.injEq] at he
    cases o with
    | none =>
      simp only [Prod.mk.injEq] at he hm
      obtain ⟨rfl, rfl⟩ := he
      refine h.put hi hq (by simp [World.run, World.step]) ?_ (fun op ho => absurd ho (by simp [bare, Job.owns])) ?_
      · intro op hop j kj hj hkj
        simp at hop
        subst hop
        exact h.apart i j _ _ (Ne.symm hj) hi hkj _ (by simp [Job.owns])
      · refine ⟨List.mem_append_left _ h1, ⟨key, unpublish_open h2⟩, ms0, closed, h5, ?_⟩
        rw [publishedTo_append, published_other _ (by simp), List.append_nil, h6, hm, List.append_nil]
    | some p =>
      simp only [Prod.mk.injEq] at he hm
      obtain ⟨rfl, rfl⟩ := he
      have hput := put_open h2 p
      refine h.put hi hq (by simp [World.run, World.step]) ?_ ?_ ?_
      · intro op hop j kj hj hkj
        simp at hop
        subst hop
        exact h.apart i j _ _ (Ne.symm hj) hi hkj _ (by simp [Job.owns])
      · intro op ho j kj hj hkj
        refine h.apart i j _ _ (Ne.symm hj) hi hkj op ?_
        revert ho
        cases op <;> simp [Job.owns, bare]
      · have hpub : publishedTo cid (L ++ [(.put cid p, (s.w.put cid p).2)]) = publishedTo cid L ++ [p] := by
          rw [publishedTo_append, hput]; simp [publishedTo]
        refine ⟨List.mem_append_left _ h1, ⟨key, step_open h.inv2 (.put cid p) h2 (by simp)⟩, ms0, h5, ?_, pre ++ pre', ?_⟩
        · rw [hpub, h6, hm]; simp
        · rw [h7, hp]; simp

theorem runRtmpView_inv {env : Site.Env} {rqs : List Req} {L : Log} {s : Sys} (h : SInv env rqs L s) {i c : Nat}
    {ms : MsgSink} {r : HttpRsp} {snk : Sink} (hi : s.conns[i]? = some ⟨.rtmpView c ms, r, snk⟩) {s' : Sys} {l : Log}
    (he : s.runRtmpView i c ms = some (s', l)) : SInv env rqs (L ++ l) s' := by
  have hlt := get_len hi
  rw [h.len] at hlt
  have hq := List.getElem?_eq_getElem hlt
  obtain ⟨⟨cid, h1⟩, h2, h3, h8⟩ := h.ok i _ _ hi hq
  generalize rqs[i] = q at *
  have hfree := leave_owned (c := c) h hi (by rintro op (rfl | rfl) <;> simp [Job.owns])
  unfold runRtmpView at he
  split at he
  · rename_i w1 hd
    simp only [endRtmpView, Option.some.injEq, Prod.mk.injEq] at he
    obtain ⟨rfl, rfl⟩ := he
    refine h.put hi hq ?_ ?_ (fun op ho => absurd ho (by simp [bare, Job.owns])) ?_
    · simp [World.run, dump_pkts hd]; exact ⟨rfl, rfl⟩
    · intro op hop
      simp at hop
      rcases hop with rfl | rfl
      · exact hfree _ (.inl rfl)
      · exact hfree _ (.inr rfl)
    · refine ⟨⟨cid, List.mem_append_left _ h1⟩, ?_⟩
      rw [h3, received_append]
      exact messages_prefix _ _
  · rename_i w1 ps hne hd
    have hstep := dump_pkts hd
    cases hx : rtmpWrite ps ms with
    | mk e ms' =>
      rw [hx] at he
      obtain ⟨sent, a1, a2, a3⟩ := rtmpWrite_spec ps hx
      simp only [Option.some.injEq] at he
      by_cases hs : e = Err.SUCCESS
      · simp only [hs, ne_eq, not_true_eq_false, if_false, Prod.mk.injEq] at he
        obtain ⟨rfl, rfl⟩ := he
        refine h.put hi hq (by simp [World.run, hstep]) ?_ ?_ ?_
        · intro op hop
          simp at hop
          exact hfree _ (.inl hop)
        · intro op ho
          apply hfree
          cases op <;> simp [Job.owns, bare] at ho <;> subst ho <;> simp
        · have hcl : c < w1.clients.length := by
            have := (step_lengths s.w (.dump c)).1
            rw [hstep] at this
            exact Nat.lt_of_lt_of_le h2 this
          refine ⟨⟨cid, List.mem_append_left _ h1⟩, hcl, ?_, by simp [h8]⟩
          rw [received_append, received_pkts, messages_append, ← a3 hs, ← h3, a1]
      · simp only [ne_eq, hs, not_false_eq_true, if_true, endRtmpView, Prod.mk.injEq] at he
        obtain ⟨rfl, rfl⟩ := he
        refine h.put hi hq ?_ ?_ (fun op ho => absurd ho (by simp [bare, Job.owns])) ?_
        · simp [World.run, hstep]; exact ⟨rfl, rfl⟩
        · intro op hop
          simp at hop
          exact hfree _ hop
        · refine ⟨⟨cid, List.mem_append_left _ h1⟩, ?_⟩
          rw [received_append, List.singleton_append, received_cons, received_pkts, received_other _ (by simp), List.append_nil, messages_append, a1, h3]
          exact (List.prefix_append_right_inj _).2 a2
  · simp only [Option.some.injEq, Prod.mk.injEq] at he
    obtain ⟨rfl, rfl⟩ := he
    exact h.same

theorem putAll_spec (cid : Nat) : ∀ (ps : List AVPkt) (w : World) {key : Key} {src : Src}, w.view cid = some (key, src, true) →
    ∃ w' l, putAll cid w ps = (w', l) ∧ w.run (l.map Prod.fst) = (w', l) ∧ (∀ op ∈ l.map Prod.fst, ∃ p, op = .put cid p) ∧
      (∀ i, w'.view i = w.view i) ∧ publishedTo cid l = ps ∧ ∀ i, i ≠ cid → publishedTo i l = []
  | [], w, _, _, _ => ⟨w, [], rfl, rfl, by simp, fun _ => rfl, rfl, fun _ _ => rfl⟩
  | p :: ps, w, key, src, hv => by
    have hv1 : (w.put cid p).1.view cid = some (key, src, true) := by rw [put_view]; exact hv
    obtain ⟨w', l, h1, h2, h3, h4, h5, h6⟩ := putAll_spec cid ps (w.put cid p).1 hv1
    refine ⟨w', (.put cid p, (w.put cid p).2) :: l, by simp only [putAll, h1], ?_, ?_, ?_, ?_, ?_⟩
    · simp only [List.map_cons, World.run, World.step, h2]
    · intro op ho
      simp only [List.map_cons, List.mem_cons] at ho
      rcases ho with rfl | ho
      · exact ⟨p, rfl⟩
      · exact h3 op ho
    · intro i; rw [h4, put_view]
    · rw [put_open hv p]; simp [publishedTo, h5]
    · intro i hi
      rw [put_open hv p]; simp [publishedTo, Ne.symm hi, h6 i hi]

theorem runSrtPub_inv {env : Site.Env} {rqs : List Req} {L : Log} {s : Sys} (h : SInv env rqs L s) {i cid : Nat}
    {rd : Reader} {ctx : TsCtx} {st : TsCodec} {r : HttpRsp} {snk : Sink} (hi : s.conns[i]? = some ⟨.srtPub cid rd ctx st, r, snk⟩) {s' : Sys} {l : Log}
    (he : s.runSrtPub i cid rd ctx st r snk = some (s', l)) : SInv env rqs (L ++ l) s' := by
  have hlt := get_len hi
  rw [h.len] at hlt
  have hq := List.getElem?_eq_getElem hlt
  obtain ⟨h1, ⟨key, h2⟩, h5⟩ := h.ok i _ _ hi hq
  generalize rqs[i] = q at *
  have htw := h.inv2.twin _ _ _ h2
  have hfree : ∀ op, ((∃ p, op = .put cid p) ∨ (∃ p, op = .put (cid + 1) p) ∨ op = .unpublish cid) → ∀ (j : Nat) (kj : Conn), j ≠ i →
      s.conns[j]? = some kj → kj.job.owns op = false := by
    intro op ho j kj hj hkj
    refine h.apart i j _ _ (Ne.symm hj) hi hkj op ?_
    rcases ho with ⟨p, rfl⟩ | ⟨p, rfl⟩ | rfl <;> simp [Job.owns]
  have hown : ∀ rd' ctx' st' op, (Conn.mk (.srtPub cid rd' ctx' st') r snk).job.owns op = true → ∀ (j : Nat) (kj : Conn), j ≠ i →
      s.conns[j]? = some kj → kj.job.owns op = false := by
    intro rd' ctx' st' op ho
    apply hfree
    cases op <;> simp [Job.owns] at ho
    · rcases ho with rfl | rfl <;> simp
    · subst ho; simp
  have hend : ∀ (w : World) (l0 : Log) (e : Err), s.w.run (l0.map Prod.fst) = (w, l0) → (∀ op ∈ l0.map Prod.fst, ∃ p, op = .put (cid + 1) p) →
      w.view cid = some (key, .srtAv, true) → publishedTo cid l0 = [] →
      (∀ b cl, Arrives q.io b cl → SrtOver b (publishedTo cid L) (publishedTo (cid + 1) (L ++ l0))) →
      s.endSrtPub w l0 i cid e r snk = (s', l) → SInv env rqs (L ++ l) s' := by
    intro w l0 e hrun hops hvw hnone hover hx
    simp only [endSrtPub, Prod.mk.injEq] at hx
    obtain ⟨rfl, rfl⟩ := hx
    refine h.put hi hq ?_ ?_ (fun op ho => absurd ho (by simp [Job.owns])) ⟨List.mem_append_left _ h1, ⟨key, unpublish_srt hvw⟩, ?_⟩
    · rw [List.map_append, run_append, hrun]; simp [World.run, World.step]
    · intro op hop
      rw [List.map_append, List.mem_append] at hop
      rcases hop with hop | hop
      · exact hfree op (.inr (.inl (hops op hop)))
      · simp at hop
        exact hfree op (.inr (.inr hop))
    · intro b cl hb
      have e1 : publishedTo cid (L ++ (l0 ++ [(.unpublish cid, (w.unpublish cid).2)])) = publishedTo cid L := by
        rw [publishedTo_append, publishedTo_append, hnone, published_other _ (by simp)]; simp
      have e2 : publishedTo (cid + 1) (L ++ (l0 ++ [(.unpublish cid, (w.unpublish cid).2)])) = publishedTo (cid + 1) (L ++ l0) := by
        rw [← List.append_assoc, publishedTo_append (cid + 1) (L ++ l0), published_other _ (by simp), List.append_nil]
      rw [e1, e2]
      exact hover b cl hb
  unfold runSrtPub at he
  cases hpop : st.pop with
  | some x =>
    obtain ⟨p, st1⟩ := x
    rw [hpop] at he
    simp only [Option.some.injEq, Prod.mk.injEq] at he
    obtain ⟨rfl, rfl⟩ := he
    have hqe : st.queue = p :: st1.queue ∧ st1 = { st with queue := st1.queue } := by
      unfold TsCodec.pop at hpop
      split at hpop
      · simp at hpop
      · rename_i p' q' hq'
        simp only [Option.some.injEq, Prod.mk.injEq] at hpop
        obtain ⟨rfl, rfl⟩ := hpop
        exact ⟨hq', rfl⟩
    have hput := put_open h2 p
    have hne : cid ≠ cid + 1 := by omega
    refine h.put hi hq (by simp [World.run, World.step]) ?_ (hown _ _ _) ⟨List.mem_append_left _ h1, ⟨key, by rw [put_view]; exact h2⟩, ?_⟩
    · intro op hop
      simp at hop
      exact hfree op (.inl ⟨p, hop⟩)
    · intro b cl hb
      obtain ⟨hcl, n, ha, hf⟩ := h5 b cl hb
      have e1 : publishedTo cid (L ++ [(.put cid p, (s.w.put cid p).2)]) = publishedTo cid L ++ [p] := by
        rw [publishedTo_append, hput]; simp [publishedTo]
      have e2 : publishedTo (cid + 1) (L ++ [(.put cid p, (s.w.put cid p).2)]) = publishedTo (cid + 1) L := by
        rw [publishedTo_append, hput]; simp [publishedTo]
      rw [e1, e2]
      refine ⟨hcl, n, ha, hf.1, ?_⟩
      rw [hf.2, hqe.1, hqe.2]
      simp
  | none =>
    rw [hpop] at he
    simp only at he
    have hqe : st.queue = [] := by
      unfold TsCodec.pop at hpop
      split at hpop
      · assumption
      · simp at hpop
    cases hac : rd.acquire 188 with
    | none => rw [hac] at he; simp at he
    | some x =>
      obtain ⟨e, rd1⟩ := x
      rw [hac] at he
      simp only [Option.bind_some] at he
      split at he
      · rename_i hne
        simp only [Option.some.injEq] at he
        refine hend s.w [] e rfl (by simp) h2 rfl ?_ he
        intro b cl hb
        obtain ⟨hcl, n, ha, hf⟩ := h5 b cl hb
        obtain ⟨e2, r2, h6, h7⟩ := ha.acquire
        rw [hac] at h6
        simp only [Option.some.injEq, Prod.mk.injEq] at h6
        obtain ⟨rfl, rfl⟩ := h6
        rcases h7 with ⟨h7, _⟩ | ⟨_, h8, _⟩
        · rw [List.append_nil]
          refine ⟨n, ctx, st, hqe, hf, .inl ?_⟩
          rw [List.length_drop] at h7
          have := hf.1
          omega
        · exact absurd h8 hne
      · rename_i heq
        have heq : e = Err.SUCCESS := by simpa using heq
        subst heq
        cases hby : rd1.bytes 188 with
        | none => rw [hby] at he; simp at he
        | some y =>
          obtain ⟨d, rd2⟩ := y
          rw [hby] at he
          simp only [Option.bind_some] at he
          cases hda : TsCtx.decodeAll TsTap.handler 189 ctx (st, []) d with
          | none => rw [hda] at he; simp at he
          | some z =>
            obtain ⟨e, ctx1, st1, raw⟩ := z
            rw [hda] at he
            simp only [Option.map_some, Option.some.injEq] at he
            obtain ⟨w1, l1, g1, g2, g3, g4, g5, g6⟩ := putAll_spec (cid + 1) raw s.w htw
            rw [g1] at he
            simp only at he
            have hdec : ∀ b cl, Arrives q.io b cl → cl ≠ Err.SUCCESS ∧ ∃ n, SrtFed b n ctx st (publishedTo cid L) (publishedTo (cid + 1) L) ∧ 188 * (n + 1) ≤ b.length ∧
                TsCtx.decode TsTap.handler ctx (st, []) ((b.drop (188 * n)).take 188) = some (e, ctx1, (st1, raw)) ∧
                TsDemuxer.AtTs { rd1 with buf := rd1.buf.clear } cl (b.drop (188 * (n + 1))) := by
              intro b cl hb
              obtain ⟨hcl, n, ha, hf⟩ := h5 b cl hb
              obtain ⟨e2, r2, h6, h7⟩ := ha.acquire
              rw [hac] at h6
              simp only [Option.some.injEq, Prod.mk.injEq] at h6
              obtain ⟨rfl, rfl⟩ := h6
              rcases h7 with ⟨_, h7⟩ | ⟨h7, _, ⟨x, hx⟩, h9⟩
              · exact absurd h7.symm hcl
              · rw [hby] at hx
                simp only [Option.some.injEq, Prod.mk.injEq] at hx
                obtain ⟨rfl, _⟩ := hx
                rw [List.length_drop] at h7
                rw [TsDemuxer.decodeAll_one _ _ _ _ (by simp; omega)] at hda
                refine ⟨hcl, n, hf, by omega, hda, ?_⟩
                rw [List.drop_drop] at h9
                rw [show 188 * (n + 1) = 188 * n + 188 by omega]
                exact h9
            split at he
            · rename_i hne
              refine hend w1 l1 e g2 g3 (by rw [g4]; exact h2) (g6 cid (by omega)) ?_ he
              intro b cl hb
              obtain ⟨_, n, hf, hbl, hd, _⟩ := hdec b cl hb
              obtain ⟨hr, ho⟩ := hf.fail hbl hqe hne hd
              rw [publishedTo_append, g5, hr, List.append_nil]
              exact ho
            · rename_i heq
              have heq : e = Err.SUCCESS := by simpa using heq
              subst heq
              simp only [Prod.mk.injEq] at he
              obtain ⟨rfl, rfl⟩ := he
              refine h.put hi hq g2 ?_ (hown _ _ _) ⟨List.mem_append_left _ h1, ⟨key, by rw [g4]; exact h2⟩, ?_⟩
              · intro op hop
                exact hfree op (.inr (.inl (g3 op hop)))
              · intro b cl hb
                obtain ⟨hcl, n, hf, hbl, hd, ha⟩ := hdec b cl hb
                refine ⟨hcl, n + 1, ha, ?_⟩
                rw [publishedTo_append, publishedTo_append, g5, g6 cid (by omega), List.append_nil]
                exact hf.step hbl hqe hd

theorem srtWrite_spec (ps : List AVPkt) : ∀ {snk snk' : Sink} {e : Err}, srtWrite ps snk = (e, snk') →
    ∃ sent, snk'.out = snk.out ++ sent ∧ sent <+: ps.flatMap (·.payload) ∧ (e = Err.SUCCESS → sent = ps.flatMap (·.payload)) := by
  induction ps with
  | nil =>
    intro snk snk' e h
    simp only [srtWrite, Prod.mk.injEq] at h
    obtain ⟨rfl, rfl⟩ := h
    exact ⟨[], by simp, List.nil_prefix, fun _ => rfl⟩
  | cons p ps ih =>
    intro snk snk' e h
    simp only [srtWrite] at h
    have hc := write_cases snk p.payload
    generalize snk.write p.payload = x at h hc
    obtain ⟨e1, snk1⟩ := x
    simp only at h hc
    rcases hc with ⟨a, b⟩ | ⟨a, b⟩
    · rw [if_neg (by simpa using a)] at h
      obtain ⟨s2, v1, v2, v3⟩ := ih h
      refine ⟨p.payload ++ s2, by rw [v1, b, List.append_assoc], ?_, fun he => ?_⟩
      · rw [List.flatMap_cons]; exact (List.prefix_append_right_inj _).2 v2
      · rw [List.flatMap_cons, v3 he]
    · rw [if_pos a] at h
      simp only [Prod.mk.injEq] at h
      obtain ⟨rfl, rfl⟩ := h
      exact ⟨[], by simpa using b, List.nil_prefix, fun he => absurd he a⟩

theorem runSrtView_inv {env : Site.Env} {rqs : List Req} {L : Log} {s : Sys} (h : SInv env rqs L s) {i c : Nat}
    {r : HttpRsp} {snk : Sink} (hi : s.conns[i]? = some ⟨.srtView c, r, snk⟩) {s' : Sys} {l : Log}
    (he : s.runSrtView i c r snk = (s', l)) : SInv env rqs (L ++ l) s' := by
  have hlt := get_len hi
  rw [h.len] at hlt
  have hq := List.getElem?_eq_getElem hlt
  obtain ⟨⟨cid, h1⟩, h2, h3, h8⟩ := h.ok i _ _ hi hq
  have h3 : snk.out = (received c L).flatMap (·.payload) := h3
  generalize rqs[i] = q at *
  have hfree := leave_owned (c := c) h hi (by rintro op (rfl | rfl) <;> simp [Job.owns])
  unfold runSrtView at he
  split at he
  · rename_i w1 hd
    simp only [endSrtView, Prod.mk.injEq] at he
    obtain ⟨rfl, rfl⟩ := he
    refine h.put hi hq ?_ ?_ (fun op ho => absurd ho (by simp [Job.owns])) ?_
    · simp [World.run, dump_pkts hd]; exact ⟨rfl, rfl⟩
    · intro op hop
      simp at hop
      rcases hop with rfl | rfl
      · exact hfree _ (.inl rfl)
      · exact hfree _ (.inr rfl)
    · refine ⟨⟨cid, List.mem_append_left _ h1⟩, ?_⟩
      show snk.out <+: _
      rw [h3, received_append, List.flatMap_append]
      exact List.prefix_append _ _
  · rename_i w1 ps hne hd
    have hstep := dump_pkts hd
    obtain ⟨e, snk', hx⟩ : ∃ e snk', srtWrite ps snk = (e, snk') := ⟨_, _, rfl⟩
    rw [hx] at he
    obtain ⟨sent, a1, a2, a3⟩ := srtWrite_spec ps hx
    simp only at he
    by_cases hs : e = Err.SUCCESS
    · simp only [hs, ne_eq, not_true_eq_false, if_false, Prod.mk.injEq] at he
      obtain ⟨rfl, rfl⟩ := he
      refine h.put hi hq (by simp [World.run, hstep]) ?_ ?_ ?_
      · intro op hop
        simp at hop
        exact hfree _ (.inl hop)
      · intro op ho
        apply hfree
        cases op <;> simp [Job.owns] at ho <;> subst ho <;> simp
      · have hcl : c < w1.clients.length := by
          have := (step_lengths s.w (.dump c)).1
          rw [hstep] at this
          exact Nat.lt_of_lt_of_le h2 this
        refine ⟨⟨cid, List.mem_append_left _ h1⟩, hcl, ?_, by simp [h8]⟩
        show snk'.out = _
        rw [received_append, received_pkts, List.flatMap_append, ← a3 hs, ← h3, a1]
    · simp only [ne_eq, hs, not_false_eq_true, if_true, endSrtView, Prod.mk.injEq] at he
      obtain ⟨rfl, rfl⟩ := he
      refine h.put hi hq ?_ ?_ (fun op ho => absurd ho (by simp [Job.owns])) ?_
      · simp [World.run, hstep]; exact ⟨rfl, rfl⟩
      · intro op hop
        simp at hop
        exact hfree _ hop
      · refine ⟨⟨cid, List.mem_append_left _ h1⟩, ?_⟩
        show snk'.out <+: _
        rw [received_append, List.singleton_append, received_cons, received_pkts, received_other _ (by simp), List.append_nil, List.flatMap_append, a1, h3]
        exact (List.prefix_append_right_inj _).2 a2
  · simp only [Prod.mk.injEq] at he
    obtain ⟨rfl, rfl⟩ := he
    exact h.same

theorem step_inv {env : Site.Env} {rqs : List Req} {L : Log} {s : Sys} (h : SInv env rqs L s) (hqs : ∀ q ∈ rqs, ReqOk q) (op : Op)
    (hop : ∀ q ∈ requestsOf [op], ReqOk q) {s' : Sys} {l : Log} (he : s.step env op = some (s', l)) (hfit : fitsFlv (L ++ l)) :
    SInv env (rqs ++ requestsOf [op]) (L ++ l) s' := by
  cases op with
  | other o =>
    simp only [requestsOf, List.filterMap_cons, List.filterMap_nil, List.append_nil]
    simp only [Sys.step] at he
    split at he
    · simp only [Option.some.injEq, Prod.mk.injEq] at he
      obtain ⟨rfl, rfl⟩ := he
      exact h.same
    · rename_i hn
      simp only [Option.some.injEq, Prod.mk.injEq] at he
      obtain ⟨rfl, rfl⟩ := he
      refine h.rest (by simp [World.run]) ?_
      intro op' ho j kj hj
      simp at ho
      subst ho
      unfold owned at hn
      simp only [List.any_eq_true, not_exists, not_and] at hn
      have := hn kj (List.mem_of_getElem? hj)
      simpa using this
  | request q =>
    simp only [Sys.step, Option.some.injEq] at he
    have := request_inv h (hop q (by simp [requestsOf]))
    rw [he] at this
    simpa [requestsOf] using this
  | wake i ret =>
    simp only [requestsOf, List.filterMap_cons, List.filterMap_nil, List.append_nil]
    simp only [Sys.step, Option.some.injEq] at he
    have := wake_inv h hqs i ret
    rw [he] at this
    exact this
  | run i =>
    simp only [requestsOf, List.filterMap_cons, List.filterMap_nil, List.append_nil]
    simp only [Sys.step] at he
    split at he
    · rename_i hi
      exact runPub_inv h hqs hi he
    · rename_i hi
      exact runView_inv h hi he hfit
    · rename_i hi
      exact runNull_inv h hi he
    · rename_i hi
      exact runRtmpPub_inv h hqs hi he
    · rename_i hi
      exact runRtmpView_inv h hi he
    · rename_i hi
      exact runSrtPub_inv h hi he
    · rename_i hi
      simp only [Option.some.injEq] at he
      exact runSrtView_inv h hi he
    · simp only [Option.some.injEq, Prod.mk.injEq] at he
      obtain ⟨rfl, rfl⟩ := he
      exact h.same

theorem requestsOf_cons (op : Op) (ops : List Op) : requestsOf (op :: ops) = requestsOf [op] ++ requestsOf ops := by
  unfold requestsOf
  rw [← List.filterMap_append]; rfl

theorem run_inv {env : Site.Env} (ops : List Op) : ∀ {rqs : List Req} {L : Log} {s : Sys}, SInv env rqs L s → (∀ q ∈ rqs, ReqOk q) →
    (∀ q ∈ requestsOf ops, ReqOk q) → ∀ {s' : Sys} {l : Log}, Sys.run env s ops = some (s', l) → fitsFlv (L ++ l) →
    SInv env (rqs ++ requestsOf ops) (L ++ l) s' := by
  induction ops with
  | nil =>
    intro rqs L s h _ _ s' l he _
    simp only [Sys.run, Option.some.injEq, Prod.mk.injEq] at he
    obtain ⟨rfl, rfl⟩ := he
    simpa [requestsOf] using h
  | cons op ops ih =>
    intro rqs L s h hqs hop s' l he hfit
    simp only [Sys.run] at he
    cases hs : s.step env op with
    | none => rw [hs] at he; simp at he
    | some x =>
      obtain ⟨s1, l1⟩ := x
      rw [hs] at he
      simp only [Option.bind_eq_bind, Option.bind_some] at he
      cases hr : Sys.run env s1 ops with
      | none => rw [hr] at he; simp at he
      | some y =>
        obtain ⟨s2, l2⟩ := y
        rw [hr] at he
        simp only [Option.bind_some, Option.pure_def, Option.some.injEq, Prod.mk.injEq] at he
        obtain ⟨rfl, rfl⟩ := he
        rw [requestsOf_cons] at hop ⊢
        have hfit1 : fitsFlv (L ++ l1) := by
          intro cid p hp
          apply hfit cid p
          rw [← List.append_assoc, publishedTo_append]
          exact List.mem_append_left _ hp
        have h1 := step_inv h hqs op (fun q hq => hop q (List.mem_append_left _ hq)) hs hfit1
        have h2 := ih h1 (by
            intro q hq
            rcases List.mem_append.1 hq with hq | hq
            · exact hqs q hq
            · exact hop q (List.mem_append_left _ hq))
          (fun q hq => hop q (List.mem_append_right _ hq)) hr (by rw [List.append_assoc]; exact hfit)
        simpa [List.append_assoc] using h2

/-- The invariant of every execution. -/
theorem run_init {env : Site.Env} {ops : List Op} (hop : ∀ q ∈ requestsOf ops, ReqOk q) {s : Sys} {L : Log}
    (he : Sys.run env Sys.init ops = some (s, L)) (hfit : fitsFlv L) : SInv env (requestsOf ops) L s := by
  have := run_inv ops (SInv.init env) (by simp) hop he (by simpa using hfit)
  simpa using this

end Sps.Sys
