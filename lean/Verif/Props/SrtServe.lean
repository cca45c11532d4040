import Verif.Props.RtmpServe
import Verif.Props.Rtp
import Verif.Props.Ts
/-!
# C95-C97: SRT clients of streams

C95: what an SRT publisher sends gets to SRT players, packet by packet. C96: the audio and video in it gets into the stream that other players play.
C97: from an SRT publisher to HTTP and RTMP players.
-/
namespace Sps.SrtServe
open Spec Spec.Srt Sys ServeProps StreamProps World

/-- A connection publishes to the cache `cid`, or has done so, over SRT. -/
def publishes (k : Conn) (cid : Nat) : Prop := (∃ rd ctx st, k.job = .srtPub cid rd ctx st) ∨ ∃ e, k.job = .done (.srtPublisher cid) e

/-- It has stopped. -/
def stopped (k : Conn) : Prop := ∃ r e, k.job = .done r e

/-- A connection plays as client `c`, or has done so, over SRT. -/
def plays (k : Conn) (c : Nat) : Prop := k.job = .srtView c ∨ ∃ e, k.job = .done (.srtPlayer c) e

/-! ## The specification is deterministic -/

theorem association_announced (ps : List (List UInt8)) {pid : Nat} (h : pid = 0) : Ts.Announced ps pid .pat := h ▸ .pat

/-- There is only one way to pass packets on. -/
theorem relayed_unique {ps : List (List UInt8)} {r r' : List (Part × List UInt8)} (h : Relayed ps r) (h' : Relayed ps r') : r = r' := by
  induction h generalizing r' with
  | nil =>
    generalize hl : ([] : List (List UInt8)) = l at h'
    cases h' <;> simp at hl
    rfl
  | @association ps r p _ h0 ih | @map ps r p _ h0 h1 ih | @rest ps r p _ _ h0 h1 h2 h3 ih | @unknown ps r p _ h0 ih | @noPayload ps r p _ h0 h1 h2 ih =>
    generalize hl : ps ++ [p] = l at h'
    cases h' with
    | nil => simp at hl
    | association x y | map x y z | rest x y z u v | unknown x y | noPayload x y z u =>
      obtain ⟨rfl, hp⟩ := List.append_inj' hl rfl
      simp only [List.cons.injEq, and_true] at hp
      subst hp
      have := ih x
      subst this
      first
        | rfl
        | contradiction
        | (exfalso; first | exact y .pat (association_announced _ h0) | exact h0 .pat (association_announced _ y) | exact y _ h1 | exact y _ h2 | exact h0 _ z | exact h0 _ u)

/-- What was passed on earlier is an initial part of what is passed on. -/
theorem relayed_prefix {ps qs : List (List UInt8)} {r r' : List (Part × List UInt8)} (h : Relayed (ps ++ qs) r) (h' : Relayed ps r') : r' <+: r := by
  generalize hl : ps ++ qs = l at h
  induction h generalizing qs with
  | nil =>
    obtain ⟨rfl, rfl⟩ := List.append_eq_nil_iff.1 hl
    rw [relayed_unique h' .nil]
    exact List.prefix_rfl
  | association x y ih | map x y z ih | rest x y z u v ih | unknown x y ih | noPayload x y z u ih =>
    rcases List.eq_nil_or_concat qs with rfl | ⟨qs', q, rfl⟩
    · rw [List.append_nil] at hl
      subst hl
      first
        | exact (relayed_unique h' (.association x y)) ▸ List.prefix_rfl
        | exact (relayed_unique h' (.map x y z)) ▸ List.prefix_rfl
        | exact (relayed_unique h' (.rest x y z u v)) ▸ List.prefix_rfl
        | exact (relayed_unique h' (.unknown x y)) ▸ List.prefix_rfl
        | exact (relayed_unique h' (.noPayload x y z u)) ▸ List.prefix_rfl
    · rw [List.concat_eq_append, ← List.append_assoc] at hl
      obtain ⟨h1, _⟩ := List.append_inj' hl rfl
      have := ih h1
      first | exact this | exact this.trans (List.prefix_append _ _)

/-! ## C95: from an SRT publisher to SRT players -/

/-- No program association table among the packets of `b` gives pid 0, its own, to a program map. -/
def ownsPidZero (b : List UInt8) : Prop := ∀ p ∈ Ts.chunks (b.length / 188) b, (Ts.header p).pid = 0 → ¬ Ts.patLists (Ts.payload p) (Ts.header p).pusi 0

theorem pat_only {ps : List (List UInt8)} {pid : Nat} {k : Ts.Kind} (h : Ts.Announced ps pid k) (hk : k = .pat) : pid = 0 := by
  induction h with
  | pat => rfl
  | sdt | program _ _ _ | stream _ _ _ _ => simp at hk
  | earlier _ ih => exact ih hk

theorem listed {ps : List (List UInt8)} {pid : Nat} {k : Ts.Kind} (h : Ts.Announced ps pid k) (hk : k = .pmt) :
    ∃ p ∈ ps, (Ts.header p).pid = 0 ∧ Ts.patLists (Ts.payload p) (Ts.header p).pusi pid := by
  induction h with
  | pat | sdt | stream _ _ _ _ => simp at hk
  | program h1 h2 _ => exact ⟨_, by simp, pat_only h1 rfl, h2⟩
  | earlier _ ih =>
    obtain ⟨p, h1, h2⟩ := ih hk
    exact ⟨p, by simp [h1], h2⟩

theorem chunks_prefix (b : List UInt8) : ∀ {m n : Nat}, m ≤ n → Ts.chunks m b <+: Ts.chunks n b := by
  intro m n h
  induction h with
  | refl => exact List.prefix_rfl
  | step _ ih => exact ih.trans (by rw [TsCtx.chunks_succ]; exact List.prefix_append _ _)

theorem no_map {b : List UInt8} (h : ownsPidZero b) {n : Nat} (hn : 188 * n ≤ b.length) : ¬ Ts.Announced (Ts.chunks n b) 0 .pmt := by
  intro ha
  obtain ⟨p, h1, h2, h3⟩ := listed ha rfl
  exact h p ((chunks_prefix b (by omega)).subset h1) h2 h3

/-- The state of an SRT publisher. -/
theorem publishes_ok {env : Site.Env} {rqs : List Req} {L : Log} {s : Sys} (h : SInv env rqs L s) {i : Nat} {k : Conn} (hi : s.conns[i]? = some k) {q : Req}
    (hq : rqs[i]? = some q) {cid : Nat} (hk : publishes k cid) {b : List UInt8} {cl : Err} (hb : Arrives q.io b cl) :
    (.publishSrt (srtKey q.url), .published cid) ∈ L ∧ ∃ n ctx st, SrtFed b n ctx st (publishedTo cid L) (publishedTo (cid + 1) L) ∧
      (stopped k → st.queue = [] ∧ (b.length < 188 * (n + 1) ∨ (188 * (n + 1) ≤ b.length ∧
        ∃ e x, e ≠ Err.SUCCESS ∧ Ts.feed TsTap.handler TsCtx.create ({}, []) (Ts.chunks (n + 1) b) = some (e, x)))) := by
  have hc := h.ok i k q hi hq
  unfold ConnOk at hc
  rcases hk with ⟨rd, ctx, st, hk⟩ | ⟨e, hk⟩
  · rw [hk] at hc
    obtain ⟨h1, -, h5⟩ := hc
    obtain ⟨-, n, -, hf⟩ := h5 b cl hb
    refine ⟨h1, n, ctx, st, hf, ?_⟩
    rintro ⟨r, e, hx⟩
    rw [hk] at hx
    simp at hx
  · rw [hk] at hc
    obtain ⟨h1, -, h5⟩ := hc
    obtain ⟨n, ctx, st, hq, hf, ho⟩ := h5 b cl hb
    exact ⟨h1, n, ctx, st, hf, fun _ => ⟨hq, ho⟩⟩

theorem fed_relayed {b : List UInt8} {n : Nat} {ctx : TsCtx} {st : TsCodec} {ps raw : List AVPkt} (hf : SrtFed b n ctx st ps raw)
    (h0 : ¬ Ts.Announced (Ts.chunks n b) 0 .pmt) : ∃ r, Relayed (Ts.chunks n b) r ∧ List.Forall₂ TsTap.Is r raw :=
  (TsTap.relayed n (Ts.chunks n b) (TsCtx.chunks_length n b) (TsCtx.chunks_size n b hf.1) h0 hf.2).2

/-- **C95** (publishing). In every execution, what an SRT publisher has put into the stream for SRT players are the packets of a number `n` of its 188-byte packets
that are to be passed on, each once, unchanged and in order; when it has stopped, it has no further packet or the next one was not accepted.

Missing: packets that are dropped, the start of late players, and resynchronisation (the negations
of C95). -/
theorem C95_published_partial {env : Site.Env} {ops : List Sys.Op} (hop : ∀ q ∈ requestsOf ops, ReqOk q) {s : Sys} {L : Log}
    (he : Sys.run env Sys.init ops = some (s, L)) (hfit : fitsFlv L) {i : Nat} {k : Conn} (hi : s.conns[i]? = some k) {q : Req}
    (hq : (requestsOf ops)[i]? = some q) {cid : Nat} (hk : publishes k cid) {b : List UInt8} {cl : Err} (hb : Arrives q.io b cl)
    (h0 : ownsPidZero b) :
    (.publishSrt (srtKey q.url), .published cid) ∈ L ∧ ∃ n r, 188 * n ≤ b.length ∧ Relayed (Ts.chunks n b) r ∧
      (publishedTo (cid + 1) L).map (·.payload) = r.map (·.2) ∧
      (stopped k → b.length < 188 * (n + 1) ∨ ∃ e x, e ≠ Err.SUCCESS ∧ Ts.feed TsTap.handler TsCtx.create ({}, []) (Ts.chunks (n + 1) b) = some (e, x)) := by
  obtain ⟨h1, n, ctx, st, hf, hs⟩ := publishes_ok (run_init hop he hfit) hi hq hk hb
  obtain ⟨r, hr, hx⟩ := fed_relayed hf (no_map h0 hf.1)
  refine ⟨h1, n, r, hf.1, hr, ?_, ?_⟩
  · generalize publishedTo (cid + 1) L = raw at hx
    clear hr
    induction hx with
    | nil => rfl
    | cons a _ ih => simp [ih, a.1]
  · intro hst
    rcases (hs hst).2 with h | ⟨_, h⟩
    · exact .inl h
    · exact .inr h

theorem plays_ok {env : Site.Env} {rqs : List Req} {L : Log} {s : Sys} (h : SInv env rqs L s) {j : Nat} {k : Conn} (hj : s.conns[j]? = some k) {c : Nat} (hk : plays k c) :
    k.snk.out <+: (received c L).flatMap (·.payload) ∧ (k.job = .srtView c → k.snk.out = (received c L).flatMap (·.payload) ∧ (.leave c, .ok) ∉ L) := by
  have hlt := get_len hj
  rw [h.len] at hlt
  have hc := h.ok j k _ hj (List.getElem?_eq_getElem hlt)
  unfold ConnOk at hc
  rcases hk with hk | ⟨e, hk⟩
  · rw [hk] at hc
    obtain ⟨-, -, h3, h8⟩ := hc
    exact ⟨h3 ▸ List.prefix_rfl, fun _ => ⟨h3, h8⟩⟩
  · rw [hk] at hc
    refine ⟨hc.2, fun hx => ?_⟩
    rw [hk] at hx
    simp at hx

theorem flatMap_prefix {α β : Type} {l l' : List α} (f : α → List β) (h : l <+: l') : l.flatMap f <+: l'.flatMap f := by
  obtain ⟨t, rfl⟩ := h
  rw [List.flatMap_append]
  exact List.prefix_append _ _

/-- **C95** (end to end). In every execution, for an SRT publisher that sends the bytes `b` and an SRT player that joined its stream: of the first `n` packets of `b`
the packets `r` are passed on, `a` of them before the player joined, and the player was sent the start-up packets among these `a` and then the packets that
follow, unchanged, in order and once each: all of them if it plays and has read its queue, an initial part of that otherwise.

Missing: packets that are dropped, the start of late players, and resynchronisation (the negations
of C95). -/
theorem C95_end_to_end_partial {env : Site.Env} {ops : List Sys.Op} (hop : ∀ q ∈ requestsOf ops, ReqOk q) {s : Sys} {L : Log}
    (he : Sys.run env Sys.init ops = some (s, L)) (hfit : fitsFlv L) {i j : Nat} {pub player : Conn} (hi : s.conns[i]? = some pub)
    (hj : s.conns[j]? = some player) {q : Req} (hq : (requestsOf ops)[i]? = some q) {cid c : Nat} (hpub : publishes pub cid)
    {b : List UInt8} {cl : Err} (hb : Arrives q.io b cl) (h0 : ownsPidZero b)
    (hjoin : ∃ op, (op, .joined c (cid + 1)) ∈ L) (hplay : plays player c) :
    ∃ n r a, 188 * n ≤ b.length ∧ Relayed (Ts.chunks n b) r ∧ a ≤ r.length ∧ player.snk.out <+: played (r.take a) (r.drop a) ∧
      (player.job = .srtView c → pendingOf s.w c = [] → player.snk.out = played (r.take a) (r.drop a)) ∧
      (stopped pub → b.length < 188 * (n + 1) ∨ ∃ e x, e ≠ Err.SUCCESS ∧ Ts.feed TsTap.handler TsCtx.create ({}, []) (Ts.chunks (n + 1) b) = some (e, x)) := by
  have h := run_init hop he hfit
  obtain ⟨h1, n, ctx, st, hf, hs⟩ := publishes_ok h hi hq hpub hb
  obtain ⟨r, hr, hx⟩ := fed_relayed hf (no_map h0 hf.1)
  obtain ⟨a, ha, h2, h3⟩ := raw_received h h1 hjoin
  obtain ⟨h4, h5⟩ := plays_ok h hj hplay
  have hpl : (startupRaw ((publishedTo (cid + 1) L).take a) ++ (publishedTo (cid + 1) L).drop a).flatMap (·.payload) = played (r.take a) (r.drop a) := by
    unfold played
    apply TsTap.is_payload
    exact List.rel_append (TsTap.is_start (List.forall₂_take a hx)) (List.forall₂_drop a hx)
  refine ⟨n, r, a, hf.1, hr, by rw [hx.length_eq]; exact ha, ?_, ?_, ?_⟩
  · rw [← hpl]
    exact h4.trans (flatMap_prefix _ h2)
  · intro hv hp
    obtain ⟨h6, h7⟩ := h5 hv
    rw [h6, h3 h7 hp, hpl]
  · intro hst
    rcases (hs hst).2 with h | ⟨_, h⟩
    · exact .inl h
    · exact .inr h

/-- **C95** (the player's stream). An SRT player that was let in joined the raw stream of its own URL, and an SRT publisher's raw stream is the one of its URL. -/
theorem C95_own_stream {env : Site.Env} {ops : List Sys.Op} (hop : ∀ q ∈ requestsOf ops, ReqOk q) {s : Sys} {L : Log}
    (he : Sys.run env Sys.init ops = some (s, L)) (hfit : fitsFlv L) {j : Nat} {k : Conn} (hj : s.conns[j]? = some k) {q : Req}
    (hq : (requestsOf ops)[j]? = some q) {c : Nat} (hk : plays k c) : ∃ cid, (.play (tsKey (q.url.host ++ q.url.path)), .joined c cid) ∈ L := by
  have hc := (run_init hop he hfit).ok j k q hj hq
  unfold ConnOk at hc
  rcases hk with hk | ⟨e, hk⟩
  · rw [hk] at hc
    exact hc.1
  · rw [hk] at hc
    exact hc.1

/-- **C95** (refusals). An SRT request to publish what is published, or to play what is not, is refused, and nothing changes for anybody else. -/
theorem C95_refused (env : Site.Env) (s : Sys) (q : Req) (hv : q.via = .srt)
    (hr : if q.url.method = ascii "request" then s.w.reg.find (tsKey (srtKey q.url)) = none else ∃ cid, s.w.reg.find (srtKey q.url) = some cid) :
    ∃ k, s.step env (.request q) = some (⟨s.w, s.conns ++ [k]⟩, []) ∧ k.job = .done .nothing Err.ERROR_RTMP_HAS_SOURCE ∧ k.snk.out = [] := by
  simp only [Sys.step, Sys.request, hv, Sys.srtRequest]
  split at hr
  · rename_i hm
    simp only [if_pos hm, World.play_eq, hr]
    exact ⟨_, rfl, rfl, rfl⟩
  · rename_i hm
    obtain ⟨cid, hr⟩ := hr
    simp only [if_neg hm, World.publishSrt, hr]
    exact ⟨_, rfl, rfl, rfl⟩

/-- **C95** (playing is safe). Serving an SRT player never crashes the server. -/
theorem C95_player_defined (env : Site.Env) (s : Sys) {j : Nat} {k : Conn} (hj : s.conns[j]? = some k) {c : Nat} (hk : plays k c) :
    (s.step env (.run j)).isSome := by
  obtain ⟨job, r, snk⟩ := k
  rcases hk with rfl | ⟨e, rfl⟩ <;> simp [Sys.step, hj]

/-! ## C96: the audio and video of an SRT publisher -/

/-- **C96.** In every execution, of the first `n` packets that an SRT publisher has sent, some units were completed (`log`); if they are the units `us` of NAL units and
ADTS frames, the stream contains the packets of these units, in the order in which the units were completed, each once: all but some that still wait, and all when
the publisher has stopped.

Missing: the last unit, and packets that crash the server (the negations of C96). -/
theorem C96_published_partial {env : Site.Env} {ops : List Sys.Op} (hop : ∀ q ∈ requestsOf ops, ReqOk q) {s : Sys} {L : Log}
    (he : Sys.run env Sys.init ops = some (s, L)) (hfit : fitsFlv L) {i : Nat} {k : Conn} (hi : s.conns[i]? = some k) {q : Req}
    (hq : (requestsOf ops)[i]? = some q) {cid : Nat} (hk : publishes k cid) {b : List UInt8} {cl : Err} (hb : Arrives q.io b cl) :
    ∃ n log c st, 188 * n ≤ b.length ∧
      Ts.feed (Ts.recorder TsCodec.handler) TsCtx.create ([], {}) (Ts.chunks n b) = some (Err.SUCCESS, c, (log, st)) ∧
      (∀ us, Spec.TsCodec.areUnits us log → ∃ waiting, Spec.TsCodec.flow none us (publishedTo cid L ++ waiting) ∧ (stopped k → waiting = [])) ∧
      (stopped k → b.length < 188 * (n + 1) ∨ ∃ e x, e ≠ Err.SUCCESS ∧ Ts.feed TsTap.handler TsCtx.create ({}, []) (Ts.chunks (n + 1) b) = some (e, x)) := by
  obtain ⟨h1, n, ctx, st, hf, hs⟩ := publishes_ok (run_init hop he hfit) hi hq hk hb
  obtain ⟨log, hl⟩ := TsTap.feed_recorder hf.2
  refine ⟨n, log, ctx, _, hf.1, hl, ?_, ?_⟩
  · intro us hu
    exact ⟨st.queue, C68_flow _ hl us hu, fun hst => (hs hst).1⟩
  · intro hst
    rcases (hs hst).2 with h | ⟨_, h⟩
    · exact .inl h
    · exact .inr h

/-- **C96** (units of any content). In every execution, of the first `n` packets that an SRT publisher has sent, some units were completed (`log`). Whatever the publisher
has put into them, each of them says something (its bytes are NAL units behind start codes, or ADTS frames, or it is of another type), and the stream contains the packets
of what the units say, in the order in which they were completed, each once: all but some that still wait, and all when the publisher has stopped. It stops where
its packets end, or at the first packet that is refused. (Units below 512 MiB.) -/
theorem C96_any {env : Site.Env} {ops : List Sys.Op} (hop : ∀ q ∈ requestsOf ops, ReqOk q) {s : Sys} {L : Log}
    (he : Sys.run env Sys.init ops = some (s, L)) (hfit : fitsFlv L) {i : Nat} {k : Conn} (hi : s.conns[i]? = some k) {q : Req}
    (hq : (requestsOf ops)[i]? = some q) {cid : Nat} (hk : publishes k cid) {b : List UInt8} {cl : Err} (hb : Arrives q.io b cl) :
    ∃ n log c st, 188 * n ≤ b.length ∧
      Ts.feed (Ts.recorder TsCodec.handler) TsCtx.create ([], {}) (Ts.chunks n b) = some (Err.SUCCESS, c, (log, st)) ∧
      ((∀ d ∈ log, d.data.length < 2 ^ 29) → (∃ cs, Spec.TsCodec.allSay cs log) ∧
        ∀ cs, Spec.TsCodec.allSay cs log → ∃ waiting, Spec.TsCodec.sent none cs (publishedTo cid L ++ waiting) ∧ (stopped k → waiting = [])) ∧
      (stopped k → b.length < 188 * (n + 1) ∨ ∃ e x, e ≠ Err.SUCCESS ∧ Ts.feed TsTap.handler TsCtx.create ({}, []) (Ts.chunks (n + 1) b) = some (e, x)) := by
  obtain ⟨h1, n, ctx, st, hf, hs⟩ := publishes_ok (run_init hop he hfit) hi hq hk hb
  obtain ⟨log, hl⟩ := TsTap.feed_recorder hf.2
  refine ⟨n, log, ctx, _, hf.1, hl, fun hsz => ?_, ?_⟩
  · obtain ⟨g1, g2⟩ := C68_any _ hl hsz
    exact ⟨g1, fun cs hc => ⟨st.queue, g2 cs hc, fun hst => (hs hst).1⟩⟩
  · intro hst
    rcases (hs hst).2 with h | ⟨_, h⟩
    · exact .inl h
    · exact .inr h

/-- **C96** (which units these are). Of a stream that is announced by the first packets `pre` of the publisher, with one type, and begins only then, with its counters in
sequence: the units that are completed of it are those that its packets carry, in order, each with its data and times.

Missing: the last unit, and packets that crash the server (the negations of C96). -/
theorem C96_units_partial {b : List UInt8} {n : Nat} (hn : 188 * n ≤ b.length) {c : TsCtx} {log : List PesDone} {st : TsCodec}
    (hf : Ts.feed (Ts.recorder TsCodec.handler) TsCtx.create ([], {}) (Ts.chunks n b) = some (Err.SUCCESS, c, (log, st)))
    {pre : List (List UInt8)} {l : List (List UInt8 × Option Ts.Piece)} (hb : Ts.chunks n b = pre ++ l.map (·.1)) {pid ty : Nat} (h0 : pid ≠ 0) (h1 : pid ≠ 0x11)
    (hpre : ∀ p ∈ pre, (Ts.header p).pid ≠ pid) (hz : ¬ Ts.Announced pre 0 .pmt) (hm : ¬ Ts.Announced pre pid .pmt)
    (ha : Ts.Announced pre pid (.stream ty)) (hone : ∀ ty', Ts.Announced pre pid (.stream ty') → ty' = ty) (hl : Ts.history pid 15 none l) :
    log.filter (fun d => d.pid == pid) = (Ts.completed none (Ts.pieces l)).map (Ts.report pid ty) := by
  refine TsCtx.stream_units TsCodec.handler h0 h1 ?_ hz hm ha hone hl ({} : TsCodec) (hb ▸ hf)
  intro p hp
  exact ⟨TsCtx.chunks_size n b hn p (by rw [hb]; exact List.mem_append_left _ hp), hpre p hp⟩

/-! ## C97: from an SRT publisher to HTTP and RTMP players -/

/-- **C97** (HTTP player). In every execution, for an SRT publisher and an HTTP player that joined the stream of its audio and video: the packets that are published
are those of the units of the publisher, as in C96; with `a` of them before the player joined, the player has been sent the response head, an FLV header, the start-up
packets among the first `a` and then the packets that follow, in order, once each: all that were published since if it plays and has read its queue, an initial
part of that otherwise.

Missing: SEI units (`C97_negation_sei`), and the limits of C96. -/
theorem C97_srt_to_http_partial {env : Site.Env} {ops : List Sys.Op} (hop : ∀ q ∈ requestsOf ops, ReqOk q) {s : Sys} {L : Log}
    (he : Sys.run env Sys.init ops = some (s, L)) (hfit : fitsFlv L) {i j : Nat} {pub player : Conn} (hi : s.conns[i]? = some pub)
    (hj : s.conns[j]? = some player) {q : Req} (hq : (requestsOf ops)[i]? = some q) {cid c : Nat} (hpub : publishes pub cid)
    {b : List UInt8} {cl : Err} (hb : Arrives q.io b cl) (hjoin : ∃ op, (op, .joined c cid) ∈ L) :
    ∃ n log ctx st a, 188 * n ≤ b.length ∧
      Ts.feed (Ts.recorder TsCodec.handler) TsCtx.create ([], {}) (Ts.chunks n b) = some (Err.SUCCESS, ctx, (log, st)) ∧
      (∀ us, Spec.TsCodec.areUnits us log → ∃ waiting, Spec.TsCodec.flow none us (publishedTo cid L ++ waiting) ∧ (stopped pub → waiting = [])) ∧
      a ≤ (publishedTo cid L).length ∧
      ((∃ m, player.job = .view c m) ∨ (∃ e, player.job = .done (.player c) e) →
        player.snk.out <+: flvResponse env.reason (startup ((publishedTo cid L).take a) ++ (publishedTo cid L).drop a)) ∧
      ((∃ m, player.job = .view c m) ∧ pendingOf s.w c = [] → player.snk.out = flvResponse env.reason (startup ((publishedTo cid L).take a) ++ (publishedTo cid L).drop a)) := by
  obtain ⟨n, log, ctx, st, h2, h3, h4, -⟩ := C96_published_partial hop he hfit hi hq hpub hb
  obtain ⟨h1, -⟩ := publishes_ok (run_init hop he hfit) hi hq hpub hb
  obtain ⟨a, h5⟩ := ServeProps.player_gets hop he hfit hj h1 hjoin
  exact ⟨n, log, ctx, st, a, h2, h3, h4, h5⟩

/-- **C97** (RTMP player). The same, with one message for each packet, that carries it.

Missing: SEI units (`C97_negation_sei`), and the limits of C96. -/
theorem C97_srt_to_rtmp_partial {env : Site.Env} {ops : List Sys.Op} (hop : ∀ q ∈ requestsOf ops, ReqOk q) {s : Sys} {L : Log}
    (he : Sys.run env Sys.init ops = some (s, L)) (hfit : fitsFlv L) {i j : Nat} {pub player : Conn} (hi : s.conns[i]? = some pub)
    (hj : s.conns[j]? = some player) {q : Req} (hq : (requestsOf ops)[i]? = some q) {cid c : Nat} (hpub : publishes pub cid)
    {b : List UInt8} {cl : Err} (hb : Arrives q.io b cl) (hjoin : ∃ op, (op, .joined c cid) ∈ L) {sent : List RtmpMsg}
    (hplay : RtmpServe.plays player c sent) (hsup : ∀ p ∈ publishedTo cid L, Rtmp.Supported p) :
    ∃ n log ctx st a ps, 188 * n ≤ b.length ∧
      Ts.feed (Ts.recorder TsCodec.handler) TsCtx.create ([], {}) (Ts.chunks n b) = some (Err.SUCCESS, ctx, (log, st)) ∧
      (∀ us, Spec.TsCodec.areUnits us log → ∃ waiting, Spec.TsCodec.flow none us (publishedTo cid L ++ waiting) ∧ (stopped pub → waiting = [])) ∧
      a ≤ (publishedTo cid L).length ∧ List.Forall₂ Rtmp.Carries ps sent ∧ ps <+: startup ((publishedTo cid L).take a) ++ (publishedTo cid L).drop a ∧
      (RtmpServe.isPlaying player → pendingOf s.w c = [] → ps = startup ((publishedTo cid L).take a) ++ (publishedTo cid L).drop a) := by
  obtain ⟨n, log, ctx, st, h2, h3, h4, -⟩ := C96_published_partial hop he hfit hi hq hpub hb
  obtain ⟨h1, -⟩ := publishes_ok (run_init hop he hfit) hi hq hpub hb
  obtain ⟨a, ps, h5⟩ := RtmpServe.player_gets (run_init hop he hfit) hj h1 hjoin hplay hsup
  exact ⟨n, log, ctx, st, a, ps, h2, h3, h4, h5⟩

theorem tdiv_range {x : Int} (h1 : -1 ≤ x) (h2 : x < 2 ^ 33) : 0 ≤ x.tdiv 90 ∧ x.tdiv 90 < 2 ^ 32 := by
  by_cases h : 0 ≤ x
  · rw [Int.tdiv_eq_ediv_of_nonneg h]; omega
  · obtain rfl : x = -1 := by omega
    decide

theorem withZeros_mem : ∀ (us : List (Nat × List UInt8)) (u : List UInt8), (∀ x ∈ us, x.2 ≠ []) → u ∈ H264.withZeros us → ∃ x ∈ us, H264.unitType u = H264.unitType x.2
  | [], _, _, h => by cases h
  | [(z, v)], u, _, h => by
    simp only [H264.withZeros, List.mem_singleton] at h
    exact ⟨(z, v), by simp, by rw [h]⟩
  | (z, v) :: (z', v') :: us, u, hne, h => by
    simp only [H264.withZeros, List.mem_cons] at h
    rcases h with rfl | h
    · refine ⟨(z, v), by simp, ?_⟩
      cases v with
      | nil => exact absurd rfl (hne (z, []) (by simp))
      | cons b v => rfl
    · obtain ⟨x, h1, h2⟩ := withZeros_mem ((z', v') :: us) u (fun x hx => hne x (by simp [hx])) h
      exact ⟨x, by simp [h1], h2⟩

theorem withZeros_length : ∀ (us : List (Nat × List UInt8)) (u : List UInt8), u ∈ H264.withZeros us → u.length ≤ (H264.annexB us).length
  | [], _, h => by cases h
  | [(z, v)], u, h => by
    simp only [H264.withZeros, List.mem_singleton] at h
    subst h
    simp [H264.annexB]; omega
  | (z, v) :: (z', v') :: us, u, h => by
    simp only [H264.withZeros, List.mem_cons] at h
    have hl : (H264.annexB ((z, v) :: (z', v') :: us)).length = z + 3 + v.length + (H264.annexB ((z', v') :: us)).length := by simp [H264.annexB]; omega
    rcases h with rfl | h
    · have : z' ≤ (H264.annexB ((z', v') :: us)).length := by simp [H264.annexB]
      simp only [List.length_append, List.length_replicate]
      omega
    · have := withZeros_length ((z', v') :: us) u h
      omega

theorem lastOf_mem {f : List UInt8 → Bool} {l : List (List UInt8)} {u : List UInt8} (h : H264.lastOf f l = some u) : u ∈ l :=
  (List.mem_filter.1 (List.mem_of_getLast? h)).1

theorem coded_length {b : List UInt8} {us : List (List UInt8)} (h : H264.Coded b us) : ∀ u ∈ us, u.length ≤ b.length := by
  induction h with
  | last _ => intro u hu; simp only [List.mem_singleton] at hu; subst hu; simp only [List.length_cons]; omega
  | more _ _ ih =>
    intro x hx
    simp only [List.length_cons, List.length_append]
    rcases List.mem_cons.1 hx with rfl | hx
    · omega
    · have := ih x hx; omega

theorem found_length {b : List UInt8} {us : List (List UInt8)} (h : H264.Found b us) : ∀ u ∈ us, u.length ≤ b.length := by
  rcases h with ⟨-, rfl⟩ | ⟨x, c, rfl, -, h⟩
  · intro u hu; cases hu
  · intro u hu
    have := coded_length h u hu
    simp only [List.length_append]
    omega

theorem answer_carried {ctx : CodecCtx} {us : List (List UInt8)} (htb : ctx.timebase = 90) (hsz : ∀ u ∈ us, u.length < 2 ^ 29) (hp : Spec.TsCodec.carriable (.video ctx us)) :
    ∀ p ∈ (H264.answer ctx us).2, Rtmp.Supported p := by
  obtain ⟨h1, h2, h3, h4, h5⟩ := hp
  have hr := tdiv_range h1 h2
  have hunit : ∀ p ∈ us.filterMap (H264.unitPacket ctx), Rtmp.Supported p := by
    intro p hp
    obtain ⟨u, hu, hp⟩ := List.mem_filterMap.1 hp
    have hne6 := h5 u hu
    unfold H264.unitPacket H264.frameType at hp
    rw [if_neg hne6, htb] at hp
    have hl := hsz u hu
    have hbl : (beBytes 4 u.length ++ u).length < 2 ^ 31 := by simp only [List.length_append, beBytes_length]; omega
    split at hp
    · cases hp
      exact ⟨rfl, hr, hbl, .inr (.inl ⟨rfl, 0x17, rfl, by decide, rfl, by decide, ⟨.inr rfl, h3, h4⟩⟩)⟩
    · split at hp
      · cases hp
        exact ⟨rfl, hr, hbl, .inr (.inl ⟨rfl, 0x27, rfl, by decide, rfl, by decide, ⟨.inr rfl, h3, h4⟩⟩)⟩
      · cases hp
  unfold H264.answer
  cases hs : H264.spsOf us with
  | none => exact hunit
  | some sps =>
    simp only
    split
    · rename_i b0 b1 b2 b3 tl
      intro p hp
      rcases List.mem_cons.1 hp with rfl | hp
      · have hl := hsz _ (lastOf_mem hs)
        refine ⟨rfl, (by decide : (0 : Int) ≤ 0 ∧ (0 : Int) < 2 ^ 32), ?_, .inr (.inl ⟨rfl, 0x17, rfl, by decide, rfl, by decide,
          ⟨.inl rfl, (by decide : (-2 ^ 23 : Int) ≤ 0 - 0), (by decide : (0 : Int) - 0 < 2 ^ 23)⟩⟩)⟩
        show (H264.record _ _ _ _ _ _ _).length < _
        unfold H264.record
        cases hpp : H264.ppsOf us with
        | none =>
          simp only [List.length_append, List.length_cons, List.length_nil, beBytes_length] at hl ⊢
          omega
        | some pps =>
          have hl2 := hsz _ (lastOf_mem hpp)
          simp only [List.length_append, List.length_cons, List.length_nil, beBytes_length] at hl hl2 ⊢
          omega
      · exact hunit p hp
    · intro p hp; cases hp

theorem answer_supported {ctx : CodecCtx} {us : List (Nat × List UInt8)} {d : PesDone} (hd : Spec.TsCodec.isUnit (.video ctx us) d) (hp : Spec.TsCodec.playable (.video ctx us)) :
    ∀ p ∈ (H264.answer ctx (H264.withZeros us)).2, Rtmp.Supported p := by
  obtain ⟨-, hc, hda, -, -, hok, hlen⟩ := hd
  obtain ⟨h1, h2, h3, h4, h5⟩ := hp
  refine answer_carried (by rw [hc]) (fun u hu => ?_) ⟨h1, h2, h3, h4, fun u hu => ?_⟩
  · have := withZeros_length us u hu
    rw [← hda] at this
    omega
  · obtain ⟨x, hx, e⟩ := withZeros_mem us u (fun x hx => (hok x hx).nonempty) hu
    rw [e]; exact h5 x hx

theorem emitted_supported {ctx : CodecCtx} (h1 : -1 ≤ ctx.dts) (h2 : ctx.dts < 2 ^ 33) (htb : ctx.timebase = 90) :
    ∀ (fs : List Aac.Frame) (last : Option Aac.Params) (out : List AVPkt), (∀ f ∈ fs, f.ok) → Aac.emitted ctx last fs out → ∀ p ∈ out, Rtmp.Supported p := by
  intro fs
  induction fs with
  | nil => intro last out _ h; simp only [Aac.emitted] at h; subst h; intro p hp; cases hp
  | cons f fs ih =>
    intro last out hok h
    have hframe : Rtmp.Supported (Aac.framePacket ctx f.data) := by
      have := (hok f (by simp)).size
      refine ⟨rfl, by show 0 ≤ ctx.dts.tdiv ctx.timebase ∧ ctx.dts.tdiv ctx.timebase < 2 ^ 32; rw [htb]; exact tdiv_range h1 h2, by show f.data.length < 2 ^ 31; omega,
        .inl ⟨rfl, ⟨0xAF, rfl, by decide, by decide⟩, rfl, .inr rfl, rfl⟩⟩
    have hrest := fun t ht => ih (some f.params) t (fun g hg => hok g (by simp [hg])) ht
    unfold Aac.emitted at h
    split at h
    · obtain ⟨t, rfl, ht⟩ := h
      intro p hp
      rcases List.mem_cons.1 hp with rfl | hp
      · exact hframe
      · exact hrest t ht p hp
    · obtain ⟨c, t, rfl, hc, ht⟩ := h
      intro p hp
      rcases List.mem_cons.1 hp with rfl | hp
      · have hlen : (bitsOf p.payload).length = 16 := by rw [hc.2]; simp [Aac.configBits, fieldBits]
        rw [bitsOf_length] at hlen
        rw [hc.1]
        exact ⟨rfl, (by decide : (0 : Int) ≤ 0 ∧ (0 : Int) < 2 ^ 32), by show p.payload.length < 2 ^ 31; omega, .inl ⟨rfl, ⟨0xAF, rfl, by decide, by decide⟩, rfl, .inl rfl, rfl⟩⟩
      · rcases List.mem_cons.1 hp with rfl | hp
        · exact hframe
        · exact hrest t ht p hp

/-- Units that RTMP can carry give packets that RTMP can carry. -/
theorem flow_supported : ∀ (us : List Spec.TsCodec.Unit) (log : List PesDone) (last : Option Aac.Params) (out : List AVPkt), Spec.TsCodec.areUnits us log →
    (∀ u ∈ us, Spec.TsCodec.playable u) → Spec.TsCodec.flow last us out → ∀ p ∈ out, Rtmp.Supported p := by
  intro us
  induction us with
  | nil => intro log last out _ _ h; simp only [Spec.TsCodec.flow] at h; subst h; intro p hp; cases hp
  | cons u us ih =>
    intro log last out ha hp h
    cases log with
    | nil => exact absurd ha (by simp [Spec.TsCodec.areUnits])
    | cons d ds =>
      obtain ⟨ha1, ha2⟩ := ha
      have hpu := hp u (by simp)
      cases u with
      | video ctx vs =>
        obtain ⟨t, rfl, ht⟩ := h
        intro p hm
        rcases List.mem_append.1 hm with hm | hm
        · exact answer_supported ha1 hpu p hm
        · exact ih ds _ t ha2 (fun x hx => hp x (by simp [hx])) ht p hm
      | audio ctx fs =>
        obtain ⟨a, t, rfl, hem, ht⟩ := h
        intro p hm
        rcases List.mem_append.1 hm with hm | hm
        · exact emitted_supported hpu.1 hpu.2 (by rw [ha1.2.1]) fs _ a ha1.2.2.2.1 hem p hm
        · exact ih ds _ t ha2 (fun x hx => hp x (by simp [hx])) ht p hm

/-- **C97** (RTMP player, conditions on what the publisher sends). If the units that the publisher's transport stream carries are ones RTMP can carry, an RTMP player is sent, in order and once each,
a message for every packet of the start-up frames and of what follows.

Missing: SEI units (`C97_negation_sei`), and the limits of C96. -/
theorem C97_srt_units_to_rtmp_partial {env : Site.Env} {ops : List Sys.Op} (hop : ∀ q ∈ requestsOf ops, ReqOk q) {s : Sys} {L : Log}
    (he : Sys.run env Sys.init ops = some (s, L)) (hfit : fitsFlv L) {i j : Nat} {pub player : Conn} (hi : s.conns[i]? = some pub)
    (hj : s.conns[j]? = some player) {q : Req} (hq : (requestsOf ops)[i]? = some q) {cid c : Nat} (hpub : publishes pub cid)
    {b : List UInt8} {cl : Err} (hb : Arrives q.io b cl) (hjoin : ∃ op, (op, .joined c cid) ∈ L) {sent : List RtmpMsg}
    (hplay : RtmpServe.plays player c sent)
    (hunits : ∀ n log ctx st, 188 * n ≤ b.length → Ts.feed (Ts.recorder TsCodec.handler) TsCtx.create ([], {}) (Ts.chunks n b) = some (Err.SUCCESS, ctx, (log, st)) →
      ∃ us, Spec.TsCodec.areUnits us log ∧ ∀ u ∈ us, Spec.TsCodec.playable u) :
    ∃ us out waiting a ps, (∀ u ∈ us, Spec.TsCodec.playable u) ∧ Spec.TsCodec.flow none us (out ++ waiting) ∧ (stopped pub → waiting = []) ∧ publishedTo cid L = out ∧
      a ≤ out.length ∧ List.Forall₂ Rtmp.Carries ps sent ∧ ps <+: startup (out.take a) ++ out.drop a ∧
      (RtmpServe.isPlaying player → pendingOf s.w c = [] → ps = startup (out.take a) ++ out.drop a) := by
  obtain ⟨n, log, ctx, st, h2, h3, h4, -⟩ := C96_published_partial hop he hfit hi hq hpub hb
  obtain ⟨us, hu, hpl⟩ := hunits n log ctx st h2 h3
  obtain ⟨waiting, hfl, hw⟩ := h4 us hu
  obtain ⟨h1, -⟩ := publishes_ok (run_init hop he hfit) hi hq hpub hb
  obtain ⟨a, ps, g1, g2, g3, g4⟩ := RtmpServe.player_gets (run_init hop he hfit) hj h1 hjoin hplay
    (fun p hp => flow_supported us log none _ hu hpl hfl p (List.mem_append_left _ hp))
  exact ⟨us, _, waiting, a, ps, hpl, hfl, hw, rfl, g1, g2, g3, g4⟩

/-- Units that say what RTMP can carry give packets that RTMP can carry. -/
theorem sent_supported : ∀ (cs : List Spec.TsCodec.Content) (log : List PesDone) (last : Option Aac.Params) (out : List AVPkt), Spec.TsCodec.allSay cs log →
    (∀ d ∈ log, d.data.length < 2 ^ 29) → (∀ c ∈ cs, Spec.TsCodec.carriable c) → Spec.TsCodec.sent last cs out → ∀ p ∈ out, Rtmp.Supported p := by
  intro cs log last out ha
  induction ha generalizing last out with
  | nil => intro _ _ h; simp only [Spec.TsCodec.sent] at h; subst h; intro p hp; cases hp
  | @cons c d cs ds hs _ ih =>
    intro hsz hc h
    have hcu := hc c (by simp)
    have hd := hsz d (by simp)
    have rest := fun last t ht => ih last t (fun x hx => hsz x (by simp [hx])) (fun x hx => hc x (by simp [hx])) ht
    cases c with
    | video ctx us =>
      obtain ⟨t, rfl, ht⟩ := h
      obtain ⟨-, hctx, hl, hf, -⟩ := hs
      intro p hm
      rcases List.mem_append.1 hm with hm | hm
      · refine answer_carried (by rw [hctx]) (fun u hu => ?_) hcu p hm
        have := found_length hf u hu
        rw [List.length_take] at this
        omega
      · exact rest _ t ht p hm
    | audio ctx fs =>
      obtain ⟨a, t, rfl, hem, ht⟩ := h
      obtain ⟨-, hctx, -, hok⟩ := hs
      intro p hm
      rcases List.mem_append.1 hm with hm | hm
      · exact emitted_supported hcu.1 hcu.2 (by rw [hctx]) fs _ a hok hem p hm
      · exact rest _ t ht p hm
    | other => exact rest _ out h

/-- **C97** (RTMP player, units of any content). If what the units of the publisher's transport stream say is what RTMP can carry, whatever their bytes are, an RTMP player is sent, in order and once
each, a message for every packet of the start-up frames and of what follows. Missing: units RTMP cannot carry (`C97_negation_sei`). -/
theorem C97_srt_any_to_rtmp_partial {env : Site.Env} {ops : List Sys.Op} (hop : ∀ q ∈ requestsOf ops, ReqOk q) {s : Sys} {L : Log}
    (he : Sys.run env Sys.init ops = some (s, L)) (hfit : fitsFlv L) {i j : Nat} {pub player : Conn} (hi : s.conns[i]? = some pub)
    (hj : s.conns[j]? = some player) {q : Req} (hq : (requestsOf ops)[i]? = some q) {cid c : Nat} (hpub : publishes pub cid)
    {b : List UInt8} {cl : Err} (hb : Arrives q.io b cl) (hjoin : ∃ op, (op, .joined c cid) ∈ L) {sent : List RtmpMsg}
    (hplay : RtmpServe.plays player c sent)
    (hunits : ∀ n log ctx st, 188 * n ≤ b.length → Ts.feed (Ts.recorder TsCodec.handler) TsCtx.create ([], {}) (Ts.chunks n b) = some (Err.SUCCESS, ctx, (log, st)) →
      (∀ d ∈ log, d.data.length < 2 ^ 29) ∧ ∃ cs, Spec.TsCodec.allSay cs log ∧ ∀ c ∈ cs, Spec.TsCodec.carriable c) :
    ∃ n log ctx st cs out waiting a ps, 188 * n ≤ b.length ∧ Ts.feed (Ts.recorder TsCodec.handler) TsCtx.create ([], {}) (Ts.chunks n b) = some (Err.SUCCESS, ctx, (log, st)) ∧
      Spec.TsCodec.allSay cs log ∧ Spec.TsCodec.sent none cs (out ++ waiting) ∧ (stopped pub → waiting = []) ∧ publishedTo cid L = out ∧
      a ≤ out.length ∧ List.Forall₂ Rtmp.Carries ps sent ∧ ps <+: startup (out.take a) ++ out.drop a ∧
      (RtmpServe.isPlaying player → pendingOf s.w c = [] → ps = startup (out.take a) ++ out.drop a) := by
  obtain ⟨n, log, ctx, st, h2, h3, h4, -⟩ := C96_any hop he hfit hi hq hpub hb
  obtain ⟨hsz, cs, hcs, hall⟩ := hunits n log ctx st h2 h3
  obtain ⟨waiting, hse, hw⟩ := (h4 hsz).2 cs hcs
  obtain ⟨h1, -⟩ := publishes_ok (run_init hop he hfit) hi hq hpub hb
  obtain ⟨a, ps, g1, g2, g3, g4⟩ := RtmpServe.player_gets (run_init hop he hfit) hj h1 hjoin hplay
    (fun p hp => sent_supported cs log none _ hcs hsz hall hse p (List.mem_append_left _ hp))
  exact ⟨n, log, ctx, st, cs, _, waiting, a, ps, h2, h3, hcs, hse, hw, rfl, g1, g2, g3, g4⟩

/-! ## Executions -/

/-- An SRT client, its URL as the server makes it from the stream id. -/
def srt (method : String) (b : List UInt8) : Req :=
  { host := host "source", url := { host := ascii "a.com", path := ascii "/live/x", method := ascii method, schema := ascii "srt" }, io := { evs := [.data b], closed := Err.ERROR_IO_EOF }, fails := [],
    mem := List.replicate 188 0, tag := List.replicate 29 0, via := .srt }

/-- A program association table, a program map, two pictures. -/
def sent : List UInt8 := TsProps.patPkt ++ TsProps.pmtPkt ++ picturePkt 0 ++ picturePkt 1

/-- The publisher sends its tables, an SRT player joins and plays, the publisher goes on, an HTTP player joins, the players play, an RTMP player joins and plays, the publisher ends. -/
def broadcast : List Sys.Op :=
  [.request (srt "publish" sent), .run 0, .run 0, .request (srt "request" []), .run 1, .run 0, .run 0, .request (ServeProps.get "source" "GET" "flv"), .run 0, .run 0, .run 1, .run 2,
   .request (RtmpServe.client "source" (.rtmp false [] 0)), .run 3, .run 0]

/-- What connections are and were sent. -/
def shown (k : Conn) : List Nat × List RtmpMsg × List UInt8 :=
  match k.job with
  | .srtPub cid _ _ _ => ([5, cid], [], [])
  | .done (.srtPublisher cid) e => ([6, cid, e], [], [])
  | .srtView c => ([4, c], [], k.snk.out)
  | .rtmpView c snk => ([1, c], snk.out, [])
  | .view c _ => ([3, c], [], k.snk.out)
  | .done _ e => ([7, e], [], k.snk.out)
  | _ => ([], [], k.snk.out)

/-- The packets of the first picture: a configuration, a key frame. (The second picture is not completed.) -/
def carried : List AVPkt :=
  [{ stream := .video, pktType := 0, payload := [1, 0x42, 0, 0x1e, 3, 1, 0, 4, 0x67, 0x42, 0xc0, 0x1e, 1, 0, 2, 0x68, 0xce], dts := 0, pts := 0, flags := 0x17, codec := 7 },
   { stream := .video, pktType := 1, payload := [0, 0, 0, 154, 0x65] ++ List.replicate 153 1, dts := 0, pts := 0, flags := 0x17, codec := 7 }]

/-- The messages that carry them. -/
def messages : List RtmpMsg :=
  [⟨9, 0, some ([0x17, 0, 0, 0, 0] ++ [1, 0x42, 0, 0x1e, 3, 1, 0, 4, 0x67, 0x42, 0xc0, 0x1e, 1, 0, 2, 0x68, 0xce])⟩, ⟨9, 0, some ([0x17, 1, 0, 0, 0] ++ [0, 0, 0, 154, 0x65] ++ List.replicate 153 1)⟩]

/-- The SRT player is sent all that the publisher has sent, the others the first picture. -/
example : (Sys.run site Sys.init broadcast).map (fun x => x.1.conns.map shown) =
    some [([6, 0, Err.ERROR_IO_EOF], [], []), ([4, 0], [], sent), ([3, 1], [], flvResponse site.reason carried), ([1, 2], messages, [])] := by decide +kernel

theorem sent_pids : ownsPidZero sent := by
  have h : Ts.chunks (sent.length / 188) sent = [TsProps.patPkt, TsProps.pmtPkt, picturePkt 0, picturePkt 1] := by decide +kernel
  unfold ownsPidZero
  rw [h]
  intro p hp
  simp only [List.mem_cons, List.not_mem_nil, or_false] at hp
  rcases hp with rfl | rfl | rfl | rfl
  · rintro - ⟨i, h1, h2⟩
    have h3 : field (Ts.payload TsProps.patPkt) (8 * (Ts.header TsProps.patPkt).pusi + 12) 12 = 13 := by decide +kernel
    have : i = 0 := by omega
    subst this
    revert h2
    decide +kernel
  all_goals exact fun h => absurd h (by decide +kernel)

theorem carried_ok : ∀ p ∈ carried, Rtmp.Supported p := by
  intro p hp
  simp only [carried, List.mem_cons, List.not_mem_nil, or_false] at hp
  rcases hp with rfl | rfl <;> exact ⟨rfl, by decide, by decide +kernel, .inr (.inl ⟨rfl, 0x17, rfl, by decide, by decide, by decide, by decide⟩)⟩

theorem at_map {α β : Type} {f : α → β} {l : List α} {i : Nat} {y : β} (h : (l.map f)[i]? = some y) : ∃ x, l[i]? = some x ∧ f x = y := by
  rw [List.getElem?_map, Option.map_eq_some_iff] at h
  exact h

theorem shown_pub {k : Conn} {cid e : Nat} (h : shown k = ([6, cid, e], [], [])) : publishes k cid ∧ stopped k := by
  unfold shown at h
  split at h <;> simp at h
  rename_i cid e hk
  obtain ⟨rfl, rfl⟩ := h
  exact ⟨.inr ⟨_, hk⟩, _, _, hk⟩

theorem shown_srt {k : Conn} {c : Nat} {b : List UInt8} (h : shown k = ([4, c], [], b)) : k.job = .srtView c := by
  unfold shown at h
  split at h <;> simp at h
  rename_i c' hk
  obtain ⟨rfl, rfl⟩ := h
  exact hk

theorem shown_http {k : Conn} {c : Nat} {b : List UInt8} (h : shown k = ([3, c], [], b)) : ∃ m, k.job = .view c m := by
  unfold shown at h
  split at h <;> simp at h
  rename_i c' m hk
  obtain ⟨rfl, rfl⟩ := h
  exact ⟨m, hk⟩

theorem shown_rtmp {k : Conn} {c : Nat} {ms : List RtmpMsg} (h : shown k = ([1, c], ms, [])) : RtmpServe.plays k c ms ∧ RtmpServe.isPlaying k := by
  unfold shown at h
  split at h <;> simp at h
  rename_i c' snk hk
  obtain ⟨rfl, rfl⟩ := h
  exact ⟨.inl ⟨snk.fails, hk⟩, _, _, hk⟩

/-- The hypotheses of C95, C96 and C97 are met by this execution: for the publisher, which has stopped, and for players over SRT, HTTP and RTMP that have nothing pending. -/
example : (∀ q ∈ requestsOf broadcast, ReqOk q) ∧ Arrives (srt "publish" sent).io sent Err.ERROR_IO_EOF ∧ ownsPidZero sent ∧ (requestsOf broadcast)[0]? = some (srt "publish" sent) ∧
    ∃ s L, Sys.run site Sys.init broadcast = some (s, L) ∧ fitsFlv L ∧ (∃ k, s.conns[0]? = some k ∧ publishes k 0 ∧ stopped k) ∧
      (∃ k, s.conns[1]? = some k ∧ k.job = .srtView 0 ∧ plays k 0) ∧ (∃ op, (op, .joined 0 1) ∈ L) ∧ pendingOf s.w 0 = [] ∧
      (∃ k, s.conns[2]? = some k ∧ ∃ m, k.job = .view 1 m) ∧ (∃ op, (op, .joined 1 0) ∈ L) ∧ pendingOf s.w 1 = [] ∧
      (∃ k, s.conns[3]? = some k ∧ RtmpServe.plays k 2 messages ∧ RtmpServe.isPlaying k) ∧ (∃ op, (op, .joined 2 0) ∈ L) ∧ pendingOf s.w 2 = [] ∧
      (∀ p ∈ publishedTo 0 L, Rtmp.Supported p) := by
  refine ⟨?_, ⟨by decide +kernel, by decide +kernel, by decide +kernel, rfl⟩, sent_pids, rfl, ?_⟩
  · intro q hq
    simp [requestsOf, broadcast] at hq
    rcases hq with rfl | rfl | rfl | rfl
    · exact ⟨by decide +kernel, by decide +kernel, (by intro e he; cases he), by show _ = 188; decide +kernel⟩
    · exact ⟨by decide +kernel, by decide +kernel, (by intro e he; cases he), by show _ = 188; decide +kernel⟩
    · exact ⟨by decide +kernel, by decide +kernel, by simp [ServeProps.get], by simp [ServeProps.get]⟩
    · exact ⟨by decide +kernel, by decide +kernel, by simp [RtmpServe.client], by simp [RtmpServe.client]⟩
  · have h : ((Sys.run site Sys.init broadcast).map fun x => decide (x.1.conns.map shown =
        [([6, 0, Err.ERROR_IO_EOF], [], []), ([4, 0], [], sent), ([3, 1], [], flvResponse site.reason carried), ([1, 2], messages, [])] ∧
        (x.2.map (·.2))[3]? = some (.joined 0 1) ∧ (x.2.map (·.2))[7]? = some (.joined 1 0) ∧ (x.2.map (·.2))[12]? = some (.joined 2 0) ∧
        pendingOf x.1.w 0 = [] ∧ pendingOf x.1.w 1 = [] ∧ pendingOf x.1.w 2 = [] ∧ publishedTo 0 x.2 = carried ∧
        (x.2.all fun x => match x.1 with | .put _ p => decide ((Flv.body p).length < 2 ^ 24) | _ => true) = true)) = some true := by decide +kernel
    cases hr : Sys.run site Sys.init broadcast with
    | none => rw [hr] at h; simp at h
    | some x =>
      obtain ⟨s, L⟩ := x
      rw [hr] at h
      simp only [Option.map_some, Option.some.injEq, decide_eq_true_eq] at h
      obtain ⟨h1, j0, j1, j2, p0, p1, p2, hp, hf⟩ := h
      have hjoin : ∀ {i c cid : Nat}, (L.map (·.2))[i]? = some (.joined c cid) → ∃ op, (op, .joined c cid) ∈ L := by
        intro i c cid hx
        obtain ⟨⟨op, o⟩, hx, hy⟩ := at_map hx
        simp only at hy
        subst hy
        exact ⟨op, List.mem_of_getElem? hx⟩
      obtain ⟨k0, a0, b0⟩ := at_map (f := shown) (l := s.conns) (i := 0) (by rw [h1]; rfl)
      obtain ⟨k1, a1, b1⟩ := at_map (f := shown) (l := s.conns) (i := 1) (by rw [h1]; rfl)
      obtain ⟨k2, a2, b2⟩ := at_map (f := shown) (l := s.conns) (i := 2) (by rw [h1]; rfl)
      obtain ⟨k3, a3, b3⟩ := at_map (f := shown) (l := s.conns) (i := 3) (by rw [h1]; rfl)
      exact ⟨s, L, rfl, fitsFlv_of_all hf, ⟨k0, a0, shown_pub b0⟩, ⟨k1, a1, shown_srt b1, .inl (shown_srt b1)⟩, hjoin j0, p0, ⟨k2, a2, shown_http b2⟩, hjoin j1, p1,
        ⟨k3, a3, shown_rtmp b3⟩, hjoin j2, p2, by rw [hp]; exact carried_ok⟩

/-- The units in it (C96). -/
example : Spec.TsCodec.areUnits [.video { dts := 0, pts := 0, timebase := 90 } picture]
    [{ pid := 0x100, streamType := 0x1b, dts := 0, pts := 0, data := H264.annexB picture, len := 170 }] :=
  ⟨⟨rfl, rfl, rfl, by decide +kernel, by decide +kernel, by decide +kernel, by decide +kernel⟩, trivial⟩

/-- Units of other shape: one with a byte before the first start code and a start code at its end, one of two bytes, and one of a type that is not decoded. -/
example : Spec.TsCodec.allSay [.video { dts := 0, pts := 0, timebase := 90 } [[0x41, 5, 0, 0, 1]], .video { dts := 9, pts := 9, timebase := 90 } [], .other]
    [{ pid := 0x100, streamType := 0x1b, dts := 0, pts := 0, data := [7, 0, 0, 1, 0x41, 5, 0, 0, 1], len := 9 },
      { pid := 0x100, streamType := 0x1b, dts := 9, pts := 9, data := [7, 0], len := 2 },
      { pid := 0x101, streamType := 6, dts := 0, pts := 0, data := [7, 0], len := 2 }] :=
  .cons ⟨rfl, rfl, by decide, .inr ⟨[7], _, rfl, by decide, .last ⟨by decide, by decide, by decide⟩⟩, by decide⟩
    (.cons ⟨rfl, rfl, by decide, .inl ⟨by decide, rfl⟩, by decide⟩ (.cons ⟨by decide, by decide⟩ .nil))

/-- The condition of C97 on the units is met by it. -/
example : ∀ n log ctx st, 188 * n ≤ sent.length → Ts.feed (Ts.recorder TsCodec.handler) TsCtx.create ([], {}) (Ts.chunks n sent) = some (Err.SUCCESS, ctx, (log, st)) →
    ∃ us, Spec.TsCodec.areUnits us log ∧ ∀ u ∈ us, Spec.TsCodec.playable u := by
  intro n log ctx st hn hf
  have hlen : sent.length = 752 := by decide +kernel
  have h : (List.range 5).all (fun n => decide ((Ts.feed (Ts.recorder TsCodec.handler) TsCtx.create ([], {}) (Ts.chunks n sent)).map (fun x => x.2.2.1) =
      some (if n = 4 then [{ pid := 0x100, streamType := 0x1b, dts := 0, pts := 0, data := H264.annexB picture, len := 170 }] else []))) = true := by decide +kernel
  have := List.all_eq_true.1 h n (by simp; omega)
  rw [hf] at this
  simp only [Option.map_some, Option.some.injEq, decide_eq_true_eq] at this
  subst this
  split
  · exact ⟨[.video { dts := 0, pts := 0, timebase := 90 } picture], ⟨⟨rfl, rfl, rfl, by decide +kernel, by decide +kernel, by decide +kernel, by decide +kernel⟩, trivial⟩, by
      intro u hu
      rw [List.mem_singleton] at hu
      subst hu
      exact ⟨by decide, by decide, by decide, by decide, by decide +kernel⟩⟩
  · exact ⟨[], trivial, by simp⟩

/-- Three units as `C97_srt_any_to_rtmp_partial` wants them, the last one of no form that a stream of units has. -/
def oddUnits : List PesDone :=
  [{ pid := 0x100, streamType := 0x1b, dts := 0, pts := 0, data := [7, 0, 0, 1, 0x41, 5, 0, 0, 1], len := 9 }, { pid := 0x100, streamType := 0x1b, dts := 9, pts := 9, data := [7, 0], len := 2 },
   { pid := 0x101, streamType := 6, dts := 0, pts := 0, data := [7, 0], len := 2 }]
example : (∀ d ∈ oddUnits, d.data.length < 2 ^ 29) ∧ ∃ cs, Spec.TsCodec.allSay cs oddUnits ∧ ∀ c ∈ cs, Spec.TsCodec.carriable c :=
  ⟨by decide, [.video { dts := 0, pts := 0, timebase := 90 } [[0x41, 5, 0, 0, 1]], .video { dts := 9, pts := 9, timebase := 90 } [], .other],
    .cons ⟨rfl, rfl, by decide, .inr ⟨[7], _, rfl, by decide, .last ⟨by decide, by decide, by decide⟩⟩, by decide⟩
      (.cons ⟨rfl, rfl, by decide, .inl ⟨by decide, rfl⟩, by decide⟩ (.cons ⟨by decide, by decide⟩ .nil)), by
    intro c hc
    simp only [List.mem_cons, List.not_mem_nil, or_false] at hc
    rcases hc with rfl | rfl | rfl
    · exact ⟨by decide, by decide, by decide, by decide, by decide⟩
    · exact ⟨by decide, by decide, by decide, by decide, by decide⟩
    · trivial⟩

theorem streamed {ps : List (List UInt8)} {pid : Nat} {k : Ts.Kind} (h : Ts.Announced ps pid k) {ty : Nat} (hk : k = .stream ty) :
    ∃ p ∈ ps, Ts.Announced ps (Ts.header p).pid .pmt ∧ Ts.pmtLists (Ts.payload p) (Ts.header p).pusi ty pid := by
  induction h with
  | pat | sdt | program _ _ _ => simp at hk
  | stream h1 h2 h3 _ =>
    cases hk
    exact ⟨_, by simp, .earlier h1, h2⟩
  | earlier _ ih =>
    obtain ⟨p, h1, h2, h3⟩ := ih hk
    exact ⟨p, by simp [h1], .earlier h2, h3⟩

theorem tables_pmt {pid : Nat} (h : Ts.Announced [TsProps.patPkt, TsProps.pmtPkt] pid .pmt) : pid = 0x1000 := by
  obtain ⟨p, h1, h2, i, h3, h4⟩ := listed h rfl
  simp only [List.mem_cons, List.not_mem_nil, or_false] at h1
  rcases h1 with rfl | rfl
  · have h5 : field (Ts.payload TsProps.patPkt) (8 * (Ts.header TsProps.patPkt).pusi + 12) 12 = 13 := by decide +kernel
    have : i = 0 := by omega
    subst this
    rw [h4]
    decide +kernel
  · exact absurd h2 (by decide +kernel)

theorem entry_one {q : List UInt8} {off : Nat} {left : Int} {ty pid : Nat} (h : Ts.EntryAt q off left ty pid) (hl : left ≤ 5) : ty = field q off 8 := by
  cases h with
  | here _ => rfl
  | next _ h2 => cases h2 <;> omega

theorem picture_carries (cc : UInt8) (hc : cc = 0 ∨ cc = 1) : Ts.carries (picturePkt cc) 0x100 cc.toNat (.start TsProps.head0 (H264.annexB picture)) := by
  rcases hc with rfl | rfl
  · refine ⟨⟨by decide +kernel, by decide +kernel, fun h => absurd h (by decide +kernel)⟩, by decide +kernel, by decide +kernel, by decide +kernel,
      by decide +kernel, TsProps.head0_ok, by decide +kernel⟩
  · refine ⟨⟨by decide +kernel, by decide +kernel, fun h => absurd h (by decide +kernel)⟩, by decide +kernel, by decide +kernel, by decide +kernel,
      by decide +kernel, TsProps.head0_ok, by decide +kernel⟩

/-- The hypotheses of `C96_units_partial` are met by the packets of `sent`. -/
example : Ts.chunks 4 sent = [TsProps.patPkt, TsProps.pmtPkt] ++
      ([(picturePkt 0, some (.start TsProps.head0 (H264.annexB picture))), (picturePkt 1, some (.start TsProps.head0 (H264.annexB picture)))] :
        List (List UInt8 × Option Ts.Piece)).map (·.1) ∧
    Ts.history 0x100 15 none [(picturePkt 0, some (.start TsProps.head0 (H264.annexB picture))), (picturePkt 1, some (.start TsProps.head0 (H264.annexB picture)))] ∧
    Ts.Announced [TsProps.patPkt, TsProps.pmtPkt] 0x100 (.stream 0x1b) ∧ ¬ Ts.Announced [TsProps.patPkt, TsProps.pmtPkt] 0x100 .pmt ∧
    ¬ Ts.Announced [TsProps.patPkt, TsProps.pmtPkt] 0 .pmt ∧ (∀ ty, Ts.Announced [TsProps.patPkt, TsProps.pmtPkt] 0x100 (.stream ty) → ty = 0x1b) := by
  refine ⟨by decide +kernel, ?_, ?_, fun h => absurd (tables_pmt h) (by decide), fun h => absurd (tables_pmt h) (by decide), ?_⟩
  · exact ⟨picture_carries 0 (.inl rfl), by show _ ≤ _; decide +kernel, picture_carries 1 (.inr rfl), by show _ ≤ _; decide +kernel, trivial⟩
  · have h1 : Ts.Announced ([] ++ [TsProps.patPkt]) 0x1000 .pmt := .program (.pat) ⟨0, by decide +kernel, by decide +kernel⟩
    refine Ts.Announced.stream (hist := [TsProps.patPkt]) (p := TsProps.pmtPkt) (ty := 0x1b) (pid := 0x100) h1 ?_ (by decide +kernel)
    exact Ts.EntryAt.here (off := 8 * (1 + 12)) (left := 5) (q := Ts.payload TsProps.pmtPkt) (by decide)
  · intro ty h
    obtain ⟨p, h1, h2, h3⟩ := streamed h rfl
    simp only [List.mem_cons, List.not_mem_nil, or_false] at h1
    rcases h1 with rfl | rfl
    · exact absurd (tables_pmt h2) (by decide +kernel)
    · unfold Ts.pmtLists at h3
      have e1 : (8 * ((Ts.header TsProps.pmtPkt).pusi + 12) + 8 * field (Ts.payload TsProps.pmtPkt) (8 * ((Ts.header TsProps.pmtPkt).pusi + 8) + 22) 10) = 104 := by decide +kernel
      have e2 : ((field (Ts.payload TsProps.pmtPkt) (8 * (Ts.header TsProps.pmtPkt).pusi + 12) 12 : Int) - 13 -
        field (Ts.payload TsProps.pmtPkt) (8 * ((Ts.header TsProps.pmtPkt).pusi + 8) + 22) 10) = 5 := by decide +kernel
      rw [e1, e2] at h3
      rw [entry_one h3 (by omega)]
      decide +kernel

/-! ## What fails -/

/-- The publisher sends packets and is served `n` times, then an SRT player asks and plays. -/
def play (ps : List (List UInt8)) (n : Nat) : List Sys.Op := [.request (srt "publish" ps.flatten)] ++ List.replicate n (.run 0) ++ [.request (srt "request" []), .run 1]

/-- How the connections stand after that, and what is published. -/
def outcome (ps : List (List UInt8)) (n : Nat) : Option (List (List Nat × List RtmpMsg × List UInt8) × List AVPkt) :=
  (Sys.run site Sys.init (play ps n)).map fun x => (x.1.conns.map shown, publishedTo 0 x.2)

/-- A null packet; a packet of the video stream with a clock reference and no payload. -/
def nullPkt : List UInt8 := [0x47, 0x1f, 0xff, 0x10] ++ List.replicate 184 0xff
def clockPkt : List UInt8 := [0x47, 0x01, 0x00, 0x20, 183, 0x10, 0, 0, 0, 1, 0x7e, 0] ++ List.replicate 176 0xff

/-- A 188-byte block that does not begin with 0x47. -/
def noSync : List UInt8 := [0x46] ++ List.replicate 187 0xff

/-- C95 fails for some packets: null packets and packets with nothing but a clock reference are not passed on. -/
theorem C95_negation_dropped : clockPkt.length = 188 ∧ nullPkt.length = 188 ∧
    (outcome [TsProps.patPkt, TsProps.pmtPkt, nullPkt, clockPkt, picturePkt 0] 5).map (·.1) =
      some [([5, 0], [], []), ([4, 0], [], TsProps.patPkt ++ TsProps.pmtPkt ++ picturePkt 0)] := by decide +kernel

/-- C95 fails for players that join late: a player starts with every picture since the publisher began, not with the last one (the start of a unit is noted as
`pusi >> 31`, which is 0, so the raw cache is never emptied; C62). -/
theorem C95_negation_history : (outcome [TsProps.patPkt, TsProps.pmtPkt, picturePkt 0, picturePkt 1, picturePkt 2] 9).map (·.1) =
    some [([5, 0], [], []), ([4, 0], [], TsProps.patPkt ++ TsProps.pmtPkt ++ picturePkt 0 ++ picturePkt 1 ++ picturePkt 2)] := by decide +kernel

/-- C95 fails after a block that is not a packet: the stream ends there, for all players, and what follows is not read. -/
theorem C95_negation_resync : noSync.length = 188 ∧ (outcome [TsProps.patPkt, TsProps.pmtPkt, picturePkt 0, noSync, picturePkt 1] 4).map (·.1) =
    some [([6, 0, Err.ERROR_TS_PACKET_DECODE], [], []), ([7, Err.ERROR_RTMP_HAS_SOURCE], [], [])] := by decide +kernel

/-- C96 fails: two packets from any publisher, a table and a program map longer than its packet, make the server read outside its memory. -/
theorem C96_negation_crash : (outcome [TsProps.patPkt, TsProps.longPmt] 1).isSome ∧ (outcome [TsProps.patPkt, TsProps.longPmt] 2).isNone := by decide +kernel

/-- C96 fails for the last unit: a publisher sends one picture and ends; the picture is in no stream. -/
theorem C96_negation_last : (outcome [TsProps.patPkt, TsProps.pmtPkt, picturePkt 0] 4).map (·.1) =
      some [([6, 0, Err.ERROR_IO_EOF], [], []), ([7, Err.ERROR_RTMP_HAS_SOURCE], [], [])] ∧
    (outcome [TsProps.patPkt, TsProps.pmtPkt, picturePkt 0] 4).map (·.2) = some [] := by decide +kernel

/-- C97 fails for supplemental information (SEI): the packet of such a unit has frame type 5, which is a command in FLV and RTMP, so the unit is sent without the packet
type and composition time that the unit's length comes after; a reader takes the first five bytes of what should have been the unit for a command. -/
theorem C97_negation_sei (ctx : CodecCtx) (u : List UInt8) (h : H264.unitType u = 6) :
    ∃ p, H264.unitPacket ctx u = some p ∧ Flv.body p = 0x57 :: (beBytes 4 u.length ++ u) := by
  refine ⟨_, by simp only [H264.unitPacket, H264.frameType, h]; rfl, ?_⟩
  simp only [Flv.body]
  rw [if_pos (by decide +kernel)]
  rfl

end Sps.SrtServe
