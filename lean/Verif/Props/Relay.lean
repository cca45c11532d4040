import Verif.Lemmas.Relay
import Verif.Props.Serve
import Verif.Props.Names
/-!
# Relaying streams from an upstream server (C89, C90)
-/
namespace Sps.RelayProps
open Spec Spec.Http HttpStream World StreamProps ServeProps Relay

/-! ## C89: what a pull makes of the answer -/

/-- The protocols that are installed. -/
theorem protocol_installed (p1 p2 p3 : Nat) (h12 : p1 ≠ p2) (h13 : p1 ≠ p3) (h23 : p2 ≠ p3) (schema : Text) (p : Reg) :
    Protocol.create (Registers.install (Protocol.installed p1 p2 p3)) schema = some p ↔ p ∈ Protocol.installed p1 p2 p3 ∧ p.word = schema := by
  refine C61_protocol _ ?_ ?_ schema p
  · intro x hx y hy h
    simp only [Protocol.installed, List.mem_cons, List.not_mem_nil, or_false] at hx hy
    rcases hx with rfl | rfl | rfl <;> rcases hy with rfl | rfl | rfl <;> first | rfl | exact absurd h (by first | exact h12 | exact h13 | exact h23 | exact h12.symm | exact h13.symm | exact h23.symm)
  · intro x hx y hy h
    simp only [Protocol.installed, List.mem_cons, List.not_mem_nil, or_false] at hx hy
    rcases hx with rfl | rfl | rfl <;> rcases hy with rfl | rfl | rfl <;> first | rfl | (exfalso; simp only at h; revert h; decide +kernel)

/-- **C89.** What becomes of a pull, with the protocols and formats of the program at any addresses, for every URL and every answer: it feeds a
stream exactly if the URL is an `http` one, the answer has the status 200 and the extension begins with the name of an input format. (And see
`C89_crashes` for when the server crashes; otherwise the pull ends.) -/
theorem C89_feeds {p1 p2 p3 f1 f2 f3 : Nat} (hp12 : p1 ≠ p2) (hp13 : p1 ≠ p3) (hp23 : p2 ≠ p3) (hf12 : f1 ≠ f2) (hf13 : f1 ≠ f3) (hf23 : f2 ≠ f3) (u : Url)
    (hu : (0 : UInt8) ∉ u.ext) (junk : Text) (a : Answer) (f : Reg) :
    Edge.verdict (Registers.install (Protocol.installed p1 p2 p3)) (Registers.install (Format.inputs f1 f2 f3)) junk u a = .decodes f ↔
      u.schema = ascii "http" ∧ (∃ ch cl io, a = .opened 200 ch cl io) ∧ f ∈ Format.inputs f1 f2 f3 ∧ f.word <+: u.ext := by
  have hP := protocol_installed p1 p2 p3 hp12 hp13 hp23 u.schema
  have hF := C61_installed f1 f2 f3 hf12 hf13 hf23 u.ext junk hu
  unfold Edge.verdict
  cases hpc : Protocol.create (Registers.install (Protocol.installed p1 p2 p3)) u.schema with
  | none =>
    simp only [reduceCtorEq, false_iff]
    rintro ⟨hs, -⟩
    have := (hP ⟨p1, ascii "http"⟩).2 ⟨by simp [Protocol.installed], hs.symm⟩
    rw [hpc] at this
    simp at this
  | some p =>
    obtain ⟨-, hw⟩ := (hP p).1 hpc
    cases a with
    | failed => simp
    | mute => simp
    | opened st ch cl io =>
      simp only [Answer.opened.injEq]
      rw [hw]
      by_cases hs : u.schema = ascii "http"
      · rw [if_neg (by simp [hs])]
        by_cases h2 : st = 200
        · subst h2
          rw [if_neg (by simp)]
          cases hfc : Format.create (Registers.install (Format.inputs f1 f2 f3)) u.ext junk with
          | none =>
            simp only [reduceCtorEq, false_iff]
            rintro ⟨-, -, h⟩
            rw [(hF f).2 h] at hfc
            simp at hfc
          | some g =>
            simp only [Verdict.decodes.injEq]
            constructor
            · rintro rfl
              exact ⟨hs, ⟨ch, cl, io, by simp⟩, (hF g).1 hfc⟩
            · rintro ⟨-, -, h⟩
              rw [(hF f).2 h] at hfc
              exact (Option.some.inj hfc).symm
        · rw [if_pos h2]
          simp [h2]
      · rw [if_pos hs]
        simp [hs]

/-- **C89**, when the server crashes: exactly if the pull could be opened and either its URL is an RTMP or file URL (there is no response to ask for
success), or the response is one that `http_parser` takes nothing of (there is none, either), or the status is 200 and the extension begins with the name of no
input format (there is no demuxer). -/
theorem C89_crashes {p1 p2 p3 f1 f2 f3 : Nat} (hp12 : p1 ≠ p2) (hp13 : p1 ≠ p3) (hp23 : p2 ≠ p3) (hf12 : f1 ≠ f2) (hf13 : f1 ≠ f3) (hf23 : f2 ≠ f3) (u : Url)
    (hu : (0 : UInt8) ∉ u.ext) (junk : Text) (a : Answer) :
    Edge.verdict (Registers.install (Protocol.installed p1 p2 p3)) (Registers.install (Format.inputs f1 f2 f3)) junk u a = .undef ↔
      (∃ st ch cl io, a = .opened st ch cl io ∧ (u.schema = ascii "rtmp" ∨ u.schema = ascii "file" ∨
        u.schema = ascii "http" ∧ st = 200 ∧ ∀ f ∈ Format.inputs f1 f2 f3, ¬ f.word <+: u.ext)) ∨
      a = .mute ∧ (u.schema = ascii "http" ∨ u.schema = ascii "rtmp" ∨ u.schema = ascii "file") := by
  have hP := protocol_installed p1 p2 p3 hp12 hp13 hp23 u.schema
  have hF := C61_installed f1 f2 f3 hf12 hf13 hf23 u.ext junk hu
  have hne : ascii "rtmp" ≠ ascii "http" ∧ ascii "file" ≠ ascii "http" := by decide +kernel
  unfold Edge.verdict
  cases hpc : Protocol.create (Registers.install (Protocol.installed p1 p2 p3)) u.schema with
  | none =>
    simp only [reduceCtorEq, false_iff]
    intro hx
    have hnone : ∀ p ∈ Protocol.installed p1 p2 p3, p.word ≠ u.schema := by
      intro p hp hw
      have := (hP p).2 ⟨hp, hw⟩
      rw [hpc] at this
      simp at this
    simp only [Protocol.installed, List.mem_cons, List.not_mem_nil, or_false, ne_eq, forall_eq_or_imp, forall_eq] at hnone
    rcases hx with ⟨_, _, _, _, _, hs | hs | hs⟩ | ⟨-, hs | hs | hs⟩
    · exact hnone.2.2 hs.symm
    · exact hnone.2.1 hs.symm
    · exact hnone.1 hs.1.symm
    · exact hnone.1 hs.symm
    · exact hnone.2.2 hs.symm
    · exact hnone.2.1 hs.symm
  | some p =>
    obtain ⟨hm, hw⟩ := (hP p).1 hpc
    have hall : u.schema = ascii "http" ∨ u.schema = ascii "file" ∨ u.schema = ascii "rtmp" := by
      rw [← hw]
      simp only [Protocol.installed, List.mem_cons, List.not_mem_nil, or_false] at hm
      rcases hm with rfl | rfl | rfl <;> simp
    cases a with
    | failed => simp
    | mute =>
      simp only [reduceCtorEq, false_and, exists_false, false_or, true_and, true_iff]
      rcases hall with h | h | h
      · exact .inl h
      · exact .inr (.inr h)
      · exact .inr (.inl h)
    | opened st ch cl io =>
      simp only [Answer.opened.injEq, reduceCtorEq, false_and, or_false]
      rw [hw]
      by_cases hs : u.schema = ascii "http"
      · rw [if_neg (by simp [hs])]
        have h1 : u.schema ≠ ascii "rtmp" := by rw [hs]; exact hne.1.symm
        have h2 : u.schema ≠ ascii "file" := by rw [hs]; exact hne.2.symm
        by_cases h200 : st = 200
        · subst h200
          rw [if_neg (by simp)]
          cases hfc : Format.create (Registers.install (Format.inputs f1 f2 f3)) u.ext junk with
          | none =>
            simp only [true_iff]
            refine ⟨200, ch, cl, io, ⟨rfl, rfl, rfl, rfl⟩, .inr (.inr ⟨hs, rfl, fun f hf hw => ?_⟩)⟩
            rw [(hF f).2 ⟨hf, hw⟩] at hfc
            simp at hfc
          | some g =>
            simp only [reduceCtorEq, false_iff]
            obtain ⟨g1, g2⟩ := (hF g).1 hfc
            rintro ⟨_, _, _, _, _, h | h | ⟨-, -, h⟩⟩
            · exact h1 h
            · exact h2 h
            · exact h g g1 g2
        · rw [if_pos h200]
          simp only [reduceCtorEq, false_iff]
          rintro ⟨st', -, -, -, ⟨rfl, -⟩, h | h | ⟨-, h, -⟩⟩
          · exact h1 h
          · exact h2 h
          · exact h200 h
      · rw [if_pos hs]
        simp only [true_iff]
        refine ⟨st, ch, cl, io, ⟨rfl, rfl, rfl, rfl⟩, ?_⟩
        rcases hall with h | h | h
        · exact absurd h hs
        · exact .inr (.inl h)
        · exact .inl h

/-- **C89**, the part that holds of "no answer of an upstream server crashes this one": an `http` URL with an extension that begins with `flv`, `-` or `ts`, and
an answer of which `http_parser` takes something.

Missing: unknown extensions, RTMP pulls, https, and answers that are not HTTP (the negations of
C89). -/
theorem C89_safe_partial {p1 p2 p3 f1 f2 f3 : Nat} (hp12 : p1 ≠ p2) (hp13 : p1 ≠ p3) (hp23 : p2 ≠ p3) (hf12 : f1 ≠ f2) (hf13 : f1 ≠ f3) (hf23 : f2 ≠ f3)
    (u : Url) (hu : (0 : UInt8) ∉ u.ext) (hs : u.schema = ascii "http") (he : ascii "flv" <+: u.ext ∨ ascii "-" <+: u.ext ∨ ascii "ts" <+: u.ext)
    (junk : Text) (a : Answer) (ha : a ≠ .mute) :
    Edge.verdict (Registers.install (Protocol.installed p1 p2 p3)) (Registers.install (Format.inputs f1 f2 f3)) junk u a ≠ .undef := by
  rw [Ne, C89_crashes hp12 hp13 hp23 hf12 hf13 hf23 u hu junk a]
  have hne : ascii "http" ≠ ascii "rtmp" ∧ ascii "http" ≠ ascii "file" := by decide +kernel
  rw [hs]
  rintro (⟨_, _, _, _, _, h | h | ⟨-, -, h⟩⟩ | ⟨h, -⟩)
  · exact hne.1 h
  · exact hne.2 h
  rotate_left
  · exact ha h
  · rcases he with he | he | he
    · exact h ⟨f1, ascii "flv"⟩ (by simp [Format.inputs]) he
    · exact h ⟨f2, ascii "-"⟩ (by simp [Format.inputs]) he
    · exact h ⟨f3, ascii "ts"⟩ (by simp [Format.inputs]) he

/-- **C89**, a stream asked for over TLS is never relayed: there is no protocol for `https`, whatever the upstream server is. -/
theorem C89_negation_https {p1 p2 p3 : Nat} (hp12 : p1 ≠ p2) (hp13 : p1 ≠ p3) (hp23 : p2 ≠ p3) (ins : List Reg) (junk : Text) (u : Url)
    (hs : u.schema = ascii "https") (a : Answer) : Edge.verdict (Registers.install (Protocol.installed p1 p2 p3)) ins junk u a = .ends := by
  unfold Edge.verdict
  cases hpc : Protocol.create (Registers.install (Protocol.installed p1 p2 p3)) u.schema with
  | none => rfl
  | some p =>
    obtain ⟨hm, hw⟩ := (protocol_installed p1 p2 p3 hp12 hp13 hp23 u.schema p).1 hpc
    exfalso
    rw [hs] at hw
    simp only [Protocol.installed, List.mem_cons, List.not_mem_nil, or_false] at hm
    rcases hm with rfl | rfl | rfl <;> revert hw <;> simp only <;> decide +kernel

/-! ## C90: from the upstream server to the players -/

/-- **C90** (what is asked). In every execution, a play request that starts a pull makes it ask for the URL of the host's configuration for that request. -/
theorem C90_asks {env : Env} {ops : List Relay.Op} (hop : ∀ q ∈ requestsIn ops, ReqOk q) (hb : buffersOk ops) {r : Relay} {L : Log}
    (he : Relay.run env Relay.init ops = some (r, L)) (hfit : fitsFlv L) {q : Req} {v : Option Url} {r' : Relay} {l : Log}
    (hs : r.step env (.sys (.request q) v) = some (r', l)) {e : Nat} (hl : (.edgeRequest (StreamHandler.key q.url), .edgeStarted e) ∈ l) :
    r'.pulls[e]? = some (.asks (Edge.target env.parser q.host q.url)) := by
  have hR := Relay.run_init hop hb he hfit
  simp only [Relay.step, reserved, Bool.false_eq_true, if_false, Sys.step, Option.map_some, Option.some.injEq] at hs
  have hl2 : l = (r.sys.request env.site q).2 := by
    rw [Prod.mk.injEq] at hs
    exact hs.2.symm
  have hlen : (r.sys.request env.site q).2 = [(.edgeRequest (StreamHandler.key q.url), .edgeStarted e)] ∧ e = r.sys.w.edges.length := by
    rw [hl2] at hl
    unfold Sys.request at hl ⊢
    cases hvia : q.via with
    | srt =>
      rw [hvia] at hl
      simp only at hl
      unfold Sys.srtRequest at hl
      dsimp only at hl
      split at hl
      · split at hl <;> simp at hl
      · split at hl <;> simp at hl
    | http =>
      rw [hvia] at hl
      simp only at hl ⊢
      unfold Sys.httpRequest at hl ⊢
      dsimp only at hl ⊢
      split at hl
      · split at hl <;> simp at hl
      · rename_i hpost
        rw [if_neg hpost]
        split at hl
        · rename_i hpl
          simp only [List.mem_singleton, Prod.mk.injEq, true_and] at hl
          simp only [hpl]
          rw [← hl]
          exact ⟨rfl, (Sys.edgeRequest_started hl.symm).1⟩
        · exfalso
          have : ∀ (env : Site.Env) (k : Key) (y : StreamHandler.Join × World) (tag : List UInt8) (rs : HttpRsp) (snk : Sink),
              ∀ x ∈ (Sys.afterAttach env k y tag rs snk).2.1, ∀ n, x.2 ≠ .edgeStarted n := by
            intro env k y tag rs snk
            unfold Sys.afterAttach
            split
            · split
              rename_i hst
              unfold Sys.startView at hst
              split at hst
              · split at hst
                split at hst
                · rename_i c _ _ w _ _ _ _ _ _ _ _ _ _ _
                  simp only [Prod.mk.injEq] at hst
                  rw [← hst.2.1]
                  simp only [List.mem_cons, List.not_mem_nil, or_false]
                  rintro x (rfl | rfl) n
                  · simp
                  · simp only [World.leave]
                    split
                    · simp
                    · split <;> simp
                · simp only [Prod.mk.injEq] at hst
                  rw [← hst.2.1]
                  simp
              · simp only [Prod.mk.injEq] at hst
                rw [← hst.2.1]
                simp
            · simp
            · simp
          exact this _ _ _ _ _ _ _ hl e rfl
    | rtmp pub ms closed =>
      rw [hvia] at hl
      simp only at hl ⊢
      unfold Sys.rtmpRequest at hl ⊢
      split at hl
      · split at hl <;> simp at hl
      · rename_i hpub
        rw [if_neg hpub]
        split at hl
        · rename_i hpl
          simp only [List.mem_singleton, Prod.mk.injEq, true_and] at hl
          simp only [hpl]
          rw [← hl]
          exact ⟨rfl, (Sys.edgeRequest_started hl.symm).1⟩
        · exfalso
          unfold Sys.rtmpAttach at hl
          split at hl <;> simp at hl
  rw [Prod.mk.injEq] at hs
  rw [← hs.1, hlen.1]
  show (r.pulls ++ _)[e]? = _
  have : started (asked env v (.request q)) [(WOp.edgeRequest (StreamHandler.key q.url), WOut.edgeStarted e)] = [.asks (Edge.target env.parser q.host q.url)] := rfl
  rw [this, hlen.2, ← hR.len]
  simp

/-- **C90** (the stream begins). When the upstream server answers a pull of an `http` URL with extension `flv` with status 200, the stream it was started
for has a source from then on, and the pull reads the FLV file in the body. -/
theorem C90_opens {env : Env} {ops : List Relay.Op} (hop : ∀ q ∈ requestsIn ops, ReqOk q) (hb : buffersOk ops) {r : Relay} {L : Log}
    (he : Relay.run env Relay.init ops = some (r, L)) (hfit : fitsFlv L) {e : Nat} {u : Url} (hp : r.pulls[e]? = some (.asks (some u)))
    {f : Reg} (hf : f.word = ascii "flv") {ch : Bool} {cl : Int} {io : Io}
    (hv : Edge.verdict env.protocols env.site.ins env.site.junk u (.opened 200 ch cl io) = .decodes f) (mem : List UInt8) :
    ∃ r' cid, r.step env (.answer e (.opened 200 ch cl io) mem) = some (r', [(.edgeOpen e, .published cid)]) ∧ feeding r' e cid := by
  have hR := Relay.run_init hop hb he hfit
  obtain ⟨k, hk⟩ := hR.ok e _ hp
  obtain ⟨c1, -, -⟩ := edgeOpen_starting hk
  simp only [Relay.step, hp, Relay.answer, hv, Relay.also, Sys.step, (edge_unowned r.sys e).1, Bool.false_eq_true, if_false, Option.map_some, hf, if_true, c1]
  exact ⟨_, _, rfl, .inl ⟨_, _, List.getElem?_set_self (get_len hp)⟩⟩

/-- **C90** (relaying). In every execution, the packets in the stream of a pull are those at the beginning of the FLV file that the upstream server sends,
each once and in order, however the body is framed and arrives and whatever else goes on. -/
theorem C90_relayed {env : Env} {ops : List Relay.Op} (hop : ∀ q ∈ requestsIn ops, ReqOk q) (hb : buffersOk ops) {r : Relay} {L : Log}
    (he : Relay.run env Relay.init ops = some (r, L)) (hfit : fitsFlv L) {e cid status : Nat} (hf : feeding r e cid)
    {ch : Bool} {cl : Int} {io : Io} {mem : List UInt8} (ha : answered ops e status ch cl io mem) {b : List UInt8} {closed : Err}
    (hbody : BodyComes ch cl io b closed) :
    (.edgeOpen e, .published cid) ∈ L ∧ ∃ n, publishedTo cid L = (Flv.file mem.length closed n b).1 := by
  have hR := Relay.run_init hop hb he hfit
  rcases hf with ⟨rd, hd, hf⟩ | hf
  · obtain ⟨-, h2, ch', cl', io', mem', h3, h4⟩ := hR.ok e _ hf
    obtain ⟨h5, rfl⟩ := ha _ _ h3
    simp only [Answer.opened.injEq] at h5
    obtain ⟨-, rfl, rfl, rfl⟩ := h5
    exact ⟨h2, _, (h4 b closed hbody).uploaded⟩
  · obtain ⟨-, h2, ch', cl', io', mem', h3, h4⟩ := hR.ok e _ hf
    obtain ⟨h5, rfl⟩ := ha _ _ h3
    simp only [Answer.opened.injEq] at h5
    obtain ⟨-, rfl, rfl, rfl⟩ := h5
    obtain ⟨n0, h6⟩ := h4 b closed hbody
    exact ⟨h2, n0, (h6 n0 (Nat.le_refl _)).symm⟩

/-- **C90** (nothing is left out). When the pull is over, all packets of the upstream server's file are in the stream. -/
theorem C90_complete {env : Env} {ops : List Relay.Op} (hop : ∀ q ∈ requestsIn ops, ReqOk q) (hb : buffersOk ops) {r : Relay} {L : Log}
    (he : Relay.run env Relay.init ops = some (r, L)) (hfit : fitsFlv L) {e cid status : Nat} (hf : r.pulls[e]? = some (.over (some cid)))
    {ch : Bool} {cl : Int} {io : Io} {mem : List UInt8} (ha : answered ops e status ch cl io mem) {b : List UInt8} {closed : Err}
    (hbody : BodyComes ch cl io b closed) : ∃ n0, ∀ n, n0 ≤ n → publishedTo cid L = (Flv.file mem.length closed n b).1 := by
  have hR := Relay.run_init hop hb he hfit
  obtain ⟨-, h2, ch', cl', io', mem', h3, h4⟩ := hR.ok e _ hf
  obtain ⟨h5, rfl⟩ := ha _ _ h3
  simp only [Answer.opened.injEq] at h5
  obtain ⟨-, rfl, rfl, rfl⟩ := h5
  obtain ⟨n0, h6⟩ := h4 b closed hbody
  exact ⟨n0, fun n hn => (h6 n hn).symm⟩

/-- **C90** (end to end). In every execution, for a pull that feeds a stream and a player over HTTP that joined it: there is a number `a` of packets of the upstream
server's FLV file, those read when the player joined, such that the player has been sent the response head, an FLV header, the start-up packets among the first
`a` and then the packets that follow, in order, once each: all that were read since if it plays and has read its queue, an initial part of that
otherwise. -/
theorem C90_end_to_end {env : Env} {ops : List Relay.Op} (hop : ∀ q ∈ requestsIn ops, ReqOk q) (hb : buffersOk ops) {r : Relay} {L : Log}
    (he : Relay.run env Relay.init ops = some (r, L)) (hfit : fitsFlv L) {e cid status : Nat} (hf : feeding r e cid)
    {ch : Bool} {cl : Int} {io : Io} {mem : List UInt8} (ha : answered ops e status ch cl io mem) {b : List UInt8} {closed : Err}
    (hbody : BodyComes ch cl io b closed) {j : Nat} {player : Conn} (hj : r.sys.conns[j]? = some player) {c : Nat} (hjoin : ∃ op, (op, .joined c cid) ∈ L) :
    ∃ F a n, F = (Flv.file mem.length closed n b).1 ∧ publishedTo cid L = F ∧ a ≤ F.length ∧
      ((∃ m, player.job = .view c m) ∨ (∃ e, player.job = .done (.player c) e) →
        player.snk.out <+: flvResponse env.site.reason (startup (F.take a) ++ F.drop a)) ∧
      ((∃ m, player.job = .view c m) ∧ pendingOf r.sys.w c = [] →
        player.snk.out = flvResponse env.site.reason (startup (F.take a) ++ F.drop a)) := by
  obtain ⟨h1, n, h2⟩ := C90_relayed hop hb he hfit hf ha hbody
  obtain ⟨sops, s1, s2⟩ := Relay.run_sys ops he
  obtain ⟨a, ha⟩ := player_gets (by rw [s2]; exact hop) s1 hfit hj h1 hjoin
  exact ⟨_, a, n, h2, rfl, ha⟩

/-! ### Executions -/

/-- The program, with a URL parser. -/
def env : Env := { site := site, protocols := Registers.install (Protocol.installed 1 2 3), parser := Names.readUrl }

/-- An edge of `up.com`. -/
def edgeHost : Conf.Module := .mk .host (ascii "a.com")
  (fun n => if n = ascii "role" then some (.str (ascii "edge")) else if n = ascii "edge_avformat" then some (.str (ascii "all"))
    else if n = ascii "pass_proxy" then some (.str (ascii "up.com")) else none) []

/-- A play request over HTTP. -/
def view (target : String) : Req :=
  { host := edgeHost, url := Names.http Names.readUrl (ascii "GET") (ascii target) [(ascii "Host", ascii "a.com")], io := { evs := [], closed := 1 }, fails := [],
    mem := List.replicate 64 0, tag := List.replicate 29 0 }

/-- The FLV file of `Props/Serve`, in chunks. -/
def upstream : Answer := .opened 200 true (-1) post.io

/-- A player asks for a stream, the upstream server answers, header and two packets are read, the player joins and plays, the rest is read, a second player comes, the
pull ends. -/
def relayed : List Relay.Op :=
  [.sys (.request (view "/live/x.flv")) none, .answer 0 upstream (List.replicate 64 0), .pass 0, .pass 0, .pass 0, .sys (.wake 0 0) none, .sys (.run 0) none, .pass 0,
   .sys (.run 0) none, .sys (.request (view "/live/x.flv")) none, .sys (.run 1) none, .pass 0]

example : (Relay.run env Relay.init (relayed.take 1)).map (fun x => x.1.pulls.map fun p => match p with | .asks (some u) => [u.schema, u.host, u.url, u.ext] | _ => []) =
    some [[ascii "http", ascii "up.com", ascii "/live/x.flv", ascii "flv"]] := by decide +kernel

example : (Relay.run env Relay.init relayed).map (fun x => (x.1.sys.conns.map fun k => k.snk.out, x.1.pulls.map fun p => match p with | .over c => c | _ => none)) =
    some ([flvResponse site.reason pkts, flvResponse site.reason pkts], [some 0]) := by decide +kernel

/-- The hypotheses of C90 are met by it. -/
example : (∀ q ∈ requestsIn relayed, ReqOk q) ∧ buffersOk relayed ∧ answered relayed 0 200 true (-1) post.io (List.replicate 64 0) ∧
    BodyComes true (-1) post.io (Flv.fileHeader ++ Flv.chain 0 pkts) Err.ERROR_HTTP_RES_EOF ∧
    ∃ r L, Relay.run env Relay.init relayed = some (r, L) ∧ fitsFlv L ∧ feeding r 0 0 ∧ (.play (ascii "a.com/live/x"), .joined 0 0) ∈ L ∧ publishedTo 0 L = pkts := by
  refine ⟨?_, ?_, ?_, ?_, ?_⟩
  · intro q hq
    simp [requestsIn, relayed] at hq
    rcases hq with rfl
    exact ⟨by decide +kernel, by decide +kernel, by simp [view], by simp [view]⟩
  · intro e a mem hm
    simp [relayed] at hm
    rw [hm.2.2]
    decide +kernel
  · intro a m hm
    simp [relayed] at hm
    exact ⟨hm.1, by rw [hm.2]; rfl⟩
  · have h := post_arrives
    have h2 : post.url.isChunked = true := by decide +kernel
    have h3 : post.url.contentLength = -1 := by decide +kernel
    rw [h2, h3] at h
    exact .inl h
  · have h : ((Relay.run env Relay.init relayed).map fun x => decide ((.play (ascii "a.com/live/x"), .joined 0 0) ∈ x.2 ∧ publishedTo 0 x.2 = pkts ∧
        (x.2.all fun x => match x.1 with | .put _ p => decide ((Flv.body p).length < 2 ^ 24) | _ => true) = true ∧
        (x.1.pulls.map fun p => match p with | .over c => c | _ => none) = [some 0])) = some true := by decide +kernel
    cases hr : Relay.run env Relay.init relayed with
    | none => rw [hr] at h; simp at h
    | some x =>
      rw [hr] at h
      simp only [Option.map_some, Option.some.injEq, decide_eq_true_eq] at h
      refine ⟨x.1, x.2, rfl, fitsFlv_of_all h.2.2.1, .inr ?_, h.1, h.2.1⟩
      have h4 := h.2.2.2
      cases hp : x.1.pulls with
      | nil => rw [hp] at h4; simp at h4
      | cons p ps =>
        rw [hp] at h4
        simp only [List.map_cons, List.cons.injEq] at h4
        cases p <;> simp_all

theorem none_of {α : Type} {x : Option α} (h : x.isNone = true) : x = none := by cases x <;> simp_all

/-- **C89**, any HTTP client of an edge host can crash the server with one request: it asks for an extension that the server does not know, of a stream that the
upstream server answers for. -/
theorem C89_negation_extension : (Relay.run env Relay.init [.sys (.request (view "/live/x.mp4")) none]).isSome ∧
    Relay.run env Relay.init [.sys (.request (view "/live/x.mp4")) none, .answer 0 upstream (List.replicate 64 0)] = none :=
  ⟨by decide +kernel, none_of (by decide +kernel)⟩

/-- **C89**, any RTMP player of an edge host crashes the server, if the upstream server is there: what it asks for is pulled over RTMP, and the RTMP
protocol has no response object. -/
theorem C89_negation_rtmp : let u := Names.rtmp Names.readUrl { hook := {}, url := ascii "rtmp://a.com/live/x", playing := true, publishing := false }
    (u.map fun u => (Edge.target Names.readUrl edgeHost u).map fun u => u.schema) = some (some (ascii "rtmp")) ∧
    Relay.run env Relay.init [.sys (.other (.edgeRequest (ascii "a.com/live/x"))) (u.bind fun u => Edge.target Names.readUrl edgeHost u),
      .answer 0 (.opened 0 false (-1) { evs := [], closed := 1 }) (List.replicate 64 0)] = none :=
  ⟨by decide +kernel, none_of (by decide +kernel)⟩

end Sps.RelayProps
