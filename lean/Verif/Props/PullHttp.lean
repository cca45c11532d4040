import Verif.Props.EdgeLive
/-!
# C90: pulls from any HTTP server
-/
namespace Sps.PullHttp
open Spec Spec.Http Spec.HttpConn Spec.Edge StreamProps World EdgeLive

/-- What the HTTP client makes of an answer whose body has its length before it or is in chunks. -/
theorem get_reply {p : Parsers} (hp : Reads p) {r : Reply} (ok : r.Ok) (u : Url) {up : Io} {t : List UInt8} {closed : Err} (harr : Arrives up (r.text ++ t) closed) :
    ∃ ch cl io, Answer.get p u (.up [] up) = some (.opened r.status ch cl io) ∧ BodyArrives ch cl io r.body.content Err.ERROR_HTTP_RES_EOF := by
  have hw : ({ out := [], fails := [] } : Sink).write (HttpClient.openText u) = (Err.SUCCESS, { out := [] ++ HttpClient.openText u, fails := [] }) := rfl
  rw [show r.text ++ t = head (r.first :: r.fields.map line) ++ (r.body.text ++ t) by unfold Reply.text Reply.head; rw [List.append_assoc]] at harr
  obtain ⟨x, io, h1, h2, -⟩ := C42_exact 2048 (r.first :: r.fields.map line) (by simp) (Sps.HttpConn.reply_lines ok) _ up closed harr
  obtain ⟨rfl, h3⟩ := h2 ok.short
  have hr := hp.rsp r ok
  unfold Reply.head at hr
  have hne : (Http.head (r.first :: r.fields.map line)).length ≠ 0 := by
    simp [Http.head, crlf]
  have hg : Answer.get p u (.up [] up) = some (.opened r.found.status.toNat r.found.chunked r.found.cl io) := by
    unfold Answer.get HttpClient.open
    simp only [hw, ne_eq, not_true_eq_false, if_false]
    rw [h1]
    simp only [hr, if_neg hne]
  refine ⟨r.found.chunked, r.found.cl, io, ?_, ?_⟩
  · rw [hg]
    unfold Reply.found
    cases r.body <;> rfl
  · have hb := ok.body
    unfold Reply.found
    cases hbd : r.body with
    | sized ds b =>
      rw [hbd] at hb h3
      exact .length hb.1 hb.2.1 h3
    | coded cs z =>
      rw [hbd] at hb h3
      exact .chunks _ hb h3

variable {env : Relay.Env} {p : Parsers} {u : Url} {up : Io} {t : List UInt8} {closed : Err} {mem : List UInt8} {ops : List Relay.Op} {r : Relay} {L : Log} {e cid : Nat} {a : Reply}

/-- **C90** (any HTTP server). Whatever HTTP server answers a pull, with a body that has its length before it or is in chunks: a stream is made of it only if the status is 200, and then of the packets at the
beginning of the FLV file in the body, each once and in order, however the answer arrives, whatever comes behind it and whatever else goes on. When the pull is over, it is all that can be read of the file. -/
theorem C90_http_server (hp : Pulling env p u up mem ops r L e cid) (hr : Reads p) (ok : a.Ok) (harr : Arrives up (a.text ++ t) closed) :
    a.status = 200 ∧ (∃ n, publishedTo cid L = (Flv.file mem.length Err.ERROR_HTTP_RES_EOF n a.body.content).1) ∧
      (r.pulls[e]? = some (.over (some cid)) → ∃ n0, ∀ n, n0 ≤ n → publishedTo cid L = (Flv.file mem.length Err.ERROR_HTTP_RES_EOF n a.body.content).1) := by
  obtain ⟨ch, cl, io, h1, h2⟩ := get_reply hr ok u harr
  obtain ⟨ch', cl', io', h3, h4⟩ := hp.answered
  rw [h1] at h3
  simp only [Option.some.injEq, Answer.opened.injEq] at h3
  obtain ⟨hs, rfl, rfl, rfl⟩ := h3
  exact ⟨hs, (RelayProps.C90_relayed hp.ok hp.buffers hp.run hp.fits hp.feeds h4 (.inl h2)).2, fun ho => RelayProps.C90_complete hp.ok hp.buffers hp.run hp.fits ho h4 (.inl h2)⟩

/-- **C90** (any HTTP server), for a file of packets that FLV can carry: the stream of the pull is made of the first of them, and of all when the pull is over. -/
theorem C90_http_packets (hp : Pulling env p u up mem ops r L e cid) (hr : Reads p) (ok : a.Ok) (harr : Arrives up (a.text ++ t) closed)
    (ps : List AVPkt) (hs : ∀ x ∈ ps, Flv.Supported mem.length (Flv.wire x)) (hbody : a.body.content = Flv.fileHeader ++ Flv.chain 0 ps) :
    publishedTo cid L <+: ps.map Flv.wire ∧ (r.pulls[e]? = some (.over (some cid)) → publishedTo cid L = ps.map Flv.wire) := by
  obtain ⟨-, ⟨n, h2⟩, h3⟩ := C90_http_server hp hr ok harr
  have hA : SourceProps.Arrived Flv.fileHeader (ps.map Flv.wire) a.body.content ps.length := by
    have e : SourceProps.flvFile Flv.fileHeader (ps.map Flv.wire) = a.body.content := by
      unfold SourceProps.flvFile
      rw [FlvProps.chain_wire, hbody]
    refine ⟨by rw [e]; exact List.prefix_refl _, by simp, ?_, fun hlt => absurd hlt (by simp)⟩
    rw [List.take_of_length_le (by simp), e]
  have hs' : ∀ x ∈ ps.map Flv.wire, Flv.Supported mem.length x := by
    intro x hx
    obtain ⟨y, hy, rfl⟩ := List.mem_map.1 hx
    exact hs y hy
  have hcut := SourceProps.file_cut (cap := mem.length) (closed := Err.ERROR_HTTP_RES_EOF) rfl rfl hs' hA
  refine ⟨?_, fun ho => ?_⟩
  · rw [h2, hbody]
    refine (file_back _ _ n _ _ ?_ (List.prefix_refl _)).trans ?_
    · exact fun x hx => by
        have := (hs x hx).fits.2
        rwa [FlvProps.wire_body] at this
    · rw [List.map_congr_left (g := Flv.wire) fun x hx => ?_]
      · exact List.prefix_refl _
      · have hf := (hs x hx).format
        have hst := FlvProps.wire_stream x
        have he : ∀ w : AVPkt, w.stream = .audio ∨ w.stream = .video ∨ w.stream = .subtitle → x.stream = w.stream →
            { w with stream := match x.stream with | .audio => .audio | .video => .video | _ => .subtitle } = w := by
          intro w hw hx
          rw [hx]
          rcases hw with hw | hw | hw <;> rw [hw] <;> cases w <;> simp_all
        refine he _ ?_ hst.symm
        rcases hf with h | h | h
        · exact .inl h.1
        · exact .inr (.inl h.1)
        · exact .inr (.inr h.1)
  · obtain ⟨n0, h4⟩ := h3 ho
    rw [h4 _ (Nat.le_max_left n0 (ps.length + 1)), hcut _ (by omega)]
    exact List.take_of_length_le (by simp)

/-! ## Example: an FLV file in two chunks, from a server that keeps the connection open -/

def chunks : List (List UInt8) := [(Flv.fileHeader ++ Flv.chain 0 ServeProps.pkts).take 20, (Flv.fileHeader ++ Flv.chain 0 ServeProps.pkts).drop 20]
def reply : Reply := { status := 200, digits := ascii "200", phrase := ascii "OK", before := [(ascii "Server", ascii "other")], body := .coded (HttpRsp.hexed chunks) (Text.hex 0) }

theorem reply_ok : reply.Ok := by
  refine ⟨by decide, by decide +kernel, ?_, ?_, HttpRsp.hexed_ok _ (by decide +kernel), by decide +kernel⟩
  · unfold valueOk Names.graph; decide +kernel
  · unfold plain nameOk valueOk Names.letter Names.graph; decide +kernel

/-- How the answer arrives: with bytes of another behind it. -/
def upstream : Io := { evs := [.data (reply.text.take 50), .data (reply.text.drop 50 ++ ascii "HTTP/1.1 4")], closed := Err.ERROR_SOCKET_CLOSED }
def gotten : Answer := (Answer.get HttpConn.readers pullUrl (.up [] upstream)).getD .failed
def pullOps : List Relay.Op := [.sys (.request edgeReq) none, .answer 0 gotten (List.replicate 64 0), .pass 0, .pass 0, .pass 0, .pass 0, .pass 0]

/-- The hypotheses are met, and the stream is made of the packets of the file. -/
example : Reads HttpConn.readers ∧ Arrives upstream (reply.text ++ ascii "HTTP/1.1 4") Err.ERROR_SOCKET_CLOSED ∧ reply.body.content = Flv.fileHeader ++ Flv.chain 0 ServeProps.pkts ∧
    (∀ x ∈ ServeProps.pkts, Flv.Supported (List.replicate 64 (0 : UInt8)).length (Flv.wire x)) ∧
    ∃ r L, Pulling RelayProps.env HttpConn.readers pullUrl upstream (List.replicate 64 0) pullOps r L 0 0 ∧ r.pulls[0]? = some (.over (some 0)) ∧ publishedTo 0 L = ServeProps.pkts := by
  refine ⟨HttpConn.reads_readers, ⟨by decide +kernel, by decide +kernel, by decide +kernel, rfl⟩, by decide +kernel, supported, ?_⟩
  have k : ((Relay.run RelayProps.env Relay.init pullOps).map fun x => decide (publishedTo 0 x.2 = ServeProps.pkts ∧
      (x.2.all fun x => match x.1 with | .put _ p => decide ((Flv.body p).length < 2 ^ 24) | _ => true) = true ∧
      (x.1.pulls.map fun p => match p with | .over c => c | _ => none) = [some 0])) = some true := by decide +kernel
  cases hr2 : Relay.run RelayProps.env Relay.init pullOps with
  | none => rw [hr2] at k; simp at k
  | some z =>
  rw [hr2] at k
  simp only [Option.map_some, Option.some.injEq, decide_eq_true_eq] at k
  obtain ⟨k2, k3, k4⟩ := k
  have hover : z.1.pulls[0]? = some (.over (some 0)) := by
    cases hp : z.1.pulls with
    | nil => rw [hp] at k4; simp at k4
    | cons p ps =>
      rw [hp] at k4
      simp only [List.map_cons, List.cons.injEq] at k4
      cases p <;> simp_all
  refine ⟨z.1, z.2, ⟨readsOpen_readers, ?_, ?_, hr2, ServeProps.fitsFlv_of_all k3, .inr hover, ?_⟩, hover, k2⟩
  · intro q hq
    simp [requestsIn, pullOps] at hq
    rw [hq]
    exact req_ok arrive_asks.1
  · intro e a mem hm
    simp [pullOps] at hm
    rw [hm.2.2]
    decide +kernel
  · intro a m hm
    simp [pullOps] at hm
    obtain ⟨h1, h2⟩ := hm
    rw [h1]
    refine ⟨?_, h2⟩
    obtain ⟨ch, cl, io, hg, -⟩ := get_reply HttpConn.reads_readers reply_ok pullUrl (up := upstream) (t := ascii "HTTP/1.1 4") (closed := Err.ERROR_SOCKET_CLOSED) ⟨by decide +kernel, by decide +kernel, by decide +kernel, rfl⟩
    unfold gotten
    rw [hg]
    rfl

end Sps.PullHttp
