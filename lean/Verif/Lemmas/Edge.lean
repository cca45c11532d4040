import Verif.Spec.Edge
import Verif.Lemmas.HttpLive
import Verif.Props.Source
import Verif.Props.Relay
/-! # Lemmas about an edge server and the server it pulls from -/
namespace Sps.EdgeLive
open FlvDemuxer FlvProps Spec Spec.Http Spec.Names Spec.HttpConn Spec.HttpLive Spec.Edge

/-! ## Tags -/

/-- A tag that the reader accepts is read back. -/
theorem judge_back {p q : AVPkt} (h : Flv.judge (Flv.typeOf p.stream) (Flv.bits 32 p.dts) (Flv.body p) = .accept q) : q = back p := by
  have hb : ∀ x : Int, (UInt8.ofNat (Flv.bits 8 x)).toNat = Flv.bits 8 x := by
    intro x
    have := FlvMuxer.bits_lt 8 x
    simpa using this
  have script : ∀ st : StreamType, Flv.judge 18 (Flv.bits 32 p.dts) p.payload = .accept q →
      q = { stream := .subtitle, payload := p.payload, dts := Flv.bits 32 p.dts, pts := 0, pktType := 0, flags := 0, codec := 0 } := by
    intro st h
    unfold Flv.judge at h
    rw [if_neg (by decide), if_neg (by decide), if_pos rfl] at h
    split at h
    · simp at h
    · simp only [Flv.Verdict.accept.injEq] at h
      exact h.symm
  obtain ⟨msg, stream, pktType, payload, dts, pts, flags, codec⟩ := p
  cases stream with
  | audio =>
    simp only [Flv.typeOf, Flv.body, Flv.judge, if_true, be1, List.cons_append, List.nil_append, hb] at h
    split at h
    · simp at h
    · rename_i hc
      split at h
      · rename_i heq; simp at heq
      · simp at h
      · rename_i heq
        simp only [List.cons.injEq] at heq
        obtain ⟨rfl, rfl⟩ := heq
        simp only [Flv.Verdict.accept.injEq] at h
        rw [← h]
        simp only [back, Flv.wire, hb]
        have : Flv.bits 8 flags / 16 = 10 := Decidable.not_not.1 hc
        rw [this]
        rfl
  | video =>
    by_cases hcm : Flv.isCommand (Flv.bits 8 flags) = true
    · simp only [Flv.typeOf, Flv.body, Flv.judge, if_true, be1, List.cons_append, List.nil_append, hb, hcm] at h
      rw [if_neg (by decide)] at h
      split at h
      · simp at h
      · split at h
        · simp at h
        · simp only [Flv.Verdict.accept.injEq] at h
          rw [← h]
          simp only [back, Flv.wire, hcm, if_true]
    · have e3 : beBytes 3 (Flv.bits 24 (pts - dts)) =
          [UInt8.ofNat (Flv.bits 24 (pts - dts) / 256 ^ 2), UInt8.ofNat (Flv.bits 24 (pts - dts) / 256 ^ 1),
           UInt8.ofNat (Flv.bits 24 (pts - dts) / 256 ^ 0)] := by simp [beBytes]
      have e4 : beVal (beBytes 3 (Flv.bits 24 (pts - dts))) = Flv.bits 24 (pts - dts) := by
        rw [beVal_beBytes, Nat.mod_eq_of_lt (by have := FlvMuxer.bits_lt 24 (pts - dts); omega)]
      simp only [Flv.typeOf, Flv.body, Flv.judge, if_true, be1, List.cons_append, List.nil_append, hb, if_neg hcm] at h
      rw [if_neg (by decide)] at h
      rw [e3] at h e4
      split at h
      · simp at h
      · split at h
        · rename_i heq
          simp only [List.cons_append, List.nil_append, List.cons.injEq] at heq
          obtain ⟨rfl, rfl, rfl, rfl, rfl⟩ := heq
          split at h
          · simp at h
          · simp only [Flv.Verdict.accept.injEq] at h
            rw [← h, e4]
            simp only [back, Flv.wire, if_neg hcm, hb]
        · simp at h
  | subtitle => exact script .subtitle h
  | data => exact script .subtitle h
  | psi => exact script .subtitle h
  | pes => exact script .subtitle h
  | nb => exact script .subtitle h

/-- A packet that the reader supports comes back as it was written. -/
theorem back_wire {cap : Nat} {p : AVPkt} (h : Flv.Supported cap (Flv.wire p)) : back p = Flv.wire p := by
  have hst := wire_stream p
  have key : ∀ (q : AVPkt) (s : StreamType), q.stream = s → { q with stream := s } = q := by
    rintro q s rfl
    rfl
  unfold back
  rcases h.format with ⟨h, _⟩ | ⟨h, _⟩ | ⟨h, _⟩
  · rw [← hst, h]
    exact key _ _ h
  · rw [← hst, h]
    exact key _ _ h
  · rw [← hst, h]
    exact key _ _ h

/-- Whatever part of a chain of tags arrives, and whatever the size of the buffer: the packets read are the first ones, read back. -/
theorem packets_back (cap : Nat) (closed : Err) : ∀ (n : Nat) (ps : List AVPkt) (prev : Nat) (part : List UInt8), (∀ p ∈ ps, (Flv.body p).length < 2 ^ 24) →
    part <+: Flv.chain prev ps → (Flv.packets cap closed n part).1 <+: ps.map back
  | 0, ps, prev, part, _, _ => by simp [Flv.packets]
  | n + 1, [], prev, part, _, hp => by
    have : part = [] := List.prefix_nil.1 hp
    subst this
    simp [Flv.packets, Flv.firstTag]
  | n + 1, p :: ps, prev, part, hs, hp => by
    have hlen := hs p (List.mem_cons_self ..)
    have hty : Flv.typeOf p.stream < 256 := by unfold Flv.typeOf; split <;> omega
    have htl : (Flv.tag prev (Flv.typeOf p.stream) (Flv.bits 32 p.dts) (Flv.body p)).length = 15 + (Flv.body p).length := by
      unfold Flv.tag; simp [beBytes_length]; omega
    unfold Flv.chain at hp
    by_cases hcap : cap < (Flv.body p).length
    · -- the buffer is too small, or the header of the tag is not there
      have : ∃ e, (Flv.firstTag cap closed part).1 = .reject e := by
        unfold Flv.firstTag
        by_cases h15 : part.length < 15
        · rw [if_pos h15]; exact ⟨_, rfl⟩
        · rw [if_neg h15]
          have e : (part.drop 5).take 3 = beBytes 3 (Flv.body p).length := by
            rw [List.prefix_iff_eq_take.1 hp, List.drop_take, List.take_take, Nat.min_eq_left (by omega)]
            unfold Flv.tag
            simp only [List.append_assoc, drop_be _ _ _ _ (show 4 ≤ 5 by omega), Nat.reduceSub, drop_be _ _ _ _ (show 1 ≤ 1 by omega), Nat.sub_self, List.drop_zero]
            rw [List.take_append_of_le_length (by simp [beBytes_length]), List.take_of_length_le (by simp [beBytes_length])]
          simp only [e]
          rw [beVal_beBytes, Nat.mod_eq_of_lt (by omega), if_pos hcap]
          exact ⟨_, rfl⟩
      obtain ⟨e, he⟩ := this
      rw [Flv.packets]
      rw [show Flv.firstTag cap closed part = (.reject e, (Flv.firstTag cap closed part).2) from Prod.ext he rfl]
      simp
    · by_cases hfull : (Flv.tag prev (Flv.typeOf p.stream) (Flv.bits 32 p.dts) (Flv.body p)).length ≤ part.length
      · obtain ⟨t, rfl⟩ : Flv.tag prev (Flv.typeOf p.stream) (Flv.bits 32 p.dts) (Flv.body p) <+: part :=
          List.prefix_of_prefix_length_le (List.prefix_append _ _) hp hfull
        have ht := (List.prefix_append_right_inj _).1 hp
        rw [Flv.packets, firstTag_tag _ _ _ _ _ _ _ hty (FlvMuxer.bits_lt 32 _) (by omega) hlen]
        cases hj : Flv.judge (Flv.typeOf p.stream) (Flv.bits 32 p.dts) (Flv.body p) with
        | accept q =>
          have := judge_back hj
          subst this
          simp only [List.map_cons]
          exact List.prefix_cons_inj .. |>.2 (packets_back cap closed n ps _ t (fun x hx => hs x (List.mem_cons_of_mem _ hx)) ht)
        | reject e => simp
        | tooShort es => simp
      · have hpre := List.prefix_of_prefix_length_le hp (List.prefix_append _ _) (Nat.le_of_lt (Nat.lt_of_not_le hfull))
        have := firstTag_cut cap closed prev _ _ _ part (by omega) hlen hpre (Nat.lt_of_not_le hfull)
        rw [Flv.packets]
        rw [show Flv.firstTag cap closed part = (.reject closed, (Flv.firstTag cap closed part).2) from Prod.ext this rfl]
        simp

/-- The same for a file. -/
theorem file_back (cap : Nat) (closed : Err) (n : Nat) (ps : List AVPkt) (part : List UInt8) (hs : ∀ p ∈ ps, (Flv.body p).length < 2 ^ 24)
    (hp : part <+: Flv.fileHeader ++ Flv.chain 0 ps) : (Flv.file cap closed n part).1 <+: ps.map back := by
  unfold Flv.file
  split
  · simp
  · rename_i h9
    split
    · simp
    · obtain ⟨t, rfl⟩ : Flv.fileHeader <+: part := List.prefix_of_prefix_length_le (List.prefix_append _ _) hp (by
        show 9 ≤ part.length
        omega)
      rw [show (Flv.fileHeader ++ t).drop 9 = t from rfl]
      exact packets_back cap closed n ps 0 t hs ((List.prefix_append_right_inj _).1 hp)

/-! ## The response -/

theorem open_lines {r : Open} (ok : r.Ok) : ∀ l ∈ r.first :: r.fields.map line, lineOk l := by
  have hdc : ∀ b ∈ r.digits, 48 ≤ b.toNat ∧ b.toNat ≤ 57 := Sps.HttpConn.dec_chars _ _ _ ok.digits.2
  intro l hl
  rcases List.mem_cons.1 hl with rfl | hl
  · refine Sps.HttpConn.lineOk_of ?_ ?_
    · unfold Open.first
      intro h0
      simp only [List.append_eq_nil_iff] at h0
      exact absurd h0.1.2 (by decide +kernel)
    · intro b hb
      unfold Open.first at hb
      simp only [List.mem_append] at hb
      have h1 : ∀ b ∈ ascii "HTTP/1.1 ", graph b ∨ b = 32 := by unfold graph; decide +kernel
      have h2 : ∀ b ∈ ascii " ", graph b ∨ b = 32 := by unfold graph; decide +kernel
      rcases hb with ((hb | hb) | hb) | hb
      · exact h1 b hb
      · have := hdc b hb
        left; unfold graph; omega
      · exact h2 b hb
      · exact ok.phrase.2.1 b hb
  · obtain ⟨f, hf, rfl⟩ := List.mem_map.1 hl
    exact Sps.HttpConn.plain_line (ok.fields f hf)

/-- `readers` reads such heads, too. -/
theorem readsOpen_readers : ReadsOpen Sps.HttpConn.readers := by
  refine ⟨Names.readsUrls_readUrl, fun r ok => ?_⟩
  have hdc : ∀ b ∈ r.digits, 48 ≤ b.toNat ∧ b.toNat ≤ 57 := Sps.HttpConn.dec_chars _ _ _ ok.digits.2
  have hn : ∀ f ∈ r.fields, ∀ b ∈ f.1, b ≠ 58 := fun f hf => Sps.HttpConn.plain_name (ok.fields f hf)
  have hnot : ∀ f ∈ r.fields, f.1 ≠ ascii "Content-Length" ∧ f.1 ≠ ascii "Transfer-Encoding" := by
    intro f hf
    have h := (ok.fields f hf).2.2
    constructor <;> (intro e; rw [e] at h; exact h (by decide +kernel))
  have ef : r.first = ascii "HTTP/1.1" ++ 32 :: (r.digits ++ 32 :: r.phrase) := by
    have h1 : ascii "HTTP/1.1 " = ascii "HTTP/1.1" ++ [32] := by decide +kernel
    have h2 : ascii " " = [32] := by decide +kernel
    simp [Open.first, h1, h2]
  have w1 := Sps.HttpConn.takeWhile_ne 32 (ascii "HTTP/1.1") (r.digits ++ 32 :: r.phrase) (by decide +kernel)
  have w2 := Sps.HttpConn.takeWhile_ne 32 r.digits r.phrase (fun h => absurd (hdc _ h) (by decide))
  have hst : Sps.HttpConn.word (Sps.HttpConn.behind r.first) = r.digits := by
    unfold Sps.HttpConn.word Sps.HttpConn.behind
    rw [ef, w1.2, List.drop_one, List.tail_cons, w2.1]
  have hh : r.first.head? = some 72 := by rw [ef]; rfl
  show Sps.HttpConn.readRsp r.head = _
  unfold Sps.HttpConn.readRsp Open.head
  rw [Sps.HttpConn.linesOf_head _ (open_lines ok)]
  have h1 : r.fields.find? (fun h => h.1 = ascii "Content-Length") = none := by
    rw [List.find?_eq_none]
    intro f hf
    simpa using (hnot f hf).1
  have h2 : (ascii "Transfer-Encoding", ascii "chunked") ∉ r.fields := fun hm => (hnot _ hm).2 rfl
  simp only [hh, if_true, Sps.HttpConn.fields_map _ hn, hst, ok.digits.2, Option.getD_some, h1, h2, decide_false]

/-- What the HTTP client makes of a response that ends with the connection: all of the head has to arrive. -/
theorem get_open {p : Parsers} (hp : ReadsOpen p) {r : Open} (ok : r.Ok) (u : Url) {up : Io} {sent rest : List UInt8} {closed : Err} (harr : Arrives up sent closed)
    (hs : sent <+: r.head ++ rest) {a : Answer} (ha : Answer.get p u (.up [] up) = some a) :
    a = .failed ∨ ∃ part io, sent = r.head ++ part ∧ part <+: rest ∧ a = .opened r.status false (-1) io ∧ Arrives io part closed := by
  have hw : ({ out := [], fails := [] } : Sink).write (HttpClient.openText u) = (Err.SUCCESS, { out := [] ++ HttpClient.openText u, fails := [] }) := rfl
  unfold Answer.get HttpClient.open at ha
  simp only [hw, ne_eq, not_true_eq_false, if_false] at ha
  by_cases hl : r.head.length ≤ sent.length
  · obtain ⟨part, rfl⟩ : r.head <+: sent := List.prefix_of_prefix_length_le (List.prefix_append _ _) hs hl
    obtain ⟨x, io, h1, h2, -⟩ := C42_exact 2048 (r.first :: r.fields.map line) (by simp) (open_lines ok) part up closed harr
    obtain ⟨rfl, h3⟩ := h2 ok.short
    rw [h1] at ha
    have hr := hp.rsp r ok
    unfold Open.head at hr
    have hne : (Http.head (r.first :: r.fields.map line)).length ≠ 0 := by
      simp [Http.head, crlf]
    simp only [hr, if_neg hne, Option.some.injEq] at ha
    exact .inr ⟨part, io, rfl, (List.prefix_append_right_inj _).1 hs, by rw [← ha]; rfl, h3⟩
  · obtain ⟨x, hx⟩ : sent <+: r.head := List.prefix_of_prefix_length_le hs (List.prefix_append _ _) (by omega)
    obtain ⟨io, h1⟩ := C42_cut 2048 (r.first :: r.fields.map line) (by simp) (open_lines ok) ok.short sent x (by
      rintro rfl
      rw [List.append_nil] at hx
      rw [hx] at hl
      exact hl (Nat.le_refl _)) hx.symm up closed harr
    rw [h1] at ha
    simp only [Option.some.injEq] at ha
    exact .inl ha.symm

/-- When all of the head has arrived there is an answer, with its status. -/
theorem get_full {p : Parsers} (hp : ReadsOpen p) {r : Open} (ok : r.Ok) (u : Url) {up : Io} {part : List UInt8} {closed : Err} (harr : Arrives up (r.head ++ part) closed) :
    ∃ io, Answer.get p u (.up [] up) = some (.opened r.status false (-1) io) ∧ Arrives io part closed := by
  have hw : ({ out := [], fails := [] } : Sink).write (HttpClient.openText u) = (Err.SUCCESS, { out := [] ++ HttpClient.openText u, fails := [] }) := rfl
  obtain ⟨x, io, h1, h2, -⟩ := C42_exact 2048 (r.first :: r.fields.map line) (by simp) (open_lines ok) part up closed harr
  obtain ⟨rfl, h3⟩ := h2 ok.short
  refine ⟨io, ?_, h3⟩
  unfold Answer.get HttpClient.open
  simp only [hw, ne_eq, not_true_eq_false, if_false]
  rw [h1]
  have hr := hp.rsp r ok
  unfold Open.head at hr
  have hne : (Http.head (r.first :: r.fields.map line)).length ≠ 0 := by
    simp [Http.head, crlf]
  simp only [hr, if_neg hne]
  rfl

/-- A header that the parser takes nothing of. -/
theorem get_mute {p : Parsers} (u : Url) {lines : List (List UInt8)} (hne : lines ≠ []) (hl : ∀ l ∈ lines, lineOk l) (hm : (Http.head lines).length ≤ 2048) (h0 : (p.rsp (Http.head lines)).1 = 0)
    {up : Io} {t : List UInt8} {closed : Err} (harr : Arrives up (Http.head lines ++ t) closed) : Answer.get p u (.up [] up) = some .mute := by
  have hw : ({ out := [], fails := [] } : Sink).write (HttpClient.openText u) = (Err.SUCCESS, { out := [] ++ HttpClient.openText u, fails := [] }) := rfl
  obtain ⟨x, io, h1, h2, -⟩ := C42_exact 2048 lines hne hl t up closed harr
  obtain ⟨rfl, h3⟩ := h2 hm
  unfold Answer.get HttpClient.open
  simp only [hw, ne_eq, not_true_eq_false, if_false]
  rw [h1]
  simp [h0]

/-- The head of a stream. -/
def okOpen (phrase : Text) : Open := { status := 200, digits := ascii "200", phrase := phrase, fields := [(ascii "Server", ascii "sps")] }

theorem okOpen_ok {phrase : Text} (h : valueOk phrase) (hl : phrase.length ≤ 2000) : (okOpen phrase).Ok := by
  refine ⟨by show 200 ≤ 200 ∧ 200 < 600 ∧ 200 ≠ 204 ∧ 200 ≠ 304; decide, by show (ascii "200").length = 3 ∧ decValue 0 (ascii "200") = some 200; decide +kernel, h, ?_, ?_⟩
  · intro f hf
    simp only [okOpen, List.mem_singleton] at hf
    subst hf
    unfold plain nameOk valueOk letter graph
    decide +kernel
  · have : (okOpen phrase).head.length = phrase.length + 30 := by
      simp only [Open.head, Open.first, okOpen, Http.head, crlf, List.map_cons, List.map_nil, line, List.flatMap_cons, List.flatMap_nil, List.length_append, List.length_cons, List.length_nil]
      have h1 : (ascii "HTTP/1.1 ").length = 9 := by decide +kernel
      have h2 : (ascii "200").length = 3 := by decide +kernel
      have h3 : (ascii " ").length = 1 := by decide +kernel
      have h4 : (ascii "Server").length = 6 := by decide +kernel
      have h5 : (ascii ": ").length = 2 := by decide +kernel
      have h6 : (ascii "sps").length = 3 := by decide +kernel
      omega
    omega

theorem okHead_open (reason : Int → Text) : okHead reason = (okOpen (reason 200)).head := by
  have h1 : ascii "HTTP/1.1 200 " = ascii "HTTP/1.1 " ++ ascii "200" ++ ascii " " := by decide +kernel
  have h2 : ascii "Server: sps" = ascii "Server" ++ ascii ": " ++ ascii "sps" := by decide +kernel
  unfold okHead
  rw [h1, h2]
  simp [Open.head, Open.first, okOpen, Http.head, crlf, line, CR, LF]

/-! ## The request -/

theorem parts_url {parser : Text → Option UrlFields} (hp : ReadsUrls parser) {x : Parts} (ok : x.Ok) (hs : x.schema ≠ ascii "file") (u : Url) (hu : u.params = []) :
    ∃ r, Names.parseUrl parser u x.text = some r ∧ r.schema = x.schema ∧ r.host = x.host ∧ r.path = x.path ∧ r.ext = (Text.afterLast 46 x.path).getD u.ext ∧ r.url = x.path ++ opt 63 x.query ∧
      r.headers = u.headers ∧ (u.method = [] → r.method = ascii "GET") := by
  unfold Names.parseUrl
  rw [hp x ok, Option.bind_some]
  have hs' : ¬ x.fields.schema.getD u.schema = ascii "file" := hs
  unfold Url.parse
  simp only [if_neg hs']
  refine ⟨_, rfl, rfl, rfl, rfl, rfl, ?_, rfl, fun h => by simp [h]⟩
  show x.path ++ _ = _
  cases hq : x.query with
  | none => simp [Parts.fields, hq, hu, opt]
  | some t =>
    have := (ok.query t hq).1
    simp [Parts.fields, hq, opt, this]

/-- The request of the player. -/
theorem send_url' {p : Parsers} (hp : ReadsSends p) {a : Send} (ok : a.Ok) :
    (Names.http p.url a.method a.target a.fields).schema = ascii "http" ∧ (Names.http p.url a.method a.target a.fields).url = a.target := by
  have hl := (HttpLive.send_fields ok).1
  have e : ascii "http://" ++ (a.host ++ opt 58 a.port) ++ a.target = Parts.text ⟨ascii "http", a.host, a.port, a.path, a.query⟩ := by
    have h1 : ascii "http://" = ascii "http" ++ ascii "://" := by decide
    rw [h1]
    simp [Parts.text, Send.target]
  have hok : Parts.Ok ⟨ascii "http", a.host, a.port, a.path, a.query⟩ := ⟨Names.schema_http.1, ok.host, ok.port, ok.path, ok.query⟩
  have hh : a.host ++ opt 58 a.port ≠ [] := fun h => ok.host.1 (List.append_eq_nil_iff.1 h).1
  obtain ⟨r, h1, h2, -, -, -, h3, -⟩ := parts_url hp.url hok Names.schema_http.2 { method := a.method, headers := a.fields } rfl
  unfold Names.http
  simp only [hl, ne_eq, hh, not_false_eq_true, if_true]
  rw [e, h1]
  exact ⟨h2, h3⟩

theorem pulled_for {a : Send} {st : Names.Stream} (af : a.For st) {origin : Text} (ho : hostOk origin) (short : (pulled a origin).head.length ≤ 2048) :
    (pulled a origin).For ⟨origin, st.app, st.name⟩ := by
  have hv : valueOk origin := by
    refine ⟨ho.1, fun b hb => .inl ?_, ?_, ?_⟩
    · have := ho.2 b hb
      unfold hostChar letter at this
      unfold graph
      rcases this with h | h | rfl | rfl
      · omega
      · omega
      · decide
      · decide
    · intro h
      have := ho.2 32 (List.mem_of_mem_head? h)
      revert this
      unfold hostChar letter
      decide
    · intro h
      have := ho.2 32 (List.mem_of_getLast? h)
      revert this
      unfold hostChar letter
      decide
  refine ⟨⟨by show ascii "GET" ∈ _; decide +kernel, af.ok.path, af.ok.query, ho, by intro t h; simp [pulled] at h, ?_, .inl ?_, ?_, short⟩, ⟨ho, af.stream.app, af.stream.name⟩, rfl, af.path⟩
  · intro f hf
    simp only [pulled, List.mem_cons, List.not_mem_nil, or_false] at hf
    rcases hf with rfl | rfl | rfl
    · refine ⟨?_, hv, ?_⟩
      · show nameOk (ascii "Host"); unfold nameOk letter; decide +kernel
      · show lower (ascii "Host") ≠ _; decide +kernel
    · refine ⟨?_, ?_, ?_⟩
      · show nameOk (ascii "Accept"); unfold nameOk letter; decide +kernel
      · show valueOk (ascii "*/"); unfold valueOk graph; decide +kernel
      · show lower (ascii "Accept") ≠ _; decide +kernel
    · refine ⟨?_, ?_, ?_⟩
      · show nameOk (ascii "Content-Length"); unfold nameOk letter; decide +kernel
      · show valueOk (ascii "0"); unfold valueOk graph; decide +kernel
      · show lower (ascii "Content-Length") ≠ _; decide +kernel
  · have h1 : lower (ascii "Host") ∈ routing := by decide +kernel
    have h2 : lower (ascii "Accept") ∉ routing := by decide +kernel
    have h3 : lower (ascii "Content-Length") ∈ routing := by decide +kernel
    simp [pulled, h1, h2, h3, Send.bodyField, Body.field, opt]
  · intro b hb
    simp only [pulled, Option.some.injEq] at hb
    exact .inr hb.symm

/-- The URL of a pull, and what the HTTP client sends. -/
theorem target_pulled {parser : Text → Option UrlFields} (hp : ReadsUrls parser) {a : Send} {st : Names.Stream} (af : a.For st) {h : Conf.Module} {origin : Text} {port : Option Text}
    (hh : PullsFrom h origin port) {u : Url} (hs : u.schema = ascii "http") (hu : u.url = a.target) :
    ∃ v, Edge.target parser h u = some v ∧ v.schema = ascii "http" ∧ v.ext = ascii "flv" ∧ HttpClient.openText v = (pulled a origin).head := by
  have he := (C73_url_partial h u _ _ hh.proxy hh.url).1 rfl
  have e : Host.edgeUrl h u = Parts.text ⟨ascii "http", origin, port, a.path, a.query⟩ := by
    rw [he, hs, hu]
    simp [Parts.text, Send.target]
  have hok : Parts.Ok ⟨ascii "http", origin, port, a.path, a.query⟩ := ⟨Names.schema_http.1, hh.origin, hh.port, af.ok.path, af.ok.query⟩
  obtain ⟨r, h1, h2, h3, h4, h5, h6, h7, h8⟩ := parts_url hp hok Names.schema_http.2 {} rfl
  unfold Edge.target
  rw [e]
  refine ⟨r, h1, h2, ?_, ?_⟩
  · rw [h5, af.path]
    have h2 : ascii "." = [46] := by decide
    rw [h2, List.append_assoc, List.singleton_append]
    show (Text.afterLast 46 (st.path ++ 46 :: ascii "flv")).getD [] = _
    rw [Text.afterLast_at 46 _ _ (by decide)]
    rfl
  · unfold HttpClient.openText HttpClient.request
    rw [h6, h3, h7, h8 rfl]
    have x1 : ascii "Accept: */" = ascii "Accept" ++ ascii ": " ++ ascii "*/" := by decide +kernel
    have x2 : ascii "Content-Length: " ++ Text.dec ([] : Text).length = ascii "Content-Length" ++ ascii ": " ++ ascii "0" := by decide +kernel
    have x3 : ascii "Host: " = ascii "Host" ++ ascii ": " := by decide +kernel
    have x4 : Text.crlf = crlf := by decide
    simp only [List.append_assoc] at x2
    simp only [Send.head, Send.first, Send.target, pulled, Http.head, List.map_cons, List.map_nil, line, List.flatMap_cons, List.flatMap_nil, List.filter_nil, List.append_nil,
      x1, x3, x4, List.append_assoc, List.nil_append]
    simp only [← List.append_assoc (ascii "Content-Length: "), x2]
    simp only [List.append_assoc]

end Sps.EdgeLive
