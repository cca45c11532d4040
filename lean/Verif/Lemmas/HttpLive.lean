import Verif.Spec.HttpLive
import Verif.Lemmas.HttpReaders
import Verif.Props.RtmpConn
/-! # Lemmas about requests with a body -/
namespace Sps.HttpLive
open Spec Spec.Http Spec.Names Spec.HttpConn Spec.HttpLive Sps.HttpConn

theorem lookup_filter (k : Text) (P : Header → Bool) (h : ∀ f : Header, f.1 = k → P f = true) : ∀ fs : List Header, Url.lookup k fs = Url.lookup k (fs.filter P)
  | [] => rfl
  | f :: fs => by
    have ih := lookup_filter k P h fs
    by_cases hf : f.1 = k
    · rw [List.filter_cons_of_pos (h f hf)]
      simp only [Url.lookup, if_pos hf]
    · by_cases hp : P f = true
      · rw [List.filter_cons_of_pos hp]
        simp only [Url.lookup, if_neg hf, ih]
      · rw [List.filter_cons_of_neg hp]
        simp only [Url.lookup, if_neg hf, ih]

/-- What the fields say. -/
theorem send_fields {a : Send} (ok : a.Ok) :
    Url.lookup (ascii "Host") a.fields = a.host ++ opt 58 a.port ∧
      Url.lookup (ascii "Transfer-Encoding") a.fields = Url.lookup (ascii "Transfer-Encoding") a.bodyField ∧
      Url.lookup (ascii "Content-Length") a.fields = Url.lookup (ascii "Content-Length") a.bodyField := by
  have hl : ∀ k ∈ [ascii "Host", ascii "Transfer-Encoding", ascii "Content-Length"], lower k ∈ routing := by decide +kernel
  have hb : ∀ f ∈ a.bodyField, f.1 ≠ ascii "Host" := by
    intro f hf
    unfold Send.bodyField at hf
    cases hb : a.body with
    | none => rw [hb] at hf; simp at hf
    | some b =>
      rw [hb] at hf
      cases b <;> (simp [Body.field] at hf; subst hf; simp only; decide +kernel)
  have n1 : ¬ ascii "Host" = ascii "Transfer-Encoding" := by decide +kernel
  have n2 : ¬ ascii "Host" = ascii "Content-Length" := by decide +kernel
  have hap : ∀ (k : Text), ¬ ascii "Host" = k → ∀ l : List Header, Url.lookup k (l ++ [(ascii "Host", a.host ++ opt 58 a.port)]) = Url.lookup k l := by
    intro k hk l
    induction l with
    | nil => simp [Url.lookup, hk]
    | cons f l ih => simp only [List.cons_append, Url.lookup, ih]
  refine ⟨?_, ?_, ?_⟩
  · rw [lookup_filter _ (fun f => lower f.1 ∈ routing) (fun f hf => by rw [hf]; exact decide_eq_true (hl _ (by simp)))]
    rcases ok.once with h | h <;> rw [h]
    · simp [Url.lookup]
    · exact Url.lookup_first (ascii "Host") _ [] a.bodyField hb
  · rw [lookup_filter _ (fun f => lower f.1 ∈ routing) (fun f hf => by rw [hf]; exact decide_eq_true (hl _ (by simp)))]
    rcases ok.once with h | h <;> rw [h]
    · simp only [Url.lookup, if_neg n1]
    · exact hap _ n1 _
  · rw [lookup_filter _ (fun f => lower f.1 ∈ routing) (fun f hf => by rw [hf]; exact decide_eq_true (hl _ (by simp)))]
    rcases ok.once with h | h <;> rw [h]
    · simp only [Url.lookup, if_neg n2]
    · exact hap _ n2 _

theorem method_ne {a : Send} (ok : a.Ok) : a.method ≠ [] := by
  intro h
  have := ok.method
  rw [h] at this
  revert this
  decide +kernel

/-- The request the context gets. -/
theorem send_url {p : Parsers} (hp : ReadsSends p) {a : Send} (ok : a.Ok) :
    ∃ u, Names.http p.url a.method a.target a.fields = u ∧ u.host = a.host ∧ u.method = a.method ∧ u.headers = a.fields := by
  have hl := (send_fields ok).1
  have e : ascii "http://" ++ (a.host ++ opt 58 a.port) ++ a.target = Parts.text ⟨ascii "http", a.host, a.port, a.path, a.query⟩ := by
    have h1 : ascii "http://" = ascii "http" ++ ascii "://" := by decide
    rw [h1]
    simp [Parts.text, Send.target]
  have hok : Parts.Ok ⟨ascii "http", a.host, a.port, a.path, a.query⟩ := ⟨Names.schema_http.1, ok.host, ok.port, ok.path, ok.query⟩
  have hh : a.host ++ opt 58 a.port ≠ [] := fun h => ok.host.1 (List.append_eq_nil_iff.1 h).1
  refine ⟨_, rfl, ?_⟩
  unfold Names.http
  simp only [hl, ne_eq, hh, not_false_eq_true, if_true]
  rw [e]
  unfold Names.parseUrl
  rw [hp.url _ hok, Option.bind_some]
  unfold Url.parse
  have hs : ¬ (Parts.fields ⟨ascii "http", a.host, a.port, a.path, a.query⟩).schema.getD ([] : Text) = ascii "file" := by
    show ¬ ascii "http" = ascii "file"
    decide
  simp only [if_neg hs]
  refine ⟨rfl, ?_, rfl⟩
  simp only [Option.getD_some, if_neg (method_ne ok)]

theorem send_target {a : Send} (ok : a.Ok) : ∀ b ∈ a.target, graph b := by
  intro b hb
  unfold Send.target at hb
  rcases List.mem_append.1 hb with hb | hb
  · exact (ok.path.2 b hb).1
  · cases hq : a.query with
    | none => rw [hq] at hb; simp [opt] at hb
    | some q =>
      rw [hq] at hb
      rcases List.mem_cons.1 hb with rfl | hb
      · unfold graph; decide
      · exact ((ok.query q hq).2 b hb).1

theorem send_method {a : Send} (ok : a.Ok) : ∀ b ∈ a.method, graph b := by
  have : ∀ m ∈ [ascii "GET", ascii "POST", ascii "PUT", ascii "DELETE", ascii "OPTIONS"], ∀ b ∈ m, graph b := by unfold graph; decide +kernel
  exact this _ ok.method

theorem send_first {a : Send} (ok : a.Ok) : lineOk a.first := by
  refine lineOk_of ?_ ?_
  · unfold Send.first
    intro h0
    simp only [List.append_eq_nil_iff] at h0
    exact method_ne ok h0.1.1.1
  · intro b hb
    unfold Send.first at hb
    simp only [List.mem_append] at hb
    have h1 : ∀ b ∈ ascii " HTTP/1.1", graph b ∨ b = 32 := by unfold graph; decide +kernel
    have h2 : ∀ b ∈ ascii " ", graph b ∨ b = 32 := by unfold graph; decide +kernel
    rcases hb with ((hb | hb) | hb) | hb
    · exact .inl (send_method ok b hb)
    · exact h2 b hb
    · exact .inl (send_target ok b hb)
    · exact h1 b hb

theorem field_line {f : Header} (h1 : nameOk f.1) (h2 : valueOk f.2) : lineOk (line f) := by
  refine lineOk_of ?_ ?_
  · unfold line
    intro h0
    simp only [List.append_eq_nil_iff] at h0
    exact h1.1 h0.1.1
  · intro b hb
    unfold line at hb
    simp only [List.mem_append] at hb
    have h3 : ∀ b ∈ ascii ": ", graph b ∨ b = 32 := by unfold graph; decide +kernel
    rcases hb with (hb | hb) | hb
    · exact .inl (name_chars h1 b hb)
    · exact h3 b hb
    · exact h2.2.1 b hb

theorem send_lines {a : Send} (ok : a.Ok) : ∀ l ∈ a.first :: a.fields.map line, lineOk l := by
  intro l hl
  rcases List.mem_cons.1 hl with rfl | hl
  · exact send_first ok
  · obtain ⟨f, hf, rfl⟩ := List.mem_map.1 hl
    exact field_line (ok.fields f hf).1 (ok.fields f hf).2.1

/-- The parse phase on a request. -/
theorem parse_send {p : Parsers} (hp : ReadsSends p) {a : Send} (ok : a.Ok) {c : Sps.HttpConn} {rest : List UInt8} {cl : Err} (ha : Arrives c.io (a.head ++ rest) cl) :
    ∃ io', HttpSite.parse p c = .ok (Phase.CONTINUE, { c with io := io', req := some (Names.http p.url a.method a.target a.fields) }) ∧ Arrives io' rest cl := by
  obtain ⟨r, io', h1, h2, -⟩ := C42_exact 2048 (a.first :: a.fields.map line) (by simp) (send_lines ok) rest c.io cl ha
  obtain ⟨rfl, h3⟩ := h2 ok.short
  refine ⟨io', ?_, h3⟩
  unfold HttpSite.parse
  rw [h1]
  have h6 := hp.req a ok
  unfold Send.head at h6
  simp only [h6]
  rw [if_neg]
  simp [head, crlf]

/-- The parser of the examples reads these requests, too. -/
theorem readReq_send {a : Send} (ok : a.Ok) : readReq a.head = { count := a.head.length, method := a.method, target := a.target, headers := a.fields } := by
  have hn : ∀ f ∈ a.fields, ∀ b ∈ f.1, b ≠ 58 := by
    intro f hf b hb
    rcases (ok.fields f hf).1.2 b hb with h | h | rfl
    · rintro rfl; unfold letter at h; revert h; decide
    · rintro rfl; revert h; decide
    · decide
  have hm := send_method ok
  have ef : a.first = a.method ++ 32 :: (a.target ++ 32 :: ascii "HTTP/1.1") := by
    have h1 : ascii " HTTP/1.1" = 32 :: ascii "HTTP/1.1" := by decide +kernel
    have h2 : ascii " " = [32] := by decide +kernel
    simp [Send.first, h1, h2]
  have w1 := takeWhile_ne 32 a.method (a.target ++ 32 :: ascii "HTTP/1.1") (fun h => graph_ne (hm _ h) rfl)
  have w2 := takeWhile_ne 32 a.target (ascii "HTTP/1.1") (fun h => graph_ne (send_target ok _ h) rfl)
  have hc : (a.first.head?.map fun b => decide (65 ≤ b.toNat ∧ b.toNat ≤ 90)) = some true := by
    have : ∀ m ∈ [ascii "GET", ascii "POST", ascii "PUT", ascii "DELETE", ascii "OPTIONS"], (m.head?.map fun b => decide (65 ≤ b.toNat ∧ b.toNat ≤ 90)) = some true := by
      decide +kernel
    have h := this _ ok.method
    rw [ef]
    cases hme : a.method with
    | nil => exact absurd hme (method_ne ok)
    | cons b m => rw [hme] at h; simpa using h
  unfold readReq Send.head
  rw [linesOf_head _ (send_lines ok)]
  simp only [hc, if_true, fields_map _ hn]
  unfold word behind
  rw [ef, w1.1, w1.2, List.drop_one, List.tail_cons, w2.1]

theorem readsSends_readers : ReadsSends readers := ⟨Names.readsUrls_readUrl, fun _ ok => readReq_send ok⟩

/-- The body of a request that was handed to the stream handler. -/
theorem send_body {a : Send} (ok : a.Ok) {q : Req} (hq : q.url.headers = a.fields) {bytes b : List UInt8} {e closed : Err} (hb : a.Brings bytes e b closed) (ha : Arrives q.io bytes e) :
    Sends q b closed := by
  obtain ⟨-, h1, h2⟩ := send_fields ok
  have hch : q.url.isChunked = (Url.lookup (ascii "Transfer-Encoding") a.bodyField == ascii "chunked") := by
    unfold Url.isChunked Url.getHeader; rw [hq, h1]
  have hcl : q.url.getHeader (ascii "Content-Length") = Url.lookup (ascii "Content-Length") a.bodyField := by unfold Url.getHeader; rw [hq, h2]
  have sized : ∀ {ds bs : List UInt8}, a.body = some (.sized ds bs) → Body.Ok (.sized ds bs) → q.url.isChunked = false ∧ q.url.contentLength = bs.length := by
    intro ds bs hbody hok
    unfold Send.bodyField at hch hcl
    rw [hbody] at hch hcl
    have e1 : q.url.isChunked = false := by
      rw [hch]
      simp only [Option.map_some, Option.toList_some, Body.field]
      rw [show Url.lookup (ascii "Transfer-Encoding") [(ascii "Content-Length", ds)] = [] by
        simp only [Url.lookup]; rw [if_neg (by decide +kernel)]]
      decide +kernel
    have e2 : q.url.getHeader (ascii "Content-Length") = ds := by
      rw [hcl]
      simp [Url.lookup, Body.field]
    obtain ⟨o1, o2, o3, o4⟩ := hok
    exact ⟨e1, (C46_derived q.url).2.2 bs.length (by rw [e2]; exact o3) (by rw [e2]; exact o4) o2⟩
  have chunked : ∀ {cs : List (List UInt8 × List UInt8)} {z : List UInt8}, a.body = some (.coded cs z) → q.url.isChunked = true := by
    intro cs z hbody
    unfold Send.bodyField at hch hcl
    rw [hbody] at hch hcl
    rw [hch]
    simp [Url.lookup, Body.field]
  unfold Sends
  cases hb with
  | @cut ds bs part _ hbody hok hp hne =>
    obtain ⟨e1, e3⟩ := sized hbody hok
    obtain ⟨o1, o2, o3, o4⟩ := hok
    rw [e1, e3]
    refine .inr (.length o2 ?_ ha)
    rcases Nat.lt_or_ge bytes.length bs.length with h | h
    · exact h
    · exact absurd (hp.eq_of_length_le h) hne
  | @cutLine done rest l d z p _ hbody hok hp =>
    rw [chunked hbody]
    obtain ⟨o1, o2, o3⟩ := hok
    have o4 := o1 (l, d) (by simp)
    exact .inr (.line _ (fun c hc => o1 c (by simp [hc])) o4.2.1 o4.2.2.1 hp ha)
  | @cutData done rest l d z p _ hbody hok hp hne =>
    rw [chunked hbody]
    obtain ⟨o1, o2, o3⟩ := hok
    have o4 := o1 (l, d) (by simp)
    refine .inr (.data _ (fun c hc => o1 c (by simp [hc])) o4.2.1 o4.2.2.1 o4.2.2.2 ?_ ha)
    rcases Nat.lt_or_ge p.length d.length with h | h
    · exact h
    · exact absurd (hp.eq_of_length_le h) hne
  | @cutLast cs z p _ hbody hok hp =>
    rw [chunked hbody]
    obtain ⟨o1, o2, o3⟩ := hok
    exact .inr (.line _ o1 o2 o3 hp ha)
  | @framed body t _ hbody hok =>
    cases body with
    | sized ds bs =>
      obtain ⟨e1, e3⟩ := sized hbody hok
      obtain ⟨o1, o2, o3, o4⟩ := hok
      rw [e1, e3]
      exact .inl (.length o1 o2 ha)
    | coded cs z =>
      rw [chunked hbody]
      exact .inl (.chunks _ hok ha)
  | all hbody =>
    unfold Send.bodyField at hch hcl
    rw [hbody] at hch hcl
    have e1 : q.url.isChunked = false := by rw [hch]; decide +kernel
    have e2 : q.url.contentLength = -1 := (C46_derived q.url).2.1 hcl
    rw [e1, e2]
    exact .inl (.close (by decide) ha)

end Sps.HttpLive
