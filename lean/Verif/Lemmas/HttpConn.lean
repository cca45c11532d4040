import Verif.Spec.HttpConn
import Verif.Lemmas.Names
import Verif.Lemmas.HttpWrite
import Verif.Props.Http
import Verif.Props.Server
/-! # Lemmas about HTTP connections -/
namespace Sps.HttpConn
open Spec Spec.Http Spec.Names Spec.HttpConn

/-- The request the context gets. -/
theorem ask_url {p : Parsers} (hp : Reads p) {a : Ask} (ok : a.Ok) :
    ∃ u, Names.http p.url a.method a.target a.fields = u ∧ u.schema = ascii "http" ∧ u.host = a.host ∧ u.method = a.method ∧ u.url = a.target ∧
      u.headers = a.fields := by
  have hne : ∀ f ∈ a.before ++ a.after, f.1 ≠ ascii "Host" := by
    intro f hf h
    have := (ok.fields f hf).2.2
    rw [h] at this
    exact this (by decide +kernel)
  have hl : Url.lookup (ascii "Host") a.fields = a.host ++ opt 58 a.port :=
    Url.lookup_first (ascii "Host") _ _ _ fun f hf => hne f (List.mem_append_left _ hf)
  have e : ascii "http://" ++ (a.host ++ opt 58 a.port) ++ a.target = Parts.text ⟨ascii "http", a.host, a.port, a.path, a.query⟩ := by
    have h1 : ascii "http://" = ascii "http" ++ ascii "://" := by decide
    rw [h1]
    simp [Parts.text, Ask.target]
  have hok : Parts.Ok ⟨ascii "http", a.host, a.port, a.path, a.query⟩ := ⟨Names.schema_http.1, ok.host, ok.port, ok.path, ok.query⟩
  have hh : a.host ++ opt 58 a.port ≠ [] := fun h => ok.host.1 (List.append_eq_nil_iff.1 h).1
  have hm : a.method ≠ [] := by
    intro h
    have := ok.method
    rw [h] at this
    revert this
    decide +kernel
  refine ⟨_, rfl, ?_⟩
  unfold Names.http
  simp only [hl, ne_eq, hh, not_false_eq_true, if_true]
  rw [e]
  unfold Names.parseUrl
  rw [hp.url _ hok, Option.bind_some]
  unfold Url.parse
  have hs : ¬ (Parts.fields ⟨ascii "http", a.host, a.port, a.path, a.query⟩).schema.getD ([] : Text) = ascii "file" := by
    show ¬ ascii "http" = ascii "file"
    decide
  simp only [if_neg hs]
  refine ⟨rfl, rfl, ?_, ?_, rfl⟩
  · simp only [Option.getD_some, if_neg hm]
  · simp only [Option.getD_some, Parts.fields, Ask.target]
    cases hq : a.query with
    | none => simp [opt]
    | some q =>
      have := (ok.query q hq).1
      simp [opt, this]

theorem lineOk_of {l : List UInt8} (h0 : l ≠ []) (h : ∀ b ∈ l, graph b ∨ b = 32) : lineOk l := by
  refine ⟨h0, fun b hb => ?_⟩
  rcases h b hb with h | rfl
  · unfold graph at h
    constructor <;> (rintro rfl; revert h; decide)
  · decide

theorem name_chars {t : Text} (h : nameOk t) : ∀ b ∈ t, graph b := by
  intro b hb
  rcases h.2 b hb with h | h | rfl
  · unfold letter at h; unfold graph; omega
  · unfold graph; omega
  · unfold graph; decide

theorem host_chars {t : Text} (h : hostOk t) : ∀ b ∈ t, graph b := by
  intro b hb
  rcases h.2 b hb with h | h | rfl | rfl
  · unfold letter at h; unfold graph; omega
  · unfold graph; omega
  · unfold graph; decide
  · unfold graph; decide

theorem dec_chars : ∀ (t : Text) (acc n : Nat), decValue acc t = some n → ∀ b ∈ t, 48 ≤ b.toNat ∧ b.toNat ≤ 57
  | [], _, _, _, b, hb => by simp at hb
  | c :: t, acc, n, h, b, hb => by
    unfold decValue at h
    cases hd : decDigit c with
    | none => rw [hd] at h; cases h
    | some d =>
      rw [hd] at h
      rcases List.mem_cons.1 hb with rfl | hb
      · have t : ∀ n : Fin 256, (decDigit (UInt8.ofNat n.val)).isSome → 48 ≤ (UInt8.ofNat n.val).toNat ∧ (UInt8.ofNat n.val).toNat ≤ 57 := by decide +kernel
        have := t ⟨b.toNat, b.toNat_lt⟩
        simp only [UInt8.ofNat_toNat] at this
        exact this (by rw [hd]; rfl)
      · exact dec_chars t _ _ h b hb

theorem port_chars {p : Option Text} (h : portOk p) : ∀ b ∈ opt 58 p, graph b := by
  intro b hb
  cases p with
  | none => simp [opt] at hb
  | some t =>
    obtain ⟨n, -, -, hn⟩ := h t rfl
    rcases List.mem_cons.1 hb with rfl | hb
    · unfold graph; decide
    · have := dec_chars t 0 n hn b hb
      unfold graph; omega

theorem plain_line {f : Header} (h : plain f) : lineOk (line f) := by
  refine lineOk_of (fun h0 => h.1.1 ?_) fun b hb => ?_
  · unfold line at h0
    simp only [List.append_eq_nil_iff] at h0
    exact h0.1.1
  · unfold line at hb
    simp only [List.mem_append] at hb
    rcases hb with (hb | hb) | hb
    · exact .inl (name_chars h.1 b hb)
    · have : ∀ b ∈ ascii ": ", graph b ∨ b = 32 := by unfold graph; decide +kernel
      exact this b hb
    · exact h.2.1.2.1 b hb

theorem target_chars {a : Ask} (ok : a.Ok) : ∀ b ∈ a.target, graph b := by
  intro b hb
  unfold Ask.target at hb
  rcases List.mem_append.1 hb with hb | hb
  · exact (ok.path.2 b hb).1
  · cases hq : a.query with
    | none => rw [hq] at hb; simp [opt] at hb
    | some q =>
      rw [hq] at hb
      rcases List.mem_cons.1 hb with rfl | hb
      · unfold graph; decide
      · exact ((ok.query q hq).2 b hb).1

theorem method_chars {a : Ask} (ok : a.Ok) : a.method ≠ [] ∧ ∀ b ∈ a.method, graph b := by
  have : ∀ m ∈ [ascii "GET", ascii "POST", ascii "PUT", ascii "DELETE", ascii "OPTIONS"], m ≠ [] ∧ ∀ b ∈ m, graph b := by unfold graph; decide +kernel
  exact this _ ok.method

theorem first_line {a : Ask} (ok : a.Ok) : lineOk a.first := by
  refine lineOk_of (fun h0 => (method_chars ok).1 ?_) fun b hb => ?_
  · unfold Ask.first at h0
    simp only [List.append_eq_nil_iff] at h0
    exact h0.1.1.1
  · unfold Ask.first at hb
    simp only [List.mem_append] at hb
    have h1 : ∀ b ∈ ascii " ", graph b ∨ b = 32 := by unfold graph; decide +kernel
    have h2 : ∀ b ∈ ascii " HTTP/1.1", graph b ∨ b = 32 := by unfold graph; decide +kernel
    rcases hb with ((hb | hb) | hb) | hb
    · exact .inl ((method_chars ok).2 b hb)
    · exact h1 b hb
    · exact .inl (target_chars ok b hb)
    · exact h2 b hb

theorem host_line {a : Ask} (ok : a.Ok) : lineOk (line a.hostField) := by
  refine lineOk_of (fun h0 => ?_) fun b hb => ?_
  · unfold line at h0
    simp only [List.append_eq_nil_iff] at h0
    exact absurd h0.1.2 (by decide +kernel)
  · unfold line Ask.hostField at hb
    simp only [List.mem_append] at hb
    have h1 : ∀ b ∈ ascii "Host", graph b ∨ b = 32 := by unfold graph; decide +kernel
    have h2 : ∀ b ∈ ascii ": ", graph b ∨ b = 32 := by unfold graph; decide +kernel
    rcases hb with (hb | hb) | hb | hb
    · exact h1 b hb
    · exact h2 b hb
    · exact .inl (host_chars ok.host b hb)
    · exact .inl (port_chars ok.port b hb)

theorem ask_lines {a : Ask} (ok : a.Ok) : ∀ l ∈ a.first :: a.fields.map line, lineOk l := by
  intro l hl
  rcases List.mem_cons.1 hl with rfl | hl
  · exact first_line ok
  · obtain ⟨f, hf, rfl⟩ := List.mem_map.1 hl
    rcases List.mem_append.1 hf with hf | hf
    · exact plain_line (ok.fields f (List.mem_append_left _ hf))
    · rcases List.mem_cons.1 hf with rfl | hf
      · exact host_line ok
      · exact plain_line (ok.fields f (List.mem_append_right _ hf))

/-- The parse phase on a request. -/
theorem parse_ask {p : Parsers} (hp : Reads p) {a : Ask} (ok : a.Ok) {c : Sps.HttpConn} {rest : List UInt8} {cl : Err} (ha : Arrives c.io (a.text ++ rest) cl) :
    ∃ u io', HttpSite.parse p c = .ok (Phase.CONTINUE, { c with io := io', req := some u }) ∧ Arrives io' rest cl ∧ u.schema = ascii "http" ∧ u.host = a.host ∧
      u.method = a.method ∧ u.url = a.target ∧ u.headers = a.fields := by
  obtain ⟨r, io', h1, h2, -⟩ := C42_exact 2048 (a.first :: a.fields.map line) (by simp) (ask_lines ok) rest c.io cl ha
  obtain ⟨rfl, h3⟩ := h2 ok.short
  obtain ⟨u, h4, h5⟩ := ask_url hp ok
  refine ⟨u, io', ?_, h3, h5⟩
  unfold HttpSite.parse
  rw [h1]
  have h6 := hp.req a ok
  unfold Ask.text at h6
  simp only [h6, h4]
  rw [if_neg]
  simp [head, crlf]

/-- The parse phase when the connection has come to its end. -/
theorem parse_end (p : Parsers) {c : Sps.HttpConn} {cl : Err} (ha : Arrives c.io [] cl) :
    ∃ io', HttpSite.parse p c = .ok (-(cl : Int), { c with io := io' }) := by
  obtain ⟨io', h⟩ := C42_cut 2048 [[65]] (by simp) (by decide) (by decide) [] (head [[65]]) (by decide) rfl c.io cl ha
  refine ⟨io', ?_⟩
  unfold HttpSite.parse
  rw [h]

theorem not_framing {f : Header} (h : plain f) : ¬ lower f.1 ∈ [ascii "content-length", ascii "transfer-encoding"] := by
  intro h1
  refine h.2.2 ?_
  have : ∀ x ∈ [ascii "content-length", ascii "transfer-encoding"], x ∈ special := by decide +kernel
  exact this _ h1

theorem framing_plain : ∀ {fs : List Header}, (∀ f ∈ fs, plain f) → framing fs = []
  | [], _ => rfl
  | f :: fs, h => by
    unfold framing
    rw [List.filter_cons_of_neg (by simpa using not_framing (h f (by simp)))]
    exact framing_plain fun g hg => h g (List.mem_cons_of_mem _ hg)

theorem framing_append (a b : List Header) : framing (a ++ b) = framing a ++ framing b := by simp [framing]

theorem field_chars {r : Reply} (ok : r.Ok) : (∀ b ∈ r.body.field.1, graph b) ∧ ∀ b ∈ r.body.field.2, graph b := by
  have h1 : ∀ b ∈ ascii "Content-Length", graph b := by unfold graph; decide +kernel
  have h2 : ∀ b ∈ ascii "Transfer-Encoding", graph b := by unfold graph; decide +kernel
  have h3 : ∀ b ∈ ascii "chunked", graph b := by unfold graph; decide +kernel
  have hb := ok.body
  cases hr : r.body with
  | sized ds b =>
    rw [hr] at hb
    refine ⟨h1, fun b hb' => ?_⟩
    have := dec_chars ds 0 _ hb.2.2.2 b hb'
    unfold graph; omega
  | coded cs z => exact ⟨h2, h3⟩

theorem graph_line {b : UInt8} (h : graph b) : b ≠ CR ∧ b ≠ LF := by
  unfold graph at h
  constructor <;> (rintro rfl; revert h; decide)

theorem reply_fields {r : Reply} (ok : r.Ok) : ∀ f ∈ r.fields, lineOk (line f) ∧ (∀ b ∈ f.1, b ≠ CR ∧ b ≠ LF) ∧ ∀ b ∈ f.2, b ≠ CR ∧ b ≠ LF := by
  have hp : ∀ f, plain f → lineOk (line f) ∧ (∀ b ∈ f.1, b ≠ CR ∧ b ≠ LF) ∧ ∀ b ∈ f.2, b ≠ CR ∧ b ≠ LF := by
    intro f h
    refine ⟨plain_line h, fun b hb => graph_line (name_chars h.1 b hb), fun b hb => ?_⟩
    rcases h.2.1.2.1 b hb with h | rfl
    · exact graph_line h
    · decide
  intro f hf
  rcases List.mem_append.1 hf with hf | hf
  · exact hp f (ok.fields f (List.mem_append_left _ hf))
  · rcases List.mem_cons.1 hf with rfl | hf
    · obtain ⟨h1, h2⟩ := field_chars ok
      refine ⟨lineOk_of (fun h0 => ?_) fun b hb => ?_, fun b hb => graph_line (h1 b hb), fun b hb => graph_line (h2 b hb)⟩
      · unfold line at h0
        simp only [List.append_eq_nil_iff] at h0
        exact absurd h0.1.2 (by decide +kernel)
      · unfold line at hb
        simp only [List.mem_append] at hb
        have h3 : ∀ b ∈ ascii ": ", graph b ∨ b = 32 := by unfold graph; decide +kernel
        rcases hb with (hb | hb) | hb
        · exact .inl (h1 b hb)
        · exact h3 b hb
        · exact .inl (h2 b hb)
    · exact hp f (ok.fields f (List.mem_append_right _ hf))

theorem reply_lines {r : Reply} (ok : r.Ok) : ∀ l ∈ r.first :: r.fields.map line, lineOk l := by
  intro l hl
  rcases List.mem_cons.1 hl with rfl | hl
  · refine lineOk_of (fun h0 => ?_) fun b hb => ?_
    · unfold Reply.first at h0
      simp only [List.append_eq_nil_iff] at h0
      exact absurd h0.1.2 (by decide +kernel)
    · unfold Reply.first at hb
      simp only [List.mem_append] at hb
      have h1 : ∀ b ∈ ascii "HTTP/1.1 ", graph b ∨ b = 32 := by unfold graph; decide +kernel
      have h2 : ∀ b ∈ ascii " ", graph b ∨ b = 32 := by unfold graph; decide +kernel
      rcases hb with ((hb | hb) | hb) | hb
      · exact h1 b hb
      · have := dec_chars r.digits 0 _ ok.digits.2 b hb
        unfold graph; omega
      · exact h2 b hb
      · exact ok.phrase.2.1 b hb
  · obtain ⟨f, hf, rfl⟩ := List.mem_map.1 hl
    exact (reply_fields ok f hf).1

theorem notFound_eq {p : Parsers} (hp : Reads p) (c : Sps.HttpConn) (hf : c.snk.fails = []) :
    ∃ bs, HttpSite.notFound p c = .ok (Phase.NO_CONTINUE, { c with snk := { c.snk with out := c.snk.out ++ bs } }) ∧ Answer 404 [] bs := by
  obtain ⟨h1, h2⟩ := headText_head p.reason (HttpRsp.init {} 404 none 0 false) ⟨hp.reason _, by simp [HttpRsp.init]⟩
  refine ⟨head (rspLines p.reason (HttpRsp.init {} 404 none 0 false)), ?_, ?_⟩
  · unfold HttpSite.notFound HttpRsp.writeHeader Sink.write
    rw [hf, h1]
    simp only
    rw [hf]
  · have e : rspLines p.reason (HttpRsp.init {} 404 none 0 false) = (ascii "HTTP/1.1 " ++ Text.decInt 404 ++ ascii " " ++ p.reason 404) ::
        (HttpRsp.init {} 404 none 0 false).fields.map line := rfl
    rw [e] at h2 ⊢
    have := Answer.sized (status := 404) (digits := Text.decInt 404) (phrase := p.reason 404) (ds := Text.decInt 0)
      (fields := (HttpRsp.init {} 404 none 0 false).fields) (body := []) (by decide +kernel) h2 (by decide +kernel) (by decide +kernel) (by decide +kernel)
    rwa [List.append_nil] at this

theorem fuel_stream : ∀ evs : List IoEv, (streamOf evs).length + 2 ≤ HttpSite.fuel evs
  | [] => by simp [streamOf, HttpSite.fuel]
  | .data d :: evs => by
    have := fuel_stream evs
    simp only [streamOf, List.flatMap_cons, evBytes, HttpSite.fuel, List.length_append] at this ⊢
    omega
  | .err e :: evs => by
    have := fuel_stream evs
    simp only [streamOf, List.flatMap_cons, evBytes, HttpSite.fuel, List.length_append, List.length_nil] at this ⊢
    omega

/-- The proxy's answer when the upstream's has a length. -/
theorem respond_sized {p : Parsers} (hp : Reads p) {r : Reply} (ok : r.Ok) {ds body : List UInt8} (hb : r.body = .sized ds body) {io : Io} {t : List UInt8} {cl : Err}
    (ha : Arrives io (body ++ t) cl) (snk : Sink) (hf : snk.fails = []) :
    ∃ bs io', HttpProxy.respond p.reason (HttpSite.fuel io.evs) r.found io snk = some (.ok (), io', { snk with out := snk.out ++ bs }) ∧ Answer r.status body bs := by
  have hbo := ok.body
  rw [hb] at hbo
  obtain ⟨hb0, hb1, hb2, hb3⟩ := hbo
  have hfo : r.found = { status := r.status, cl := body.length, chunked := false, headers := r.fields } := by unfold Reply.found; rw [hb]
  obtain ⟨h1, h2⟩ := headText_head p.reason { status := r.status, cl := body.length, chunked := false, headers := r.fields }
    ⟨hp.reason _, fun f hf => (reply_fields ok f hf).2⟩
  have hfu := fuel_stream io.evs
  rw [ha.stream, List.length_append] at hfu
  obtain ⟨io', k1, -⟩ := HttpProxy.relay_length p.reason hb1 (HttpSite.fuel io.evs) { chunked := false, cl := body.length } io body
    { status := r.status, sent := true, cl := body.length, chunked := false, headers := r.fields }
    { snk with out := snk.out ++ head (rspLines p.reason { status := r.status, cl := body.length, chunked := false, headers := r.fields }) } rfl rfl
    (by simpa using hb0) (by simp) ha rfl rfl hf (by omega)
  refine ⟨head (rspLines p.reason { status := r.status, cl := body.length, chunked := false, headers := r.fields }) ++ body, io', ?_, ?_⟩
  · rw [hfo]
    unfold HttpProxy.respond HttpRsp.writeHeader Sink.write
    simp only [HttpRsp.init, Option.getD_some, hf]
    rw [h1, if_neg (by simp)]
    simp only [hf] at k1
    rw [k1]
    simp [hf]
  · have e : rspLines p.reason { status := r.status, cl := body.length, chunked := false, headers := r.fields } =
        (ascii "HTTP/1.1 " ++ Text.decInt r.status ++ ascii " " ++ p.reason r.status) ::
        (HttpRsp.fields { status := r.status, cl := body.length, chunked := false, headers := r.fields }).map line := rfl
    rw [e] at h2 ⊢
    refine Answer.sized (ds := Text.decInt body.length) (Text.decInt_value _ (by have := ok.status; omega)) h2 ?_ ?_ (Text.decInt_value _ (by omega))
    · unfold HttpRsp.fields
      rw [if_neg (by simp), if_pos (by simp), framing_append, framing_append]
      have g1 : framing [(ascii "Content-Length", Text.decInt (body.length : Int))] = [(ascii "Content-Length", Text.decInt (body.length : Int))] := by
        unfold framing
        rw [List.filter_cons_of_pos (by simp only [decide_eq_true_eq]; decide +kernel)]
        rfl
      have g3 : framing (if r.fields.any (fun h => h.1 == ascii "Server") then [] else [(ascii "Server", ascii "sps")]) = [] := by
        split
        · rfl
        · decide +kernel
      have g2 : framing (r.fields.filter fun h => !(h.1 == ascii "Content-Length" && (!false && decide (0 ≤ (body.length : Int))))) = [] := by
        have hfl : r.fields = r.before ++ (ascii "Content-Length", ds) :: r.after := by unfold Reply.fields; rw [hb]; rfl
        rw [hfl, List.filter_append, List.filter_cons_of_neg (by simp), framing_append]
        rw [framing_plain fun f hf => ok.fields f (List.mem_append_left _ (List.mem_filter.1 hf).1),
          framing_plain fun f hf => ok.fields f (List.mem_append_right _ (List.mem_filter.1 hf).1)]
        rfl
      rw [g1, g3, List.append_nil]
      exact congrArg (_ :: ·) g2
    · intro h0
      have := Text.decInt_value body.length (by omega)
      rw [h0] at this
      have : body.length = 0 := by simpa [decValue] using this.symm
      exact hb0 (List.length_eq_zero_iff.1 this)

/-- The proxy's answer when the upstream's is in chunks. -/
theorem respond_coded {p : Parsers} (hp : Reads p) {r : Reply} (ok : r.Ok) {cs : List (List UInt8 × List UInt8)} {z : List UInt8} (hb : r.body = .coded cs z) {io : Io}
    {t : List UInt8} {cl : Err} (ha : Arrives io (coded cs z ++ t) cl) (snk : Sink) (hf : snk.fails = []) :
    ∃ bs io', HttpProxy.respond p.reason (HttpSite.fuel io.evs) r.found io snk = some (.ok (), io', { snk with out := snk.out ++ bs }) ∧ Answer r.status (content cs) bs := by
  have hok := ok.body
  rw [hb] at hok
  have hfo : r.found = { status := r.status, cl := -1, chunked := true, headers := r.fields } := by unfold Reply.found; rw [hb]
  obtain ⟨h1, h2⟩ := headText_head p.reason { status := r.status, cl := -1, chunked := true, headers := r.fields }
    ⟨hp.reason _, fun f hf => (reply_fields ok f hf).2⟩
  have hfu := fuel_stream io.evs
  rw [ha.stream, List.length_append] at hfu
  have hlen : (content cs).length ≤ (coded cs z).length := by
    unfold content coded
    rw [List.length_append, List.length_flatMap, List.length_flatMap]
    refine Nat.le_trans ?_ (Nat.le_add_right _ _)
    clear hfo h1 h2 hfu ha hb hok
    induction cs with
    | nil => simp
    | cons c cs ih => simp only [List.map_cons, List.sum_cons, chunk, List.length_append] at ih ⊢; omega
  have hpend : HttpBody.Pending { chunked := true, cl := -1 } io (content cs) t cl [] cs z := ⟨rfl, rfl, rfl, rfl, fun h => absurd rfl h, by decide, by simpa using ha, hok⟩
  obtain ⟨io', dd, k1, k2, k3, -⟩ := HttpProxy.relay_chunked p.reason (HttpSite.fuel io.evs) _ io _ _ cs
    { status := r.status, sent := true, cl := -1, chunked := true, headers := r.fields }
    { snk with out := snk.out ++ head (rspLines p.reason { status := r.status, cl := -1, chunked := true, headers := r.fields }) } hpend rfl rfl hf (by omega)
  refine ⟨head (rspLines p.reason { status := r.status, cl := -1, chunked := true, headers := r.fields }) ++ coded (HttpRsp.hexed dd) (Text.hex 0), io', ?_, ?_⟩
  · rw [hfo]
    unfold HttpProxy.respond HttpRsp.writeHeader Sink.write
    simp only [HttpRsp.init, Option.getD_some, hf]
    rw [h1, if_neg (by simp)]
    simp only [hf] at k1
    rw [k1]
    simp [hf]
  · have e : rspLines p.reason { status := r.status, cl := -1, chunked := true, headers := r.fields } =
        (ascii "HTTP/1.1 " ++ Text.decInt r.status ++ ascii " " ++ p.reason r.status) ::
        (HttpRsp.fields { status := r.status, cl := -1, chunked := true, headers := r.fields }).map line := rfl
    rw [e] at h2 ⊢
    have hfr : framing (HttpRsp.fields { status := r.status, cl := -1, chunked := true, headers := r.fields }) =
        [(ascii "Transfer-Encoding", ascii "chunked"), (ascii "Transfer-Encoding", ascii "chunked")] := by
      unfold HttpRsp.fields
      rw [if_pos (by simp), framing_append, framing_append]
      have g1 : framing [(ascii "Transfer-Encoding", ascii "chunked")] = [(ascii "Transfer-Encoding", ascii "chunked")] := by decide +kernel
      have g3 : framing (if r.fields.any (fun h => h.1 == ascii "Server") then [] else [(ascii "Server", ascii "sps")]) = [] := by
        split
        · rfl
        · decide +kernel
      have g2 : framing (r.fields.filter fun h => !(h.1 == ascii "Content-Length" && (!true && decide (0 ≤ (-1 : Int))))) = [(ascii "Transfer-Encoding", ascii "chunked")] := by
        have hfl : r.fields = r.before ++ ([(ascii "Transfer-Encoding", ascii "chunked")] ++ r.after) := by unfold Reply.fields; rw [hb]; rfl
        have htr : (fun h : Header => !(h.1 == ascii "Content-Length" && (!true && decide (0 ≤ (-1 : Int))))) = fun _ => true := by funext h; simp
        rw [htr, List.filter_eq_self.2 (fun _ _ => rfl), hfl, framing_append, framing_append, g1]
        rw [framing_plain fun f hf => ok.fields f (List.mem_append_left _ hf), framing_plain fun f hf => ok.fields f (List.mem_append_right _ hf)]
        rfl
      rw [g1, g3, List.append_nil]
      exact congrArg (_ :: ·) g2
    have := Answer.coded (cs := HttpRsp.hexed dd) (z := Text.hex 0) (Text.decInt_value r.status (by have := ok.status; omega)) h2 (by rw [hfr]; simp)
      (by rw [hfr]; simp) (HttpRsp.hexed_ok dd fun d hd => ⟨(k3 d hd).1, Nat.lt_of_le_of_lt (k3 d hd).2 (by decide)⟩)
    rwa [HttpRsp.hexed_content, k2] at this

theorem respond_reply {p : Parsers} (hp : Reads p) {r : Reply} (ok : r.Ok) {io : Io} {t : List UInt8} {cl : Err}
    (ha : Arrives io (r.body.text ++ t) cl) (snk : Sink) (hf : snk.fails = []) :
    ∃ bs io', HttpProxy.respond p.reason (HttpSite.fuel io.evs) r.found io snk = some (.ok (), io', { snk with out := snk.out ++ bs }) ∧
      Answer r.status r.body.content bs := by
  cases hb : r.body with
  | sized ds b => rw [hb] at ha; exact respond_sized hp ok hb ha snk hf
  | coded cs z => rw [hb] at ha; exact respond_coded hp ok hb ha snk hf

theorem open_text {a : Ask} (ok : a.Ok) {u : Url} (h2 : u.host = a.host) (h3 : u.method = a.method) (h4 : u.url = a.target) (h5 : u.headers = a.fields) :
    HttpClient.openText u = a.forward := by
  have hne : ∀ f ∈ a.before ++ a.after, f.1 ≠ ascii "Host" := by
    intro f hf h
    have := (ok.fields f hf).2.2
    rw [h] at this
    exact this (by decide +kernel)
  have hfil : (a.fields.filter fun h => h.1 != ascii "Host") = a.before ++ a.after := by
    unfold Ask.fields
    rw [List.filter_append, List.filter_cons_of_neg (by simp [Ask.hostField]), List.filter_eq_self.2, List.filter_eq_self.2]
    · intro f hf; simpa using hne f (List.mem_append_right _ hf)
    · intro f hf; simpa using hne f (List.mem_append_left _ hf)
  have e1 : Text.crlf = crlf := rfl
  have e2 : ascii "Host: " = ascii "Host" ++ ascii ": " := by decide +kernel
  have e3 : ascii "Accept: */" ++ crlf ++ ascii "Content-Length: " ++ Text.dec 0 ++ crlf ++ crlf = ascii "Accept: */" ++ crlf ++ (ascii "Content-Length: 0" ++ crlf) ++ crlf := by
    decide +kernel
  unfold HttpClient.openText HttpClient.request Ask.forward head
  rw [h2, h3, h4, h5, hfil, e1, e2, List.length_nil]
  rw [List.append_assoc, List.append_assoc, List.append_assoc, List.append_assoc, List.append_assoc]
  have e4 : ascii "Accept: */" ++ (crlf ++ (ascii "Content-Length: " ++ (Text.dec 0 ++ (crlf ++ crlf)))) =
      ascii "Accept: */" ++ crlf ++ (ascii "Content-Length: 0" ++ crlf) ++ crlf := by
    decide +kernel
  rw [e4]
  have e5 : (HttpRsp.headerLine : Header → Text) = fun f => line f ++ crlf := rfl
  rw [e5]
  simp only [Ask.first, List.cons_append, List.flatMap_cons, List.flatMap_append, List.flatMap_map, List.flatMap_nil, List.append_nil, List.append_assoc, line]

/-- The proxy on a request when the upstream answers. -/
theorem proxy_eq {p : Parsers} (hp : Reads p) {a : Ask} (ok : a.Ok) {u : Url} (h1 : u.schema = ascii "http") (h2 : u.host = a.host) (h3 : u.method = a.method)
    (h4 : u.url = a.target) (h5 : u.headers = a.fields) {h : Conf.Module} {ip : Text} {port : Int} (hh : ProxyTo h ip port) {r : Reply} (rok : r.Ok)
    {io : Io} {t : List UInt8} {cl : Err} (ha : Arrives io (r.text ++ t) cl) (c : Sps.HttpConn) (us : List Upstream) (hu : c.ups = .up [] io :: us) (hf : c.snk.fails = []) :
    ∃ bs, HttpSite.proxy p h u c = .ok (Phase.NO_CONTINUE, { c with ups := us, asked := c.asked ++ [(a.goesTo ip, port, a.forward)], snk := { c.snk with out := c.snk.out ++ bs } }) ∧
      Answer r.status r.body.content bs := by
  obtain ⟨addr, ha1, ha2⟩ := hh.address
  have hpa : Host.proxyAddress h = (ip, port) := (C72_address h u addr ip port (.inl ⟨hh.own, ha1⟩)).1 ha2
  rw [show r.text ++ t = head (r.first :: r.fields.map line) ++ (r.body.text ++ t) by unfold Reply.text Reply.head; rw [List.append_assoc]] at ha
  obtain ⟨x, io', k1, k2, -⟩ := C42_exact 2048 (r.first :: r.fields.map line) (by simp) (reply_lines rok) _ io cl ha
  obtain ⟨rfl, k3⟩ := k2 rok.short
  obtain ⟨bs, io2, k4, k5⟩ := respond_reply hp rok k3 c.snk hf
  refine ⟨bs, ?_, k5⟩
  have ho : HttpClient.open p u (.up [] io) = .ok (.inr (some (r.found, io')), a.forward) := by
    unfold HttpClient.open Sink.write
    simp only
    rw [if_neg (by simp), k1]
    have h6 := hp.rsp r rok
    unfold Reply.head at h6
    simp only [h6]
    rw [if_neg (by simp [head, crlf]), open_text ok h2 h3 h4 h5, List.nil_append]
  unfold HttpSite.proxy
  rw [if_neg (by simp [h1]), hu, hpa]
  have hg : (if ip = [] then u.host else ip) = a.goesTo ip := by
    cases ip with
    | nil => exact h2
    | cons b l => rfl
  simp only [ho, k4, hg]

/-- One request. -/
theorem handler_ask {s : HttpSite} {hs : List Conf.Module} (hp : Reads s.parsers) (hz : ∀ h ∈ hs, (0 : UInt8) ∉ h.name) (hr : s.router = Router.new.history hs)
    {a : Ask} (ok : a.Ok) {rest : List UInt8} {cl : Err} (c : Sps.HttpConn) (ha : Arrives c.io (a.text ++ rest) cl) (hf : c.snk.fails = []) :
    (Spec.Server.choose hs a.host = none → ∃ bs u io', Phase.handler s.phases c = .ok (Phase.SUCCESS, { c with io := io', req := some u, snk := { c.snk with out := c.snk.out ++ bs } }) ∧
      Arrives io' rest cl ∧ Answer 404 [] bs) ∧
    (∀ (h : Conf.Module) (ip : Text) (port : Int) (r : Reply) (io : Io) (t : List UInt8) (e : Err) (us : List Upstream), Spec.Server.choose hs a.host = some h → ProxyTo h ip port → r.Ok → Arrives io (r.text ++ t) e → c.ups = .up [] io :: us →
      ∃ bs u io', Phase.handler s.phases c = .ok (Phase.SUCCESS, { c with io := io', req := some u, ups := us, asked := c.asked ++ [(a.goesTo ip, port, a.forward)], snk := { c.snk with out := c.snk.out ++ bs } }) ∧ Arrives io' rest cl ∧ Answer r.status r.body.content bs) := by
  obtain ⟨u, io', h1, h2, h3, h4, h5, h6, h7⟩ := parse_ask hp ok ha
  have hfind : s.router.find u.host = Spec.Server.choose hs a.host := by rw [hr, h4]; exact C51_find hs hz a.host
  constructor
  · intro hc
    obtain ⟨bs, k1, k2⟩ := notFound_eq hp { c with io := io', req := some u } hf
    refine ⟨bs, u, io', ?_, h2, k2⟩
    refine C53_stop [HttpSite.parse s.parsers] s.route [] c { c with io := io', req := some u } _ Phase.NO_CONTINUE (.cons h1 (.nil _)) ?_ (by decide)
    unfold HttpSite.route
    simp only [hfind, hc]
    exact k1
  · intro h ip port r io t e us hc hh rok hio hu
    obtain ⟨bs, k1, k2⟩ := proxy_eq hp ok h3 h4 h5 h6 h7 hh rok hio { c with io := io', req := some u } us hu hf
    refine ⟨bs, u, io', ?_, h2, k2⟩
    refine C53_stop [HttpSite.parse s.parsers] s.route [] c { c with io := io', req := some u } _ Phase.NO_CONTINUE (.cons h1 (.nil _)) ?_ (by decide)
    unfold HttpSite.route HttpSite.adapter
    simp only [hfind, hc, (C71_dispatch_partial h).2 hh.type]
    exact k1

end Sps.HttpConn
