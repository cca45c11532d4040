import Verif.Lemmas.HttpConn
/-! # HTTP connections come to an end -/
namespace Sps.HttpConn
open Spec Spec.Http Spec.HttpConn

theorem full_ends (io : Io) (n : Nat) (h0 : 0 < n) (hn : n < 2 ^ 64) (hok : ioOk io = true) :
    ∃ e d io', io.full n = some (e, d, io') ∧ ioOk io' = true ∧ left io' ≤ left io ∧ (e = Err.SUCCESS → left io' + n ≤ left io) := by
  obtain ⟨e, d, io', h1, h2, -, h4, h5, -⟩ := Io.full_any io n h0 hn hok
  have hl := congrArg List.length h4
  rw [List.length_append] at hl
  refine ⟨e, d, io', h1, h2, by unfold left; omega, fun he => ?_⟩
  rcases h5 with ⟨-, h5⟩ | ⟨h5, -⟩
  · unfold left; omega
  · exact absurd he h5

theorem read_ends (io : Io) (n : Nat) (hok : ioOk io = true) :
    (∃ e io', io.read n = (.err e, io') ∧ e ≠ Err.SUCCESS ∧ ioOk io' = true ∧ left io' ≤ left io) ∨
    ∃ d io', io.read n = (.ok d, io') ∧ d ≠ [] ∧ d.length ≤ n ∧ ioOk io' = true ∧ left io' + d.length = left io := by
  obtain ⟨h1, h2, h3, h4⟩ := Io.read_spec io n hok
  cases hr : io.read n with
  | mk r io1 =>
    rw [hr] at h1 h2 h3 h4
    cases r with
    | err e => exact .inl ⟨e, io1, rfl, h4.1, h1, by unfold left; rw [h4.2.1]⟩
    | ok d =>
      refine .inr ⟨d, io1, rfl, h4.1, h4.2.1, h1, ?_⟩
      have : streamOf io.evs = d ++ streamOf io1.evs := h4.2.2
      have := congrArg List.length this
      rw [List.length_append] at this
      unfold left
      omega

theorem line_ends : ∀ (fuel : Nat) (io : Io) (got : List UInt8), ioOk io = true → got.length < 33 → 33 ≤ fuel + got.length →
    ∃ e l io', HttpBody.line fuel io got = some (e, l, io') ∧ ioOk io' = true ∧ left io' ≤ left io ∧ (e = Err.SUCCESS → left io' + 1 ≤ left io)
  | 0, _, got, _, hg, hf => by omega
  | fuel + 1, io, got, hok, hg, hf => by
    unfold HttpBody.line
    rcases read_ends io 1 hok with ⟨e, io', h1, h2, h3, h4⟩ | ⟨d, io', h1, h2, h3, h4, h5⟩
    · rw [h1]
      exact ⟨e, got, io', rfl, h3, h4, fun he => absurd he h2⟩
    · rw [h1]
      have hd : d.length = 1 := by
        cases d with
        | nil => exact absurd rfl h2
        | cons x d => simp only [List.length_cons] at h3 ⊢; omega
      simp only
      by_cases hc : d.getLast? ≠ some 10 ∧ got.length + 1 < 33
      · rw [if_pos hc]
        obtain ⟨e, l, io2, k1, k2, k3, k4⟩ := line_ends fuel io' (got ++ d) h4 (by rw [List.length_append]; omega) (by rw [List.length_append]; omega)
        exact ⟨e, l, io2, k1, k2, by omega, fun he => by have := k4 he; omega⟩
      · rw [if_neg hc]
        exact ⟨_, _, io', rfl, h4, by omega, fun _ => by omega⟩

theorem readLength_ends (b : HttpBody) (io : Io) (hok : ioOk io = true) :
    ∃ e b' io', b.readLength io = some (e, b', io') ∧ ioOk io' = true ∧ left io' ≤ left io ∧ (e = Err.SUCCESS → left io' + 1 ≤ left io) := by
  obtain ⟨e, l, io', h1, h2, h3, h4⟩ := line_ends 34 io [] hok (by decide) (by decide)
  unfold HttpBody.readLength
  rw [h1, Option.bind_some]
  simp only
  by_cases he : e = Err.SUCCESS
  · rw [if_neg (by simp [he])]
    have := h4 he
    split
    · exact ⟨_, _, io', rfl, h2, h3, fun h => absurd h (by decide)⟩
    · split
      · exact ⟨_, _, io', rfl, h2, h3, fun h => absurd h (by decide)⟩
      · exact ⟨_, _, io', rfl, h2, h3, fun _ => this⟩
  · rw [if_pos he]
    exact ⟨_, _, io', rfl, h2, h3, fun h => absurd h he⟩

theorem tail_ends (b : HttpBody) (ret : Err) (d : List UInt8) (io : Io) (hok : ioOk io = true) :
    ∃ e b' io', b.tail ret d io = some (e, d, b', io') ∧ ioOk io' = true ∧ left io' ≤ left io ∧ (e = Err.SUCCESS → ret = Err.SUCCESS) := by
  unfold HttpBody.tail
  by_cases hc : ret = Err.SUCCESS ∧ b.left = 0
  · rw [if_pos hc]
    obtain ⟨e, t, io', h1, h2, h3, -⟩ := full_ends io 2 (by decide) (by decide) hok
    rw [h1]
    simp only [Option.map_some]
    exact ⟨_, _, io', rfl, h2, h3, fun _ => hc.1⟩
  · rw [if_neg hc]
    simp only [Option.map_some]
    exact ⟨_, _, io, rfl, hok, Nat.le_refl _, fun h => h⟩

theorem body_ends (b : HttpBody) (io : Io) (hok : ioOk io = true) :
    ∃ e d b' io', b.read .client 1024 io = some (e, d, b', io') ∧ ioOk io' = true ∧ left io' ≤ left io ∧ (e = Err.SUCCESS → left io' + 1 ≤ left io) := by
  unfold HttpBody.read
  by_cases he : b.eof = true
  · rw [if_pos he]
    exact ⟨_, _, _, io, rfl, hok, Nat.le_refl _, fun h => absurd h (by decide)⟩
  rw [if_neg he]
  by_cases hc : b.chunked = true
  · rw [if_pos hc]
    unfold HttpBody.readChunked
    by_cases hl : b.left = 0
    · rw [if_pos hl]
      obtain ⟨e, b1, io1, h1, h2, h3, h4⟩ := readLength_ends b io hok
      rw [h1, Option.bind_some]
      simp only
      by_cases he1 : e = Err.SUCCESS
      · rw [if_neg (by simp [he1])]
        have h5 := h4 he1
        unfold HttpBody.readData
        simp only
        by_cases hn : min b1.left 1024 ≠ 0
        · rw [if_pos hn]
          obtain ⟨e2, d, io2, k1, k2, k3, k4⟩ := full_ends io1 (min b1.left 1024) (by omega) (by omega) h2
          rw [k1, Option.bind_some]
          obtain ⟨e3, b3, io3, m1, m2, m3, m4⟩ := tail_ends { b1 with left := subSz b1.left (min b1.left 1024) } e2 d io2 k2
          exact ⟨e3, d, b3, io3, m1, m2, by omega, fun h => by have := m4 h; omega⟩
        · rw [if_neg hn]
          obtain ⟨e3, b3, io3, m1, m2, m3, m4⟩ := tail_ends b1 Err.SUCCESS [] io1 h2
          exact ⟨e3, [], b3, io3, m1, m2, by omega, fun h => by omega⟩
      · rw [if_pos he1]
        exact ⟨_, _, _, io1, rfl, h2, h3, fun h => absurd h he1⟩
    · rw [if_neg hl, Option.bind_some]
      simp only
      rw [if_neg (by simp)]
      unfold HttpBody.readData
      simp only
      rw [if_pos (by omega)]
      obtain ⟨e2, d, io2, k1, k2, k3, k4⟩ := full_ends io (min b.left 1024) (by omega) (by omega) hok
      rw [k1, Option.bind_some]
      obtain ⟨e3, b3, io3, m1, m2, m3, m4⟩ := tail_ends { b with left := subSz b.left (min b.left 1024) } e2 d io2 k2
      refine ⟨e3, d, b3, io3, m1, m2, by omega, fun h => ?_⟩
      have := k4 (m4 h)
      omega
  · rw [if_neg hc]
    simp only
    generalize (if 0 ≤ b.cl then min (subSz b.cl.toNat b.nread) 1024 else 1024) = n
    rcases read_ends io n hok with ⟨e, io', h1, h2, h3, h4⟩ | ⟨d, io', h1, h2, h3, h4, h5⟩
    · rw [h1]
      exact ⟨e, [], b, io', rfl, h3, h4, fun h => absurd h h2⟩
    · rw [h1]
      have hd : 0 < d.length := by cases d with | nil => exact absurd rfl h2 | cons x d => simp
      exact ⟨_, d, _, io', rfl, h4, by omega, fun _ => by omega⟩

theorem relay_ends (reason : Int → Text) : ∀ (fuel : Nat) (b : HttpBody) (io : Io) (r : HttpRsp) (s : Sink), ioOk io = true → left io < fuel →
    ∃ x io' s', HttpProxy.relay reason fuel b io r s = some (x, io', s')
  | 0, _, _, _, _, _, hf => by omega
  | fuel + 1, b, io, r, s, hok, hf => by
    obtain ⟨e, d, b', io', h1, h2, h3, h4⟩ := body_ends b io hok
    unfold HttpProxy.relay
    rw [h1, Option.bind_some]
    simp only
    by_cases he : e = Err.SUCCESS
    · rw [if_neg (by simp [he])]
      rcases r.write reason d s with ⟨e2, r2, s2⟩
      simp only
      by_cases he2 : e2 = Err.SUCCESS
      · rw [if_neg (by simp [he2])]
        have := h4 he
        exact relay_ends reason fuel b' io' r2 s2 h2 (by omega)
      · rw [if_pos he2]
        exact ⟨_, _, _, rfl⟩
    · rw [if_pos he]
      exact ⟨_, _, _, rfl⟩

theorem respond_ends (reason : Int → Text) (h : HttpHeadIn) (io : Io) (s : Sink) (hok : ioOk io = true) :
    ∃ x io' s', HttpProxy.respond reason (HttpSite.fuel io.evs) h io s = some (x, io', s') := by
  unfold HttpProxy.respond
  simp only
  generalize (HttpRsp.init {} h.status (some h.headers) h.cl h.chunked).writeHeader reason s = x
  obtain ⟨e, r, s1⟩ := x
  simp only
  by_cases he : e = Err.SUCCESS
  · rw [if_neg (by simp [he])]
    obtain ⟨x, io', s', h1⟩ := relay_ends reason (HttpSite.fuel io.evs) { chunked := h.chunked, cl := h.cl } io r s1 hok
      (by have := fuel_stream io.evs; unfold left; omega)
    rw [h1]
    exact ⟨_, _, _, rfl⟩
  · rw [if_pos he]
    exact ⟨_, _, _, rfl⟩

/-- A header has at least four bytes. -/
theorem read_four (max : Nat) : ∀ (fuel state : Nat) (buf : List UInt8) (io : Io) (h : List UInt8) (io' : Io),
    HttpHead.read max fuel state buf io = some (.ok h, io') → 4 ≤ h.length
  | 0, _, _, _, _, _, h => by simp [HttpHead.read] at h
  | fuel + 1, state, buf, io, h, io', hr => by
    unfold HttpHead.read at hr
    split at hr
    · cases hr
    · cases hf : io.full state with
      | none => rw [hf] at hr; cases hr
      | some x =>
        obtain ⟨e, d, io1⟩ := x
        rw [hf, Option.bind_some] at hr
        simp only at hr
        split at hr
        · cases hr
        · split at hr
          · rename_i c0 c1 c2 c3 l heq
            split at hr
            · cases hr
              have := congrArg List.length heq
              simp only [List.length_reverse, List.length_cons] at this
              omega
            · exact read_four max fuel _ _ _ _ _ hr
          · cases hr

theorem read_neg (max : Nat) : ∀ (fuel state : Nat) (buf : List UInt8) (io : Io) (e : Int) (io' : Io),
    HttpHead.read max fuel state buf io = some (.error e, io') → e < 0
  | 0, _, _, _, _, _, h => by simp [HttpHead.read] at h
  | fuel + 1, state, buf, io, e, io', hr => by
    unfold HttpHead.read at hr
    split at hr
    · cases hr; decide
    · cases hf : io.full state with
      | none => rw [hf] at hr; cases hr
      | some x =>
        obtain ⟨e1, d, io1⟩ := x
        rw [hf, Option.bind_some] at hr
        simp only at hr
        split at hr
        · rename_i he
          cases hr
          have : (e1 : Nat) ≠ 0 := he
          exact Int.neg_neg_of_pos (Int.natCast_pos.2 (Nat.pos_of_ne_zero this))
        · split at hr
          · split at hr
            · cases hr
            · exact read_neg max fuel _ _ _ _ _ hr
          · cases hr

/-- Reading the header. -/
theorem head_ends (max : Nat) (io : Io) (hok : ioOk io = true) :
    ∃ r io', HttpHead.parse max io = some (r, io') ∧ ioOk io' = true ∧ left io' ≤ left io ∧ (∀ e, r = .error e → e < 0) ∧
      (∀ h, r = .ok h → left io' + 4 ≤ left io) := by
  obtain ⟨r, d, io', h1, h2, h3, h4, h5, h6, h7⟩ := HttpHead.read_any max (max + 1) 4 [] io hok (by decide) (by decide) (by decide)
    (fun x hx hi => by have := hi.length_le; simp [headEnd, crlf] at this hx; omega) (by simp) (by simp)
  have hl := congrArg List.length h4
  rw [List.length_append] at hl
  refine ⟨r, io', h1, h2, by unfold left; omega, fun e he => ?_, fun h hh => ?_⟩
  · rw [he] at h1
    exact read_neg _ _ _ _ _ _ _ h1
  · have h8 := h7 h hh
    rw [hh] at h1
    have := read_four _ _ _ _ _ _ _ h1
    rw [h8, List.nil_append] at this
    unfold left
    omega

theorem proxy_ends (p : Parsers) (hrsp : ∀ t, (p.rsp t).1 ≠ 0) (h : Conf.Module) (u : Url) (c : Sps.HttpConn) (hups : ∀ x ∈ c.ups, upOk x) (hne : c.ups ≠ []) :
    ∃ e c', HttpSite.proxy p h u c = .ok (e, c') ∧ c'.io = c.io ∧ (∃ k, k ≤ 1 ∧ c'.ups = c.ups.drop k) := by
  unfold HttpSite.proxy
  split
  · exact ⟨_, c, rfl, rfl, 0, by omega, rfl⟩
  cases hu : c.ups with
  | nil => exact absurd hu hne
  | cons up ups =>
    rw [hu] at hups
    simp only
    cases up with
    | down => exact ⟨_, _, rfl, rfl, 1, by omega, rfl⟩
    | up fails io =>
      have hio : ioOk io = true := hups _ (List.mem_cons_self ..)
      unfold HttpClient.open
      simp only
      by_cases he : (({ out := [], fails := fails } : Sink).write (HttpClient.openText u)).1 = Err.SUCCESS
      · rw [if_neg (by simp [he])]
        obtain ⟨r, io', h1, h2, -⟩ := head_ends 2048 io hio
        rw [h1]
        cases r with
        | error e => exact ⟨_, _, rfl, rfl, 1, by omega, rfl⟩
        | ok t =>
          simp only [if_neg (hrsp t)]
          obtain ⟨x, io2, snk, h3⟩ := respond_ends p.reason (p.rsp t).2 io' c.snk h2
          rw [h3]
          cases x with
          | error e => exact ⟨_, _, rfl, rfl, 1, by omega, rfl⟩
          | ok _ => exact ⟨_, _, rfl, rfl, 1, by omega, rfl⟩
      · simp only [ne_eq, if_pos he]
        exact ⟨_, _, rfl, rfl, 1, by omega, rfl⟩

theorem route_ends (s : HttpSite) (hrsp : ∀ t, (s.parsers.rsp t).1 ≠ 0) (hst : Returns s) (c : Sps.HttpConn) (u : Url) (hu : c.req = some u)
    (hok : ioOk c.io = true) (hups : ∀ x ∈ c.ups, upOk x) (hne : c.ups ≠ []) :
    ∃ e c', s.route c = .ok (e, c') ∧ ioOk c'.io = true ∧ left c'.io ≤ left c.io ∧ ∃ k, k ≤ 1 ∧ c'.ups = c.ups.drop k := by
  unfold HttpSite.route
  rw [hu]
  simp only
  cases hf : s.router.find u.host with
  | none => exact ⟨_, _, rfl, hok, Nat.le_refl _, 0, by omega, rfl⟩
  | some h =>
    simp only
    unfold HttpSite.adapter
    cases ha : Host.adapter h with
    | streaming =>
      simp only
      unfold HttpSite.streaming
      obtain ⟨e, rsp, io', snk', h1, h2, h3⟩ := hst h u c.io c.snk hok
      rw [h1]
      exact ⟨_, _, rfl, h2, h3, 0, by omega, rfl⟩
    | api => exact ⟨_, _, rfl, hok, Nat.le_refl _, 0, by omega, rfl⟩
    | proxying =>
      simp only
      obtain ⟨e, c', h1, h2, h3⟩ := proxy_ends s.parsers hrsp h u c hups hne
      exact ⟨e, c', h1, by rw [h2]; exact hok, by rw [h2], h3⟩

/-- One request. -/
theorem handler_ends (s : HttpSite) (hreq : ∀ t, (s.parsers.req t).count ≠ 0) (hrsp : ∀ t, (s.parsers.rsp t).1 ≠ 0) (hst : Returns s)
    (c : Sps.HttpConn) (hok : ioOk c.io = true) (hups : ∀ x ∈ c.ups, upOk x) (hn : left c.io < 4 ∨ c.ups ≠ []) :
    ∃ e c', Phase.handler s.phases c = .ok (e, c') ∧
      (e = Phase.SUCCESS → ioOk c'.io = true ∧ left c'.io + 4 ≤ left c.io ∧ ∃ k, k ≤ 1 ∧ c'.ups = c.ups.drop k) := by
  obtain ⟨r, io', h1, h2, h3, h4, h5⟩ := head_ends 2048 c.io hok
  cases r with
  | error e =>
    have hp : HttpSite.parse s.parsers c = .ok (e, { c with io := io' }) := by unfold HttpSite.parse; rw [h1]
    have he := h4 e rfl
    have h0 : e ≠ Phase.CONTINUE := by show e ≠ 0; omega
    have hh := C53_stop [] (HttpSite.parse s.parsers) [s.route] c c _ _ (.nil _) hp h0
    rw [if_neg (by show ¬ e = 1; omega)] at hh
    exact ⟨_, _, hh, fun h => absurd h h0⟩
  | ok t =>
    have h6 := h5 t rfl
    have hp : HttpSite.parse s.parsers c = .ok (Phase.CONTINUE, { c with io := io', req := some (Names.http s.parsers.url (s.parsers.req t).method (s.parsers.req t).target (s.parsers.req t).headers) }) := by
      unfold HttpSite.parse
      rw [h1]
      simp only [if_neg (hreq t)]
    obtain ⟨e, c', k1, k2, k3, k4⟩ := route_ends s hrsp hst { c with io := io', req := some (Names.http s.parsers.url (s.parsers.req t).method (s.parsers.req t).target (s.parsers.req t).headers) }
      _ rfl h2 hups (by rcases hn with h | h; omega; exact h)
    have k3 : left c'.io ≤ left io' := k3
    have hlast : ioOk c'.io = true ∧ left c'.io + 4 ≤ left c.io ∧ ∃ k, k ≤ 1 ∧ c'.ups = c.ups.drop k := ⟨k2, by omega, k4⟩
    by_cases he : e = Phase.CONTINUE
    · rw [he] at k1
      exact ⟨_, c', C53_all [HttpSite.parse s.parsers, s.route] c c' (.cons hp (.cons k1 (.nil _))), fun _ => hlast⟩
    · exact ⟨_, c', C53_stop [HttpSite.parse s.parsers] s.route [] c _ c' e (.cons hp (.nil _)) k1 he, fun _ => hlast⟩

/-- The connection. -/
theorem serve_ends (s : HttpSite) (hreq : ∀ t, (s.parsers.req t).count ≠ 0) (hrsp : ∀ t, (s.parsers.rsp t).1 ≠ 0) (hst : Returns s) :
    ∀ (n : Nat) (c : Sps.HttpConn), ioOk c.io = true → (∀ x ∈ c.ups, upOk x) → left c.io / 4 ≤ c.ups.length → left c.io / 4 < n →
    ∃ e c', s.serve n c = some (.ok (e, c'))
  | 0, _, _, _, _, hn => by omega
  | n + 1, c, hok, hups, hu, hn => by
    obtain ⟨e, c', h1, h2⟩ := handler_ends s hreq hrsp hst c hok hups (by
      by_cases h : left c.io < 4
      · exact .inl h
      · exact .inr (fun h0 => by rw [h0] at hu; simp only [List.length_nil] at hu; omega))
    unfold HttpSite.serve Phase.connection
    rw [h1]
    simp only
    by_cases he : e = Phase.SUCCESS
    · rw [if_neg (by simp [he])]
      obtain ⟨k1, k2, k, k3, k4⟩ := h2 he
      refine serve_ends s hreq hrsp hst n c' k1 (fun x hx => hups x (List.mem_of_mem_drop (k4 ▸ hx))) ?_ (by omega)
      rw [k4, List.length_drop]
      omega
    · rw [if_pos he]
      exact ⟨e, c', rfl⟩

end Sps.HttpConn
