import Verif.Props.Log
/-!
# C120: one request, one line of the log
-/
namespace Sps.Log
open Spec Spec.Log Spec.HttpConn

/-- Fixed text and texts have no line feed. -/
def quiet (ps : List Piece) : Prop := ∀ t, Piece.lit t ∈ ps ∨ Piece.text t ∈ ps → (10 : UInt8) ∉ t

theorem digits_feed : ∀ (fuel n : Nat), (10 : UInt8) ∉ Text.digits 10 fuel n
  | 0, _ => by simp [Text.digits]
  | fuel + 1, n => by
    have hd : ∀ d, d < 10 → (10 : UInt8) ≠ Text.digit d := by decide
    unfold Text.digits
    by_cases h : n < 10
    · rw [if_pos h]; simpa using hd n h
    · rw [if_neg h]
      intro hm
      rcases List.mem_append.1 hm with hm | hm
      · exact digits_feed fuel _ hm
      · exact hd _ (Nat.mod_lt _ (by omega)) (by simpa using hm)

theorem decInt_feed (n : Int) : (10 : UInt8) ∉ Text.decInt n := by
  have := digits_feed 64 n.natAbs
  unfold Text.decInt Text.dec
  split
  · intro h
    rcases List.mem_cons.1 h with h | h
    · revert h; decide
    · exact this h
  · exact this

theorem pad_feed (w n : Nat) : (10 : UInt8) ∉ pad w n := by
  unfold pad
  intro h
  rcases List.mem_append.1 h with h | h
  · exact absurd (List.eq_of_mem_replicate h) (by decide)
  · exact digits_feed _ _ h

theorem stamp_feed (t : LogTime) : (10 : UInt8) ∉ stamp t := by
  unfold stamp
  simp only [List.mem_append, not_or]
  refine ⟨⟨⟨⟨⟨⟨⟨⟨⟨⟨⟨⟨⟨⟨?_, pad_feed _ _⟩, ?_⟩, pad_feed _ _⟩, ?_⟩, pad_feed _ _⟩, ?_⟩, pad_feed _ _⟩, ?_⟩, pad_feed _ _⟩, ?_⟩, pad_feed _ _⟩, ?_⟩, pad_feed _ _⟩, ?_⟩ <;>
    decide

/-- At least so many bytes. -/
def floor : List Piece → Nat
  | [] => 0
  | .lit t :: ps => t.length + floor ps
  | .text t :: ps => t.length + floor ps
  | .num _ :: ps => floor ps

/-- What parts without `%` give: every text of theirs, and no line feed if they have none. -/
theorem format_tail (tail : Text) (h0 : (37 : UInt8) ∉ tail) : ∀ ps : List Piece, (∀ p ∈ ps, p.Ok) → clean ps →
    ∃ m, format (fmt (ps ++ [.lit tail])) (args (ps ++ [.lit tail])) = some (m ++ tail) ∧ (quiet ps → (10 : UInt8) ∉ m) ∧ (37 : UInt8) ∉ m ∧ m.length ≤ room ps ∧ floor ps ≤ m.length ∧
      ∀ t, .text t ∈ ps → ∃ x y, m = x ++ t ++ y := by
  intro ps
  induction ps with
  | nil =>
    intro _ _
    refine ⟨[], ?_, by simp, by simp, by simp, by simp [floor], by simp⟩
    show format (tail ++ []) [] = _
    rw [List.append_nil]
    exact format_plain tail h0
  | cons p ps ih =>
    intro hok hc
    obtain ⟨m, h1, h2, h3, h4, h6, h5⟩ := ih (fun q hq => hok q (List.mem_cons_of_mem _ hq)) (fun t ht => hc t (List.mem_cons_of_mem _ ht))
    have hq' : quiet (p :: ps) → quiet ps := fun hq t ht => hq t (ht.imp (List.mem_cons_of_mem _) (List.mem_cons_of_mem _))
    have hp := hok p (List.mem_cons_self ..)
    have join : ∀ {b : UInt8} {a : Text}, b ∉ a → b ∉ m → b ∉ a ++ m := fun ha hb hm => (List.mem_append.1 hm).elim ha hb
    have later : ∀ a t, Piece.text t ∈ ps → ∃ x y, a ++ m = x ++ t ++ y := by
      intro a t ht
      obtain ⟨x, y, e⟩ := h5 t ht
      exact ⟨a ++ x, y, by rw [e]; simp⟩
    cases p with
    | lit t =>
      refine ⟨t ++ m, ?_, fun hq => join (hq t (.inl (List.mem_cons_self ..))) (h2 (hq' hq)), join hp h3, by simp [room]; omega, by simp [floor]; omega, fun x hx => later t x (by simpa using hx)⟩
      rw [List.cons_append, fmt, args, format_lit t _ _ hp, h1]; simp
    | text t =>
      refine ⟨t ++ m, ?_, fun hq => join (hq t (.inr (List.mem_cons_self ..))) (h2 (hq' hq)), join (hc t (List.mem_cons_self ..)) h3, by simp [room]; omega, by simp [floor]; omega, fun x hx => ?_⟩
      · show format (37 :: 115 :: fmt (ps ++ _)) (.str t :: args (ps ++ _)) = _
        rw [format, if_pos rfl, if_neg (by decide), h1]
        simp only [if_pos]
        rw [takeWhile_all hp]
        simp
      · rcases List.mem_cons.1 hx with hx | hx
        · cases hx; exact ⟨[], m, rfl⟩
        · exact later t x hx
    | num n =>
      refine ⟨Text.decInt n ++ m, ?_, fun hq => join (decInt_feed n) (h2 (hq' hq)), join (decimal_percent (decInt_decimal n hp)) h3, by have := decInt_short n; simp [room]; omega, by simp [floor]; omega,
        fun x hx => later _ x (by simpa using hx)⟩
      show format (37 :: 100 :: fmt (ps ++ _)) (.num n :: args (ps ++ _)) = _
      rw [format, if_pos rfl, if_neg (by decide), h1]
      simp

/-- What is printed for parts that fit. -/
theorem printf_tail (t : LogTime) (ps : List Piece) (hok : ∀ p ∈ ps, p.Ok) (hc : clean ps) (hroom : 500 + room ps ≤ 4093) :
    ∃ b, printf t (fmt (ps ++ [.lit (ascii "\r\n")])) (args (ps ++ [.lit (ascii "\r\n")])) = some (b ++ ascii "\r\n") ∧ (quiet ps → (10 : UInt8) ∉ b) ∧ ∀ t, .text t ∈ ps → ∃ x y, b = x ++ t ++ y := by
  obtain ⟨m, h1, h2, h3, h4, -, h5⟩ := format_tail (ascii "\r\n") (by decide) ps hok hc
  have hs := stamp_short t
  have hl : (ascii "\r\n").length = 2 := rfl
  refine ⟨stamp t ++ m, ?_, fun hq hm => (List.mem_append.1 hm).elim (stamp_feed t) (h2 hq), fun z hz => ?_⟩
  · unfold printf
    rw [h1]
    simp only
    rw [List.take_of_length_le (by simp only [List.length_append, hl]; omega), ← List.append_assoc]
    refine format_plain _ fun hm => ?_
    simp only [List.mem_append] at hm
    rcases hm with (hm | hm) | hm
    · exact stamp_percent t hm
    · exact h3 hm
    · revert hm; decide
  · obtain ⟨x, y, e⟩ := h5 z hz
    exact ⟨stamp t ++ x, y, by rw [e]; simp⟩

theorem printf_line (t : LogTime) (ps : List Piece) (hok : ∀ p ∈ ps, p.Ok) (hc : clean ps) (hq : quiet ps) (hroom : 500 + room ps ≤ 4093) :
    ∃ l, printf t (fmt (ps ++ [.lit (ascii "\r\n")])) (args (ps ++ [.lit (ascii "\r\n")])) = some l ∧ OneLine l := by
  obtain ⟨b, h1, h2, -⟩ := printf_tail t ps hok hc hroom
  exact ⟨_, h1, b, rfl, h2 hq⟩

/-- What is printed for parts that do not fit. -/
theorem printf_cut (t : LogTime) (ps : List Piece) (hok : ∀ p ∈ ps, p.Ok) (hc : clean ps) (hq : quiet ps) (hfloor : 4095 ≤ floor ps) :
    ∃ l, printf t (fmt (ps ++ [.lit (ascii "\r\n")])) (args (ps ++ [.lit (ascii "\r\n")])) = some l ∧ (10 : UInt8) ∉ l ∧ l.length = 4095 := by
  obtain ⟨m, h1, h2, h3, -, h4, -⟩ := format_tail (ascii "\r\n") (by decide) ps hok hc
  have e : (stamp t ++ (m ++ ascii "\r\n")).take 4095 = (stamp t ++ m).take 4095 := by
    rw [← List.append_assoc, List.take_append_of_le_length (by simp only [List.length_append]; omega)]
  refine ⟨(stamp t ++ m).take 4095, ?_, fun hm => (List.mem_append.1 (List.mem_of_mem_take hm)).elim (stamp_feed t) (h2 hq), ?_⟩
  · unfold printf
    rw [h1]
    simp only
    rw [e]
    exact format_plain _ fun hm => (List.mem_append.1 (List.mem_of_mem_take hm)).elim (stamp_percent t) h3
  · rw [List.length_take, List.length_append]
    omega

theorem graph_feed {t : Text} (h : ∀ b ∈ t, Names.graph b) : (10 : UInt8) ∉ t := fun hm => by
  have := h 10 hm
  revert this
  unfold Names.graph
  decide

theorem last_part {ps : List Piece} {p : Piece} {P : Piece → Prop} (h : ∀ q ∈ ps ++ [p], P q) : ∀ q ∈ ps, P q := fun q hq => h q (List.mem_append_left _ hq)

theorem text_sum {a : Ask} (hlen : a.text.length ≤ 1500) : a.method.length + a.host.length + a.target.length ≤ 1500 := by
  have e : a.text = a.method ++ ascii " " ++ a.target ++ ascii " HTTP/1.1" ++ Http.crlf ++ (a.before.map HttpConn.line).flatMap (· ++ Http.crlf) ++
      (ascii "Host" ++ ascii ": " ++ (a.host ++ Names.opt 58 a.port)) ++ Http.crlf ++ (a.after.map HttpConn.line).flatMap (· ++ Http.crlf) ++ Http.crlf := by
    unfold Ask.text Ask.first Ask.fields Ask.hostField Http.head HttpConn.line
    simp [List.flatMap_append]
  rw [e] at hlen
  simp only [List.length_append] at hlen
  omega

theorem query_sub (a : Ask) : (∀ b ∈ a.query.getD [], b ∈ a.target) ∧ (a.query.getD []).length ≤ a.target.length := by
  unfold Ask.target
  cases a.query with
  | none => simp
  | some q => exact ⟨fun b hb => by simp only [Option.getD_some] at hb; simp [Names.opt, hb], by simp [Names.opt]; omega⟩

theorem room_http (w : LogAt) (n : Int) (me ho ta qu : Text) (h : me.length + ho.length + ta.length ≤ 1500) (hq : qu.length ≤ ta.length) :
    500 + room (origin (ascii "sps_http_phase_handler.cpp") w ++
      [.lit (ascii "Request "), .text [], .lit (ascii ":"), .num n, .lit (ascii " "), .text me, .lit (ascii " "), .text ho,
       .lit (ascii " "), .text ta, .lit (ascii " "), .text qu, .lit (ascii ", chunked "), .num 0, .lit (ascii ", content-length "), .num (-1)]) ≤ 4093 := by
  simp only [origin, List.cons_append, List.nil_append, room]
  have l1 : (ascii "[").length = 1 := rfl
  have l2 : (ascii "sps_http_phase_handler.cpp").length = 26 := rfl
  have l3 : (ascii ":").length = 1 := rfl
  have l4 : (ascii "] [").length = 3 := rfl
  have l5 : (ascii "] ").length = 2 := rfl
  have l6 : (ascii "Request ").length = 8 := rfl
  have l7 : (ascii " ").length = 1 := rfl
  have l8 : ([] : Text).length = 0 := rfl
  have l9 : (ascii ", chunked ").length = 10 := rfl
  have l10 : (ascii ", content-length ").length = 17 := rfl
  simp only [l1, l2, l3, l4, l5, l6, l7, l8, l9, l10, ← Nat.add_assoc]
  clear l1 l2 l3 l4 l5 l6 l7 l8 l9 l10
  omega

theorem floor_http (w : LogAt) (n : Int) (me ho ta qu : Text) (h : 4022 ≤ ta.length + qu.length) :
    4095 ≤ floor (origin (ascii "sps_http_phase_handler.cpp") w ++
      [.lit (ascii "Request "), .text [], .lit (ascii ":"), .num n, .lit (ascii " "), .text me, .lit (ascii " "), .text ho,
       .lit (ascii " "), .text ta, .lit (ascii " "), .text qu, .lit (ascii ", chunked "), .num 0, .lit (ascii ", content-length "), .num (-1)]) := by
  simp only [origin, List.cons_append, List.nil_append, floor]
  have l1 : (ascii "[").length = 1 := rfl
  have l2 : (ascii "sps_http_phase_handler.cpp").length = 26 := rfl
  have l3 : (ascii ":").length = 1 := rfl
  have l4 : (ascii "] [").length = 3 := rfl
  have l5 : (ascii "] ").length = 2 := rfl
  have l6 : (ascii "Request ").length = 8 := rfl
  have l7 : (ascii " ").length = 1 := rfl
  have l8 : ([] : Text).length = 0 := rfl
  have l9 : (ascii ", chunked ").length = 10 := rfl
  have l10 : (ascii ", content-length ").length = 17 := rfl
  simp only [l1, l2, l3, l4, l5, l6, l7, l8, l9, l10, ← Nat.add_assoc]
  clear l1 l2 l3 l4 l5 l6 l7 l8 l9 l10
  omega

theorem quiet_http (w : LogAt) (n : Int) (me ho ta qu : Text) (m1 : (10 : UInt8) ∉ me) (m2 : (10 : UInt8) ∉ ho) (m3 : (10 : UInt8) ∉ ta) (m4 : (10 : UInt8) ∉ qu) :
    quiet (origin (ascii "sps_http_phase_handler.cpp") w ++
      [.lit (ascii "Request "), .text [], .lit (ascii ":"), .num n, .lit (ascii " "), .text me, .lit (ascii " "), .text ho,
       .lit (ascii " "), .text ta, .lit (ascii " "), .text qu, .lit (ascii ", chunked "), .num 0, .lit (ascii ", content-length "), .num (-1)]) := by
  intro z hz
  simp only [origin, List.mem_append, List.mem_cons, List.not_mem_nil, or_false, reduceCtorEq, false_or, Piece.text.injEq, Piece.lit.injEq] at hz
  rcases hz with ((rfl | rfl | rfl | rfl) | (rfl | rfl | rfl | rfl | rfl | rfl | rfl | rfl)) | (rfl | (rfl | rfl | rfl | rfl | rfl)) <;> first | assumption | decide

/-- The parts of the line of a request. -/
def httpParts (w : LogAt) (a : Ask) : List Piece := origin (ascii "sps_http_phase_handler.cpp") w ++
      [.lit (ascii "Request "), .text [], .lit (ascii ":"), .num (((a.port.bind (Http.decValue 0)).getD 80 : Nat) : Int), .lit (ascii " "), .text a.method, .lit (ascii " "), .text a.host,
       .lit (ascii " "), .text a.target, .lit (ascii " "), .text (a.query.getD []), .lit (ascii ", chunked "), .num 0, .lit (ascii ", content-length "), .num (-1)]

theorem http_parts (p : Parsers) (hp : Reads p) (a : Ask) (ok : a.Ok) (hno : (37 : UInt8) ∉ a.target) (w : LogAt) (hw : At w) (c : Sps.HttpConn) (rest : List UInt8)
    (cl : Err) (ha : Arrives c.io (a.text ++ rest) cl) : (∀ q ∈ httpParts w a, q.Ok) ∧ clean (httpParts w a) ∧ quiet (httpParts w a) ∧
    ∀ l, printf w.time (fmt (httpParts w a ++ [.lit (ascii "\r\n")])) (args (httpParts w a ++ [.lit (ascii "\r\n")])) = some l → ∃ r, HttpSite.parseLogged p w c = .ok (r, l) := by
  obtain ⟨u, io', -, -, -, -, h5⟩ := parse_logged hp ok w ha
  have hq : ∀ b ∈ a.query.getD [], Names.graph b := by
    cases h : a.query with
    | none => simp
    | some q => exact fun b hb => ((ok.query q h).2 b hb).1
  obtain ⟨hqt, hql⟩ := query_sub a
  have hsplit : origin (ascii "sps_http_phase_handler.cpp") w ++ httpLine a = httpParts w a ++ [.lit (ascii "\r\n")] := by
    unfold httpParts; rw [List.append_assoc]; rfl
  have hall : ∀ q ∈ origin (ascii "sps_http_phase_handler.cpp") w ++ httpLine a, q.Ok := by
    intro q hq
    rcases List.mem_append.1 hq with hq | hq
    · exact origin_ok (by decide) hw q hq
    · exact ask_ok ok q hq
  rw [hsplit] at hall h5
  refine ⟨last_part hall, ?_, ?_, fun l k1 => ?_⟩
  · intro z hz
    simp only [httpParts, origin, List.mem_append, List.mem_cons, List.not_mem_nil, or_false, reduceCtorEq, false_or, Piece.text.injEq] at hz
    rcases hz with rfl | rfl | rfl | rfl | rfl | rfl
    · decide
    · simp
    · exact method_percent ok
    · exact host_percent ok.host
    · exact hno
    · exact fun h => hno (hqt _ h)
  · exact quiet_http w _ _ _ _ _ (graph_feed (HttpConn.method_chars ok).2) (graph_feed (HttpConn.host_chars ok.host)) (graph_feed (HttpConn.target_chars ok)) (graph_feed hq)
  · rw [k1] at h5
    exact ⟨_, h5⟩

/-- **C120** (HTTP). A request without `%` in its target whose header has at most 1500 bytes makes one line of the log, however its bytes arrive. Missing: a longer one may make less than a line
(`C120_negation_long`), one with `%` ends the process (C113). -/
theorem C120_http_partial (p : Parsers) (hp : Reads p) (a : Ask) (ok : a.Ok) (hno : (37 : UInt8) ∉ a.target) (hlen : a.text.length ≤ 1500) (w : LogAt) (hw : At w) (c : Sps.HttpConn) (rest : List UInt8)
    (cl : Err) (ha : Arrives c.io (a.text ++ rest) cl) : ∃ r l, HttpSite.parseLogged p w c = .ok (r, l) ∧ OneLine l := by
  obtain ⟨h1, h2, h3, h4⟩ := http_parts p hp a ok hno w hw c rest cl ha
  obtain ⟨l, k1, k2⟩ := printf_line w.time _ h1 h2 h3 (room_http w _ _ _ _ _ (text_sum hlen) (query_sub a).2)
  obtain ⟨r, h5⟩ := h4 l k1
  exact ⟨r, l, h5, k2⟩

/-- **C120** fails for HTTP: target and query of a long request do not fit the line together. 4095 bytes are printed without an end of line, and what is logged next continues the line. -/
theorem C120_negation_long (p : Parsers) (hp : Reads p) (a : Ask) (ok : a.Ok) (hno : (37 : UInt8) ∉ a.target) (hlen : 4022 ≤ a.target.length + (a.query.getD []).length) (w : LogAt) (hw : At w)
    (c : Sps.HttpConn) (rest : List UInt8) (cl : Err) (ha : Arrives c.io (a.text ++ rest) cl) : ∃ r l, HttpSite.parseLogged p w c = .ok (r, l) ∧ (10 : UInt8) ∉ l ∧ l.length = 4095 := by
  obtain ⟨h1, h2, h3, h4⟩ := http_parts p hp a ok hno w hw c rest cl ha
  obtain ⟨l, k1, k2⟩ := printf_cut w.time _ h1 h2 h3 (floor_http w _ _ _ _ _ hlen)
  obtain ⟨r, h5⟩ := h4 l k1
  exact ⟨r, l, h5, k2⟩

/-- **C120** (RTMP). An RTMP client whose URL has no `%` and at most 3000 bytes makes one line.

Missing: longer URLs (`C120_negation_long` for HTTP) and a single `%` (C113). -/
theorem C120_rtmp_partial (site : RtmpSite) (hp : Names.ReadsUrls site.parser) (w : LogAt) (hw : At w) (ip : Text) (port : Int) (hpeer : Peer ip port) (hip : (10 : UInt8) ∉ ip) (c : RtmpCaller)
    (cl : RtmpConn.User) (ok : cl.Ok) (ms : List AmfMsg) (hc : Sps.RtmpConn.Calls c cl ms) (hno : (37 : UInt8) ∉ urlOf cl) (hlen : (urlOf cl).length ≤ 3000) :
    ∃ a l, site.arriveLogged w ip port c = some (a, l) ∧ OneLine l := by
  obtain ⟨a, h1, h2⟩ := rtmp_logged site hp w ip port c cl ok ms hc
  have hsplit : origin (ascii "sps_rtmp_server_handler.cpp") w ++ rtmpLine ip port (urlOf cl) = (origin (ascii "sps_rtmp_server_handler.cpp") w ++
      [.lit (ascii "Request client "), .text ip, .lit (ascii ":"), .num port, .lit (ascii ", "), .text (urlOf cl)]) ++ [.lit (ascii "\r\n")] := by
    rw [List.append_assoc]; rfl
  have hall : ∀ q ∈ origin (ascii "sps_rtmp_server_handler.cpp") w ++ rtmpLine ip port (urlOf cl), q.Ok := by
    intro q hq
    rcases List.mem_append.1 hq with hq | hq
    · exact origin_ok (by decide) hw q hq
    · exact rtmp_ok hpeer.text.1 hpeer.port (url_ne0 ok) q hq
  rw [hsplit] at hall h2
  have hu : (10 : UInt8) ∉ urlOf cl := by
    have h1 := graph_feed (HttpConn.host_chars ok.stream.host)
    have h2 := graph_feed (HttpConn.port_chars ok.port)
    have h3 : (10 : UInt8) ∉ cl.stream.path := graph_feed fun b hb => ((Sps.Names.Stream.pathOk ok.stream).2 b hb).1
    have h4 : (10 : UInt8) ∉ Names.opt 63 cl.query := by
      cases h : cl.query with
      | none => simp [Names.opt]
      | some q =>
        have : (10 : UInt8) ∉ q := graph_feed fun b hb => ((ok.query q h).2 b hb).1
        simp [Names.opt, this]
    have h5 : (10 : UInt8) ∉ ascii "rtmp" := by decide
    have h6 : (10 : UInt8) ∉ ascii "://" := by decide
    unfold urlOf Names.Parts.text
    simp only [List.mem_append, not_or]
    exact ⟨⟨⟨⟨⟨h5, h6⟩, h1⟩, h2⟩, h3⟩, h4⟩
  obtain ⟨l, k1, k2⟩ := printf_line w.time _ (last_part hall)
    (by
      intro z hz
      simp only [origin, List.mem_append, List.mem_cons, List.not_mem_nil, or_false, reduceCtorEq, false_or, Piece.text.injEq] at hz
      rcases hz with rfl | rfl | rfl
      · decide
      · exact hpeer.text.2
      · exact hno)
    (by
      intro z hz
      simp only [origin, List.mem_append, List.mem_cons, List.not_mem_nil, or_false, reduceCtorEq, false_or, Piece.text.injEq, Piece.lit.injEq] at hz
      rcases hz with ((rfl | rfl | rfl | rfl) | (rfl | rfl | rfl)) | (rfl | (rfl | rfl)) <;> first | assumption | decide)
    (by
      simp only [origin, List.cons_append, List.nil_append, room]
      have := hpeer.short
      have l1 : (ascii "[").length = 1 := rfl
      have l2 : (ascii "sps_rtmp_server_handler.cpp").length = 27 := rfl
      have l3 : (ascii ":").length = 1 := rfl
      have l4 : (ascii "] [").length = 3 := rfl
      have l5 : (ascii "] ").length = 2 := rfl
      have l6 : (ascii "Request client ").length = 15 := rfl
      have l7 : (ascii ", ").length = 2 := rfl
      simp only [l1, l2, l3, l4, l5, l6, l7, ← Nat.add_assoc]
      clear l1 l2 l3 l4 l5 l6 l7
      omega)
  rw [k1] at h2
  exact ⟨a, l, h2, k2⟩

theorem last_short {k v : Text} {a : SrtLive.Id} (h : Spec.Net.Last k a.pairs v) : v.length ≤ a.text.length := by
  rcases h with ⟨x, c, h, -⟩ | ⟨-, rfl⟩
  · unfold SrtLive.Id.text Spec.Net.renderTrail
    rw [h]
    simp
    omega
  · simp

theorem srt_tail (s : SrtSite) (hp : Names.ReadsUrls s.parser) (w : LogAt) (hw : At w) (a : SrtLive.Id) (st : Names.Stream) (mode : Text) (af : a.For st mode) (h0 : (0 : UInt8) ∉ a.text)
    (hno : (37 : UInt8) ∉ a.text) (hlen : a.text.length ≤ 512) (io : Io) (fails : List Err) (mem tag : List UInt8) :
    ∃ b, s.arriveLogged w a.text io fails mem tag = some (s.arrive a.text io fails mem tag, b ++ ascii "\r\n") ∧ ((10 : UInt8) ∉ a.text → (10 : UInt8) ∉ b) ∧ ∃ x y, b = x ++ a.text ++ y := by
  have hall := srt_all af h0 hw
  have e := srt_logged s hp w a st mode af io fails mem tag
  have hsplit : origin (ascii "sps_srt_server_handler.cpp") w ++ srtLine a.text (ascii "srt://" ++ (st.host ++ st.path)) mode = (origin (ascii "sps_srt_server_handler.cpp") w ++
      [.lit (ascii "success parse srt streamid "), .text a.text, .lit (ascii ", url "), .text (ascii "srt://" ++ (st.host ++ st.path)), .lit (ascii ", mode "), .text mode]) ++ [.lit (ascii "\r\n")] := by
    rw [List.append_assoc]; rfl
  rw [hsplit] at hall e
  have hu : ∀ b, b ∉ a.text → b ∉ ascii "srt://" → b ∉ ascii "srt://" ++ (st.host ++ st.path) := by
    intro b h1 h2 h
    rcases List.mem_append.1 h with h | h
    · exact h2 h
    · exact h1 (last_mem af.resource _ h)
  obtain ⟨b, k1, k2, k3⟩ := printf_tail w.time _ (last_part hall)
    (by
      intro z hz
      simp only [origin, List.mem_append, List.mem_cons, List.not_mem_nil, or_false, reduceCtorEq, false_or, Piece.text.injEq] at hz
      rcases hz with rfl | rfl | rfl | rfl
      · decide
      · exact hno
      · exact hu _ hno (by decide)
      · exact fun h => hno (last_mem af.mode _ h))
    (by
      simp only [origin, List.cons_append, List.nil_append, room]
      have l1 : (ascii "[").length = 1 := rfl
      have l2 : (ascii "sps_srt_server_handler.cpp").length = 26 := rfl
      have l3 : (ascii ":").length = 1 := rfl
      have l4 : (ascii "] [").length = 3 := rfl
      have l5 : (ascii "] ").length = 2 := rfl
      have l6 : (ascii "success parse srt streamid ").length = 27 := rfl
      have l7 : (ascii ", url ").length = 6 := rfl
      have l8 : (ascii ", mode ").length = 7 := rfl
      have l9 : (ascii "srt://").length = 6 := rfl
      have m1 := Nat.le_trans (last_short af.resource) hlen
      have m2 := Nat.le_trans (last_short af.mode) hlen
      simp only [List.length_append] at m1 ⊢
      simp only [l1, l2, l3, l4, l5, l6, l7, l8, l9, ← Nat.add_assoc]
      clear l1 l2 l3 l4 l5 l6 l7 l8 l9
      omega)
  rw [k1] at e
  refine ⟨b, e, fun hfeed => k2 ?_, k3 _ (by simp)⟩
  intro z hz
  simp only [origin, List.mem_append, List.mem_cons, List.not_mem_nil, or_false, reduceCtorEq, false_or, Piece.text.injEq, Piece.lit.injEq] at hz
  have m1 := hu _ hfeed (by decide)
  have m2 : (10 : UInt8) ∉ mode := fun h => hfeed (last_mem af.mode _ h)
  rcases hz with ((rfl | rfl | rfl | rfl) | (rfl | rfl | rfl)) | (rfl | (rfl | rfl | rfl)) <;> first | assumption | decide

/-- **C120** (SRT). An SRT client whose stream id has neither `%` nor a line feed and at most 512 bytes (the limit of SRT) makes one line. Missing: ids with a line feed (`C120_negation_srt`). -/
theorem C120_srt_partial (s : SrtSite) (hp : Names.ReadsUrls s.parser) (w : LogAt) (hw : At w) (a : SrtLive.Id) (st : Names.Stream) (mode : Text) (af : a.For st mode) (h0 : (0 : UInt8) ∉ a.text)
    (hno : (37 : UInt8) ∉ a.text) (hfeed : (10 : UInt8) ∉ a.text) (hlen : a.text.length ≤ 512) (io : Io) (fails : List Err) (mem tag : List UInt8) :
    ∃ r l, s.arriveLogged w a.text io fails mem tag = some (r, l) ∧ OneLine l := by
  obtain ⟨b, h1, h2, -⟩ := srt_tail s hp w hw a st mode af h0 hno hlen io fails mem tag
  exact ⟨_, _, h1, b, rfl, h2 hfeed⟩

/-- **C120** fails for SRT: a stream id with a line feed is written to the log as it is, so what is behind the line feed is a line of the client's choice; and the client is treated as any other. -/
theorem C120_negation_srt (s : SrtSite) (hp : Names.ReadsUrls s.parser) (w : LogAt) (hw : At w) (a : SrtLive.Id) (st : Names.Stream) (mode : Text) (af : a.For st mode) (h0 : (0 : UInt8) ∉ a.text)
    (hno : (37 : UInt8) ∉ a.text) (hfeed : (10 : UInt8) ∈ a.text) (hlen : a.text.length ≤ 512) (io : Io) (fails : List Err) (mem tag : List UInt8) :
    ∃ l, s.arriveLogged w a.text io fails mem tag = some (s.arrive a.text io fails mem tag, l) ∧ (∃ x y, l = x ++ a.text ++ y) ∧ ¬ OneLine l := by
  obtain ⟨b, h1, -, x, y, e⟩ := srt_tail s hp w hw a st mode af h0 hno hlen io fails mem tag
  refine ⟨_, h1, ⟨x, y ++ ascii "\r\n", by rw [e]; simp⟩, fun ⟨b', h2, h3⟩ => h3 ?_⟩
  rw [← List.append_cancel_right h2, e]
  simp [hfeed]

/-! ## Cases -/

/-- Requests of the theorems. -/
example : plainAsk.text.length ≤ 1500 := by decide +kernel
example : (10 : UInt8) ∉ ascii "10.0.0.7" ∧ (urlOf (Sps.RtmpConn.user true)).length ≤ 3000 := by decide +kernel
example : (10 : UInt8) ∉ plainId.text ∧ plainId.text.length ≤ 512 := by decide +kernel

/-- A stream id with a line of its own for the log. -/
def forgedId : SrtLive.Id := ⟨[(ascii "u", ascii "x\r\n[2026-11-06 09:05:07.042] admin logged in"), (ascii "h", ascii "a.com/live/x"), (ascii "m", ascii "request")], []⟩
theorem forgedId_for : forgedId.For Sps.RtmpConn.stream (ascii "request") :=
  ⟨Sps.RtmpConn.stream_ok, by unfold Spec.Net.word; decide +kernel, by decide +kernel, .inl ⟨[(ascii "u", ascii "x\r\n[2026-11-06 09:05:07.042] admin logged in")], [(ascii "m", ascii "request")], rfl, by decide +kernel⟩,
    .inl ⟨[(ascii "u", ascii "x\r\n[2026-11-06 09:05:07.042] admin logged in"), (ascii "h", ascii "a.com/live/x")], [], rfl, by decide +kernel⟩⟩
example : ∃ l, srtServer.arriveLogged here forgedId.text { evs := [], closed := Err.ERROR_IO_EOF } [] [] [] = some (srtServer.arrive forgedId.text { evs := [], closed := Err.ERROR_IO_EOF } [] [] [], l) ∧
    (∃ x y, l = x ++ forgedId.text ++ y) ∧ ¬ OneLine l :=
  C120_negation_srt srtServer Sps.Names.readsUrls_readUrl here at_here forgedId _ _ forgedId_for (by decide +kernel) (by decide +kernel) (by decide +kernel) (by decide +kernel) _ _ _ _

/-- A request with a query of 2013 bytes. -/
def longAsk : Ask := { method := ascii "GET", path := ascii "/x", query := some (List.replicate 2013 97), host := ascii "a.com" }
theorem longAsk_ok : longAsk.Ok :=
  ⟨by decide, by decide +kernel, by intro t h; cases h; unfold Names.graph; decide +kernel, by decide +kernel, (by intro t h; cases h), (by intro f hf; cases hf), by decide +kernel⟩
example : (37 : UInt8) ∉ longAsk.target ∧ 4022 ≤ longAsk.target.length + (longAsk.query.getD []).length := by decide +kernel

end Sps.Log
