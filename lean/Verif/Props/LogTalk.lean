import Verif.Model.LogTalk
import Verif.Spec.LogTalk
import Verif.Props.Log
/-!
# C113: the log during an RTMP negotiation
-/
namespace Sps.Log
open Spec Spec.Log Spec.Rtmp

theorem play_fmt (s : Text) : fmt (playPieces s) = ascii "Play stream %s, playing: %d" ++ ascii "\r\n" := by
  simp only [playPieces, fmt]; decide +kernel
theorem publish_fmt (s y : Text) : fmt (publishPieces s y) = ascii "Publish stream %s, %s, playing %d" ++ ascii "\r\n" := by
  simp only [publishPieces, fmt]; decide +kernel

theorem play_line (w : LogAt) (s : Text) : PreRequest.playLine w (47 :: s) = Log.printf w.time (fmt (origin rtmpFile w ++ playPieces s)) (args (origin rtmpFile w ++ playPieces s)) :=
  trace_pieces w _ _ (playPieces s) (play_fmt s)
theorem publish_line (w : LogAt) (s y : Text) :
    PreRequest.publishLine w (47 :: s) y = Log.printf w.time (fmt (origin rtmpFile w ++ publishPieces s y)) (args (origin rtmpFile w ++ publishPieces s y)) :=
  trace_pieces w _ _ (publishPieces s y) (publish_fmt s y)

theorem play_ok {s : Text} (h : (0 : UInt8) ∉ s) : ∀ p ∈ playPieces s, p.Ok := by
  intro p hp
  simp only [playPieces, List.mem_cons, List.not_mem_nil, or_false] at hp
  rcases hp with rfl | rfl | rfl | rfl | rfl
  · show (37 : UInt8) ∉ ascii "Play stream "; decide
  · show (0 : UInt8) ∉ 47 :: s; simp [h]
  · show (37 : UInt8) ∉ ascii ", playing: "; decide
  · show (0 : Int).natAbs < 2 ^ 64; decide
  · show (37 : UInt8) ∉ ascii "\r\n"; decide
theorem publish_ok {s y : Text} (h : (0 : UInt8) ∉ s) (h' : (0 : UInt8) ∉ y) : ∀ p ∈ publishPieces s y, p.Ok := by
  intro p hp
  simp only [publishPieces, List.mem_cons, List.not_mem_nil, or_false] at hp
  rcases hp with rfl | rfl | rfl | rfl | rfl | rfl | rfl
  · show (37 : UInt8) ∉ ascii "Publish stream "; decide
  · show (0 : UInt8) ∉ 47 :: s; simp [h]
  · show (37 : UInt8) ∉ ascii ", "; decide
  · exact h'
  · show (37 : UInt8) ∉ ascii ", playing "; decide
  · show (0 : Int).natAbs < 2 ^ 64; decide
  · show (37 : UInt8) ∉ ascii "\r\n"; decide

/-- What should be said is well formed if its texts are plain. -/
theorem says_ok {m : AmfMsg} {ps : List Piece} (h : Says m ps) (hp : ∀ x, Piece.text x ∈ ps → Plain x) : ∀ p ∈ ps, p.Ok := by
  cases h with
  | @play _ s _ =>
    refine play_ok fun h0 => (hp (47 :: s) (by simp [playPieces])).1 (by simp [h0])
  | @publish _ s y _ =>
    refine publish_ok (fun h0 => (hp (47 :: s) (by simp [publishPieces])).1 (by simp [h0])) (hp y (by simp [publishPieces])).1

theorem says_prints {m : AmfMsg} {ps : List Piece} (h : Says m ps) (hp : ∀ x, Piece.text x ∈ ps → Plain x) (w : LogAt) (hw : At w) :
    ∃ l, Log.printf w.time (fmt (origin rtmpFile w ++ ps)) (args (origin rtmpFile w ++ ps)) = some l ∧ Prints w.time (origin rtmpFile w ++ ps) l := by
  refine printf_clean w.time hw.2.2 _ ?_ ?_
  · intro q hq
    rcases List.mem_append.1 hq with hq | hq
    · exact origin_ok (by decide) hw q hq
    · exact says_ok h hp q hq
  · intro x hx
    rcases List.mem_append.1 hx with hx | hx
    · simp only [origin, List.mem_cons, List.not_mem_nil, or_false, reduceCtorEq, false_or, Piece.text.injEq] at hx
      subst hx; decide
    · exact (hp x hx).2

theorem told_later {w : LogAt} {b b' : PreRequest} {ms : List AmfMsg} {r : Err × PreRequest × List AmfMsg} {l : Text} (pre : List AmfMsg) (hb : b.streamParams = b'.streamParams) (h : Told w b ms r l) :
    Told w b' (pre ++ ms) r l := by
  rcases h with ⟨h1, h2, h3⟩ | ⟨a, m, ps, h1, h2, h3⟩
  · exact Or.inl ⟨h1, h2, h3.trans hb⟩
  · exact Or.inr ⟨pre ++ a, m, ps, by rw [h1]; simp, h2, h3⟩

theorem send_params (s : PreRequest) (r : RtmpReply) : (s.send r).2.streamParams = s.streamParams := by
  unfold PreRequest.send; split <;> rfl
theorem sendAll_params (rs : List RtmpReply) : ∀ s : PreRequest, (s.sendAll rs).2.streamParams = s.streamParams := by
  induction rs with
  | nil => intro s; rfl
  | cons r rs ih =>
    intro s
    rw [PreRequest.sendAll]
    simp only
    split
    · exact send_params s r
    · rw [ih]; exact send_params s r

/-- The second loop with its lines. -/
theorem serve_logged (w : LogAt) (hw : At w) (closed : Err) (hc : closed ≠ Err.SUCCESS) (ms : List AmfMsg) : ∀ (s : PreRequest), PlainTalk ms →
    (∀ r, PreRequest.serve closed s ms = some r → ∃ l, PreRequest.serveLogged w closed s ms = some (r, l) ∧ Told w s ms r l) := by
  induction ms with
  | nil => intro s _ r h; rw [PreRequest.serve] at h; cases h; exact ⟨[], rfl, Or.inl ⟨rfl, hc, rfl⟩⟩
  | cons m ms ih =>
    intro s hpl r h
    have hpl' : PlainTalk ms := fun m hm => hpl m (List.mem_cons_of_mem _ hm)
    have lift : ∀ s', s'.streamParams = s.streamParams → (PreRequest.serve closed s' ms = some r) → ∃ l, PreRequest.serveLogged w closed s' ms = some (r, l) ∧ Told w s (m :: ms) r l := by
      intro s' e h'
      obtain ⟨l, h1, h2⟩ := ih s' hpl' r h'
      exact ⟨l, h1, told_later [m] e h2⟩
    rw [PreRequest.serve] at h
    rw [PreRequest.serveLogged]
    rcases hd : RtmpCmd.decode m.type m.amf m.len with _ | ⟨e, c⟩
    · rw [hd] at h; simp at h
    rw [hd] at h
    simp only [Option.bind_eq_bind, Option.bind_some, Option.pure_def] at h ⊢
    by_cases he : e ≠ Err.SUCCESS
    · rw [if_pos he] at h ⊢; cases h; exact ⟨[], rfl, Or.inl ⟨rfl, he, rfl⟩⟩
    rw [if_neg he] at h ⊢
    have he' : e = Err.SUCCESS := not_not.1 he
    subst he'
    match c, hd, h with
    | none, _, h => exact lift s rfl h
    | some (.connect _ _ _), _, h => exact lift s rfl h
    | some (.createStream txn), _, h =>
      simp only at h ⊢
      by_cases h2 : (s.send (.result txn 1)).1 ≠ Err.SUCCESS
      · rw [if_pos h2] at h ⊢; cases h; exact ⟨[], rfl, Or.inl ⟨rfl, h2, send_params ..⟩⟩
      · rw [if_neg h2] at h ⊢; exact lift _ (send_params ..) h
    | some (.fcPublish txn _), _, h =>
      simp only at h ⊢
      by_cases h2 : (s.send (.result txn 0)).1 ≠ Err.SUCCESS
      · rw [if_pos h2] at h ⊢; cases h; exact ⟨[], rfl, Or.inl ⟨rfl, h2, send_params ..⟩⟩
      · rw [if_neg h2] at h ⊢; exact lift _ (send_params ..) h
    | some (.releaseStream txn _), _, h =>
      simp only at h ⊢
      by_cases h2 : (s.send (.result txn 0)).1 ≠ Err.SUCCESS
      · rw [if_pos h2] at h ⊢; cases h; exact ⟨[], rfl, Or.inl ⟨rfl, h2, send_params ..⟩⟩
      · rw [if_neg h2] at h ⊢; exact lift _ (send_params ..) h
    | some (.play txn st), hd, h =>
      have hs : Says m (playPieces st) := .play hd
      obtain ⟨l, k1, k2⟩ := says_prints hs (hpl m (List.mem_cons_self ..) _ hs) w hw
      rw [← play_line] at k1
      refine ⟨l, ?_, ?_⟩
      · simp only [k1, Option.bind_some] at h ⊢
        split at h
        · rename_i h2; rw [if_pos h2]; cases h; rfl
        · rename_i h2; rw [if_neg h2]; cases h; rfl
      · refine Or.inr ⟨[], m, _, ?_, hs, k2⟩
        simp only at h
        split at h <;> cases h <;> rfl
    | some (.publish txn st y), hd, h =>
      have hs : Says m (publishPieces st y) := .publish hd
      obtain ⟨l, k1, k2⟩ := says_prints hs (hpl m (List.mem_cons_self ..) _ hs) w hw
      rw [← publish_line] at k1
      refine ⟨l, ?_, ?_⟩
      · simp only [k1, Option.bind_some] at h ⊢
        split at h
        · rename_i h2; rw [if_pos h2]; cases h; rfl
        · rename_i h2; rw [if_neg h2]; cases h; rfl
      · refine Or.inr ⟨[], m, _, ?_, hs, k2⟩
        simp only at h
        split at h <;> cases h <;> rfl

theorem wait_rest (closed : Err) (ms : List AmfMsg) : ∀ s e txn s' rest, PreRequest.waitConnect closed s ms = some (e, txn, s', rest) →
    (∃ a, ms = a ++ rest) ∧ s'.streamParams = s.streamParams := by
  induction ms with
  | nil => intro s e txn s' rest h; rw [PreRequest.waitConnect] at h; cases h; exact ⟨⟨[], rfl⟩, rfl⟩
  | cons m ms ih =>
    intro s e txn s' rest h
    rw [PreRequest.waitConnect] at h
    rcases hd : RtmpCmd.decode m.type m.amf m.len with _ | ⟨e1, c⟩
    · rw [hd] at h; simp at h
    rw [hd] at h
    simp only [Option.bind_eq_bind, Option.bind_some, Option.pure_def] at h
    split at h
    · cases h; exact ⟨⟨[m], rfl⟩, rfl⟩
    · split at h
      · cases h; exact ⟨⟨[m], rfl⟩, rfl⟩
      · obtain ⟨⟨a, h1⟩, h2⟩ := ih _ _ _ _ _ h
        exact ⟨⟨m :: a, by rw [h1]; rfl⟩, h2⟩

/-- **C113**, every RTMP negotiation, of any messages and with any failing sends, in which the streams named and the ways of publishing have no `%`: what becomes of it is what becomes of it without logging,
and if a stream is named a line says which. Missing: texts with `%`, see the negation. -/
theorem C113_negotiation_partial (w : LogAt) (hw : At w) (closed : Err) (hc : closed ≠ Err.SUCCESS) (s : PreRequest) (ms : List AmfMsg) (hpl : PlainTalk ms) (r : Err × PreRequest × List AmfMsg)
    (h : PreRequest.connect closed s ms = some r) :
    ∃ l, PreRequest.connectLogged w closed s ms = some (r, l) ∧ Told w s ms r l := by
  unfold PreRequest.connect at h
  unfold PreRequest.connectLogged
  rcases hwc : PreRequest.waitConnect closed s ms with _ | ⟨e, txn, s1, rest⟩
  · rw [hwc] at h; simp at h
  obtain ⟨⟨a, ha⟩, hs1⟩ := wait_rest closed ms _ _ _ _ _ hwc
  rw [hwc] at h
  simp only [Option.bind_eq_bind, Option.bind_some, Option.pure_def] at h ⊢
  by_cases he : e ≠ Err.SUCCESS
  · rw [if_pos he] at h ⊢; cases h; exact ⟨[], rfl, Or.inl ⟨rfl, he, hs1⟩⟩
  rw [if_neg he] at h ⊢
  by_cases he2 : (s1.sendAll [.ackWindow, .peerBandwidth, .chunkSize, .connectResult txn]).1 ≠ Err.SUCCESS
  · rw [if_pos he2] at h ⊢; cases h; exact ⟨[], rfl, Or.inl ⟨rfl, he2, (sendAll_params _ _).trans hs1⟩⟩
  rw [if_neg he2] at h ⊢
  obtain ⟨l, h1, h2⟩ := serve_logged w hw closed hc rest _ (fun m hm => hpl m (by rw [ha]; simp [hm])) r h
  refine ⟨l, h1, ?_⟩
  rw [ha]
  exact told_later a ((sendAll_params _ _).trans hs1) h2

attribute [local irreducible] PreRequest.playLine PreRequest.publishLine in
theorem serve_same (w : LogAt) (closed : Err) (ms : List AmfMsg) : ∀ s r l, PreRequest.serveLogged w closed s ms = some (r, l) → PreRequest.serve closed s ms = some r := by
  induction ms with
  | nil => intro s r l h; rw [PreRequest.serveLogged] at h; cases h; rfl
  | cons m ms ih =>
    intro s r l h
    rw [PreRequest.serveLogged] at h
    rw [PreRequest.serve]
    rcases hd : RtmpCmd.decode m.type m.amf m.len with _ | ⟨e, c⟩
    · rw [hd] at h; simp at h
    rw [hd] at h
    simp only [Option.bind_eq_bind, Option.bind_some, Option.pure_def] at h ⊢
    by_cases he : e ≠ Err.SUCCESS
    · rw [if_pos he] at h ⊢; cases h; rfl
    rw [if_neg he] at h ⊢
    rcases c with _ | c
    · exact ih _ _ _ h
    cases c with
    | connect _ _ _ => exact ih _ _ _ h
    | createStream txn =>
      simp only at h ⊢
      split at h
      · rename_i h2; rw [if_pos h2]; cases h; rfl
      · rename_i h2; rw [if_neg h2]; exact ih _ _ _ h
    | fcPublish txn _ =>
      simp only at h ⊢
      split at h
      · rename_i h2; rw [if_pos h2]; cases h; rfl
      · rename_i h2; rw [if_neg h2]; exact ih _ _ _ h
    | releaseStream txn _ =>
      simp only at h ⊢
      split at h
      · rename_i h2; rw [if_pos h2]; cases h; rfl
      · rename_i h2; rw [if_neg h2]; exact ih _ _ _ h
    | play txn st =>
      simp only at h ⊢
      obtain ⟨l', -, h⟩ := Option.bind_eq_some_iff.1 h
      split at h
      · rename_i h2; rw [if_pos h2]; cases h; rfl
      · rename_i h2; rw [if_neg h2]; cases h; rfl
    | publish txn st y =>
      simp only at h ⊢
      obtain ⟨l', -, h⟩ := Option.bind_eq_some_iff.1 h
      split at h
      · rename_i h2; rw [if_pos h2]; cases h; rfl
      · rename_i h2; rw [if_neg h2]; cases h; rfl

/-- **C113**, logging changes nothing else, whatever the messages: if the negotiation with its lines ends, it ends as without. -/
theorem C113_negotiation_same (w : LogAt) (closed : Err) (s : PreRequest) (ms : List AmfMsg) (r : Err × PreRequest × List AmfMsg) (l : Text)
    (h : PreRequest.connectLogged w closed s ms = some (r, l)) : PreRequest.connect closed s ms = some r := by
  unfold PreRequest.connectLogged at h
  unfold PreRequest.connect
  rcases hwc : PreRequest.waitConnect closed s ms with _ | ⟨e, txn, s1, rest⟩
  · rw [hwc] at h; simp at h
  rw [hwc] at h
  simp only [Option.bind_eq_bind, Option.bind_some, Option.pure_def] at h ⊢
  by_cases he : e ≠ Err.SUCCESS
  · rw [if_pos he] at h ⊢; cases h; rfl
  rw [if_neg he] at h ⊢
  by_cases he2 : (s1.sendAll [.ackWindow, .peerBandwidth, .chunkSize, .connectResult txn]).1 ≠ Err.SUCCESS
  · rw [if_pos he2] at h ⊢; cases h; rfl
  rw [if_neg he2] at h ⊢
  exact serve_same w closed _ _ _ _ h

/-- The messages that set the connection up are served without a line. -/
theorem serve_setup (w : LogAt) (closed : Err) (mid : List AmfMsg) (hmid : ∀ m ∈ mid, setup m) (start : AmfMsg) (t : Nat) (st y : Text)
    (hs : decoded start = some (Err.SUCCESS, some (.publish t st y))) (rest : List AmfMsg) (hl : PreRequest.publishLine w (47 :: st) y = none) :
    ∀ s : PreRequest, s.fails = [] → PreRequest.serveLogged w closed s (mid ++ start :: rest) = none := by
  have sf : ∀ (s : PreRequest) r, s.fails = [] → (s.send r).1 = Err.SUCCESS ∧ (s.send r).2.fails = [] := by
    intro s r h; unfold PreRequest.send; rw [h]; exact ⟨rfl, rfl⟩
  induction mid with
  | nil =>
    intro s _
    have hs' : RtmpCmd.decode start.type start.amf start.len = some (Err.SUCCESS, some (.publish t st y)) := hs
    rw [List.nil_append, PreRequest.serveLogged, hs']
    simp [hl]
  | cons m mid ih =>
    intro s hf
    have ih := ih fun m hm => hmid m (List.mem_cons_of_mem _ hm)
    obtain ⟨c, hd, h1, h2⟩ := hmid m (List.mem_cons_self ..)
    have hd' : RtmpCmd.decode m.type m.amf m.len = some (Err.SUCCESS, c) := hd
    rw [List.cons_append, PreRequest.serveLogged, hd']
    simp only [Option.bind_eq_bind, Option.bind_some, Option.pure_def]
    rw [if_neg (by simp)]
    match c, h1, h2 with
    | none, _, _ => exact ih s hf
    | some (.connect _ _ _), _, _ => exact ih s hf
    | some (.createStream txn), _, _ => simp only; rw [if_neg (by simp [(sf s (.result txn 1) hf).1])]; exact ih _ (sf s _ hf).2
    | some (.fcPublish txn _), _, _ => simp only; rw [if_neg (by simp [(sf s (.result txn 0) hf).1])]; exact ih _ (sf s _ hf).2
    | some (.releaseStream txn _), _, _ => simp only; rw [if_neg (by simp [(sf s (.result txn 0) hf).1])]; exact ih _ (sf s _ hf).2
    | some (.play t s), h1, _ => exact absurd rfl (h1 t s)
    | some (.publish t s y), _, h2 => exact absurd rfl (h2 t s y)

/-- Against **C113**: a way of publishing with a `%` that is not doubled ends the negotiation in undefined behaviour, whatever stream is published, though the way of publishing has no other effect: without
logging the publisher is served. -/
theorem C113_negation_type (w : LogAt) (hw : At w) (closed : Err) (hc : closed ≠ Err.SUCCESS) (pre mid rest : List AmfMsg) (con start : AmfMsg) (txn : Nat) (app url : Text) (t : Nat) (st y : Text)
    (hpre : ∀ m ∈ pre, idle m) (hcon : decoded con = some (Err.SUCCESS, some (.connect txn app url))) (hmid : ∀ m ∈ mid, setup m)
    (hs : decoded start = some (Err.SUCCESS, some (.publish t st y))) (hst : Plain st) (hy : (0 : UInt8) ∉ y) (hper : Percent y) (hlen : st.length + y.length ≤ 3000) :
    (∃ s', PreRequest.connect closed {} (pre ++ con :: mid ++ start :: rest) = some (Err.SUCCESS, s', rest)) ∧
      PreRequest.connectLogged w closed {} (pre ++ con :: mid ++ start :: rest) = none := by
  obtain ⟨x, b, z, he, hx, hb⟩ := hper
  refine ⟨⟨_, (RtmpProps.C63_negotiation closed hc _ _ rest).2 ⟨pre, con, txn, app, url, mid, start, st, false, _, rfl, hpre, hcon, hmid, .publish hs, rfl⟩⟩, ?_⟩
  have hall : ∀ q ∈ origin rtmpFile w ++ publishPieces st y, q.Ok := by
    intro q hq
    rcases List.mem_append.1 hq with hq | hq
    · exact origin_ok (by decide) hw q hq
    · exact publish_ok hst.1 hy q hq
  have key := printf_percent w.time (origin rtmpFile w ++ [.lit (ascii "Publish stream "), .text (47 :: st), .lit (ascii ", ")])
    [.lit (ascii ", playing "), .num 0, .lit (ascii "\r\n")] x (b :: z)
    (by rw [← he]; simpa [publishPieces] using hall)
    (by
      intro u hu
      simp only [origin, List.mem_append, List.mem_cons, List.not_mem_nil, or_false, reduceCtorEq, false_or, Piece.text.injEq] at hu
      rcases hu with rfl | rfl
      · decide
      · have := hst.2; simp [this])
    hx ⟨b, z, rfl, hb⟩
    (by
      have hxl : x.length ≤ y.length := by rw [he]; simp
      simp only [origin, List.cons_append, List.nil_append, room, List.length_cons]
      have l1 : (ascii "[").length = 1 := rfl
      have l2 : rtmpFile.length = 27 := rfl
      have l3 : (ascii ":").length = 1 := rfl
      have l4 : (ascii "] [").length = 3 := rfl
      have l5 : (ascii "] ").length = 2 := rfl
      have l6 : (ascii "Publish stream ").length = 15 := rfl
      have l7 : (ascii ", ").length = 2 := rfl
      omega)
  rw [← he] at key
  have e : (origin rtmpFile w ++ [.lit (ascii "Publish stream "), .text (47 :: st), .lit (ascii ", ")]) ++ .text y :: [.lit (ascii ", playing "), .num 0, .lit (ascii "\r\n")] =
      origin rtmpFile w ++ publishPieces st y := by
    rw [List.append_assoc]; rfl
  rw [e, ← publish_line] at key
  have hwc := (PreRequest.waitConnect_spec closed hc {} (pre ++ con :: mid ++ start :: rest) txn { tcUrl := url } (mid ++ start :: rest)).2
    ⟨pre, con, app, url, by simp, hpre, hcon, rfl⟩
  unfold PreRequest.connectLogged
  rw [hwc]
  simp only [Option.bind_eq_bind, Option.bind_some]
  rw [if_neg (by simp), PreRequest.sendAll_ok _ rfl, if_neg (by simp)]
  exact serve_setup w closed mid hmid start t st y hs rest key _ rfl

/-- **C113**, RTMP clients whose URL has no `%` and, of publishers, the way of publishing neither: the two lines of the connection say what was asked for, and what becomes of the client is what becomes of it
without logging.

Missing: clients that send a `%` (the negations of C113), and the lines about errors. -/
theorem C113_rtmp_lines_partial (site : RtmpSite) (hp : Names.ReadsUrls site.parser) (w w' : LogAt) (hw : At w) (hw' : At w') (ip : Text) (port : Int) (hpeer : Peer ip port) (c : RtmpCaller)
    (cl : RtmpConn.User) (ok : cl.Ok) (ms : List AmfMsg) (hc : Sps.RtmpConn.Calls c cl ms) (hno : (37 : UInt8) ∉ urlOf cl) (hpl : PlainTalk c.talk) :
    ∃ a l l' start ps, site.arrive c = some a ∧ site.arriveTalk w w' ip port c = some (a, l ++ l') ∧ ms.getLast? = some start ∧ Says start ps ∧
      Prints w.time (origin rtmpFile w ++ ps) l ∧ Prints w'.time (origin rtmpFile w' ++ rtmpLine ip port (urlOf cl)) l' := by
  obtain ⟨a, l', h1, h2, h3⟩ := C113_rtmp_partial site hp w' hw' ip port hpeer c cl ok ms hc hno
  obtain ⟨more, ht⟩ := hc.talk
  obtain ⟨pre, con, txn, app, mid, start, fin, g1, g2, g3, g4, g5⟩ := hc.asks
  have hn := (RtmpProps.C63_negotiation c.closed hc.closed c.talk _ more).2
    ⟨pre, con, txn, app, _, mid, start, _, _, fin, by rw [ht, g1]; simp, g2, g3, g4, g5, rfl⟩
  obtain ⟨l, k1, k2⟩ := C113_negotiation_partial w hw c.closed hc.closed {} c.talk hpl _ hn
  rcases k2 with ⟨-, k2, -⟩ | ⟨a', m, ps, k2, k3, k4⟩
  · exact absurd rfl k2
  refine ⟨a, l, l', m, ps, h1, ?_, ?_, k3, k4, h3⟩
  · unfold RtmpSite.arriveTalk
    rw [if_neg (by simp [hc.shake]), hc.fails, k1, h2]
    rfl
  · have : ms = a' ++ [m] := by
      have e : ms ++ more = (a' ++ [m]) ++ more := by rw [← ht, k2]; simp
      exact List.append_cancel_right e
    rw [this]; simp

/-! ## Examples -/

/-- An RTMP publisher of `rtmp://a.com/live/x` is logged with two lines. -/
example : (Sps.RtmpConn.server.arriveTalk here here (ascii "10.0.0.7") 50000 (Sps.RtmpConn.caller true)).map (·.2) =
    some (Log.stamp now ++ ascii "[sps_rtmp_server_handler.cpp:52] [3] Publish stream /x, , playing 0\r\n" ++
      (Log.stamp now ++ ascii "[sps_rtmp_server_handler.cpp:52] [3] Request client 10.0.0.7:50000, rtmp://a.com/live/x\r\n")) := by decide +kernel

/-- `publish a` in the way `%d`, with a sixth property (of five the way would be ignored). -/
def oddPublish : AmfMsg := { type := 20, amf := some (RtmpProps.publishProps [([], .str (ascii "%d"), 0), ([], .null, 0)]) }
example : decoded oddPublish = some (Err.SUCCESS, some (.publish 5 (ascii "a") (ascii "%d"))) ∧ Percent (ascii "%d") ∧ Plain (ascii "a") :=
  ⟨by decide +kernel, ⟨[], 100, [], by decide +kernel, by decide, by decide⟩, by decide +kernel, by decide +kernel⟩
example : (PreRequest.connect Err.ERROR_IO_EOF {} [RtmpProps.connectMsg, oddPublish]).map (·.1) = some Err.SUCCESS ∧
    PreRequest.connectLogged here Err.ERROR_IO_EOF {} [RtmpProps.connectMsg, oddPublish] = none := by constructor <;> decide +kernel

/-- The talk of the publisher of the first example is plain. -/
example : PlainTalk (Sps.RtmpConn.caller true).talk := by
  intro m hm ps hs x hx
  have dec : ∀ m ∈ (Sps.RtmpConn.caller true).talk, (decoded m).all (fun c => match c.2 with
      | some (.play _ s) => !(47 :: s).contains 0 && !(47 :: s).contains 37
      | some (.publish _ s y) => !(47 :: s).contains 0 && !(47 :: s).contains 37 && !y.contains 0 && !y.contains 37
      | _ => true) = true := by decide +kernel
  have := dec m hm
  cases hs with
  | play h =>
    rw [h] at this
    simp only [playPieces, List.mem_cons, List.not_mem_nil, or_false, reduceCtorEq, false_or, Piece.text.injEq] at hx
    subst hx
    simpa [Plain] using this
  | publish h =>
    rw [h] at this
    simp only [publishPieces, List.mem_cons, List.not_mem_nil, or_false, reduceCtorEq, false_or, Piece.text.injEq] at hx
    rcases hx with rfl | rfl
    · simp at this; simp [Plain]; tauto
    · simp at this; simp [Plain]; tauto

end Sps.Log
