import Verif.Lemmas.RtmpMsgs
import Verif.Props.Rtmp
/-!
# C101: the answers of the RTMP negotiation

C63 says which answers are sent, C101 that they can be read: their bytes are AMF0 and say what is owed to each command.
-/
namespace Sps.RtmpMsgs
open Spec Spec.RtmpMsgs Spec.Rtmp RtmpProps

/-- The transaction number of a command. -/
def txnOf : RtmpCmd → Nat
  | .connect t _ _ => t
  | .createStream t => t
  | .play t _ => t
  | .publish t _ _ => t
  | .releaseStream t _ => t
  | .fcPublish t _ => t

/-- The commands `play` and `publish`. -/
def starts : RtmpCmd → Bool
  | .play .. => true
  | .publish .. => true
  | _ => false

/-- A message whose transaction number is a double and, if it starts the stream, an integer of type `int`. -/
def Usual (m : AmfMsg) : Prop :=
  ∀ e c, decoded m = some (e, some c) → txnOf c < 2 ^ 64 ∧ (starts c = true → ∃ x : Int, Holds (txnOf c) x ∧ -2 ^ 31 ≤ x ∧ x < 2 ^ 31)

theorem valOk_str {s : String} (h : (ascii s).length < 65536) : ValOk (str s) := h

theorem tells_result (h : RtmpHook) {t : Nat} (ht : t < 2 ^ 64) : Tells h [.result t 1] [result t [.atom .null, one]] ∧ Tells h [.result t 0] [result t [.atom .null, zero]] := by
  obtain ⟨h1, h2⟩ := result_body h t
  constructor
  · refine .cons h1 (command_says ?_) (.nil h)
    intro v hv
    simp only [List.mem_cons, List.not_mem_nil, or_false] at hv
    rcases hv with rfl | rfl | rfl | rfl
    · exact valOk_str (by decide +kernel)
    · exact ht
    · trivial
    · show (0x3ff0000000000000 : Nat) < 2 ^ 64; decide
  · refine .cons h2 (command_says ?_) (.nil h)
    intro v hv
    simp only [List.mem_cons, List.not_mem_nil, or_false] at hv
    rcases hv with rfl | rfl | rfl | rfl
    · exact valOk_str (by decide +kernel)
    · exact ht
    · trivial
    · show (0 : Nat) < 2 ^ 64; decide

instance (a : Atom) : Decidable (AtomOk a) := by unfold AtomOk; split <;> infer_instance
instance (v : Val) : Decidable (ValOk v) := by unfold ValOk; split <;> infer_instance

theorem tells_begin (h : RtmpHook) : Tells h [.streamBegin] [.begin 1] := .cons (m := ⟨2, 4, 0, [0, 0, 0, 0, 0, 1]⟩) rfl rfl (.nil h)

theorem tells_status {h : RtmpHook} {r : RtmpReply} {t : Nat} (ht : t < 2 ^ 64) {code desc : String} (hc : (ascii code).length < 65536) (hd : (ascii desc).length < 65536)
    (hr : r.message h = some ⟨3, 20, 0, [str "onStatus", .atom (.num t), .atom .null, .obj [field "level" "status", field "code" code, field "description" desc]].flatMap encV⟩) :
    Tells h [r] [status (.atom (.num t)) code desc] := by
  refine .cons hr (command_says ?_) (.nil h)
  intro v hv
  simp only [List.mem_cons, List.not_mem_nil, or_false] at hv
  rcases hv with rfl | rfl | rfl | rfl
  · exact valOk_str (by decide +kernel)
  · exact ht
  · trivial
  · intro f hf
    simp only [List.mem_cons, List.not_mem_nil, or_false] at hf
    rcases hf with rfl | rfl | rfl
    · decide +kernel
    · exact ⟨(by decide +kernel : (ascii "code") ≠ []), (by decide +kernel : (ascii "code").length < 65536), hc⟩
    · exact ⟨(by decide +kernel : (ascii "description") ≠ []), (by decide +kernel : (ascii "description").length < 65536), hd⟩

theorem tells_connect {h : RtmpHook} {w b : Nat} (hw : h.serverBW = w) (hw' : w < 2 ^ 32) (hb : h.clientBW = b) (hb' : b < 2 ^ 32) {t : Nat} (ht : t < 2 ^ 64) (a u : List UInt8) :
    Tells h [.ackWindow, .peerBandwidth, .chunkSize, .connectResult t] (owed w b (.connect t a u)) := by
  obtain ⟨m1, a1, a2⟩ := tells_window hw hw'
  obtain ⟨m2, b1, b2⟩ := tells_bandwidth hb hb'
  refine .cons a1 a2 (.cons b1 b2 (.cons (m := ⟨2, 1, 0, [0, 0, 0, 128]⟩) rfl rfl (.cons (connectResult_body h t) (command_says ?_) (.nil h))))
  intro v hv
  simp only [List.mem_cons, List.not_mem_nil, or_false] at hv
  rcases hv with rfl | rfl | rfl | rfl
  · exact valOk_str (by decide +kernel)
  · exact ht
  · decide +kernel
  · decide +kernel

/-- What is answered after `connect` to a message that does not start the stream. -/
theorem tells_setup (h : RtmpHook) (w b : Nat) {m : AmfMsg} (hu : Usual m) (hc : ∀ e t a u, decoded m ≠ some (e, some (.connect t a u))) (hs : setup m) :
    Tells h (replies m) (owedTo w b m) := by
  obtain ⟨c, h1, h2, h3⟩ := hs
  unfold replies owedTo
  rw [h1]
  cases c with
  | none => exact .nil h
  | some c =>
    have ht := (hu _ _ h1).1
    cases c with
    | connect t a u => exact absurd h1 (hc _ _ _ _)
    | createStream t => exact (tells_result h ht).1
    | play t s => exact absurd rfl (h2 t s)
    | publish t s y => exact absurd rfl (h3 t s y)
    | releaseStream t s => exact (tells_result h ht).2
    | fcPublish t s => exact (tells_result h ht).2

theorem tells_start (h : RtmpHook) (w b : Nat) {m : AmfMsg} (hu : Usual m) {st : List UInt8} {play : Bool} {fin : List RtmpReply} (hs : Starts m st play fin) :
    Tells h fin (owedTo w b m) := by
  cases hs with
  | play h1 =>
    unfold owedTo
    rw [h1]
    obtain ⟨x, h2, h3, h4⟩ := (hu _ _ h1).2 rfl
    refine Tells.append (tells_status (by decide) (by decide +kernel) (by decide +kernel) (playStart_body h (holds_int h2 h3 h4).1)) (.cons (sampleAccess_body h) (data_says (by decide +kernel)) (tells_begin h))
  | publish h1 =>
    rename_i t y
    unfold owedTo
    rw [h1]
    obtain ⟨x, h2, h3, h4⟩ := (hu _ _ h1).2 rfl
    obtain ⟨h5, h6⟩ := holds_int h2 h3 h4
    have hb := publishStart_body h h5
    rw [h6] at hb
    exact Tells.append (tells_status (hu _ _ h1).1 (by decide +kernel) (by decide +kernel) hb) (tells_begin h)

/-- **C101**, for clients whose `play` or `publish` has an integer as its transaction number and that send `connect` once. If a negotiation succeeds, the messages before `connect` get no answer; each command from then
on gets what is owed to it, in order, and nothing else is sent: every answer fits into the array it is built in, is read as AMF0 or as a control message, and has the transaction number of the command.
`w` and `b` are the window and the bandwidth the server has.

Missing: other transaction numbers of `play` and `publish`, and further `connect`s (the negations
of C101). -/
theorem C101_answers_partial (closed : Err) (hc : closed ≠ Err.SUCCESS) (h : RtmpHook) (w b : Nat) (hw : h.serverBW = w) (hw' : w < 2 ^ 32) (hb : h.clientBW = b) (hb' : b < 2 ^ 32)
    (ms : List AmfMsg) (hu : ∀ m ∈ ms, Usual m) (h1 : (ms.filter fun m => match decoded m with | some (_, some (.connect ..)) => true | _ => false).length ≤ 1)
    (s' : PreRequest) (rest : List AmfMsg) (hs : PreRequest.connect closed {} ms = some (Err.SUCCESS, s', rest)) :
    ∃ before asked out, ms = before ++ asked ++ rest ∧ (∀ m ∈ before, idle m) ∧ RtmpReply.messages h s'.sent = some out ∧
      out.map meaning = (asked.flatMap (owedTo w b)).map some := by
  obtain ⟨pre, con, txn, app, url, mid, start, st, play, fin, e1, e2, e3, e4, e5, e6⟩ := (C63_negotiation closed hc ms s' rest).1 hs
  have hmid : ∀ m ∈ mid, ∀ e t a u, decoded m ≠ some (e, some (.connect t a u)) := by
    intro m hm e t a u he
    rw [e1] at h1
    simp only [List.filter_append, List.filter_cons, e3, List.length_append, if_true, List.length_cons] at h1
    have : m ∈ mid.filter fun m => match decoded m with | some (_, some (.connect ..)) => true | _ => false := List.mem_filter.2 ⟨hm, by rw [he]⟩
    have := List.length_pos_of_mem this
    omega
  have hcon := hu con (by rw [e1]; simp)
  have k1 : Tells h [.ackWindow, .peerBandwidth, .chunkSize, .connectResult txn] (owedTo w b con) := by
    unfold owedTo
    rw [e3]
    exact tells_connect hw hw' hb hb' (hcon _ _ e3).1 app url
  have k2 : Tells h (mid.flatMap replies) (mid.flatMap (owedTo w b)) := by
    have hu' : ∀ m ∈ mid, Usual m := fun m hm => hu m (by rw [e1]; simp [hm])
    clear e1 e6
    induction mid with
    | nil => exact .nil h
    | cons m mid ih =>
      exact Tells.append (tells_setup h w b (hu' m (by simp)) (hmid m (by simp)) (e4 m (by simp)))
        (ih (fun x hx => e4 x (by simp [hx])) (fun x hx => hmid x (by simp [hx])) (fun x hx => hu' x (by simp [hx])))
  have k3 := tells_start h w b (hu start (by rw [e1]; simp)) e5
  obtain ⟨out, o1, o2⟩ := (k1.append k2).append k3
  refine ⟨pre, con :: mid ++ [start], out, by rw [e1]; simp, e2, by rw [e6]; exact o1, ?_⟩
  rw [o2]
  simp

/-! ### A conversation -/

/-- A command with this transaction number. -/
def cmd (name : String) (txn : Nat) (args : List AmfVal) : AmfMsg :=
  { type := 20, amf := some (([], .str (ascii name), 0) :: ([], .num txn, 0) :: args.map fun v => ([], v, 0)) }

/-- `connect`, with transaction number 1. -/
def connect1 : AmfMsg := cmd "connect" 0x3ff0000000000000 [.obj [(ascii "app", .str (ascii "live"), 0), (ascii "tcUrl", .str (ascii "rtmp://h/live"), 0)]]
/-- `createStream`, with transaction number 2. -/
def create2 : AmfMsg := cmd "createStream" 0x4000000000000000 [.null]
/-- `publish`, with this transaction number. -/
def publish (txn : Nat) : AmfMsg := cmd "publish" txn [.null, .str (ascii "a"), .str (ascii "live")]

theorem usual_cmd {m : AmfMsg} {e' : Err} {c' : RtmpCmd} (h : decoded m = some (e', some c')) (h1 : txnOf c' < 2 ^ 64)
    (h2 : starts c' = true → ∃ x : Int, Holds (txnOf c') x ∧ -2 ^ 31 ≤ x ∧ x < 2 ^ 31) : Usual m := by
  intro e c hd
  rw [h] at hd
  cases hd
  exact ⟨h1, h2⟩

/-- The number 5. -/
theorem holds_five : Holds 0x4014000000000000 5 := .pos (e := 1025) (f := 2 ^ 50) (n := 5) (by decide) (by decide +kernel)

theorem publish_decoded (t : Nat) : decoded (publish t) = some (Err.SUCCESS, some (.publish t (ascii "a") [])) := rfl

theorem connect1_decoded : decoded connect1 = some (Err.SUCCESS, some (.connect 0x3ff0000000000000 (ascii "live") (ascii "rtmp://h/live"))) := by decide +kernel
theorem create2_decoded : decoded create2 = some (Err.SUCCESS, some (.createStream 0x4000000000000000)) := by decide +kernel

/-- What is negotiated by `connect`, `createStream` and `publish`. -/
def three : PreRequest where
  tcUrl := ascii "rtmp://h/live"
  streamParams := ascii "/a"
  publishing := true
  sent := [.ackWindow, .peerBandwidth, .chunkSize, .connectResult 0x3ff0000000000000, .result 0x4000000000000000 1, .publishStart 0x4014000000000000, .streamBegin]

/-- The hypotheses hold for a client that connects, creates a stream and publishes. -/
example : (∀ m ∈ [create2, connect1, create2, publish 0x4014000000000000], Usual m) ∧
    ([create2, connect1, create2, publish 0x4014000000000000].filter fun m => match decoded m with | some (_, some (.connect ..)) => true | _ => false).length ≤ 1 ∧
    PreRequest.connect Err.ERROR_SOCKET_CLOSED {} [create2, connect1, create2, publish 0x4014000000000000] = some (Err.SUCCESS, three, []) ∧
    RtmpHook.create.serverBW = (6000000 : Nat) ∧ RtmpHook.create.clientBW = (5000000 : Nat) := by
  refine ⟨?_, by decide +kernel, ?_, by decide +kernel, by decide +kernel⟩
  rotate_left
  · rw [C63_negotiation _ (by decide)]
    refine ⟨[create2], connect1, 0x3ff0000000000000, ascii "live", ascii "rtmp://h/live", [create2], publish 0x4014000000000000, ascii "a", false, _, rfl,
      ?_, connect1_decoded, ?_, .publish (publish_decoded _), rfl⟩
    · simp only [List.mem_singleton, forall_eq]
      exact ⟨_, create2_decoded, by simp⟩
    · simp only [List.mem_singleton, forall_eq]
      exact ⟨_, create2_decoded, by simp, by simp⟩
  intro m hm
  simp only [List.mem_cons, List.not_mem_nil, or_false] at hm
  rcases hm with rfl | rfl | rfl | rfl
  · exact usual_cmd create2_decoded (by decide) (by simp [starts])
  · exact usual_cmd connect1_decoded (by decide) (by simp [starts])
  · exact usual_cmd create2_decoded (by decide) (by simp [starts])
  · exact usual_cmd (publish_decoded _) (by decide) fun _ => ⟨5, holds_five, by decide, by decide⟩

/-- And what is said to it. -/
example : (RtmpReply.messages RtmpHook.create three.sent).map (·.map meaning) = some ([.window 6000000, .bandwidth 5000000 2, .chunkSize 128,
    result 0x3ff0000000000000 [.obj [field "fmsVer" "FMS/3,5,1,525", (ascii "capabilities", thirtyOne)], .obj [field "level" "status", field "code" "NetConnection.Connect.Success"]],
    result 0x4000000000000000 [.atom .null, one], status (.atom (.num 0x4014000000000000)) "NetStream.Publish.Start" "Start publishing", .begin 1].map some) := by
  decide +kernel

/-! ### Disagreements -/

/-- Disagreement: `play` or `publish` with the transaction number 2147483648 is a conversion to `int` that is undefined. -/
theorem C101_negation_undefined (h : RtmpHook) :
    Holds 0x41e0000000000000 2147483648 ∧ (RtmpReply.publishStart 0x41e0000000000000).message h = none ∧ (RtmpReply.playStart 0x41e0000000000000).message h = none := by
  refine ⟨.pos (e := 1054) (f := 0) (n := 2147483648) (by decide) (by decide +kernel), ?_, ?_⟩ <;> rfl

/-- Disagreement: `publish` with the transaction number 5.5 is answered with 5. -/
theorem C101_negation_fraction (h : RtmpHook) :
    ∃ m, (RtmpReply.publishStart 0x4016000000000000).message h = some m ∧
      meaning m = some (status (.atom (.num 0x4014000000000000)) "NetStream.Publish.Start" "Start publishing") :=
  ⟨_, rfl, by decide +kernel⟩

/-- Disagreement: the status of a stream is sent on message stream 0 and, for `publish`, with the number of the command, although the stream that was created and begins is 1 and
`onStatus` has the number 0 (RTMP 1.0, 7.2.2). -/
theorem C101_negation_status (h : RtmpHook) :
    (∃ m, (RtmpReply.publishStart 0x4014000000000000).message h = some m ∧ m.stream = 0 ∧
      meaning m ≠ some (status zero "NetStream.Publish.Start" "Start publishing")) ∧
    ∃ m, RtmpReply.streamBegin.message h = some m ∧ meaning m = some (.begin 1) :=
  ⟨⟨_, rfl, rfl, by decide +kernel⟩, _, rfl, rfl⟩

/-- Disagreement: a second `connect` gets no answer. -/
theorem C101_negation_connect : ∃ s', PreRequest.connect Err.ERROR_SOCKET_CLOSED {} [connect1, connect1, publish 0] = some (Err.SUCCESS, s', []) ∧
    s'.sent = [.ackWindow, .peerBandwidth, .chunkSize, .connectResult 0x3ff0000000000000, .publishStart 0, .streamBegin] :=
  ⟨{ three with sent := [.ackWindow, .peerBandwidth, .chunkSize, .connectResult 0x3ff0000000000000, .publishStart 0, .streamBegin] }, by
    rw [C63_negotiation _ (by decide)]
    refine ⟨[], connect1, 0x3ff0000000000000, ascii "live", ascii "rtmp://h/live", [connect1], publish 0, ascii "a", false, _, rfl,
      by simp, connect1_decoded, ?_, .publish (publish_decoded _), ?_⟩
    · simp only [List.mem_singleton, forall_eq]
      exact ⟨_, connect1_decoded, by simp, by simp⟩
    · decide +kernel, rfl⟩

/-- Disagreement: the answer to a ping does not carry the time of the ping back. -/
theorem C101_negation_pong : (RtmpHook.recvAll RtmpHook.create [{ type := 4, body := [0, 6, 0x12, 0x34, 0x56, 0x78], nIn := 18 }]).map (·.2.2) = some [.pong] ∧
    meaning RtmpSent.pong.message = some (.pong 0) := by
  constructor <;> decide +kernel

/-! ### The client's `connect` -/

/-- A client's `connect` for this application and URL. -/
def connectSays (txn : Nat) (app url : Text) : Says :=
  .command [str "connect", .atom (.num (Double.ofInt txn)), .obj [(ascii "app", .str app), field "flashVer" "LNX 9,0,124,2", (ascii "tcUrl", .str url), (ascii "fpad", .bool false),
    (ascii "capabilities", .num 0x402e000000000000), (ascii "audioCodecs", .num 0x40afce0000000000), (ascii "videoCodecs", .num 0x406f800000000000), (ascii "objectEncoding", .num 0)]]

example : (RtmpHook.sendConnect 1 (ascii "live") (ascii "rtmp://h/live")).map meaning = some (some (connectSays 1 (ascii "live") (ascii "rtmp://h/live"))) := by decide +kernel

/-- Disagreement: the array for the client's `connect` is too small for an application and a URL of 113 bytes together. (Nothing in the repository sends it.) -/
theorem C101_negation_room : RtmpHook.sendConnect 1 (ascii "live") (ascii "rtmp://h/" ++ List.replicate 100 97) = none := by decide +kernel

end Sps.RtmpMsgs
