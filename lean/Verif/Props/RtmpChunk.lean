import Verif.Model.RtmpChunk
import Verif.Spec.RtmpChunk
/-!
# C126: what is sent can be read in chunks of the size that was announced
-/
namespace Sps.RtmpChunk
open Spec.RtmpChunk

theorem bytes_map (bs : List UInt8) (w : List Sym) : bytes bs.length (bs.map Sym.byte ++ w) = some (bs, w) := by
  induction bs with
  | nil => rfl
  | cons b bs ih => simp only [List.length_cons, List.map_cons, List.cons_append, bytes, ih, Option.map_some]

theorem body_chunks (channel size : Nat) (hs : 0 < size) : ∀ (fuel : Nat) (b : List UInt8) (w : List Sym), b.length < fuel →
    body channel size fuel b.length (chunks channel size fuel b ++ w) = some (b, w)
  | 0, b, w, h => absurd h (Nat.not_lt_zero _)
  | fuel + 1, b, w, h => by
    unfold body chunks
    by_cases hl : b.length ≤ size
    · rw [if_pos hl, if_pos hl, List.take_of_length_le hl, List.append_nil]
      exact bytes_map b w
    · rw [if_neg hl, if_neg hl]
      have ht : (b.take size).length = size := by rw [List.length_take]; omega
      have hb := bytes_map (b.take size) ((Sym.more channel :: chunks channel size fuel (b.drop size)) ++ w)
      rw [ht, ← List.append_assoc] at hb
      rw [hb]
      have hd : (b.drop size).length = b.length - size := List.length_drop
      have ih := body_chunks channel size hs fuel (b.drop size) w (by omega)
      rw [hd] at ih
      simp only [List.cons_append, if_true, ih, Option.map_some, List.take_append_drop]

/-- What announcing does to the sender. -/
theorem onSend_chunk {s : Sender} {m : RtmpOut} (hp : Proper (.hook m)) : ∃ s', onSend s m = some s' ∧ (∀ n : Nat, s.outChunk = n → s'.outChunk = ((announced m.type m.body).getD n : Nat)) := by
  obtain ⟨channel, type, stream, body⟩ := m
  obtain ⟨h1, h2⟩ := hp
  unfold onSend
  simp only at h1 h2 ⊢
  have four : 4 ≤ body.length → ∃ a b c d t, body = a :: b :: c :: d :: t := by
    intro h
    match body, h with
    | a :: b :: c :: d :: t, _ => exact ⟨a, b, c, d, t, rfl⟩
  by_cases t1 : type = 1
  · subst t1
    rw [if_pos rfl]
    by_cases hl : body.length ≥ 4
    · obtain ⟨a, b, c, d, t, rfl⟩ := four hl
      rw [if_pos hl]
      refine ⟨_, rfl, fun n _ => ?_⟩
      have hn := h1 _ rfl
      simp only [announced, if_true, Option.getD_some, i32]
      omega
    · rw [if_neg hl]
      refine ⟨s, rfl, fun n hn => ?_⟩
      have : announced 1 body = none := by
        unfold announced
        rw [if_pos rfl]
        match body, hl with
        | [], _ => rfl
        | [_], _ => rfl
        | [_, _], _ => rfl
        | [_, _, _], _ => rfl
        | _ :: _ :: _ :: _ :: _, h => exact absurd (by simp) h
      rw [this]
      exact hn
  · have hno : announced type body = none := by unfold announced; rw [if_neg t1]
    rw [if_neg t1, hno]
    by_cases t5 : type = 5
    · obtain ⟨a, b, c, d, t, rfl⟩ := four (h2 (.inl t5))
      rw [if_pos t5]
      exact ⟨_, rfl, fun n hn => hn⟩
    · rw [if_neg t5]
      by_cases t6 : type = 6
      · obtain ⟨a, b, c, d, t, rfl⟩ := four (h2 (.inr t6))
        rw [if_pos t6]
        exact ⟨_, rfl, fun n hn => hn⟩
      · rw [if_neg t6]
        exact ⟨_, rfl, fun n hn => hn⟩

/-- One message. -/
theorem send_reads {s : Sender} {n : Nat} (hn : s.outChunk = n) (h0 : 0 < n) {m : Sending} (hp : Proper m) :
    ∃ w s', send s m = some (.head m.msg.channel m.msg.type m.msg.stream m.msg.body.length :: w, s') ∧ s'.outChunk = ((announced m.msg.type m.msg.body).getD n : Nat) ∧
      0 < (announced m.msg.type m.msg.body).getD n ∧ ∀ t, body m.msg.channel n (m.msg.body.length + 1) m.msg.body.length (w ++ t) = some (m.msg.body, t) := by
  have hw : write s m.msg = some (.head m.msg.channel m.msg.type m.msg.stream m.msg.body.length :: chunks m.msg.channel n (m.msg.body.length + 1) m.msg.body) := by
    unfold write
    rw [if_neg (by omega), hn]
    rfl
  have hb : ∀ t, body m.msg.channel n (m.msg.body.length + 1) m.msg.body.length (chunks m.msg.channel n (m.msg.body.length + 1) m.msg.body ++ t) = some (m.msg.body, t) :=
    fun t => body_chunks _ _ h0 _ _ _ (Nat.lt_succ_self _)
  unfold send
  rw [hw]
  cases m with
  | hook m =>
    obtain ⟨s', e1, e2⟩ := onSend_chunk (s := s) hp
    refine ⟨_, s', by simp only [e1, Option.map_some], e2 n hn, ?_, hb⟩
    show 0 < (announced m.type m.body).getD n
    cases ha : announced m.type m.body with
    | none => exact h0
    | some k => exact (hp.1 k ha).1
  | lib m =>
    have : announced m.type m.body = none := by unfold announced; rw [if_neg hp]
    refine ⟨_, s, rfl, ?_, ?_, hb⟩
    · show s.outChunk = ((announced m.type m.body).getD n : Nat)
      rw [this]
      exact hn
    · show 0 < (announced m.type m.body).getD n
      rw [this]
      exact h0

theorem sendAll_reads : ∀ (ms : List Sending) (s : Sender) (n : Nat), s.outChunk = n → 0 < n → (∀ m ∈ ms, Proper m) →
    ∃ w s', sendAll s ms = some (w, s') ∧ reads n ms.length w = some (ms.map Sending.msg)
  | [], s, n, _, _, _ => ⟨[], s, rfl, rfl⟩
  | m :: ms, s, n, hn, h0, hp => by
    obtain ⟨w, s1, e1, e2, e3, e4⟩ := send_reads hn h0 (hp m (by simp))
    obtain ⟨w', s2, g1, g2⟩ := sendAll_reads ms s1 _ e2 e3 fun x hx => hp x (by simp [hx])
    refine ⟨_, s2, by unfold sendAll; simp only [e1, g1, Option.map_some]; rfl, ?_⟩
    simp only [List.cons_append, List.length_cons, reads, e4, g2, Option.map_some, List.map_cons]

/-- **C126**, whatever messages are sent, also when the chunk size is changed between them, and changed often: a reader that follows the announcements reads back the messages, in order. -/
theorem C126_read (ms : List Sending) (hp : ∀ m ∈ ms, Proper m) : ∃ w s, sendAll {} ms = some (w, s) ∧ reads 128 ms.length w = some (ms.map Sending.msg) :=
  sendAll_reads ms {} 128 rfl (by decide) hp

/-- What an answer of a negotiation announces. -/
theorem reply_chunk {h : RtmpHook} {r : RtmpReply} {o : RtmpOut} (hr : r.message h = some o) :
    (∃ m, ofReply o r = .lib m ∧ m.type ≠ 1) ∨ (ofReply o r = .hook o ∧ ((o.type = 1 ∧ o.body = [0, 0, 0, 128]) ∨ (o.type ≠ 1 ∧ o.type ≠ 5 ∧ o.type ≠ 6))) := by
  cases r with
  | ackWindow => cases hr; exact .inl ⟨_, rfl, by simp⟩
  | peerBandwidth => cases hr; exact .inl ⟨_, rfl, by simp⟩
  | chunkSize => cases hr; exact .inr ⟨rfl, .inl ⟨rfl, by decide +kernel⟩⟩
  | connectResult txn =>
    simp only [RtmpReply.message, bind, Option.bind_eq_some_iff, pure, Option.some.injEq] at hr
    obtain ⟨_, _, _, _, _, _, _, _, _, _, _, _, _, _, _, _, _, _, rfl⟩ := hr
    exact .inr ⟨rfl, .inr (by simp)⟩
  | result txn id =>
    simp only [RtmpReply.message, bind, Option.bind_eq_some_iff, pure, Option.some.injEq] at hr
    obtain ⟨_, _, _, _, _, _, _, _, rfl⟩ := hr
    exact .inr ⟨rfl, .inr (by simp)⟩
  | playStart txn =>
    simp only [RtmpReply.message, bind, Option.bind_eq_some_iff, pure, Option.some.injEq] at hr
    obtain ⟨_, _, _, _, rfl⟩ := hr
    exact .inr ⟨rfl, .inr (by simp)⟩
  | sampleAccess =>
    simp only [RtmpReply.message, bind, Option.bind_eq_some_iff, pure, Option.some.injEq] at hr
    obtain ⟨_, _, _, _, _, _, rfl⟩ := hr
    exact .inr ⟨rfl, .inr (by simp)⟩
  | streamBegin => cases hr; exact .inr ⟨rfl, .inr (by simp)⟩
  | publishStart txn =>
    simp only [RtmpReply.message, bind, Option.bind_eq_some_iff, pure, Option.some.injEq] at hr
    obtain ⟨_, _, _, _, rfl⟩ := hr
    exact .inr ⟨rfl, .inr (by simp)⟩

theorem sends_announced {m : Sending} (h : Sends m) : Proper m ∧ (announced m.msg.type m.msg.body = none ∨ announced m.msg.type m.msg.body = some 128) := by
  have other : ∀ o : RtmpOut, o.type ≠ 1 → o.type ≠ 5 → o.type ≠ 6 → Proper (.hook o) ∧ (announced o.type o.body = none ∨ announced o.type o.body = some 128) := by
    intro o h1 h5 h6
    have : announced o.type o.body = none := by unfold announced; rw [if_neg h1]
    exact ⟨⟨fun n hn => (by rw [this] at hn; cases hn), fun h => h.elim (fun h => absurd h h5) fun h => absurd h h6⟩, .inl this⟩
  have direct : ∀ o : RtmpOut, o.type ≠ 1 → Proper (.lib o) ∧ (announced o.type o.body = none ∨ announced o.type o.body = some 128) :=
    fun o h1 => ⟨h1, .inl (by unfold announced; rw [if_neg h1])⟩
  rcases h with ⟨h, r, o, hr, rfl⟩ | rfl | ⟨b, rfl⟩ | ⟨o, rfl, ht⟩
  · rcases reply_chunk hr with ⟨m, e, h1⟩ | ⟨e, ⟨t, b⟩ | ⟨h1, h5, h6⟩⟩
    · rw [e]; exact direct m h1
    · rw [e]
      obtain ⟨c, ty, st, bo⟩ := o
      cases t; cases b
      have ha : announced 1 [0, 0, 0, 128] = some 128 := by decide +kernel
      exact ⟨⟨fun n hn => (by rw [ha] at hn; cases hn; decide), fun h => (by rcases h with h | h <;> cases h)⟩, .inr ha⟩
    · rw [e]; exact other o h1 h5 h6
  · exact direct _ (by decide)
  · exact other _ (by show (3 : Nat) ≠ 1; decide) (by show (3 : Nat) ≠ 5; decide) (by show (3 : Nat) ≠ 6; decide)
  · refine other o ?_ ?_ ?_ <;> rcases ht with h | h | h <;> rw [h] <;> decide

theorem sendAll_size : ∀ (ms : List Sending) (s : Sender), s.outChunk = 128 → (∀ m ∈ ms, Sends m) → ∃ w s', sendAll s ms = some (w, s') ∧ s'.outChunk = 128
  | [], s, hs, _ => ⟨[], s, rfl, hs⟩
  | m :: ms, s, hs, hm => by
    obtain ⟨hp, ha⟩ := sends_announced (hm m (by simp))
    obtain ⟨w, s1, e1, e2, -, -⟩ := send_reads (n := 128) hs (by decide) hp
    have h1 : s1.outChunk = 128 := by rcases ha with h | h <;> rw [e2, h] <;> rfl
    obtain ⟨w', s2, g1, g2⟩ := sendAll_size ms s1 h1 fun x hx => hm x (by simp [hx])
    exact ⟨_, s2, by unfold sendAll; simp only [e1, g1, Option.map_some]; rfl, g2⟩

/-- **C126**, what this program sends to a client: the client reads back the answers, acknowledgements, and media, in order, in whatever order they are sent; the chunks have 128 bytes throughout. -/
theorem C126_client (ms : List Sending) (hm : ∀ m ∈ ms, Sends m) :
    ∃ w s, sendAll {} ms = some (w, s) ∧ reads 128 ms.length w = some (ms.map Sending.msg) ∧ s.outChunk = 128 := by
  obtain ⟨w, s, h1, h2⟩ := C126_read ms fun m hmm => (sends_announced (hm m hmm)).1
  obtain ⟨w', s', g1, g2⟩ := sendAll_size ms {} rfl hm
  rw [h1] at g1
  cases g1
  exact ⟨w, s, h1, h2, g2⟩

/-- A message of 300 bytes, before and after an announcement of 200: 2 and 1 further chunks. -/
def long : RtmpOut := ⟨6, 9, 1, List.replicate 300 7⟩
def change : List Sending := [.hook long, .hook ⟨2, 1, 0, [0, 0, 0, 200]⟩, .lib ⟨2, 5, 0, [0, 0, 1, 0]⟩, .hook long]

example : (sendAll {} change).map (fun (w, s) => ((w.filter fun x => match x with | .more _ => true | _ => false).length, s.outChunk, decide (reads 128 4 w = some (change.map Sending.msg)),
    decide (reads 200 4 w = none))) = some (3, 200, true, true) := by decide +kernel

example : Sends (.hook long) ∧ Sends (ofReply ⟨2, 1, 0, [0, 0, 0, 128]⟩ .chunkSize) :=
  ⟨.inr (.inr (.inr ⟨_, rfl, by decide⟩)), .inl ⟨RtmpHook.create, .chunkSize, _, by decide +kernel, rfl⟩⟩

end Sps.RtmpChunk
