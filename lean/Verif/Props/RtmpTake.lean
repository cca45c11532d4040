import Verif.Model.RtmpTake
import Verif.Spec.RtmpTake
/-!
# C127: what a client sends, in chunks of the size it announced, is received
-/
namespace Sps.RtmpChunk
open Spec.RtmpChunk

theorem takeBytes_map (bs : List UInt8) (w : List Sym) : takeBytes bs.length (bs.map Sym.byte ++ w) = some (bs, w) := by
  induction bs with
  | nil => rfl
  | cons b bs ih => simp only [List.length_cons, List.map_cons, List.cons_append, takeBytes, ih, Option.map_some]

theorem ack_chunk {h h' : RtmpHook} {s : List RtmpSent} (e : h.ack = some (h', s)) : h'.inChunk = h.inChunk := by
  unfold RtmpHook.ack at e
  split at e
  · cases e; rfl
  · split at e
    · cases e
    · cases e; rfl

/-- What a message does to the size of the chunks that are expected. -/
theorem onRecv_chunk {h h' : RtmpHook} {m : RtmpRecv} {e : Err} {s : List RtmpSent} (hr : h.onRecv m = some (e, h', s)) (ha : Announces m) {n : Nat} (hn : h.inChunk = n) :
    h'.inChunk = ((announced m.type m.body).getD n : Nat) := by
  obtain ⟨type, body, nIn, sendErr⟩ := m
  have other : type ≠ 1 → announced type body = none := fun h => by unfold announced; rw [if_neg h]
  have fin : ∀ {x : Option RtmpHook}, (x.bind fun h => h.ack.bind fun y => some (Err.SUCCESS, y.1, y.2)) = some (e, h', s) → ∃ h1, x = some h1 ∧ h'.inChunk = h1.inChunk := by
    intro x hx
    obtain ⟨h1, e1, hx⟩ := Option.bind_eq_some_iff.1 hx
    obtain ⟨⟨h2, s2⟩, e2, hx⟩ := Option.bind_eq_some_iff.1 hx
    cases hx
    exact ⟨h1, e1, ack_chunk e2⟩
  have same : ∀ {f : Int → RtmpHook} {h1 : RtmpHook}, (∀ x, (f x).inChunk = h.inChunk) → (RtmpHook.int32At body 0).map f = some h1 → h1.inChunk = h.inChunk := by
    intro f h1 hf hx
    obtain ⟨x, -, rfl⟩ := Option.map_eq_some_iff.1 hx
    exact hf x
  by_cases t1 : type = 1
  · subst t1
    simp only [RtmpHook.onRecv, if_true] at hr
    split at hr
    · cases hr
    · rw [if_neg (by omega)] at hr
      split at hr
      · rename_i hl
        obtain ⟨h1, e1, e3⟩ := fin hr
        rw [e3]
        match body, hl, ha, e1 with
        | a :: b :: c :: d :: t, _, ha, e1 =>
          have hk := ha _ rfl
          simp only [RtmpHook.int32At, List.drop_zero, Option.map_some, Option.some.injEq] at e1
          subst e1
          simp only [announced, if_true, Option.getD_some, i32]
          omega
      · rename_i hl
        obtain ⟨h1, e1, e3⟩ := fin hr
        cases e1
        have : announced 1 body = none := by
          unfold announced
          rw [if_pos rfl]
          match body, hl with
          | [], _ => rfl
          | [_], _ => rfl
          | [_, _], _ => rfl
          | [_, _, _], _ => rfl
          | _ :: _ :: _ :: _ :: _, h => exact absurd (by simp) h
        rw [this, e3]
        exact hn
  · simp only [RtmpHook.onRecv, if_neg t1] at hr
    simp only [other t1, Option.getD_none]
    rw [← hn]
    split at hr
    · cases hr
    · split at hr
      · cases hr
        rfl
      · split at hr
        · obtain ⟨h1, e1, e3⟩ := fin hr
          rw [e3]
          refine same ?_ e1
          exact fun _ => rfl
        · split at hr
          · obtain ⟨h1, e1, e3⟩ := fin hr
            rw [e3]
            refine same ?_ e1
            exact fun _ => rfl
          · obtain ⟨h1, e1, e3⟩ := fin hr
            cases e1
            exact e3

/-- What the library has of the messages that are being sent. -/
def parts (hs : Halves) : Nat → Option Part := fun c => (hs c).map fun x => ⟨x.type, x.sent.length + x.rest.length, x.sent⟩

theorem parts_none (hs : Halves) (c : Nat) : (fun d => if d = c then none else parts hs d) = parts (hs.set c none) := by
  funext d
  unfold parts Halves.set
  split <;> rfl

theorem parts_some (hs : Halves) (c type : Nat) (a b : List UInt8) (n : Nat) (hn : n = a.length + b.length) :
    (fun d => if d = c then some (⟨type, n, a⟩ : Part) else parts hs d) = parts (hs.set c (some ⟨type, a, b⟩)) := by
  subst hn
  funext d
  unfold parts Halves.set
  split <;> rfl

theorem set_same (hs : Halves) (c : Nat) (h : hs c = none) : hs.set c none = hs := by
  funext d
  unfold Halves.set
  split
  · rename_i hd
    rw [hd, h]
  · rfl

theorem takeAll_wire {n k : Nat} {hs : Halves} {ms : List RtmpRecv} {w : List Sym} (hw : Wire n hs ms w k) : ∀ (h : RtmpHook), h.inChunk = n → 0 < n → (∀ m ∈ ms, Announces m) →
    ∀ h' s, h.recvAll ms = some (Err.SUCCESS, h', s) → ∀ fuel, w.length ≤ fuel → takeAll fuel h (parts hs) (ms.map fun m => (m.nIn, m.sendErr)) w = some (ms, h') ∧ h'.inChunk = k := by
  -- the step for a message that is complete
  have step : ∀ (size : Nat) (m : RtmpRecv) (ms : List RtmpRecv) (h : RtmpHook), h.inChunk = size → 0 < size → (∀ x ∈ m :: ms, Announces x) → ∀ h' s, h.recvAll (m :: ms) = some (Err.SUCCESS, h', s) →
      ∃ h1 s1 s2, h.onRecv m = some (Err.SUCCESS, h1, s1) ∧ h1.inChunk = ((announced m.type m.body).getD size : Nat) ∧ 0 < (announced m.type m.body).getD size ∧
        h1.recvAll ms = some (Err.SUCCESS, h', s2) := by
    intro size m ms h hn h0 ha h' s hr
    unfold RtmpHook.recvAll at hr
    simp only [bind, Option.bind_eq_some_iff] at hr
    obtain ⟨⟨e, h1, s1⟩, e1, hr⟩ := hr
    simp only at hr
    split at hr
    · rename_i he
      cases hr
      exact absurd rfl he
    · rename_i he
      simp only [Option.bind_eq_some_iff, pure, Option.some.injEq, Prod.mk.injEq] at hr
      obtain ⟨⟨e', h2, s2⟩, e2, q1, q2, -⟩ := hr
      simp only at q1 q2
      subst q1 q2
      have he : e = Err.SUCCESS := Decidable.not_not.1 he
      subst he
      have hm := ha m (by simp)
      refine ⟨h1, s1, s2, e1, onRecv_chunk e1 hm hn, ?_, e2⟩
      cases hx : announced m.type m.body with
      | none => exact h0
      | some x => exact (hm x hx).1
  induction hw with
  | nil size hs =>
    intro h hn _ _ h' s hr fuel _
    cases hr
    refine ⟨?_, hn⟩
    cases fuel <;> rfl
  | @first size hs ms w k c type stream a b hc hl hb hw ih =>
    intro h hn h0 ha h' s hr fuel hf
    cases ms with
    | nil =>
      obtain ⟨-, g2⟩ := ih h hn h0 ha h' s hr w.length (Nat.le_refl _)
      cases hr
      refine ⟨?_, g2⟩
      cases fuel <;> rfl
    | cons m ms =>
      cases fuel with
      | zero => simp only [List.cons_append, List.length_cons] at hf; omega
      | succ fuel =>
        have hb' : 0 < b.length := List.length_pos_iff.2 hb
        obtain ⟨g1, g2⟩ := ih h hn h0 ha h' s hr fuel (by simp only [List.cons_append, List.length_cons, List.length_append] at hf; omega)
        refine ⟨?_, g2⟩
        rw [List.map_cons] at g1 ⊢
        unfold takeAll
        have hz : h.inChunk.toNat = a.length := by rw [hn, hl]; rfl
        have hm : min (a ++ b).length a.length = a.length := by rw [List.length_append]; omega
        rw [if_neg (by omega), List.cons_append, hz, takeChunk, hm, takeBytes_map]
        simp only [Option.map_some]
        rw [if_neg (by rw [List.length_append]; omega), parts_some hs c type a b _ List.length_append]
        exact g1
  | @whole size hs ms w k c stream m hc hl hw ih =>
    intro h hn h0 ha h' s hr fuel hf
    obtain ⟨h1, s1, s2, e1, e2, e3, e4⟩ := step size m ms h hn h0 ha h' s hr
    cases fuel with
    | zero => simp only [List.cons_append, List.length_cons] at hf; omega
    | succ fuel =>
      obtain ⟨g1, g2⟩ := ih h1 e2 e3 (fun x hx => ha x (by simp [hx])) h' s2 e4 fuel (by simp only [List.cons_append, List.length_cons, List.length_append] at hf; omega)
      refine ⟨?_, g2⟩
      rw [List.map_cons]
      unfold takeAll
      have hz : h.inChunk.toNat = size := by rw [hn]; rfl
      rw [if_neg (by omega), List.cons_append, hz, takeChunk, Nat.min_eq_left hl, takeBytes_map]
      simp only [Option.map_some, if_true, e1, parts_none, set_same hs c hc, g1]
      simp
  | @next size hs ms w k c type sent a b hc hl hb hw ih =>
    intro h hn h0 ha h' s hr fuel hf
    cases ms with
    | nil =>
      obtain ⟨-, g2⟩ := ih h hn h0 ha h' s hr w.length (Nat.le_refl _)
      cases hr
      refine ⟨?_, g2⟩
      cases fuel <;> rfl
    | cons m ms =>
      cases fuel with
      | zero => simp only [List.cons_append, List.length_cons] at hf; omega
      | succ fuel =>
        have hb' : 0 < b.length := List.length_pos_iff.2 hb
        obtain ⟨g1, g2⟩ := ih h hn h0 ha h' s hr fuel (by simp only [List.cons_append, List.length_cons, List.length_append] at hf; omega)
        refine ⟨?_, g2⟩
        rw [List.map_cons] at g1 ⊢
        unfold takeAll
        have hz : h.inChunk.toNat = a.length := by rw [hn, hl]; rfl
        have hp : parts hs c = some ⟨type, sent.length + (a ++ b).length, sent⟩ := by unfold parts; rw [hc]; rfl
        have hm : min (sent.length + (a ++ b).length - sent.length) a.length = a.length := by rw [List.length_append]; omega
        rw [if_neg (by omega), List.cons_append, hz, takeChunk, hp]
        simp only [hm, takeBytes_map, Option.map_some]
        rw [if_neg (by simp only [List.length_append]; omega), parts_some hs c type (sent ++ a) b _ (by simp only [List.length_append]; omega)]
        exact g1
  | @last size hs ms w k c m sent b hc hl hb hw ih =>
    intro h hn h0 ha h' s hr fuel hf
    obtain ⟨h1, s1, s2, e1, e2, e3, e4⟩ := step size m ms h hn h0 ha h' s hr
    cases fuel with
    | zero => simp only [List.cons_append, List.length_cons] at hf; omega
    | succ fuel =>
      obtain ⟨g1, g2⟩ := ih h1 e2 e3 (fun x hx => ha x (by simp [hx])) h' s2 e4 fuel (by simp only [List.cons_append, List.length_cons, List.length_append] at hf; omega)
      refine ⟨?_, g2⟩
      rw [List.map_cons]
      unfold takeAll
      have hz : h.inChunk.toNat = size := by rw [hn]; rfl
      have hp : parts hs c = some ⟨m.type, sent.length + b.length, sent⟩ := by unfold parts; rw [hc]; rfl
      have hm : min (sent.length + b.length - sent.length) size = b.length := by omega
      rw [if_neg (by omega), List.cons_append, hz, takeChunk, hp]
      simp only [hm, takeBytes_map, Option.map_some]
      rw [if_pos (by rw [List.length_append])]
      simp only [← hb, e1, parts_none, g1]
      simp

/-- **C127**, whatever messages a client sends, on any number of channels, with their chunks mixed as it likes, in chunks of the size it announced last: the object that receives them gets them, in the order in
which they are completed, and expects afterwards the size that the client uses. The messages are those the object survives (C22 says which). Missing: messages received by another object than the announcement
(`C127_negation_lost`). -/
theorem C127_received_partial (ms : List RtmpRecv) (ha : ∀ m ∈ ms, Announces m) (w : List Sym) (size : Nat) (hw : Wire 128 idle ms w size) (h : RtmpHook) (s : List RtmpSent)
    (hr : RtmpHook.create.recvAll ms = some (Err.SUCCESS, h, s)) :
    takeAll w.length RtmpHook.create (fun _ => none) (ms.map fun m => (m.nIn, m.sendErr)) w = some (ms, h) ∧ h.inChunk = size :=
  takeAll_wire hw RtmpHook.create rfl (by decide) ha h s hr _ (Nat.le_refl _)

/-- The announcement of chunks of 200 bytes. -/
def tell : RtmpRecv := { type := 1, body := [0, 0, 0, 200], nIn := 16 }
/-- A video message of 150 bytes: two chunks before the announcement, one after it. -/
def video : RtmpRecv := { type := 9, body := List.replicate 128 7 ++ List.replicate 22 8, nIn := 163 }
/-- An audio message. -/
def audio : RtmpRecv := { type := 8, body := [0xaf, 1], nIn := 14 }
/-- What the client sends for the video after the announcement. -/
def videoWire : List Sym := Sym.head 6 9 1 150 :: video.body.map Sym.byte ++ []

theorem wire_video : Wire 200 idle [video] videoWire 200 := .whole 6 1 video rfl (by decide +kernel) (.nil 200 idle)

/-- Video, with an audio message and the announcement between its chunks, and video again. -/
theorem wire_mixed : Wire 128 idle [audio, tell, video, video] (.head 6 9 1 150 :: (List.replicate 128 7).map Sym.byte ++ (.head 4 8 1 2 :: audio.body.map Sym.byte ++
    (.head 2 1 0 4 :: tell.body.map Sym.byte ++ (.more 6 :: (List.replicate 22 8).map Sym.byte ++ videoWire)))) 200 :=
  .first 6 9 1 (List.replicate 128 7) (List.replicate 22 8) rfl (by decide +kernel) (by decide +kernel) (.whole 4 1 audio rfl (by decide) (.whole 2 0 tell rfl (by decide)
    (.last 6 video (List.replicate 128 7) (List.replicate 22 8) rfl (by decide +kernel) rfl (by
      show Wire 200 _ [video] videoWire 200
      refine .whole 6 1 video rfl (by decide +kernel) (.nil _ _)))))

example : (∃ h s, RtmpHook.create.recvAll [audio, tell, video, video] = some (Err.SUCCESS, h, s)) ∧ ∀ m ∈ [audio, tell, video, video], Announces m := by
  refine ⟨⟨{ inChunk := 200, bytesIn := 356 }, [], by decide +kernel⟩, ?_⟩
  intro m hm n hn
  simp only [List.mem_cons, List.not_mem_nil, or_false] at hm
  rcases hm with rfl | rfl | rfl | rfl
  · cases hn
  · cases hn; decide
  · cases hn
  · cases hn

/-- **C127**, an announcement made before the stream starts is lost: the object that receives the media is a new one (C63) and expects chunks of 128 bytes, so that the first message longer than that, which the
client sends as it announced, is not received. With the object that was told, it is. -/
theorem C127_negation_lost : ∃ h, takeAll 5 RtmpHook.create (fun _ => none) [(tell.nIn, tell.sendErr)] (Sym.head 2 1 0 4 :: tell.body.map Sym.byte) = some ([tell], h) ∧
    Wire h.inChunk.toNat idle [video] videoWire 200 ∧ (takeAll 151 h (fun _ => none) [(video.nIn, video.sendErr)] videoWire).map Prod.fst = some [video] ∧
    ∀ pre, takeAll 151 (RtmpPrepared.prepare h pre).hook (fun _ => none) [(video.nIn, video.sendErr)] videoWire = none :=
  ⟨{ inChunk := 200, bytesIn := 16 }, by decide +kernel, wire_video, by decide +kernel, fun _ => by
    show takeAll 151 RtmpHook.create _ _ _ = none
    decide +kernel⟩

/-- **C127**, an announcement of 0 or of 2^31 and more is taken as it is: no further message with a body is received. -/
theorem C127_negation_zero : ∀ b ∈ [[0, 0, 0, 0], [0x80, 0, 0, 0]],
    ∃ h, takeAll 5 RtmpHook.create (fun _ => none) [(16, Err.SUCCESS)] (Sym.head 2 1 0 4 :: (b.map Sym.byte)) = some ([{ type := 1, body := b, nIn := 16 }], h) ∧
    takeAll 3 h (fun _ => none) [(13, Err.SUCCESS)] [Sym.head 4 8 1 2, .byte 0xaf, .byte 1] = none ∧
    (takeAll 3 RtmpHook.create (fun _ => none) [(13, Err.SUCCESS)] [Sym.head 4 8 1 2, .byte 0xaf, .byte 1]).isSome = true := by
  intro b hb
  simp only [List.mem_cons, List.not_mem_nil, or_false] at hb
  rcases hb with rfl | rfl
  · exact ⟨{ inChunk := 0, bytesIn := 16 }, by decide +kernel⟩
  · exact ⟨{ inChunk := -2147483648, bytesIn := 16 }, by decide +kernel⟩

end Sps.RtmpChunk
