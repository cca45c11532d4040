import Verif.Lemmas.Isolation
import Verif.Spec.Ends
/-!
# How much input is left

Every pass of a publisher's loop takes input away: the bytes that are still to be read, in the buffer or behind it, become fewer.
-/
namespace Sps

/-- The bytes that can still be received. -/
def Io.left (io : Io) : Nat := (io.evs.map fun | .data p => p.length | .err _ => 0).sum

theorem Io.read_left {io io' : Io} {n : Nat} {x : ReadRes} (h : io.read n = (x, io')) :
    match x with | .ok d => io'.left + d.length = io.left ∧ d.length ≤ n | .err _ => io'.left = io.left := by
  unfold Io.read at h
  split at h
  · cases h; rfl
  · split at h
    · cases h; rfl
    · rename_i e evs he
      cases h; simp [Io.left, he]
    · rename_i p evs he
      split at h
      · cases h; rename_i hp; refine ⟨?_, hp⟩; simp [Io.left, he]; first | done | omega
      · cases h; rename_i hp; refine ⟨?_, by simp only [List.length_take]; omega⟩; simp [Io.left, he]; omega

theorem Io.readFully_left : ∀ (fuel : Nat) (io : Io) (size : Nat) (got : List UInt8) {e : Err} {d : List UInt8} {io' : Io},
    Io.readFully fuel io size got = some (e, d, io') → io'.left + d.length ≤ io.left + got.length := by
  intro fuel
  induction fuel with
  | zero => intro io size got e d io' h; simp [Io.readFully] at h
  | succ fuel ih =>
    intro io size got e d io' h
    simp only [Io.readFully] at h
    split at h
    · rename_i e1 io1 hr
      have h1 := Io.read_left hr
      simp at h1
      cases h; omega
    · rename_i d1 io1 hr
      have h1 := Io.read_left hr
      simp at h1
      split at h
      · have h2 := ih _ _ _ h
        simp only [List.length_append] at h2; omega
      · cases h; simp only [List.length_append]; omega

namespace HttpBody

theorem line_left : ∀ (fuel : Nat) (io : Io) (got : List UInt8) {e : Err} {l : List UInt8} {io' : Io}, line fuel io got = some (e, l, io') → io'.left ≤ io.left := by
  intro fuel
  induction fuel with
  | zero => intro io got e l io' h; simp [line] at h
  | succ fuel ih =>
    intro io got e l io' h
    simp only [line] at h
    split at h
    · rename_i e1 io1 hr
      have h1 := Io.read_left hr
      simp only at h1
      cases h; omega
    · rename_i d1 io1 hr
      have h1 := Io.read_left hr
      simp only at h1
      split at h
      · have h2 := ih _ _ h; omega
      · cases h; omega

theorem readLength_left {b b' : HttpBody} {io io' : Io} {e : Err} (h : b.readLength io = some (e, b', io')) : io'.left ≤ io.left := by
  simp only [readLength, Option.bind_eq_some_iff] at h
  obtain ⟨⟨e1, l, io1⟩, h1, h2⟩ := h
  have h3 := line_left _ _ _ h1
  simp only at h2
  split at h2
  · cases h2; exact h3
  · split at h2
    · cases h2; exact h3
    · split at h2 <;> cases h2 <;> exact h3

theorem tail_left {b b' : HttpBody} {ret e : Err} {d d' : List UInt8} {io io' : Io} (h : tail b ret d io = some (e, d', b', io')) : io'.left ≤ io.left ∧ d' = d := by
  simp only [tail, Option.map_eq_some_iff] at h
  obtain ⟨⟨e1, io1⟩, h1, h2⟩ := h
  cases h2
  refine ⟨?_, rfl⟩
  split at h1
  · simp only [Option.map_eq_some_iff] at h1
    obtain ⟨⟨e2, t, io2⟩, h3, h4⟩ := h1
    cases h4
    have := Io.readFully_left _ _ _ _ h3
    simp only [List.length_nil] at this
    show io2.left ≤ _
    omega
  · cases h1; exact Nat.le_refl _

theorem readData_left {side : HttpSide} {b b' : HttpBody} {n : Nat} {e : Err} {d : List UInt8} {io io' : Io} (h : readData side b n io = some (e, d, b', io')) :
    io'.left + d.length ≤ io.left := by
  simp only [readData] at h
  split at h
  · split at h
    · split at h
      · rename_i hr
        have h1 := Io.read_left hr
        have h2 := tail_left h
        simp only at h1
        rw [h2.2]; omega
      · rename_i hr
        have h1 := Io.read_left hr
        have h2 := tail_left h
        simp only at h1
        rw [h2.2]; simp; omega
    · have h2 := tail_left h
      rw [h2.2]; simp; omega
  · split at h
    · simp only [Option.bind_eq_some_iff] at h
      obtain ⟨⟨e1, d1, io1⟩, h1, h2⟩ := h
      have h3 := Io.readFully_left _ _ _ _ h1
      have h4 := tail_left h2
      simp only [List.length_nil] at h3 h4
      rw [h4.2]; omega
    · have h2 := tail_left h
      rw [h2.2]; simp; omega

theorem read_left {side : HttpSide} {b b' : HttpBody} {n : Nat} {e : Err} {d : List UInt8} {io io' : Io} (h : b.read side n io = some (e, d, b', io')) :
    io'.left + d.length ≤ io.left := by
  unfold read at h
  split at h
  · cases h; simp
  · split at h
    · simp only [readChunked, Option.bind_eq_some_iff] at h
      obtain ⟨⟨e1, b1, io1⟩, h1, h2⟩ := h
      have h3 : io1.left ≤ io.left := by
        split at h1
        · exact readLength_left h1
        · cases h1; exact Nat.le_refl _
      simp only at h2
      split at h2
      · cases h2; simpa using h3
      · have := readData_left h2; omega
    · simp only at h
      split at h
      · rename_i hr
        have h1 := Io.read_left hr
        simp only at h1
        cases h; simp; omega
      · rename_i hr
        have h1 := Io.read_left hr
        simp only at h1
        cases h; omega

end HttpBody

theorem HttpSrc.read_left {s s' : HttpSrc} {n : Nat} {x : ReadRes} (h : Source.read s n = some (x, s')) :
    match x with | .ok d => s'.io.left + d.length ≤ s.io.left | .err e => s'.io.left ≤ s.io.left ∧ e ≠ Err.SUCCESS := by
  simp only [Source.read, HttpSrc.read, Option.map_eq_some_iff] at h
  obtain ⟨⟨e, d, b, io⟩, h1, h2⟩ := h
  have h3 := HttpBody.read_left h1
  simp only [Prod.mk.injEq] at h2
  obtain ⟨h2, rfl⟩ := h2
  cases x with
  | ok d' => split at h2 <;> cases h2; exact h3
  | err e' =>
    split at h2 <;> cases h2
    rename_i h5
    exact ⟨Nat.le_trans (Nat.le_add_right _ _) h3, h5⟩

theorem AVBuf.poke_keeps {b b' : AVBuf} {off : Nat} {d : List UInt8} (h : b.poke off d = some b') : b'.ptr = b.ptr ∧ b'.fin = b.fin ∧ b'.cap = b.cap ∧ off + d.length ≤ b.cap := by
  unfold AVBuf.poke at h
  split at h
  · rename_i hc
    cases h
    refine ⟨rfl, rfl, ?_, hc⟩
    simp only [AVBuf.cap, List.length_append, List.length_take, List.length_drop] at hc ⊢
    omega
  · cases h

namespace SReader

/-- What a reader can still give: what is in the buffer, and what is behind it. -/
def left (r : SReader HttpSrc) : Nat := (r.buf.fin - r.buf.ptr) + r.src.io.left

theorem acquireLoop_left : ∀ (fuel : Nat) (r : SReader HttpSrc) (n : Nat) {e : Err} {r' : SReader HttpSrc}, r.buf.WF → acquireLoop fuel r n = some (e, r') →
    r'.buf.WF ∧ r'.left ≤ r.left ∧ (e = Err.SUCCESS → n ≤ r'.buf.fin - r'.buf.ptr) := by
  intro fuel
  induction fuel with
  | zero => intro r n e r' _ h; simp [acquireLoop] at h
  | succ fuel ih =>
    intro r n e r' hw h
    simp only [acquireLoop, Option.bind_eq_some_iff] at h
    obtain ⟨⟨x, s⟩, h1, h2⟩ := h
    have h3 := HttpSrc.read_left h1
    cases x with
    | err e1 =>
      simp only [Option.some.injEq, Prod.mk.injEq] at h2
      obtain ⟨rfl, rfl⟩ := h2
      simp only at h3
      refine ⟨hw, ?_, fun h => absurd h h3.2⟩
      simp only [left]; omega
    | ok d =>
      simp only [Option.bind_eq_some_iff] at h2 h3
      obtain ⟨b, h4, h5⟩ := h2
      obtain ⟨k1, k2, k3, k4⟩ := AVBuf.poke_keeps h4
      have w1 := hw.ptr_le
      have w2 := hw.fin_le
      have w3 := hw.cap_lt
      have hw' : (b.append d.length).WF := ⟨by simp only [AVBuf.append]; omega, by show b.fin + d.length ≤ b.cap; omega, by show b.cap < _; omega⟩
      have hl : (⟨b.append d.length, s⟩ : SReader HttpSrc).left ≤ r.left := by
        show (b.fin + d.length - b.ptr) + s.io.left ≤ (r.buf.fin - r.buf.ptr) + r.src.io.left
        omega
      split at h5
      · obtain ⟨j1, j2, j3⟩ := ih _ _ hw' h5
        exact ⟨j1, Nat.le_trans j2 hl, j3⟩
      · rename_i hn
        cases h5
        refine ⟨hw', hl, fun _ => ?_⟩
        rw [hw'.size] at hn
        exact Nat.le_of_not_lt hn

theorem acquire_left {r r' : SReader HttpSrc} {n : Nat} {e : Err} (hw : r.buf.WF) (h : r.acquire n = some (e, r')) :
    r'.buf.WF ∧ r'.left ≤ r.left ∧ (e = Err.SUCCESS → n ≤ r'.buf.fin - r'.buf.ptr) := by
  unfold acquire at h
  split at h
  · rename_i hn
    cases h
    rw [hw.size] at hn
    exact ⟨hw, Nat.le_refl _, fun _ => hn⟩
  · split at h
    · cases h
      exact ⟨hw, Nat.le_refl _, fun h => absurd h (by decide)⟩
    · rw [Option.bind_eq_some_iff] at h
      obtain ⟨b, h1, h2⟩ := h
      have : b.WF ∧ b.fin - b.ptr = r.buf.fin - r.buf.ptr := by
        split at h1
        · obtain ⟨b', k1, k2, _, k4, _, _⟩ := AVBuf.rewind_spec hw
          rw [k1] at h1
          cases h1
          exact ⟨k2, by rw [← k2.content_length, k4, hw.content_length]⟩
        · cases h1; exact ⟨hw, rfl⟩
      split at h2
      · obtain ⟨j1, j2, j3⟩ := acquireLoop_left _ _ _ (show (SReader.mk b r.src).buf.WF from this.1) h2
        refine ⟨j1, Nat.le_trans j2 ?_, j3⟩
        simp only [left]; omega
      · cases h2

/-- Only the position has moved, by `k` bytes. -/
def Moved (k : Nat) (r r' : SReader HttpSrc) : Prop := r'.buf.ptr = r.buf.ptr + k ∧ r'.buf.fin = r.buf.fin ∧ r'.buf.cap = r.buf.cap ∧ r'.src = r.src

theorem Moved.trans {j k : Nat} {a b c : SReader HttpSrc} (h : Moved j a b) (h' : Moved k b c) : Moved (j + k) a c :=
  ⟨by rw [h'.1, h.1]; omega, by rw [h'.2.1, h.2.1], by rw [h'.2.2.1, h.2.2.1], by rw [h'.2.2.2, h.2.2.2]⟩

theorem Moved.left {k : Nat} {r r' : SReader HttpSrc} (h : Moved k r r') (hw : r.buf.WF) (hk : k ≤ r.buf.fin - r.buf.ptr) : r'.buf.WF ∧ r'.left + k = r.left := by
  obtain ⟨h1, h2, h3, h4⟩ := h
  have := hw.ptr_le
  have := hw.fin_le
  have := hw.cap_lt
  refine ⟨⟨by omega, by omega, by omega⟩, ?_⟩
  simp only [SReader.left, h1, h2, h4]
  omega

end SReader

namespace RProg
open SReader

theorem rdBytes_moved {n : Nat} {r r' : SReader HttpSrc} {d : List UInt8} (h : (rdBytes n).runOn r = some (d, r')) : Moved n r r' := by
  simp only [rdBytes, runOn, SReader.lift, Reader.bytes, Option.bind_eq_some_iff, Option.map_eq_some_iff] at h
  obtain ⟨⟨v, r1⟩, ⟨⟨v2, r2⟩, h1, h2⟩, h3⟩ := h
  cases h3
  split at h1
  · cases h1; cases h2; exact ⟨rfl, rfl, rfl, rfl⟩
  · cases h1

theorem rd8_moved {r r' : SReader HttpSrc} {v : Nat} (h : rd8.runOn r = some (v, r')) : Moved 1 r r' := by
  simp only [rd8, runOn, SReader.lift, Option.bind_eq_some_iff, Option.map_eq_some_iff] at h
  obtain ⟨⟨v, r1⟩, ⟨⟨v2, r2⟩, h1, h2⟩, h3⟩ := h
  cases h3
  simp only [Reader.int8] at h1
  split at h1
  · cases h1; cases h2; exact ⟨rfl, rfl, rfl, rfl⟩
  · cases h1

theorem bind_moved {α β : Type} {p : RProg α} {f : α → RProg β} {r r' : SReader HttpSrc} {v : β} (h : (p >>= f).runOn r = some (v, r')) :
    ∃ a r1, p.runOn r = some (a, r1) ∧ (f a).runOn r1 = some (v, r') := by
  rw [runOn_bind, Option.bind_eq_some_iff] at h
  obtain ⟨⟨a, r1⟩, h1, h2⟩ := h
  exact ⟨a, r1, h1, h2⟩

theorem pure_moved {α : Type} {a b : α} {r r' : SReader HttpSrc} (h : (pure a : RProg α).runOn r = some (b, r')) : b = a ∧ r' = r := by
  cases h; exact ⟨rfl, rfl⟩

theorem rd16_moved {r r' : SReader HttpSrc} {v : Nat} (h : rd16.runOn r = some (v, r')) : Moved 2 r r' := by
  obtain ⟨a, r1, h1, h⟩ := bind_moved h
  obtain ⟨b, r2, h2, h⟩ := bind_moved h
  obtain ⟨rfl, rfl⟩ := pure_moved h
  exact (rd8_moved h1).trans (rd8_moved h2)

theorem rd24_moved {r r' : SReader HttpSrc} {v : Nat} (h : rd24.runOn r = some (v, r')) : Moved 3 r r' := by
  obtain ⟨a, r1, h1, h⟩ := bind_moved h
  obtain ⟨b, r2, h2, h⟩ := bind_moved h
  obtain ⟨rfl, rfl⟩ := pure_moved h
  exact (rd8_moved h1).trans (rd16_moved h2)

theorem rd32_moved {r r' : SReader HttpSrc} {v : Nat} (h : rd32.runOn r = some (v, r')) : Moved 4 r r' := by
  obtain ⟨a, r1, h1, h⟩ := bind_moved h
  obtain ⟨b, r2, h2, h⟩ := bind_moved h
  obtain ⟨rfl, rfl⟩ := pure_moved h
  exact (rd16_moved h1).trans (rd16_moved h2)

theorem acq_runOn {r r' : SReader HttpSrc} {n : Nat} {e : Err} (h : (acq n).runOn r = some (e, r')) : r.acquire n = some (e, r') := by
  simp only [acq, runOn, Option.bind_eq_some_iff] at h
  obtain ⟨⟨a, r1⟩, h1, h2⟩ := h
  cases h2; exact h1

end RProg

namespace FlvDemuxer
open RProg SReader

theorem readHeader_left {r r' : SReader HttpSrc} {e : Err} {p : AVPkt} (hw : r.buf.WF) (h : readHeader.runOn r = some ((e, some p), r')) :
    r'.buf.WF ∧ r'.left + 9 ≤ r.left := by
  obtain ⟨e1, r1, h1, h⟩ := bind_moved h
  obtain ⟨j1, j2, j3⟩ := acquire_left hw (acq_runOn h1)
  by_cases he : e1 = Err.SUCCESS
  · simp only [he, ne_eq, not_true_eq_false, if_false] at h
    obtain ⟨d, r2, h2, h⟩ := bind_moved h
    have := (rdBytes_moved h2).left j1 (j3 he)
    split at h
    · cases h
    · obtain ⟨_, rfl⟩ := pure_moved h
      exact ⟨this.1, by omega⟩
  · simp only [ne_eq, he, not_false_eq_true, if_true] at h
    cases h

theorem readHead_left {r r' : SReader HttpSrc} {tag n : Nat} {t : Int} (hw : r.buf.WF) (h : readHead.runOn r = some ((Err.SUCCESS, tag, n, t), r')) :
    r'.buf.WF ∧ r'.left + 15 ≤ r.left ∧ n ≤ r'.buf.fin - r'.buf.ptr := by
  obtain ⟨e1, r1, h1, h⟩ := bind_moved h
  obtain ⟨j1, j2, j3⟩ := acquire_left hw (acq_runOn h1)
  by_cases he : e1 = Err.SUCCESS
  · simp only [he, ne_eq, not_true_eq_false, if_false] at h
    obtain ⟨_, r2, m1, h⟩ := bind_moved h
    obtain ⟨_, r3, m2, h⟩ := bind_moved h
    obtain ⟨_, r4, m3, h⟩ := bind_moved h
    obtain ⟨_, r5, m4, h⟩ := bind_moved h
    obtain ⟨_, r6, m5, h⟩ := bind_moved h
    obtain ⟨_, r7, m6, h⟩ := bind_moved h
    obtain ⟨e2, r8, m7, h⟩ := bind_moved h
    have m := (((((rd32_moved m1).trans (rd8_moved m2)).trans (rd24_moved m3)).trans (rd24_moved m4)).trans (rd8_moved m5)).trans (rd24_moved m6)
    have k := m.left j1 (j3 he)
    obtain ⟨i1, i2, i3⟩ := acquire_left k.1 (acq_runOn m7)
    obtain ⟨k2, rfl⟩ := pure_moved h
    simp only [Prod.mk.injEq] at k2
    obtain ⟨rfl, _, rfl, _⟩ := k2
    exact ⟨i1, by omega, i3 rfl⟩
  · simp only [ne_eq, he, not_false_eq_true, if_true] at h
    obtain ⟨k2, _⟩ := pure_moved h
    simp only [Prod.mk.injEq] at k2
    exact absurd k2.1.symm he

theorem finish_moved {st : StreamType} {a b c : Nat} {dts pts n : Int} {r r' : SReader HttpSrc} {e : Err} {p : AVPkt} (h : (finish st a b c dts pts n).runOn r = some ((e, some p), r')) :
    0 < n ∧ Moved n.toNat r r' := by
  unfold finish at h
  split at h
  · cases h
  · obtain ⟨d, r1, h1, h⟩ := bind_moved h
    obtain ⟨_, rfl⟩ := pure_moved h
    exact ⟨by omega, rdBytes_moved h1⟩

theorem readBody_moved {tag n : Nat} {t : Int} {r r' : SReader HttpSrc} {e : Err} {p : AVPkt} (h : (readBody tag n t).runOn r = some ((e, some p), r')) : Moved n r r' := by
  unfold readBody at h
  split at h
  · obtain ⟨_, r1, h1, h⟩ := bind_moved h
    simp only at h
    split at h
    · cases h
    · obtain ⟨_, r2, h2, h⟩ := bind_moved h
      obtain ⟨k1, k2⟩ := finish_moved h
      have := ((rd8_moved h1).trans (rd8_moved h2)).trans k2
      rwa [show 1 + 1 + ((n : Int) - 2).toNat = n by omega] at this
  · split at h
    · obtain ⟨_, r1, h1, h⟩ := bind_moved h
      simp only at h
      split at h
      · cases h
      · split at h
        · obtain ⟨_, r2, h2, h⟩ := bind_moved h
          obtain ⟨_, r3, h3, h⟩ := bind_moved h
          obtain ⟨k1, k2⟩ := finish_moved h
          have := (((rd8_moved h1).trans (rd8_moved h2)).trans (rd24_moved h3)).trans k2
          rwa [show 1 + 1 + 3 + ((n : Int) - 1 - 4).toNat = n by omega] at this
        · obtain ⟨k1, k2⟩ := finish_moved h
          have := (rd8_moved h1).trans k2
          rwa [show 1 + ((n : Int) - 1).toNat = n by omega] at this
    · split at h
      · exact (finish_moved h).2
      · cases h

theorem readPacket_left {r r' : SReader HttpSrc} {e : Err} {p : AVPkt} (hw : r.buf.WF) (h : readPacket.runOn r = some ((e, some p), r')) :
    r'.buf.WF ∧ r'.left + 15 ≤ r.left := by
  obtain ⟨⟨e1, tag, n, t⟩, r1, h1, h⟩ := bind_moved h
  by_cases he : e1 = Err.SUCCESS
  · subst he
    simp only [ne_eq, not_true_eq_false, if_false] at h
    obtain ⟨k1, k2, k3⟩ := readHead_left hw h1
    have := (readBody_moved h).left k1 k3
    exact ⟨this.1, by omega⟩
  · simp only [ne_eq, he, not_false_eq_true, if_true] at h
    cases h

end FlvDemuxer

theorem RtmpDemuxer.readPacket_length (closed : Err) : ∀ (ms : List RtmpMsg) {e : Err} {p : AVPkt} {ms' : List RtmpMsg},
    RtmpDemuxer.readPacket closed ms = some ((e, some p), ms') → ms'.length < ms.length := by
  intro ms
  induction ms with
  | nil => intro e p ms' h; simp [RtmpDemuxer.readPacket] at h
  | cons m ms ih =>
    intro e p ms' h
    simp only [RtmpDemuxer.readPacket] at h
    split at h
    · have := ih h; simp only [List.length_cons]; omega
    · rw [Option.map_eq_some_iff] at h
      obtain ⟨x, _, hx⟩ := h
      simp only [Prod.mk.injEq] at hx
      rw [← hx.2]
      simp

/-! ## SRT -/

/-- Bytes and events that are still to come. -/
def Io.weight (io : Io) : Nat := (io.evs.map fun | .data p => p.length + 1 | .err _ => 1).sum

theorem Io.read_weight {io io' : Io} {n : Nat} {x : ReadRes} (hc : io.closed ≠ Err.SUCCESS) (h : io.read n = (x, io')) :
    io'.closed = io.closed ∧ match x with | .ok _ => io'.weight < io.weight | .err e => io'.weight ≤ io.weight ∧ (e = Err.SUCCESS → io'.weight < io.weight) := by
  unfold Io.read at h
  split at h
  · cases h; exact ⟨rfl, Nat.le_refl _, fun h => absurd h (by decide)⟩
  · split at h
    · cases h; exact ⟨rfl, Nat.le_refl _, fun h => absurd h hc⟩
    · rename_i e evs he
      cases h
      refine ⟨rfl, ?_⟩
      simp only [Io.weight, he, List.map_cons, List.sum_cons]
      exact ⟨by omega, fun _ => by omega⟩
    · rename_i p evs he
      split at h <;> cases h <;> refine ⟨rfl, ?_⟩
      · simp only [Io.weight, he, List.map_cons, List.sum_cons]; omega
      · simp only [Io.weight, he, List.map_cons, List.sum_cons, List.length_drop]; omega

theorem Reader.acquireLoop_weight : ∀ (fuel : Nat) (r : Reader) (n : Nat) {r' : Reader} {io : Io}, r.io = some io → io.closed ≠ Err.SUCCESS →
    acquireLoop fuel r n = some (Err.SUCCESS, r') → ∃ io', r'.io = some io' ∧ io'.closed = io.closed ∧ io'.weight < io.weight := by
  intro fuel
  induction fuel with
  | zero => intro r n r' io _ _ h; simp [acquireLoop] at h
  | succ fuel ih =>
    intro r n r' io hio hc h
    simp only [acquireLoop, hio] at h
    split at h
    · rename_i e io1 hr
      have h1 := Io.read_weight hc hr
      simp only [Option.some.injEq, Prod.mk.injEq] at h
      obtain ⟨he, rfl⟩ := h
      exact ⟨io1, rfl, h1.1, h1.2.2 he⟩
    · rename_i d io1 hr
      have h1 := Io.read_weight hc hr
      split at h
      · cases h
      · split at h
        · obtain ⟨io', k1, k2, k3⟩ := ih _ _ rfl (by rw [h1.1]; exact hc) h
          exact ⟨io', k1, by rw [k2, h1.1], Nat.lt_trans k3 h1.2⟩
        · cases h
          exact ⟨io1, rfl, h1.1, h1.2⟩

/-- The reader of an SRT publisher between two passes: its buffer is empty, and it is told when the connection has ended. -/
def Reader.Fresh (r : Reader) (io : Io) : Prop := r.io = some io ∧ io.closed ≠ Err.SUCCESS ∧ r.buf.ptr = 0 ∧ r.buf.fin = 0

theorem Reader.acquire_weight {r r' : Reader} {io : Io} (h : r.Fresh io) {n : Nat} (hn : 0 < n) (ha : r.acquire n = some (Err.SUCCESS, r')) :
    ∃ io', Reader.Fresh { r' with buf := r'.buf.clear } io' ∧ io'.weight < io.weight := by
  obtain ⟨h1, h2, h3, h4⟩ := h
  have hs : r.buf.size = 0 := by simp [AVBuf.size, subSz, h3, h4]
  simp only [acquire, hs] at ha
  rw [if_neg (by omega)] at ha
  split at ha
  · cases ha
  · split at ha
    · cases ha
    · split at ha
      · obtain ⟨io', k1, k2, k3⟩ := acquireLoop_weight _ _ _ (by exact h1) h2 ha
        exact ⟨io', ⟨k1, by rw [k2]; exact h2, rfl, rfl⟩, k3⟩
      · cases ha

namespace Sys
open World HttpStream Spec StreamProps

/-- The cache a publisher feeds, and what it will have been. -/
def feeds : Job → Option (Nat × Role)
  | .flvPub cid _ _ => some (cid, .publisher cid)
  | .rtmpPub cid _ _ => some (cid, .rtmpPublisher cid)
  | .srtPub cid _ _ _ => some (cid, .srtPublisher cid)
  | _ => none

/-- A pass of a publisher's loop after which it goes on. -/
inductive Goes : Job → Job → Prop
  | head {cid : Nat} {rd rd' : SReader HttpSrc} {e : Err} {p : AVPkt} (h : FlvDemuxer.readHeader.runOn rd = some ((e, some p), rd')) : Goes (.flvPub cid rd false) (.flvPub cid rd' true)
  | tag {cid : Nat} {rd rd' : SReader HttpSrc} {e : Err} {p : AVPkt} (h : FlvDemuxer.readPacket.runOn rd = some ((e, some p), rd')) : Goes (.flvPub cid rd true) (.flvPub cid rd' true)
  | msg {cid : Nat} {ms ms' : List RtmpMsg} {closed e : Err} {p : AVPkt} (h : RtmpDemuxer.readPacket closed ms = some ((e, some p), ms')) : Goes (.rtmpPub cid ms closed) (.rtmpPub cid ms' closed)
  | pop {cid : Nat} {rd : Reader} {ctx : TsCtx} {st st' : TsCodec} {p : AVPkt} (h : st.pop = some (p, st')) : Goes (.srtPub cid rd ctx st) (.srtPub cid rd ctx st')
  | read {cid : Nat} {rd rd' : Reader} {ctx ctx' : TsCtx} {st st' : TsCodec} {raw : List AVPkt} {y : List UInt8 × Reader} (hp : st.pop = none)
      (h : rd.acquire 188 = some (Err.SUCCESS, rd')) (hy : rd'.bytes 188 = some y) (hz : TsCtx.decodeAll TsTap.handler 189 ctx (st, []) y.1 = some (Err.SUCCESS, ctx', st', raw)) :
      Goes (.srtPub cid rd ctx st) (.srtPub cid { rd' with buf := rd'.buf.clear } ctx' st')

theorem Goes.feeds {j j' : Job} (h : Goes j j') : feeds j' = feeds j := by cases h <;> rfl

theorem getElem?_set_self' {α : Type} {l : List α} {i : Nat} {a b : α} (h : l[i]? = some a) : (l.set i b)[i]? = some b := by
  have : i < l.length := by
    rcases Nat.lt_or_ge i l.length with h' | h'
    · exact h'
    · rw [List.getElem?_eq_none h'] at h; cases h
  simp [this]

theorem feeds_step {env : Site.Env} {s s' : Sys} {l : Log} {i : Nat} {k : Conn} {x : Nat × Role} (hk : s.conns[i]? = some k) (hf : feeds k.job = some x)
    (h : s.step env (.run i) = some (s', l)) :
    (∃ k', s'.conns[i]? = some k' ∧ Goes k.job k'.job) ∨ ∃ k' e, s'.conns[i]? = some k' ∧ k'.job = .done x.2 e ∧ ∃ o, (.unpublish x.1, o) ∈ l := by
  obtain ⟨job, r, snk⟩ := k
  cases job <;> simp only [feeds, reduceCtorEq, Option.some.injEq] at hf
  case flvPub cid rd hd =>
    subst hf
    simp only [step, hk, runPub] at h
    split at h
    · rename_i hh
      rw [Option.map_eq_some_iff] at h
      obtain ⟨y, hy, hx⟩ := h
      split at hx
      · cases hx
        subst hh
        exact .inl ⟨_, getElem?_set_self' hk, .tag hy⟩
      · cases hx
        exact .inr ⟨_, _, getElem?_set_self' hk, rfl, _, List.mem_singleton.2 rfl⟩
    · rename_i hh
      rw [Option.map_eq_some_iff] at h
      obtain ⟨y, hy, hx⟩ := h
      split at hx
      · cases hx
        have hh : hd = false := by simpa using hh
        subst hh
        exact .inl ⟨_, getElem?_set_self' hk, .head hy⟩
      · cases hx
        exact .inr ⟨_, _, getElem?_set_self' hk, rfl, _, List.mem_singleton.2 rfl⟩
  case rtmpPub cid ms closed =>
    subst hf
    simp only [step, hk, runRtmpPub] at h
    rw [Option.map_eq_some_iff] at h
    obtain ⟨y, hy, hx⟩ := h
    split at hx
    · cases hx
      exact .inl ⟨_, getElem?_set_self' hk, .msg hy⟩
    · cases hx
      exact .inr ⟨_, _, getElem?_set_self' hk, rfl, _, List.mem_singleton.2 rfl⟩
  case srtPub cid rd ctx st =>
    subst hf
    simp only [step, hk, runSrtPub, endSrtPub] at h
    split at h
    · rename_i hp
      cases h
      exact .inl ⟨_, getElem?_set_self' hk, .pop hp⟩
    · rename_i hp
      rw [Option.bind_eq_some_iff] at h
      obtain ⟨⟨e, rd'⟩, ha, hx⟩ := h
      simp only at hx
      split at hx
      · cases hx
        exact .inr ⟨_, _, getElem?_set_self' hk, rfl, _, List.mem_append_right _ (List.mem_singleton.2 rfl)⟩
      · rename_i he
        have he : e = Err.SUCCESS := Decidable.not_not.1 he
        subst he
        rw [Option.bind_eq_some_iff] at hx
        obtain ⟨y, hy, hx⟩ := hx
        rw [Option.map_eq_some_iff] at hx
        obtain ⟨⟨e, ctx', st', raw⟩, hz, hx⟩ := hx
        simp only at hx
        split at hx
        · cases hx
          exact .inr ⟨_, _, getElem?_set_self' hk, rfl, _, List.mem_append_right _ (List.mem_singleton.2 rfl)⟩
        · rename_i he
          have he : e = Err.SUCCESS := Decidable.not_not.1 he
          subst he
          cases hx
          exact .inl ⟨_, getElem?_set_self' hk, .read hp ha hy hz⟩

/-- A connection that does not wait for a pull does not change in a piece that is not its own. -/
theorem frame {env : Site.Env} {s s' : Sys} {l : Log} {op : Op} (h : s.step env op = some (s', l)) {i : Nat} {k : Conn} (hk : s.conns[i]? = some k)
    (hw : (∀ u tag own, k.job ≠ .waits u tag own) ∧ ∀ u fails own, k.job ≠ .rtmpWaits u fails own) (ho : op ≠ .run i) : s'.conns[i]? = some k := by
  have hi : i < s.conns.length := by
    rcases Nat.lt_or_ge i s.conns.length with h' | h'
    · exact h'
    · rw [List.getElem?_eq_none h'] at hk; cases hk
  have hsh := step_shape env s op h
  cases hsh with
  | same h1 _ => rw [h1]; exact hk
  | push _ k' h1 _ => rw [h1, List.getElem?_append_left hi]; exact hk
  | set j ha k0 k' hk0 h1 _ =>
    by_cases hj : j = i
    · subst hj
      cases op with
      | other op => cases ha
      | request q => cases ha
      | run j' => cases ha; exact absurd rfl ho
      | wake j' ret =>
        cases ha
        simp only [step, Option.some.injEq, wake, hk] at h
        obtain ⟨job, r, snk⟩ := k
        cases job with
        | waits u tag own => exact absurd rfl (hw.1 u tag own)
        | rtmpWaits u fails own => exact absurd rfl (hw.2 u fails own)
        | _ => simp only [Prod.mk.injEq] at h; rw [← h.1]; exact hk
    · rw [h1, List.getElem?_set_ne hj]; exact hk

theorem done_frame {env : Site.Env} {s s' : Sys} {l : Log} {op : Op} (h : s.step env op = some (s', l)) {i : Nat} {k : Conn} (hk : s.conns[i]? = some k)
    {was : Role} {e : Err} (hd : k.job = .done was e) : s'.conns[i]? = some k := by
  by_cases ho : op = .run i
  · subst ho
    obtain ⟨job, r, snk⟩ := k
    cases hd
    simp only [step, hk, Option.some.injEq, Prod.mk.injEq] at h
    rw [← h.1]; exact hk
  · exact frame h hk (by rw [hd]; exact ⟨by intros; simp, by intros; simp⟩) ho

theorem run_done {env : Site.Env} {i : Nat} {k : Conn} {was : Role} {e : Err} (hd : k.job = .done was e) : ∀ (ops : List Op) {s s' : Sys} {l : Log},
    Sys.run env s ops = some (s', l) → s.conns[i]? = some k → s'.conns[i]? = some k := by
  intro ops
  induction ops with
  | nil => intro s s' l h hk; cases h; exact hk
  | cons op ops ih =>
    intro s s' l h hk
    simp only [Sys.run, Option.bind_eq_bind, Option.bind_eq_some_iff] at h
    obtain ⟨⟨s1, l1⟩, h1, ⟨s2, l2⟩, h2, h3⟩ := h
    cases h3
    exact ih h2 (done_frame h1 hk hd)

theorem turns_cons (i : Nat) (op : Op) (ops : List Op) : turns i (op :: ops) = match op with | .run j => (if j = i then 1 else 0) + turns i ops | _ => turns i ops := by
  cases op <;> simp only [turns, List.filter_cons] <;> try simp
  split <;> simp <;> omega

/-- The publisher goes on for less than `n` passes. -/
inductive Within : Nat → Job → Prop
  | mk {n : Nat} {j : Job} (h : ∀ j', Goes j j' → Within n j') : Within (n + 1) j

theorem Within.mono {n : Nat} {j : Job} (h : Within n j) : ∀ {m : Nat}, n ≤ m → Within m j := by
  induction h with
  | mk _ ih =>
    intro m hm
    obtain ⟨m, rfl⟩ : ∃ m', m = m' + 1 := ⟨m - 1, by omega⟩
    exact .mk fun j' hj => ih j' hj (by omega)

theorem within_ends {env : Site.Env} {i : Nat} (ops : List Op) : ∀ {n : Nat} {s s' : Sys} {l : Log} {k : Conn} {x : Nat × Role}, Within n k.job → Sys.run env s ops = some (s', l) →
    s.conns[i]? = some k → feeds k.job = some x → n ≤ turns i ops →
    ∃ k' e, s'.conns[i]? = some k' ∧ k'.job = .done x.2 e ∧ ∃ o, (.unpublish x.1, o) ∈ l := by
  induction ops with
  | nil =>
    intro n s s' l k x hw _ _ _ hn
    cases hw
    simp [turns] at hn
  | cons op ops ih =>
    intro n s s' l k x hw h hk hf hn
    simp only [Sys.run, Option.bind_eq_bind, Option.bind_eq_some_iff] at h
    obtain ⟨⟨s1, l1⟩, h1, ⟨s2, l2⟩, h2, h3⟩ := h
    simp only [Option.pure_def, Option.some.injEq, Prod.mk.injEq] at h3
    obtain ⟨rfl, rfl⟩ := h3
    by_cases ho : op = .run i
    · subst ho
      obtain ⟨hw⟩ := hw
      rcases feeds_step hk hf h1 with ⟨k', hk', hg⟩ | ⟨k', e, hk', hd, o, hm⟩
      · obtain ⟨k2, e, j1, j2, o, j3⟩ := ih (hw _ hg) h2 hk' (by rw [hg.feeds]; exact hf) (by rw [turns_cons] at hn; simp only [if_true] at hn; omega)
        exact ⟨k2, e, j1, j2, o, List.mem_append_right _ j3⟩
      · exact ⟨k', e, run_done hd ops h2 hk', hd, o, List.mem_append_left _ hm⟩
    · have hk' := frame h1 hk ⟨fun u tag own he => (by rw [he] at hf; cases hf), fun u fails own he => (by rw [he] at hf; cases hf)⟩ ho
      obtain ⟨k2, e, j1, j2, o, j3⟩ := ih hw h2 hk' hf (by
        rw [turns_cons] at hn
        cases op <;> simp only at hn <;> first | exact hn | skip
        rename_i j
        have : j ≠ i := fun he => ho (by rw [he])
        simpa [this] using hn)
      exact ⟨k2, e, j1, j2, o, List.mem_append_right _ j3⟩

/-! ## How long -/

theorem within_flv {cid : Nat} : ∀ (n : Nat) (rd : SReader HttpSrc), rd.buf.WF → rd.left < 15 * n → Within n (.flvPub cid rd true) := by
  intro n
  induction n with
  | zero => intro rd _ h; omega
  | succ n ih =>
    intro rd hw hl
    refine .mk fun j' hg => ?_
    cases hg with
    | tag h =>
      obtain ⟨k1, k2⟩ := FlvDemuxer.readPacket_left hw h
      exact ih _ k1 (by omega)

theorem within_flv_start {cid : Nat} (n : Nat) (rd : SReader HttpSrc) (hw : rd.buf.WF) (hl : rd.left < 15 * n) : Within (n + 1) (.flvPub cid rd false) := by
  refine .mk fun j' hg => ?_
  cases hg with
  | head h =>
    obtain ⟨k1, k2⟩ := FlvDemuxer.readHeader_left hw h
    exact within_flv n _ k1 (by omega)

theorem within_rtmp {cid : Nat} {closed : Err} : ∀ (n : Nat) (ms : List RtmpMsg), ms.length < n → Within n (.rtmpPub cid ms closed) := by
  intro n
  induction n with
  | zero => intro ms h; omega
  | succ n ih =>
    intro ms hl
    refine .mk fun j' hg => ?_
    cases hg with
    | msg h => exact ih _ (by have := RtmpDemuxer.readPacket_length closed ms h; omega)

theorem within_srt {cid : Nat} : ∀ (n : Nat) {io : Io} {rd : Reader}, rd.Fresh io → io.weight < n → ∀ (ctx : TsCtx) (m : Nat) (st : TsCodec), st.queue.length = m → ∃ N, Within N (.srtPub cid rd ctx st) := by
  intro n
  induction n with
  | zero => intro io rd _ h; omega
  | succ n ih =>
    intro io rd hr hl ctx m
    induction m with
    | zero =>
      intro st hq
      have hp : st.pop = none := by
        have : st.queue = [] := List.length_eq_zero_iff.1 hq
        simp [TsCodec.pop, this]
      by_cases hg : ∃ j', Goes (.srtPub cid rd ctx st) j'
      · obtain ⟨j', hg⟩ := hg
        cases hg with
        | pop h => rw [hp] at h; cases h
        | read _ h hy hz =>
          obtain ⟨io', k1, k2⟩ := Reader.acquire_weight hr (by decide) h
          obtain ⟨N, hN⟩ := ih k1 (by omega) _ _ _ rfl
          refine ⟨N + 1, .mk fun j'' hg' => ?_⟩
          cases hg' with
          | pop h => rw [hp] at h; cases h
          | read _ h' hy' hz' =>
            rw [h] at h'
            cases h'
            rw [hy] at hy'
            cases hy'
            rw [hz] at hz'
            cases hz'
            exact hN
      · exact ⟨1, .mk fun j' hj => absurd ⟨j', hj⟩ hg⟩
    | succ m ihm =>
      intro st hq
      obtain ⟨p, q, hpq⟩ : ∃ p q, st.queue = p :: q := by
        cases hs : st.queue with
        | nil => rw [hs] at hq; cases hq
        | cons p q => exact ⟨p, q, rfl⟩
      have hp : st.pop = some (p, { st with queue := q }) := by simp [TsCodec.pop, hpq]
      obtain ⟨N, hN⟩ := ihm { st with queue := q } (by simpa [hpq] using hq)
      refine ⟨N + 1, .mk fun j' hg => ?_⟩
      cases hg with
      | pop h => rw [hp] at h; cases h; exact hN
      | read h => rw [hp] at h; cases h

/-! ## The readers of publishers -/

/-- What is true of a publisher's reader. -/
def Sound : Job → Prop
  | .flvPub _ rd _ => rd.buf.WF
  | .srtPub _ rd _ _ => ∃ io, rd.Fresh io
  | _ => True

theorem Goes.sound {j j' : Job} (h : Goes j j') (hs : Sound j) : Sound j' := by
  cases h with
  | head h => exact (FlvDemuxer.readHeader_left hs h).1
  | tag h => exact (FlvDemuxer.readPacket_left hs h).1
  | msg h => trivial
  | pop h => exact hs
  | read _ h _ _ =>
    obtain ⟨io, hs⟩ := hs
    obtain ⟨io', k, _⟩ := Reader.acquire_weight hs (by decide) h
    exact ⟨io', k⟩

theorem sound_of_seat {c : Nat} {j : Job} (h : Rests c j) : Sound j := by
  rcases h with ⟨was, e, rfl⟩ | h
  · trivial
  · cases j <;> first | trivial | cases h

theorem request_sound (env : Site.Env) (s : Sys) (q : Req) (hq : ReqOk q) (ht : Tells q) (hs : ∀ k ∈ s.conns, Sound k.job) : ∀ k ∈ (s.request env q).1.conns, Sound k.job := by
  have push : ∀ (k0 : Conn), Sound k0.job → ∀ k ∈ s.conns ++ [k0], Sound k.job := by
    intro k0 h0 k hk
    rcases List.mem_append.1 hk with hk | hk
    · exact hs k hk
    · rw [List.mem_singleton.1 hk]; exact h0
  have done : ∀ was e, Sound (Job.done was e) := fun _ _ => trivial
  unfold request
  split
  · simp only [httpRequest]
    split
    · split
      · apply push
        simp only
        split
        · exact AVBuf.WF.ofCap _ _ hq.mem.2
        · trivial
      · exact push _ (done _ _)
    · split
      · exact push _ trivial
      · rename_i x hx
        refine push _ ?_
        have hx' : StreamHandler.play env.outs env.junk q.host q.url s.w = StreamHandler.attach env.outs env.junk Err.SUCCESS q.url s.w := by
          unfold StreamHandler.play at hx ⊢
          split
          · rename_i h
            exact absurd (by rw [if_pos h]) (hx _)
          · rfl
        rw [hx']
        exact sound_of_seat (afterAttach_shape (eta3 _)).2
  · simp only [rtmpRequest]
    split
    · split
      · apply push
        simp only [bare]
        split <;> trivial
      · exact push _ (done _ _)
    · split
      · exact push _ trivial
      · rename_i x hx
        refine push _ ?_
        have hx' : StreamHandler.play env.outs env.junk q.host q.url s.w = StreamHandler.attach env.outs env.junk Err.SUCCESS q.url s.w := by
          unfold StreamHandler.play at hx ⊢
          split
          · rename_i h
            exact absurd (by rw [if_pos h]) (hx _)
          · rfl
        rw [hx']
        exact sound_of_seat (rtmpAttach_shape (eta3 _)).2
  · rename_i hv
    simp only [srtRequest]
    split
    · split
      · exact push _ trivial
      · exact push _ (done _ _)
    · split
      · exact push _ ⟨q.io, rfl, ht hv, rfl, rfl⟩
      · exact push _ (done _ _)

theorem step_sound {env : Site.Env} {s s' : Sys} {op : Op} {l : Log} (h : s.step env op = some (s', l)) (hq : ∀ q, op = .request q → ReqOk q ∧ Tells q)
    (hs : ∀ k ∈ s.conns, Sound k.job) : ∀ k ∈ s'.conns, Sound k.job := by
  have setd : ∀ (i : Nat) (k0 : Conn), Sound k0.job → ∀ k ∈ s.conns.set i k0, Sound k.job := by
    intro i k0 h0 k hk
    rcases List.mem_or_eq_of_mem_set hk with hk | hk
    · exact hs k hk
    · rw [hk]; exact h0
  cases op with
  | other op =>
    simp only [step] at h
    split at h <;> cases h <;> exact hs
  | request q =>
    simp only [step, Option.some.injEq] at h
    have : s' = (s.request env q).1 := by rw [h]
    rw [this]
    exact request_sound env s q (hq q rfl).1 (hq q rfl).2 hs
  | wake i ret =>
    simp only [step, Option.some.injEq, wake] at h
    split at h
    · cases h
      exact setd _ _ (sound_of_seat (afterAttach_shape (eta3 _)).2)
    · cases h
      exact setd _ _ (sound_of_seat (rtmpAttach_shape (eta3 _)).2)
    · cases h; exact hs
  | run i =>
    cases hk : s.conns[i]? with
    | none =>
      simp only [step, hk, Option.some.injEq, Prod.mk.injEq] at h
      rw [← h.1]; exact hs
    | some k =>
      cases hf : feeds k.job with
      | some x =>
        have hc : ∀ k', s'.conns[i]? = some k' → Sound k'.job := by
          intro k' hk'
          rcases feeds_step hk hf h with ⟨k2, h1, h2⟩ | ⟨k2, e, h1, h2, _⟩
          · rw [h1] at hk'; cases hk'; exact h2.sound (hs k (List.mem_of_getElem? hk))
          · rw [h1] at hk'; cases hk'; rw [h2]; trivial
        have hsh := step_shape env s (.run i) h
        intro k' hk'
        cases hsh with
        | same h1 _ => rw [h1] at hk'; exact hs k' hk'
        | push ha _ _ _ => cases ha
        | set j ha k0 k1 hk0 h1 _ =>
          cases ha
          rw [h1] at hk'
          rcases List.mem_or_eq_of_mem_set hk' with hk' | hk'
          · exact hs k' hk'
          · subst hk'
            exact hc k' (by rw [h1]; exact getElem?_set_self' hk0)
      | none =>
        obtain ⟨job, r, snk⟩ := k
        cases job <;> simp only [feeds, reduceCtorEq] at hf <;> simp only [step, hk] at h
        case view c mux =>
          simp only [runView, endView] at h
          split at h
          · cases h; exact setd _ _ trivial
          · rw [Option.map_eq_some_iff] at h
            obtain ⟨x, _, hx⟩ := h
            split at hx <;> cases hx <;> exact setd _ _ trivial
          · cases h; exact hs
        case nullView c =>
          simp only [runNull, endView] at h
          split at h
          · cases h; exact setd _ _ trivial
          · split at h <;> cases h; exact hs
          · cases h; exact hs
        case rtmpView c snk =>
          simp only [runRtmpView, endRtmpView] at h
          split at h
          · cases h; exact setd _ _ trivial
          · split at h <;> cases h <;> exact setd _ _ trivial
          · cases h; exact hs
        case srtView c =>
          simp only [runSrtView, endSrtView] at h
          split at h
          · cases h; exact setd _ _ trivial
          · split at h <;> cases h <;> exact setd _ _ trivial
          · cases h; exact hs
        all_goals (cases h; exact hs)

theorem run_sound {env : Site.Env} (ops : List Op) : ∀ {s s' : Sys} {l : Log}, Sys.run env s ops = some (s', l) → (∀ q ∈ requestsOf ops, ReqOk q ∧ Tells q) →
    (∀ k ∈ s.conns, Sound k.job) → ∀ k ∈ s'.conns, Sound k.job := by
  induction ops with
  | nil => intro s s' l h _ hs; cases h; exact hs
  | cons op ops ih =>
    intro s s' l h hq hs
    simp only [Sys.run, Option.bind_eq_bind, Option.bind_eq_some_iff] at h
    obtain ⟨⟨s1, l1⟩, h1, ⟨s2, l2⟩, h2, h3⟩ := h
    cases h3
    refine ih h2 (fun q hm => hq q ?_) (step_sound h1 (fun q he => hq q ?_) hs)
    · cases op <;> simp only [requestsOf, List.filterMap_cons] at hm ⊢ <;> first | exact hm | exact List.mem_cons_of_mem _ hm
    · subst he; simp [requestsOf]

/-- Every publisher ends. -/
theorem sound_within {j : Job} (h : Sound j) {x : Nat × Role} (hf : feeds j = some x) : ∃ N, Within N j := by
  cases j <;> simp only [feeds, reduceCtorEq] at hf
  case flvPub cid rd hd =>
    cases hd with
    | true => exact ⟨_, within_flv (rd.left + 1) rd h (by omega)⟩
    | false => exact ⟨_, within_flv_start (rd.left + 1) rd h (by omega)⟩
  case rtmpPub cid ms closed => exact ⟨_, within_rtmp (ms.length + 1) ms (by omega)⟩
  case srtPub cid rd ctx st =>
    obtain ⟨io, h⟩ := h
    exact within_srt (io.weight + 1) h (by omega) ctx _ st rfl

/-! ## Players of a stream that has ended -/

theorem run_world {env : Site.Env} {rqs rqs' : List Req} {L l : Log} {s s' : Sys} (h : SInv env rqs L s) (h' : SInv env rqs' (L ++ l) s') : s.w.run (l.map Prod.fst) = (s'.w, l) := by
  have h2 := h'.world
  rw [List.map_append, World.run_append, h.world] at h2
  simp only [Prod.mk.injEq, List.append_cancel_left_eq] at h2
  exact Prod.ext h2.1 h2.2

theorem closed_quiet {cid : Nat} {key : Key} {src : Src} (ops : List WOp) : ∀ {w : World}, w.view cid = some (key, src, false) → publishedTo cid (w.run ops).2 = [] := by
  induction ops with
  | nil => intro w _; rfl
  | cons op ops ih =>
    intro w h
    rw [(run_snd_cons w op ops).1]
    have h2 := ih (step_closed w op h)
    by_cases hp : ∃ p, op = .put cid p
    · obtain ⟨p, rfl⟩ := hp
      have : (w.step (.put cid p)).2 = .bad := put_closed h p
      rw [this]
      exact h2
    · have h1 := published_other (w.step op).2 (op := op) (cid := cid) (fun p he => hp ⟨p, he⟩)
      have := publishedTo_append cid [(op, (w.step op).2)] ((w.step op).1.run ops).2
      rw [List.singleton_append] at this
      rw [this, h1, h2]; rfl

end Sys
end Sps
