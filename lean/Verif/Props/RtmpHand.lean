import Verif.Model.RtmpHand
import Verif.Spec.RtmpHand
import Verif.Props.RtmpIo
/-!
# C128: what a client sends after the negotiation is seen by its stream
-/
namespace Sps.RtmpSkt
open Spec Spec.RtmpIo

/-- **C128**, whatever the library does in the negotiation and after it: no byte is seen twice or out of order, and none that the negotiation did not get is missing afterwards. -/
theorem C128_order {α β : Type} (h h' : RtmpSkt) (talk : RtmpLib α) (media : α → RtmpLib β) (b : β) (cs cs' : List RtmpCall) (hi : ioOk h.io = true)
    (hr : h.session talk media = (b, h', cs, cs')) : streamOf h.io.evs = received cs ++ received cs' ++ streamOf h'.io.evs ∧ h'.sink.out = h.sink.out ++ sent cs ++ sent cs' := by
  unfold session at hr
  generalize hx : h.run talk = x at hr
  obtain ⟨a, h1, cs1⟩ := x
  simp only at hr
  generalize hy : h1.handOver.run (media a) = y at hr
  obtain ⟨b1, h2, cs2⟩ := y
  cases hr
  obtain ⟨e1, e2, -, e4⟩ := C124_bytes talk h h1 a _ hi hx
  obtain ⟨g1, g2, -, -⟩ := C124_bytes (media a) h1.handOver _ _ _ e4 hy
  refine ⟨?_, ?_⟩
  · rw [e1, List.append_assoc, ← g1]
    rfl
  · rw [g2, ← e2]
    rfl

theorem frugal_talk {α : Type} (lib : RtmpLib α) : ∀ (h h' : RtmpSkt) (a : α) (cs : List RtmpCall) (e1 e2 : List IoEv), ioOk h.io = true → h.io.evs = e1 ++ e2 → h.run lib = (a, h', cs) →
    Frugal (streamOf e1).length cs → received cs = streamOf e1 ∧ streamOf h'.io.evs = streamOf e2 := by
  induction lib with
  | done a =>
    intro h h' a' cs e1 e2 _ he hr hf
    cases hr
    have : streamOf e1 = [] := List.length_eq_zero_iff.1 hf
    refine ⟨this.symm, ?_⟩
    rw [he]
    show (e1 ++ e2).flatMap evBytes = _
    rw [List.flatMap_append]
    show streamOf e1 ++ _ = _
    rw [this]
    rfl
  | fill n k ih =>
    intro h h' a cs e1 e2 hi he hr hf
    unfold run fill at hr
    cases hread : h.io.read n with
    | mk r io =>
      rw [hread] at hr
      cases r with
      | ok bs =>
        have hok := (read_ok hi hread).2.1
        simp only at hr
        generalize hx : run { h with io := io, error := Err.SUCCESS } (k (some bs)) = x at hr
        obtain ⟨a', h1, cs'⟩ := x
        cases hr
        obtain ⟨h0, hf⟩ := hf
        cases e1 with
        | nil => exact absurd h0 (Nat.lt_irrefl 0)
        | cons ev e1 =>
          unfold Io.read at hread
          split at hread
          · cases hread
          · rw [he, List.cons_append] at hread
            cases ev with
            | err e => cases hread
            | data p =>
              simp only at hread
              split at hread
              · cases hread
                obtain ⟨i1, i2⟩ := ih _ _ _ _ _ e1 e2 hok rfl hx (by
                  have : (streamOf (.data bs :: e1)).length - bs.length = (streamOf e1).length := by
                    show (bs ++ streamOf e1).length - _ = _
                    rw [List.length_append]
                    omega
                  rw [this] at hf
                  exact hf)
                refine ⟨?_, i2⟩
                show bs ++ received cs' = bs ++ streamOf e1
                rw [i1]
              · rename_i hl
                cases hread
                obtain ⟨i1, i2⟩ := ih _ _ _ _ _ (.data (p.drop n) :: e1) e2 hok rfl hx (by
                  have : (streamOf (.data p :: e1)).length - (p.take n).length = (streamOf (.data (p.drop n) :: e1)).length := by
                    show (p ++ streamOf e1).length - _ = (p.drop n ++ streamOf e1).length
                    simp only [List.length_append, List.length_take, List.length_drop]
                    omega
                  rw [this] at hf
                  exact hf)
                refine ⟨?_, i2⟩
                show p.take n ++ received cs' = p ++ streamOf e1
                rw [i1]
                show p.take n ++ (p.drop n ++ streamOf e1) = _
                rw [← List.append_assoc, List.take_append_drop]
      | err e =>
        have hok := (read_err hi hread).2.1
        simp only at hr
        generalize hx : run { h with io := io, error := e } (k none) = x at hr
        obtain ⟨a', h1, cs'⟩ := x
        cases hr
        have hf : Frugal (streamOf e1).length cs' := hf
        unfold Io.read at hread
        split at hread
        · cases hread
          have hok' : ioOk ({ h with io := h.io, error := Err.ERROR_IO_BUFFER_FULL } : RtmpSkt).io = true := hok
          have he' : ({ h with io := h.io, error := Err.ERROR_IO_BUFFER_FULL } : RtmpSkt).io.evs = e1 ++ e2 := he
          obtain ⟨i1, i2⟩ := ih _ _ _ _ _ e1 e2 hok' he' hx hf
          exact ⟨i1, i2⟩
        · cases e1 with
          | nil =>
            have hs : streamOf io.evs = streamOf e2 := by
              rw [he] at hread
              cases e2 with
              | nil =>
                cases hread
                rw [he]
                rfl
              | cons ev e2 =>
                cases ev with
                | err e => cases hread; rfl
                | data p =>
                  simp only [List.nil_append] at hread
                  split at hread <;> cases hread
            obtain ⟨i1, i2⟩ := ih _ _ _ _ _ [] io.evs hok rfl hx hf
            exact ⟨i1, i2.trans hs⟩
          | cons ev e1 =>
            rw [he, List.cons_append] at hread
            cases ev with
            | err e =>
              cases hread
              obtain ⟨i1, i2⟩ := ih _ _ _ _ _ e1 e2 hok rfl hx hf
              exact ⟨i1, i2⟩
            | data p =>
              simp only at hread
              split at hread <;> cases hread
  | send bs k ih =>
    intro h h' a cs e1 e2 hi he hr hf
    unfold run send at hr
    simp only at hr
    generalize hx : run { h with sink := (h.sink.write bs).2, error := (h.sink.write bs).1 } (k (decide ((h.sink.write bs).1 = Err.SUCCESS))) = x at hr
    obtain ⟨a', h1, cs'⟩ := x
    cases hr
    have hf : Frugal (streamOf e1).length cs' := by
      split at hf <;> exact hf
    have hi' : ioOk ({ h with sink := (h.sink.write bs).2, error := (h.sink.write bs).1 } : RtmpSkt).io = true := hi
    have he' : ({ h with sink := (h.sink.write bs).2, error := (h.sink.write bs).1 } : RtmpSkt).io.evs = e1 ++ e2 := he
    obtain ⟨i1, i2⟩ := ih _ _ _ _ _ e1 e2 hi' he' hx hf
    refine ⟨?_, i2⟩
    split <;> exact i1

/-- **C128**, a client that sends its stream only when it has got the answer, so that nothing of it arrives together with the end of the negotiation: all of what it sends then is seen by its stream, if the
library reads only when it needs something. Missing: clients that do not wait (`C128_negation_pipelined`). -/
theorem C128_seen_partial {α β : Type} (h h' : RtmpSkt) (talk : RtmpLib α) (media : α → RtmpLib β) (b : β) (cs cs' : List RtmpCall) (hi : ioOk h.io = true) (e1 e2 : List IoEv) (he : h.io.evs = e1 ++ e2)
    (hr : h.session talk media = (b, h', cs, cs')) (hf : Frugal (streamOf e1).length cs) : received cs = streamOf e1 ∧ streamOf e2 = received cs' ++ streamOf h'.io.evs := by
  unfold session at hr
  generalize hx : h.run talk = x at hr
  obtain ⟨a, h1, cs1⟩ := x
  simp only at hr
  generalize hy : h1.handOver.run (media a) = y at hr
  obtain ⟨b1, h2, cs2⟩ := y
  cases hr
  obtain ⟨i1, i2⟩ := frugal_talk talk h h1 a _ e1 e2 hi he hx hf
  have hok := (C124_bytes talk h h1 a _ hi hx).2.2.2
  have g := (C124_bytes (media a) h1.handOver _ _ _ hok hy).1
  exact ⟨i1, i2.symm.trans g⟩

/-- A library that reads into a buffer of 16 kB until it has `need` bytes, then answers; of what it got, the first `need` bytes are the negotiation. -/
def reader (need : Nat) : (fuel : Nat) → List UInt8 → RtmpLib (List UInt8)
  | 0, got => .done got
  | fuel + 1, got => if need ≤ got.length then .send [1] fun _ => .done (got.take need) else .fill 16384 fun r => reader need fuel (got ++ r.getD [])

/-- The stream reads what there is. -/
def streaming (_ : List UInt8) : RtmpLib (Option (List UInt8)) := .fill 16384 .done

/-- A client that waits: its commands come in two pieces, its stream in a third. -/
def waiting : RtmpSkt := ⟨⟨[.data [1, 2], .data [3], .data [7, 8]], Err.ERROR_SOCKET_CLOSED⟩, ⟨[], []⟩, Err.SUCCESS⟩

example : waiting.session (reader 3 4 []) streaming =
    (some [7, 8], ⟨⟨[], Err.ERROR_SOCKET_CLOSED⟩, ⟨[1], []⟩, Err.SUCCESS⟩, [.got 16384 [1, 2], .got 16384 [3], .sent [1]], [.got 16384 [7, 8]]) := by rfl
example : Frugal (streamOf [.data [1, 2], .data [3]]).length [.got 16384 [1, 2], .got 16384 [3], .sent [1]] := ⟨by decide, by decide, rfl⟩

/-- **C128**, a client that does not wait: the same bytes, but the beginning of the stream arrives together with the last command. It was got by the object of the negotiation and is lost with it: the stream
sees the rest only. -/
theorem C128_negation_pipelined :
    let h : RtmpSkt := ⟨⟨[.data [1, 2], .data [3, 7], .data [8]], Err.ERROR_SOCKET_CLOSED⟩, ⟨[], []⟩, Err.SUCCESS⟩
    streamOf h.io.evs = streamOf waiting.io.evs ∧ ((h.run (reader 3 4 [])).1 = [1, 2, 3] ∧ (waiting.run (reader 3 4 [])).1 = [1, 2, 3]) ∧
      (h.session (reader 3 4 []) streaming).1 = some [8] ∧ (waiting.session (reader 3 4 []) streaming).1 = some [7, 8] := by
  refine ⟨by decide +kernel, ⟨by rfl, by rfl⟩, by rfl, by rfl⟩

end Sps.RtmpSkt
