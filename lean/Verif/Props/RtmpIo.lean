import Verif.Model.RtmpIo
import Verif.Spec.RtmpIo
/-!
# C124: what the RTMP library sees of a connection, and what is made of its failures
-/
namespace Sps.RtmpSkt
open Spec Spec.RtmpIo

theorem read_ok {io io' : Io} {n : Nat} {bs : List UInt8} (hi : ioOk io = true) (h : io.read n = (.ok bs, io')) :
    streamOf io.evs = bs ++ streamOf io'.evs ∧ ioOk io' = true ∧ 0 < bs.length ∧ bs.length ≤ n := by
  obtain ⟨evs, cl⟩ := io
  unfold Io.read at h
  split at h
  · cases h
  · rename_i hn
    split at h
    · cases h
    · cases h
    · rename_i p evs' he
      simp only at he
      subst he
      simp only [ioOk, List.all_cons, evOk, Bool.and_eq_true, bne_iff_ne, ne_eq] at hi
      have hp : 0 < p.length := by
        have := hi.1.1
        cases p with
        | nil => simp at this
        | cons _ _ => simp
      split at h
      · cases h
        refine ⟨rfl, by simp [ioOk, hi.1.2, hi.2], hp, by assumption⟩
      · rename_i hl
        cases h
        refine ⟨?_, ?_, ?_, ?_⟩
        · show p ++ _ = p.take n ++ (p.drop n ++ _)
          rw [← List.append_assoc, List.take_append_drop]
        · have : p.drop n ≠ [] := by
            intro h0
            have := congrArg List.length h0
            simp only [List.length_drop, List.length_nil] at this
            omega
          simp [ioOk, evOk, hi.1.2, hi.2, this]
        · simp only [List.length_take]
          omega
        · simp only [List.length_take]
          omega

theorem read_err {io io' : Io} {n : Nat} {e : Err} (hi : ioOk io = true) (h : io.read n = (.err e, io')) :
    streamOf io.evs = streamOf io'.evs ∧ ioOk io' = true ∧ e ≠ Err.SUCCESS := by
  obtain ⟨evs, cl⟩ := io
  unfold Io.read at h
  split at h
  · cases h
    exact ⟨rfl, hi, by decide⟩
  · split at h
    · cases h
      simp only [ioOk, Bool.and_eq_true, bne_iff_ne, ne_eq] at hi
      exact ⟨rfl, by simp_all [ioOk], hi.2⟩
    · rename_i e' evs' he
      simp only at he
      subst he
      cases h
      simp only [ioOk, List.all_cons, evOk, Bool.and_eq_true, bne_iff_ne, ne_eq] at hi
      exact ⟨rfl, by simp [ioOk, hi.1.2, hi.2], hi.1.1⟩
    · split at h <;> cases h

/-- **C124**, whatever the library does: the bytes it gets are those that arrive on the connection, in order and once each, and those that it has been told are sent are those that were written. -/
theorem C124_bytes {α : Type} (lib : RtmpLib α) : ∀ (h h' : RtmpSkt) (a : α) (cs : List RtmpCall), ioOk h.io = true → h.run lib = (a, h', cs) →
    streamOf h.io.evs = received cs ++ streamOf h'.io.evs ∧ h'.sink.out = h.sink.out ++ sent cs ∧ (∀ c ∈ cs, fits c) ∧ ioOk h'.io = true := by
  induction lib with
  | done a =>
    intro h h' a' cs hi hr
    cases hr
    refine ⟨rfl, (List.append_nil _).symm, ?_, hi⟩
    intro c hc
    cases hc
  | fill n k ih =>
    intro h h' a cs hi hr
    unfold run fill at hr
    cases hread : h.io.read n with
    | mk r io =>
      rw [hread] at hr
      cases r with
      | ok bs =>
        obtain ⟨e1, e2, e3, e4⟩ := read_ok hi hread
        simp only at hr
        generalize hx : run { h with io := io, error := Err.SUCCESS } (k (some bs)) = x at hr
        obtain ⟨a', h1, cs'⟩ := x
        cases hr
        obtain ⟨i1, i2, i3, i4⟩ := ih _ _ _ _ _ e2 hx
        refine ⟨?_, i2, ?_, i4⟩
        · rw [e1]
          show _ = (bs ++ received cs') ++ _
          rw [List.append_assoc, ← i1]
        · intro c hc
          rcases List.mem_cons.1 hc with rfl | hc
          · exact ⟨e3, e4⟩
          · exact i3 c hc
      | err e =>
        obtain ⟨e1, e2, e3⟩ := read_err hi hread
        simp only at hr
        generalize hx : run { h with io := io, error := e } (k none) = x at hr
        obtain ⟨a', h1, cs'⟩ := x
        cases hr
        obtain ⟨i1, i2, i3, i4⟩ := ih _ _ _ _ _ e2 hx
        refine ⟨?_, i2, ?_, i4⟩
        · rw [e1]
          exact i1
        · intro c hc
          rcases List.mem_cons.1 hc with rfl | hc
          · trivial
          · exact i3 c hc
  | send bs k ih =>
    intro h h' a cs hi hr
    unfold run send at hr
    have hw : ((h.sink.write bs).1 = Err.SUCCESS ∧ (h.sink.write bs).2.out = h.sink.out ++ bs) ∨ ((h.sink.write bs).1 ≠ Err.SUCCESS ∧ (h.sink.write bs).2.out = h.sink.out) := by
      unfold Sink.write
      split
      · exact .inl ⟨rfl, rfl⟩
      · split
        · rename_i he; exact .inl ⟨he, rfl⟩
        · rename_i he; exact .inr ⟨he, rfl⟩
    revert hr hw
    generalize h.sink.write bs = w
    obtain ⟨e, s⟩ := w
    intro hr hw
    simp only at hr hw
    have hi' : ioOk ({ h with sink := s, error := e } : RtmpSkt).io = true := hi
    generalize hx : run { h with sink := s, error := e } (k (decide (e = Err.SUCCESS))) = x at hr
    obtain ⟨a', hh, cs'⟩ := x
    cases hr
    obtain ⟨i1, i2, i3, i4⟩ := ih _ _ _ _ _ hi' hx
    rcases hw with ⟨h1, h2⟩ | ⟨h1, h2⟩
    · rw [if_pos h1]
      refine ⟨i1, ?_, ?_, i4⟩
      · rw [i2]
        show s.out ++ _ = _ ++ (bs ++ sent cs')
        rw [h2, List.append_assoc]
      · intro c hc
        rcases List.mem_cons.1 hc with rfl | hc
        · trivial
        · exact i3 c hc
    · rw [if_neg h1]
      refine ⟨i1, ?_, ?_, i4⟩
      · rw [i2]
        show s.out ++ _ = _ ++ sent cs'
        rw [h2]
      · intro c hc
        rcases List.mem_cons.1 hc with rfl | hc
        · trivial
        · exact i3 c hc

/-- What is kept of the errors: that of the last call. -/
theorem run_error {α : Type} (lib : RtmpLib α) : ∀ (h h' : RtmpSkt) (a : α) (cs : List RtmpCall), ioOk h.io = true → h.run lib = (a, h', cs) →
    (cs = [] ∧ h'.error = h.error) ∨ ∃ c, cs.getLast? = some c ∧ ((failure c = none ∧ h'.error = Err.SUCCESS) ∨ (h'.error ≠ Err.SUCCESS ∧ failure c = some h'.error)) := by
  induction lib with
  | done a =>
    intro h h' a' cs hi hr
    cases hr
    exact .inl ⟨rfl, rfl⟩
  | fill n k ih =>
    intro h h' a cs hi hr
    unfold run fill at hr
    cases hread : h.io.read n with
    | mk r io =>
      rw [hread] at hr
      cases r with
      | ok bs =>
        obtain ⟨-, e2, -, -⟩ := read_ok hi hread
        simp only at hr
        generalize hx : run { h with io := io, error := Err.SUCCESS } (k (some bs)) = x at hr
        obtain ⟨a', h1, cs'⟩ := x
        cases hr
        rcases ih _ _ _ _ _ e2 hx with ⟨i1, i2⟩ | ⟨c, i1, i2⟩
        · subst i1
          exact .inr ⟨_, rfl, .inl ⟨rfl, i2⟩⟩
        · exact .inr ⟨c, by rw [List.getLast?_cons, i1]; rfl, i2⟩
      | err e =>
        obtain ⟨-, e2, e3⟩ := read_err hi hread
        simp only at hr
        generalize hx : run { h with io := io, error := e } (k none) = x at hr
        obtain ⟨a', h1, cs'⟩ := x
        cases hr
        rcases ih _ _ _ _ _ e2 hx with ⟨i1, i2⟩ | ⟨c, i1, i2⟩
        · subst i1
          exact .inr ⟨_, rfl, .inr ⟨by rw [i2]; exact e3, by rw [i2]; rfl⟩⟩
        · exact .inr ⟨c, by rw [List.getLast?_cons, i1]; rfl, i2⟩
  | send bs k ih =>
    intro h h' a cs hi hr
    unfold run send at hr
    revert hr
    generalize h.sink.write bs = w
    obtain ⟨e, s⟩ := w
    intro hr
    simp only at hr
    have hi' : ioOk ({ h with sink := s, error := e } : RtmpSkt).io = true := hi
    generalize hx : run { h with sink := s, error := e } (k (decide (e = Err.SUCCESS))) = x at hr
    obtain ⟨a', hh, cs'⟩ := x
    cases hr
    rcases ih _ _ _ _ _ hi' hx with ⟨i1, i2⟩ | ⟨c, i1, i2⟩
    · subst i1
      refine .inr ⟨_, rfl, ?_⟩
      simp only at i2
      by_cases he : e = Err.SUCCESS
      · rw [if_pos he, i2]
        exact .inl ⟨rfl, he⟩
      · rw [if_neg he, i2]
        exact .inr ⟨he, rfl⟩
    · exact .inr ⟨c, by rw [List.getLast?_cons, i1]; rfl, i2⟩

/-- **C124**, failures of the connection: when the library gives up after a call that failed, whoever wanted a message, or wanted one sent, is told the error of that call. Missing: libraries
that make another call, which succeeds, before they give up. -/
theorem C124_failure_partial (h : RtmpSkt) (hi : ioOk h.io = true) (cs : List RtmpCall) (c : RtmpCall) (e : Err) (hc : cs.getLast? = some c) (he : failure c = some e) :
    (∀ {α : Type} (lib : RtmpLib (Option α)), (h.run lib).1 = none → (h.run lib).2.2 = cs → (h.recvPacket lib).1 = e ∧ (h.recvPacket lib).2.1 = none ∧ e ≠ Err.SUCCESS) ∧
    ∀ lib : RtmpLib Bool, (h.run lib).1 = false → (h.run lib).2.2 = cs → (h.sendPacket lib).1 = e ∧ (h.handshake lib).1 = e ∧ e ≠ Err.SUCCESS := by
  have key : ∀ {β : Type} (lib : RtmpLib β) (a : β) (h' : RtmpSkt), h.run lib = (a, h', cs) → h'.error = e ∧ e ≠ Err.SUCCESS := by
    intro β lib a h' hr
    rcases run_error lib h h' a cs hi hr with ⟨h1, -⟩ | ⟨c', h1, h2⟩
    · rw [h1] at hc; cases hc
    · rw [hc] at h1
      cases h1
      rcases h2 with ⟨h2, -⟩ | ⟨h2, h3⟩
      · rw [he] at h2; cases h2
      · rw [he] at h3
        cases h3
        exact ⟨rfl, h2⟩
  constructor
  · intro α lib h1 h2
    unfold recvPacket
    have := key lib
    revert this h1 h2
    generalize h.run lib = x
    obtain ⟨a, h', cs'⟩ := x
    intro h1 h2 this
    simp only at h1 h2
    subst h1 h2
    obtain ⟨e1, e2⟩ := this _ _ rfl
    exact ⟨e1, rfl, e2⟩
  · intro lib h1 h2
    unfold sendPacket handshake
    have := key lib
    revert this h1 h2
    generalize h.run lib = x
    obtain ⟨a, h', cs'⟩ := x
    intro h1 h2 this
    simp only at h1 h2
    subst h1 h2
    obtain ⟨e1, e2⟩ := this _ _ rfl
    refine ⟨e1, ?_, e2⟩
    simp only [e1, if_pos e2]

/-- **C124**, a handshake that fails is never taken for a success, whatever the library does. -/
theorem C124_handshake (h : RtmpSkt) (lib : RtmpLib Bool) : (h.handshake lib).1 = Err.SUCCESS ↔ (h.run lib).1 = true := by
  unfold handshake
  generalize h.run lib = x
  obtain ⟨a, h', cs'⟩ := x
  cases a with
  | true => simp
  | false =>
    simp only
    split
    · simp_all
    · simp

/-- What librtmp does when a client reads a message and the connection is gone: it closes the stream, which sends a message. -/
def closing : RtmpLib (Option (List UInt8)) := .fill 16384 fun
  | some bs => .done (some bs)
  | none => .send [3, 0, 0, 0] fun _ => .done none

/-- **C124**, with such a library a receive that fails is reported as a success, with no message. -/
theorem C124_negation_close : (let r := recvPacket ⟨⟨[], Err.ERROR_IO_EOF⟩, ⟨[], []⟩, Err.SUCCESS⟩ closing; (r.1, r.2.1)) = (Err.SUCCESS, none) ∧
    (let r := recvPacket ⟨⟨[], Err.ERROR_IO_EOF⟩, ⟨[], [Err.ERROR_SOCKET_WRITE]⟩, Err.SUCCESS⟩ closing; (r.1, r.2.1)) = (Err.ERROR_SOCKET_WRITE, none) := by decide +kernel

/-- A library that reads two bytes. -/
def twoBytes : RtmpLib (Option (List UInt8)) := .fill 1 fun
  | some a => .fill 1 fun
    | some b => .done (some (a ++ b))
    | none => .done none
  | none => .done none

example : (let r := recvPacket ⟨⟨[.data [1, 2, 3]], Err.ERROR_IO_EOF⟩, ⟨[], []⟩, Err.SUCCESS⟩ twoBytes; (r.1, r.2.1, r.2.2.io)) = (Err.SUCCESS, some [1, 2], ⟨[.data [3]], Err.ERROR_IO_EOF⟩) ∧
    (let r := run ⟨⟨[.data [1], .err 7, .data [2]], Err.ERROR_IO_EOF⟩, ⟨[], []⟩, Err.SUCCESS⟩ twoBytes; (r.1, r.2.2)) = (none, [.got 1 [1], .notGot 7]) ∧
    ioOk ⟨[.data [1], .err 7, .data [2]], Err.ERROR_IO_EOF⟩ = true := by decide +kernel

end Sps.RtmpSkt
