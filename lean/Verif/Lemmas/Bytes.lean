import Verif.Model.Bytes
import Verif.Spec.Io
import Verif.Lemmas.Bits
/-! Lemmas about buffers, readers and writers. -/
namespace Spec
open Sps

@[simp] theorem streamOf_nil : streamOf [] = [] := rfl
@[simp] theorem streamOf_data (p : List UInt8) (evs : List IoEv) :
    streamOf (.data p :: evs) = p ++ streamOf evs := rfl
@[simp] theorem streamOf_err (e : Err) (evs : List IoEv) : streamOf (.err e :: evs) = streamOf evs := rfl

end Spec

namespace Sps
open Spec

theorem subSz_eq {a b : Nat} (h : b ≤ a) (ha : a < 2 ^ 64) : subSz a b = a - b := by
  unfold subSz; omega

/-- What a `read` does to the stream. -/
theorem Io.read_spec (io : Io) (size : Nat) (hok : ioOk io = true) :
    ioOk (io.read size).2 = true ∧ (io.read size).2.closed = io.closed ∧
    (noErr io.evs = true → noErr (io.read size).2.evs = true) ∧
    match (io.read size).1 with
    | .ok d => d ≠ [] ∧ d.length ≤ size ∧ streamOf io.evs = d ++ streamOf (io.read size).2.evs
    | .err e => e ≠ 0 ∧ streamOf (io.read size).2.evs = streamOf io.evs ∧
        (0 < size → noErr io.evs = true → e = io.closed ∧ streamOf io.evs = []) := by
  obtain ⟨evs, closed⟩ := io
  unfold Io.read
  by_cases hs : size = 0
  · subst hs; simp_all
  · simp only [hs, if_false]
    cases evs with
    | nil => simp_all [ioOk]
    | cons ev evs =>
      cases ev with
      | err e =>
        simp_all [ioOk, noErr, evOk]
      | data p =>
        by_cases hp : p.length ≤ size
        · simp_all [ioOk, noErr, evOk]
        · have h2 : p ≠ [] := by intro h; subst h; simp at hp
          have h3 : (p.drop size).isEmpty = false := by
            rw [List.isEmpty_eq_false_iff]
            intro h; have := congrArg List.length h; simp at this; omega
          simp only [ioOk, List.all_cons, Bool.and_eq_true] at hok
          simp only [hp, if_false, ioOk, noErr, List.all_cons, evOk, h3, Bool.not_false, Bool.true_and,
            Bool.and_eq_true, streamOf_data]
          refine ⟨⟨hok.1.2, hok.2⟩, trivial, id, ?_, by simp; omega, ?_⟩
          · intro h
            have := congrArg List.length h
            simp at this
            rcases this with h | h
            · exact hs h
            · exact h2 h
          · rw [← List.append_assoc, List.take_append_drop]

namespace AVBuf

/-- Well-formed buffers. -/
structure WF (b : AVBuf) : Prop where
  ptr_le : b.ptr ≤ b.fin
  fin_le : b.fin ≤ b.cap
  cap_lt : b.cap < 2 ^ 63

/-- The unread bytes in the buffer. -/
def content (b : AVBuf) : List UInt8 := (b.mem.drop b.ptr).take (b.fin - b.ptr)

theorem WF.size {b : AVBuf} (h : b.WF) : b.size = b.fin - b.ptr := by
  have := h.ptr_le; have := h.fin_le; have := h.cap_lt
  unfold AVBuf.size; exact subSz_eq (by omega) (by omega)

theorem WF.content_length {b : AVBuf} (h : b.WF) : b.content.length = b.fin - b.ptr := by
  have := h.ptr_le; have := h.fin_le
  unfold content cap at *; simp; omega

theorem WF.size_eq {b : AVBuf} (h : b.WF) : b.size = b.content.length := by
  rw [h.size, h.content_length]

theorem WF.noRewindCap {b : AVBuf} (h : b.WF) : b.noRewindCap = b.cap - b.ptr := by
  have := h.ptr_le; have := h.fin_le; have := h.cap_lt
  unfold AVBuf.noRewindCap; exact subSz_eq (by omega) (by omega)

theorem WF.remain {b : AVBuf} (h : b.WF) : b.remain = b.cap - b.fin := by
  have := h.ptr_le; have := h.fin_le; have := h.cap_lt
  unfold AVBuf.remain; exact subSz_eq (by omega) (by omega)

theorem WF.ofCap (m : List UInt8) (rw : Bool) (h : m.length < 2 ^ 63) : (ofCap m rw).WF :=
  ⟨by simp [AVBuf.ofCap], by simp [AVBuf.ofCap], by simpa [AVBuf.ofCap, cap] using h⟩

theorem content_ofCap (m : List UInt8) (rw : Bool) : (ofCap m rw).content = [] := by
  simp [content, AVBuf.ofCap]

theorem WF.full (m : List UInt8) (h : m.length < 2 ^ 63) : (full m).WF :=
  ⟨by simp [AVBuf.full], by simp [AVBuf.full, cap], by simpa [AVBuf.full, cap] using h⟩

theorem content_full (m : List UInt8) : (full m).content = m := by
  simp [content, AVBuf.full]

/-- Appending received data. -/
theorem poke_append_spec {b : AVBuf} (h : b.WF) (d : List UInt8) (hd : d.length ≤ b.cap - b.fin) :
    ∃ b1, b.poke b.fin d = some b1 ∧ (b1.append d.length).WF ∧ (b1.append d.length).cap = b.cap ∧
      (b1.append d.length).content = b.content ++ d ∧ b1.rewindable = b.rewindable ∧
      b1.ptr = b.ptr ∧ b1.fin = b.fin := by
  have h1 := h.ptr_le; have h2 := h.fin_le; have h3 := h.cap_lt
  have hfit : b.fin + d.length ≤ b.cap := by omega
  have hmem : b.fin + d.length ≤ b.mem.length := hfit
  have hcap : (b.mem.take b.fin ++ d ++ b.mem.drop (b.fin + d.length)).length = b.mem.length := by
    simp; omega
  refine ⟨{ b with mem := b.mem.take b.fin ++ d ++ b.mem.drop (b.fin + d.length) }, ?_, ?_, ?_, ?_, rfl, rfl, rfl⟩
  · simp [poke, hfit]
  · refine ⟨by simp [append]; omega, ?_, ?_⟩
    · simp only [append, cap, hcap]; exact hmem
    · simp only [append, cap, hcap]; exact h3
  · simp only [append, cap, hcap]
  · simp only [append, content]
    rw [List.append_assoc, List.drop_append_of_le_length (by simp; omega), ← List.append_assoc]
    rw [List.take_append_of_le_length (by simp; omega)]
    rw [List.drop_take, List.take_append, List.take_of_length_le (by simp; omega)]
    congr 1
    · apply List.take_of_length_le
      simp
      omega

theorem rewind_spec {b : AVBuf} (h : b.WF) :
    ∃ b', b.rewind = some b' ∧ b'.WF ∧ b'.cap = b.cap ∧ b'.content = b.content ∧
      b'.rewindable = b.rewindable ∧ b'.ptr = 0 := by
  have h1 := h.ptr_le; have h2 := h.fin_le; have h3 := h.cap_lt
  have hc := h.content_length
  have hmem : b.fin ≤ b.mem.length := h2
  unfold rewind poke
  rw [if_pos ⟨h1, h2⟩]
  have hfit : 0 + ((b.mem.drop b.ptr).take (b.fin - b.ptr)).length ≤ b.cap := by
    change 0 + b.content.length ≤ _; omega
  rw [if_pos hfit]
  have hlen : ((b.mem.drop b.ptr).take (b.fin - b.ptr)).length = b.fin - b.ptr := hc
  refine ⟨_, rfl, ?_, ?_, ?_, rfl, rfl⟩
  · refine ⟨by simp, ?_, ?_⟩ <;> simp [cap] <;> simp [cap] at h2 h3 <;> omega
  · simp [cap]; omega
  · simp only [content, hlen]
    simp only [List.take_zero, List.nil_append, List.drop_zero, Nat.sub_zero]
    rw [List.take_append_of_le_length (by rw [hlen]; omega), List.take_of_length_le (by rw [hlen]; omega)]

end AVBuf

namespace Reader

/-- Well-formed readers. -/
structure WF (r : Reader) : Prop where
  buf : r.buf.WF
  io : ∀ io, r.io = some io → ioOk io = true

/-- Bytes not yet delivered to the client: buffered ones, then those still on the transport. -/
def pending (r : Reader) : List UInt8 :=
  r.buf.content ++ match r.io with
    | some io => streamOf io.evs
    | none => []

theorem bytes_spec {r : Reader} (h : r.WF) (d rest : List UInt8) (hc : r.buf.content = d ++ rest) :
    ∃ r', r.bytes d.length = some (d, r') ∧ r'.WF ∧ r'.buf.content = rest ∧ r'.io = r.io ∧
      r'.buf.cap = r.buf.cap ∧ r'.buf.rewindable = r.buf.rewindable := by
  have h1 := h.buf.ptr_le; have h2 := h.buf.fin_le; have h3 := h.buf.cap_lt
  have hl := h.buf.content_length
  rw [hc] at hl
  have hl' : d.length + rest.length = r.buf.fin - r.buf.ptr := by simpa using hl
  have hfit : r.buf.ptr + d.length ≤ r.buf.cap := by omega
  have hd : (r.buf.mem.drop r.buf.ptr).take d.length = d := by
    have := congrArg (List.take d.length) hc
    simp only [AVBuf.content, List.take_take, List.take_left'] at this
    rw [Nat.min_eq_left (by omega)] at this
    exact this
  refine ⟨{ r with buf := r.buf.skip d.length }, ?_, ⟨?_, h.io⟩, ?_, rfl, rfl, rfl⟩
  · simp [bytes, hfit, hd]
  · exact ⟨by simp [AVBuf.skip]; omega, by simpa [AVBuf.skip, AVBuf.cap] using h2, by simpa [AVBuf.skip, AVBuf.cap] using h3⟩
  · have := congrArg (List.drop d.length) hc
    simp only [AVBuf.content, List.drop_take, List.drop_drop, List.drop_left'] at this
    simp only [AVBuf.content, AVBuf.skip]
    rw [← this]
    congr 1
    omega

theorem int8_spec {r : Reader} (h : r.WF) (x : UInt8) (rest : List UInt8) (hc : r.buf.content = x :: rest) :
    ∃ r', r.int8 = some (x.toNat, r') ∧ r'.WF ∧ r'.buf.content = rest ∧ r'.io = r.io ∧
      r'.buf.cap = r.buf.cap ∧ r'.buf.rewindable = r.buf.rewindable := by
  obtain ⟨r', e, hh⟩ := bytes_spec h [x] rest hc
  refine ⟨r', ?_, hh⟩
  simp only [bytes, List.length_singleton] at e
  split at e
  · rename_i hfit
    have hlt : r.buf.ptr < r.buf.mem.length := hfit
    simp only [Option.some.injEq, Prod.mk.injEq] at e
    have e1 := e.1
    rw [List.drop_eq_getElem_cons hlt, List.take_succ_cons, List.take_zero] at e1
    have e1 := (List.cons.inj e1).1
    simp [int8, List.getElem?_eq_getElem hlt, e1, e.2]
  · cases e

theorem or_lt_arith (a b k : Nat) (hb : b < 2 ^ k) : (a <<< k) ||| b = a * 2 ^ k + b := by
  rw [Nat.shiftLeft_eq, Nat.mul_comm, ← Nat.two_pow_add_eq_or_of_lt hb]

theorem int16_spec {r : Reader} (h : r.WF) (x y : UInt8) (rest : List UInt8)
    (hc : r.buf.content = x :: y :: rest) :
    ∃ r', r.int16 = some (x.toNat * 256 + y.toNat, r') ∧ r'.WF ∧ r'.buf.content = rest ∧ r'.io = r.io ∧
      r'.buf.cap = r.buf.cap ∧ r'.buf.rewindable = r.buf.rewindable := by
  obtain ⟨r1, e1, w1, c1, i1, p1, q1⟩ := int8_spec h x _ hc
  obtain ⟨r2, e2, w2, c2, i2, p2, q2⟩ := int8_spec w1 y _ c1
  have hx := x.toNat_lt; have hy := y.toNat_lt
  refine ⟨r2, ?_, w2, c2, i2.trans i1, p2.trans p1, q2.trans q1⟩
  simp only [int16, e1, e2, Option.bind_eq_bind, Option.bind_some, pure]
  rw [or_lt_arith _ _ 8 (by omega), Nat.mod_eq_of_lt (by omega)]

theorem int24_spec {r : Reader} (h : r.WF) (x y z : UInt8) (rest : List UInt8)
    (hc : r.buf.content = x :: y :: z :: rest) :
    ∃ r', r.int24 = some (x.toNat * 65536 + y.toNat * 256 + z.toNat, r') ∧ r'.WF ∧ r'.buf.content = rest ∧
      r'.io = r.io ∧ r'.buf.cap = r.buf.cap ∧ r'.buf.rewindable = r.buf.rewindable := by
  obtain ⟨r1, e1, w1, c1, i1, p1, q1⟩ := int8_spec h x _ hc
  obtain ⟨r2, e2, w2, c2, i2, p2, q2⟩ := int16_spec w1 y z _ c1
  have hx := x.toNat_lt; have hy := y.toNat_lt; have hz := z.toNat_lt
  refine ⟨r2, ?_, w2, c2, i2.trans i1, p2.trans p1, q2.trans q1⟩
  simp only [int24, e1, e2, Option.bind_eq_bind, Option.bind_some, pure]
  have e : x.toNat * 2 ^ 16 + (y.toNat * 256 + z.toNat) = x.toNat * 65536 + y.toNat * 256 + z.toNat := by omega
  rw [or_lt_arith _ _ 16 (by omega), e]

theorem int32_spec {r : Reader} (h : r.WF) (x y z u : UInt8) (rest : List UInt8)
    (hc : r.buf.content = x :: y :: z :: u :: rest) :
    ∃ r', r.int32 = some (x.toNat * 16777216 + y.toNat * 65536 + z.toNat * 256 + u.toNat, r') ∧ r'.WF ∧
      r'.buf.content = rest ∧ r'.io = r.io ∧ r'.buf.cap = r.buf.cap ∧
      r'.buf.rewindable = r.buf.rewindable := by
  obtain ⟨r1, e1, w1, c1, i1, p1, q1⟩ := int16_spec h x y _ hc
  obtain ⟨r2, e2, w2, c2, i2, p2, q2⟩ := int16_spec w1 z u _ c1
  have hx := x.toNat_lt; have hy := y.toNat_lt; have hz := z.toNat_lt; have hu := u.toNat_lt
  refine ⟨r2, ?_, w2, c2, i2.trans i1, p2.trans p1, q2.trans q1⟩
  simp only [int32, e1, e2, Option.bind_eq_bind, Option.bind_some, pure]
  have e : (x.toNat * 256 + y.toNat) * 2 ^ 16 + (z.toNat * 256 + u.toNat) =
      x.toNat * 16777216 + y.toNat * 65536 + z.toNat * 256 + u.toNat := by omega
  rw [or_lt_arith _ _ 16 (by omega), Nat.mod_eq_of_lt (by omega), e]

/-- The loop of `acquire`. -/
theorem acquireLoop_spec (fuel : Nat) {r : Reader} (h : r.WF) (io : Io) (hio : r.io = some io) (n : Nat)
    (hlt : r.buf.content.length < n) (hfit : n ≤ r.buf.cap - r.buf.ptr)
    (hf : n ≤ fuel + r.buf.content.length) :
    ∃ e r' io', acquireLoop fuel r n = some (e, r') ∧ r'.WF ∧ r'.io = some io' ∧ r'.buf.cap = r.buf.cap ∧
      r'.buf.rewindable = r.buf.rewindable ∧ r'.pending = r.pending ∧ io'.closed = io.closed ∧
      (e = Err.SUCCESS → n ≤ r'.buf.content.length) ∧
      (noErr io.evs = true → noErr io'.evs = true ∧
        (e = Err.SUCCESS ∧ n ≤ r.pending.length ∨ e = io.closed ∧ r.pending.length < n)) := by
  induction fuel generalizing r io with
  | zero => omega
  | succ fuel ih =>
    have hw := h.buf
    have h1 := hw.ptr_le; have h2 := hw.fin_le; have h3 := hw.cap_lt
    have hcl := hw.content_length
    have hrem : 0 < r.buf.remain := by rw [hw.remain]; omega
    have hsp := Io.read_spec io r.buf.remain (h.io io hio)
    unfold acquireLoop
    simp only [hio]
    cases hrd : io.read r.buf.remain with
    | mk res io1 =>
      rw [hrd] at hsp
      simp only at hsp
      obtain ⟨hok1, hcl1, hne1, hres⟩ := hsp
      cases res with
      | err e =>
        simp only at hres ⊢
        obtain ⟨he0, hst, hcase⟩ := hres
        refine ⟨e, _, io1, rfl, ⟨hw, ?_⟩, rfl, rfl, rfl, ?_, hcl1, fun h => absurd h he0, ?_⟩
        · intro x hx; cases hx; exact hok1
        · simp only [pending, hio, hst]
        · intro hno
          obtain ⟨ha, hb⟩ := hcase hrem hno
          refine ⟨hne1 hno, Or.inr ⟨ha, ?_⟩⟩
          simp only [pending, hio, hb, List.append_nil]; exact hlt
      | ok d =>
        simp only at hres ⊢
        obtain ⟨hd0, hdl, hst⟩ := hres
        rw [hw.remain] at hdl
        obtain ⟨b1, eb, wb, cb, contb, rwb, pb, fb⟩ := AVBuf.poke_append_spec hw d hdl
        simp only [eb]
        have hdpos : 0 < d.length := List.length_pos_iff.2 hd0
        have hcontl : (b1.append d.length).content.length = r.buf.content.length + d.length := by
          rw [contb]; simp
        rw [wb.size_eq]
        have hpend : ({ buf := b1.append d.length, io := some io1 : Reader }).pending = r.pending := by
          simp only [pending, hio, contb, hst, List.append_assoc]
        split
        · rename_i hlt2
          obtain ⟨e, r', io', q1, q2, q3, q4, q5, q6, q7, q8, q9⟩ :=
            ih (r := { buf := b1.append d.length, io := some io1 })
              ⟨wb, by intro x hx; cases hx; exact hok1⟩ io1 rfl hlt2
              (by change n ≤ (b1.append d.length).cap - b1.ptr; rw [cb, pb]; exact hfit)
              (by change n ≤ fuel + (b1.append d.length).content.length; omega)
          refine ⟨e, r', io', q1, q2, q3, q4.trans cb, q5.trans rwb, q6.trans hpend, q7.trans hcl1, q8, ?_⟩
          intro hno
          obtain ⟨k1, k2⟩ := q9 (hne1 hno)
          rw [hpend, hcl1] at k2
          exact ⟨k1, k2⟩
        · rename_i hge
          refine ⟨_, _, io1, rfl, ⟨wb, by intro x hx; cases hx; exact hok1⟩, rfl, cb, rwb, hpend, hcl1, ?_, ?_⟩
          · intro _; change n ≤ (b1.append d.length).content.length; omega
          · intro hno
            refine ⟨hne1 hno, Or.inl ⟨rfl, ?_⟩⟩
            rw [← hpend]; simp only [pending]
            rw [List.length_append]; omega

/-- `acquire` on a transport with a rewindable buffer. -/
theorem acquire_spec {r : Reader} (h : r.WF) (io : Io) (hio : r.io = some io) (hrw : r.buf.rewindable = true)
    (n : Nat) :
    ∃ e r' io', acquire r n = some (e, r') ∧ r'.WF ∧ r'.io = some io' ∧ r'.buf.cap = r.buf.cap ∧
      r'.buf.rewindable = true ∧ r'.pending = r.pending ∧ io'.closed = io.closed ∧
      (e = Err.SUCCESS → n ≤ r'.buf.content.length) ∧
      (r.buf.cap < n → e = Err.ERROR_IO_BUFFER_FULL ∧ r' = r) ∧
      (n ≤ r.buf.content.length → e = Err.SUCCESS ∧ r' = r) ∧
      (noErr io.evs = true → noErr io'.evs = true ∧
        (r.buf.cap < n ∨ e = Err.SUCCESS ∧ n ≤ r.pending.length ∨ e = io.closed ∧ r.pending.length < n)) := by
  have hw := h.buf
  have h1 := hw.ptr_le; have h2 := hw.fin_le; have h3 := hw.cap_lt
  have hcl := hw.content_length
  unfold acquire
  rw [hw.size_eq]
  split
  · rename_i hge
    refine ⟨_, _, io, rfl, h, hio, rfl, hrw, rfl, rfl, fun _ => hge, fun _ => by omega, fun _ => ⟨rfl, rfl⟩, ?_⟩
    intro hno
    refine ⟨hno, Or.inr (Or.inl ⟨rfl, ?_⟩)⟩
    simp only [pending, List.length_append]; omega
  · rename_i hlt
    have hcap : r.buf.capSize = r.buf.cap := by simp [AVBuf.capSize, hrw]
    rw [hcap]
    split
    · rename_i hc
      refine ⟨_, _, io, rfl, h, hio, rfl, hrw, rfl, rfl, ?_, fun _ => ⟨rfl, rfl⟩, ?_, fun hno => ⟨hno, Or.inl hc⟩⟩
      · intro hh; simp at hh
      · intro hh; omega
    · rename_i hc
      have hbuf : ∃ b, (if r.buf.noRewindCap < n then r.buf.rewind else some r.buf) = some b ∧ b.WF ∧
          b.cap = r.buf.cap ∧ b.content = r.buf.content ∧ b.rewindable = true ∧ n ≤ b.cap - b.ptr := by
        rw [hw.noRewindCap]
        split
        · obtain ⟨b, q1, q2, q3, q4, q5, q6⟩ := AVBuf.rewind_spec hw
          exact ⟨b, q1, q2, q3, q4, q5.trans hrw, by rw [q6, q3]; omega⟩
        · exact ⟨r.buf, rfl, hw, rfl, rfl, hrw, by omega⟩
      obtain ⟨b, q1, q2, q3, q4, q5, q6⟩ := hbuf
      simp only [q1]
      rw [q2.noRewindCap, if_pos (by omega)]
      have hpend : ({ r with buf := b } : Reader).pending = r.pending := by simp only [pending, q4]
      obtain ⟨e, r', io', k1, k2, k3, k4, k5, k6, k7, k8, k9⟩ :=
        acquireLoop_spec n (r := { r with buf := b }) ⟨q2, h.io⟩ io hio n
          (by change b.content.length < n; rw [q4]; omega) q6 (by omega)
      refine ⟨e, r', io', k1, k2, k3, k4.trans q3, k5.trans q5, k6.trans hpend, k7, k8, fun _ => by omega,
        fun _ => by omega, ?_⟩
      intro hno
      obtain ⟨m1, m2⟩ := k9 hno
      rw [hpend] at m2
      exact ⟨m1, Or.inr m2⟩

/-- `acquire` without transport. -/
theorem acquire_null_spec {r : Reader} (h : r.WF) (hio : r.io = none) (n : Nat) :
    ∃ e r', acquire r n = some (e, r') ∧ r'.WF ∧ r'.io = none ∧ r'.buf.cap = r.buf.cap ∧
      r'.buf.rewindable = r.buf.rewindable ∧
      r'.buf.content = r.buf.content ∧ (e = Err.SUCCESS ↔ n ≤ r.buf.content.length) ∧
      (n ≤ r.buf.content.length → r' = r) ∧
      (e = Err.SUCCESS ∨ e = Err.ERROR_IO_BUFFER_FULL ∨ e = Err.ERROR_IO_EOF) := by
  have hw := h.buf
  have h1 := hw.ptr_le; have h2 := hw.fin_le; have h3 := hw.cap_lt
  have hcl := hw.content_length
  unfold acquire
  rw [hw.size_eq]
  split
  · rename_i hge
    exact ⟨_, _, rfl, h, hio, rfl, rfl, rfl, ⟨fun _ => hge, fun _ => rfl⟩, fun _ => rfl, Or.inl rfl⟩
  · rename_i hlt
    split
    · exact ⟨_, _, rfl, h, hio, rfl, rfl, rfl, ⟨fun hh => by simp at hh, fun hh => by omega⟩, fun _ => rfl,
        Or.inr (Or.inl rfl)⟩
    · rename_i hc
      have hbuf : ∃ b, (if r.buf.noRewindCap < n then r.buf.rewind else some r.buf) = some b ∧ b.WF ∧
          b.cap = r.buf.cap ∧ b.content = r.buf.content ∧ b.rewindable = r.buf.rewindable ∧ n ≤ b.cap - b.ptr := by
        rw [hw.noRewindCap]
        split
        · rename_i hlt2
          obtain ⟨b, q1, q2, q3, q4, q5, q6⟩ := AVBuf.rewind_spec hw
          refine ⟨b, q1, q2, q3, q4, q5, ?_⟩
          rw [q6, q3]
          unfold AVBuf.capSize at hc
          rw [hw.noRewindCap] at hc
          split at hc <;> omega
        · exact ⟨r.buf, rfl, hw, rfl, rfl, rfl, by omega⟩
      obtain ⟨b, q1, q2, q3, q4, q5, q6⟩ := hbuf
      simp only [q1]
      rw [q2.noRewindCap, if_pos (by omega)]
      cases n with
      | zero => omega
      | succ n =>
        simp only [acquireLoop, hio]
        exact ⟨_, _, rfl, ⟨q2, by simp⟩, rfl, q3, q5, q4, ⟨fun hh => by simp at hh, fun hh => by omega⟩,
          fun hh => by omega, Or.inr (Or.inr rfl)⟩

end Reader
end Sps
