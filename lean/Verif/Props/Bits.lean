import Verif.Lemmas.BitProg
/-! # C01, C02, C03: bit reader and bit writer -/
namespace Sps.BitProps
open Spec

/-! ### C01 -/

/-- **C01.** On every buffer and for every program of reads that fits in it, the client gets the numbers spelled
by consecutive groups of the buffer's bits, most significant bit first, whatever the byte alignment, and the
remaining size in bits has shrunk by exactly the number of bits consumed. -/
theorem C01_reads_are_consecutive_bit_groups (buf : List UInt8) (ops : List ReadOp)
    (hok : okOps 0 ops = true) (hfit : totalWidth ops ≤ 8 * buf.length) (hlen : buf.length < 2 ^ 32) :
    ∃ c', run (BitCtx.init buf) ops = some (specRun (bitsOf buf) ops, c') ∧
      c'.sizeBits = (BitCtx.init buf).sizeBits - totalWidth ops ∧
      (BitCtx.init buf).sizeBits = 8 * buf.length := by
  have hp : (BitCtx.init buf).bitPos = 0 := by simp [BitCtx.bitPos, BitCtx.init]
  have hb : (BitCtx.init buf).buf = buf := rfl
  obtain ⟨c', e, w, b, p⟩ := run_spec ops (BitCtx.WF.init buf) (by rw [hp]; exact hok)
    (by rw [hp, hb]; omega)
  rw [hp, hb, List.drop_zero] at e
  have h1 := (BitCtx.WF.init buf).sizeBits (by rw [hb]; exact hlen)
  refine ⟨c', e, ?_, by rw [h1, hp, hb]; omega⟩
  rw [w.sizeBits (by rw [b, hb]; exact hlen), h1, b, p, hb, hp]; omega

example : okOps 0 [.bits 3, .bits 13, .bytes 1, .skip 1, .bits 5] = true ∧
    totalWidth [.bits 3, .bits 13, .bytes 1, .skip 1, .bits 5] ≤ 8 * [0x47, 0x40, 0x11, 0xff, 0xa8].length := by
  decide
example : (run (BitCtx.init [0x47, 0x40, 0x11, 0xff, 0xa8])
    [.bits 3, .bits 13, .bytes 1, .skip 1, .bits 5]).map (·.1) = some [2, 0x740, 0x11, 0x15] := by decide

/-- **C01**, wide reads: a read of more than 32 bits in bounds returns the low 32 bits of the group
(`read_bits` returns `uint32_t`). -/
theorem C01_wide_read_truncates (buf : List UInt8) (n : Nat) (hfit : n ≤ 8 * buf.length) :
    ∃ c', (BitCtx.init buf).readBits n = some (bitsVal ((bitsOf buf).take n) % 2 ^ 32, c') := by
  have hp : (BitCtx.init buf).bitPos = 0 := by simp [BitCtx.bitPos, BitCtx.init]
  obtain ⟨c', e, _⟩ := BitCtx.readBits_spec (BitCtx.WF.init buf) n (by rw [hp]; simpa [BitCtx.init] using hfit)
  rw [hp] at e
  exact ⟨c', by simpa [BitCtx.init] using e⟩

example : (33 : Nat) ≤ 8 * [0x80, 0, 0, 0, 0x80].length := by decide

/-- **C01**, converse: a read that does not fit is an access outside the buffer. -/
theorem C01_read_past_end_is_undefined (buf : List UInt8) (ops : List ReadOp) (n : Nat)
    (hok : okOps 0 ops = true) (hfit : totalWidth ops ≤ 8 * buf.length)
    (hout : 8 * buf.length < totalWidth ops + n) :
    run (BitCtx.init buf) (ops ++ [.bits n]) = none := by
  have hp : (BitCtx.init buf).bitPos = 0 := by simp [BitCtx.bitPos, BitCtx.init]
  have hb : (BitCtx.init buf).buf = buf := rfl
  obtain ⟨c', e, w, b, p⟩ := run_spec ops (BitCtx.WF.init buf) (by rw [hp]; exact hok)
    (by rw [hp, hb]; omega)
  have key : ∀ (ops : List ReadOp) (c : BitCtx) o c', run c ops = some (o, c') →
      run c' [.bits n] = none → run c (ops ++ [.bits n]) = none := by
    intro ops
    induction ops with
    | nil => intro c o c' h1 h2; simp [run] at h1; simpa [h1.2] using h2
    | cons op ops ih =>
      intro c o c' h1 h2
      simp only [run, List.cons_append, Option.bind_eq_bind] at *
      cases hs : step c op with
      | none => simp [hs] at h1
      | some r =>
        obtain ⟨o1, c1⟩ := r
        simp only [hs, Option.bind_some] at h1
        cases hr : run c1 ops with
        | none => simp [hr] at h1
        | some r2 =>
          obtain ⟨o2, c2⟩ := r2
          simp only [hr, Option.bind_some, pure, Option.some.injEq, Prod.mk.injEq] at h1
          have := ih c1 o2 c2 hr (by rw [h1.2]; exact h2)
          simp [this]
  refine key ops _ _ _ e ?_
  have : c'.readBits n = none := BitCtx.readBits_oob w n (by rw [b, p, hp, hb]; omega)
  simp [run, step, this]

example : okOps 0 [.bits 5] = true ∧ totalWidth [.bits 5] ≤ 8 * [0x47].length ∧
    8 * [(0x47 : UInt8)].length < totalWidth [.bits 5] + 4 := by decide

/-! ### C02 -/

/-- **C02 (partial: `n < 2^29`).** After any program of reads, `acquire(n)` returns success exactly when `n` whole
bytes remain; after success every further program consuming at most `n` bytes stays inside the buffer; the only
other result is `ERROR_IO_NOT_ENOUGH`. Missing: `n ≥ 2^29`, where the code is wrong (next theorem). -/
theorem C02_acquire_guards_reads_partial (buf : List UInt8) (before after : List ReadOp) (n : Nat)
    (hok : okOps 0 before = true) (hfit : totalWidth before ≤ 8 * buf.length) (hlen : buf.length < 2 ^ 32)
    (hn : n < 2 ^ 29) :
    ∃ o c, run (BitCtx.init buf) before = some (o, c) ∧
      (c.acquire n = Err.SUCCESS ↔ totalWidth before + 8 * n ≤ 8 * buf.length) ∧
      (c.acquire n = Err.SUCCESS ∨ c.acquire n = Err.ERROR_IO_NOT_ENOUGH) ∧
      (c.acquire n = Err.SUCCESS → okOps (totalWidth before) after = true → totalWidth after ≤ 8 * n →
        ∃ o' c', run c after = some (o', c')) := by
  have hp : (BitCtx.init buf).bitPos = 0 := by simp [BitCtx.bitPos, BitCtx.init]
  have hb : (BitCtx.init buf).buf = buf := rfl
  obtain ⟨c, e, w, b, p⟩ := run_spec before (BitCtx.WF.init buf) (by rw [hp]; exact hok)
    (by rw [hp, hb]; omega)
  have hs := w.sizeBits (by rw [b, hb]; exact hlen)
  rw [b, hb, p, hp, Nat.zero_add] at hs
  have hmod : (n * 8) % 2 ^ 32 = n * 8 := Nat.mod_eq_of_lt (by omega)
  have hiff : c.acquire n = Err.SUCCESS ↔ totalWidth before + 8 * n ≤ 8 * buf.length := by
    unfold BitCtx.acquire BitCtx.acquireBits
    rw [hmod, hs]
    split
    · simp; omega
    · simp; omega
  refine ⟨_, c, e, hiff, ?_, ?_⟩
  · unfold BitCtx.acquire BitCtx.acquireBits; split <;> simp
  · intro ha hok' hw
    have := hiff.1 ha
    obtain ⟨c', e', _⟩ := run_spec after w (by rw [p, hp, Nat.zero_add]; exact hok')
      (by rw [p, hp, b, hb]; omega)
    exact ⟨_, c', e'⟩

example : okOps 0 [.bits 12] = true ∧ totalWidth [.bits 12] ≤ 8 * [1, 2, 3, 4].length ∧
    totalWidth [.bits 12] + 8 * 2 ≤ 8 * [(1 : UInt8), 2, 3, 4].length := by decide

/-- **C02, negation.** The full claim is false of the code: with an empty buffer `acquire(2^29)` succeeds (the byte
count is multiplied by 8 in 32 bits and becomes 0) and the next read is outside the buffer. -/
theorem C02_negation_acquire_wraps :
    (BitCtx.init []).acquire (2 ^ 29) = Err.SUCCESS ∧ (BitCtx.init []).readBits 8 = none := by decide

/-! ### C03 -/

/-- **C03 (partial: no field leaves a six bit piece in a byte).** Writing any fields that fit and reading them
back with the same widths returns each value modulo `2^width`; the length of the buffer does not change and the
bytes after the written ones keep their value. Missing: fields with a six bit piece, for which the code is wrong
(next theorem). -/
theorem C03_write_then_read_partial (buf : List UInt8) (fs : List (Nat × Nat))
    (hw : ∀ f ∈ fs, f.2 ≤ 32) (hfit : fieldsWidth fs ≤ 8 * buf.length)
    (h6 : noSixBitPiece 0 fs = true) :
    ∃ c, writeAll (BitCtx.init buf) fs = some c ∧ c.buf.length = buf.length ∧
      (∃ c', run (BitCtx.init c.buf) (fs.map fun f => .bits f.2) = some (fs.map fun f => f.1 % 2 ^ f.2, c')) ∧
      ∀ i, fieldsWidth fs ≤ 8 * i → c.buf[i]? = buf[i]? := by
  have hp : (BitCtx.init buf).bitPos = 0 := by simp [BitCtx.bitPos, BitCtx.init]
  have hb : (BitCtx.init buf).buf = buf := rfl
  obtain ⟨c, e, w, l, wr, p, d, _⟩ := writeAll_spec fs (BitCtx.WW.init buf) (by rw [hp, hb]; omega)
    (by rw [hp]; exact h6)
  rw [hp, Nat.zero_add] at p
  refine ⟨c, e, l, ?_, ?_⟩
  · have hp2 : (BitCtx.init c.buf).bitPos = 0 := by simp [BitCtx.bitPos, BitCtx.init]
    have hmap : (fs.map fun f => ReadOp.bits f.2) = (fs.map (·.2)).map ReadOp.bits := by simp
    have hlen : c.buf.length = buf.length := l
    obtain ⟨c', e', _⟩ := run_spec (fs.map fun f => ReadOp.bits f.2) (BitCtx.WF.init c.buf)
      (by rw [hmap]; exact okOps_bits _ _ (by intro x hx; simp at hx; obtain ⟨a, ha⟩ := hx; exact hw _ ha))
      (by
        rw [hp2, hmap, totalWidth_bits]
        change 0 + fieldsWidth fs ≤ 8 * c.buf.length
        omega)
    refine ⟨c', ?_⟩
    rw [e', hp2, hmap, specRun_bits, List.drop_zero]
    have hwr : (bitsOf c.buf).take c.bitPos = fieldBits fs := by
      have := wr
      simp only [BitCtx.written, hp, List.take_zero, List.nil_append] at this
      exact this
    have : bitsOf (BitCtx.init c.buf).buf = fieldBits fs ++ (bitsOf c.buf).drop c.bitPos := by
      rw [← hwr, List.take_append_drop]; rfl
    rw [this, takeVals_fields]
  · intro i hi
    have hpos : c.pos ≤ i := by
      have := w.rem_lt; have := w.rem_pos
      unfold BitCtx.bitPos at p; omega
    have := congrArg (·[i - c.pos]?) d
    simp only [List.getElem?_drop, hb] at this
    rw [show c.pos + (i - c.pos) = i by omega] at this
    exact this

example : (∀ f ∈ [(2, 5), (4, 4), (2, 4), (0, 3), (0x1234, 16)], f.2 ≤ 32) ∧
    fieldsWidth [(2, 5), (4, 4), (2, 4), (0, 3), (0x1234, 16)] ≤ 8 * [(7 : UInt8), 7, 7, 7, 7].length ∧
    noSixBitPiece 0 [(2, 5), (4, 4), (2, 4), (0, 3), (0x1234, 16)] = true := by decide
example : ((writeAll (BitCtx.init [7, 7, 7, 7, 7]) [(2, 5), (4, 4), (2, 4), (0, 3), (0x1234, 16)]).map (·.buf))
    = some [0x12, 0x10, 0x12, 0x34, 7] := by decide

/-- **C03, whole bytes (full).** For the byte-wide writers `write_int8/16/24/32` there is no exception: every
sequence round-trips. -/
theorem C03_write_ints_round_trip (buf : List UInt8) (fs : List (Nat × Nat))
    (hw : ∀ f ∈ fs, f.2 = 8 ∨ f.2 = 16 ∨ f.2 = 24 ∨ f.2 = 32) (hfit : fieldsWidth fs ≤ 8 * buf.length) :
    ∃ c, writeAll (BitCtx.init buf) fs = some c ∧ c.buf.length = buf.length ∧
      (∃ c', run (BitCtx.init c.buf) (fs.map fun f => .bits f.2) = some (fs.map fun f => f.1 % 2 ^ f.2, c')) ∧
      ∀ i, fieldsWidth fs ≤ 8 * i → c.buf[i]? = buf[i]? := by
  refine C03_write_then_read_partial buf fs (fun f hf => by rcases hw f hf with h | h | h | h <;> omega) hfit ?_
  suffices h : ∀ off, off % 8 = 0 → noSixBitPiece off fs = true from h 0 rfl
  clear hfit
  induction fs with
  | nil => intro _ _; rfl
  | cons f fs ih =>
    intro off hoff
    have hf := hw f (by simp)
    obtain ⟨v, w⟩ := f
    simp only [noSixBitPiece, Bool.and_eq_true, Bool.not_eq_true']
    refine ⟨?_, ih (fun g hg => hw g (by simp [hg])) _ (by simp at hf; omega)⟩
    simp only [hasSixBitPiece, hoff, Bool.or_eq_false_iff, beq_eq_false_iff_ne]
    simp at hf
    omega

example : (∀ f ∈ [(300, 16), (7, 8)], f.2 = 8 ∨ f.2 = 16 ∨ f.2 = 24 ∨ f.2 = 32) ∧
    fieldsWidth [(300, 16), (7, 8)] ≤ 8 * [(0 : UInt8), 0, 0].length := by decide

/-- **C03, negation.** The full claim is false of the code: a six bit field with bit 4 set does not survive,
because the write mask for six bits is `0x2f`. -/
theorem C03_negation_six_bit_mask :
    ∃ c, writeAll (BitCtx.init [0]) [(0x3f, 6)] = some c ∧
      (run (BitCtx.init c.buf) [.bits 6]).map (·.1) = some [0x2f] := by
  exact ⟨_, rfl, by decide⟩

end Sps.BitProps
