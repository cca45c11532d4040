import Verif.Lemmas.ByteProg
/-! # C04, C05, C06: byte readers, byte writers, buffered input -/
namespace Sps.ByteProg
open Spec

/-! ### C05, C06 -/

theorem run_on_io (ops : List Op) {r : Reader} {cap : Nat} {closed : Err} (h : OnIo r cap closed) :
    ∃ outs r', run r ops = some (outs, r') ∧ OnIo r' cap closed ∧ Explains r.pending ops outs r'.pending := by
  induction ops generalizing r with
  | nil => exact ⟨[], r, rfl, h, rfl⟩
  | cons op ops ih =>
    obtain ⟨o, r1, e1, h1, hcase, _, _⟩ := step_spec h op
    obtain ⟨outs, r2, e2, h2, hex⟩ := ih h1
    refine ⟨o :: outs, r2, by simp [run, e1, e2], h2, ?_⟩
    rcases hcase with ⟨e, ho, he, hp⟩ | ⟨ho, hp, hlen⟩
    · exact Or.inl ⟨e, ho, he, by rw [← hp]; exact hex⟩
    · refine Or.inr ⟨r.pending.take op.consumes, r.pending.drop op.consumes, (List.take_append_drop _ _).symm, ?_, ho,
        by rw [← hp]; exact hex⟩
      have := consumes_le op
      rw [List.length_take]; omega

/-- **C05.** For every transport behaviour (any fragmentation, any errors in between), every buffer and every client
program: no call leaves the buffer's memory, and what the client got is an honest account of the stream: every
successful read returned the next bytes of the stream in order, failed reads took nothing, and what is left is
exactly the rest of the stream. -/
theorem C05_reads_account_for_the_stream (mem0 : List UInt8) (io : Io) (ops : List Op)
    (hm : mem0.length < 2 ^ 63) (hio : ioOk io = true) :
    ∃ outs r', run (Reader.onIo mem0 io) ops = some (outs, r') ∧
      Explains (streamOf io.evs) ops outs r'.pending := by
  obtain ⟨outs, r', e, _, hex⟩ := run_on_io ops (OnIo.init mem0 io hm hio)
  rw [pending_onIo] at hex
  exact ⟨outs, r', e, hex⟩

example : ioOk { evs := [.data [1, 2, 3], .err 1011, .data [4, 5]], closed := 1004 } = true ∧
    (List.replicate 4 (0 : UInt8)).length < 2 ^ 63 := by decide
example : (run (Reader.onIo (List.replicate 4 0) { evs := [.data [1, 2, 3], .err 1011, .data [4, 5]], closed := 1004 })
    [.int16, .take 3, .take 3, .take 1, .take 5]).map (·.1) =
    some [.num 0x102, .err 1011, .data [3, 4, 5], .err 1004, .err 1354] := by decide

theorem run_noErr (ops : List Op) {r : Reader} {cap : Nat} {closed : Err} (h : OnIo r cap closed)
    (hno : ∀ io, r.io = some io → noErr io.evs = true) :
    ∃ r', run r ops = some (specRun cap closed r.pending ops, r') := by
  induction ops generalizing r with
  | nil => exact ⟨r, rfl⟩
  | cons op ops ih =>
    obtain ⟨io, hio, _⟩ := h.io
    obtain ⟨o, r1, e1, h1, _, hfull, hspec⟩ := step_spec h op
    obtain ⟨hno1, heof, hok⟩ := hspec io hio (hno io hio)
    obtain ⟨r2, e2⟩ := ih h1 hno1
    refine ⟨r2, ?_⟩
    simp only [run, e1, e2, Option.bind_eq_bind, Option.bind_some, pure, specRun]
    split
    · rename_i hc
      obtain ⟨ho, hr⟩ := hfull hc
      rw [ho, hr]
    · rename_i hc
      split
      · rename_i hl
        obtain ⟨ho, hr⟩ := heof (by omega) hl
        rw [ho, hr]
      · rename_i hl
        obtain ⟨ho, hr⟩ := hok (by omega) (by omega)
        rw [ho, hr]

/-- **C05, fragmentation independence.** Without transport errors the client's results are a function of the byte
stream and the buffer capacity alone (`specRun`): how the network cut the stream does not matter. -/
theorem C05_fragmentation_does_not_matter (mem0 : List UInt8) (io : Io) (ops : List Op)
    (hm : mem0.length < 2 ^ 63) (hio : ioOk io = true) (hno : noErr io.evs = true) :
    ∃ r', run (Reader.onIo mem0 io) ops =
      some (specRun mem0.length io.closed (streamOf io.evs) ops, r') := by
  obtain ⟨r', e⟩ := run_noErr ops (OnIo.init mem0 io hm hio) (by intro x hx; cases hx; exact hno)
  rw [pending_onIo] at e
  exact ⟨r', e⟩

example : noErr [.data [1, 2, 3], .data [4, 5]] = true ∧
    ioOk { evs := [.data [1, 2, 3], .data [4, 5]], closed := 1004 } = true := by decide

/-- **C06.** In every state reachable by any program over any transport, `acquire(n)`
* never touches memory outside the buffer, and keeps `size ≤ capacity`;
* on success has made `n` bytes available;
* for `n` above the capacity returns `ERROR_IO_BUFFER_FULL` and does no I/O (the reader is unchanged);
* if `n` bytes are buffered already, succeeds without I/O;
* otherwise fails only with what the transport reported;
* never loses or reorders a byte (what is pending is unchanged, on success and on failure). -/
theorem C06_acquire_contract (mem0 : List UInt8) (io : Io) (ops : List Op) (n : Nat)
    (hm : mem0.length < 2 ^ 63) (hio : ioOk io = true) :
    ∃ outs r e r', run (Reader.onIo mem0 io) ops = some (outs, r) ∧ r.acquire n = some (e, r') ∧
      r'.size ≤ mem0.length ∧ r'.buf.cap = mem0.length ∧
      (e = Err.SUCCESS → n ≤ r'.size) ∧
      (mem0.length < n → e = Err.ERROR_IO_BUFFER_FULL ∧ r' = r) ∧
      (n ≤ r.size → e = Err.SUCCESS ∧ r' = r) ∧
      (noErr io.evs = true → n ≤ mem0.length → e = Err.SUCCESS ∨ e = io.closed) ∧
      r'.pending = r.pending := by
  obtain ⟨outs, r, e0, h, _⟩ := run_on_io ops (OnIo.init mem0 io hm hio)
  obtain ⟨io1, hio1, hcl1⟩ := h.io
  obtain ⟨e, r', io', a1, a2, a3, a4, a5, a6, a7, a8, a9, a10, a11⟩ :=
    Reader.acquire_spec h.wf io1 hio1 h.rw n
  have hs' : r'.size = r'.buf.content.length := a2.buf.size_eq
  have hs : r.size = r.buf.content.length := h.wf.buf.size_eq
  refine ⟨outs, r, e, r', e0, a1, ?_, a4.trans h.cap, ?_, ?_, ?_, ?_, a6⟩
  · rw [hs', a2.buf.content_length]
    have := a2.buf.fin_le; rw [a4, h.cap] at this; omega
  · intro he; rw [hs']; exact a8 he
  · intro hc; exact a9 (by rw [h.cap]; exact hc)
  · intro hc; exact a10 (by rw [← hs]; exact hc)
  · intro hno hc
    have hno1 : noErr io1.evs = true := by
      have key : ∀ (ops : List Op) (r0 : Reader) outs r, OnIo r0 mem0.length io.closed →
          (∀ x, r0.io = some x → noErr x.evs = true) → run r0 ops = some (outs, r) →
          ∀ x, r.io = some x → noErr x.evs = true := by
        intro ops
        induction ops with
        | nil => intro r0 outs r _ h2 h3 x hx; simp [run] at h3; rw [← h3.2] at hx; exact h2 x hx
        | cons op ops ih =>
          intro r0 outs r h1 h2 h3
          obtain ⟨ioA, hioA, _⟩ := h1.io
          obtain ⟨o, r1, e1, hh1, _, _, hspec⟩ := step_spec h1 op
          obtain ⟨hno1, _⟩ := hspec ioA hioA (h2 ioA hioA)
          simp only [run, e1, Option.bind_eq_bind, Option.bind_some] at h3
          cases hr : run r1 ops with
          | none => simp [hr] at h3
          | some q =>
            simp only [hr, Option.bind_some, pure, Option.some.injEq, Prod.mk.injEq] at h3
            have := ih r1 q.1 q.2 hh1 hno1 hr
            rw [h3.2] at this
            exact this
      exact key ops _ outs r (OnIo.init mem0 io hm hio) (by intro x hx; cases hx; exact hno) e0 io1 hio1
    rcases (a11 hno1).2 with c | c | c
    · rw [h.cap] at c; omega
    · exact Or.inl c.1
    · exact Or.inr (by rw [c.1, hcl1])

example : (run (Reader.onIo (List.replicate 4 0) { evs := [.data [1, 2, 3], .data [4, 5]], closed := 1004 })
    [.int16]).isSome = true := by decide

/-! ### C04 -/

theorem specRun_readBack (ops : List WOp) (cap : Nat) (closed : Err) (rest : List UInt8)
    (hcap : (images ops).length ≤ cap) :
    specRun cap closed (images ops ++ rest) (ops.map WOp.readBack) = ops.map WOp.value := by
  induction ops with
  | nil => rfl
  | cons op ops ih =>
    have e : images (op :: ops) ++ rest = op.image ++ (images ops ++ rest) := by simp [images]
    have hl : (images (op :: ops)).length = op.image.length + (images ops).length := by simp [images]
    have hneed : op.readBack.need = op.image.length := by
      cases op <;> simp [WOp.readBack, Op.need, WOp.image]
    have hcons : op.readBack.consumes = op.image.length := by
      cases op <;> simp [WOp.readBack, Op.need, WOp.image, Op.consumes]
    rw [e]
    simp only [List.map_cons, specRun, hneed, hcons]
    rw [if_neg (by omega), if_neg (by simp), List.take_left', List.drop_left', ih (by omega)]
    · congr 1
      cases op with
      | bytes d => simp [WOp.readBack, specOut, WOp.image, WOp.value]
      | int8 v => simp only [WOp.readBack, specOut, WOp.image, WOp.value, beVal_beBytes]
      | int16 v => simp only [WOp.readBack, specOut, WOp.image, WOp.value, beVal_beBytes]
      | int24 v => simp only [WOp.readBack, specOut, WOp.image, WOp.value, beVal_beBytes]
      | int32 v => simp only [WOp.readBack, specOut, WOp.image, WOp.value, beVal_beBytes]
    · rfl
    · rfl

/-- A program of covered reads on a reader made from a byte string. -/
theorem run_create (ops : List Op) (cap : Nat) (closed : Err) : ∀ {r : Reader}, r.WF → r.io = none →
    (∀ o ∈ specRun cap closed r.buf.content ops, ∀ e, o ≠ .err e) →
    ∃ r', run r ops = some (specRun cap closed r.buf.content ops, r') := by
  induction ops with
  | nil => intro r _ _ _; exact ⟨r, rfl⟩
  | cons op ops ih =>
    intro r h hio hne
    simp only [specRun] at hne ⊢
    split at hne
    · exact absurd rfl (hne _ List.mem_cons_self _)
    · split at hne
      · exact absurd rfl (hne _ List.mem_cons_self _)
      · rename_i h1 h2
        rw [if_neg h1, if_neg h2]
        obtain ⟨e, r1, a1, a2, a3, _, _, _, a6, a7, _⟩ := Reader.acquire_null_spec h hio op.need
        have hr1 : r1 = r := a7 (by omega)
        have he : e = Err.SUCCESS := a6.2 (by omega)
        subst hr1
        obtain ⟨r2, b1, b2, b3, b4, _, _⟩ := readOp_spec a2 op (by omega)
        obtain ⟨r3, c1⟩ := ih b2 (b4.trans a3) (by rw [b3]; intro o ho; exact hne o (by simp [ho]))
        refine ⟨r3, ?_⟩
        simp only [run, step, a1, he, if_true, b1, c1, Option.bind_eq_bind, Option.bind_some, pure, b3]

/-- **C04, layout.** Every program of writes that fits in the buffer puts exactly the network-order images of its
values into it, one after the other from the start, and leaves the rest of the buffer unchanged; the guard
`acquire` says so beforehand. -/
theorem C04_writes_are_network_order (mem0 : List UInt8) (ops : List WOp)
    (hm : mem0.length < 2 ^ 63) (hfit : (images ops).length ≤ mem0.length) :
    (Writer.create mem0).acquire (images ops).length = Err.SUCCESS ∧
    ∃ w, wrun (Writer.create mem0) ops = some w ∧ w.fin = (images ops).length ∧
      w.mem = images ops ++ mem0.drop (images ops).length := by
  have hw : AVBuf.WF (Writer.create mem0) := AVBuf.WF.ofCap _ _ hm
  refine ⟨?_, ?_⟩
  · unfold Writer.acquire
    rw [hw.remain, if_pos]
    simpa [Writer.create, AVBuf.ofCap, AVBuf.cap] using hfit
  · rw [wrun_eq ops _ hw.fin_le]
    obtain ⟨w, e, _, _, e4, e5, _⟩ := wbytes_spec (Writer.create mem0) hw (images ops)
      (by simpa [Writer.create, AVBuf.ofCap, AVBuf.cap] using hfit)
    exact ⟨w, e, by rw [e4]; simp [Writer.create, AVBuf.ofCap], by rw [e5]; simp [Writer.create, AVBuf.ofCap]⟩

/-- **C04, round trip.** Reading back the written bytes with the same widths returns each value truncated to its
width, in order. -/
theorem C04_write_read_round_trip (mem0 : List UInt8) (ops : List WOp)
    (hm : mem0.length < 2 ^ 63) (hfit : (images ops).length ≤ mem0.length) :
    ∃ w r', wrun (Writer.create mem0) ops = some w ∧
      run (Reader.create (w.mem.take w.fin)) (ops.map WOp.readBack) = some (ops.map WOp.value, r') := by
  obtain ⟨_, w, e, e4, e5⟩ := C04_writes_are_network_order mem0 ops hm hfit
  have hmem : w.mem.take w.fin = images ops := by rw [e5, e4, List.take_left']; rfl
  have hspec := specRun_readBack ops (images ops).length 0 [] (Nat.le_refl _)
  rw [List.append_nil] at hspec
  have hwf : (Reader.create (images ops)).WF := ⟨AVBuf.WF.full _ (by omega), by intro x hx; cases hx⟩
  have hcont : (Reader.create (images ops)).buf.content = images ops := AVBuf.content_full _
  obtain ⟨r', hr⟩ := run_create (ops.map WOp.readBack) (images ops).length 0 hwf rfl (by
    rw [hcont, hspec]
    intro o ho e
    simp only [List.mem_map] at ho
    obtain ⟨op, _, rfl⟩ := ho
    cases op <;> simp [WOp.value])
  rw [hcont, hspec] at hr
  exact ⟨w, r', e, by rw [hmem]; exact hr⟩

example : (images [.int32 0x12345678, .int8 300, .bytes [1, 2], .int24 0xabcdef, .int16 0x1ffff]).length ≤
    (List.replicate 14 (0 : UInt8)).length := by decide
example : images [.int32 0x12345678, .int8 300, .bytes [1, 2], .int24 0xabcdef, .int16 0x1ffff] =
    [0x12, 0x34, 0x56, 0x78, 44, 1, 2, 0xab, 0xcd, 0xef, 0xff, 0xff] := by decide

/-- **C04, bounds.** A program of writes that does not fit touches memory outside the buffer; so the guard is exact. -/
theorem C04_overflow_is_undefined (mem0 : List UInt8) (ops : List WOp)
    (hm : mem0.length < 2 ^ 63) (hbig : mem0.length < (images ops).length) :
    wrun (Writer.create mem0) ops = none ∧
      (Writer.create mem0).acquire (images ops).length = Err.ERROR_IO_BUFFER_FULL := by
  have hw : AVBuf.WF (Writer.create mem0) := AVBuf.WF.ofCap _ _ hm
  refine ⟨?_, ?_⟩
  · rw [wrun_eq ops _ hw.fin_le]
    simp only [Writer.bytes, AVBuf.poke]
    rw [if_neg (by simp [Writer.create, AVBuf.ofCap, AVBuf.cap]; omega)]; rfl
  · unfold Writer.acquire
    rw [hw.remain, if_neg]
    simp [Writer.create, AVBuf.ofCap, AVBuf.cap]; omega

example : (List.replicate 3 (0 : UInt8)).length < (images [.int32 1]).length := by decide

/-- `read_reverse_bytes(c, n)` stores the next `n` bytes in reverse order below `c`. -/
theorem C04_reverse_bytes (data : List UInt8) (n : Nat) (hm : data.length < 2 ^ 63) (hn : n ≤ data.length) :
    ∃ r', (Reader.create data).reverseBytes n = some ((data.take n).reverse, r') ∧
      r'.buf.content = data.drop n := by
  have hwf : (Reader.create data).WF := ⟨AVBuf.WF.full _ hm, by intro x hx; cases hx⟩
  have hcont : (Reader.create data).buf.content = data.take n ++ data.drop n := by
    rw [List.take_append_drop]; exact AVBuf.content_full _
  obtain ⟨r', e, _, hc, _⟩ := Reader.bytes_spec hwf _ _ hcont
  have : (data.take n).length = n := by simp; omega
  rw [this] at e
  exact ⟨r', by simp [Reader.reverseBytes, e], hc⟩

example : (3 : Nat) ≤ [(1 : UInt8), 2, 3, 4].length := by decide

end Sps.ByteProg
