import Verif.Lemmas.Bytes
import Verif.Spec.ByteProg
/-! Helper lemmas for client programs of readers and writers. -/
namespace Sps.ByteProg
open Spec

/-- A covered read returns the next bytes of the buffer. -/
theorem readOp_spec {r : Reader} (h : r.WF) (op : Op) (hn : op.need ≤ r.buf.content.length) :
    ∃ r', readOp r op = some (specOut (r.buf.content.take op.consumes) op, r') ∧ r'.WF ∧
      r'.buf.content = r.buf.content.drop op.consumes ∧ r'.io = r.io ∧ r'.buf.cap = r.buf.cap ∧
      r'.buf.rewindable = r.buf.rewindable := by
  have hsplit : r.buf.content = r.buf.content.take op.need ++ r.buf.content.drop op.need :=
    (List.take_append_drop _ _).symm
  have hlen : (r.buf.content.take op.need).length = op.need := by simp; omega
  cases op with
  | ensure n => exact ⟨r, by simp [readOp, specOut], h, by simp [Op.consumes], rfl, rfl, rfl⟩
  | take n =>
    simp only [Op.need, Op.consumes] at *
    obtain ⟨r', e, hh⟩ := Reader.bytes_spec h _ _ hsplit
    rw [hlen] at e
    exact ⟨r', by simp [readOp, e, specOut], hh⟩
  | skip n =>
    simp only [Op.need, Op.consumes] at *
    obtain ⟨r', e, hh⟩ := Reader.bytes_spec h _ _ hsplit
    rw [hlen] at e
    refine ⟨r.skipBytes n, by simp [readOp, specOut], ?_⟩
    have : r' = r.skipBytes n := by
      unfold Reader.bytes at e
      split at e
      · simp at e; exact e.2.symm
      · cases e
    rw [← this]; exact hh
  | int8 =>
    simp only [Op.need, Op.consumes] at *
    match hd : r.buf.content, hn with
    | x :: rest, _ =>
      obtain ⟨r', e, hh⟩ := Reader.int8_spec h x rest hd
      exact ⟨r', by simp [readOp, e, specOut, beVal], hh⟩
  | int16 =>
    simp only [Op.need, Op.consumes] at *
    match hd : r.buf.content, hn with
    | x :: y :: rest, _ =>
      obtain ⟨r', e, hh⟩ := Reader.int16_spec h x y rest hd
      exact ⟨r', by simp [readOp, e, specOut, beVal]; omega, hh⟩
  | int24 =>
    simp only [Op.need, Op.consumes] at *
    match hd : r.buf.content, hn with
    | x :: y :: z :: rest, _ =>
      obtain ⟨r', e, hh⟩ := Reader.int24_spec h x y z rest hd
      exact ⟨r', by simp [readOp, e, specOut, beVal]; omega, hh⟩
  | int32 =>
    simp only [Op.need, Op.consumes] at *
    match hd : r.buf.content, hn with
    | x :: y :: z :: u :: rest, _ =>
      obtain ⟨r', e, hh⟩ := Reader.int32_spec h x y z u rest hd
      exact ⟨r', by simp [readOp, e, specOut, beVal]; omega, hh⟩

/-- A reader over a transport with a rewindable buffer. -/
structure OnIo (r : Reader) (cap : Nat) (closed : Err) : Prop where
  wf : r.WF
  rw : r.buf.rewindable = true
  cap : r.buf.cap = cap
  io : ∃ io, r.io = some io ∧ io.closed = closed

theorem OnIo.init (mem0 : List UInt8) (io : Io) (hm : mem0.length < 2 ^ 63) (hok : ioOk io = true) :
    OnIo (Reader.onIo mem0 io) mem0.length io.closed :=
  ⟨⟨AVBuf.WF.ofCap _ _ hm, by intro x hx; cases hx; exact hok⟩, rfl, rfl, io, rfl, rfl⟩

theorem pending_onIo (mem0 : List UInt8) (io : Io) : (Reader.onIo mem0 io).pending = streamOf io.evs := by
  simp [Reader.pending, Reader.onIo, AVBuf.content_ofCap]

theorem take_pending {r : Reader} {k : Nat} (h : k ≤ r.buf.content.length) :
    r.pending.take k = r.buf.content.take k := by
  unfold Reader.pending
  rw [List.take_append_of_le_length h]

theorem drop_pending {r r' : Reader} {k : Nat} (h : k ≤ r.buf.content.length)
    (hc : r'.buf.content = r.buf.content.drop k) (hi : r'.io = r.io) : r'.pending = r.pending.drop k := by
  unfold Reader.pending
  rw [List.drop_append_of_le_length h, hc, hi]

theorem consumes_le (op : Op) : op.consumes ≤ op.need := by cases op <;> simp [Op.consumes, Op.need]

/-- One client call on a transport. -/
theorem step_spec {r : Reader} {cap : Nat} {closed : Err} (h : OnIo r cap closed) (op : Op) :
    ∃ o r', step r op = some (o, r') ∧ OnIo r' cap closed ∧
      ((∃ e, o = .err e ∧ e ≠ Err.SUCCESS ∧ r'.pending = r.pending) ∨
        (o = specOut (r.pending.take op.consumes) op ∧ r'.pending = r.pending.drop op.consumes ∧
          op.need ≤ r.pending.length)) ∧
      (cap < op.need → o = .err Err.ERROR_IO_BUFFER_FULL ∧ r' = r) ∧
      (∀ io, r.io = some io → noErr io.evs = true →
        (∀ io', r'.io = some io' → noErr io'.evs = true) ∧
        (op.need ≤ cap → r.pending.length < op.need → o = .err closed ∧ r'.pending = r.pending) ∧
        (op.need ≤ cap → op.need ≤ r.pending.length → o = specOut (r.pending.take op.consumes) op ∧
          r'.pending = r.pending.drop op.consumes)) := by
  obtain ⟨io, hio, hcl⟩ := h.io
  obtain ⟨e, r1, io1, a1, a2, a3, a4, a5, a6, a7, a8, a9, _, a11⟩ := Reader.acquire_spec h.wf io hio h.rw op.need
  have hon1 : OnIo r1 cap closed := ⟨a2, a5, a4.trans h.cap, io1, a3, a7.trans hcl⟩
  by_cases he : e = Err.SUCCESS
  · have hav := a8 he
    have hck := Nat.le_trans (consumes_le op) hav
    obtain ⟨r2, b1, b2, b3, b4, b5, b6⟩ := readOp_spec a2 op hav
    have hp1 : r2.pending = r.pending.drop op.consumes := by
      rw [← a6]; exact drop_pending hck b3 b4
    have ho : specOut (r1.buf.content.take op.consumes) op = specOut (r.pending.take op.consumes) op := by
      rw [← a6, take_pending hck]
    have hlen : op.need ≤ r.pending.length := by
      rw [← a6]; unfold Reader.pending; rw [List.length_append]; omega
    refine ⟨_, r2, by simp [step, a1, he, b1], ⟨b2, b6.trans a5, b5.trans hon1.cap, io1, b4.trans a3, a7.trans hcl⟩,
      Or.inr ⟨ho, hp1, hlen⟩, ?_, ?_⟩
    · intro hc
      have := (a9 (by rw [h.cap]; exact hc)).1
      rw [he] at this; simp at this
    · intro io2 hio2 hno
      rw [hio] at hio2; cases hio2
      refine ⟨?_, fun _ hlt => by omega, fun _ _ => ⟨ho, hp1⟩⟩
      intro io' hio'
      rw [b4, a3] at hio'; cases hio'
      exact (a11 hno).1
  · refine ⟨.err e, r1, by simp [step, a1]; intro h; exact absurd h he, hon1, Or.inl ⟨e, rfl, he, a6⟩, ?_, ?_⟩
    · intro hc
      have := a9 (by rw [h.cap]; exact hc)
      exact ⟨by rw [this.1], this.2⟩
    · intro io2 hio2 hno
      rw [hio] at hio2; cases hio2
      obtain ⟨c1, c2⟩ := a11 hno
      rw [h.cap] at c2
      refine ⟨?_, ?_, ?_⟩
      · intro io' hio'
        rw [a3] at hio'; cases hio'; exact c1
      · intro h1 h2
        rcases c2 with c2 | c2 | c2
        · omega
        · omega
        · exact ⟨by rw [c2.1, hcl], a6⟩
      · intro h1 h2
        rcases c2 with c2 | c2 | c2
        · omega
        · exact absurd c2.1 he
        · omega

/-! ### Writers -/

theorem wbytes_spec (w : Writer) (h : w.WF) (d : List UInt8) (hd : w.fin + d.length ≤ w.cap) :
    ∃ w', Writer.bytes w d = some w' ∧ w'.WF ∧ w'.cap = w.cap ∧ w'.fin = w.fin + d.length ∧
      w'.mem = w.mem.take w.fin ++ d ++ w.mem.drop (w.fin + d.length) ∧ w'.ptr = w.ptr ∧
      w'.rewindable = w.rewindable := by
  have h1 := h.ptr_le; have h3 := h.cap_lt
  have hcap : (w.mem.take w.fin ++ (d ++ w.mem.drop (w.fin + d.length))).length = w.mem.length := by
    have : w.fin + d.length ≤ w.mem.length := hd
    simp; omega
  refine ⟨{ w with mem := w.mem.take w.fin ++ d ++ w.mem.drop (w.fin + d.length), fin := w.fin + d.length },
    ?_, ?_, ?_, rfl, rfl, rfl, rfl⟩
  · simp only [Writer.bytes, AVBuf.poke, hd, if_true, Option.map_some, AVBuf.append]
  · refine ⟨by simp; omega, ?_, ?_⟩ <;> simp only [AVBuf.cap, List.append_assoc, hcap]
    · exact hd
    · exact h3
  · simp only [AVBuf.cap, List.append_assoc, hcap]

theorem poke_poke (m d e : List UInt8) (k : Nat) (h : k + d.length ≤ m.length) :
    List.take (k + d.length) (m.take k ++ d ++ m.drop (k + d.length)) ++ e ++
      List.drop (k + d.length + e.length) (m.take k ++ d ++ m.drop (k + d.length)) =
    m.take k ++ (d ++ e) ++ m.drop (k + (d ++ e).length) := by
  have e2 : (m.take k ++ d).length = k + d.length := by simp; omega
  generalize hx : m.take k ++ d = x at *
  rw [List.take_append_of_le_length (by omega), List.take_of_length_le (by omega),
    List.drop_append, List.drop_eq_nil_of_le (by omega), e2, List.drop_drop]
  rw [← List.append_assoc (m.take k), hx]
  simp only [List.nil_append, List.length_append]
  congr 2
  omega

theorem wbytes_append (w : Writer) (d e : List UInt8) :
    Writer.bytes w (d ++ e) = (Writer.bytes w d).bind (fun w => Writer.bytes w e) := by
  simp only [Writer.bytes, AVBuf.poke, AVBuf.append]
  by_cases hd : w.fin + d.length ≤ AVBuf.cap w
  · rw [if_pos hd]
    have hd' : w.fin + d.length ≤ w.mem.length := hd
    simp only [Option.map_some, Option.bind_some]
    have e1 : AVBuf.cap ⟨List.take w.fin w.mem ++ d ++ List.drop (w.fin + d.length) w.mem, w.ptr, w.fin + d.length,
        w.rewindable⟩ = AVBuf.cap w := by
      simp [AVBuf.cap]; omega
    rw [e1]
    by_cases hc : w.fin + d.length + e.length ≤ AVBuf.cap w
    · rw [if_pos hc, if_pos (by simp; omega)]
      simp only [Option.map_some, Option.some.injEq]
      rw [poke_poke w.mem d e w.fin hd']
      simp only [AVBuf.mk.injEq, true_and, and_true, List.length_append, List.append_assoc]
      omega
    · rw [if_neg hc, if_neg (by simp; omega)]; rfl
  · rw [if_neg hd, if_neg (by simp; omega)]; rfl

theorem wint8_eq (w : Writer) (v : Nat) : w.int8 v = Writer.bytes w (beBytes 1 v) := by
  simp [Writer.int8, Writer.bytes, beBytes]

theorem beBytes_split1 (k v : Nat) : beBytes (k + 1) v = beBytes 1 (v / 256 ^ k) ++ beBytes k v := by
  simp [beBytes]

theorem beBytes_mod (k m v : Nat) (h : 256 ^ k ∣ m) : beBytes k (v % m) = beBytes k v := by
  have hm : (v % m) % 256 ^ k = v % 256 ^ k := Nat.mod_mod_of_dvd _ h
  have h1 := beVal_beBytes k (v % m)
  have h2 := beVal_beBytes k v
  rw [hm, ← h2] at h1
  have e1 := beBytes_beVal (beBytes k (v % m))
  have e2 := beBytes_beVal (beBytes k v)
  rw [beBytes_length] at e1 e2
  rw [← e1, h1, e2]

theorem wint16_eq (w : Writer) (v : Nat) : w.int16 v = Writer.bytes w (beBytes 2 v) := by
  have a2 : ∀ x, x &&& 0xff = x % 2 ^ 8 := fun x => Nat.and_two_pow_sub_one_eq_mod _ 8
  simp only [Writer.int16, wint8_eq, Option.bind_eq_bind]
  rw [← wbytes_append, a2, Nat.shiftRight_eq_div_pow]
  congr 1
  rw [beBytes_mod 1 (2 ^ 8) _ ⟨1, rfl⟩]
  rw [← beBytes_split1 1 (v % 2 ^ 16), beBytes_mod 2 (2 ^ 16) _ ⟨1, rfl⟩]

theorem wint24_eq (w : Writer) (v : Nat) : w.int24 v = Writer.bytes w (beBytes 3 v) := by
  have a2 : ∀ x, x &&& 0xffff = x % 2 ^ 16 := fun x => Nat.and_two_pow_sub_one_eq_mod _ 16
  simp only [Writer.int24, wint8_eq, wint16_eq, Option.bind_eq_bind]
  rw [← wbytes_append, a2, Nat.shiftRight_eq_div_pow]
  congr 1
  rw [beBytes_mod 2 (2 ^ 16) _ ⟨1, rfl⟩]
  rw [← beBytes_split1 2 (v % 2 ^ 32), beBytes_mod 3 (2 ^ 32) _ ⟨256, rfl⟩]

theorem wint32_eq (w : Writer) (v : Nat) : w.int32 v = Writer.bytes w (beBytes 4 v) := by
  have a2 : ∀ x, x &&& 0xffffff = x % 2 ^ 24 := fun x => Nat.and_two_pow_sub_one_eq_mod _ 24
  simp only [Writer.int32, wint8_eq, wint24_eq, Option.bind_eq_bind]
  rw [← wbytes_append, a2, Nat.shiftRight_eq_div_pow]
  congr 1
  rw [beBytes_mod 3 (2 ^ 24) _ ⟨1, rfl⟩]
  rw [← beBytes_split1 3 (v % 2 ^ 32), beBytes_mod 4 (2 ^ 32) _ ⟨1, rfl⟩]

theorem wstep_eq (w : Writer) (op : WOp) : wstep w op = Writer.bytes w op.image := by
  cases op <;> simp only [wstep, WOp.image, wint8_eq, wint16_eq, wint24_eq, wint32_eq]

theorem wbytes_nil (w : Writer) (h : w.fin ≤ w.cap) : Writer.bytes w [] = some w := by
  simp [Writer.bytes, AVBuf.poke, AVBuf.append, h]

theorem wrun_eq (ops : List WOp) (w : Writer) (h : w.fin ≤ w.cap) :
    wrun w ops = Writer.bytes w (images ops) := by
  suffices key : ∀ (ops : List WOp) (w : Writer), w.fin ≤ w.cap → wrun w ops = Writer.bytes w (images ops) from
    key ops w h
  intro ops
  induction ops with
  | nil => intro w h; simp [wrun, images, wbytes_nil w h]
  | cons op ops ih =>
    intro w h
    have e : images (op :: ops) = op.image ++ images ops := by simp [images]
    rw [e, wbytes_append]
    simp only [wrun, wstep_eq, Option.bind_eq_bind]
    cases hb : Writer.bytes w op.image with
    | none => rfl
    | some w' =>
      simp only [Option.bind_some]
      apply ih
      simp only [Writer.bytes, AVBuf.poke] at hb
      split at hb
      · rename_i hfit
        simp only [Option.map_some, Option.some.injEq] at hb
        subst hb
        have : w.fin + op.image.length ≤ w.mem.length := hfit
        simp [AVBuf.append, AVBuf.cap]; omega
      · cases hb

end Sps.ByteProg
