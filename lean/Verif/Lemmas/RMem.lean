import Verif.Lemmas.RProg
import Verif.Spec.RMem
/-! # Programs over a `BytesReader` on a block of memory -/
namespace Sps.RProg
open Spec
variable {α β : Type}

/-- The reader is at the byte string `s`, which ends where its memory ends, and has no transport. -/
structure AtMem (r : Reader) (s : List UInt8) : Prop where
  io : r.io = none
  rw : r.buf.rewindable = false
  fin : r.buf.fin = r.buf.mem.length
  ptr : r.buf.ptr ≤ r.buf.mem.length
  len : r.buf.mem.length < 2 ^ 64
  rest : r.buf.mem.drop r.buf.ptr = s

theorem AtMem.create (d : List UInt8) (h : d.length < 2 ^ 64) : AtMem (Reader.create d) d :=
  ⟨rfl, rfl, rfl, Nat.zero_le _, h, rfl⟩

theorem AtMem.length {r : Reader} {s : List UInt8} (h : AtMem r s) : s.length = r.buf.mem.length - r.buf.ptr := by
  rw [← h.rest, List.length_drop]

theorem AtMem.size {r : Reader} {s : List UInt8} (h : AtMem r s) : r.size = s.length := by
  have := h.length; have := h.ptr; have := h.len
  unfold Reader.size AVBuf.size subSz
  rw [h.fin]; omega

theorem AtMem.acquire {r : Reader} {s : List UInt8} (h : AtMem r s) (n : Nat) :
    r.acquire n = some (if s.length < n then Err.ERROR_IO_BUFFER_FULL else Err.SUCCESS, r) := by
  have hs : r.buf.size = s.length := h.size
  have hc : r.buf.capSize = s.length := by
    have := h.length; have := h.ptr; have := h.len
    unfold AVBuf.capSize AVBuf.noRewindCap subSz AVBuf.cap
    rw [h.rw]; simp only [Bool.false_eq_true, if_false]; omega
  unfold Reader.acquire
  rw [hs, hc]
  by_cases hn : s.length < n
  · rw [if_neg (by omega), if_pos hn, if_pos hn]
  · rw [if_pos (by omega), if_neg hn]

theorem AtMem.skip {r : Reader} {s : List UInt8} (h : AtMem r s) (n : Nat) (hn : n ≤ s.length) :
    AtMem (r.skipBytes n) (s.drop n) := by
  have := h.length; have := h.ptr
  refine ⟨h.io, h.rw, h.fin, ?_, h.len, ?_⟩
  · show r.buf.ptr + n ≤ r.buf.mem.length; omega
  · show r.buf.mem.drop (r.buf.ptr + n) = _
    rw [← h.rest, List.drop_drop]

theorem AtMem.int8 {r : Reader} {b : UInt8} {s : List UInt8} (h : AtMem r (b :: s)) :
    r.int8 = some (b.toNat, r.skipBytes 1) := by
  have : r.buf.mem[r.buf.ptr]? = some b := by
    have := congrArg (·[0]?) h.rest
    simpa using this
  unfold Reader.int8
  rw [this]; rfl

theorem AtMem.bytes {r : Reader} {s : List UInt8} (h : AtMem r s) (n : Nat) (hn : n ≤ s.length) :
    r.bytes n = some (s.take n, r.skipBytes n) := by
  have := h.length; have := h.ptr
  unfold Reader.bytes
  rw [if_pos (by unfold AVBuf.cap; omega), h.rest]; rfl

/-- The modelled reader computes what `onMem` says. -/
theorem run_mem (p : RProg α) {r : Reader} {s : List UInt8} (h : AtMem r s) {a : α} {s' : List UInt8}
    (hs : onMem p s = some (a, s')) : ∃ r', p.run r = some (a, r') ∧ AtMem r' s' := by
  induction p generalizing r s with
  | ret a =>
    simp only [onMem, Option.some.injEq, Prod.mk.injEq] at hs
    obtain ⟨rfl, rfl⟩ := hs
    exact ⟨r, rfl, h⟩
  | acquire n k ih =>
    simp only [run, h.acquire n, Option.bind_some]
    simp only [onMem] at hs
    split at hs
    · rename_i hn; simp only [if_pos hn]; exact ih _ h hs
    · rename_i hn; simp only [if_neg hn]; exact ih _ h hs
  | int8 k ih =>
    cases s with
    | nil => simp [onMem] at hs
    | cons b s =>
      simp only [run, h.int8, Option.bind_some]
      simp only [onMem] at hs
      exact ih _ (by simpa using h.skip 1 (by simp)) hs
  | bytes n k ih =>
    simp only [onMem] at hs
    split at hs
    · rename_i hn
      simp only [run, h.bytes n hn, Option.bind_some]
      exact ih _ (h.skip n hn) hs
    · simp at hs
  | skip n k ih =>
    simp only [onMem] at hs
    split at hs
    · rename_i hn
      simp only [run]
      exact ih (h.skip n hn) hs
    · simp at hs
  | size k ih =>
    simp only [run]
    simp only [onMem] at hs
    rw [h.size]
    exact ih _ h hs

theorem onMem_bind (p : RProg α) (f : α → RProg β) (s : List UInt8) :
    onMem (p >>= f) s = (onMem p s).bind fun x => onMem (f x.1) x.2 := by
  show onMem (p.bind f) s = _
  induction p generalizing s with
  | ret a => simp [bind, onMem]
  | acquire n k ih => simp only [bind, onMem]; split <;> exact ih _ _
  | int8 k ih =>
    cases s with
    | nil => simp [bind, onMem]
    | cons b s => simp only [bind, onMem]; exact ih _ _
  | bytes n k ih =>
    simp only [bind, onMem]
    split
    · exact ih _ _
    · rfl
  | skip n k ih =>
    simp only [bind, onMem]
    split
    · exact ih _
    · rfl
  | size k ih => simp only [bind, onMem]; exact ih _ _

theorem mem_ret (a : α) (s : List UInt8) : onMem (pure a : RProg α) s = some (a, s) := rfl

theorem mem_acq (n : Nat) (f : Err → RProg β) (s : List UInt8) :
    onMem (acq n >>= f) s = if s.length < n then onMem (f Err.ERROR_IO_BUFFER_FULL) s else onMem (f Err.SUCCESS) s := by
  rw [onMem_bind]
  simp only [acq, onMem]
  split <;> simp

theorem mem_rd8 (f : Nat → RProg β) (b : UInt8) (s : List UInt8) :
    onMem (rd8 >>= f) (b :: s) = onMem (f b.toNat) s := by
  rw [onMem_bind]; simp [rd8, onMem]

theorem mem_rd8_nil (f : Nat → RProg β) : onMem (rd8 >>= f) [] = none := by
  rw [onMem_bind]; simp [rd8, onMem]

theorem mem_rd16 (f : Nat → RProg β) (a b : UInt8) (s : List UInt8) :
    onMem (rd16 >>= f) (a :: b :: s) = onMem (f (beVal [a, b])) s := by
  rw [onMem_bind]
  show Option.bind (onMem (rd8 >>= fun a => rd8 >>= fun b => pure (((a <<< 8) ||| b) % 2 ^ 16)) _) _ = _
  rw [mem_rd8, mem_rd8, mem_ret]
  have ha := a.toNat_lt; have hb := b.toNat_lt
  simp only [Option.bind_some, beVal_cons, beVal_nil, List.length_cons, List.length_nil]
  rw [shl_or _ _ 8 (by omega)]
  refine congrArg (fun x => onMem (f x) s) ?_
  omega

theorem mem_rd24 (f : Nat → RProg β) (a b c : UInt8) (s : List UInt8) :
    onMem (rd24 >>= f) (a :: b :: c :: s) = onMem (f (beVal [a, b, c])) s := by
  rw [onMem_bind]
  show Option.bind (onMem (rd8 >>= fun a => rd16 >>= fun b => pure ((a <<< 16) ||| b)) _) _ = _
  rw [mem_rd8, mem_rd16, mem_ret]
  have ha := a.toNat_lt; have hb := b.toNat_lt; have hc := c.toNat_lt
  simp only [Option.bind_some, beVal_cons, beVal_nil, List.length_cons, List.length_nil]
  rw [shl_or _ _ 16 (by omega)]
  refine congrArg (fun x => onMem (f x) s) ?_
  omega

theorem mem_rd32 (f : Nat → RProg β) (a b c d : UInt8) (s : List UInt8) :
    onMem (rd32 >>= f) (a :: b :: c :: d :: s) = onMem (f (beVal [a, b, c, d])) s := by
  rw [onMem_bind]
  show Option.bind (onMem (rd16 >>= fun a => rd16 >>= fun b => pure (((a <<< 16) ||| b) % 2 ^ 32)) _) _ = _
  rw [mem_rd16, mem_rd16, mem_ret]
  have ha := a.toNat_lt; have hb := b.toNat_lt; have hc := c.toNat_lt; have hd := d.toNat_lt
  simp only [Option.bind_some, beVal_cons, beVal_nil, List.length_cons, List.length_nil]
  rw [shl_or _ _ 16 (by omega)]
  refine congrArg (fun x => onMem (f x) s) ?_
  omega

theorem mem_bytes (n : Nat) (f : List UInt8 → RProg β) (s : List UInt8) (h : n ≤ s.length) :
    onMem (rdBytes n >>= f) s = onMem (f (s.take n)) (s.drop n) := by
  rw [onMem_bind]; simp [rdBytes, onMem, h]

theorem mem_skip (n : Nat) (f : Unit → RProg β) (s : List UInt8) (h : n ≤ s.length) :
    onMem (skp n >>= f) s = onMem (f ()) (s.drop n) := by
  rw [onMem_bind]; simp [skp, onMem, h]

theorem mem_size (f : Nat → RProg β) (s : List UInt8) : onMem (rdSize >>= f) s = onMem (f s.length) s := by
  rw [onMem_bind]; simp [rdSize, onMem]

end Sps.RProg
