import Verif.Model.Cache
import Verif.Spec.Cache
import Verif.Lemmas.Lists
/-! # Lemmas about the caches -/
namespace Sps
open Spec

theorem isKeyframe_eq (p : AVPkt) : p.isKeyframe = isKey p := by
  unfold AVPkt.isKeyframe isKey AVPkt.isVideo landInt
  congr 1
  have e : ((p.flags / 16) % (2 ^ 32 : Int)).toNat &&& 0x0F = ((p.flags / 16) % 16).toNat := by
    have : (0x0F : Nat) = 2 ^ 4 - 1 := rfl
    rw [this, Nat.and_two_pow_sub_one_eq_mod]; omega
  rw [e]
  rw [Bool.eq_iff_iff]
  simp only [beq_iff_eq]
  omega

theorem lastOf_append_single (f : AVPkt → Bool) (h : List AVPkt) (p : AVPkt) :
    lastOf f (h ++ [p]) = if f p then [p] else lastOf f h := by
  unfold lastOf
  rw [List.filter_append]
  by_cases hf : f p <;> simp [hf]

theorem fromLast_append_key (key : AVPkt → Bool) (h : List AVPkt) (p : AVPkt) (hp : key p = true) :
    fromLast key (h ++ [p]) = [p] := by
  induction h with
  | nil => simp [fromLast, hp]
  | cons a as ih =>
    rw [List.cons_append, fromLast, if_pos (by simp [hp]), ih]

theorem fromLast_eq_nil (key : AVPkt → Bool) (h : List AVPkt) : fromLast key h = [] ↔ h.any key = false := by
  induction h with
  | nil => simp [fromLast]
  | cons a as ih =>
    rw [fromLast]
    split
    · rename_i c
      rw [ih]; simp [c]
    · rename_i c
      split
      · rename_i d; simp [d]
      · rename_i d; simp at c d; simp [d]; exact c

theorem fromLast_append_nonkey (key : AVPkt → Bool) (h : List AVPkt) (p : AVPkt) (hp : key p = false) :
    fromLast key (h ++ [p]) = if fromLast key h = [] then [] else fromLast key h ++ [p] := by
  induction h with
  | nil => simp [fromLast, hp]
  | cons a as ih =>
    rw [List.cons_append, fromLast, fromLast]
    have : (as ++ [p]).any key = as.any key := by simp [hp]
    rw [this, ih]
    by_cases hc : as.any key = true
    · simp [hc]
    · have hn : fromLast key as = [] := (fromLast_eq_nil _ _).2 (by simpa using hc)
      simp only [if_neg hc]
      split
      · simp
      · simp

/-- What the cache holds after a history. -/
theorem gop_history (h : List AVPkt) :
    let g := h.foldl Gop.put Gop.empty
    g.script.toList = lastOf (fun p => p.stream == .subtitle) h ∧
    g.audio.toList = lastOf (fun p => p.stream == .audio && p.pktType == 0) h ∧
    g.video.toList = lastOf (fun p => p.stream == .video && p.pktType == 0) h ∧
    g.q.pbs = fromLast isKey (h.filter isMedia) := by
  induction h using snocRec with
  | nil => simp [Gop.empty, lastOf, fromLast]
  | append_singleton h p ih =>
    simp only [List.foldl_append, List.foldl_cons, List.foldl_nil]
    obtain ⟨i1, i2, i3, i4⟩ := ih
    generalize hg : h.foldl Gop.put Gop.empty = g at *
    simp only [lastOf_append_single, List.filter_append]
    unfold Gop.put
    simp only [AVPkt.isAudioHeader, AVPkt.isVideoHeader, AVPkt.isScript, AVPkt.isAudio, AVPkt.isVideo, isKeyframe_eq]
    cases hs : p.stream <;> by_cases hk : p.pktType = 0 <;>
      simp [hs, hk, i1, i2, i3, i4, isMedia, isKey] <;>
      first
        | (by_cases hf : p.flags / 16 % 16 = 1
           · rw [fromLast_append_key _ _ _ (by simp [isKey, hs, hf])]; simp [hf, i1, i2, i3]
           · rw [fromLast_append_nonkey _ _ _ (by simp [isKey, hs, hf])]
             simp only [hf, if_false]
             split <;> simp_all)
        | (rw [fromLast_append_nonkey _ _ _ (by simp [isKey, hs])]
           split <;> simp_all)

theorem gop_dump (h : List AVPkt) (v : List AVPkt) :
    (h.foldl Gop.put Gop.empty).dump v =
      (v ++ startup h, (fromLast isKey (h.filter isMedia)).length, h.foldl Gop.put Gop.empty) := by
  obtain ⟨a, b, c, d⟩ := gop_history h
  have e : (h.foldl Gop.put Gop.empty).dump v =
      (((h.foldl Gop.put Gop.empty).dump v).1, ((h.foldl Gop.put Gop.empty).dump v).2.1, h.foldl Gop.put Gop.empty) := rfl
  rw [e]
  unfold Gop.dump startup
  simp only [Queue.dump, a, b, c, d]
  simp

theorem isPusi_false (p : AVPkt) : p.isPusi = false := by
  unfold AVPkt.isPusi landInt
  have : ((p.pktType % (2 ^ 32 : Int)).toNat &&& 0x80000000) ≠ 1 := by
    intro h
    have := congrArg (·.testBit 0) h
    simp at this
  simp
  intro _; exact this

theorem raw_history (h : List AVPkt) :
    let g := h.foldl RawTs.put RawTs.empty
    g.pat.toList = lastOf (isTable 2) h ∧ g.pmt.toList = lastOf (isTable 3) h ∧
    g.q.pbs = h.filter (fun p => !isTable 2 p && !isTable 3 p) := by
  induction h using snocRec with
  | nil => simp [RawTs.empty, lastOf]
  | append_singleton h p ih =>
    simp only [List.foldl_append, List.foldl_cons, List.foldl_nil]
    obtain ⟨i1, i2, i3⟩ := ih
    generalize hg : h.foldl RawTs.put RawTs.empty = g at *
    simp only [lastOf_append_single, List.filter_append]
    unfold RawTs.put
    rw [isPusi_false]
    have e2 : p.isPat = isTable 2 p := rfl
    have e3 : p.isPmt = isTable 3 p := rfl
    rw [e2, e3]
    have excl : isTable 2 p = true → isTable 3 p = false := by
      unfold isTable
      simp only [Bool.and_eq_true, beq_iff_eq, Bool.and_eq_false_iff, beq_eq_false_iff_ne]
      intro ⟨_, h2⟩; right; omega
    by_cases h2 : isTable 2 p = true
    · simp [h2, excl h2, i2, i3]
    · by_cases h3 : isTable 3 p = true <;> simp [h2, h3, i1, i2, i3]

theorem raw_dump (h : List AVPkt) (v : List AVPkt) :
    ((h.foldl RawTs.put RawTs.empty).dump v).1 = v ++ startupRaw h := by
  obtain ⟨a, b, c⟩ := raw_history h
  unfold RawTs.dump startupRaw
  simp only [Queue.dump, a, b, c]
  simp

/-- Dumping leaves the cache as it is. -/
@[simp] theorem store_dump (s : Store) : s.dump.2.2 = s := by cases s <;> rfl

end Sps
