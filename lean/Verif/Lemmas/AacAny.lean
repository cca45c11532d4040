import Verif.Lemmas.Aac
/-! The AAC parser on buffers of any content. -/
namespace Sps
open Spec Spec.Aac BProg

theorem rd_inv {w : Nat} (hw : w ≤ 32) {off off' : Nat} {s s' : List Bool} {v : Nat} (h : onBits (rd w) off s = some (v, off', s')) :
    s = bitsOfNat w v ++ s' ∧ v < 2 ^ w ∧ off' = off + w := by
  unfold rd at h
  by_cases hl : w ≤ s.length
  · rw [on_bits w hw _ _ _ hl] at h
    simp only [on_ret, Option.some.injEq, Prod.mk.injEq] at h
    obtain ⟨rfl, rfl, rfl⟩ := h
    have ht : (s.take w).length = w := by rw [List.length_take]; omega
    refine ⟨?_, ?_, rfl⟩
    · have := bitsOfNat_bitsVal (s.take w)
      rw [ht] at this
      rw [this, List.take_append_drop]
    · have := bitsVal_lt (s.take w)
      rwa [ht] at this
  · rw [on_bits_none w _ _ _ (by omega)] at h
    cases h

/-- What a header that is accepted says about the bits in front of the parser. -/
theorem Adts.decode_inv {off off' : Nat} {s s' : List Bool} {h : Adts} (e : onBits Adts.decode off s = some (Except.ok h, off', s')) :
    ∃ crc : Option Nat, s = fieldBits [(0xfff, 12), (h.id, 1), (h.layer, 2), (if crc.isSome then 0 else 1, 1), (h.profile, 2), (h.freq, 4),
        (h.privateBit, 1), (h.channels, 3), (h.original, 1), (h.home, 1), (h.copyrightBit, 1),
        (h.copyrightStart, 1), (h.frameLength, 13), (h.fullness, 11), (h.blocks, 2)] ++
        (match crc with | none => [] | some c => fieldBits [(c, 16)]) ++ s' ∧
      h.profile < 4 ∧ h.freq < 16 ∧ h.channels < 8 ∧ h.original < 2 ∧ h.home < 2 ∧ h.frameLength < 2 ^ 13 ∧
      h.protectionAbsent = (if crc.isSome then 0 else 1) ∧ off' = off + 8 * (if crc.isSome then 9 else 7) := by
  unfold Adts.decode at e
  rw [on_bind, Option.bind_eq_some_iff] at e
  obtain ⟨⟨e0, o0, s0⟩, a0, e⟩ := e
  have a0' : o0 = off ∧ s0 = s := by
    unfold acq at a0
    simp only [onBits] at a0
    split at a0 <;> simp only [Option.some.injEq, Prod.mk.injEq] at a0 <;> exact ⟨a0.2.1.symm, a0.2.2.symm⟩
  obtain ⟨rfl, rfl⟩ := a0'
  simp only at e
  split at e
  · simp [on_pure] at e
  rw [on_bind, Option.bind_eq_some_iff] at e
  obtain ⟨⟨v1, o1, s1⟩, a1, e⟩ := e
  obtain ⟨rfl, b1, rfl⟩ := rd_inv (by decide) a1
  simp only at e
  split at e
  · simp [on_pure] at e
  rename_i hsync
  have hsync : v1 = 0xfff := by simpa using hsync
  subst hsync
  rw [on_bind, Option.bind_eq_some_iff] at e
  obtain ⟨⟨v2, o2, s2⟩, a2, e⟩ := e
  obtain ⟨rfl, b2, rfl⟩ := rd_inv (by decide) a2
  rw [on_bind, Option.bind_eq_some_iff] at e
  obtain ⟨⟨v3, o3, s3⟩, a3, e⟩ := e
  obtain ⟨rfl, b3, rfl⟩ := rd_inv (by decide) a3
  rw [on_bind, Option.bind_eq_some_iff] at e
  obtain ⟨⟨v4, o4, s4⟩, a4, e⟩ := e
  obtain ⟨rfl, b4, rfl⟩ := rd_inv (by decide) a4
  rw [on_bind, Option.bind_eq_some_iff] at e
  obtain ⟨⟨v5, o5, s5⟩, a5, e⟩ := e
  obtain ⟨rfl, b5, rfl⟩ := rd_inv (by decide) a5
  rw [on_bind, Option.bind_eq_some_iff] at e
  obtain ⟨⟨v6, o6, s6⟩, a6, e⟩ := e
  obtain ⟨rfl, b6, rfl⟩ := rd_inv (by decide) a6
  rw [on_bind, Option.bind_eq_some_iff] at e
  obtain ⟨⟨v7, o7, s7⟩, a7, e⟩ := e
  obtain ⟨rfl, b7, rfl⟩ := rd_inv (by decide) a7
  rw [on_bind, Option.bind_eq_some_iff] at e
  obtain ⟨⟨v8, o8, s8⟩, a8, e⟩ := e
  obtain ⟨rfl, b8, rfl⟩ := rd_inv (by decide) a8
  rw [on_bind, Option.bind_eq_some_iff] at e
  obtain ⟨⟨v9, o9, s9⟩, a9, e⟩ := e
  obtain ⟨rfl, b9, rfl⟩ := rd_inv (by decide) a9
  rw [on_bind, Option.bind_eq_some_iff] at e
  obtain ⟨⟨v10, o10, s10⟩, a10, e⟩ := e
  obtain ⟨rfl, b10, rfl⟩ := rd_inv (by decide) a10
  rw [on_bind, Option.bind_eq_some_iff] at e
  obtain ⟨⟨v11, o11, s11⟩, a11, e⟩ := e
  obtain ⟨rfl, b11, rfl⟩ := rd_inv (by decide) a11
  rw [on_bind, Option.bind_eq_some_iff] at e
  obtain ⟨⟨v12, o12, s12⟩, a12, e⟩ := e
  obtain ⟨rfl, b12, rfl⟩ := rd_inv (by decide) a12
  rw [on_bind, Option.bind_eq_some_iff] at e
  obtain ⟨⟨v13, o13, s13⟩, a13, e⟩ := e
  obtain ⟨rfl, b13, rfl⟩ := rd_inv (by decide) a13
  rw [on_bind, Option.bind_eq_some_iff] at e
  obtain ⟨⟨v14, o14, s14⟩, a14, e⟩ := e
  obtain ⟨rfl, b14, rfl⟩ := rd_inv (by decide) a14
  rw [on_bind, Option.bind_eq_some_iff] at e
  obtain ⟨⟨v15, o15, s15⟩, a15, e⟩ := e
  obtain ⟨rfl, b15, rfl⟩ := rd_inv (by decide) a15
  clear a0 a1 a2 a3 a4 a5 a6 a7 a8 a9 a10 a11 a12 a13 a14 a15
  simp only at e
  split at e
  · rename_i hpa
    have hpa : v4 = 0 := hpa
    subst hpa
    rw [on_bind, Option.bind_eq_some_iff] at e
    obtain ⟨⟨v16, o16, s16⟩, a16, e⟩ := e
    obtain ⟨rfl, b16, rfl⟩ := rd_inv (by decide) a16
    simp only [on_pure, Option.some.injEq, Prod.mk.injEq, Except.ok.injEq] at e
    obtain ⟨rfl, rfl, rfl⟩ := e
    refine ⟨some v16, ?_, b5, b6, b8, b9, b10, b13, rfl, by simp⟩
    simp [fieldBits, List.append_assoc]
  · rename_i hpa
    have hpa : v4 = 1 := by omega
    subst hpa
    simp only [on_pure, Option.some.injEq, Prod.mk.injEq, Except.ok.injEq] at e
    obtain ⟨rfl, rfl, rfl⟩ := e
    refine ⟨none, ?_, b5, b6, b8, b9, b10, b13, rfl, by simp⟩
    simp [fieldBits, List.append_assoc]

namespace AacParser

theorem bytes_inv {c : BitCtx} {off : Nat} {s : List Bool} (h : At c off s) (ho : off % 8 = 0) : ∃ r, s = bitsOf r := by
  refine ⟨c.buf.drop (off / 8), ?_⟩
  rw [← h.rest]
  have : off = 8 * (off / 8) := by omega
  conv => lhs; rw [this]
  generalize off / 8 = k
  generalize c.buf = b
  induction k generalizing b with
  | zero => simp
  | succ k ih =>
    cases b with
    | nil => simp [bitsOf]
    | cons x b =>
      have hx : bitsOf (x :: b) = bitsOfNat 8 x.toNat ++ bitsOf b := rfl
      rw [hx, show 8 * (k + 1) = 8 + 8 * k by omega, ← List.drop_drop, List.drop_left' (by simp), ih]
      rfl

/-- What is accepted consists of frames. -/
theorem loop_inv (ctx : CodecCtx) : ∀ (fuel : Nat) (c : BitCtx) (p p' : AacParser) (out out' : List AVPkt) (off : Nat) (s : List Bool),
    At c off s → off % 8 = 0 → loop ctx fuel c p out = some (Err.SUCCESS, p', out') →
      ∃ fs : List Frame, (∀ f ∈ fs, f.ok) ∧ s = fs.flatMap Frame.bits
  | 0, c, p, p', out, out', off, s, h, ho, e => by cases e
  | fuel + 1, c, p, p', out, out', off, s, h, ho, e => by
    rw [loop] at e
    obtain ⟨r, rfl⟩ := bytes_inv h ho
    split at e
    · rename_i hz
      rw [size_at h, bitsOf_length] at hz
      have : r = [] := by
        cases r with
        | nil => rfl
        | cons x r => rw [List.length_cons] at hz; omega
      subst this
      exact ⟨[], by simp, rfl⟩
    · rw [Option.bind_eq_some_iff] at e
      obtain ⟨⟨q, c1⟩, e1, e⟩ := e
      simp only at e
      cases q with
      | error err =>
        obtain ⟨o1, s1, hd, _⟩ := of_run h e1
        simp only [Option.some.injEq, Prod.mk.injEq] at e
        obtain ⟨rfl, _, _⟩ := e
        exfalso
        unfold Adts.decode at hd
        rw [on_bind, Option.bind_eq_some_iff] at hd
        obtain ⟨⟨e0, o0, s0⟩, a0, hd⟩ := hd
        simp only at hd
        split at hd
        · simp [on_pure, Err.SUCCESS, Err.ERROR_AAC_DECODER] at hd
        rw [on_bind, Option.bind_eq_some_iff] at hd
        obtain ⟨⟨v1, o1, s1⟩, a1, hd⟩ := hd
        simp only at hd
        split at hd
        · simp [on_pure, Err.SUCCESS, Err.ERROR_AAC_DECODER] at hd
        iterate 14
          rw [on_bind, Option.bind_eq_some_iff] at hd
          obtain ⟨⟨_, _, _⟩, _, hd⟩ := hd
        simp only at hd
        split at hd
        · rw [on_bind, Option.bind_eq_some_iff] at hd
          obtain ⟨⟨_, _, _⟩, _, hd⟩ := hd
          simp [on_pure] at hd
        · simp [on_pure] at hd
      | ok hdr =>
        obtain ⟨o1, s1, hd, a1⟩ := of_run h e1
        obtain ⟨crc, hs, b1, b2, b3, b4, b5, b6, hpa, hoff⟩ := Adts.decode_inv hd
        simp only at e
        rw [Option.bind_eq_some_iff] at e
        obtain ⟨⟨p1, pk⟩, e2, e⟩ := e
        simp only at e
        split at e
        · simp [Err.SUCCESS, Err.ERROR_AAC_DECODER] at e
        have hhead : 7 + (if hdr.protectionAbsent = 1 then 0 else 2) = if crc.isSome then 9 else 7 := by
          rw [hpa]; cases crc <;> simp
        rw [hhead] at e
        by_cases hlen : hdr.frameLength < (if crc.isSome then 9 else 7) ∨ ctx.timebase = 0
        · rw [if_pos hlen] at e; cases e
        rw [if_neg hlen, Option.bind_eq_some_iff] at e
        obtain ⟨⟨d, c2⟩, e3, e⟩ := e
        obtain ⟨o2, s2, hb, a2⟩ := of_run a1 e3
        have ho1 : o1 % 8 = 0 := by rw [hoff]; split <;> omega
        obtain ⟨r1, rfl⟩ := bytes_inv a1 ho1
        have hn : hdr.frameLength - (if crc.isSome then 9 else 7) ≤ r1.length := by
          unfold rdBytes at hb
          generalize hdr.frameLength - (if crc.isSome then 9 else 7) = m at hb ⊢
          simp only [onBits] at hb
          split at hb
          · rename_i hx; rw [bitsOf_length] at hx; omega
          · cases hb
        have hd1 : bitsOf r1 = bitsOf (r1.take (hdr.frameLength - (if crc.isSome then 9 else 7))) ++
            bitsOf (r1.drop (hdr.frameLength - (if crc.isSome then 9 else 7))) := by
          unfold bitsOf
          rw [← List.flatMap_append, List.take_append_drop]
        have hl1 : (r1.take (hdr.frameLength - (if crc.isSome then 9 else 7))).length = hdr.frameLength - (if crc.isSome then 9 else 7) := by
          rw [List.length_take]; omega
        have hr := rdBytes_on (r1.take (hdr.frameLength - (if crc.isSome then 9 else 7))) o1
          (bitsOf (r1.drop (hdr.frameLength - (if crc.isSome then 9 else 7)))) ho1
        rw [hl1, ← hd1, hb] at hr
        simp only [Option.some.injEq, Prod.mk.injEq] at hr
        obtain ⟨rfl, rfl, rfl⟩ := hr
        obtain ⟨fs, hok, hfs⟩ := loop_inv ctx fuel c2 p1 p' _ out' _ _ a2 (by omega) e
        have hle : (if crc.isSome then 9 else 7) ≤ hdr.frameLength := by
          have := (not_or.1 hlen).1; omega
        generalize hdat : r1.take (hdr.frameLength - (if crc.isSome then 9 else 7)) = dat at *
        let f : Frame := { id := hdr.id, layer := hdr.layer, params := ⟨hdr.profile, hdr.freq, hdr.channels, hdr.original, hdr.home⟩, privateBit := hdr.privateBit, copyrightBit := hdr.copyrightBit, copyrightStart := hdr.copyrightStart, fullness := hdr.fullness, blocks := hdr.blocks, crc := crc, data := dat }
        have hfl : f.headSize + f.data.length = hdr.frameLength := by
          show (if crc.isSome then 9 else 7) + dat.length = _
          rw [hl1]; omega
        refine ⟨f :: fs, ?_, ?_⟩
        · intro g hg
          rcases List.mem_cons.1 hg with rfl | hg
          · exact ⟨b1, b2, b3, b4, b5, by rw [hfl]; exact b6⟩
          · exact hok g hg
        · rw [hs, List.flatMap_cons, hd1, ← hfs]
          unfold Frame.bits
          rw [hfl]
          simp only [List.append_assoc]
          rfl

/-- A buffer that is accepted consists of frames. -/
theorem encodeAvc_inv (p p' : AacParser) (ctx : CodecCtx) (buf : List UInt8) (hs : buf.length < 2 ^ 32) (out : List AVPkt)
    (e : p.encodeAvc ctx buf = some (Err.SUCCESS, p', out)) : ∃ fs : List Frame, (∀ f ∈ fs, f.ok) ∧ bitsOf buf = fs.flatMap Frame.bits :=
  loop_inv ctx _ _ p p' [] out 0 _ (At.init buf hs) rfl e

end AacParser
end Sps
