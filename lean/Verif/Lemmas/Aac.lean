import Verif.Spec.Aac
import Verif.Lemmas.TsBits
/-! Lemmas about the AAC parser. -/
namespace Sps
open Spec Spec.Aac BProg

namespace Adts

/-- The header the parser reads from a frame. -/
def of (f : Frame) : Adts where
  id := f.id % 2
  layer := f.layer % 4
  protectionAbsent := if f.crc.isSome then 0 else 1
  profile := f.params.profile
  freq := f.params.freq
  privateBit := f.privateBit % 2
  channels := f.params.channels
  original := f.params.original
  home := f.params.home
  copyrightBit := f.copyrightBit % 2
  copyrightStart := f.copyrightStart % 2
  frameLength := f.headSize + f.data.length
  fullness := f.fullness % 2 ^ 11
  blocks := f.blocks % 4

theorem decode_bits (f : Frame) (h : f.ok) (off : Nat) (r : List Bool) :
    onBits decode off (f.bits ++ r) = some (Except.ok (of f), off + 8 * f.headSize, bitsOf f.data ++ r) := by
  obtain ⟨h1, h2, h3, h4, h5, h6⟩ := h
  have e1 := Nat.mod_eq_of_lt (show f.params.profile < 2 ^ 2 from h1)
  have e2 := Nat.mod_eq_of_lt (show f.params.freq < 2 ^ 4 from h2)
  have e3 := Nat.mod_eq_of_lt (show f.params.channels < 2 ^ 3 from h3)
  have e4 := Nat.mod_eq_of_lt (show f.params.original < 2 ^ 1 from h4)
  have e5 := Nat.mod_eq_of_lt (show f.params.home < 2 ^ 1 from h5)
  have e6 := Nat.mod_eq_of_lt h6
  unfold decode
  rw [on_bind, acq_on 7 off _ (by decide) (by simp [Frame.bits, fieldBits]; omega)]
  simp only [Option.bind_some, ne_eq, not_true, if_false]
  unfold Frame.bits
  simp only [fieldBits_cons, fieldBits_nil, List.append_assoc, List.nil_append]
  simp (discharger := decide) only [on_bind, rd_field, Option.bind_some, Nat.reducePow, Nat.reduceMod, ne_eq, not_true, if_false]
  simp only [Nat.reducePow] at e1 e2 e3 e4 e5 e6
  rw [e1, e2, e3, e4, e5, e6]
  cases hc : f.crc with
  | none =>
    simp only [Option.isSome_none, Bool.false_eq_true, if_false, Nat.reduceMod, Nat.one_ne_zero, on_pure, List.nil_append]
    simp [of, hc, Frame.headSize]
  | some c =>
    simp only [Option.isSome_some, if_true, Nat.reduceMod, Nat.zero_mod]
    simp only [fieldBits_cons, fieldBits_nil, List.append_assoc, List.nil_append]
    simp (discharger := decide) only [on_bind, rd_field, Option.bind_some, on_pure]
    simp [of, hc, Frame.headSize]

theorem config_bits (h : Adts) : ∃ d, h.config = some d ∧ bitsOf d = configBits (h.profile + 1) h.freq h.channels := by
  have hw := BitCtx.WW.init [0, 0]
  obtain ⟨c, e, w, l, wr, p, _, _⟩ := BitProps.writeAll_spec [(h.profile + 1, 5), (h.freq, 4), (h.channels, 4), (0, 3)] hw (by simp [BitCtx.init, BitCtx.bitPos, fieldsWidth]) rfl
  refine ⟨c.buf, ?_, ?_⟩
  · unfold config
    simp only [BitProps.writeAll, Option.bind_eq_bind] at e
    cases h1 : (BitCtx.init [0, 0]).writeBits (h.profile + 1) 5 with
    | none => simp [h1] at e
    | some c1 =>
      simp only [h1, Option.bind_some] at e ⊢
      cases h2 : c1.writeBits h.freq 4 with
      | none => simp [h2] at e
      | some c2 =>
        simp only [h2, Option.bind_some] at e ⊢
        cases h3 : c2.writeBits h.channels 4 with
        | none => simp [h3] at e
        | some c3 =>
          simp only [h3, Option.bind_some] at e ⊢
          cases h4 : c3.writeBits 0 3 with
          | none => simp [h4] at e
          | some c4 =>
            simp only [h4, Option.bind_some, Option.some.injEq] at e ⊢
            rw [e]
  · have hl : c.buf.length = 2 := by simpa [BitCtx.init] using l
    have hp : c.bitPos = 16 := by simpa [BitCtx.bitPos, BitCtx.init, fieldsWidth] using p
    unfold BitCtx.written at wr
    rw [hp, List.take_of_length_le (by simp [hl])] at wr
    rw [wr]
    simp [BitCtx.init, BitCtx.bitPos, configBits]

end Adts

namespace AacParser

/-- The parameters announced last. -/
def last (p : AacParser) : Option Params := p.header.map fun h => ⟨h.profile, h.freq, h.channels, h.original, h.home⟩

theorem announce_same (p : AacParser) (f : Frame) (hl : p.last = some f.params) (hc : f.crc = none) :
    ∃ p', announce p (Adts.of f) = some (p', []) ∧ p'.last = some f.params := by
  unfold announce
  cases hp : p.header with
  | none => simp [last, hp] at hl
  | some old =>
    simp only [last, hp, Option.map_some, Option.some.injEq] at hl
    have : (old.eq (Adts.of f)).1 = true := by
      simp only [Adts.eq, Adts.of, hc, ← hl]; simp
    simp only [this, if_true]
    exact ⟨_, rfl, by simp [last, Adts.eq, ← hl]⟩

theorem announce_new (p : AacParser) (f : Frame) (h : ¬ (p.last = some f.params ∧ f.crc = none)) :
    ∃ p' c, announce p (Adts.of f) = some (p', [c]) ∧ p'.last = some f.params ∧
      isConfig (f.params.profile + 1) f.params.freq f.params.channels c := by
  obtain ⟨d, e, hb⟩ := Adts.config_bits (Adts.of f)
  unfold announce
  cases hp : p.header with
  | none =>
    simp only [e, Option.map_some]
    exact ⟨_, _, rfl, rfl, rfl, hb⟩
  | some old =>
    have : (old.eq (Adts.of f)).1 = false := by
      simp only [last, hp, Option.map_some] at h
      simp only [Adts.eq, decide_eq_false_iff_not]
      rintro ⟨h0, h1, h2, h3, h4, h5⟩
      apply h
      constructor
      · simp only [Adts.of] at h1 h2 h3 h4 h5; rw [h1, h2, h3, h4, h5]
      · cases hc : f.crc with
        | none => rfl
        | some c => simp [Adts.of, hc] at h0
    simp only [this, Bool.false_eq_true, if_false, e, Option.map_some]
    exact ⟨_, _, rfl, rfl, rfl, hb⟩

theorem size_at {c : BitCtx} {off : Nat} {s : List Bool} (h : At c off s) : c.size = s.length / 8 := by
  unfold BitCtx.size
  rw [h.wf.toWF8.sizeBits h.len, h.at_, h.length]

theorem head_le (f : Frame) : 7 ≤ f.headSize ∧ f.bits.length = 8 * (f.headSize + f.data.length) := by
  unfold Frame.headSize Frame.bits
  simp only [List.length_append, BitProps.fieldBits_length, bitsOf_length]
  cases f.crc with
  | none => simp [fieldsWidth]; omega
  | some c => simp only [BitProps.fieldBits_length]; simp [fieldsWidth]; omega

theorem loop_frames (ctx : CodecCtx) (ht : ctx.timebase ≠ 0) : ∀ (fs : List Frame) (fuel : Nat) (c : BitCtx) (p : AacParser)
    (out : List AVPkt) (off : Nat), (∀ f ∈ fs, f.ok) → At c off (fs.flatMap Frame.bits) → off % 8 = 0 →
    (fs.flatMap Frame.bits).length < 8 * fuel →
    ∃ p' new, loop ctx fuel c p out = some (Err.SUCCESS, p', out ++ new) ∧ emitted ctx p.last fs new ∧
      p'.last = lastParams p.last fs
  | [], fuel, c, p, out, off, _, h, _, hf => by
    obtain ⟨fuel, rfl⟩ : ∃ n, fuel = n + 1 := ⟨fuel - 1, by simp at hf; omega⟩
    refine ⟨p, [], ?_, rfl, rfl⟩
    rw [loop, if_pos (by rw [size_at h]; simp)]
    simp
  | f :: fs, 0, c, p, out, off, hok, h, ho, hf => by simp at hf
  | f :: fs, fuel + 1, c, p, out, off, hok, h, ho, hf => by
    have hfo := hok f (by simp)
    obtain ⟨h7, hlen⟩ := head_le f
    rw [List.flatMap_cons] at h hf
    rw [List.length_append, hlen] at hf
    rw [loop, if_neg (by rw [size_at h, List.length_append, hlen]; omega)]
    obtain ⟨c1, e1, a1⟩ := run_of h (Adts.decode_bits f hfo off _)
    obtain ⟨c2, e2, a2⟩ := run_of a1 (rdBytes_on f.data (off + 8 * f.headSize) _ (by omega))
    rw [e1]
    simp only [Option.bind_some]
    have hfl : (Adts.of f).frameLength = f.headSize + f.data.length := rfl
    have hhead : 7 + (if (Adts.of f).protectionAbsent = 1 then 0 else 2) = f.headSize := by
      unfold Adts.of Frame.headSize; cases f.crc <;> simp
    have tail := fun (q : AacParser) (o : List AVPkt) =>
      loop_frames ctx ht fs fuel c2 q o (off + 8 * f.headSize + 8 * f.data.length) (fun x hx => hok x (by simp [hx])) a2 (by omega) (by omega)
    by_cases hs : p.last = some f.params ∧ f.crc = none
    · obtain ⟨p1, ea, hl1⟩ := announce_same p f hs.1 hs.2
      rw [ea]
      simp only [Option.bind_some, List.append_nil]
      rw [if_neg (by rw [hfl]; omega), hhead, hfl, if_neg (by simp [ht]), show f.headSize + f.data.length - f.headSize = f.data.length by omega, e2]
      simp only [Option.bind_some]
      obtain ⟨p', new, e, hem, hlast⟩ := tail p1 (out ++ [framePkt ctx f.data])
      refine ⟨p', framePkt ctx f.data :: new, by rw [e]; simp, ?_, by rw [hlast, hl1]; rfl⟩
      unfold emitted
      rw [if_pos hs]
      rw [hl1] at hem
      exact ⟨new, rfl, hem⟩
    · obtain ⟨p1, cp, ea, hl1, hcfg⟩ := announce_new p f hs
      rw [ea]
      simp only [Option.bind_some]
      rw [if_neg (by rw [hfl]; omega), hhead, hfl, if_neg (by simp [ht]), show f.headSize + f.data.length - f.headSize = f.data.length by omega, e2]
      simp only [Option.bind_some]
      obtain ⟨p', new, e, hem, hlast⟩ := tail p1 (out ++ [cp] ++ [framePkt ctx f.data])
      refine ⟨p', cp :: framePkt ctx f.data :: new, by rw [e]; simp, ?_, by rw [hlast, hl1]; rfl⟩
      unfold emitted
      rw [if_neg hs]
      rw [hl1] at hem
      exact ⟨cp, new, rfl, hcfg, hem⟩

/-- The raw frames among what is emitted. -/
theorem emitted_frames (ctx : CodecCtx) : ∀ (fs : List Frame) (l : Option Params) (out : List AVPkt), emitted ctx l fs out →
    out.filter (fun p => !p.isAudioHeader) = fs.map fun f => framePacket ctx f.data
  | [], _, out, h => by simp only [emitted] at h; subst h; rfl
  | f :: fs, l, out, h => by
    have hfp : (framePacket ctx f.data).isAudioHeader = false := rfl
    unfold emitted at h
    split at h
    · obtain ⟨t, rfl, ht⟩ := h
      rw [List.filter_cons_of_pos (by simp [hfp]), emitted_frames ctx fs _ t ht]; rfl
    · obtain ⟨c, t, rfl, hc, ht⟩ := h
      have hch : c.isAudioHeader = true := by rw [hc.1]; rfl
      rw [List.filter_cons_of_neg (by simp [hch]), List.filter_cons_of_pos (by simp [hfp]), emitted_frames ctx fs _ t ht]; rfl

end AacParser
end Sps
