import Verif.Lemmas.TsBits
/-! # Units of an elementary stream -/
namespace Sps.PesSt
open Spec BProg

theorem stamp_value (v : Nat) (h : v < 2 ^ 33) :
    (((((v >>> 30) % 2 ^ 3) <<< 30) &&& 0x1c0000000) ||| (((v >>> 15) % 2 ^ 15) <<< 15)) ||| v % 2 ^ 15 = v := by
  simp only [Nat.shiftRight_eq_div_pow]
  have h1 : v / 2 ^ 30 < 8 := by omega
  have hm : ∀ a, a < 8 → (a <<< 30) &&& 0x1c0000000 = a <<< 30 := by decide
  rw [show v / 2 ^ 30 % 2 ^ 3 = v / 2 ^ 30 by omega, hm _ h1]
  have e1 : (v / 2 ^ 15 % 2 ^ 15) <<< 15 ||| v % 2 ^ 15 = v % 2 ^ 30 := by
    rw [← Nat.shiftLeft_add_eq_or_of_lt (by omega), Nat.shiftLeft_eq]; omega
  rw [Nat.or_assoc, e1, ← Nat.shiftLeft_add_eq_or_of_lt (by omega), Nat.shiftLeft_eq]; omega

theorem stamp_bits (tag v off : Nat) (r : List Bool) (h : v < 2 ^ 33) :
    onBits stamp off (Spec.Ts.stampBits tag v ++ r) = some (v, off + 40, r) := by
  unfold stamp Spec.Ts.stampBits
  simp only [fieldBits_cons, fieldBits_nil, List.append_assoc, List.nil_append]
  simp (discharger := decide) only [on_bind, rd_field, Option.bind_some, on_pure, stamp_value v h]

theorem optional_bits (x : Option (List UInt8)) (n : Nat) (hx : Spec.Ts.sized n x) (hn : n < 2 ^ 29) (s : PesSt)
    (k : BProg (Err × PesSt)) (off : Nat) (r : List Bool) :
    onBits (optional (Spec.Ts.flagOf x) n s k) off (Spec.Ts.optBits x ++ r) = onBits k (off + 8 * Spec.Ts.optSize x) r := by
  unfold optional Spec.Ts.flagOf Spec.Ts.optBits Spec.Ts.optSize
  cases x with
  | none => rfl
  | some d =>
    have := hx d rfl
    subst this
    simp only [Option.isSome_some, if_pos, ne_eq, Nat.one_ne_zero, not_false_eq_true, Option.getD_some]
    rw [on_acq _ hn _ _ _ (by simp), if_neg (by simp), on_skip _ d rfl]

theorem counted_bits (x : Option (List UInt8)) (u w : Nat) (hu : u + w = 8) (hx : Spec.Ts.below (2 ^ w) x) (s : PesSt)
    (k : BProg (Err × PesSt)) (off : Nat) (r : List Bool) :
    onBits (counted (Spec.Ts.flagOf x) u w s k) off (Spec.Ts.countedBits u w x ++ r) = onBits k (off + 8 * Spec.Ts.countedSize x) r := by
  unfold counted Spec.Ts.flagOf Spec.Ts.countedBits Spec.Ts.countedSize
  cases x with
  | none => rfl
  | some d =>
    have hd := hx d rfl
    have : 2 ^ w ≤ 2 ^ 8 := Nat.pow_le_pow_right (by decide) (by omega)
    simp only [Option.isSome_some, if_pos, ne_eq, Nat.one_ne_zero, not_false_eq_true, fieldBits_cons, fieldBits_nil,
      List.append_assoc, List.nil_append]
    rw [on_acq _ (by decide) _ _ _ (by simp; omega), if_neg (by simp), on_field _ _ (by omega), on_field _ _ (by omega),
      Nat.mod_eq_of_lt hd, on_acq _ (by omega) _ _ _ (by simp), if_neg (by simp), on_skip _ d rfl]
    congr 1; omega

theorem extension_bits (x : Option Spec.Ts.PesExt) (hx : ∀ y, x = some y → y.ok) (s : PesSt) (k : BProg (Err × PesSt)) (off : Nat)
    (r : List Bool) : onBits (extension (Spec.Ts.flagOf x) s k) off ((x.map Spec.Ts.PesExt.bits).getD [] ++ r) =
      onBits k (off + 8 * (x.map Spec.Ts.PesExt.size).getD 0) r := by
  cases x with
  | none => rfl
  | some y =>
    obtain ⟨h1, h2, h3, h4, h5⟩ := hx y rfl
    have hf : ∀ z : Option (List UInt8), Spec.Ts.flagOf z % 2 ^ 1 = Spec.Ts.flagOf z := by
      intro z; cases z <;> rfl
    unfold extension
    rw [if_pos (by simp [Spec.Ts.flagOf])]
    simp only [Option.map_some, Option.getD_some, Spec.Ts.PesExt.bits, fieldBits_cons, fieldBits_nil, List.append_assoc,
      List.nil_append]
    rw [on_acq _ (by decide) _ _ _ (by simp; omega), if_neg (by simp)]
    rw [on_field _ _ (by decide), on_field _ _ (by decide), on_field _ _ (by decide), on_field _ _ (by decide),
      on_field _ _ (by decide), on_field _ _ (by decide)]
    rw [hf, hf, hf, hf, hf]
    rw [optional_bits _ _ h1 (by decide), counted_bits _ _ _ (by decide) h2, optional_bits _ _ h3 (by decide),
      optional_bits _ _ h4 (by decide), counted_bits _ _ _ (by decide) h5]
    unfold Spec.Ts.PesExt.size
    congr 1; omega

theorem dump_bits (s : PesSt) (x d : List UInt8) (off : Nat) (hb : s.buf = some x) (ho : off % 8 = 0)
    (hc : x.length + d.length ≤ s.cap) (hl : s.len = 0 ∨ s.len = s.cap) (h32 : s.cap < 2 ^ 32) :
    onBits s.dump off (bitsOf d) = some ((Err.SUCCESS, { s with buf := some (x ++ d) }), off + 8 * d.length, []) := by
  unfold dump
  rw [hb]
  dsimp only
  have hsz : ∀ o, onBits rdSize o (bitsOf d) = some (d.length, o, bitsOf d) := by
    intro o; unfold rdSize; rw [on_size]; simp [on_ret]
  have hsz0 : ∀ o, onBits rdSize o [] = some (0, o, []) := by intro o; rfl
  rw [on_bind, hsz]
  simp only [Option.bind_some]
  have hleft : (if s.len > 0 then min (subSz s.len x.length) d.length else d.length) = d.length := by
    unfold subSz
    split
    · rcases hl with h | h
      · omega
      · rw [h]; omega
    · rfl
  rw [hleft, if_neg (by rw [sub32_le (by omega) h32]; omega)]
  have hrb := rdBytes_on d off [] ho
  rw [List.append_nil] at hrb
  rw [on_bind, hrb]
  simp only [Option.bind_some, on_bind, hsz0]
  rfl

theorem finish_bits (s : PesSt) (x d stuffing : List UInt8) (p0 y : Nat) (hlen : Nat) (hh : hlen = y + stuffing.length)
    (h256 : hlen < 256) (hb : s.buf = some x)
    (hc : x.length + d.length ≤ s.cap) (hl : s.len = 0 ∨ s.len = s.cap) (h32 : s.cap < 2 ^ 32) :
    ∃ o, onBits (finish s hlen (p0 : Nat)) (8 * (p0 + y)) (bitsOf stuffing ++ bitsOf d) =
      some ((Err.SUCCESS, { s with buf := some (x ++ d) }), o, []) := by
  unfold finish
  rw [on_pos]
  rw [show (8 * (p0 + y)) / 8 = p0 + y by omega]
  have e : (hlen : Int) - (((p0 + y : Nat) : Int) - (p0 : Int)) = (stuffing.length : Nat) := by omega
  dsimp only
  rw [e, on_acq _ (by omega) _ _ _ (by simp; omega), if_neg (by simp), u64_nat (by omega), on_skip _ stuffing rfl]
  exact ⟨_, dump_bits s x d _ hb (by omega) hc hl h32⟩

theorem stamps_bits (h : Spec.Ts.PesHead) (hok : h.ok) (s : PesSt) (k : PesSt → BProg (Err × PesSt)) (off : Nat) (r : List Bool) :
    onBits (stamps h.stampFlags s k) off (h.stamps ++ r) =
      onBits (k { s with pts := h.ptsOf, dts := h.dtsOf }) (off + 8 * h.stampSize) r := by
  have hp := hok.pts
  have hd := hok.dts
  unfold stamps Spec.Ts.PesHead.stampFlags Spec.Ts.PesHead.stamps Spec.Ts.PesHead.ptsOf Spec.Ts.PesHead.dtsOf
    Spec.Ts.PesHead.stampSize
  cases e1 : h.pts with
  | none => dsimp only; rw [if_neg (by decide)]; rfl
  | some t =>
    have ht := hp t e1
    have hlen : ∀ tag v, (Spec.Ts.stampBits tag v).length = 40 := by intro tag v; simp [Spec.Ts.stampBits, fieldBits]
    cases e2 : h.dts with
    | none =>
      dsimp only
      rw [if_pos (by decide), on_bind, acq_on _ _ _ (by decide) (by rw [List.length_append, hlen]; omega)]
      simp only [Option.bind_some]
      rw [if_neg (by simp), on_bind, stamp_bits _ _ _ _ ht]
      rfl
    | some u =>
      have hu := hd u e2
      dsimp only
      rw [if_pos (by decide), on_bind, acq_on _ _ _ (by decide) (by rw [List.length_append, List.length_append, hlen]; omega)]
      simp only [Option.bind_some]
      rw [if_neg (by simp), on_bind, List.append_assoc, stamp_bits _ _ _ _ ht]
      simp only [Option.bind_some]
      rw [if_pos trivial, on_bind, acq_on _ _ _ (by decide) (by rw [List.length_append, hlen]; omega)]
      simp only [Option.bind_some]
      rw [if_neg (by simp), on_bind, stamp_bits _ _ _ _ hu]
      rfl

theorem room_lt (h : Spec.Ts.PesHead) (hok : h.ok) : Spec.Ts.room h < 2 ^ 32 := by
  have := hok.len; unfold Spec.Ts.room; split <;> omega

/-- A unit start with a standard header. -/
theorem start_bits (h : Spec.Ts.PesHead) (hok : h.ok) (s : PesSt) (d : List UInt8) (hd : d.length ≤ Spec.Ts.room h) (b : Nat) :
    ∃ o, onBits s.start (8 * b) (h.bits ++ bitsOf d) = some ((Err.SUCCESS,
      { s with buf := some d, len := h.len, cap := Spec.Ts.room h, pts := h.ptsOf, dts := h.dtsOf }), o, []) := by
  unfold start Spec.Ts.PesHead.bits
  simp only [fieldBits_cons, fieldBits_nil, List.append_assoc, List.nil_append]
  simp (discharger := decide) only [on_bind, rd_field, Option.bind_some, Nat.mod_eq_of_lt hok.sid, Nat.mod_eq_of_lt hok.len]
  rw [if_neg (by decide)]
  have hm := hok.media
  rw [if_neg (fun e => hm (by rw [e]; decide)), if_neg (fun e => hm (by revert e; unfold plainIds Spec.Ts.otherIds; simp; omega))]
  unfold header
  have hf : ∀ {α : Type} (z : Option α), Spec.Ts.flagOf z % 2 ^ 1 = Spec.Ts.flagOf z := by
    intro α z; cases z <;> rfl
  have hsf : h.stampFlags % 2 ^ 2 = h.stampFlags := by
    unfold Spec.Ts.PesHead.stampFlags; split <;> rfl
  simp (discharger := decide) only [on_field, hf, hsf, Nat.mod_eq_of_lt (show h.dataLength < 2 ^ 8 from hok.room)]
  rw [on_pos, show 8 * b + 24 + 8 + 16 + 2 + 2 + 1 + 1 + 1 + 1 + 2 + 1 + 1 + 1 + 1 + 1 + 1 + 8 = 8 * (b + 9) by omega,
    show 8 * (b + 9) / 8 = b + 9 by omega]
  rw [stamps_bits h hok, optional_bits _ _ hok.escr (by decide), optional_bits _ _ hok.rate (by decide),
    optional_bits _ _ hok.trick (by decide), optional_bits _ _ hok.copy (by decide), optional_bits _ _ hok.crc (by decide),
    extension_bits _ hok.ext]
  rw [show 8 * (b + 9) + 8 * h.stampSize + 8 * Spec.Ts.optSize h.escr + 8 * Spec.Ts.optSize h.rate + 8 * Spec.Ts.optSize h.trick +
    8 * Spec.Ts.optSize h.copy + 8 * Spec.Ts.optSize h.crc + 8 * (Option.map Spec.Ts.PesExt.size h.ext).getD 0 = 8 * ((b + 9) +
      (h.stampSize + Spec.Ts.optSize h.escr + Spec.Ts.optSize h.rate + Spec.Ts.optSize h.trick +
    Spec.Ts.optSize h.copy + Spec.Ts.optSize h.crc + (Option.map Spec.Ts.PesExt.size h.ext).getD 0)) by omega]
  have hmod : h.len % 2 ^ 16 = h.len := Nat.mod_eq_of_lt hok.len
  have hinit : s.init h.len = { s with buf := some [], len := h.len, cap := Spec.Ts.room h, pts := -1, dts := -1 } := by
    unfold init Spec.Ts.room; rw [hmod]
  rw [hinit]
  obtain ⟨o, e⟩ := finish_bits
    { s with buf := some [], len := h.len, cap := Spec.Ts.room h, pts := h.ptsOf, dts := h.dtsOf } [] d h.stuffing (b + 9)
    (h.stampSize + Spec.Ts.optSize h.escr + Spec.Ts.optSize h.rate + Spec.Ts.optSize h.trick +
    Spec.Ts.optSize h.copy + Spec.Ts.optSize h.crc + (Option.map Spec.Ts.PesExt.size h.ext).getD 0) h.dataLength rfl hok.room rfl
    (by simpa using hd) (by
      show h.len = 0 ∨ h.len = Spec.Ts.room h
      unfold Spec.Ts.room; split
      · exact .inr rfl
      · left; omega) (room_lt h hok)
  exact ⟨o, e⟩

end Sps.PesSt
