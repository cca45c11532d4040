import Verif.Lemmas.WriteBuf
import Verif.Lemmas.Flv
/-! # Lemmas for the FLV muxer -/
namespace Sps.FlvMuxer
open Spec ByteProg Writer

theorem low_eq (k : Nat) (x : Int) : low k x = Flv.bits k x := rfl

theorem bits_lt (k : Nat) (x : Int) : Flv.bits k x < 2 ^ k := by
  unfold Flv.bits
  have h : (0 : Int) < 2 ^ k := by positivity
  have h1 := Int.emod_nonneg x (ne_of_gt h)
  have h2 := Int.emod_lt_of_pos x h
  have : ((x % 2 ^ k).toNat : Int) < ((2 ^ k : Nat) : Int) := by rw [Int.toNat_of_nonneg h1]; push_cast; exact h2
  exact_mod_cast this

theorem bits24_dts (x : Int) : Flv.bits 24 x = Flv.bits 32 x % 2 ^ 24 := by
  unfold Flv.bits; omega

theorem bits_trunc (x : Int) : Flv.bits 32 x % 256 ^ 3 = Flv.bits 24 x := by
  unfold Flv.bits; omega

theorem size_bytes (n : Nat) :
    [UInt8.ofNat (n >>> 16), UInt8.ofNat ((n &&& 0xffff) >>> 8), UInt8.ofNat (n &&& 0xff)] = beBytes 3 n := by
  have a1 : n &&& 0xffff = n % 2 ^ 16 := Nat.and_two_pow_sub_one_eq_mod _ 16
  have a2 : n &&& 0xff = n % 2 ^ 8 := Nat.and_two_pow_sub_one_eq_mod _ 8
  rw [a1, a2, Nat.shiftRight_eq_div_pow, Nat.shiftRight_eq_div_pow]
  have h : ∀ a b : Nat, a % 256 = b % 256 → UInt8.ofNat a = UInt8.ofNat b := by
    intro a b hab
    apply UInt8.toNat_inj.1
    simpa using hab
  simp only [beBytes, List.cons_append, List.nil_append]
  rw [h (n % 2 ^ 16 / 2 ^ 8) (n / 256 ^ 1) (by omega), h (n % 2 ^ 8) (n / 256 ^ 0) (by omega)]

theorem isCommand_iff (x : Int) : (low 8 x &&& 0xf0 ≠ 0x50) ↔ ¬ (Flv.isCommand (Flv.bits 8 x) = true) := by
  rw [Ne, low_eq, FlvDemuxer.and_f0 _ (bits_lt 8 x)]

/-- The sub-header of a packet: the body without the payload. -/
def subOf (p : AVPkt) : List UInt8 :=
  match p.stream with
  | .audio => beBytes 1 (Flv.bits 8 p.flags) ++ beBytes 1 (Flv.bits 8 p.pktType)
  | .video =>
    if Flv.isCommand (Flv.bits 8 p.flags) then beBytes 1 (Flv.bits 8 p.flags)
    else beBytes 1 (Flv.bits 8 p.flags) ++ beBytes 1 (Flv.bits 8 p.pktType) ++ beBytes 3 (Flv.bits 24 (p.pts - p.dts))
  | _ => []

theorem body_eq (p : AVPkt) : Flv.body p = subOf p ++ p.payload := by
  unfold Flv.body subOf
  cases p.stream <;> simp
  split <;> simp

theorem subOf_length (p : AVPkt) : (subOf p).length ≤ 5 := by
  unfold subOf
  cases p.stream <;> simp [beBytes_length]
  split <;> simp [beBytes_length]

theorem writeSub_spec {w : Writer} {old d : List UInt8} (h : Wrote w old d) (p : AVPkt) (hl : d.length + 5 ≤ old.length) :
    ∃ w', writeSub w p = some (w', (subOf p).length) ∧ Wrote w' old (d ++ subOf p) := by
  unfold writeSub subOf
  cases hs : p.stream
  case video =>
    simp only [low_eq]
    obtain ⟨w1, e1, h1⟩ := h.bytes (beBytes 1 (Flv.bits 8 p.flags)) (by simp [beBytes_length]; omega)
    rw [wint8_eq, e1]
    simp only [Option.bind_eq_bind, Option.bind_some]
    by_cases hc : Flv.isCommand (Flv.bits 8 p.flags) = true
    · have hn : ¬ (Flv.bits 8 p.flags &&& 0xf0 ≠ 0x50) := by have := isCommand_iff p.flags; rw [low_eq] at this; rw [this]; simpa using hc
      simp only [if_neg hn, if_pos hc]
      exact ⟨w1, by simp [beBytes_length, not_not.1 hn], h1⟩
    · have hn : Flv.bits 8 p.flags &&& 0xf0 ≠ 0x50 := by have := isCommand_iff p.flags; rw [low_eq] at this; rw [this]; exact hc
      simp only [if_pos hn, if_neg hc]
      obtain ⟨w2, e2, h2⟩ := h1.bytes (beBytes 1 (Flv.bits 8 p.pktType)) (by simp [beBytes_length]; omega)
      obtain ⟨w3, e3, h3⟩ := h2.bytes (beBytes 3 (Flv.bits 24 (p.pts - p.dts))) (by simp [beBytes_length]; omega)
      have hb : beBytes 3 (Flv.bits 32 (p.pts - p.dts)) = beBytes 3 (Flv.bits 24 (p.pts - p.dts)) := by
        rw [← bits_trunc, beBytes_mod _ _ _ (Nat.dvd_refl _)]
      rw [wint8_eq, e2]
      simp only [Option.bind_some]
      rw [wint24_eq, hb, e3]
      exact ⟨w3, by simp [beBytes_length]; exact hn, by simpa [List.append_assoc] using h3⟩
  case audio =>
    simp only [low_eq]
    obtain ⟨w1, e1, h1⟩ := h.bytes (beBytes 1 (Flv.bits 8 p.flags)) (by simp [beBytes_length]; omega)
    obtain ⟨w2, e2, h2⟩ := h1.bytes (beBytes 1 (Flv.bits 8 p.pktType)) (by simp [beBytes_length]; omega)
    rw [wint8_eq, e1]
    simp only [Option.bind_eq_bind, Option.bind_some]
    rw [wint8_eq, e2]
    exact ⟨w2, by simp [beBytes_length], by simpa [List.append_assoc] using h2⟩
  all_goals exact ⟨w, rfl, by simpa using h⟩

theorem writeHead_spec (m : FlvMuxer) (p : AVPkt) (ty : Nat) (hm : m.tag.length = 29)
    (hn : (Flv.body p).length < 2 ^ 24) :
    ∃ w, writeHead m p ty = some (w, (Flv.body p).length) ∧ w.mem.length = 29 ∧
      w.mem.take w.fin ++ p.payload = Flv.tag m.prev ty (Flv.bits 32 p.dts) (Flv.body p) := by
  unfold writeHead
  obtain ⟨w1, e1, h1⟩ := (Wrote.init m.tag).bytes (beBytes 4 m.prev) (by simp [beBytes_length]; omega)
  obtain ⟨w2, e2, h2⟩ := h1.bytes (beBytes 1 ty) (by simp [beBytes_length]; omega)
  have h3 := h2.skip 3 (by simp [beBytes_length]; omega)
  obtain ⟨old, hold, hol⟩ : ∃ o : List UInt8, (m.tag.drop (([] ++ beBytes 4 m.prev) ++ beBytes 1 ty).length).take 3 = o ∧ o.length = 3 :=
    ⟨_, rfl, by simp [beBytes_length]; omega⟩
  rw [hold] at h3
  obtain ⟨w4, e4, h4⟩ := h3.bytes (beBytes 3 (Flv.bits 24 p.dts)) (by simp [beBytes_length]; omega)
  obtain ⟨w5, e5, h5⟩ := h4.bytes (beBytes 1 (Flv.bits 32 p.dts / 2 ^ 24)) (by simp [beBytes_length]; omega)
  obtain ⟨w6, e6, h6⟩ := h5.bytes (beBytes 3 0) (by simp [beBytes_length]; omega)
  obtain ⟨w7, e7, h7⟩ := writeSub_spec h6 p (by simp [beBytes_length]; omega)
  have h8 : Wrote w7 m.tag ((beBytes 4 m.prev ++ beBytes 1 ty) ++ old ++
      (beBytes 3 (Flv.bits 24 p.dts) ++ beBytes 1 (Flv.bits 32 p.dts / 2 ^ 24) ++ beBytes 3 0 ++ subOf p)) := by
    simpa [List.append_assoc] using h7
  obtain ⟨w8, e8, h9⟩ := h8.poke (beBytes 3 (Flv.body p).length) (by simp [beBytes_length, hol])
  have hfin : w2.fin = (beBytes 4 m.prev ++ beBytes 1 ty).length := by rw [h2.fin]; simp
  have hlen : (p.payload.length + (subOf p).length) % 2 ^ 32 = (Flv.body p).length := by
    rw [body_eq] at hn ⊢
    simp only [List.length_append] at hn ⊢
    omega
  refine ⟨w8, ?_, by rw [h9.length, hm], ?_⟩
  · simp only [wint32_eq, wint8_eq, wint24_eq, e1, e2, e4, e5, e6, e7, Option.bind_eq_bind, Option.bind_some, low_eq, hlen,
      size_bytes]
    rw [hfin, e8]
    rfl
  · rw [h9.take]
    unfold Flv.tag
    rw [bits24_dts, body_eq]
    simp [List.append_assoc]

theorem tagType_eq {st : StreamType} (h : st = .audio ∨ st = .video ∨ st = .subtitle) : tagType st = some (Flv.typeOf st) := by
  rcases h with rfl | rfl | rfl <;> rfl

theorem carries_iff (p : AVPkt) : Flv.carries p = true ↔ p.stream = .audio ∨ p.stream = .video ∨ p.stream = .subtitle := by
  unfold Flv.carries
  simp [or_assoc]

theorem write_cases (s : Sink) (d : List UInt8) :
    ((s.write d).1 = Err.SUCCESS ∧ (s.write d).2.out = s.out ++ d) ∨
    ((s.write d).1 ≠ Err.SUCCESS ∧ (s.write d).2.out = s.out) := by
  unfold Sink.write
  cases s.fails with
  | nil => simp
  | cons e fs =>
    by_cases he : e = Err.SUCCESS
    · simp [he]
    · simp only [if_neg he]; exact .inr ⟨he, trivial⟩

theorem write_ok (s : Sink) (d : List UInt8) (h : s.fails = []) : s.write d = (Err.SUCCESS, { s with out := s.out ++ d }) := by
  unfold Sink.write; rw [h]

/-- A writer in whose good states (`Q`) a write appends the data, or fails with one of `E` and appends a part of it; in its live states it
does not fail. -/
structure Appends {σ : Type} (write : σ → List UInt8 → Err × σ) (out : σ → List UInt8) (Q live : σ → Prop) (E : Err → Prop) : Prop where
  pre : ∀ s d, Q s → ∃ sent, out (write s d).2 = out s ++ sent ∧ sent <+: d ∧
    ((write s d).1 = Err.SUCCESS → sent = d ∧ Q (write s d).2) ∧ ((write s d).1 ≠ Err.SUCCESS → E (write s d).1)
  live : ∀ s d, Q s → live s → (write s d).1 = Err.SUCCESS ∧ live (write s d).2

theorem appends_sink : Appends Sink.write Sink.out (fun _ => True) (fun s => s.fails = []) (fun _ => True) where
  pre := by
    intro s d _
    rcases write_cases s d with ⟨a, b⟩ | ⟨a, b⟩
    · exact ⟨d, b, List.prefix_refl _, fun _ => ⟨rfl, trivial⟩, fun _ => trivial⟩
    · exact ⟨[], by rw [b]; simp, by simp, fun h => absurd h a, fun _ => trivial⟩
  live := by
    intro s d _ h
    rw [write_ok s d h]
    exact ⟨rfl, h⟩

/-- Muxing: what was written is a prefix of the chain of the unfiltered packets, all of it on success. -/
theorem writePacketsTo_spec {σ : Type} {write : σ → List UInt8 → Err × σ} {out : σ → List UInt8} {Q live : σ → Prop} {E : Err → Prop}
    (hw : Appends write out Q live E) (hE : E Err.ERROR_FLV_UNKNOWN_TAG_TYPE) (ps : List AVPkt) (m : FlvMuxer) (snk : σ)
    (hm : m.tag.length = 29) (hq : Q snk) (hp : ∀ p ∈ ps, (Flv.body p).length < 2 ^ 24) :
    ∃ e m' snk' sent, writePacketsTo write m ps snk = some (e, m', snk') ∧ out snk' = out snk ++ sent ∧
      sent <+: Flv.chain m.prev (ps.filter fun p => !m.filtered p.stream) ∧
      (e = Err.SUCCESS → sent = Flv.chain m.prev (ps.filter fun p => !m.filtered p.stream) ∧ Q snk' ∧ m'.tag.length = 29 ∧
        m'.filtered = m.filtered ∧
        ∀ qs, Flv.chain m.prev (ps.filter (fun p => !m.filtered p.stream) ++ qs) =
          Flv.chain m.prev (ps.filter fun p => !m.filtered p.stream) ++ Flv.chain m'.prev qs) ∧
      (e ≠ Err.SUCCESS → E e) ∧
      ((∀ p ∈ ps, Flv.carries p = true) → live snk → e = Err.SUCCESS ∧ live snk') := by
  induction ps generalizing m snk with
  | nil => exact ⟨_, m, snk, [], rfl, by simp, by simp, fun _ => ⟨by simp [Flv.chain], hq, hm, rfl, by simp [Flv.chain]⟩,
      fun h => absurd rfl h, fun _ h => ⟨rfl, h⟩⟩
  | cons p ps ih =>
    have hl := hp p (by simp)
    have hps : ∀ q ∈ ps, (Flv.body q).length < 2 ^ 24 := fun q hq => hp q (by simp [hq])
    by_cases hc : Flv.carries p = true
    case neg =>
      have ht : tagType p.stream = none := by
        unfold Flv.carries at hc
        cases hs : p.stream <;> simp [hs] at hc <;> rfl
      simp only [writePacketsTo, writePacketTo, ht, Option.bind_eq_bind, Option.bind_some]
      rw [if_pos (by decide)]
      exact ⟨_, m, snk, [], rfl, by simp, by simp, fun h => absurd h (by decide), fun _ => hE,
        fun h => absurd (h p (by simp)) hc⟩
    have ht := tagType_eq ((carries_iff p).1 hc)
    simp only [writePacketsTo, writePacketTo, ht]
    by_cases hf : m.filtered p.stream = true
    · rw [if_pos hf]
      simp only [Option.bind_eq_bind, Option.bind_some]
      obtain ⟨e, m', snk', sent, a1, a2, a3, a4, a6, a5⟩ := ih m snk hm hq hps
      refine ⟨e, m', snk', sent, ?_, a2, ?_, ?_, a6, fun h => a5 fun q hq => h q (by simp [hq])⟩
      · simpa using a1
      · simpa [List.filter_cons, hf] using a3
      · simpa [List.filter_cons, hf] using a4
    · rw [if_neg hf]
      obtain ⟨w, e1, hw29, hout⟩ := writeHead_spec m p (Flv.typeOf p.stream) hm hl
      have hflt : (p :: ps).filter (fun p => !m.filtered p.stream) = p :: ps.filter (fun p => !m.filtered p.stream) := by
        simp [List.filter_cons, hf]
      rw [hflt]
      simp only [e1, Option.bind_eq_bind, Option.bind_some, Flv.chain, List.cons_append]
      rw [← hout]
      obtain ⟨x1, s2, s3, s4, s5⟩ := hw.pre snk (w.mem.take w.fin) hq
      by_cases s1 : (write snk (w.mem.take w.fin)).1 = Err.SUCCESS
      · obtain ⟨rfl, q1⟩ := s4 s1
        rw [if_neg (by simpa using s1)]
        obtain ⟨x2, t2, t3, t4, t5⟩ := hw.pre (write snk (w.mem.take w.fin)).2 p.payload q1
        by_cases t1 : (write (write snk (w.mem.take w.fin)).2 p.payload).1 = Err.SUCCESS
        · obtain ⟨rfl, q2⟩ := t4 t1
          rw [if_neg (by simpa using t1)]
          simp only [t1, Option.pure_def, Option.bind_some]
          rw [if_neg (by simp)]
          obtain ⟨e, m', snk', sent, a1, a2, a3, a4, a6, a5⟩ :=
            ih { m with tag := w.mem, prev := (11 + (Flv.body p).length) % 2 ^ 32 }
              (write (write snk (w.mem.take w.fin)).2 p.payload).2 hw29 q2 hps
          have hmod : (11 + (Flv.body p).length) % 2 ^ 32 = 11 + (Flv.body p).length := by omega
          refine ⟨e, m', snk', w.mem.take w.fin ++ p.payload ++ sent, a1, ?_, ?_, ?_, a6, ?_⟩
          · rw [a2, t2, s2]; simp [List.append_assoc]
          · simp only [hmod] at a3
            exact (List.prefix_append_right_inj _).2 a3
          · intro he
            have := a4 he
            simp only [hmod] at this
            refine ⟨by rw [this.1]; rfl, this.2.1, this.2.2.1, this.2.2.2.1, ?_⟩
            intro qs
            have h5 := this.2.2.2.2 qs
            show _ ++ Flv.chain _ (ps.filter (fun p => !m.filtered p.stream) ++ qs) = _
            have h6 : Flv.chain (11 + (Flv.body p).length) (ps.filter (fun p => !m.filtered p.stream) ++ qs) =
              Flv.chain (11 + (Flv.body p).length) (ps.filter (fun p => !m.filtered p.stream)) ++ Flv.chain m'.prev qs := h5
            rw [h6]
            simp only [List.append_assoc]
          · intro hcs hlv
            apply a5 (fun q hq => hcs q (by simp [hq]))
            exact (hw.live _ _ q1 (hw.live _ _ hq hlv).2).2
        · rw [if_pos (by simpa using t1)]
          simp only [Option.pure_def, Option.bind_some]
          rw [if_pos (by simpa using t1)]
          refine ⟨_, _, _, w.mem.take w.fin ++ x2, rfl, by rw [t2, s2, List.append_assoc], ?_, fun he => absurd he t1, t5, ?_⟩
          · rw [List.append_assoc]
            exact (List.prefix_append_right_inj _).2 (t3.trans (List.prefix_append _ _))
          · intro _ hlv
            exact absurd (hw.live _ _ q1 (hw.live _ _ hq hlv).2).1 t1
      · rw [if_pos (by simpa using s1)]
        simp only [Option.pure_def, Option.bind_some]
        rw [if_pos (by simpa using s1)]
        refine ⟨_, _, _, x1, rfl, s2, ?_, fun he => absurd he s1, s5, ?_⟩
        · rw [List.append_assoc]; exact s3.trans (List.prefix_append _ _)
        · intro _ hlv
          exact absurd (hw.live _ _ hq hlv).1 s1

/-- Muxing into a sink: what was written is a prefix of the chain of the unfiltered packets, all of it on success. -/
theorem writePackets_spec (ps : List AVPkt) (m : FlvMuxer) (snk : Sink) (hm : m.tag.length = 29)
    (hp : ∀ p ∈ ps, Flv.carries p = true ∧ (Flv.body p).length < 2 ^ 24) :
    ∃ e m' snk' sent, writePackets m ps snk = some (e, m', snk') ∧ snk'.out = snk.out ++ sent ∧
      sent <+: Flv.chain m.prev (ps.filter fun p => !m.filtered p.stream) ∧
      (e = Err.SUCCESS → sent = Flv.chain m.prev (ps.filter fun p => !m.filtered p.stream)) ∧
      (snk.fails = [] → e = Err.SUCCESS) := by
  obtain ⟨e, m', snk', sent, a1, a2, a3, a4, -, a5⟩ :=
    writePacketsTo_spec appends_sink trivial ps m snk hm trivial (fun p h => (hp p h).2)
  exact ⟨e, m', snk', sent, a1, a2, a3, fun h => (a4 h).1, fun h => (a5 (fun p h => (hp p h).1) h).1⟩

end Sps.FlvMuxer

namespace Sps.FlvDemuxer
open Spec

theorem beVal_take_beBytes (w v : Nat) (r : List UInt8) (h : v < 256 ^ w) : beVal ((beBytes w v ++ r).take w) = v := by
  rw [List.take_append_of_le_length (by simp [beBytes_length]), List.take_of_length_le (by simp [beBytes_length]),
    beVal_beBytes, Nat.mod_eq_of_lt h]

theorem drop_be (w v k : Nat) (r : List UInt8) (h : w ≤ k) : (beBytes w v ++ r).drop k = r.drop (k - w) := by
  rw [List.drop_append, List.drop_of_length_le (by simp [beBytes_length]; exact h)]
  simp [beBytes_length]

theorem firstTag_tag (cap : Nat) (closed : Err) (prev ty ts : Nat) (b rest : List UInt8) (hty : ty < 256) (hts : ts < 2 ^ 32)
    (hb : b.length ≤ cap) (hb2 : b.length < 2 ^ 24) :
    Flv.firstTag cap closed (Flv.tag prev ty ts b ++ rest) = (Flv.judge ty ts b, rest) := by
  unfold Flv.firstTag Flv.tag
  simp only [List.append_assoc]
  rw [if_neg (by simp [beBytes_length]; omega)]
  simp only [drop_be _ _ _ _ (show 4 ≤ 4 by omega), drop_be _ _ _ _ (show 4 ≤ 5 by omega), drop_be _ _ _ _ (show 4 ≤ 8 by omega),
    drop_be _ _ _ _ (show 4 ≤ 11 by omega), drop_be _ _ _ _ (show 4 ≤ 15 by omega), Nat.sub_self, Nat.reduceSub, List.drop_zero]
  simp only [drop_be _ _ _ _ (show 1 ≤ 1 by omega), drop_be _ _ _ _ (show 1 ≤ 4 by omega), drop_be _ _ _ _ (show 1 ≤ 7 by omega),
    drop_be _ _ _ _ (show 1 ≤ 11 by omega), Nat.sub_self, Nat.reduceSub, List.drop_zero]
  simp only [drop_be _ _ _ _ (show 3 ≤ 3 by omega), drop_be _ _ _ _ (show 3 ≤ 6 by omega), drop_be _ _ _ _ (show 3 ≤ 10 by omega),
    Nat.sub_self, Nat.reduceSub, List.drop_zero]
  simp only [drop_be _ _ _ _ (show 3 ≤ 3 by omega), drop_be _ _ _ _ (show 3 ≤ 7 by omega), Nat.sub_self, Nat.reduceSub, List.drop_zero]
  simp only [drop_be _ _ _ _ (show 1 ≤ 4 by omega), Nat.reduceSub, drop_be _ _ _ _ (show 3 ≤ 3 by omega), Nat.sub_self, List.drop_zero]
  rw [beVal_take_beBytes 3 b.length _ (by omega), if_neg (by omega), if_neg (by simp)]
  rw [beVal_take_beBytes 1 ty _ (by omega), beVal_take_beBytes 3 _ _ (by omega), beVal_take_beBytes 1 _ _ (by omega)]
  rw [List.take_append_of_le_length (Nat.le_refl _), List.take_length, List.drop_left]
  congr 2
  omega

theorem signed_bits (k : Nat) (x : Int) (hk : k = 24) (h1 : -2 ^ 23 ≤ x) (h2 : x < 2 ^ 23) : Flv.signed k (Flv.bits k x) = x := by
  subst hk
  unfold Flv.signed Flv.bits
  split <;> omega

theorem bits8_nat (fl : Nat) (h : fl < 256) : Flv.bits 8 (fl : Int) = fl := by unfold Flv.bits; omega
theorem bits8_int (x : Int) (h : 0 ≤ x) (h2 : x < 256) : ((Flv.bits 8 x : Nat) : Int) = x := by unfold Flv.bits; omega
theorem bits32_int (x : Int) (h : 0 ≤ x) (h2 : x < 2 ^ 32) : ((Flv.bits 32 x : Nat) : Int) = x := by unfold Flv.bits; omega

theorem be1 (v : Nat) : beBytes 1 v = [UInt8.ofNat v] := by simp [beBytes]

theorem judge_body {cap : Nat} {p : AVPkt} (h : Flv.Supported cap p) :
    Flv.judge (Flv.typeOf p.stream) (Flv.bits 32 p.dts) (Flv.body p) = .accept p := by
  have hdts := bits32_int p.dts h.dts.1 h.dts.2
  have hpay := h.payload
  obtain ⟨msg, stream, pktType, payload, dts, pts, flags, codec⟩ := p
  have hmsg := h.msg
  simp only at hmsg hdts hpay
  subst hmsg
  rcases h.format with ⟨hs, ⟨fl, hf, hf1, hf2⟩, hcod, hpt, hpts⟩ | ⟨hs, fl, hf, hf1, hcod, hf2, hcmd⟩ | ⟨hs, hf, hcod, hpt, hpts⟩
  · simp only at hs hf hcod hpt hpts
    subst hs hf hcod
    have e1 : (UInt8.ofNat (Flv.bits 8 (fl : Int))).toNat = fl := by rw [bits8_nat fl hf1]; simpa using hf1
    have e2 : (((UInt8.ofNat (Flv.bits 8 pktType)).toNat : Nat) : Int) = pktType := by
      have := bits8_int pktType hpt.1 hpt.2
      have hl := FlvMuxer.bits_lt 8 pktType
      have : (UInt8.ofNat (Flv.bits 8 pktType)).toNat = Flv.bits 8 pktType := by simpa using hl
      rw [this]; assumption
    cases payload with
    | nil => exact absurd rfl hpay
    | cons x xs =>
      simp only [Flv.body, Flv.typeOf, be1, Flv.judge, if_true, List.cons_append, List.nil_append, e1, hf2, e2, hdts, hpts]
      simp
  · simp only at hs hf hcod hcmd
    subst hs hf hcod
    have e1 : (UInt8.ofNat (Flv.bits 8 (fl : Int))).toNat = fl := by rw [bits8_nat fl hf1]; simpa using hf1
    have hcd : ¬ (fl % 16 ≠ 7 ∧ fl % 16 ≠ 12) := by omega
    by_cases hcm : Flv.isCommand fl = true
    · rw [if_pos hcm] at hcmd
      simp only [Flv.body, Flv.typeOf, Flv.judge, bits8_nat fl hf1, hcm, be1, if_true, List.cons_append, List.nil_append]
      rw [bits8_nat fl hf1] at e1
      simp only [e1, hcm, hdts, hcmd.1, hcmd.2, if_neg hcd, if_true, if_neg hpay]
      simp
    · rw [if_neg hcm] at hcmd
      obtain ⟨c1, c2, c3, c4⟩ := hcmd
      have e2 : (((UInt8.ofNat (Flv.bits 8 pktType)).toNat : Nat) : Int) = pktType := by
        have := bits8_int pktType c1 c2
        have hl := FlvMuxer.bits_lt 8 pktType
        have : (UInt8.ofNat (Flv.bits 8 pktType)).toNat = Flv.bits 8 pktType := by simpa using hl
        rw [this]; assumption
      have e3 : beBytes 3 (Flv.bits 24 (pts - dts)) =
          [UInt8.ofNat (Flv.bits 24 (pts - dts) / 256 ^ 2), UInt8.ofNat (Flv.bits 24 (pts - dts) / 256 ^ 1),
           UInt8.ofNat (Flv.bits 24 (pts - dts) / 256 ^ 0)] := by simp [beBytes]
      have e4 : Flv.signed 24 (beVal (beBytes 3 (Flv.bits 24 (pts - dts)))) = pts - dts := by
        rw [beVal_beBytes, Nat.mod_eq_of_lt (by have := FlvMuxer.bits_lt 24 (pts - dts); omega)]
        exact signed_bits 24 _ rfl c3 c4
      rw [bits8_nat fl hf1] at e1
      simp only [Flv.body, Flv.typeOf, Flv.judge, bits8_nat fl hf1, if_neg hcm, be1, List.cons_append, List.nil_append,
        Nat.reduceEqDiff, if_false, if_true]
      rw [e3] at e4 ⊢
      revert e4
      generalize UInt8.ofNat (Flv.bits 24 (pts - dts) / 256 ^ 2) = x
      generalize UInt8.ofNat (Flv.bits 24 (pts - dts) / 256 ^ 1) = y
      generalize UInt8.ofNat (Flv.bits 24 (pts - dts) / 256 ^ 0) = z
      intro e4
      have e5 : dts + (pts - dts) = pts := by omega
      simp only [List.cons_append, List.nil_append, e1, if_neg hcm, if_neg hcd, e4, e2, hdts, if_neg hpay, e5]
  · simp only at hs hf hcod hpt hpts
    subst hs hf hcod hpt hpts
    simp only [Flv.body, Flv.typeOf, Flv.judge, hdts, if_neg hpay]
    simp

theorem packets_chain (cap : Nat) (closed : Err) (ps : List AVPkt) (prev : Nat) (h : ∀ p ∈ ps, Flv.Supported cap p) (k : Nat) :
    Flv.packets cap closed (ps.length + (k + 1)) (Flv.chain prev ps) = (ps, [closed], false) := by
  induction ps generalizing prev with
  | nil => simp [Flv.chain, Flv.packets, Flv.firstTag]
  | cons p ps ih =>
    have hp := h p (by simp)
    have e : (p :: ps).length + (k + 1) = (ps.length + (k + 1)) + 1 := by simp; omega
    rw [e, Flv.packets, Flv.chain, firstTag_tag _ _ _ _ _ _ _ (by unfold Flv.typeOf; split <;> omega)
      (FlvMuxer.bits_lt 32 _) hp.fits.1 hp.fits.2, judge_body hp]
    simp only [ih _ (fun q hq => h q (by simp [hq]))]

/-- A tag of which a part is missing. -/
theorem firstTag_cut (cap : Nat) (closed : Err) (prev ty ts : Nat) (b t : List UInt8) (hb : b.length ≤ cap) (hb2 : b.length < 2 ^ 24)
    (ht : t <+: Flv.tag prev ty ts b) (hl : t.length < (Flv.tag prev ty ts b).length) : (Flv.firstTag cap closed t).1 = .reject closed := by
  unfold Flv.firstTag
  by_cases h15 : t.length < 15
  · rw [if_pos h15]
  · rw [if_neg h15]
    have hlen : (Flv.tag prev ty ts b).length = 15 + b.length := by unfold Flv.tag; simp [beBytes_length]; omega
    have e : (t.drop 5).take 3 = beBytes 3 b.length := by
      rw [List.prefix_iff_eq_take.1 ht, List.drop_take, List.take_take, Nat.min_eq_left (by omega)]
      unfold Flv.tag
      simp only [List.append_assoc, drop_be _ _ _ _ (show 4 ≤ 5 by omega), Nat.reduceSub, drop_be _ _ _ _ (show 1 ≤ 1 by omega), Nat.sub_self, List.drop_zero]
      rw [List.take_append_of_le_length (by simp [beBytes_length]), List.take_of_length_le (by simp [beBytes_length])]
    simp only [e]
    rw [beVal_beBytes, Nat.mod_eq_of_lt (by omega), if_neg (by omega), if_pos (by rw [List.length_drop]; omega)]

/-- A sequence of tags that is cut anywhere: the packets whose tags are complete. -/
theorem packets_cut (cap : Nat) (closed : Err) : ∀ (i : Nat) (ps : List AVPkt) (prev : Nat) (part : List UInt8), (∀ p ∈ ps, Flv.Supported cap p) →
    part <+: Flv.chain prev ps → i ≤ ps.length → (Flv.chain prev (ps.take i)).length ≤ part.length →
    (i < ps.length → part.length < (Flv.chain prev (ps.take (i + 1))).length) → ∀ n, i < n →
    Flv.packets cap closed n part = (ps.take i, [closed], false)
  | i, ps, prev, part, hs, hp, hi, h1, h2, 0, hn => by omega
  | 0, [], prev, part, hs, hp, hi, h1, h2, n + 1, hn => by
    have : part = [] := List.prefix_nil.1 hp
    subst this
    simp [Flv.packets, Flv.firstTag]
  | 0, p :: ps, prev, part, hs, hp, hi, h1, h2, n + 1, hn => by
    have hs' := hs p (by simp)
    have hl := h2 (by simp)
    simp only [Nat.zero_add, List.take_succ_cons, List.take_zero, Flv.chain, List.append_nil] at hl
    have hpre : part <+: Flv.tag prev (Flv.typeOf p.stream) (Flv.bits 32 p.dts) (Flv.body p) :=
      List.prefix_of_prefix_length_le hp (List.prefix_append _ _) (Nat.le_of_lt hl)
    have := firstTag_cut cap closed prev (Flv.typeOf p.stream) (Flv.bits 32 p.dts) (Flv.body p) part hs'.fits.1 hs'.fits.2 hpre hl
    rw [Flv.packets]
    generalize Flv.firstTag cap closed part = x at this
    obtain ⟨v, r⟩ := x
    simp only at this
    subst this
    simp
  | i + 1, [], prev, part, hs, hp, hi, h1, h2, n + 1, hn => by simp at hi
  | i + 1, p :: ps, prev, part, hs, hp, hi, h1, h2, n + 1, hn => by
    have hs' := hs p (by simp)
    simp only [List.take_succ_cons, Flv.chain, List.length_append] at h1 h2
    have hpre : Flv.tag prev (Flv.typeOf p.stream) (Flv.bits 32 p.dts) (Flv.body p) <+: part :=
      List.prefix_of_prefix_length_le (List.prefix_append _ (Flv.chain (11 + (Flv.body p).length) ps)) hp (by omega)
    obtain ⟨rest, rfl⟩ := hpre
    simp only [List.length_append] at h1 h2
    rw [Flv.packets, firstTag_tag _ _ _ _ _ _ _ (by unfold Flv.typeOf; split <;> omega) (FlvMuxer.bits_lt 32 _) hs'.fits.1 hs'.fits.2, judge_body hs']
    have ih := packets_cut cap closed i ps (11 + (Flv.body p).length) rest (fun q hq => hs q (by simp [hq]))
      ((List.prefix_append_right_inj _).1 hp) (by simpa using hi) (by omega)
      (fun h => by have := h2 (by simpa using h); omega) n (by omega)
    simp only [ih, List.take_succ_cons]

end Sps.FlvDemuxer
