import Verif.Lemmas.RProg
import Verif.Model.Flv
import Verif.Spec.Flv
/-! # Lemmas for the FLV demuxer and muxer -/
namespace Sps.FlvDemuxer
open Spec RProg ByteProg

theorem and_f0_shift (f : Nat) (h : f < 256) : (f &&& 0xf0) >>> 4 = f / 16 := by
  revert f; decide +kernel

theorem and_f0 (f : Nat) (h : f < 256) : (f &&& 0xf0 = 0x50) = (Flv.isCommand f = true) := by
  have : ∀ f, f < 256 → ((f &&& 0xf0 = 0x50) ↔ (Flv.isCommand f = true)) := by decide +kernel
  exact propext (this f h)

theorem and_0f (f : Nat) (h : f < 256) : f &&& 0x0f = f % 16 := by
  revert f; decide +kernel

theorem xor_high (d : Nat) (h : d < 2 ^ 23) : 2 ^ 23 * 511 ^^^ d = 2 ^ 23 * 511 + d := by
  apply Nat.eq_of_testBit_eq
  intro j
  have h1 : 2 ^ 23 * 511 = 2 ^ 23 * 511 + 0 := rfl
  rw [Nat.testBit_xor, Nat.testBit_two_pow_mul_add _ h, h1, Nat.testBit_two_pow_mul_add _ (by decide)]
  by_cases hj : j < 23
  · simp [hj]
  · have : d.testBit j = false := Nat.testBit_lt_two_pow (Nat.lt_of_lt_of_le h (Nat.pow_le_pow_right (by decide) (by omega)))
    simp [hj, this]

theorem signExtend24_eq (c : Nat) (h : c < 2 ^ 24) : signExtend24 c = Flv.signed 24 c := by
  have e : (0xff800000 : Nat) = 2 ^ 23 * 511 := by decide
  unfold signExtend24 Flv.signed
  rw [e]
  by_cases hc : c < 2 ^ 23
  · rw [Nat.mod_eq_of_lt (by omega), Nat.add_comm, ← xor_high c hc, Nat.xor_comm, ← Nat.xor_assoc, Nat.xor_self,
      Nat.zero_xor, if_pos hc]
    unfold i32
    rw [Nat.mod_eq_of_lt (by omega), if_pos (by omega)]
  · have e2 : (c + 2 ^ 23 * 511) % 2 ^ 32 = c - 2 ^ 23 := by omega
    rw [e2, Nat.xor_comm, xor_high _ (by omega), if_neg hc]
    unfold i32
    rw [Nat.mod_eq_of_lt (by omega), if_neg (by omega)]
    omega

theorem dts_eq (lo hi : Nat) (h : lo < 2 ^ 24) (h2 : hi < 256) : lo ||| ((hi <<< 24) % 2 ^ 32) = lo + 2 ^ 24 * hi := by
  have : (hi <<< 24) % 2 ^ 32 = hi <<< 24 := by
    rw [Nat.shiftLeft_eq]; apply Nat.mod_eq_of_lt; omega
  rw [this, Nat.or_comm, shl_or _ _ _ h]
  omega

theorem beVal_take_lt (s : List UInt8) (k : Nat) : beVal (s.take k) < 256 ^ k := by
  refine Nat.lt_of_lt_of_le (beVal_lt _) ?_
  exact Nat.pow_le_pow_right (by decide) (by simp)

section
variable {cap : Nat} {closed : Err} {β : Type}
variable {ρ : Type} {M : Runner ρ} {I : ρ → Nat → List UInt8 → Prop}

theorem on_readHead (hc : closed ≠ 0) (hcap : 15 ≤ cap) (s : List UInt8) :
    onStream cap closed readHead 0 s =
      if s.length < 15 then some ((closed, 0, 0, 0), 0, s)
      else
        let len := beVal ((s.drop 5).take 3)
        let ty := beVal ((s.drop 4).take 1)
        let ts : Nat := beVal ((s.drop 8).take 3) + 2 ^ 24 * beVal ((s.drop 11).take 1)
        if cap < len then some ((Err.ERROR_IO_BUFFER_FULL, ty, len, (ts : Int)), 0, s.drop 15)
        else if (s.drop 15).length < len then some ((closed, ty, len, (ts : Int)), 0, s.drop 15)
        else some ((Err.SUCCESS, ty, len, (ts : Int)), len, s.drop 15) := by
  unfold readHead
  rw [on_acq, if_neg (by omega)]
  by_cases h : s.length < 15
  · rw [if_pos h, if_pos h, if_pos hc]; rfl
  · rw [if_neg h, if_neg h, if_neg (by simp)]
    rw [on_rd32 _ _ _ _ _ (by omega) (by omega), on_rd8 _ _ _ _ _ (by omega) (by simp; omega),
      on_rd24 _ _ _ _ _ (by omega) (by simp; omega), on_rd24 _ _ _ _ _ (by omega) (by simp; omega),
      on_rd8 _ _ _ _ _ (by omega) (by simp; omega), on_rd24 _ _ _ _ _ (by omega) (by simp; omega), on_acq]
    simp only [List.drop_drop, on_ret]
    have l1 := beVal_take_lt (s.drop 8) 3
    have l2 := beVal_take_lt (s.drop 11) 1
    rw [dts_eq _ _ (by simpa using l1) (by simpa using l2)]
    repeat' split
    all_goals first | rfl | simp

theorem on_finish (st : StreamType) (a b c : Nat) (t e : Int) (v : Nat) (d rest : List UInt8) (k : Int)
    (hv : v = d.length) (hk : k = d.length) :
    onStream cap closed (finish st a b c t e k) v (d ++ rest) =
      if d = [] then some ((Err.ERROR_FLV_TAG, none), 0, rest)
      else some ((Err.SUCCESS, some { stream := st, pktType := a, payload := d, dts := t, pts := e, flags := b,
                                      codec := c }), 0, rest) := by
  subst hv; subst hk
  unfold finish
  cases d with
  | nil => rfl
  | cons x d =>
    rw [if_neg (by rw [List.length_cons]; omega), on_bytes _ _ _ _ _ _ (by simp) (by simp), on_ret]
    simp

theorem on_rd8' (f : Nat → RProg β) (v : Nat) (b : UInt8) (s : List UInt8) :
    onStream cap closed (rd8 >>= f) (v + 1) (b :: s) = onStream cap closed (f b.toNat) v s := by
  rw [on_rd8 _ _ _ _ _ (by omega) (by simp)]
  simp [beVal]

theorem on_rd24' (f : Nat → RProg β) (v : Nat) (a b c : UInt8) (s : List UInt8) :
    onStream cap closed (rd24 >>= f) (v + 3) (a :: b :: c :: s) = onStream cap closed (f (beVal [a, b, c])) v s := by
  rw [on_rd24 _ _ _ _ _ (by omega) (by simp)]
  simp

theorem ends_finish {st : StreamType} {a b c : Nat} {d e : Int} {k : Int} (hk : k ≤ 0) {es : List Err}
    (he : Err.ERROR_FLV_TAG ∈ es) :
    Ends M (fun x : Err × Option AVPkt => x.2 = none ∧ x.1 ∈ es) (finish st a b c d e k) := by
  unfold finish
  rw [if_pos hk]
  exact Ends.ret ⟨rfl, he⟩

/-- What may come out of reading the body `b` of a tag when the reader has it buffered. -/
theorem readBody_spec (H : M.Sim cap closed I) {r : ρ} (ty ts : Nat) (b rest : List UInt8) (h : I r b.length (b ++ rest)) :
    match Flv.judge ty ts b with
    | .accept p => ∃ r', M.run (readBody ty b.length ts) r = some ((Err.SUCCESS, some p), r') ∧ I r' 0 rest
    | .reject e => ∃ r', M.run (readBody ty b.length ts) r = some ((e, none), r')
    | .tooShort es => M.run (readBody ty b.length ts) r = none ∨
        ∃ e r', M.run (readBody ty b.length ts) r = some ((e, none), r') ∧ e ∈ es := by
  have acc : ∀ (p : AVPkt) (n : Nat), onStream cap closed (readBody ty b.length ts) b.length (b ++ rest) =
      some ((Err.SUCCESS, some p), n, rest) → ∃ r', M.run (readBody ty b.length ts) r = some ((Err.SUCCESS, some p), r') ∧ I r' 0 rest := by
    intro p n e
    obtain ⟨r', a1, a2⟩ := H.sim _ h e
    exact ⟨r', a1, H.mono a2 (Nat.zero_le _)⟩
  have rej : ∀ (e : Err) (n : Nat) (t : List UInt8), onStream cap closed (readBody ty b.length ts) b.length (b ++ rest) =
      some ((e, none), n, t) → ∃ r', M.run (readBody ty b.length ts) r = some ((e, none), r') := by
    intro e n t he
    obtain ⟨r', a1, -⟩ := H.sim _ h he
    exact ⟨r', a1⟩
  have sh : ∀ (es : List Err), Ends M (fun x : Err × Option AVPkt => x.2 = none ∧ x.1 ∈ es) (readBody ty b.length ts) →
      M.run (readBody ty b.length ts) r = none ∨
        ∃ e r', M.run (readBody ty b.length ts) r = some ((e, none), r') ∧ e ∈ es := by
    intro es he
    rcases he r with e | ⟨⟨e, o⟩, r', e1, e2, e3⟩
    · exact .inl e
    · simp only at e2 e3; subst e2; exact .inr ⟨e, r', e1, e3⟩
  -- after the first byte
  have sh1 : ∀ (es : List Err) (f : UInt8) (t : List UInt8) (k : Nat → RProg (Err × Option AVPkt)), b = f :: t →
      readBody ty b.length ts = (rd8 >>= k) → Ends M (fun x : Err × Option AVPkt => x.2 = none ∧ x.1 ∈ es) (k f.toNat) →
      M.run (readBody ty b.length ts) r = none ∨
        ∃ e r', M.run (readBody ty b.length ts) r = some ((e, none), r') ∧ e ∈ es := by
    intro es f t k hbf hk he
    have : onStream cap closed (rd8) b.length (b ++ rest) = some (f.toNat, t.length, t ++ rest) := by
      rw [hbf]; simp [rd8, onStream]
    obtain ⟨r', a1, -⟩ := H.sim _ h this
    rw [hk, M.bind, a1]
    rcases he r' with e | ⟨⟨e, o⟩, r'', e1, e2, e3⟩
    · exact .inl e
    · simp only at e2 e3; subst e2; exact .inr ⟨e, r'', e1, e3⟩
  unfold Flv.judge
  by_cases h8 : ty = 8
  · subst h8
    rw [if_pos rfl]
    rcases b with _ | ⟨f, t⟩
    ·
      refine sh _ ?_
      unfold readBody
      rw [if_pos rfl]
      refine Ends.rd8 fun f => ?_
      refine Ends.ite (fun _ => Ends.ret ⟨rfl, by simp⟩) fun _ => Ends.rd8 fun _ => ends_finish (by simp) (by simp)
    ·
      have hf := f.toNat_lt
      by_cases hcd : f.toNat / 16 ≠ 10
      · simp only [if_pos hcd]
        refine rej _ (t.length) (t ++ rest) ?_
        unfold readBody
        rw [if_pos rfl]
        refine (on_rd8' ..).trans ?_
        rw [and_f0_shift _ hf, if_pos hcd]
        rfl
      · simp only [if_neg hcd]
        rcases t with _ | ⟨t0, _ | ⟨d0, d⟩⟩
        ·
          refine sh1 _ _ _ _ rfl (by unfold readBody; rw [if_pos rfl]) ?_
          rw [and_f0_shift _ hf, if_neg hcd]
          exact Ends.rd8 fun _ => ends_finish (by simp) (by simp)
        ·
          refine rej _ (0) (rest) ?_
          unfold readBody
          rw [if_pos rfl]
          refine (on_rd8' ..).trans ?_
          rw [and_f0_shift _ hf, if_neg hcd]
          refine (on_rd8' ..).trans ?_
          exact on_finish _ _ _ _ _ _ _ [] rest _ (by simp) (by simp)
        ·
          refine acc _ 0 ?_
          unfold readBody
          rw [if_pos rfl]
          refine (on_rd8' ..).trans ?_
          rw [and_f0_shift _ hf, if_neg hcd]
          refine (on_rd8' ..).trans ?_
          refine (on_finish _ _ _ _ _ _ _ (d0 :: d) rest _ (by simp) (by simp; omega)).trans ?_
          have : f.toNat / 16 = 10 := by simpa using hcd
          simp [this]
  · rw [if_neg h8]
    by_cases h9 : ty = 9
    · subst h9
      rw [if_pos rfl]
      rcases b with _ | ⟨f, t⟩
      ·
        refine sh _ ?_
        unfold readBody
        rw [if_neg h8, if_pos rfl]
        refine Ends.rd8 fun f => ?_
        refine Ends.ite (fun _ => Ends.ret ⟨rfl, by simp⟩) fun _ => Ends.ite (fun _ => Ends.rd8 fun _ => Ends.rd24 fun _ =>
          ends_finish (by simp) (by simp)) fun _ => ends_finish (by simp) (by simp)
      ·
        have hf := f.toNat_lt
        by_cases hcd : f.toNat % 16 ≠ 7 ∧ f.toNat % 16 ≠ 12
        · simp only [if_pos hcd]
          refine rej _ (t.length) (t ++ rest) ?_
          unfold readBody
          rw [if_neg h8, if_pos rfl]
          refine (on_rd8' ..).trans ?_
          rw [and_0f _ hf, if_pos hcd]
          rfl
        · simp only [if_neg hcd]
          by_cases hcm : Flv.isCommand f.toNat = true
          · simp only [if_pos hcm]
            have e : onStream cap closed (readBody 9 (f :: t).length ts) (f :: t).length (f :: t ++ rest) =
                if t = [] then some ((Err.ERROR_FLV_TAG, none), 0, rest)
                else some ((Err.SUCCESS, some { stream := .video, pktType := 0, payload := t, dts := ts, pts := 0, flags := f.toNat, codec := (f.toNat % 16 : Nat) }), 0, rest) := by
              unfold readBody
              rw [if_neg h8, if_pos rfl]
              refine (on_rd8' ..).trans ?_
              rw [and_0f _ hf, if_neg hcd, if_neg (by rw [Ne, and_f0 _ hf]; simpa using hcm)]
              exact on_finish _ _ _ _ _ _ _ t rest _ (by simp) (by simp)
            by_cases ht : t = []
            · simp only [if_pos ht] at e ⊢
              exact rej _ _ _ e
            · simp only [if_neg ht] at e ⊢
              exact acc _ _ e
          · simp only [if_neg hcm]
            have hne : f.toNat &&& 0xf0 ≠ 0x50 := by rw [Ne, and_f0 _ hf]; exact hcm
            have short : ∀ (t' : List UInt8), t = t' → t'.length < 4 →
                (M.run (readBody 9 (f :: t).length ts) r = none ∨
                  ∃ e r', M.run (readBody 9 (f :: t).length ts) r = some ((e, none), r') ∧ e ∈ [Err.ERROR_FLV_TAG]) := by
              intro t' ht hl
              subst ht
              refine sh1 _ _ _ _ rfl (by unfold readBody; rw [if_neg h8, if_pos rfl]) ?_
              rw [and_0f _ hf, if_neg hcd, if_pos hne]
              exact Ends.rd8 fun _ => Ends.rd24 fun _ => ends_finish (by simp; omega) (by simp)
            rcases t with _ | ⟨t0, _ | ⟨c0, _ | ⟨c1, _ | ⟨c2, d⟩⟩⟩⟩
            iterate 4 exact short _ rfl (by simp)
            ·
              have e : onStream cap closed (readBody 9 (f :: t0 :: c0 :: c1 :: c2 :: d).length ts) (f :: t0 :: c0 :: c1 :: c2 :: d).length (f :: t0 :: c0 :: c1 :: c2 :: d ++ rest) =
                  if d = [] then some ((Err.ERROR_FLV_TAG, none), 0, rest)
                  else some ((Err.SUCCESS, some { stream := .video, pktType := t0.toNat, payload := d, dts := ts, pts := ts + Flv.signed 24 (beVal [c0, c1, c2]), flags := f.toNat, codec := (f.toNat % 16 : Nat) }), 0, rest) := by
                unfold readBody
                rw [if_neg h8, if_pos rfl]
                refine (on_rd8' ..).trans ?_
                rw [and_0f _ hf, if_neg hcd, if_pos hne]
                refine (on_rd8' ..).trans ?_
                refine (on_rd24' ..).trans ?_
                rw [signExtend24_eq _ (by have := Spec.beVal_lt [c0, c1, c2]; simpa using this)]
                exact on_finish _ _ _ _ _ _ _ d rest _ (by simp) (by simp; omega)
              by_cases ht : d = []
              · simp only [if_pos ht] at e ⊢
                exact rej _ _ _ e
              · simp only [if_neg ht] at e ⊢
                exact acc _ _ e
    · rw [if_neg h9]
      by_cases h18 : ty = 18
      · subst h18
        rw [if_pos rfl]
        have e : onStream cap closed (readBody 18 b.length ts) b.length (b ++ rest) =
            if b = [] then some ((Err.ERROR_FLV_TAG, none), 0, rest)
            else some ((Err.SUCCESS, some { stream := .subtitle, pktType := 0, payload := b, dts := ts, pts := 0, flags := 0, codec := 0 }), 0, rest) := by
          unfold readBody
          rw [if_neg h8, if_neg h9, if_pos rfl]
          exact on_finish _ _ _ _ _ _ _ b rest _ (by simp) (by simp)
        by_cases ht : b = []
        · simp only [if_pos ht] at e ⊢
          exact rej _ _ _ e
        · simp only [if_neg ht] at e ⊢
          exact acc _ _ e
      · rw [if_neg h18]
        refine rej _ (b.length) (b ++ rest) ?_
        unfold readBody
        rw [if_neg h8, if_neg h9, if_neg h18]
        rfl

/-- One `read_packet`. -/
theorem readPacket_sim (H : M.Sim cap closed I) {r : ρ} {s : List UInt8} (h : I r 0 s) (hcl : closed ≠ 0) (hcap : 15 ≤ cap) :
    match Flv.firstTag cap closed s with
    | (.accept p, rest) => ∃ r', M.run readPacket r = some ((Err.SUCCESS, some p), r') ∧ I r' 0 rest
    | (.reject e, _) => ∃ r', M.run readPacket r = some ((e, none), r')
    | (.tooShort es, _) => M.run readPacket r = none ∨ ∃ e r', M.run readPacket r = some ((e, none), r') ∧ e ∈ es := by
  have hd := on_readHead (cap := cap) (closed := closed) hcl hcap s
  unfold Flv.firstTag
  have rej : ∀ {e : Err} {x : Nat × Nat × Int} {n : Nat} {t : List UInt8}, e ≠ 0 →
      onStream cap closed readHead 0 s = some ((e, x), n, t) → ∃ r', M.run readPacket r = some ((e, none), r') := by
    intro e x n t he ho
    obtain ⟨r', a1, -⟩ := H.sim _ h ho
    refine ⟨r', ?_⟩
    unfold readPacket
    rw [M.bind, a1]
    simp [he, M.ret]
  by_cases h15 : s.length < 15
  · simp only [if_pos h15] at hd ⊢
    exact rej hcl hd
  · simp only [if_neg h15] at hd ⊢
    by_cases hf : cap < beVal ((s.drop 5).take 3)
    · simp only [if_pos hf] at hd ⊢
      exact rej (by decide) hd
    · simp only [if_neg hf] at hd ⊢
      by_cases hl : (s.drop 15).length < beVal ((s.drop 5).take 3)
      · simp only [if_pos hl] at hd ⊢
        exact rej hcl hd
      · simp only [if_neg hl] at hd ⊢
        obtain ⟨r1, a1, a2⟩ := H.sim _ h hd
        have hlen : ((s.drop 15).take (beVal ((s.drop 5).take 3))).length = beVal ((s.drop 5).take 3) := by
          rw [List.length_take]; omega
        have hb := readBody_spec H (r := r1) (beVal ((s.drop 4).take 1))
          (beVal ((s.drop 8).take 3) + 2 ^ 24 * beVal ((s.drop 11).take 1))
          ((s.drop 15).take (beVal ((s.drop 5).take 3)))
          ((s.drop 15).drop (beVal ((s.drop 5).take 3)))
          (by rw [List.take_append_drop, hlen]; exact a2)
        rw [hlen] at hb
        have hrun : M.run readPacket r = M.run (readBody (beVal ((s.drop 4).take 1)) (beVal ((s.drop 5).take 3))
            ((beVal ((s.drop 8).take 3) + 2 ^ 24 * beVal ((s.drop 11).take 1) : Nat) : Int)) r1 := by
          unfold readPacket
          rw [M.bind, a1]
          simp
        rw [hrun]
        revert hb
        generalize Flv.judge _ _ _ = v
        cases v <;> exact id

theorem readPackets_sim (H : M.Sim cap closed I) (hcl : closed ≠ 0) (hcap : 15 ≤ cap) (n : Nat) {r : ρ} {s : List UInt8} (h : I r 0 s) :
    match Flv.packets cap closed n s with
    | (ps, es, short) => (short = true ∧ M.run (readPackets n) r = none) ∨
        ∃ e r', M.run (readPackets n) r = some ((ps, e), r') ∧ e ∈ es := by
  induction n generalizing r s with
  | zero => exact .inr ⟨_, r, M.ret _ _, by simp [Flv.packets]⟩
  | succ n ih =>
    have hp := readPacket_sim H h hcl hcap
    simp only [Flv.packets, readPackets]
    rw [M.bind]
    revert hp
    generalize Flv.firstTag cap closed s = x
    obtain ⟨v, rest⟩ := x
    cases v with
    | accept p =>
      rintro ⟨r', a1, a2⟩
      have hi := ih a2
      rw [a1]
      simp only [Option.bind_some]
      rw [M.bind]
      rcases hi with ⟨b1, b2⟩ | ⟨e, r2, b1, b2⟩
      · exact .inl ⟨b1, by rw [b2]; rfl⟩
      · exact .inr ⟨e, r2, by rw [b1]; exact M.ret _ _, b2⟩
    | reject e =>
      rintro ⟨r', a1⟩
      rw [a1]
      exact .inr ⟨e, r', M.ret _ _, by simp⟩
    | tooShort es =>
      rintro (a1 | ⟨e, r', a1, a2⟩)
      · rw [a1]; exact .inl ⟨rfl, rfl⟩
      · rw [a1]; exact .inr ⟨e, r', M.ret _ _, a2⟩

/-- The packet `read_header` returns. -/
def headerPkt (s : List UInt8) : AVPkt :=
  { msg := .header, stream := .nb, pktType := 0, payload := s.take 9, dts := 0, pts := 0,
    flags := (((s.take 9)[4]?.map UInt8.toNat).getD 0 : Nat), codec := 0 }

theorem on_readHeader (hcl : closed ≠ 0) (hcap : 15 ≤ cap) (s : List UInt8) : onStream cap closed readHeader 0 s =
      if s.length < 9 then some ((closed, none), 0, s)
      else if s.take 3 ≠ [70, 76, 86] then some ((Err.ERROR_FLV_PROBE, none), 0, s.drop 9)
      else some ((Err.SUCCESS, some (headerPkt s)), 0, s.drop 9) := by
  unfold readHeader
  rw [on_acq, if_neg (by omega)]
  by_cases h9 : s.length < 9
  · rw [if_pos h9, if_pos h9, if_pos hcl]; rfl
  · rw [if_neg h9, if_neg h9, if_neg (by simp), on_bytes _ _ _ _ _ _ (by omega) (by omega)]
    have e : (s.take 9).take 3 = s.take 3 := by rw [List.take_take]; rfl
    rw [e]
    split
    · simp [on_ret]
    · simp [on_ret, headerPkt]

theorem session_sim (H : M.Sim cap closed I) (hcl : closed ≠ 0) (hcap : 15 ≤ cap) (n : Nat) {r : ρ} {s : List UInt8} (h : I r 0 s) :
    match Flv.file cap closed n s with
    | (ps, es, short) => (short = true ∧ M.run (session n) r = none) ∨
        ∃ e r', M.run (session n) r = some ((ps, e), r') ∧ e ∈ es := by
  have hh := on_readHeader hcl hcap s
  unfold Flv.file session
  by_cases h9 : s.length < 9
  · rw [if_pos h9] at hh ⊢
    obtain ⟨r', a1, -⟩ := H.sim _ h hh
    rw [M.bind, a1]
    exact .inr ⟨closed, r', M.ret _ _, by simp⟩
  · rw [if_neg h9] at hh ⊢
    by_cases h3 : s.take 3 ≠ [70, 76, 86]
    · rw [if_pos h3] at hh ⊢
      obtain ⟨r', a1, -⟩ := H.sim _ h hh
      rw [M.bind, a1]
      exact .inr ⟨_, r', M.ret _ _, by simp⟩
    · rw [if_neg h3] at hh ⊢
      obtain ⟨r', a1, a2⟩ := H.sim _ h hh
      rw [M.bind, a1]
      simp only [Option.bind_some]
      exact readPackets_sim H hcl hcap n a2

/-- On the modelled reader. -/
theorem readPacket_spec {r : Reader} (h : OnIo r cap closed) (hcl : closed ≠ 0) (hcap : 15 ≤ cap)
    (hno : ∀ io, r.io = some io → noErr io.evs = true) :
    match Flv.firstTag cap closed r.pending with
    | (.accept p, rest) => ∃ r', readPacket.run r = some ((Err.SUCCESS, some p), r') ∧ OnIo r' cap closed ∧
        (∀ io, r'.io = some io → noErr io.evs = true) ∧ r'.pending = rest
    | (.reject e, _) => ∃ r', readPacket.run r = some ((e, none), r')
    | (.tooShort es, _) => readPacket.run r = none ∨ ∃ e r', readPacket.run r = some ((e, none), r') ∧ e ∈ es := by
  have := readPacket_sim (sim_reader cap closed) (r := r) ⟨h, hno, rfl, Nat.zero_le _⟩ hcl hcap
  revert this
  generalize Flv.firstTag cap closed r.pending = x
  obtain ⟨v, rest⟩ := x
  cases v with
  | accept p => rintro ⟨r', a1, a2, a3, a4, -⟩; exact ⟨r', a1, a2, a3, a4⟩
  | reject e => exact id
  | tooShort es => exact id

theorem session_spec (hcl : closed ≠ 0) (hcap : 15 ≤ cap) (n : Nat) {r : Reader} (h : OnIo r cap closed)
    (hno : ∀ io, r.io = some io → noErr io.evs = true) :
    match Flv.file cap closed n r.pending with
    | (ps, es, short) => (short = true ∧ (session n).run r = none) ∨
        ∃ e r', (session n).run r = some ((ps, e), r') ∧ e ∈ es :=
  session_sim (sim_reader cap closed) hcl hcap n ⟨h, hno, rfl, Nat.zero_le _⟩

end
end Sps.FlvDemuxer
