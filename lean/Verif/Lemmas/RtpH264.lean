import Verif.Lemmas.Rtp
/-! # H.264 over RTP -/
namespace Sps.RtpH264
open Spec BProg Spec.Rtp

theorem fuFields_al {c : BitCtx} {b0 b1 : UInt8} {r : List UInt8} (h : c.Al (b0 :: b1 :: r)) :
    ∃ c', fuFields.run c = some ({ f := b0.toNat / 128, nri := b0.toNat / 32 % 4, indType := b0.toNat % 32, s := b1.toNat / 128, e := b1.toNat / 64 % 2, type := b1.toNat % 32 }, c') ∧
      c'.Al r := by
  have e : bitsOf (b0 :: b1 :: r) = bitsOfNat 1 (b0.toNat / 128) ++ (bitsOfNat 2 (b0.toNat / 32) ++ (bitsOfNat 5 b0.toNat ++
      (bitsOfNat 1 (b1.toNat / 128) ++ (bitsOfNat 1 (b1.toNat / 64) ++ (bitsOfNat 1 (b1.toNat / 32) ++ (bitsOfNat 5 b1.toNat ++ bitsOf r)))))) := by
    have split1 : ∀ b : Nat, bitsOfNat 8 b = bitsOfNat 1 (b / 128) ++ (bitsOfNat 2 (b / 32) ++ bitsOfNat 5 b) := by
      intro b; rw [show (8 : Nat) = 1 + (2 + 5) by rfl, bitsOfNat_add, bitsOfNat_add]
    have split2 : ∀ b : Nat, bitsOfNat 2 (b / 32) = bitsOfNat 1 (b / 64) ++ bitsOfNat 1 (b / 32) := by
      intro b; rw [show (2 : Nat) = 1 + 1 by rfl, bitsOfNat_add, Nat.div_div_eq_div_mul]
    show bitsOfNat 8 b0.toNat ++ (bitsOfNat 8 b1.toNat ++ bitsOf r) = _
    rw [split1, split1 b1.toNat, split2 b1.toNat]
    simp only [List.append_assoc]
  have ha := h.at
  rw [e] at ha
  have hl := h.length
  have hs := h.small
  have h0 := b0.toNat_lt; have h1 := b1.toNat_lt
  simp only [List.length_cons] at hl
  have key : onBits fuFields (8 * c.pos) (bitsOfNat 1 (b0.toNat / 128) ++ (bitsOfNat 2 (b0.toNat / 32) ++ (bitsOfNat 5 b0.toNat ++
      (bitsOfNat 1 (b1.toNat / 128) ++ (bitsOfNat 1 (b1.toNat / 64) ++ (bitsOfNat 1 (b1.toNat / 32) ++ (bitsOfNat 5 b1.toNat ++ bitsOf r))))))) =
      some ({ f := b0.toNat / 128, nri := b0.toNat / 32 % 4, indType := b0.toNat % 32, s := b1.toNat / 128, e := b1.toNat / 64 % 2, type := b1.toNat % 32 },
        8 * (c.pos + 2), bitsOf r) := by
    unfold fuFields
    simp (discharger := decide) only [on_bind, rd_field, Option.bind_some, on_pure]
    rw [show b0.toNat / 128 % 2 ^ 1 = b0.toNat / 128 by omega, show b1.toNat / 128 % 2 ^ 1 = b1.toNat / 128 by omega]
    rfl
  obtain ⟨c', e1, e2⟩ := run_of ha key
  exact ⟨c', e1, e2.al (by omega)⟩

/-- The parser on a single unit. -/
theorem raw_eq (ctx : CodecCtx) (ht : ctx.timebase ≠ 0) (u : List UInt8) :
    ∃ p, H264Parser.encodeRawNalu {} ctx u = some ((unitAnswer ctx u).1, p, (unitAnswer ctx u).2) := by
  unfold H264Parser.encodeRawNalu
  cases u with
  | nil => exact ⟨_, rfl⟩
  | cons b t =>
    rw [Nal.parse_cons]
    unfold unitAnswer
    by_cases hb : b.toNat < 128
    · rw [if_pos hb]
      simp only [Option.bind_some]
      rw [if_neg (by omega)]
      obtain ⟨p, h, _⟩ := answer_eq NaluParser.ready_init ctx ht [b :: t] (by simp)
      exact ⟨p, h⟩
    · rw [if_neg hb]
      simp only [Option.bind_some]
      rw [if_pos (by omega)]
      exact ⟨_, rfl⟩

theorem nalu_al {c : BitCtx} {r : List UInt8} (h : c.Al r) (now : Int) (ts : Nat) :
    ∃ c', nalu now ts c = some ((unitAnswer (context now ts) r).1, c', (unitAnswer (context now ts) r).2) ∧
      ((unitAnswer (context now ts) r).1 = Err.SUCCESS → c'.Al []) := by
  obtain ⟨c1, h1, h2⟩ := h.all
  obtain ⟨p, hp⟩ := raw_eq (context now ts) (by simp [context]) r
  unfold nalu
  rw [h1]
  simp only [Option.bind_some]
  unfold context at hp
  rw [hp]
  refine ⟨_, rfl, ?_⟩
  intro hs
  unfold context at hs
  rw [if_pos hs]; exact h2

/-- One pass of STAP takes everything. -/
theorem stapLoop_al (now : Int) (ts fuel : Nat) {c : BitCtx} {b : UInt8} {r : List UInt8} (h : c.Al (b :: r)) :
    stapLoop now ts (fuel + 2) c [] =
      if r.length < b.toNat then some (Err.ERROR_IO_NOT_ENOUGH, []) else some (unitAnswer (context now ts) r) := by
  have hb := b.toNat_lt
  rw [stapLoop, h.size, if_neg (by simp)]
  obtain ⟨c1, h1, h2, _⟩ := h.read 1 (by decide) (by simp)
  have hv : beVal [b] = b.toNat := by simp [beVal]
  simp only [List.take_succ_cons, List.take_zero, List.drop_succ_cons, List.drop_zero, hv, Nat.mul_one] at h1 h2
  rw [h1]
  simp only [Option.bind_some]
  by_cases hl : r.length < b.toNat
  · rw [h2.acquire_fail _ (by omega) hl, if_pos (by decide), if_pos hl]
  · rw [h2.acquire _ (by omega) (by omega), if_neg (by decide), if_neg hl]
    obtain ⟨c2, h3, h4⟩ := nalu_al h2 now ts
    rw [h3]
    simp only [Option.bind_some, List.nil_append]
    by_cases he : (unitAnswer (context now ts) r).1 = Err.SUCCESS
    · rw [if_neg (by simp [he]), stapLoop, (h4 he).size, if_pos (by simp)]
      rw [← he]
    · rw [if_pos he]

/-! ### Fragments -/

/-- The buffer of the decoder holds the unit in progress. -/
def Holds : Option CharBuf → Option (List UInt8) → Prop
  | none, none => True
  | some b, some a => b.head = 0 ∧ b.cap = 2 ^ 20 ∧ b.mem.length = 2 ^ 20 ∧ b.len = a.length ∧ b.mem.take b.len = a
  | _, _ => False

theorem append_holds {b : CharBuf} {a : List UInt8} (h : Holds (some b) (some a)) (d : List UInt8) :
    if 2 ^ 20 < (a ++ d).length then b.append d = none else ∃ b', b.append d = some b' ∧ Holds (some b') (some (a ++ d)) := by
  obtain ⟨h1, h2, h3, h4, h5⟩ := h
  have hl : a.length ≤ 2 ^ 20 := by rw [← h5, List.length_take]; omega
  have hr : b.remain = 2 ^ 20 - a.length := by
    unfold CharBuf.remain; rw [h2, h4]; exact sub32_le hl (by decide)
  unfold CharBuf.append
  rw [hr]
  simp only [List.length_append]
  split
  · rw [if_neg (by omega)]
  · rw [if_pos (by omega)]
    refine ⟨_, rfl, h1, h2, ?_, ?_, ?_⟩
    · simp only [List.length_append, List.length_take, List.length_drop]; omega
    · simp only [List.length_append]; omega
    · simp only
      rw [h5, List.take_append_of_le_length (by simp; omega), List.take_of_length_le (by simp; omega)]

theorem content_holds {b : CharBuf} {a : List UInt8} (h : Holds (some b) (some a)) : b.content = a := by
  obtain ⟨h1, _, _, _, h5⟩ := h
  unfold CharBuf.content; rw [h1, List.drop_zero, h5]

theorem holds_length {b : CharBuf} {a : List UInt8} (h : Holds (some b) (some a)) : a.length ≤ 2 ^ 20 := by
  obtain ⟨_, _, h3, h4, h5⟩ := h
  rw [← h5, List.length_take]; omega

theorem nalHeader_eq (b0 b1 : UInt8) (s e it : Nat) : nalHeader { f := b0.toNat / 128, nri := b0.toNat / 32 % 4, indType := it, s := s, e := e, type := b1.toNat % 32 } =
    UInt8.ofNat (b0.toNat / 32 * 32 + b1.toNat % 32) := by
  have t : ∀ (f : Fin 2) (n : Fin 4) (t : Fin 32), (f.val <<< 7) ||| (n.val <<< 5) ||| t.val = f.val * 128 + n.val * 32 + t.val := by
    decide +kernel
  have h0 := b0.toNat_lt
  have := t ⟨b0.toNat / 128, by omega⟩ ⟨b0.toNat / 32 % 4, by omega⟩ ⟨b1.toNat % 32, by omega⟩
  simp only at this
  unfold nalHeader
  simp only
  rw [this]
  congr 1; omega

/-- A context behind the end of its buffer has nothing that can be read. -/
theorem rest_behind {c : BitCtx} (hr : c.remBits = 0) (hp : c.buf.length < c.pos) (hq : c.pos ≤ c.buf.length + 2) : rest c = none := by
  unfold rest BitCtx.readBytes
  rw [if_pos hr, if_neg]
  unfold BitCtx.size BitCtx.sizeBits
  rw [hr]
  omega

/-- Fragments, refined to byte strings. -/
theorem fu_step {c : BitCtx} {p : List UInt8} (h : c.Al p) (mem0 : List UInt8) (hm : mem0.length = 2 ^ 20) (now : Int) (ts : Nat)
    {s : Option CharBuf} {a : Option (List UInt8)} (ha : Holds s a) :
    match fragmentStep (context now ts) a p with
    | none => fu mem0 now ts s c = none
    | some (e, a', pk) => ∃ s', fu mem0 now ts s c = some (e, s', pk) ∧ Holds s' a' := by
  match p, h with
  | [], h =>
    refine ⟨s, ?_, ha⟩
    unfold fu
    rw [h.acquire_fail 2 (by decide) (by simp), if_pos (by decide)]
  | [b], h =>
    refine ⟨s, ?_, ha⟩
    unfold fu
    rw [h.acquire_fail 2 (by decide) (by simp), if_pos (by decide)]
  | b0 :: b1 :: r, h =>
    have hb0 := b0.toNat_lt
    have hb1 := b1.toNat_lt
    obtain ⟨c1, e1, h1⟩ := fuFields_al h
    have hfu : fu mem0 now ts s c = (if b0.toNat % 32 = 29 then c1.skipReadBytes 2 else some c1).bind fun c =>
        (fuStart mem0 { f := b0.toNat / 128, nri := b0.toNat / 32 % 4, indType := b0.toNat % 32, s := b1.toNat / 128, e := b1.toNat / 64 % 2, type := b1.toNat % 32 } s).bind fun r =>
          match r with
          | .error e => some (e, s, [])
          | .ok pkt => fuData now ts { f := b0.toNat / 128, nri := b0.toNat / 32 % 4, indType := b0.toNat % 32, s := b1.toNat / 128, e := b1.toNat / 64 % 2, type := b1.toNat % 32 } pkt c := by
      unfold fu
      rw [h.acquire 2 (by decide) (by simp), if_neg (by decide), e1]
      rfl
    -- the context after the optional number
    have hskip : ∃ c2, (if b0.toNat % 32 = 29 then c1.skipReadBytes 2 else some c1) = some c2 ∧
        (if b0.toNat % 32 = 29 ∧ r.length < 2 then rest c2 = none else c2.Al (if b0.toNat % 32 = 29 then r.drop 2 else r)) := by
      by_cases h29 : b0.toNat % 32 = 29
      · simp only [h29, if_true, true_and]
        by_cases hl : r.length < 2
        · simp only [hl, if_true]
          have hc := h1.length
          have hle := h1.pos_le
          refine ⟨{ c1 with pos := c1.pos + 2 }, ?_, ?_⟩
          · unfold BitCtx.skipReadBytes
            rw [if_neg (by omega)]
            simp only [h1.rem, if_true, show ((c1.pos : Int) + 2).toNat = c1.pos + 2 by omega]
          · exact rest_behind h1.rem (by simp only; omega) (by simp only; omega)
        · simp only [hl, if_false]
          obtain ⟨c2, g1, g2, _⟩ := h1.skip 2 (by omega)
          exact ⟨c2, g1, g2⟩
      · simp only [h29, if_false, false_and]
        exact ⟨c1, rfl, h1⟩
    obtain ⟨c2, g1, g2⟩ := hskip
    rw [g1, Option.bind_some] at hfu
    -- the data step
    have hdata : ∀ (b : CharBuf) (x : List UInt8), Holds (some b) (some x) → ∀ u : List UInt8, u = x ++ (if b0.toNat % 32 = 29 then r.drop 2 else r) →
        match (if b0.toNat % 32 = 29 ∧ r.length < 2 then none
          else if 2 ^ 20 < u.length then none
          else if decide (64 ≤ b1.toNat % 128) then
            some ((unitAnswer (context now ts) u).1, (if (unitAnswer (context now ts) u).1 = Err.SUCCESS then none else some u), (unitAnswer (context now ts) u).2)
          else some (Err.SUCCESS, some u, []) : Option (Err × Option (List UInt8) × List AVPkt)) with
        | none => fuData now ts { f := b0.toNat / 128, nri := b0.toNat / 32 % 4, indType := b0.toNat % 32, s := b1.toNat / 128, e := b1.toNat / 64 % 2, type := b1.toNat % 32 } (some b) c2 = none
        | some (e, a', pk) => ∃ s', fuData now ts { f := b0.toNat / 128, nri := b0.toNat / 32 % 4, indType := b0.toNat % 32, s := b1.toNat / 128, e := b1.toNat / 64 % 2, type := b1.toNat % 32 } (some b) c2 = some (e, s', pk) ∧ Holds s' a' := by
      intro b x hx u hu
      unfold fuData
      simp only
      by_cases hs : b0.toNat % 32 = 29 ∧ r.length < 2
      · rw [if_pos hs] at g2 ⊢
        simp only [g2, Option.bind_none]
      · rw [if_neg hs] at g2 ⊢
        obtain ⟨c3, g3, _⟩ := g2.all
        simp only [g3, Option.bind_some]
        have ap := append_holds hx (if b0.toNat % 32 = 29 then r.drop 2 else r)
        rw [← hu] at ap
        by_cases hl : 2 ^ 20 < u.length
        · rw [if_pos hl] at ap ⊢
          simp only [ap, Option.bind_none]
        · rw [if_neg hl] at ap ⊢
          obtain ⟨b', ap1, ap2⟩ := ap
          simp only [ap1, Option.bind_some]
          by_cases hf : 64 ≤ b1.toNat % 128
          · rw [if_pos (show decide (64 ≤ b1.toNat % 128) = true by simpa using hf), if_pos (show b1.toNat / 64 % 2 = 1 by omega), content_holds ap2]
            obtain ⟨c4, n1, _⟩ := nalu_al (BitCtx.Al.init u (by omega)) now ts
            rw [n1]
            refine ⟨_, rfl, ?_⟩
            by_cases hk : (unitAnswer (context now ts) u).1 = Err.SUCCESS
            · rw [if_pos hk, if_pos hk]; trivial
            · rw [if_neg hk, if_neg hk]; exact ap2
          · rw [if_neg (show ¬ decide (64 ≤ b1.toNat % 128) = true by simpa using hf), if_neg (show ¬ b1.toNat / 64 % 2 = 1 by omega)]
            exact ⟨_, rfl, ap2⟩
    have h128 : (b1.toNat / 128 = 1) ↔ 128 ≤ b1.toNat := by omega
    unfold fragmentStep
    simp only
    by_cases hst : 128 ≤ b1.toNat
    · match s, a, ha with
      | some b, some x, ha =>
        rw [if_pos (by simp [hst])]
        refine ⟨some b, ?_, ha⟩
        rw [hfu]; unfold fuStart
        simp only
        rw [if_pos (h128.2 hst)]; rfl
      | none, none, _ =>
        rw [if_neg (by simp)]
        have h0 : Holds (some (CharBuf.ofCap mem0 0)) (some []) := by
          refine ⟨rfl, ?_, hm, rfl, rfl⟩
          simp [CharBuf.ofCap, hm]
        have ap := append_holds h0 [nalHeader { f := b0.toNat / 128, nri := b0.toNat / 32 % 4, indType := b0.toNat % 32, s := b1.toNat / 128, e := b1.toNat / 64 % 2, type := b1.toNat % 32 }]
        rw [if_neg (by simp), List.nil_append, nalHeader_eq] at ap
        obtain ⟨b, ap1, ap2⟩ := ap
        have hd := hdata b _ ap2 _ rfl
        rw [if_pos (by simpa using hst)]
        simp only
        have hfu2 : fu mem0 now ts none c = fuData now ts { f := b0.toNat / 128, nri := b0.toNat / 32 % 4, indType := b0.toNat % 32, s := b1.toNat / 128, e := b1.toNat / 64 % 2, type := b1.toNat % 32 } (some b) c2 := by
          rw [hfu]; unfold fuStart
          simp only
          rw [if_pos (h128.2 hst), nalHeader_eq, ap1]
          rfl
        rw [hfu2]
        exact hd
    · have hstart : fuStart mem0 { f := b0.toNat / 128, nri := b0.toNat / 32 % 4, indType := b0.toNat % 32, s := b1.toNat / 128, e := b1.toNat / 64 % 2, type := b1.toNat % 32 } s = some (.ok s) := by
        unfold fuStart
        simp only
        rw [if_neg (fun h => hst (h128.1 h))]
      rw [hstart, Option.bind_some] at hfu
      rw [if_neg (by simp [hst]), if_neg (by simpa using hst)]
      match s, a, ha with
      | none, none, _ => exact ⟨none, hfu, trivial⟩
      | some b, some x, ha =>
        simp only
        rw [hfu]
        exact hdata b x ha _ rfl

/-! ### Aggregates -/

theorem skip_behind {c : BitCtx} {r : List UInt8} (h : c.Al r) (n : Nat) : c.skipReadBytes (n : Int) = some { c with pos := c.pos + n } := by
  unfold BitCtx.skipReadBytes
  rw [if_neg (by omega)]
  simp only [h.rem, if_true, show ((c.pos : Int) + n).toNat = c.pos + n by omega]

theorem size_behind {c : BitCtx} (hr : c.remBits = 0) (hp : c.buf.length < c.pos) (hq : c.pos ≤ c.buf.length + 3) :
    c.size ≠ 0 ∧ c.sizeBits ≥ 40 ∧ c.readBits 8 = none := by
  have hs : c.sizeBits = (((2 ^ 64 + c.buf.length - c.pos) % 2 ^ 64) * 8) % 2 ^ 64 := by
    unfold BitCtx.sizeBits; rw [hr, Nat.add_zero]
  refine ⟨?_, ?_, ?_⟩
  · unfold BitCtx.size; rw [hs]; omega
  · rw [hs]; omega
  · have e : c.buf[c.pos]? = none := by simp; omega
    simp [BitCtx.readBits, BitCtx.readLoop, BitCtx.fetch, BitCtx.next, hr, e]

theorem stap_eq {c : BitCtx} {p : List UInt8} (h : c.Al p) (hp : 0 < p.length) (now : Int) (ts t : Nat) (ht : t = 24 ∨ t = 25) :
    stap t now ts c = aggregate (context now ts) t p := by
  unfold stap aggregate
  have hl := h.length
  rcases ht with rfl | rfl
  · rw [if_neg (by decide), if_pos rfl]
    simp only [Option.bind_some]
    match p, h, hp with
    | n :: r, h, _ =>
      obtain ⟨k, hk⟩ : ∃ k, c.buf.length + 1 = k + 2 := ⟨c.buf.length - 1, by simp at hl; omega⟩
      rw [hk, stapLoop_al now ts k h]
      simp only
      split <;> rfl
  · rw [if_pos rfl, if_neg (by decide), if_pos rfl]
    match p, h, hp with
    | [a], h, _ =>
      rw [show ((2 : Int)) = ((2 : Nat) : Int) by rfl, skip_behind h 2]
      simp only [Option.bind_some]
      simp only [List.length_singleton] at hl
      have := h.pos_le
      obtain ⟨s1, s2, s3⟩ := size_behind (c := { c with pos := c.pos + 2 }) h.rem (by simp only; omega) (by simp only; omega)
      rw [stapLoop, if_neg s1, s3]; rfl
    | [a, b], h, _ =>
      obtain ⟨c1, g1, g2, _⟩ := h.skip 2 (by simp)
      rw [show ((2 : Int)) = ((2 : Nat) : Int) by rfl, g1]
      simp only [Option.bind_some]
      rw [stapLoop, g2.size, if_pos (by simp)]
    | a :: b :: n :: r, h, _ =>
      obtain ⟨c1, g1, g2, _⟩ := h.skip 2 (by simp)
      rw [show ((2 : Int)) = ((2 : Nat) : Int) by rfl, g1]
      simp only [Option.bind_some]
      have hl1 := g2.length
      obtain ⟨k, hk⟩ : ∃ k, c1.buf.length + 1 = k + 2 := ⟨c1.buf.length - 1, by simp at hl1; omega⟩
      rw [hk]
      simp only [List.drop_succ_cons, List.drop_zero] at g2
      rw [stapLoop_al now ts k g2]
      split <;> rfl

theorem mtapLoop_al (off : Nat) (ho : off = 2 ∨ off = 3) (now : Int) (ts fuel : Nat) {c : BitCtx} {r : List UInt8} (h : c.Al r) (hr : 0 < r.length) :
    mtapLoop off now ts (fuel + 2) c [] =
      if r.length < 2 + off then some (Err.ERROR_IO_NOT_ENOUGH, [])
      else if (r.drop (2 + off)).length < (r.headD 0).toNat then some (Err.ERROR_IO_NOT_ENOUGH, [])
      else some (unitAnswer (context now ts) (r.drop (2 + off))) := by
  rw [mtapLoop, h.size, if_neg (by omega)]
  by_cases hl : r.length < 2 + off
  · rw [if_pos hl, h.acquire_fail _ (by omega) (by omega), if_pos (by decide)]
  · rw [if_neg hl, h.acquire _ (by omega) (by omega), if_neg (by decide)]
    match r, h, hr with
    | n :: r, h, _ =>
      have hb := n.toNat_lt
      simp only [List.length_cons] at hl
      obtain ⟨c1, e1, h1, _⟩ := h.read 1 (by decide) (by simp)
      obtain ⟨c2, e2, h2, _⟩ := h1.read 1 (by decide) (by simp; omega)
      obtain ⟨c3, e3, h3, _⟩ := h2.read off (by omega) (by simp; omega)
      have hv : beVal [n] = n.toNat := by simp [beVal]
      simp only [List.take_succ_cons, List.take_zero, hv, Nat.mul_one] at e1 e2
      have hw : (if off = 3 then 24 else 16) = 8 * off := by rcases ho with rfl | rfl <;> rfl
      simp only [List.drop_succ_cons, List.drop_zero, List.drop_drop] at h3
      rw [e1]; simp only [Option.bind_some]
      rw [e2]; simp only [Option.bind_some]
      rw [hw, e3]; simp only [Option.bind_some, List.headD_cons]
      rw [show (n :: r).drop (2 + off) = r.drop (1 + off) by rw [show 2 + off = (1 + off) + 1 by omega]; rfl]
      by_cases hs : (r.drop (1 + off)).length < n.toNat
      · rw [h3.acquire_fail _ (by omega) hs, if_pos (by decide)]; simp only [hs, if_true]
      · rw [h3.acquire _ (by omega) (by omega), if_neg (by decide)]; simp only [hs, if_false]
        obtain ⟨c4, n1, n2⟩ := nalu_al h3 now ts
        rw [n1]
        simp only [Option.bind_some, List.nil_append]
        by_cases he : (unitAnswer (context now ts) (r.drop (1 + off))).1 = Err.SUCCESS
        · rw [if_neg (by simp [he]), mtapLoop, (n2 he).size, if_pos (by simp), ← he]
        · rw [if_pos he]

theorem mtap_eq {c : BitCtx} {p : List UInt8} (h : c.Al p) (hp : 0 < p.length) (now : Int) (ts t : Nat) (ht : t = 26 ∨ t = 27) :
    mtap t now ts c = aggregate (context now ts) t p := by
  unfold mtap aggregate
  have hl := h.length
  rcases ht with rfl | rfl
  · simp only [show ¬ (26 : Nat) = 27 by decide, show ¬ (26 : Nat) = 24 by decide, show ¬ (26 : Nat) = 25 by decide, if_true, if_false,
      Option.bind_some]
    obtain ⟨k, hk⟩ : ∃ k, c.buf.length + 1 = k + 2 := ⟨c.buf.length - 1, by omega⟩
    rw [hk, mtapLoop_al 2 (by decide) now ts k h hp]
    match p, hp with
    | [a], _ => rfl
    | [a, b], _ => rfl
    | [a, b, d], _ => rfl
    | n :: b :: d :: e :: r, _ =>
      rw [if_neg (by simp)]
      simp only [List.drop_succ_cons, List.drop_zero, List.headD_cons, Nat.reduceAdd]
      split <;> rfl
  · simp only [show ¬ (27 : Nat) = 26 by decide, show ¬ (27 : Nat) = 24 by decide, show ¬ (27 : Nat) = 25 by decide, if_true, if_false]
    have hlt : ∀ q : List UInt8, c.Al q → 0 < q.length → q.length < 3 → ((c.skipReadBytes (3 : Int)).bind fun c => mtapLoop 3 now ts (c.buf.length + 1) c []) = none := by
      intro q hq h0 h3
      have hql := hq.length
      have := hq.pos_le
      rw [show ((3 : Int)) = ((3 : Nat) : Int) by rfl, skip_behind hq 3]
      simp only [Option.bind_some]
      obtain ⟨s1, s2, s3⟩ := size_behind (c := { c with pos := c.pos + 3 }) hq.rem (by simp only; omega) (by simp only; omega)
      have ha : ({ c with pos := c.pos + 3 } : BitCtx).acquire (1 + 1 + 3) = Err.SUCCESS := by
        unfold BitCtx.acquire BitCtx.acquireBits
        rw [if_pos s2]
      rw [mtapLoop, if_neg s1, ha, if_neg (by decide), s3]; rfl
    match p, h, hp with
    | [a], h, _ => exact hlt _ h (by simp) (by simp)
    | [a, b], h, _ => exact hlt _ h (by simp) (by simp)
    | a :: b :: d :: q, h, _ =>
      obtain ⟨c1, g1, g2, _⟩ := h.skip 3 (by simp)
      rw [show ((3 : Int)) = ((3 : Nat) : Int) by rfl, g1]
      simp only [Option.bind_some]
      simp only [List.drop_succ_cons, List.drop_zero] at g2
      have hl1 := g2.length
      have hl2 := h.small
      match q, g2, hl1 with
      | [], g2, _ => rw [mtapLoop, g2.size, if_pos (by simp)]
      | x :: q, g2, hl1 =>
        obtain ⟨k, hk⟩ : ∃ k, c1.buf.length + 1 = k + 2 := ⟨c1.buf.length - 1, by simp at hl1; omega⟩
        rw [hk, mtapLoop_al 3 (by decide) now ts k g2 (by simp)]
        match q with
        | [] => rfl
        | [_] => rfl
        | [_, _] => rfl
        | [_, _, _] => rfl
        | y :: z :: v :: w :: r =>
          rw [if_neg (by simp)]
          simp only [List.drop_succ_cons, List.drop_zero, List.headD_cons, Nat.reduceAdd]
          split <;> rfl

/-! ### Dispatch -/

theorem decode_eq (mem0 : List UInt8) (now : Int) (s : Option CharBuf) (h : RtpHeader) {c : BitCtx} {b : UInt8} {r : List UInt8}
    (hc : c.Al (b :: r)) : decode mem0 now s h c =
      if 1 ≤ b.toNat % 32 ∧ b.toNat % 32 ≤ 23 then
        some ((unitAnswer (context now h.timestamp) (b :: r)).1, s, (unitAnswer (context now h.timestamp) (b :: r)).2)
      else if 24 ≤ b.toNat % 32 ∧ b.toNat % 32 ≤ 27 then
        (aggregate (context now h.timestamp) (b.toNat % 32) (b :: r)).map fun x => (x.1, s, x.2)
      else if b.toNat % 32 = 28 ∨ b.toNat % 32 = 29 then fu mem0 now h.timestamp s c
      else some (Err.ERROR_RTP_PROBE, s, []) := by
  have hand : b.toNat &&& 0x1f = b.toNat % 32 := Nat.and_two_pow_sub_one_eq_mod b.toNat 5
  unfold decode
  rw [hc.acquire 1 (by decide) (by simp), if_neg (by decide)]
  obtain ⟨c1, e1, _⟩ := hc.bytes 1 (by simp)
  rw [e1]
  simp only [Option.bind_some, List.take_succ_cons, List.take_zero, List.headD_cons, hand]
  have hlt : b.toNat % 32 < 32 := Nat.mod_lt _ (by decide)
  have hs := fun h' => stap_eq hc (by simp) now h.timestamp (b.toNat % 32) h'
  have hm := fun h' => mtap_eq hc (by simp) now h.timestamp (b.toNat % 32) h'
  generalize b.toNat % 32 = t at *
  unfold create
  by_cases h1 : 1 ≤ t ∧ t ≤ 23
  · rw [if_pos (show 0 < t ∧ t < 24 by omega), if_pos h1]
    obtain ⟨c2, e2, _⟩ := nalu_al hc now h.timestamp
    simp only [e2, Option.map_some]
  · rw [if_neg (show ¬ (0 < t ∧ t < 24) by omega), if_neg h1]
    by_cases h2 : 24 ≤ t ∧ t ≤ 27
    · rw [if_pos h2]
      by_cases h3 : t = 25 ∨ t = 24
      · rw [if_pos h3]; simp only; rw [hs (by omega)]
      · rw [if_neg h3, if_pos (show t = 26 ∨ t = 27 by omega)]; simp only; rw [hm (by omega)]
    · rw [if_neg h2, if_neg (show ¬ (t = 25 ∨ t = 24) by omega), if_neg (show ¬ (t = 26 ∨ t = 27) by omega)]
      by_cases h3 : t = 28 ∨ t = 29
      · rw [if_pos h3, if_pos h3]
      · rw [if_neg h3, if_neg h3]

theorem decode_nil (mem0 : List UInt8) (now : Int) (s : Option CharBuf) (h : RtpHeader) {c : BitCtx} (hc : c.Al []) :
    decode mem0 now s h c = some (Err.ERROR_IO_NOT_ENOUGH, s, []) := by
  unfold decode
  rw [hc.acquire_fail 1 (by decide) (by simp), if_pos (by decide)]

end Sps.RtpH264
