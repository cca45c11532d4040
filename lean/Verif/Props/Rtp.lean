import Verif.Lemmas.RtpH264
import Verif.Lemmas.Rtcp
import Verif.Lemmas.RtpTs
import Verif.Spec.TsCodec
import Verif.Props.Codec
import Verif.Props.Ts
/-!
# RTP and RTCP
-/
namespace Sps
open Spec Spec.Rtp

/-! ## C32: the header -/

/-- The decoded header and what is left for the payload decoder. -/
def rtpParts (d : List UInt8) : Option (Except Err RtpHeader × List UInt8) :=
  (RtpHeader.decode.run (BitCtx.init d)).bind fun x => (x.2.readBytes x.2.size).map fun y => (x.1, y.1)

theorem rtpParts_eq (d : List UInt8) (hd : d.length < 2 ^ 29) :
    rtpParts d = some ((RtpHeader.result d).1, d.drop (RtpHeader.result d).2) := by
  obtain ⟨c, h1, h2⟩ := RtpHeader.run_decode d hd
  obtain ⟨c', h3, _⟩ := h2.bytes _ (Nat.le_refl _)
  unfold rtpParts
  rw [h1, Option.bind_some, h2.size, h3, List.take_length]
  rfl

/-- **C32.** The header of every packet without padding and extension decodes to the fields of the standard, and the payload is
what is left. Missing: padding and extensions (see below), packets of 512 MiB. -/
theorem C32_payload_partial (d : List UInt8) (h : valid d) (hp : field d 2 1 = 0) (hx : field d 3 1 = 0) :
    rtpParts d = some (.ok (header d), payload d) := by
  rw [rtpParts_eq d h.small, RtpTs.result_plain h hx, RtpTs.payload_plain hx hp]

/-- **C32**, the fields of every valid packet, whatever the flags. -/
theorem C32_fields (d : List UInt8) (h : valid d) :
    ∃ hd p, rtpParts d = some (.ok hd, p) ∧ { hd with profile := 0, extLen := 0, ext := [] } = header d := by
  rw [rtpParts_eq d h.small]
  have h1 := h.fixed
  have h2 := h.size
  have h3 : 12 ≤ fixedSize d := by unfold fixedSize; omega
  unfold headSize at h2
  unfold RtpHeader.result
  by_cases hx : field d 3 1 = 0
  · rw [if_neg (by omega), if_neg (by omega), if_pos hx]
    exact ⟨_, _, rfl, rfl⟩
  · have h4 : field d 3 1 < 2 := BProg.field_lt d 3 1
    rw [if_pos (by omega)] at h2
    rw [if_neg (by omega), if_neg (by omega), if_neg hx, if_neg (by omega)]
    split
    · exact ⟨_, _, rfl, rfl⟩
    · rw [if_neg (by omega)]
      exact ⟨_, _, rfl, rfl⟩

/-- **C32**, an extension without content: skipped. -/
theorem C32_empty_extension (d : List UInt8) (h : valid d) (hp : field d 2 1 = 0) (hx : field d 3 1 = 1) (hw : extWords d = 0) :
    ∃ hd, rtpParts d = some (.ok hd, payload d) := by
  have h1 := h.fixed
  have h2 := h.size
  have h3 : 12 ≤ fixedSize d := by unfold fixedSize; omega
  unfold headSize at h2
  rw [if_pos hx] at h2
  rw [rtpParts_eq d h.small]
  unfold RtpHeader.result payload headSize padSize
  rw [if_neg (by omega), if_neg (by omega), if_neg (by omega), if_neg (by omega), if_pos hw, if_pos hx, if_neg (by omega), hw]
  simp only [Nat.mul_zero, Nat.add_zero, Nat.sub_zero]
  rw [List.take_of_length_le (by simp)]
  exact ⟨_, rfl⟩

/-- **C32**, a packet shorter than its header is refused. -/
theorem C32_short (d : List UInt8) (h : d.length < 12 ∨ d.length < fixedSize d) (hs : d.length < 2 ^ 29) :
    ∃ p, rtpParts d = some (.error Err.ERROR_IO_NOT_ENOUGH, p) := by
  rw [rtpParts_eq d hs]
  unfold RtpHeader.result
  by_cases h1 : d.length < 12
  · rw [if_pos h1]; exact ⟨_, rfl⟩
  · rw [if_neg h1, if_pos (by omega)]; exact ⟨_, rfl⟩

/-- **C32**, no packet makes the decoder read outside of it. -/
theorem C32_inside (d : List UInt8) (hs : d.length < 2 ^ 29) : rtpParts d ≠ none := by
  rw [rtpParts_eq d hs]; simp

/-- C32 fails for every packet with padding: the padding stays in the payload. -/
theorem C32_negation_padding (d : List UInt8) (h : valid d) (hp : field d 2 1 = 1) (hx : field d 3 1 = 0) :
    ∃ p, rtpParts d = some (.ok (header d), p) ∧ p ≠ payload d := by
  refine ⟨d.drop (fixedSize d), by rw [rtpParts_eq d h.small, RtpTs.result_plain h hx], ?_⟩
  intro he
  have h1 := congrArg List.length he
  have h2 := h.size
  have h3 := h.pad hp
  have h4 : headSize d = fixedSize d := by unfold headSize; rw [if_neg (by omega)]; rfl
  unfold payload at h1
  rw [h4] at h1 h2
  simp only [List.length_take, List.length_drop] at h1
  omega

/-- C32 fails for every packet with a non-empty extension: its length is taken for bytes instead of words, so most of the
extension stays in the payload. -/
theorem C32_negation_extension (d : List UInt8) (h : valid d) (hp : field d 2 1 = 0) (hx : field d 3 1 = 1) (hw : extWords d ≠ 0) :
    ∃ hd p, rtpParts d = some (.ok hd, p) ∧ p ≠ payload d := by
  have h1 := h.fixed
  have h2 := h.size
  have h3 : 12 ≤ fixedSize d := by unfold fixedSize; omega
  have h4 : headSize d = fixedSize d + (4 + 4 * extWords d) := by unfold headSize; rw [if_pos hx]
  have h5 : padSize d = 0 := by unfold padSize; rw [if_neg (by omega)]
  have hr : ∃ hd, RtpHeader.result d = (.ok hd, fixedSize d + 4 + extWords d) := by
    unfold RtpHeader.result
    rw [if_neg (by omega), if_neg (by omega), if_neg (by omega), if_neg (by omega), if_neg hw, if_neg (by omega)]
    exact ⟨_, rfl⟩
  obtain ⟨hd, hr⟩ := hr
  refine ⟨hd, _, by rw [rtpParts_eq d h.small, hr], ?_⟩
  intro he
  have h6 := congrArg List.length he
  unfold payload at h6
  rw [h4, h5] at h6
  simp only [List.length_take, List.length_drop] at h6
  omega

/-- A packet with one csrc and three bytes of payload; with padding; with an extension of one word. -/
def rtpPlain : List UInt8 := [0x81, 0xe1, 0x12, 0x34, 0, 0, 0, 9, 1, 2, 3, 4, 5, 6, 7, 8, 0xaa, 0xbb, 0xcc]
def rtpPadded : List UInt8 := [0xa0, 0x60, 0, 1, 0, 0, 0, 9, 1, 2, 3, 4, 0xaa, 0, 2]
def rtpExtended : List UInt8 := [0x90, 0x60, 0, 1, 0, 0, 0, 9, 1, 2, 3, 4, 0xbe, 0xde, 0, 1, 0x10, 0xff, 0, 0, 0xaa]
def rtpExtendedEmpty : List UInt8 := [0x90, 0x60, 0, 1, 0, 0, 0, 9, 1, 2, 3, 4, 0xbe, 0xde, 0, 0, 0xaa]

example : valid rtpPlain ∧ field rtpPlain 2 1 = 0 ∧ field rtpPlain 3 1 = 0 ∧ payload rtpPlain = [0xaa, 0xbb, 0xcc] ∧
    (header rtpPlain).csrc = [0x05060708] ∧ (header rtpPlain).seq = 0x1234 ∧ (header rtpPlain).mark = 1 ∧ (header rtpPlain).payloadType = 97 :=
  ⟨⟨by decide +kernel, by decide +kernel, by decide +kernel, by decide +kernel⟩, by decide +kernel⟩
example : valid rtpPadded ∧ field rtpPadded 2 1 = 1 ∧ field rtpPadded 3 1 = 0 ∧ payload rtpPadded = [0xaa] :=
  ⟨⟨by decide +kernel, by decide +kernel, by decide +kernel, by decide +kernel⟩, by decide +kernel⟩
example : valid rtpExtended ∧ field rtpExtended 2 1 = 0 ∧ field rtpExtended 3 1 = 1 ∧ extWords rtpExtended ≠ 0 ∧ payload rtpExtended = [0xaa] :=
  ⟨⟨by decide +kernel, by decide +kernel, by decide +kernel, by decide +kernel⟩, by decide +kernel⟩
example : valid rtpExtendedEmpty ∧ field rtpExtendedEmpty 2 1 = 0 ∧ field rtpExtendedEmpty 3 1 = 1 ∧ extWords rtpExtendedEmpty = 0 ∧
    payload rtpExtendedEmpty = [0xaa] :=
  ⟨⟨by decide +kernel, by decide +kernel, by decide +kernel, by decide +kernel⟩, by decide +kernel⟩
example : (rtpExtended.take 11).length < 12 ∧ (rtpPlain.take 14).length < fixedSize (rtpPlain.take 14) := by decide +kernel

/-! ## C35: dispatch -/

/-- One payload, by the refinement. -/
theorem decode_step (c : Call) (hc : c.ok) {s : Option CharBuf} {a : Option (List UInt8)} (ha : RtpH264.Holds s a) :
    match step (context c.now c.header.timestamp) a c.payload with
    | none => RtpH264.decode c.mem0 c.now s c.header (BitCtx.init c.payload) = none
    | some (e, a', pk) => ∃ s', RtpH264.decode c.mem0 c.now s c.header (BitCtx.init c.payload) = some (e, s', pk) ∧ RtpH264.Holds s' a' := by
  obtain ⟨mem0, now, h, p⟩ := c
  obtain ⟨hm, hp⟩ := hc
  simp only at hm hp ⊢
  have al := BitCtx.Al.init p hp
  match p, hp, al with
  | [], hp, al => rw [RtpH264.decode_nil _ _ _ _ al]; exact ⟨s, rfl, ha⟩
  | b :: r, hp, al =>
    rw [RtpH264.decode_eq _ _ _ _ al]
    rw [step]
    by_cases h1 : 1 ≤ b.toNat % 32 ∧ b.toNat % 32 ≤ 23
    · rw [if_pos h1, if_pos h1]; exact ⟨s, rfl, ha⟩
    · rw [if_neg h1, if_neg h1]
      by_cases h2 : 24 ≤ b.toNat % 32 ∧ b.toNat % 32 ≤ 27
      · rw [if_pos h2, if_pos h2]
        cases aggregate (context now h.timestamp) (b.toNat % 32) (b :: r) with
        | none => rfl
        | some x => exact ⟨s, rfl, ha⟩
      · rw [if_neg h2, if_neg h2]
        by_cases h3 : b.toNat % 32 = 28 ∨ b.toNat % 32 = 29
        · rw [if_pos h3, if_pos h3]; exact RtpH264.fu_step al mem0 hm now h.timestamp ha
        · rw [if_neg h3, if_neg h3]; exact ⟨s, rfl, ha⟩

theorem session_answers : ∀ (cs : List Call) (s : Option CharBuf) (a : Option (List UInt8)), RtpH264.Holds s a → (∀ c ∈ cs, c.ok) →
    match answers a cs with
    | none => session s cs = none
    | some (l, a') => ∃ s', session s cs = some (l, s') ∧ RtpH264.Holds s' a'
  | [], s, _, ha, _ => ⟨s, rfl, ha⟩
  | c :: cs, s, a, ha, hc => by
    have h := decode_step c (hc c (by simp)) ha
    rw [session, answers]
    cases hs : step (context c.now c.header.timestamp) a c.payload with
    | none => rw [hs] at h; simp only at h; rw [h]; rfl
    | some x =>
      obtain ⟨e, a', pk⟩ := x
      rw [hs] at h
      obtain ⟨s', h1, h2⟩ := h
      rw [h1]
      simp only [Option.bind_some]
      have ih := session_answers cs s' a' h2 fun c' h' => hc c' (by simp [h'])
      cases ha2 : answers a' cs with
      | none => rw [ha2] at ih; simp only at ih; rw [ih]; rfl
      | some y =>
        obtain ⟨l, a2⟩ := y
        rw [ha2] at ih
        obtain ⟨s2, h3, h4⟩ := ih
        rw [h3]
        exact ⟨s2, rfl, h4⟩

/-- **C35.** Every history of payloads given to a decoder is answered payload by payload as `step` tells: types 1 to 23 are single
units, 24 to 27 aggregates, 28 and 29 fragments, and everything else is an error; only fragments touch the unit in progress. -/
theorem C35_dispatch (cs : List Call) (hc : ∀ c ∈ cs, c.ok) : (session none cs).map (·.1) = (answers none cs).map (·.1) := by
  have h := session_answers cs none none trivial hc
  cases ha : answers none cs with
  | none => rw [ha] at h; simp only at h; rw [h]; rfl
  | some x =>
    rw [ha] at h
    obtain ⟨s, h1, _⟩ := h
    rw [h1]; rfl

/-- **C35**, single units: exactly the parser's answer to the unit, and a unit in progress stays. -/
theorem C35_single (mem0 : List UInt8) (now : Int) (s : Option CharBuf) (h : RtpHeader) (b : UInt8) (r : List UInt8)
    (ht : 1 ≤ b.toNat % 32 ∧ b.toNat % 32 ≤ 23) (hl : (b :: r).length < 2 ^ 29) :
    RtpH264.decode mem0 now s h (BitCtx.init (b :: r)) =
      some ((unitAnswer (context now h.timestamp) (b :: r)).1, s, (unitAnswer (context now h.timestamp) (b :: r)).2) := by
  rw [RtpH264.decode_eq _ _ _ _ (BitCtx.Al.init _ hl), if_pos ht]

/-- **C35**, the types without a meaning are refused. -/
theorem C35_refused (mem0 : List UInt8) (now : Int) (s : Option CharBuf) (h : RtpHeader) (b : UInt8) (r : List UInt8)
    (ht : b.toNat % 32 = 0 ∨ 30 ≤ b.toNat % 32) (hl : (b :: r).length < 2 ^ 29) :
    RtpH264.decode mem0 now s h (BitCtx.init (b :: r)) = some (Err.ERROR_RTP_PROBE, s, []) := by
  rw [RtpH264.decode_eq _ _ _ _ (BitCtx.Al.init _ hl), if_neg (by omega), if_neg (by omega), if_neg (by omega)]

/-- **C35**, only fragments change the unit in progress. -/
theorem C35_undisturbed (mem0 : List UInt8) (now : Int) (s : Option CharBuf) (h : RtpHeader) (p : List UInt8)
    (ht : ∀ b r, p = b :: r → b.toNat % 32 ≠ 28 ∧ b.toNat % 32 ≠ 29) (hl : p.length < 2 ^ 29) {e : Err} {s' : Option CharBuf} {pk : List AVPkt}
    (hr : RtpH264.decode mem0 now s h (BitCtx.init p) = some (e, s', pk)) : s' = s := by
  match p, ht, hl with
  | [], _, hl => rw [RtpH264.decode_nil _ _ _ _ (BitCtx.Al.init _ hl)] at hr; cases hr; rfl
  | b :: r, ht, hl =>
    obtain ⟨h1, h2⟩ := ht b r rfl
    rw [RtpH264.decode_eq _ _ _ _ (BitCtx.Al.init _ hl)] at hr
    split at hr
    · cases hr; rfl
    · split at hr
      · rw [Option.map_eq_some_iff] at hr
        obtain ⟨x, _, hx⟩ := hr
        cases hx; rfl
      · rw [if_neg (by omega)] at hr
        cases hr; rfl

/-- The decision for all first bytes with an empty rest, checked against the table of the standard. -/
example : ∀ t : Fin 256, (step (context 0 0) none [UInt8.ofNat t.val]).map (·.1) =
    if t.val % 32 = 0 ∨ 30 ≤ t.val % 32 then some Err.ERROR_RTP_PROBE
    else if t.val % 32 ≤ 23 then some (unitAnswer (context 0 0) [UInt8.ofNat t.val]).1
    else if t.val % 32 = 25 ∨ t.val % 32 = 27 then none
    else some Err.ERROR_IO_NOT_ENOUGH := by decide +kernel

example : (answers none [{ mem0 := [], now := 5, header := { timestamp := 180 }, payload := [0x65, 1, 2] },
      { mem0 := [], now := 5, header := {}, payload := [0x7f] }, { mem0 := [], now := 5, header := {}, payload := [] }]).map (·.1) =
    some [(Err.SUCCESS, [{ stream := .video, pktType := 1, payload := [0, 0, 0, 3, 0x65, 1, 2], dts := 5, pts := 2, flags := 0x17, codec := 7 }]),
      (Err.ERROR_RTP_PROBE, []), (Err.ERROR_IO_NOT_ENOUGH, [])] := by decide +kernel

/-! ## C33: fragments -/

theorem ofNat_toNat_small {n : Nat} (h : n < 256) : (UInt8.ofNat n).toNat = n := by
  rw [UInt8.toNat_ofNat']; exact Nat.mod_eq_of_lt h

/-- The effect of a fragment. -/
theorem step_fragment (ctx : CodecCtx) (st : Option (List UInt8)) (h : UInt8) (don : Option (UInt8 × UInt8)) (start fin : Bool) (d : List UInt8) :
    step ctx st (fragment h don start fin d) =
      if start = true ∧ st.isSome = true then some (Err.ERROR_RTP_DECODER_H264, st, [])
      else match (if start = true then some [h] else st) with
        | none => some (Err.SUCCESS, none, [])
        | some a =>
          if 2 ^ 20 < (a ++ d).length then none
          else if fin = true then
            some ((unitAnswer ctx (a ++ d)).1, if (unitAnswer ctx (a ++ d)).1 = Err.SUCCESS then none else some (a ++ d), (unitAnswer ctx (a ++ d)).2)
          else some (Err.SUCCESS, some (a ++ d), []) := by
  have hh := h.toNat_lt
  have h0 : (UInt8.ofNat (h.toNat / 32 * 32 + (if don.isSome then 29 else 28))).toNat = h.toNat / 32 * 32 + (if don.isSome then 29 else 28) :=
    ofNat_toNat_small (by split <;> omega)
  have h1 : (UInt8.ofNat ((if start then 128 else 0) + (if fin then 64 else 0) + h.toNat % 32)).toNat =
      (if start then 128 else 0) + (if fin then 64 else 0) + h.toNat % 32 :=
    ofNat_toNat_small (by split <;> split <;> omega)
  have h2 : (h.toNat / 32 * 32 + (if don.isSome then 29 else 28)) % 32 = if don.isSome then 29 else 28 := by split <;> omega
  have h3 : (h.toNat / 32 * 32 + (if don.isSome then 29 else 28)) / 32 = h.toNat / 32 := by split <;> omega
  have h4 : ((if start then 128 else 0) + (if fin then 64 else 0) + h.toNat % 32) % 32 = h.toNat % 32 := by split <;> split <;> omega
  have h5 : decide (128 ≤ (if start then 128 else 0) + (if fin then 64 else 0) + h.toNat % 32) = start := by
    cases start <;> cases fin <;> simp <;> omega
  have h6 : decide (64 ≤ ((if start then 128 else 0) + (if fin then 64 else 0) + h.toNat % 32) % 128) = fin := by
    cases start <;> cases fin <;> simp <;> omega
  have h7 : UInt8.ofNat (h.toNat / 32 * 32 + h.toNat % 32) = h := by
    rw [show h.toNat / 32 * 32 + h.toNat % 32 = h.toNat by omega]; exact UInt8.ofNat_toNat
  have h8 : (if don.isSome then 29 else 28 : Nat) = 28 ∨ (if don.isSome then 29 else 28 : Nat) = 29 := by split <;> simp
  unfold fragment
  rw [step]
  simp only [h0, h2]
  rw [if_neg (by omega), if_neg (by omega), if_pos h8]
  rw [fragmentStep]
  simp only [h0, h1, h2, h3, h4, h5, h6, h7]
  by_cases hs : start = true ∧ st.isSome = true
  · rw [if_pos hs, if_pos hs]
  · rw [if_neg hs, if_neg hs]
    cases (if start = true then some [h] else st) with
    | none => rfl
    | some a =>
      cases don with
      | none => simp
      | some x => simp; intro h; omega

/-- The fragments after the first, added to `a`. -/
theorem answers_tail (h : UInt8) : ∀ (ds : List (List UInt8)) (a : List UInt8) (cs : List Call) (last : Call), ds ≠ [] →
    (cs ++ [last]).map (·.payload) = tailFragments h ds → (a ++ ds.flatten).length ≤ 2 ^ 20 →
    answers (some a) (cs ++ [last]) = some (List.replicate cs.length (Err.SUCCESS, []) ++ [unitAnswer (context last.now last.header.timestamp) (a ++ ds.flatten)],
      if (unitAnswer (context last.now last.header.timestamp) (a ++ ds.flatten)).1 = Err.SUCCESS then none else some (a ++ ds.flatten))
  | [], _, _, _, h0, _, _ => absurd rfl h0
  | [d], a, cs, last, _, hp, hl => by
    have hc : cs = [] := by
      have := congrArg List.length hp
      simp only [tailFragments, List.length_map, List.length_append, List.length_singleton] at this
      exact List.length_eq_zero_iff.1 (by omega)
    subst hc
    simp only [List.nil_append, List.map_cons, List.map_nil, tailFragments, List.cons.injEq, and_true] at hp
    simp only [List.flatten_cons, List.flatten_nil, List.append_nil] at hl ⊢
    simp only [List.nil_append]
    rw [answers, hp, step_fragment]
    simp only [Bool.false_eq_true, false_and, if_false, if_true]
    rw [if_neg (by omega)]
    simp only [Option.bind_some, answers, Option.map_some, List.length_nil, List.replicate_zero, List.nil_append]
  | d :: d2 :: ds, a, [], last, _, hp, hl => by
    have := congrArg List.length hp
    cases ds <;> simp [tailFragments] at this
  | d :: d2 :: ds, a, c :: cs, last, _, hp, hl => by
    simp only [tailFragments, List.cons_append, List.map_cons, List.cons.injEq] at hp
    obtain ⟨hp1, hp2⟩ := hp
    have ha : a ++ (d :: d2 :: ds).flatten = (a ++ d) ++ (d2 :: ds).flatten := by simp
    rw [ha] at hl ⊢
    have hl1 : (a ++ d).length ≤ 2 ^ 20 := by rw [List.length_append] at hl; omega
    rw [List.cons_append, answers, hp1, step_fragment]
    simp only [Bool.false_eq_true, false_and, if_false]
    rw [if_neg (by omega)]
    simp only [Option.bind_some]
    rw [answers_tail h (d2 :: ds) (a ++ d) cs last (by simp) hp2 hl]
    simp [List.replicate_succ]

/-- **C33.** Every unit `h :: d ++ ds.flatten`, cut anywhere into two or more fragments (FU-A, or FU-B at the start), each in a
packet of its own: no fragment but the last gives anything, and the last gives exactly what the parser answers to the whole unit;
after it nothing is left over if the parser accepts it. Missing: units of more than a megabyte (see below), and the report of a
missing start. -/
theorem C33_reassembled_partial (h : UInt8) (don : Option (UInt8 × UInt8)) (d : List UInt8) (ds : List (List UInt8)) (hd : ds ≠ [])
    (hl : (h :: d ++ ds.flatten).length ≤ 2 ^ 20) (cs : List Call) (last : Call) (hc : ∀ c ∈ cs ++ [last], c.ok)
    (hp : (cs ++ [last]).map (·.payload) = fragments h don d ds) :
    ∃ s, session none (cs ++ [last]) = some (List.replicate cs.length (Err.SUCCESS, []) ++
        [unitAnswer (context last.now last.header.timestamp) (h :: d ++ ds.flatten)], s) ∧
      ((unitAnswer (context last.now last.header.timestamp) (h :: d ++ ds.flatten)).1 = Err.SUCCESS → s = none) := by
  have hs := session_answers (cs ++ [last]) none none trivial hc
  have ha : answers none (cs ++ [last]) = some (List.replicate cs.length (Err.SUCCESS, []) ++ [unitAnswer (context last.now last.header.timestamp) (h :: d ++ ds.flatten)],
      if (unitAnswer (context last.now last.header.timestamp) (h :: d ++ ds.flatten)).1 = Err.SUCCESS then none else some (h :: d ++ ds.flatten)) := by
    match cs, hp with
    | [], hp =>
      have := congrArg List.length hp
      match ds, hd with
      | [x], _ => simp [fragments, tailFragments] at this
      | x :: y :: l, _ => simp [fragments, tailFragments] at this
    | c :: cs, hp =>
      simp only [List.cons_append, List.map_cons, fragments, List.cons.injEq] at hp
      obtain ⟨hp1, hp2⟩ := hp
      have hl1 : ([h] ++ d).length ≤ 2 ^ 20 := by simp at hl ⊢; omega
      rw [List.cons_append, answers, hp1, step_fragment]
      simp only [Option.isSome_none, Bool.false_eq_true, and_false, if_false, if_true]
      rw [if_neg (by omega)]
      simp only [Option.bind_some]
      have he : h :: d ++ ds.flatten = ([h] ++ d) ++ ds.flatten := by simp
      rw [he] at hl ⊢
      rw [answers_tail h ds ([h] ++ d) cs last hd hp2 hl]
      simp [List.replicate_succ]
  rw [ha] at hs
  obtain ⟨s, h1, h2⟩ := hs
  refine ⟨s, h1, fun he => ?_⟩
  rw [if_pos he] at h2
  cases s with
  | none => rfl
  | some b => exact absurd h2 (by simp [RtpH264.Holds])

/-- **C33**, in terms of single-unit packets: the fragments give what the unit gives when it is sent in one packet. -/
theorem C33_same_as_single (h : UInt8) (don : Option (UInt8 × UInt8)) (d : List UInt8) (ds : List (List UInt8)) (hd : ds ≠ [])
    (ht : 1 ≤ h.toNat % 32 ∧ h.toNat % 32 ≤ 23)
    (hl : (h :: d ++ ds.flatten).length ≤ 2 ^ 20) (cs : List Call) (last : Call) (hc : ∀ c ∈ cs ++ [last], c.ok)
    (hp : (cs ++ [last]).map (·.payload) = fragments h don d ds) :
    ∃ s x, session none (cs ++ [last]) = some (List.replicate cs.length (Err.SUCCESS, []) ++ [x], s) ∧
      session none [{ last with payload := h :: d ++ ds.flatten }] = some ([x], none) := by
  obtain ⟨s, h1, _⟩ := C33_reassembled_partial h don d ds hd hl cs last hc hp
  refine ⟨s, _, h1, ?_⟩
  rw [session]
  have := C35_single last.mem0 last.now none last.header h (d ++ ds.flatten) ht (by simp at hl ⊢; omega)
  simp only [List.cons_append] at this ⊢
  rw [this]
  rfl

/-- C33 fails: a fragment whose start was lost is ignored with `SUCCESS`, it is not reported. -/
theorem C33_negation_missing_start (ctx : CodecCtx) (h : UInt8) (don : Option (UInt8 × UInt8)) (fin : Bool) (d : List UInt8) :
    step ctx none (fragment h don false fin d) = some (Err.SUCCESS, none, []) := by
  rw [step_fragment]; simp

/-- C33 fails: when the end of a unit was lost, the start of the next one is refused, but the old beginning stays, and the rest of
the next unit is added to it: a unit that nobody sent is passed on. -/
theorem C33_negation_restart (h h2 : UInt8) (a : List UInt8) (don : Option (UInt8 × UInt8)) (d : List UInt8) (ds : List (List UInt8)) (hd : ds ≠ [])
    (hl : (h :: a ++ ds.flatten).length ≤ 2 ^ 20) (c : Call) (cs : List Call) (last : Call)
    (hp : (c :: cs ++ [last]).map (·.payload) = fragments h2 don d ds) :
    (answers (some (h :: a)) (c :: cs ++ [last])).map (·.1) = some ((Err.ERROR_RTP_DECODER_H264, []) :: List.replicate cs.length (Err.SUCCESS, []) ++
        [unitAnswer (context last.now last.header.timestamp) (h :: a ++ ds.flatten)]) := by
  simp only [List.cons_append, List.map_cons, fragments, List.cons.injEq] at hp
  obtain ⟨hp1, hp2⟩ := hp
  rw [List.cons_append, answers, hp1, step_fragment, if_pos (by simp)]
  simp only [Option.bind_some]
  rw [answers_tail h2 ds (h :: a) cs last hd hp2 hl]
  simp

/-- C33 fails for units of more than a megabyte: the buffer overflows. -/
theorem C33_negation_large (mem0 : List UInt8) (hm : mem0.length = 2 ^ 20) (now : Int) (hd : RtpHeader) (h : UInt8) (fin : Bool) (d : List UInt8)
    (hl : 2 ^ 20 < (h :: d).length) (hs : d.length < 2 ^ 28) :
    RtpH264.decode mem0 now none hd (BitCtx.init (fragment h none true fin d)) = none := by
  have := decode_step { mem0 := mem0, now := now, header := hd, payload := fragment h none true fin d } ⟨hm, by simp [fragment]; omega⟩
    (s := none) (a := none) trivial
  simp only [step_fragment] at this
  simp only [Option.isSome_none, Bool.false_eq_true, and_false, if_false, if_true] at this
  rw [if_pos (by simpa using hl)] at this
  exact this

/-- An IDR slice in three fragments. -/
def fuCalls : List Call := (fragments 0x65 none [1, 2] [[3], [4, 5]]).map fun p => { mem0 := List.replicate (2 ^ 20) 0, now := 1, header := {}, payload := p }

example : fragments 0x65 none [1, 2] [[3], [4, 5]] = [[0x7c, 0x85, 1, 2], [0x7c, 0x05, 3], [0x7c, 0x45, 4, 5]] := by decide +kernel
example : fragments 0x65 (some (0, 7)) [1, 2] [[4, 5]] = [[0x7d, 0x85, 0, 7, 1, 2], [0x7c, 0x45, 4, 5]] := by decide +kernel
example : (answers none fuCalls).map (fun x => x.1.map fun y => y.2.map (·.payload)) = some [[], [], [[0, 0, 0, 6, 0x65, 1, 2, 3, 4, 5]]] := by decide +kernel
example : ∀ c ∈ fuCalls, c.ok := by
  intro c hc
  obtain ⟨p, hp, rfl⟩ := List.mem_map.1 hc
  refine ⟨List.length_replicate, ?_⟩
  have : ∀ p ∈ fragments 0x65 none [1, 2] [[3], [4, 5]], p.length < 2 ^ 29 := by decide +kernel
  exact this p hp

/-! ## C34: aggregates -/

/-- **C34**, what every STAP and MTAP payload gives: `Spec.Rtp.aggregate`. It is not the list of units (below).

Missing: the units of the payload (`C34_negation_stap`). -/
theorem C34_exact_partial (mem0 : List UInt8) (now : Int) (s : Option CharBuf) (h : RtpHeader) (b : UInt8) (r : List UInt8)
    (ht : 24 ≤ b.toNat % 32 ∧ b.toNat % 32 ≤ 27) (hl : (b :: r).length < 2 ^ 29) :
    RtpH264.decode mem0 now s h (BitCtx.init (b :: r)) =
      (aggregate (context now h.timestamp) (b.toNat % 32) (b :: r)).map fun x => (x.1, s, x.2) := by
  rw [RtpH264.decode_eq _ _ _ _ (BitCtx.Al.init _ hl), if_neg (by omega), if_pos ht]

/-- The packets for one unit are none, a sequence header, or one packet with the unit behind its length. -/
theorem unitAnswer_shape (ctx : CodecCtx) (u : List UInt8) : (unitAnswer ctx u).2 = [] ∨ (∃ d l, (unitAnswer ctx u).2 = H264.headerPacket d :: l) ∨
    ∃ p, (unitAnswer ctx u).2 = [p] ∧ p.payload.length = 4 + u.length := by
  cases u with
  | nil => exact Or.inl rfl
  | cons b r =>
    simp only [unitAnswer]
    split
    · exact Or.inl rfl
    · unfold H264.answer
      split
      · simp only [List.filterMap_cons, List.filterMap_nil, H264.unitPacket]
        cases H264.frameType (H264.unitType (b :: r)) with
        | none => exact Or.inl rfl
        | some f =>
          refine Or.inr (Or.inr ⟨_, rfl, ?_⟩)
          simp only [List.length_append, beBytes_length]
      · split
        · exact Or.inr (Or.inl ⟨_, _, rfl⟩)
        · exact Or.inl rfl

/-- C34 fails for every STAP-A: whatever the units (at least one, all of a kind that is passed on), the packets that come out are
not those of the units. -/
theorem C34_negation_stap (mem0 : List UInt8) (now : Int) (s : Option CharBuf) (h : RtpHeader) (top : Nat) (htop : top < 8)
    (us : List (List UInt8)) (hne : us ≠ []) (hu : ∀ u ∈ us, H264.unitPacket (context now h.timestamp) u ≠ none)
    (hl : (stapA top us).length < 2 ^ 29) : ∃ e out, RtpH264.decode mem0 now s h (BitCtx.init (stapA top us)) = some (e, s, out) ∧
      out ≠ us.filterMap (H264.unitPacket (context now h.timestamp)) := by
  have ht : (UInt8.ofNat (top * 32 + 24)).toNat = top * 32 + 24 := ofNat_toNat_small (by omega)
  have h24 : (top * 32 + 24) % 32 = 24 := by omega
  have hd := C34_exact_partial mem0 now s h (UInt8.ofNat (top * 32 + 24)) (H264.prefixed 2 us) (by rw [ht, h24]; decide) hl
  unfold stapA
  rw [hd, ht, h24, aggregate]
  simp only [if_true, Option.map_some, ht]
  refine ⟨_, _, rfl, ?_⟩
  match us, hne, hu with
  | u :: us, _, hu =>
    have hu0 := hu u (by simp)
    cases hp : H264.unitPacket (context now h.timestamp) u with
    | none => exact absurd hp hu0
    | some q =>
      rw [List.filterMap_cons, hp]
      simp only
      have hq : q.pktType = 1 ∧ q.payload.length = 4 + u.length := by
        unfold H264.unitPacket at hp
        rw [Option.map_eq_some_iff] at hp
        obtain ⟨f, _, hf⟩ := hp
        subst hf
        simp [beBytes_length]
      have hlen : u.length + 2 ≤ (H264.prefixed 2 (u :: us)).length := by
        simp [H264.prefixed, beBytes_length]; omega
      split
      · simp
      · rcases unitAnswer_shape (context now h.timestamp) (H264.prefixed 2 (u :: us)) with h1 | ⟨d, l, h1⟩ | ⟨p, h1, h2⟩
        · rw [h1]; simp
        · rw [h1]
          intro he
          have := (List.cons.inj he).1
          rw [← this] at hq
          simp [H264.headerPacket] at hq
        · rw [h1]
          intro he
          have := (List.cons.inj he).1
          rw [this] at h2
          omega

/-- C34 fails: a STAP-B of one byte, and a MTAP24 of fewer than three, make the decoder read outside of the packet. -/
theorem C34_negation_inside (mem0 : List UInt8) (now : Int) (s : Option CharBuf) (h : RtpHeader) :
    RtpH264.decode mem0 now s h (BitCtx.init [0x79]) = none ∧ RtpH264.decode mem0 now s h (BitCtx.init [0x7b, 0]) = none := by
  constructor
  · rw [C34_exact_partial _ _ _ _ _ _ (by decide) (by simp)]; rfl
  · rw [C34_exact_partial _ _ _ _ _ _ (by decide) (by simp)]; rfl

/-- Two slices in a STAP-A: nothing comes out. -/
def stapUnits : List (List UInt8) := [[0x41, 1, 2], [0x65, 3]]
example : stapA 3 stapUnits = [0x78, 0, 3, 0x41, 1, 2, 0, 2, 0x65, 3] ∧ stapUnits.filterMap (H264.unitPacket (context 1 0)) ≠ [] ∧
    (∀ u ∈ stapUnits, H264.unitPacket (context 1 0) u ≠ none) ∧ (stapA 3 stapUnits).length < 2 ^ 29 ∧
    aggregate (context 1 0) 24 (stapA 3 stapUnits) = some (Err.ERROR_IO_NOT_ENOUGH, []) := by decide +kernel

/-! ## C60: RTCP -/

deriving instance DecidableEq for Except

/-- **C60.** What the decoder makes of every buffer, and that it stays inside of it unless the first packet is a source
description with chunks. Missing: everything but the first packet of a compound, the length field, and the source of each report
block (the report block of the standard has six words, of which the code reads five: `reportBlock` is shifted, see below). -/
theorem C60_first_partial (d : List UInt8) (hd : d.length < 2 ^ 29) : Rtcp.decode d =
    if d.length < 4 then some (.error Err.ERROR_RTP_PROBE)
    else if rtcpType d = 200 then
      if d.length < 28 + 20 * rtcpCount d then some (.error Err.ERROR_IO_NOT_ENOUGH)
      else some (.ok (.sr (word d 1) (word d 2) (word d 3) (word d 4) (word d 5) (word d 6)
        ((List.range (rtcpCount d)).map fun k => reportBlock d (6 + 5 * k))))
    else if rtcpType d = 201 then
      if d.length < 8 + 20 * rtcpCount d then some (.error Err.ERROR_IO_NOT_ENOUGH)
      else some (.ok (.rr (word d 1) ((List.range (rtcpCount d)).map fun k => reportBlock d (1 + 5 * k))))
    else if rtcpType d = 202 then if rtcpCount d = 0 then some (.ok .other) else none
    else if rtcpType d = 203 ∨ rtcpType d = 204 then some (.ok .other)
    else some (.error Err.ERROR_RTP_PROBE) := Rtcp.decode_eq d hd

/-- **C60**, reports without blocks: the six (one) words of the standard. -/
theorem C60_reports (d : List UInt8) (hd : d.length < 2 ^ 29) (hc : rtcpCount d = 0) :
    (rtcpType d = 200 → 28 ≤ d.length → Rtcp.decode d = some (.ok (.sr (word d 1) (word d 2) (word d 3) (word d 4) (word d 5) (word d 6) []))) ∧
    (rtcpType d = 201 → 8 ≤ d.length → Rtcp.decode d = some (.ok (.rr (word d 1) []))) := by
  rw [Rtcp.decode_eq d hd, hc]
  constructor
  · intro h1 h2
    rw [if_neg (by omega), if_pos h1, if_neg (by omega)]; rfl
  · intro h1 h2
    rw [if_neg (by omega), if_neg (by omega), if_pos h1, if_neg (by omega)]; rfl

/-- **C60**, everything but a source description stays inside the buffer. -/
theorem C60_inside (d : List UInt8) (hd : d.length < 2 ^ 29) (ht : rtcpType d ≠ 202 ∨ rtcpCount d = 0) : Rtcp.decode d ≠ none := by
  rw [Rtcp.decode_eq d hd]
  repeat' split
  all_goals simp
  omega

/-- C60 fails: a source description (which every compound has, RFC 3550 section 6.1) with at least one chunk is undefined behaviour. -/
theorem C60_negation_sdes (d : List UInt8) (hd : d.length < 2 ^ 29) (hl : 4 ≤ d.length) (ht : rtcpType d = 202) (hc : rtcpCount d ≠ 0) :
    Rtcp.decode d = none := by
  rw [Rtcp.decode_eq d hd, if_neg (by omega), if_neg (by omega), if_neg (by omega), if_pos ht, if_neg hc]

theorem field_append (d t : List UInt8) (o w : Nat) (h : o + w ≤ 8 * d.length) : field (d ++ t) o w = field d o w := by
  unfold field
  rw [bitsOf_append, List.drop_append_of_le_length (by rw [bitsOf_length]; omega),
    List.take_append_of_le_length (by rw [List.length_drop, bitsOf_length]; omega)]

/-- C60 fails: of a compound only the first packet is looked at. Whatever follows a sender report without blocks, even garbage,
changes nothing; nor does the length field of the report. -/
theorem C60_negation_compound (d t : List UInt8) (hd : (d ++ t).length < 2 ^ 29) (hl : d.length = 28) (ht : rtcpType d = 200) (hc : rtcpCount d = 0) :
    Rtcp.decode (d ++ t) = Rtcp.decode d := by
  have f : ∀ o w, o + w ≤ 224 → field (d ++ t) o w = field d o w := fun o w h => field_append d t o w (by omega)
  have ht' : rtcpType (d ++ t) = 200 := by rw [← ht]; exact f 8 8 (by decide)
  have hc' : rtcpCount (d ++ t) = 0 := by rw [← hc]; exact f 3 5 (by decide)
  have hw : ∀ i, i < 7 → word (d ++ t) i = word d i := fun i hi => f (32 * i) 32 (by omega)
  rw [(C60_reports (d ++ t) hd hc').1 ht' (by simp; omega),
    (C60_reports d (by simp at hd; omega) hc).1 ht (by omega)]
  rw [hw 1 (by decide), hw 2 (by decide), hw 3 (by decide), hw 4 (by decide), hw 5 (by decide), hw 6 (by decide)]

/-- A sender report with one block, as the standard lays it out: source 0xAABBCCDD, 1/256 lost, 2 lost, then 3, 4, 5, 6. -/
def srBlock : List UInt8 := [0x81, 200, 0, 12, 0, 0, 0, 1, 0, 0, 0, 2, 0, 0, 0, 3, 0, 0, 0, 4, 0, 0, 0, 5, 0, 0, 0, 6,
  0xaa, 0xbb, 0xcc, 0xdd, 1, 0, 0, 2, 0, 0, 0, 3, 0, 0, 0, 4, 0, 0, 0, 5, 0, 0, 0, 6]

/-- C60 fails: the source of a report block is taken for its loss, and so on. -/
theorem C60_negation_block : reportBlock srBlock 7 = { fraction := 1, lost := 2, highest := 3, jitter := 4, lsr := 5, dlsr := 6 } ∧
    Rtcp.decode srBlock = some (.ok (.sr 1 2 3 4 5 6 [{ fraction := 0xaa, lost := 0xbbccdd, highest := 0x01000002, jitter := 3, lsr := 4, dlsr := 5 }])) ∧
    rtcpSplit 9 srBlock = some [srBlock] := by decide +kernel

/-- C60 fails: a length beyond the buffer is not rejected. -/
theorem C60_negation_length : rtcpSplit 9 [0x80, 203, 0xff, 0xff] = none ∧ Rtcp.decode [0x80, 203, 0xff, 0xff] = some (.ok .other) := by decide +kernel

example : (srBlock.take 28).length = 28 ∧ rtcpType (srBlock.take 28) = 200 ∧ rtcpCount (0x80 :: (srBlock.take 28).drop 1) = 0 := by decide +kernel
example : rtcpType [0x81, 202, 0, 1] = 202 ∧ rtcpCount [0x81, 202, 0, 1] ≠ 0 := by decide +kernel

/-! ## C66: transport streams over RTP -/

/-- **C66.** Whatever datagrams with whole transport stream packets arrive, the result and the packets are those of the transport
stream demuxer on their payloads put together. -/
theorem C66_same_as_ts (ds : List (List UInt8)) (h : ∀ p ∈ ds, tsDatagram p) (hne : ds ≠ []) :
    match Ts.feed TsCodec.handler TsCtx.create {} (Ts.chunks ((ds.map payload).flatten.length / 188) (ds.map payload).flatten) with
    | none => deliver {} ds = none
    | some (e, _, st) => ∃ d, deliver {} ds = some (e, d) ∧ (e = Err.SUCCESS → d.queue = st.queue) := by
  have := RtpDemuxer.deliver_feed ds {} h (by intro x hx; cases hx) hne
  simp only [Option.getD_none] at this
  cases hf : Ts.feed TsCodec.handler TsCtx.create {} (Ts.chunks ((ds.map payload).flatten.length / 188) (ds.map payload).flatten) with
  | none => rw [hf] at this; exact this
  | some x =>
    obtain ⟨e, c, st⟩ := x
    rw [hf] at this
    obtain ⟨d', h1, h2⟩ := this
    exact ⟨d', h1, fun he => by rw [h2 he]; rfl⟩

/-- **C66.** A caller that reads packets from a transport on which these datagrams arrive gets exactly those packets, in order,
and then the error with which the transport ends. -/
theorem C66_read (ds : List (List UInt8)) (h : ∀ p ∈ ds, tsDatagram p) (hne : ds ≠ []) (cl : Err) (hcl : cl ≠ Err.SUCCESS)
    (mem0 : List UInt8) (hm : mem0.length < 2 ^ 31) (hm12 : 12 ≤ mem0.length) (hfit : ∀ p ∈ ds, p.length ≤ mem0.length) {c : TsCtx} {st : TsCodec}
    (hf : Ts.feed TsCodec.handler TsCtx.create {} (Ts.chunks ((ds.map payload).flatten.length / 188) (ds.map payload).flatten) = some (Err.SUCCESS, c, st)) :
    ∃ d, RtpDemuxer.session (ds.length + 1) (st.queue.length + 1) (Reader.onIo mem0 { evs := ds.map .data, closed := cl }) {} = some (cl, st.queue, d) := by
  have := C66_same_as_ts ds h hne
  rw [hf] at this
  obtain ⟨d, h1, h2⟩ := this
  have hq := h2 rfl
  refine ⟨{ d with queue := [] }, ?_⟩
  rw [← hq]
  refine RtpDemuxer.session_all cl hcl (ds.length + 1) _ ds _ {} d (Nat.lt_succ_self _) ⟨rfl, hm12, hm, ?_⟩ h1 rfl
  intro p hp
  refine ⟨?_, hfit p hp⟩
  have := (h p hp).valid.fixed
  unfold fixedSize at this
  omega

/-- C66 fails when the first datagram has the marker bit (RFC 2250, section 2: set at a discontinuity): it is refused, and so is
every later datagram with the bit until one without it comes. -/
theorem C66_negation_marker (q : List AVPkt) (b0 b1 : UInt8) (r : List UInt8) (hm : b1.toNat = 128 + 33) :
    RtpDemuxer.datagram { ts := none, queue := q } (b0 :: b1 :: r) = some (Err.ERROR_RTP_PROBE, { ts := none, queue := q }) := by
  unfold RtpDemuxer.datagram
  simp only [List.getElem?_cons_succ, List.getElem?_cons_zero, hm]
  rw [if_neg (by decide), if_pos (by decide)]

theorem rtcp_byte {p : List UInt8} (h : 2 ≤ p.length) : ∃ b, p[1]? = some b ∧ b.toNat = rtcpType p := by
  match p, h with
  | a :: b :: r, _ =>
    refine ⟨b, rfl, ?_⟩
    unfold rtcpType field
    have hd : (bitsOf (a :: b :: r)).drop 8 = bitsOf (b :: r) := by
      rw [bitsOf_cons]
      exact List.drop_left' (bitsOfNat_length 8 a.toNat)
    rw [hd, bitsOf_cons, List.take_append_of_le_length (by rw [bitsOfNat_length]; omega), List.take_of_length_le (by rw [bitsOfNat_length]; omega)]
    have t : ∀ n : Fin 256, n.val = bitsVal (bitsOfNat 8 n.val) := by decide +kernel
    exact t ⟨b.toNat, b.toNat_lt⟩

theorem rtcp_datagram (d : RtpDemuxer) (p : List UInt8) (h : rtcpWhole p = true) : d.datagram p = some (Err.SUCCESS, d) := by
  simp only [rtcpWhole, Bool.and_eq_true, Bool.or_eq_true, decide_eq_true_eq, beq_iff_eq] at h
  obtain ⟨⟨h1, h2⟩, h3⟩ := h
  obtain ⟨b, hb, hb2⟩ := rtcp_byte (p := p) (by omega)
  have ht : 200 ≤ rtcpType p ∧ rtcpType p ≤ 204 := by rcases h3 with (((h | h) | h) | h) | h <;> omega
  have hr : Rtp.isRtcp b.toNat = true := by simp only [Rtp.isRtcp, Bool.and_eq_true, decide_eq_true_eq]; omega
  unfold RtpDemuxer.datagram
  rw [hb]
  simp only [hr, if_true]
  rw [C60_first_partial p h2, if_neg (by omega)]
  rcases h3 with (((h | h) | h) | h) | h
  · rw [if_pos h.1, if_neg (by omega)]; rfl
  · rw [if_neg (by omega), if_pos h.1, if_neg (by omega)]; rfl
  · rw [if_neg (by omega), if_neg (by omega), if_pos h.1, if_pos h.2]; rfl
  · rw [if_neg (by omega), if_neg (by omega), if_neg (by omega), if_pos (Or.inl h)]; rfl
  · rw [if_neg (by omega), if_neg (by omega), if_neg (by omega), if_pos (Or.inr h)]; rfl

/-- **C66**, RTCP packets between the media packets change nothing. -/
theorem C66_reports : ∀ (ds : List (List UInt8)) (d : RtpDemuxer), deliver d ds = deliver d (ds.filter fun p => !rtcpWhole p)
  | [], d => rfl
  | p :: ps, d => by
    cases h : rtcpWhole p with
    | true =>
      rw [List.filter_cons_of_neg (by rw [h]; decide), deliver, rtcp_datagram d p h, Option.bind_some]
      simp only
      rw [if_neg (by decide)]
      exact C66_reports ps d
    | false =>
      rw [List.filter_cons_of_pos (by rw [h]; decide), deliver, deliver]
      congr 1
      funext x
      obtain ⟨e, d'⟩ := x
      simp only
      rw [C66_reports ps d']

example : rtcpWhole [0x80, 201, 0, 1, 0, 0, 0, 7] = true ∧ rtcpWhole [0x80, 204, 0, 2, 0, 0, 0, 7, 65, 66, 67, 68] = true ∧
    rtcpWhole [0x81, 200, 0, 1, 0, 0, 0, 7] = false := by decide +kernel

/-- A datagram for the examples: a PAT, a PMT and the start of a unit. -/
def tsOverRtp : List UInt8 := [0x80, 33, 0, 1, 0, 0, 0, 9, 0, 0, 0, 7] ++ (TsProps.patPkt ++ TsProps.pmtPkt ++ TsProps.startPkt 0 1)

example : tsDatagram tsOverRtp ∧ payload tsOverRtp = TsProps.patPkt ++ TsProps.pmtPkt ++ TsProps.startPkt 0 1 ∧
    (Ts.feed TsCodec.handler TsCtx.create {} (Ts.chunks 3 (payload tsOverRtp))).map (fun x => (x.1, x.2.1.progs.find 0x100 |>.isSome)) =
      some (Err.SUCCESS, true) := by
  refine ⟨⟨⟨by decide +kernel, by decide +kernel, by decide +kernel, by decide +kernel⟩, by decide +kernel, by decide +kernel, by decide +kernel, by decide +kernel, by decide +kernel⟩,
    by decide +kernel, by decide +kernel⟩

/-! ## C67: AAC over RTP -/

/-- **C67.** Every payload of access units with 13-bit sizes and 3-bit indices is cut into exactly the units, in order; they all
get the time stamp of the packet. -/
theorem C67_units (h : RtpHeader) (us : List (Nat × List UInt8)) (p : List UInt8) (hp : bitsOf p = aacBits us) (hs : p.length < 2 ^ 29)
    (hu : ∀ u ∈ us, u.1 < 8 ∧ u.2.length < 2 ^ 13) (hn : us.length < 2 ^ 12) :
    RtpAac.decode h (BitCtx.init p) = some (Err.SUCCESS, us.map fun u => aacPacket h.timestamp u.2) := by
  have h13 : ∀ l : List (Nat × List UInt8), (fieldBits (l.flatMap fun u => [(u.2.length, 13), (u.1, 3)])).length = 16 * l.length := by
    intro l
    induction l with
    | nil => rfl
    | cons a l ih =>
      rw [List.flatMap_cons]
      simp only [List.cons_append, List.nil_append, BProg.fieldBits_cons, List.length_append, bitsOfNat_length, List.length_cons]
      rw [ih]
      omega
  have hlen := congrArg List.length hp
  unfold aacBits at hp hlen
  simp only [BProg.fieldBits_cons, List.length_append, bitsOfNat_length, bitsOf_length, h13 us] at hlen
  have hb : onBits RtpAac.auHeader 0 (bitsOf p) = some (.ok (us.map (·.2.length)), 8 * (2 + 2 * us.length), bitsOf (us.flatMap (·.2))) := by
    unfold RtpAac.auHeader
    rw [hp]
    simp only [BProg.fieldBits_cons, List.append_assoc]
    have e16 : 16 * us.length % 2 ^ 16 = 16 * us.length := Nat.mod_eq_of_lt (by omega)
    have hnb : ((16 * us.length + 7) / 8) / 2 = us.length := by omega
    rw [BProg.on_bind, BProg.acq_on _ _ _ (by decide) (by simp [bitsOfNat_length])]
    simp only [Option.bind_some]
    rw [if_neg (by decide)]
    simp (discharger := decide) only [BProg.on_bind, BProg.rd_field, Option.bind_some, e16, hnb]
    rw [BProg.acq_on _ _ _ (by omega) (by rw [List.length_append, h13 us]; omega)]
    simp only [Option.bind_some]
    rw [if_neg (by decide)]
    simp only [BProg.on_bind]
    rw [RtpAac.sizes_bits us _ _ hu]
    simp only [Option.bind_some, BProg.on_pure]
    congr 3
    omega
  obtain ⟨c, h1, h2⟩ := BProg.run_of (BProg.At.init p (by omega)) hb
  have al := BProg.At.al h2 (by omega)
  unfold RtpAac.decode
  rw [h1]
  simp only [Option.bind_some]
  have hm : us.map (·.2.length) = (us.map (·.2)).map (·.length) := by rw [List.map_map]; rfl
  have hf : us.flatMap (·.2) = (us.map (·.2)).flatten := by rw [List.flatMap_def]
  rw [hf] at al
  rw [hm, RtpAac.units_al h.timestamp (us.map (·.2)) c [] [] (by simpa using al), List.nil_append, List.map_map]
  rfl

/-- **C67.** A payload that ends inside a unit gives the units before it, then the error. -/
theorem C67_short (ts : Nat) (us : List (List UInt8)) (n : Nat) (ns : List Nat) (p : List UInt8) (hs : (us.flatten ++ p).length < 2 ^ 29)
    (hp : p.length < n) (hn : n < 2 ^ 13) :
    RtpAac.units ts (us.map (·.length) ++ n :: ns) (BitCtx.init (us.flatten ++ p)) [] = some (Err.ERROR_IO_NOT_ENOUGH, us.map (aacPacket ts)) := by
  rw [RtpAac.units_short ts us n ns _ p [] (BitCtx.Al.init _ hs) hp (by omega), List.nil_append]

/-- C67 fails: units of one packet follow each other in time, but all get the same time stamp. -/
theorem C67_negation_times (ts : Nat) (a b : List UInt8) : (aacPacket ts a).dts = (aacPacket ts b).dts := rfl

example : bitsOf [0, 32, 0, 24, 0, 16, 1, 2, 3, 4, 5] = aacBits [(0, [1, 2, 3]), (0, [4, 5])] ∧
    RtpAac.decode { timestamp := 900 } (BitCtx.init [0, 32, 0, 24, 0, 16, 1, 2, 3, 4, 5]) =
      some (Err.SUCCESS, [aacPacket 900 [1, 2, 3], aacPacket 900 [4, 5]]) := by decide +kernel

/-! ## C68: from transport stream to codec packets -/

section
variable {σ : Type}

/-- What the handlers preserve, decoding preserves. -/
theorem decode_inv (h : TsHandler σ) (P : σ → Prop) (h1 : ∀ d s s', P s → h.onPes d s = some (Err.SUCCESS, s') → P s')
    (h2 : ∀ p t u s e s', P s → h.onPkt p t u s = some (e, s') → P s') (c : TsCtx) (s : σ) (p : List UInt8) {c' : TsCtx} {s' : σ}
    (hr : TsCtx.decode h c s p = some (Err.SUCCESS, c', s')) (hs : P s) : P s' := by
  unfold TsCtx.decode at hr
  simp only [bind, pure, Option.bind_eq_some_iff] at hr
  obtain ⟨⟨⟨e, hd⟩, rd⟩, _, hr⟩ := hr
  simp only at hr
  split at hr
  · cases hr; exact hs
  cases hf : c.progs.find hd.pid with
  | none => rw [hf] at hr; cases hr; exact hs
  | some prog =>
    rw [hf] at hr
    simp only at hr
    split at hr
    · cases hr; exact hs
    rw [Option.bind_eq_some_iff] at hr
    obtain ⟨⟨e1, c1, s1⟩, hp, hr⟩ := hr
    simp only at hr
    split at hr
    · rename_i he; cases hr; exact absurd rfl he
    · rename_i he
      have he : e1 = Err.SUCCESS := by simpa using he
      subst he
      rw [Option.bind_eq_some_iff] at hr
      obtain ⟨⟨e2, s2⟩, hk, hr⟩ := hr
      cases hr
      refine h2 _ _ _ _ _ _ ?_ hk
      unfold TsCtx.decodeProgram at hp
      cases prog with
      | pat => simp only [Option.map_eq_some_iff] at hp; obtain ⟨⟨⟨_, _⟩, _⟩, _, hp⟩ := hp; cases hp; exact hs
      | pmt => simp only [Option.map_eq_some_iff] at hp; obtain ⟨⟨⟨_, _⟩, _⟩, _, hp⟩ := hp; cases hp; exact hs
      | sdt => simp only [Option.map_eq_some_iff] at hp; obtain ⟨⟨⟨_, _⟩, _⟩, _, hp⟩ := hp; cases hp; exact hs
      | pes q =>
        simp only [Option.map_eq_some_iff] at hp
        obtain ⟨⟨e3, q3, s3⟩, hp, hq⟩ := hp
        cases hq
        unfold TsCtx.decodePes at hp
        simp only at hp
        split at hp
        · cases hp
        split at hp
        · cases hp
        split at hp
        · rw [Option.map_eq_some_iff] at hp; obtain ⟨⟨⟨_, _⟩, _⟩, _, hp⟩ := hp; cases hp; exact hs
        split at hp
        · rename_i ha
          simp only [Option.some.injEq, Prod.mk.injEq] at hp
          exact absurd hp.1 ha
        cases hb : q.buf with
        | none =>
          rw [hb] at hp
          simp only [Option.map_eq_some_iff] at hp
          obtain ⟨⟨⟨_, _⟩, _⟩, _, hp⟩ := hp; cases hp; exact hs
        | some d =>
          rw [hb] at hp
          simp only [bind, pure, Option.bind_eq_some_iff] at hp
          obtain ⟨⟨e4, s4⟩, hd4, hp⟩ := hp
          simp only at hp
          split at hp
          · rename_i he; cases hp; exact absurd rfl he
          · rename_i he
            have he : e4 = Err.SUCCESS := by simpa using he
            subst he
            rw [Option.map_eq_some_iff] at hp
            obtain ⟨⟨⟨_, _⟩, _⟩, _, hp⟩ := hp
            cases hp
            exact h1 _ _ _ hs hd4

theorem feed_inv (h : TsHandler σ) (P : σ → Prop) (h1 : ∀ d s s', P s → h.onPes d s = some (Err.SUCCESS, s') → P s')
    (h2 : ∀ p t u s e s', P s → h.onPkt p t u s = some (e, s') → P s') : ∀ (ps : List (List UInt8)) (c : TsCtx) (s : σ) {c' : TsCtx} {s' : σ},
    Ts.feed h c s ps = some (Err.SUCCESS, c', s') → P s → P s'
  | [], c, s, c', s', hr, hs => by cases hr; exact hs
  | p :: ps, c, s, c', s', hr, hs => by
    unfold Ts.feed at hr
    simp only [bind, pure, Option.bind_eq_some_iff] at hr
    obtain ⟨⟨e, c1, s1⟩, hd, hr⟩ := hr
    simp only at hr
    split at hr
    · rename_i he; cases hr; exact absurd rfl he
    · rename_i he
      have he : e = Err.SUCCESS := by simpa using he
      subst he
      exact feed_inv h P h1 h2 ps c1 s1 hr (decode_inv h P h1 h2 c s p hd hs)

end

open Spec.TsCodec

/-- The units handed over one after the other, all accepted. -/
def run : Sps.TsCodec → List PesDone → Option Sps.TsCodec
  | st, [] => some st
  | st, d :: ds => match Sps.TsCodec.onPes d st with
    | some (e, st) => if e = Err.SUCCESS then run st ds else none
    | none => none

theorem run_append : ∀ (ds : List PesDone) (d : PesDone) (st st1 st2 : Sps.TsCodec), run st ds = some st1 →
    Sps.TsCodec.onPes d st1 = some (Err.SUCCESS, st2) → run st (ds ++ [d]) = some st2
  | [], d, st, st1, st2, h1, h2 => by cases h1; simp [run, h2]
  | x :: ds, d, st, st1, st2, h1, h2 => by
    rw [List.cons_append, run]
    rw [run] at h1
    split at h1
    · rename_i e st' he
      split at h1
      · rename_i hs
        simp only [hs, if_true]
        exact run_append ds d _ st1 st2 h1 h2
      · cases h1
    · cases h1

theorem run_flow : ∀ (us : List TsCodec.Unit) (ds : List PesDone) (st st' : Sps.TsCodec), areUnits us ds → NaluParser.Ready st.video →
    run st ds = some st' → ∃ out, st'.queue = st.queue ++ out ∧ flow st.audio.last us out
  | [], [], st, st', _, _, h => by cases h; exact ⟨[], by simp, rfl⟩
  | .video ctx us :: r, d :: ds, st, st', hu, hr, h => by
    obtain ⟨⟨h1, h2, h3, h4, h5, h6, h7⟩, hus⟩ := hu
    obtain ⟨p', e, hp'⟩ := encode_annexB hr ctx (by rw [h2]; simp) us h5 h6 (by rw [← h3]; omega)
    rw [run] at h
    have hin : d.codecInput = .bytes (H264.annexB us) := by
      unfold PesDone.codecInput
      rw [if_pos h1, if_pos (by omega), h4, List.take_length, h3]
    have ho : Sps.TsCodec.onPes d st = some ((H264.answer ctx (H264.withZeros us)).1,
        if (H264.answer ctx (H264.withZeros us)).1 ≠ Err.SUCCESS then { st with video := p' }
        else { st with video := p', queue := st.queue ++ (H264.answer ctx (H264.withZeros us)).2 }) := by
      unfold Sps.TsCodec.onPes
      rw [hin]
      simp only
      rw [if_pos h1]
      unfold Sps.TsCodec.onH264
      rw [← h2, e]
      simp only [Option.map_some]
      split <;> rfl
    simp only [ho] at h
    by_cases he1 : (H264.answer ctx (H264.withZeros us)).1 = Err.SUCCESS
    · rw [if_pos he1, if_neg (by simp [he1])] at h
      obtain ⟨out, g1, g2⟩ := run_flow r ds _ st' hus hp' h
      exact ⟨_, by rw [g1, List.append_assoc], _, rfl, g2⟩
    · rw [if_neg he1] at h; cases h
  | .audio ctx fs :: r, d :: ds, st, st', hu, hr, h => by
    obtain ⟨⟨h1, h2, h3, h4, h5⟩, hus⟩ := hu
    obtain ⟨p', a, e, hem, hlast⟩ := C40_config st.audio ctx (by rw [h2]; simp) fs h4 d.data h3 h5
    rw [run] at h
    have hin : d.codecInput = .bytes d.data := by
      unfold PesDone.codecInput
      rw [if_neg (by rw [h1]; decide), if_pos h1]
    have ho : Sps.TsCodec.onPes d st = some (Err.SUCCESS, { st with audio := p', queue := st.queue ++ a }) := by
      unfold Sps.TsCodec.onPes
      rw [hin]
      simp only
      rw [if_neg (by rw [h1]; decide)]
      unfold Sps.TsCodec.onAac
      rw [← h2, e]
      rfl
    simp only [ho, if_true] at h
    obtain ⟨out, g1, g2⟩ := run_flow r ds { st with audio := p', queue := st.queue ++ a } st' hus hr h
    exact ⟨a ++ out, by rw [g1, List.append_assoc], a, out, rfl, hem, hlast ▸ g2⟩

/-- **C68.** Whatever transport stream packets a demuxer accepted: if the units it completed (`log`, see C28 for what they are)
carry NAL units and ADTS frames, the packets it has for its callers are exactly those of the units, in the order in which the
units were completed: video with the length-prefixed NAL units, sequence headers first, audio frames each behind a configuration
where that is new, with the times of the unit. -/
theorem C68_flow (ps : List (List UInt8)) {c' : TsCtx} {log : List PesDone} {st : Sps.TsCodec}
    (hr : Ts.feed (Ts.recorder TsCodec.handler) TsCtx.create ([], {}) ps = some (Err.SUCCESS, c', (log, st)))
    (us : List Spec.TsCodec.Unit) (hu : areUnits us log) : flow none us st.queue := by
  have h := feed_inv (Ts.recorder TsCodec.handler) (fun s => run {} s.1 = some s.2)
    (by
      intro d s s' hs he
      simp only [Ts.recorder, Option.map_eq_some_iff] at he
      obtain ⟨⟨e, st1⟩, h1, h2⟩ := he
      cases h2
      exact run_append _ _ _ _ _ hs h1)
    (by
      intro p t u s e s' hs he
      simp only [Ts.recorder, Option.map_eq_some_iff] at he
      obtain ⟨⟨e, st1⟩, h1, h2⟩ := he
      cases h2
      cases h1
      exact hs)
    ps TsCtx.create ([], {}) hr rfl
  obtain ⟨out, g1, g2⟩ := run_flow us log {} st hu NaluParser.ready_init h
  rw [g1]
  exact g2

theorem answer_ok (ctx : CodecCtx) (us : List (List UInt8)) :
    (H264.answer ctx us).1 = Err.SUCCESS ↔ ∀ s, H264.spsOf us = some s → 4 ≤ s.length := by
  unfold H264.answer
  cases hs : H264.spsOf us with
  | none => simp
  | some s =>
    match s with
    | _ :: _ :: _ :: _ :: _ => simp
    | [] => simp [Err.SUCCESS, Err.ERROR_H264_ENCODER]
    | [_] => simp [Err.SUCCESS, Err.ERROR_H264_ENCODER]
    | [_, _] => simp [Err.SUCCESS, Err.ERROR_H264_ENCODER]
    | [_, _, _] => simp [Err.SUCCESS, Err.ERROR_H264_ENCODER]

/-- A unit that is accepted says something. -/
theorem onPes_says {d : PesDone} {st st' : Sps.TsCodec} (hr : NaluParser.Ready st.video) (hs : d.data.length < 2 ^ 29)
    (h : Sps.TsCodec.onPes d st = some (Err.SUCCESS, st')) : ∃ c, says c d := by
  unfold Sps.TsCodec.onPes PesDone.codecInput at h
  by_cases h1 : d.streamType = 0x1b
  · rw [if_pos h1] at h
    by_cases h2 : d.len ≤ d.data.length
    · rw [if_pos h2] at h
      simp only at h
      rw [if_pos h1] at h
      unfold Sps.TsCodec.onH264 at h
      rw [Option.map_eq_some_iff] at h
      obtain ⟨⟨e, v, pk⟩, he, h⟩ := h
      have hl : (d.data.take d.len).length < 2 ^ 29 := by rw [List.length_take]; omega
      have he0 : e = Err.SUCCESS := by
        simp only at h; split at h <;> exact (Prod.mk.inj (Option.some.inj (congrArg some h))).1
      subst he0
      cases hdec : st.video.decode (d.data.take d.len) false [] with
      | none => unfold H264Parser.encodeAvc at he; rw [hdec] at he; cases he
      | some x =>
        obtain ⟨e1, p1, ns⟩ := x
        by_cases hx : e1 = Err.SUCCESS
        · subst hx
          obtain ⟨us, rfl, rfl, hf⟩ := NaluParser.decode_found st.video hr.avc _ hl hdec
          obtain ⟨p', ha, _⟩ := encode_found hr { dts := d.dts, pts := d.pts, timebase := 90 } (by simp) _ us hf hl
          rw [ha] at he
          simp only [Option.some.injEq, Prod.mk.injEq] at he
          exact ⟨.video _ us, h1, rfl, h2, hf, (answer_ok _ us).1 he.1⟩
        · unfold H264Parser.encodeAvc at he
          rw [hdec] at he
          simp only [Option.bind_some] at he
          rw [if_pos hx] at he
          simp only [Option.some.injEq, Prod.mk.injEq] at he
          exact absurd he.1 hx
    · rw [if_neg h2] at h; cases h
  · rw [if_neg h1] at h
    by_cases h3 : d.streamType = 0x0f
    · rw [if_pos h3] at h
      simp only at h
      rw [if_neg h1] at h
      unfold Sps.TsCodec.onAac at h
      rw [Option.map_eq_some_iff] at h
      obtain ⟨⟨e, v, pk⟩, he, h⟩ := h
      have he0 : e = Err.SUCCESS := by
        simp only at h; split at h <;> exact (Prod.mk.inj (Option.some.inj (congrArg some h))).1
      subst he0
      obtain ⟨fs, hok, hb⟩ := AacParser.encodeAvc_inv _ _ _ _ (by omega) _ he
      exact ⟨.audio _ fs, h3, rfl, hb, hok⟩
    · exact ⟨.other, h1, h3⟩

/-- The effect of a unit that says `c`. -/
theorem onPes_effect {c : Content} {d : PesDone} {st : Sps.TsCodec} (hr : NaluParser.Ready st.video) (hs : d.data.length < 2 ^ 29) (hc : says c d) :
    ∃ st' out, Sps.TsCodec.onPes d st = some (Err.SUCCESS, st') ∧ NaluParser.Ready st'.video ∧ st'.queue = st.queue ++ out ∧
      ∀ r t, sent st'.audio.last r t → sent st.audio.last (c :: r) (out ++ t) := by
  cases c with
  | video ctx us =>
    obtain ⟨h1, rfl, h2, hf, h4⟩ := hc
    have hl : (d.data.take d.len).length < 2 ^ 29 := by rw [List.length_take]; omega
    obtain ⟨p', ha, hp'⟩ := encode_found hr { dts := d.dts, pts := d.pts, timebase := 90 } (by simp) _ us hf hl
    have hok := (answer_ok { dts := d.dts, pts := d.pts, timebase := 90 } us).2 h4
    refine ⟨{ st with video := p', queue := st.queue ++ (H264.answer { dts := d.dts, pts := d.pts, timebase := 90 } us).2 }, _, ?_, hp', rfl,
      fun r t ht => ⟨t, rfl, ht⟩⟩
    unfold Sps.TsCodec.onPes PesDone.codecInput
    rw [if_pos h1, if_pos h2]
    simp only
    rw [if_pos h1]
    unfold Sps.TsCodec.onH264
    rw [ha]
    simp only [Option.map_some]
    rw [if_neg (by simp [hok]), hok]
  | audio ctx fs =>
    obtain ⟨h1, rfl, hb, hok⟩ := hc
    obtain ⟨p', a, e, hem, hlast⟩ := C40_config st.audio { dts := d.dts, pts := d.pts, timebase := 90 } (by simp) fs hok d.data hb (by omega)
    refine ⟨{ st with audio := p', queue := st.queue ++ a }, a, ?_, hr, rfl, fun r t ht => ⟨a, t, rfl, hem, ?_⟩⟩
    · unfold Sps.TsCodec.onPes PesDone.codecInput
      rw [if_neg (by rw [h1]; decide), if_pos h1]
      simp only
      rw [if_neg (by rw [h1]; decide)]
      unfold Sps.TsCodec.onAac
      rw [e]
      rfl
    · exact hlast ▸ ht
  | other =>
    refine ⟨st, [], ?_, hr, by simp, fun r t ht => ht⟩
    unfold Sps.TsCodec.onPes PesDone.codecInput
    rw [if_neg hc.1, if_neg hc.2]

theorem run_says : ∀ (ds : List PesDone) (st st' : Sps.TsCodec), (∀ d ∈ ds, d.data.length < 2 ^ 29) → NaluParser.Ready st.video → run st ds = some st' →
    ∃ cs, allSay cs ds
  | [], st, st', _, _, _ => ⟨[], .nil⟩
  | d :: ds, st, st', hs, hr, h => by
    rw [run] at h
    split at h
    · rename_i e st1 he
      split at h
      · rename_i hz
        subst hz
        obtain ⟨c, hc⟩ := onPes_says hr (hs d (by simp)) he
        obtain ⟨st2, out, e2, hr2, _, _⟩ := onPes_effect hr (hs d (by simp)) hc
        rw [he] at e2
        simp only [Option.some.injEq, Prod.mk.injEq, true_and] at e2
        subst e2
        obtain ⟨cs, hcs⟩ := run_says ds st1 st' (fun x hx => hs x (by simp [hx])) hr2 h
        exact ⟨c :: cs, .cons hc hcs⟩
      · cases h
    · cases h

theorem run_sent {cs : List Content} {ds : List PesDone} (hc : allSay cs ds) : ∀ (st st' : Sps.TsCodec), (∀ d ∈ ds, d.data.length < 2 ^ 29) →
    NaluParser.Ready st.video → run st ds = some st' → ∃ out, st'.queue = st.queue ++ out ∧ sent st.audio.last cs out := by
  induction hc with
  | nil => intro st st' _ _ h; cases h; exact ⟨[], by simp, rfl⟩
  | @cons c d cs ds h1 h2 ih =>
    intro st st' hs hr h
    obtain ⟨st1, out, e, hr1, hq, hsent⟩ := onPes_effect hr (hs d (by simp)) h1
    rw [run, e] at h
    simp only [if_true] at h
    obtain ⟨t, ht, hsn⟩ := ih st1 st' (fun x hx => hs x (by simp [hx])) hr1 h
    exact ⟨out ++ t, by rw [ht, hq, List.append_assoc], hsent _ _ hsn⟩

/-- **C68**, units of any content. Whatever transport stream packets a demuxer accepted: every unit it completed says something (its bytes are NAL units behind start
codes, or ADTS frames, or it is of another type), and however the units are read that way, the packets for the callers are exactly those of what they say, in order.
(Units below 512 MiB.) A unit that says nothing was not accepted. -/
theorem C68_any (ps : List (List UInt8)) {c' : TsCtx} {log : List PesDone} {st : Sps.TsCodec}
    (hr : Ts.feed (Ts.recorder TsCodec.handler) TsCtx.create ([], {}) ps = some (Err.SUCCESS, c', (log, st)))
    (hs : ∀ d ∈ log, d.data.length < 2 ^ 29) :
    (∃ cs, allSay cs log) ∧ ∀ cs, allSay cs log → sent none cs st.queue := by
  have h := feed_inv (Ts.recorder TsCodec.handler) (fun s => run {} s.1 = some s.2)
    (by
      intro d s s' hs he
      simp only [Ts.recorder, Option.map_eq_some_iff] at he
      obtain ⟨⟨e, st1⟩, h1, h2⟩ := he
      cases h2
      exact run_append _ _ _ _ _ hs h1)
    (by
      intro p t u s e s' hs he
      simp only [Ts.recorder, Option.map_eq_some_iff] at he
      obtain ⟨⟨e, st1⟩, h1, h2⟩ := he
      cases h2
      cases h1
      exact hs)
    ps TsCtx.create ([], {}) hr rfl
  refine ⟨run_says log {} st hs NaluParser.ready_init h, fun cs hc => ?_⟩
  obtain ⟨out, g1, g2⟩ := run_sent hc {} st hs NaluParser.ready_init h
  rw [g1]
  exact g2

/-- **C68**, refusal: a unit whose bytes say nothing is an error or undefined (the transport stream layer passes the error on, and the demuxer stops). -/
theorem C68_refused {d : PesDone} {st st' : Sps.TsCodec} (hr : NaluParser.Ready st.video) (hs : d.data.length < 2 ^ 29) (hn : ∀ c, ¬ says c d) :
    Sps.TsCodec.onPes d st ≠ some (Err.SUCCESS, st') := by
  intro h
  obtain ⟨c, hc⟩ := onPes_says hr hs h
  exact hn c hc

/-- A video unit for the example: parameter sets and a picture. -/
def picture : List (Nat × List UInt8) := [(1, [0x67, 0x42, 0xc0, 0x1e]), (0, [0x68, 0xce]), (0, 0x65 :: List.replicate 153 1)]

/-- The packet that carries it, with presentation time 0. -/
def picturePkt (cc : UInt8) : List UInt8 :=
  [0x47, 0x41, 0x00, 0x10 ||| cc, 0, 0, 1, 0xe0, 0, 0, 0x80, 0x80, 0x05, 0x21, 0x00, 0x01, 0x00, 0x01] ++ H264.annexB picture

example : (picturePkt 0).length = 188 ∧
    (Ts.feed (Ts.recorder TsCodec.handler) TsCtx.create ([], {}) [TsProps.patPkt, TsProps.pmtPkt, picturePkt 0, picturePkt 1]).map
      (fun x => (x.1, x.2.2.1)) =
    some (Err.SUCCESS, [{ pid := 0x100, streamType := 0x1b, dts := 0, pts := 0, data := H264.annexB picture, len := 170 }]) ∧
    (Ts.feed (Ts.recorder TsCodec.handler) TsCtx.create ([], {}) [TsProps.patPkt, TsProps.pmtPkt, picturePkt 0, picturePkt 1]).map
      (fun x => x.2.2.2.queue.map (·.payload)) =
    some [[1, 0x42, 0, 0x1e, 3, 1, 0, 4, 0x67, 0x42, 0xc0, 0x1e, 1, 0, 2, 0x68, 0xce], [0, 0, 0, 154, 0x65] ++ List.replicate 153 1] ∧
    (∀ x ∈ picture, H264.unitOk x.2) := ⟨by decide +kernel, by decide +kernel, by decide +kernel, by decide +kernel⟩

end Sps
