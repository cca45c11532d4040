import Verif.Lemmas.H264Enc
import Verif.Lemmas.H264Any
import Verif.Lemmas.AacAny
import Verif.Lemmas.Aac
/-!
# The H.264 and AAC parsers
-/
namespace Sps
open Spec Spec.H264 Spec.Aac

/-! ## C36: splitting Annex B streams -/

/-- **C36.** Every list of units behind start codes with any number of leading zero bytes is split into the same units in
order. Missing: a unit keeps the zero bytes in front of the next start code (`withZeros`), so a four-byte start code leaves one
zero byte at the end of the unit before it; streams of 512 MiB and more. -/
theorem C36_split_partial (us : List (Nat × List UInt8)) (hne : us ≠ []) (hok : ∀ x ∈ us, unitOk x.2)
    (hs : (annexB us).length < 2 ^ 29) :
    ∃ ns, NaluParser.decode {} (annexB us) false [] = some (Err.SUCCESS, {}, ns) ∧ ns.map (·.data) = withZeros us := by
  match us, hne with
  | (z, u) :: us, _ =>
    refine ⟨(withZeros ((z, u) :: us)).map Nal.of, ?_, ?_⟩
    · unfold NaluParser.decode NaluParser.decodeData
      rw [if_neg (by simp), if_neg (by simp),
        NaluParser.dataLoop_annexB {} rfl us z u _ _ [] (BitCtx.Al.init _ hs) (Nat.lt_succ_self _) hok]
      rfl
    · rw [List.map_map]
      conv => rhs; rw [← List.map_id (withZeros ((z, u) :: us))]
      rfl

theorem withZeros_three (z : Nat) (u : List UInt8) (us : List (List UInt8)) :
    withZeros ((z, u) :: us.map fun v => (0, v)) = u :: us := by
  induction us generalizing z u with
  | nil => rfl
  | cons v us ih => simp only [List.map_cons, withZeros]; rw [ih]; simp

/-- **C36**, three-byte start codes (the first may be longer): exactly the units. -/
theorem C36_three_byte (z : Nat) (u : List UInt8) (us : List (List UInt8)) (hok : ∀ x ∈ u :: us, unitOk x)
    (hs : (annexB ((z, u) :: us.map fun v => (0, v))).length < 2 ^ 29) :
    ∃ ns, NaluParser.decode {} (annexB ((z, u) :: us.map fun v => (0, v))) false [] = some (Err.SUCCESS, {}, ns) ∧
      ns.map (·.data) = u :: us := by
  obtain ⟨ns, e, h⟩ := C36_split_partial ((z, u) :: us.map fun v => (0, v)) (by simp) (by
    intro x hx
    rcases List.mem_cons.1 hx with rfl | hx
    · exact hok _ (by simp)
    · obtain ⟨v, hv, rfl⟩ := List.mem_map.1 hx
      exact hok _ (by simp [hv])) hs
  exact ⟨ns, e, by rw [h, withZeros_three]⟩

/-- Zero bytes at the end removed. -/
def dropZeros (u : List UInt8) : List UInt8 := (u.reverse.dropWhile (· == 0)).reverse

theorem dropZeros_append (u : List UInt8) (z : Nat) (h : u.getLast? ≠ some 0) : dropZeros (u ++ List.replicate z 0) = u := by
  unfold dropZeros
  rw [List.reverse_append, List.reverse_replicate]
  induction z with
  | zero =>
    cases hr : u.reverse with
    | nil => simp at hr; subst hr; rfl
    | cons a t =>
      have : u = t.reverse ++ [a] := by rw [← List.reverse_reverse u, hr]; simp
      subst this
      have ha : a ≠ 0 := by intro h0; subst h0; simp at h
      simp [ha]
  | succ z ih => rw [List.replicate_succ, List.cons_append, List.dropWhile_cons_of_pos (by simp)]; exact ih

/-- **C36**, any mix of start-code lengths: for units that do not end in a zero byte (as the standard demands) the zero bytes at
the end of what is returned are the only difference. -/
theorem C36_up_to_zeros (us : List (Nat × List UInt8)) (hne : us ≠ []) (hok : ∀ x ∈ us, unitOk x.2)
    (hz : ∀ x ∈ us, x.2.getLast? ≠ some 0) (hs : (annexB us).length < 2 ^ 29) :
    ∃ ns, NaluParser.decode {} (annexB us) false [] = some (Err.SUCCESS, {}, ns) ∧
      ns.map (fun n => dropZeros n.data) = us.map (·.2) := by
  obtain ⟨ns, e, h⟩ := C36_split_partial us hne hok hs
  refine ⟨ns, e, ?_⟩
  have hm : ns.map (fun n => dropZeros n.data) = (ns.map (·.data)).map dropZeros := by rw [List.map_map]; rfl
  rw [hm, h]
  clear hm h e hs hok hne
  induction us with
  | nil => rfl
  | cons x us ih =>
    obtain ⟨z, u⟩ := x
    have hu := hz (z, u) (by simp)
    have ih := ih fun y hy => hz y (by simp [hy])
    cases us with
    | nil =>
      have := dropZeros_append u 0 hu
      simp only [withZeros, List.map_cons, List.map_nil]
      simpa using this
    | cons y us =>
      obtain ⟨w, v⟩ := y
      simp only [withZeros, List.map_cons] at ih ⊢
      rw [dropZeros_append u w hu, ih]

/-- **C36**: whatever the bytes are, the parser stays inside the buffer (and ends). -/
theorem C36_inside (buf : List UInt8) (hs : buf.length < 2 ^ 29) (out : List Nal) :
    ∃ r, NaluParser.decode {} buf false out = some r := by
  obtain ⟨r, e⟩ := NaluParser.dataLoop_safe {} rfl (buf.length + 1) (BitCtx.init buf) buf out (BitCtx.Al.init _ hs) (Nat.lt_succ_self _)
  exact ⟨_, by unfold NaluParser.decode NaluParser.decodeData; rw [if_neg (by simp), if_neg (by simp), e]; rfl⟩

/-- **C36**: data without a start code is rejected. -/
theorem C36_no_start_code (buf : List UInt8) (hs : buf.length < 2 ^ 29) (h4 : 4 ≤ buf.length) (hn : ¬ [0, 0, 1] <:+: buf) :
    NaluParser.decode {} buf false [] = some (Err.ERROR_H264_DECODER, {}, []) := by
  have ha := BitCtx.Al.init buf hs
  unfold NaluParser.decode NaluParser.decodeData
  rw [if_neg (by simp), if_neg (by simp), NaluParser.dataLoop, if_neg (by rw [ha.acquire 4 (by decide) h4]; simp)]
  unfold NaluParser.nextSize
  rw [if_neg (by simp)]
  dsimp only
  rw [ha.rest, ha.size, find_none _ hn]
  rfl

/-- **C36**, every buffer. The parser returns units `us` with success exactly if they are what comes behind the start codes of the buffer (`Found`; a unit reaches to the
next start code, the zero bytes of longer start codes included). -/
theorem C36_any (b : List UInt8) (hs : b.length < 2 ^ 29) (us : List (List UInt8)) :
    (∃ ns, NaluParser.decode {} b false [] = some (Err.SUCCESS, {}, ns) ∧ ns.map (·.data) = us) ↔ Found b us := by
  rw [NaluParser.decode_iff {} rfl b hs us]
  constructor
  · rintro ⟨ns, h, hn⟩
    have hd := NaluParser.decode_found {} rfl b hs h
    obtain ⟨vs, rfl, _⟩ := hd
    rw [h]
    congr 3
    rw [← hn, List.map_map, List.map_map]
    rfl
  · intro h
    exact ⟨_, h, by rw [List.map_map]; simp [Function.comp_def, Nal.of]⟩

/-- **C36**, every other buffer is refused. -/
theorem C36_refused (b : List UInt8) (hs : b.length < 2 ^ 29) (h : ∀ us, ¬ Found b us) :
    ∃ ns, NaluParser.decode {} b false [] = some (Err.ERROR_H264_DECODER, {}, ns) := NaluParser.decode_refused {} rfl b hs h

/-- A buffer with something before the first start code, and one with a start code at its end, have units; one with two start codes in a row has none. -/
example : Found [9, 0, 0, 1, 0x67, 1, 0, 0, 1, 0x68] [[0x67, 1], [0x68]] ∧ Found [0, 0, 1, 0x41, 0, 0, 1] [[0x41, 0, 0, 1]] ∧
    ∀ us, ¬ Found [0, 0, 1, 0, 0, 1, 0x41] us := by
  refine ⟨.inr ⟨[9], _, rfl, by decide, .more (u := [0x67, 1]) (by decide) (.last ⟨by decide, by decide, by decide⟩)⟩,
    .inr ⟨[], _, rfl, by decide, .last ⟨by decide, by decide, by decide⟩⟩, ?_⟩
  intro us h
  have h1 := (NaluParser.decode_iff {} rfl _ (by decide) us).1 h
  have h2 : NaluParser.decode {} [0, 0, 1, 0, 0, 1, 0x41] false [] = some (Err.ERROR_H264_DECODER, {}, []) := by decide +kernel
  rw [h2] at h1
  cases h1

/-- Against C36: the unit before a four-byte start code comes back with a zero byte at its end. -/
theorem C36_negation_four_byte :
    (NaluParser.decode {} (annexB [(1, [0x67, 1, 2]), (1, [0x68, 3])]) false []).map (fun r => (r.1, r.2.2.map (·.data))) =
      some (Err.SUCCESS, [[0x67, 1, 2, 0], [0x68, 3]]) := by decide +kernel

/-- The hypotheses of C36 hold for a stream with an SPS, a PPS (ending in zero bytes) and two slices, in mixed notation. -/
example : let us : List (Nat × List UInt8) := [(1, [0x67, 0x42, 0, 0x1e]), (0, [0x68, 0xce, 0, 0]), (0, [0x65, 0, 0, 3, 1]), (3, [0x41, 9])]
    us ≠ [] ∧ (∀ x ∈ us, unitOk x.2) ∧ (annexB us).length < 2 ^ 29 ∧
      withZeros us = [[0x67, 0x42, 0, 0x1e], [0x68, 0xce, 0, 0], [0x65, 0, 0, 3, 1, 0, 0, 0], [0x41, 9]] := by decide +kernel

/-! ## C37 and C38: what the parser emits -/

theorem withZeros_nonempty : ∀ us : List (Nat × List UInt8), (∀ x ∈ us, x.2 ≠ []) → ∀ u ∈ withZeros us, u ≠ []
  | [], _, u, hu => by simp [withZeros] at hu
  | [(z, v)], h, u, hu => by
    simp only [withZeros, List.mem_singleton] at hu; subst hu; exact h (z, u) (by simp)
  | (z, v) :: (y, w) :: us, h, u, hu => by
    simp only [withZeros, List.mem_cons] at hu
    rcases hu with rfl | hu
    · have := h (z, v) (by simp); simp_all
    · exact withZeros_nonempty ((y, w) :: us) (fun x hx => h x (by simp [hx])) u hu

theorem withZeros_types : ∀ (us : List (Nat × List UInt8)), (∀ x ∈ us, unitType x.2 ∈ [1, 5, 6, 7, 8, 9]) →
    (∀ x ∈ us, unitOk x.2) → ∀ u ∈ withZeros us, unitType u ∈ [1, 5, 6, 7, 8, 9]
  | [], _, _, u, hu => by simp [withZeros] at hu
  | [(z, v)], h, _, u, hu => by
    simp only [withZeros, List.mem_singleton] at hu; subst hu; exact h (z, u) List.mem_cons_self
  | (z, v) :: (y, w) :: us, h, hok, u, hu => by
    simp only [withZeros, List.mem_cons] at hu
    rcases hu with rfl | hu
    · have h1 := h (z, v) List.mem_cons_self
      have h2 := (hok (z, v) List.mem_cons_self).nonempty
      cases v with
      | nil => exact absurd rfl h2
      | cons b v => exact h1
    · exact withZeros_types ((y, w) :: us) (fun x hx => h x (List.mem_cons_of_mem _ hx))
        (fun x hx => hok x (List.mem_cons_of_mem _ hx)) u hu

/-- Any buffer that has units is answered with their packets. -/
theorem encode_found {p : NaluParser} (hp : NaluParser.Ready p) (ctx : CodecCtx) (ht : ctx.timebase ≠ 0) (b : List UInt8) (us : List (List UInt8))
    (h : Found b us) (hs : b.length < 2 ^ 29) :
    ∃ p', H264Parser.encodeAvc p ctx b = some ((answer ctx us).1, p', (answer ctx us).2) ∧ NaluParser.Ready p' := by
  unfold H264Parser.encodeAvc
  rw [(NaluParser.decode_iff p hp.avc b hs us).1 h]
  simp only [Option.bind_some, ne_eq, not_true, if_false]
  exact answer_eq hp ctx ht _ (NaluParser.found_nonempty h)

theorem encode_annexB {p : NaluParser} (hp : NaluParser.Ready p) (ctx : CodecCtx) (ht : ctx.timebase ≠ 0)
    (us : List (Nat × List UInt8)) (hne : us ≠ []) (hok : ∀ x ∈ us, unitOk x.2) (hs : (annexB us).length < 2 ^ 29) :
    ∃ p', H264Parser.encodeAvc p ctx (annexB us) =
      some ((answer ctx (withZeros us)).1, p', (answer ctx (withZeros us)).2) ∧ NaluParser.Ready p' := by
  match us, hne with
  | (z, u) :: us, _ =>
    unfold H264Parser.encodeAvc NaluParser.decode NaluParser.decodeData
    rw [if_neg (by simp), if_neg (by simp [hp.avc]),
      NaluParser.dataLoop_annexB p hp.avc us z u _ _ [] (BitCtx.Al.init _ hs) (Nat.lt_succ_self _) hok]
    simp only [List.nil_append, Option.map_some, Option.bind_some, ne_eq, not_true, if_false]
    exact answer_eq hp ctx ht _ (withZeros_nonempty _ fun x hx => (hok x hx).nonempty)

/-- A history of access units in Annex B form, as the parser is fed. -/
def feeds (hist : List (CodecCtx × List (Nat × List UInt8))) : List (CodecCtx × List UInt8) := hist.map fun x => (x.1, annexB x.2)

/-- Access units the theorems are about: a time base, at least one unit, units as Annex B allows them, less than 512 MiB. -/
def feedOk (x : CodecCtx × List (Nat × List UInt8)) : Prop :=
  x.1.timebase ≠ 0 ∧ x.2 ≠ [] ∧ (∀ y ∈ x.2, unitOk y.2) ∧ (annexB x.2).length < 2 ^ 29

instance (x : CodecCtx × List (Nat × List UInt8)) : Decidable (feedOk x) := by unfold feedOk; infer_instance

/-- **C38.** For every history of access units given to a new parser: an access unit with an SPS is answered with a sequence
header first, which carries exactly the (last) SPS and PPS of that access unit with their lengths and the SPS's profile and
level bytes, and after it come the packets of its other units; an SPS too short to have those bytes is an error. Missing: the
compatibility byte is always 0, a PPS without SPS gives no header (negations below); the reserved bits of the record are zeroes
where the standard has ones. -/
theorem C38_history_partial (hist : List (CodecCtx × List (Nat × List UInt8))) (hok : ∀ x ∈ hist, feedOk x) :
    session H264Parser.encodeAvc {} (feeds hist) = some (hist.map fun x => answer x.1 (withZeros x.2)) := by
  have key : ∀ (hist : List (CodecCtx × List (Nat × List UInt8))) (p : NaluParser), NaluParser.Ready p → (∀ x ∈ hist, feedOk x) →
      session H264Parser.encodeAvc p (feeds hist) = some (hist.map fun x => answer x.1 (withZeros x.2)) := by
    intro hist
    induction hist with
    | nil => intro p _ _; rfl
    | cons x hist ih =>
      intro p hp hok
      obtain ⟨ctx, us⟩ := x
      obtain ⟨h1, h2, h3, h4⟩ := hok (ctx, us) (by simp)
      obtain ⟨p', e, hp'⟩ := encode_annexB hp ctx h1 us h2 h3 h4
      have ih := ih p' hp' fun x hx => hok x (by simp [hx])
      unfold feeds at ih ⊢
      simp only [List.map_cons, session]
      rw [e]
      simp only [Option.bind_some]
      rw [ih]
      rfl
  exact key hist {} NaluParser.ready_init hok

/-- **C38**, read as the property: in any history, an access unit whose last SPS is `sps` is answered with the record of that SPS
and of the access unit's PPS, before everything else, and the record is complete. -/
theorem C38_header_first (hist : List (CodecCtx × List (Nat × List UInt8))) (hok : ∀ x ∈ hist, feedOk x) (i : Nat)
    (ctx : CodecCtx) (us : List (Nat × List UInt8)) (hi : hist[i]? = some (ctx, us)) (a profile compat level : UInt8)
    (t : List UInt8) (hsps : spsOf (withZeros us) = some (a :: profile :: compat :: level :: t)) :
    ∃ answers rest, session H264Parser.encodeAvc {} (feeds hist) = some answers ∧
      answers[i]? = some (Err.SUCCESS, headerPacket ([1, profile, 0, level, 3, 1] ++
        beBytes 2 (t.length + 4) ++ a :: profile :: compat :: level :: t ++
        (match ppsOf (withZeros us) with | none => [0] | some q => 1 :: beBytes 2 q.length ++ q)) :: rest) ∧
      ∀ p ∈ rest, p.isVideoHeader = false := by
  refine ⟨_, (withZeros us).filterMap (unitPacket ctx), C38_history_partial hist hok, ?_, ?_⟩
  · rw [List.getElem?_map, hi]
    simp only [Option.map_some, answer, hsps, record]
    cases ppsOf (withZeros us) <;> simp
  · intro p hp
    obtain ⟨u, _, hu⟩ := List.mem_filterMap.1 hp
    unfold unitPacket at hu
    obtain ⟨f, _, rfl⟩ := Option.map_eq_some_iff.1 hu
    rfl

/-- **C37.** In every history, the payloads of the packets emitted for an access unit (behind its sequence header, if any) are the
units it is made of that are slices or SEI, each behind its length in four bytes, in order. Missing: units of other types than
slice, IDR slice, SEI, parameter set and delimiter are lost (negation below); one packet per unit, not per access unit. -/
theorem C37_emitted_partial (hist : List (CodecCtx × List (Nat × List UInt8))) (hok : ∀ x ∈ hist, feedOk x) (i : Nat)
    (ctx : CodecCtx) (us : List (Nat × List UInt8)) (hi : hist[i]? = some (ctx, us))
    (hsps : ∀ s, spsOf (withZeros us) = some s → 4 ≤ s.length)
    (htypes : ∀ x ∈ us, unitType x.2 ∈ [1, 5, 6, 7, 8, 9]) :
    ∃ answers packets, session H264Parser.encodeAvc {} (feeds hist) = some answers ∧ answers[i]? = some (Err.SUCCESS, packets) ∧
      ((packets.filter fun p => !p.isVideoHeader).flatMap (·.payload)) =
        prefixed 4 ((withZeros us).filter fun u => !(unitType u ∈ [7, 8, 9] : Bool)) := by
  have hz := withZeros_types us htypes (hok _ (List.mem_of_getElem? hi)).2.2.1
  have key : ∀ l : List (List UInt8), (∀ u ∈ l, unitType u ∈ [1, 5, 6, 7, 8, 9]) →
      (((l.filterMap (unitPacket ctx)).filter fun p => !p.isVideoHeader).flatMap (·.payload)) =
        prefixed 4 (l.filter fun u => !(unitType u ∈ [7, 8, 9] : Bool)) := by
    intro l
    induction l with
    | nil => intro _; rfl
    | cons u l ih =>
      intro hl
      have hu := hl u (by simp)
      have ih := ih fun x hx => hl x (by simp [hx])
      simp only [List.mem_cons, List.not_mem_nil, or_false] at hu
      by_cases h7 : unitType u ∈ [7, 8, 9]
      · have : unitPacket ctx u = none := by
          simp only [List.mem_cons, List.not_mem_nil, or_false] at h7
          unfold unitPacket frameType; rw [if_neg (by omega), if_neg (by omega), if_neg (by omega)]; rfl
        rw [List.filterMap_cons, this, List.filter_cons_of_neg (by rw [decide_eq_true h7]; decide)]
        exact ih
      · rw [List.filter_cons_of_pos (by rw [decide_eq_false h7]; decide)]
        simp only [List.mem_cons, List.not_mem_nil, or_false] at h7
        have : ∃ f, unitPacket ctx u = some { stream := .video, pktType := 1, payload := beBytes 4 u.length ++ u, dts := ctx.dts.tdiv ctx.timebase, pts := ctx.pts.tdiv ctx.timebase, flags := f, codec := 7 } := by
          unfold unitPacket frameType
          have : unitType u = 1 ∨ unitType u = 5 ∨ unitType u = 6 := by omega
          rcases this with h | h | h <;> rw [h] <;> exact ⟨_, rfl⟩
        obtain ⟨f, hf⟩ := this
        rw [List.filterMap_cons, hf]
        simp only
        rw [List.filter_cons_of_pos rfl, List.flatMap_cons, ih]
        simp [prefixed]
  have hh : ∃ packets, answer ctx (withZeros us) = (Err.SUCCESS, packets) ∧
      packets.filter (fun p => !p.isVideoHeader) = ((withZeros us).filterMap (unitPacket ctx)).filter fun p => !p.isVideoHeader := by
    unfold answer
    cases hs : spsOf (withZeros us) with
    | none => exact ⟨_, rfl, rfl⟩
    | some s =>
      have h4 := hsps s hs
      match s, h4 with
      | _ :: b1 :: _ :: b3 :: _, _ => exact ⟨_, rfl, by rw [List.filter_cons_of_neg (by simp [headerPacket, AVPkt.isVideoHeader, AVPkt.isVideo])]⟩
  obtain ⟨packets, ea, ef⟩ := hh
  refine ⟨_, packets, C38_history_partial hist hok, ?_, ?_⟩
  · rw [List.getElem?_map, hi]; simp [ea]
  · rw [ef]; exact key _ hz

/-- **C37.** Units behind four-byte lengths are split again into the same list. -/
theorem C37_prefixed_round_trip (us : List (List UInt8)) (hok : ∀ u ∈ us, u ≠ [] ∧ ∀ b ∈ u.head?, b.toNat < 128)
    (hs : (prefixed 4 us).length < 2 ^ 29) :
    ∃ ns, NaluParser.decode { isAvc := true, lenSize := 3 } (prefixed 4 us) false [] =
      some (Err.SUCCESS, { isAvc := true, lenSize := 3 }, ns) ∧ ns.map (·.data) = us := by
  refine ⟨us.map Nal.of, ?_, ?_⟩
  · unfold NaluParser.decode NaluParser.decodeData
    rw [if_neg (by simp), if_neg (by simp),
      NaluParser.dataLoop_prefixed _ rfl rfl us _ _ [] (BitCtx.Al.init _ hs) (Nat.lt_succ_self _) hok]
    rfl
  · rw [List.map_map]
    conv => rhs; rw [← List.map_id us]
    rfl

/-- Against C37: a data partition (type 2) or an end-of-sequence unit (type 10) is lost. -/
theorem C37_negation_dropped :
    (H264Parser.encodeAvc {} ⟨0, 0, 1⟩ (annexB [(0, [0x42, 1]), (0, [0x41, 2]), (0, [0x0a, 3])])).map
      (fun r => (r.1, r.2.2.map (·.payload))) = some (Err.SUCCESS, [[0, 0, 0, 2, 0x41, 2]]) := by decide +kernel

/-- Against C37, with one-byte lengths: units in the last three bytes are silently ignored. -/
theorem C37_negation_short_lengths :
    (NaluParser.decode { isAvc := true, lenSize := 0 } (prefixed 1 [[0x41, 1, 2], [0x41, 9]]) false []).map
      (fun r => (r.1, r.2.2.map (·.data))) = some (Err.SUCCESS, [[0x41, 1, 2]]) := by decide +kernel

/-- Against C38: whatever the compatibility byte of the SPS is, the record says 0. -/
theorem C38_negation_compatibility (ctx : CodecCtx) (ht : ctx.timebase ≠ 0) (profile compat level : UInt8) (hc : compat ≠ 0)
    (hu : unitOk [0x67, profile, compat, level]) :
    ∃ p' pkt, H264Parser.encodeAvc {} ctx (annexB [(1, [0x67, profile, compat, level])]) = some (Err.SUCCESS, p', [pkt]) ∧
      pkt.isVideoHeader = true ∧ pkt.payload[2]? = some 0 ∧ pkt.payload[2]? ≠ some compat := by
  obtain ⟨p', e, _⟩ := encode_annexB NaluParser.ready_init ctx ht [(1, [0x67, profile, compat, level])] (by simp) (by simpa using hu) (by simp [annexB])
  refine ⟨p', _, e, rfl, rfl, ?_⟩
  show some (0 : UInt8) ≠ some compat
  intro h; exact hc (by simpa using h.symm)

/-- Against C38: a new PPS without an SPS is not announced. -/
theorem C38_negation_pps_only :
    (H264Parser.encodeAvc {} ⟨0, 0, 1⟩ (annexB [(1, [0x68, 0xce, 0x3c, 0x80])])).map (fun r => (r.1, r.2.2)) =
      some (Err.SUCCESS, []) := by decide +kernel

/-- Against C38: the record cannot be read back by the same class. It takes the first four bytes of the SPS for a length. -/
theorem C38_negation_read_back :
    (NaluParser.decode {} (record 0x42 0 0x1e 0 0 [0x67, 0x42, 0, 0x1e, 1] (some [0x68, 0xce])) true []).map
      (fun r => (r.1, r.2.2.map (·.data))) = some (Err.ERROR_H264_DECODER, []) := by decide +kernel

/-- Against C38 and the rule that parsing stays in the buffer: a record that is cut after its fixed part is read beyond its end. -/
theorem C38_negation_over_read : NaluParser.decode {} [1, 0x42, 0, 0x1e, 0xff, 0xe1, 0] true [] = none := by decide +kernel

/-- The hypotheses of C37 and C38 hold for a history: SPS, PPS and an IDR slice, then a slice behind a delimiter. -/
example : let hist : List (CodecCtx × List (Nat × List UInt8)) :=
      [(⟨900, 1800, 90⟩, [(1, [0x09, 0xf0]), (1, [0x67, 0x42, 0xc0, 0x1e]), (0, [0x68, 0xce]), (0, [0x65, 1, 2])]),
       (⟨4500, 4500, 90⟩, [(1, [0x09, 0xf0]), (0, [0x41, 7])])]
    (∀ x ∈ hist, feedOk x) ∧ (∀ x ∈ hist, ∀ y ∈ x.2, unitType y.2 ∈ [1, 5, 6, 7, 8, 9]) ∧
      (∀ x ∈ hist, (spsOf (withZeros x.2)).all (4 ≤ ·.length)) ∧
      (hist.map fun x => (answer x.1 (withZeros x.2)).2.map (fun p => (p.payload, p.dts, p.pts, p.flags))) =
        [[([1, 0x42, 0, 0x1e, 3, 1, 0, 4, 0x67, 0x42, 0xc0, 0x1e, 1, 0, 2, 0x68, 0xce], 0, 0, 0x17),
          ([0, 0, 0, 3, 0x65, 1, 2], 10, 20, 0x17)], [([0, 0, 0, 2, 0x41, 7], 50, 50, 0x27)]] := by decide +kernel

example : (∀ u ∈ ([[0x65, 1, 2], [0x41, 0, 0, 1]] : List (List UInt8)), u ≠ [] ∧ ∀ b ∈ u.head?, b.toNat < 128) ∧
    (prefixed 4 [[0x65, 1, 2], [0x41, 0, 0, 1]]).length < 2 ^ 29 := by decide +kernel

example : unitOk [0x67, 0x42, 0xc0, 0x1e] := by decide +kernel

/-! ## C39 and C40: ADTS -/

/-- **C39, C40.** Every sequence of ADTS frames, given to a parser in any state, is answered with the raw frames in order, each
preceded by an AudioSpecificConfig of its parameters where these are new (see `emitted`). -/
theorem C40_config (p : AacParser) (ctx : CodecCtx) (ht : ctx.timebase ≠ 0) (fs : List Frame) (hok : ∀ f ∈ fs, f.ok)
    (buf : List UInt8) (hb : bitsOf buf = fs.flatMap Frame.bits) (hs : buf.length < 2 ^ 32) :
    ∃ p' out, p.encodeAvc ctx buf = some (Err.SUCCESS, p', out) ∧ emitted ctx p.last fs out ∧ p'.last = lastParams p.last fs := by
  have ha := BProg.At.init buf hs
  have hl : (bitsOf buf).length < 8 * (buf.length + 1) := by rw [bitsOf_length]; omega
  rw [hb] at ha hl
  obtain ⟨p', out, e, h⟩ := AacParser.loop_frames ctx ht fs (buf.length + 1) _ p [] 0 hok ha rfl hl
  exact ⟨p', out, by unfold AacParser.encodeAvc; simpa using e, h⟩

/-- **C40** for a new parser: the first packet is the AudioSpecificConfig of the first frame: object type = profile + 1, sampling
frequency index and channel configuration in 5 + 4 + 4 + 3 bits. -/
theorem C40_first (ctx : CodecCtx) (ht : ctx.timebase ≠ 0) (f : Frame) (fs : List Frame) (hok : ∀ x ∈ f :: fs, x.ok)
    (buf : List UInt8) (hb : bitsOf buf = (f :: fs).flatMap Frame.bits) (hs : buf.length < 2 ^ 32) :
    ∃ p' c out, AacParser.encodeAvc {} ctx buf = some (Err.SUCCESS, p', c :: out) ∧ c.isAudioHeader = true ∧
      bitsOf c.payload = bitsOfNat 5 (f.params.profile + 1) ++ bitsOfNat 4 f.params.freq ++ bitsOfNat 4 f.params.channels ++
        bitsOfNat 3 0 := by
  obtain ⟨p', out, e, hem, _⟩ := C40_config {} ctx ht (f :: fs) hok buf hb hs
  unfold emitted at hem
  rw [if_neg (by simp [AacParser.last])] at hem
  obtain ⟨c, t, rfl, hc, _⟩ := hem
  exact ⟨p', c, _, e, by rw [hc.1]; rfl, by rw [hc.2]; simp [configBits, fieldBits]⟩

/-- **C39.** The packets other than sequence headers are the raw frames in order, without their headers. Missing: a frame length
that reaches beyond the buffer or is smaller than the header is not rejected (negations below). -/
theorem C39_frames_partial (p : AacParser) (ctx : CodecCtx) (ht : ctx.timebase ≠ 0) (fs : List Frame) (hok : ∀ f ∈ fs, f.ok)
    (buf : List UInt8) (hb : bitsOf buf = fs.flatMap Frame.bits) (hs : buf.length < 2 ^ 32) :
    ∃ p' out, p.encodeAvc ctx buf = some (Err.SUCCESS, p', out) ∧
      out.filter (fun q => !q.isAudioHeader) = fs.map fun f => framePacket ctx f.data := by
  obtain ⟨p', out, e, hem, _⟩ := C40_config p ctx ht fs hok buf hb hs
  exact ⟨p', out, e, AacParser.emitted_frames ctx fs _ _ hem⟩

/-- **C39**: a wrong sync word, or fewer than seven bytes, is rejected. -/
theorem C39_rejected (p : AacParser) (ctx : CodecCtx) (buf : List UInt8) (hne : buf ≠ [])
    (h : buf.length < 7 ∨ bitsVal ((bitsOf buf).take 12) ≠ 0xfff) (hs : buf.length < 2 ^ 29) :
    p.encodeAvc ctx buf = some (Err.ERROR_AAC_DECODER, p, []) := by
  have ha := BProg.At.init buf (by omega)
  have hpos : 0 < buf.length := List.length_pos_iff.2 hne
  have e : ∃ o r, onBits Adts.decode 0 (bitsOf buf) = some (Except.error Err.ERROR_AAC_DECODER, o, r) := by
    unfold Adts.decode
    by_cases h7 : buf.length < 7
    · rw [BProg.on_bind]
      unfold BProg.acq
      rw [BProg.on_acq_fail 7 (by decide) _ _ _ (by rw [bitsOf_length]; omega)]
      exact ⟨_, _, rfl⟩
    · have hsync := h.resolve_left h7
      rw [BProg.on_bind, BProg.acq_on 7 _ _ (by decide) (by rw [bitsOf_length]; omega)]
      simp only [Option.bind_some, ne_eq, not_true, if_false]
      rw [BProg.on_bind]
      unfold BProg.rd
      rw [BProg.on_bits 12 (by decide) _ _ _ (by rw [bitsOf_length]; omega)]
      simp only [BProg.on_ret, Option.bind_some]
      rw [if_pos hsync]
      exact ⟨_, _, rfl⟩
  obtain ⟨o, r, e⟩ := e
  obtain ⟨c', e', _⟩ := BProg.run_of ha e
  unfold AacParser.encodeAvc
  rw [AacParser.loop, if_neg (by rw [AacParser.size_at ha, bitsOf_length]; omega), e']
  rfl

/-- **C39**, every buffer: one that is accepted consists of ADTS frames (and is answered as in C39 and C40). -/
theorem C39_any (p p' : AacParser) (ctx : CodecCtx) (buf : List UInt8) (hs : buf.length < 2 ^ 32) (out : List AVPkt)
    (e : p.encodeAvc ctx buf = some (Err.SUCCESS, p', out)) :
    ∃ fs : List Frame, (∀ f ∈ fs, f.ok) ∧ bitsOf buf = fs.flatMap Frame.bits := AacParser.encodeAvc_inv p p' ctx buf hs out e

/-- Against C39: a frame whose length field (16 bytes) reaches beyond the buffer (11 bytes) is copied from beyond its end. -/
theorem C39_negation_beyond :
    AacParser.encodeAvc {} ⟨0, 0, 1⟩ [0xff, 0xf1, 0x50, 0x80, 0x02, 0x1f, 0xfc, 1, 2, 3, 4] = none := by decide +kernel

/-- Against C39: a frame length smaller than the header (1 byte) makes the parser copy a negative number of bytes. -/
theorem C39_negation_small :
    AacParser.encodeAvc {} ⟨0, 0, 1⟩ [0xff, 0xf1, 0x50, 0x80, 0x00, 0x3f, 0xfc, 1, 2, 3, 4] = none := by decide +kernel

/-- Against C39: only seven bytes are checked, the checksum is read beyond the end. -/
theorem C39_negation_checksum :
    AacParser.encodeAvc {} ⟨0, 0, 1⟩ [0xff, 0xf0, 0x50, 0x80, 0x00, 0xff, 0xfc] = none := by decide +kernel

/-- The hypotheses of C39 and C40 hold for two frames of AAC LC, 44.1 kHz, stereo, the second with a checksum. -/
example : let fs : List Frame := [{ params := ⟨1, 4, 2, 0, 0⟩, data := [1, 2, 3] }, { params := ⟨1, 4, 2, 0, 0⟩, crc := some 0xabcd, data := [4, 5] }]
    let buf : List UInt8 := [0xff, 0xf1, 0x50, 0x80, 0x01, 0x5f, 0xfc, 1, 2, 3, 0xff, 0xf0, 0x50, 0x80, 0x01, 0x7f, 0xfc, 0xab, 0xcd, 4, 5]
    bitsOf buf = fs.flatMap Frame.bits ∧ (∀ f ∈ fs, f.headSize + f.data.length < 2 ^ 13) ∧
      (AacParser.encodeAvc {} ⟨900, 900, 90⟩ buf).map (fun r => r.2.2.map fun p => (p.pktType, p.payload, p.dts)) =
        some [(0, [0x12, 0x10], 0), (1, [1, 2, 3], 10), (0, [0x12, 0x10], 0), (1, [4, 5], 10)] := by decide +kernel

end Sps
