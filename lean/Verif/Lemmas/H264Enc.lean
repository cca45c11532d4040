import Verif.Lemmas.H264
/-! Lemmas about the packets the H.264 parser emits. -/
namespace Sps.NaluParser
open Spec Spec.H264 BitCtx

/-- Parsers that have only been given Annex B data or raw units. -/
structure Ready (p : NaluParser) : Prop where
  avc : p.isAvc = false
  len : p.lenSize = -1 ∨ p.lenSize = 3

theorem ready_init : Ready {} := ⟨rfl, Or.inl rfl⟩

theorem lastOf_eq (f : Nal → Bool) (g : List UInt8 → Bool) (us : List (List UInt8)) (h : ∀ u ∈ us, f (Nal.of u) = g u) :
    NaluParser.lastOf f (us.map Nal.of) = (Spec.H264.lastOf g us).map Nal.of := by
  unfold NaluParser.lastOf Spec.H264.lastOf
  have key : ∀ (us : List (List UInt8)) (r : Option (List UInt8)), (∀ u ∈ us, f (Nal.of u) = g u) →
      (us.map Nal.of).foldl (fun r n => if f n then some n else r) (r.map Nal.of) =
        (((us.filter g).getLast?).or r).map Nal.of := by
    intro us
    induction us with
    | nil => intro r _; simp
    | cons u us ih =>
      intro r hh
      simp only [List.map_cons, List.foldl_cons]
      have hu := hh u (by simp)
      by_cases hg : g u = true
      · rw [hu, if_pos hg, show (some (Nal.of u)) = (some u).map Nal.of from rfl, ih _ (fun x hx => hh x (by simp [hx])),
          List.filter_cons_of_pos hg, List.getLast?_cons]
        cases (us.filter g).getLast? <;> simp
      · rw [hu, if_neg hg, ih _ (fun x hx => hh x (by simp [hx])), List.filter_cons_of_neg hg]
  have := key us none h
  simpa using this

theorem fill_eq {cap : Nat} {w : BitCtx → Option BitCtx} {c : BitCtx} {d : List UInt8} {room : Nat}
    (hw : w (BitCtx.init (List.replicate cap 0)) = some c) (h : Wr c d room) (hc : d.length ≤ cap) : fill cap w = some d := by
  unfold fill
  rw [hw]
  simp only [Option.bind_some]
  rw [h.posOff, if_neg (by omega), if_pos (by simpa using hc)]
  simp only [Int.toNat_natCast]
  rw [← h.pos, h.wrote]

theorem unitPkt_eq (ctx : CodecCtx) (ht : ctx.timebase ≠ 0) (flag : Int) (u : List UInt8) : unitPkt ctx 3 flag (Nal.of u) =
    some { stream := .video, pktType := 1, payload := beBytes 4 u.length ++ u, dts := ctx.dts.tdiv ctx.timebase, pts := ctx.pts.tdiv ctx.timebase, flags := flag, codec := 7 } := by
  unfold unitPkt
  simp only [show ((3 : Int) + 1).toNat = 4 by decide]
  rw [if_neg ht]
  obtain ⟨c1, e1, w1⟩ := (Wr.init (4 + u.length)).bits 4 u.length (by omega)
  obtain ⟨c2, e2, w2⟩ := w1.bytes u (by omega)
  have hd : (Nal.of u).data = u := rfl
  rw [hd, fill_eq (c := c2) (d := beBytes 4 u.length ++ u) (by rw [e1]; simp only [Option.bind_some]; exact e2) (by simpa using w2)
    (by simp [beBytes_len])]
  rfl

theorem type_of (u : List UInt8) (h : u ≠ []) : (Nal.of u).type = unitType u := Nal.of_type h

theorem unitsLoop_eq (ctx : CodecCtx) (ht : ctx.timebase ≠ 0) : ∀ (us : List (List UInt8)) (l : Int) (out : List AVPkt),
    (l = -1 ∨ l = 3) → (∀ u ∈ us, u ≠ []) →
    ∃ l', unitsLoop ctx l (us.map Nal.of) out = some (l', out ++ us.filterMap (unitPacket ctx)) ∧ (l' = -1 ∨ l' = 3)
  | [], l, out, hl, _ => ⟨l, by simp [unitsLoop], hl⟩
  | u :: us, l, out, hl, h => by
    have hu := type_of u (h u (by simp))
    have h' : ∀ x ∈ us, x ≠ [] := fun x hx => h x (by simp [hx])
    simp only [List.map_cons]
    rw [unitsLoop]
    by_cases hs : ((Nal.of u).isSps || (Nal.of u).isPps || (Nal.of u).isAud) = true
    · rw [if_pos hs]
      obtain ⟨l', e, hl'⟩ := unitsLoop_eq ctx ht us l out hl h'
      refine ⟨l', ?_, hl'⟩
      rw [e, List.filterMap_cons]
      simp only [Nal.isSps, Nal.isPps, Nal.isAud, hu, Bool.or_eq_true, beq_iff_eq] at hs
      have : unitPacket ctx u = none := by
        unfold unitPacket frameType
        rw [if_neg (by omega), if_neg (by omega), if_neg (by omega)]; rfl
      rw [this]
    · rw [if_neg hs]
      have h3 : (if l < 0 then (3 : Int) else l) = 3 := by rcases hl with rfl | rfl <;> decide
      simp only [h3]
      have hff : frameFlag (Nal.of u) = (frameType (unitType u)).map fun f => ((16 * f + 7 : Nat) : Int) := by
        unfold frameFlag frameType Nal.isIdr Nal.isSlice Nal.isSei
        rw [hu]
        simp only [Bool.or_eq_true, beq_iff_eq]
        by_cases h5 : unitType u = 5
        · simp [h5]
        · by_cases h1 : unitType u = 1
          · simp [h1]
          · by_cases h6 : unitType u = 6
            · simp [h6]
            · simp [h5, h1, h6]
      rw [hff]
      cases hft : frameType (unitType u) with
      | none =>
        simp only [Option.map_none]
        obtain ⟨l', e, hl'⟩ := unitsLoop_eq ctx ht us 3 out (Or.inr rfl) h'
        refine ⟨l', ?_, hl'⟩
        rw [e, List.filterMap_cons]
        simp [unitPacket, hft]
      | some f =>
        simp only [Option.map_some]
        rw [unitPkt_eq ctx ht]
        simp only [Option.bind_some]
        obtain ⟨l', e, hl'⟩ := unitsLoop_eq ctx ht us 3 _ (Or.inr rfl) h'
        refine ⟨l', ?_, hl'⟩
        rw [e, List.filterMap_cons]
        simp [unitPacket, hft]

theorem beBytes1 (v : Nat) : beBytes 1 v = [UInt8.ofNat v] := by simp [beBytes]

theorem seqHeader_eq (sps : List UInt8) (pps : Option (List UInt8)) (hs : 4 ≤ sps.length) (b1 b3 : UInt8) (h1 : sps[1]? = some b1)
    (h3 : sps[3]? = some b3) : seqHeader (Nal.of sps) (pps.map Nal.of) =
      some (Except.ok (headerPacket (record b1.toNat 0 b3.toNat 0 0 sps pps))) := by
  have hd : ∀ u : List UInt8, (Nal.of u).data = u := fun _ => rfl
  unfold seqHeader
  simp only [hd]
  rw [if_neg (by omega)]
  have hpm : (pps.map Nal.of).map (fun n => n.data) = pps := by cases pps <;> simp [hd]
  rw [hpm]
  have hcap : 5 + 1 + (2 + sps.length) + 1 + ((pps.map Nal.of).map fun p => 2 + p.data.length).getD 0 =
      (record b1.toNat 0 b3.toNat 0 0 sps pps).length := by
    cases pps <;> simp [record, beBytes_len, hd] <;> omega
  rw [hcap]
  have hl : (record b1.toNat 0 b3.toNat 0 0 sps pps).length = 8 + sps.length + (match pps with | none => 1 | some p => 3 + p.length) := by
    cases pps <;> simp [record, beBytes_len] <;> omega
  have hge : 9 + sps.length ≤ (record b1.toNat 0 b3.toNat 0 0 sps pps).length := by rw [hl]; cases pps <;> simp <;> omega
  have key : ∃ c, writeRecord sps pps 3 (BitCtx.init (List.replicate (record b1.toNat 0 b3.toNat 0 0 sps pps).length 0)) = some c ∧
      Wr c (record b1.toNat 0 b3.toNat 0 0 sps pps) 0 := by
    generalize hn : (record b1.toNat 0 b3.toNat 0 0 sps pps).length = n at *
    obtain ⟨c1, e1, w1⟩ := (Wr.init n).bits 1 1 (by omega)
    obtain ⟨c2, e2, w2⟩ := w1.bits 1 b1.toNat (by omega)
    obtain ⟨c3, e3, w3⟩ := w2.bits 1 0 (by omega)
    obtain ⟨c4, e4, w4⟩ := w3.bits 1 b3.toNat (by omega)
    obtain ⟨c5, e5, w5⟩ := w4.bits 1 3 (by omega)
    obtain ⟨c6, e6, w6⟩ := w5.bits 1 1 (by omega)
    obtain ⟨c7, e7, w7⟩ := w6.bits 2 sps.length (by omega)
    obtain ⟨c8, e8, w8⟩ := w7.bytes sps (by omega)
    unfold writeRecord
    rw [h1, h3]
    simp only [Nat.reduceMul] at e1 e2 e3 e4 e5 e6 e7
    simp only [e1, e2, e3, e4, e5, e6, e7, e8, Option.bind_some]
    cases pps with
    | none =>
      obtain ⟨c9, e9, w9⟩ := w8.bits 1 0 (by omega)
      simp only [Nat.reduceMul] at e9
      refine ⟨c9, e9, ?_⟩
      simp only at hl
      have : n - 1 - 1 - 1 - 1 - 1 - 1 - 2 - sps.length - 1 = 0 := by omega
      rw [this] at w9
      simpa [record, beBytes1] using w9
    | some p =>
      simp only at hl
      obtain ⟨c9, e9, w9⟩ := w8.bits 1 1 (by omega)
      obtain ⟨c10, e10, w10⟩ := w9.bits 2 p.length (by omega)
      obtain ⟨c11, e11, w11⟩ := w10.bytes p (by omega)
      simp only [Nat.reduceMul] at e9 e10
      refine ⟨c11, by simp only [e9, e10, e11, Option.bind_some], ?_⟩
      have : n - 1 - 1 - 1 - 1 - 1 - 1 - 2 - sps.length - 1 - 2 - p.length = 0 := by omega
      rw [this] at w11
      simpa [record, beBytes1] using w11
  obtain ⟨c, e, w⟩ := key
  rw [fill_eq e w (Nat.le_refl _)]
  rfl

theorem isSps_of (us : List (List UInt8)) (h : ∀ u ∈ us, u ≠ []) : ∀ u ∈ us, (Nal.of u).isSps = (unitType u == 7) :=
  fun u hu => by simp [Nal.isSps, type_of u (h u hu)]

theorem isPps_of (us : List (List UInt8)) (h : ∀ u ∈ us, u ≠ []) : ∀ u ∈ us, (Nal.of u).isPps = (unitType u == 8) :=
  fun u hu => by simp [Nal.isPps, type_of u (h u hu)]

/-- The packets of an access unit without SPS. -/
theorem encodeAvc_plain {p : NaluParser} (hp : Ready p) (ctx : CodecCtx) (ht : ctx.timebase ≠ 0) (us : List (List UInt8))
    (h : ∀ u ∈ us, u ≠ []) (hs : spsOf us = none) :
    ∃ p', p.encodeAvc ctx (us.map Nal.of) = some (Err.SUCCESS, p', us.filterMap (unitPacket ctx)) ∧ Ready p' := by
  obtain ⟨l', e, hl'⟩ := unitsLoop_eq ctx ht us p.lenSize [] hp.len h
  refine ⟨{ p with lenSize := l' }, ?_, ⟨hp.avc, hl'⟩⟩
  unfold encodeAvc
  rw [lastOf_eq _ _ us (isSps_of us h), show Spec.H264.lastOf (fun u => unitType u == 7) us = none from hs]
  simp only [Option.map_none, e, List.nil_append, Option.map_some]

/-- The packets of an access unit with an SPS: the sequence header first. -/
theorem encodeAvc_sps {p : NaluParser} (hp : Ready p) (ctx : CodecCtx) (ht : ctx.timebase ≠ 0) (us : List (List UInt8))
    (h : ∀ u ∈ us, u ≠ []) (sps : List UInt8) (hs : spsOf us = some sps) (b1 b3 : UInt8) (h1 : sps[1]? = some b1)
    (h3 : sps[3]? = some b3) :
    ∃ p', p.encodeAvc ctx (us.map Nal.of) = some (Err.SUCCESS, p',
      headerPacket (record b1.toNat 0 b3.toNat 0 0 sps (ppsOf us)) :: us.filterMap (unitPacket ctx)) ∧ Ready p' := by
  have h4 : 4 ≤ sps.length := by
    rcases Nat.lt_or_ge 3 sps.length with h' | h'
    · omega
    · rw [List.getElem?_eq_none h'] at h3; cases h3
  obtain ⟨l', e, hl'⟩ := unitsLoop_eq ctx ht us 3 [headerPacket (record b1.toNat 0 b3.toNat 0 0 sps (ppsOf us))] (Or.inr rfl) h
  refine ⟨{ p with lenSize := l' }, ?_, ⟨hp.avc, hl'⟩⟩
  unfold encodeAvc
  rw [lastOf_eq _ _ us (isSps_of us h), show Spec.H264.lastOf (fun u => unitType u == 7) us = some sps from hs]
  simp only [Option.map_some]
  rw [lastOf_eq _ _ us (isPps_of us h)]
  have := seqHeader_eq sps (ppsOf us) h4 b1 b3 h1 h3
  unfold ppsOf at this
  rw [this]
  simp only [Option.bind_some]
  unfold ppsOf at e
  rw [e]
  rfl

/-- A short SPS is an error. -/
theorem encodeAvc_short {p : NaluParser} (ctx : CodecCtx) (us : List (List UInt8))
    (h : ∀ u ∈ us, u ≠ []) (sps : List UInt8) (hs : spsOf us = some sps) (h4 : sps.length < 4) :
    p.encodeAvc ctx (us.map Nal.of) = some (Err.ERROR_H264_ENCODER, p, []) := by
  unfold encodeAvc
  rw [lastOf_eq _ _ us (isSps_of us h), show Spec.H264.lastOf (fun u => unitType u == 7) us = some sps from hs]
  simp only [Option.map_some]
  unfold seqHeader
  simp only [show (Nal.of sps).data = sps from rfl]
  rw [if_pos h4]
  rfl

end Sps.NaluParser

namespace Sps
open Spec Spec.H264

theorem answer_eq {p : NaluParser} (hp : NaluParser.Ready p) (ctx : CodecCtx) (ht : ctx.timebase ≠ 0) (us : List (List UInt8))
    (h : ∀ u ∈ us, u ≠ []) :
    ∃ p', p.encodeAvc ctx (us.map Nal.of) = some ((answer ctx us).1, p', (answer ctx us).2) ∧ NaluParser.Ready p' := by
  unfold answer
  cases hs : spsOf us with
  | none => exact NaluParser.encodeAvc_plain hp ctx ht us h hs
  | some sps =>
    match sps, hs with
    | a :: b1 :: c :: b3 :: t, hs => exact NaluParser.encodeAvc_sps hp ctx ht us h _ hs b1 b3 rfl rfl
    | [], hs => exact ⟨p, NaluParser.encodeAvc_short ctx us h _ hs (by simp), hp⟩
    | [_], hs => exact ⟨p, NaluParser.encodeAvc_short ctx us h _ hs (by simp), hp⟩
    | [_, _], hs => exact ⟨p, NaluParser.encodeAvc_short ctx us h _ hs (by simp), hp⟩
    | [_, _, _], hs => exact ⟨p, NaluParser.encodeAvc_short ctx us h _ hs (by simp), hp⟩

end Sps
