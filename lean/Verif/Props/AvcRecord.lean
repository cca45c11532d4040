import Verif.Lemmas.AvcRecord
/-!
# C38: reading AVC sequence headers
-/
namespace Sps
open Spec Spec.H264 BitCtx

/-- **C38**, reading: the records the parser reads are those in which the sets are written in its own way (`ownSets`): it finds their SPS and PPS, in order, and expects lengths of four bytes from then on.
Missing: the records of the standard, which are not among them, see the negation. -/
theorem C38_reads_partial (p : NaluParser) (profile compat level : UInt8) (r6 r3 : Nat) (h3 : r3 < 8) (spss ppss : List (List UInt8)) (hs : spss.length < 32) (hpn : ppss.length < 256)
    (hok : ∀ u ∈ spss ++ ppss, u ≠ [] ∧ u.length + 2 < 2 ^ 16 ∧ ∀ b ∈ u.head?, b.toNat < 128) :
    ∃ ns, NaluParser.decode p (around profile compat level r6 r3 ownSets spss ppss) true [] = some (Err.SUCCESS, { isAvc := true, lenSize := 3 }, ns) ∧ ns.map (·.data) = spss ++ ppss := by
  have len : ∀ us : List (List UInt8), (∀ u ∈ us, u.length + 2 < 2 ^ 16) → (ownSets us).length ≤ us.length * 2 ^ 17 := by
    intro us
    induction us with
    | nil => intro _; simp [ownSets]
    | cons u us ih =>
      intro h
      have e : ownSets (u :: us) = beBytes 2 (u.length + 2) ++ (beBytes 4 u.length ++ u) ++ ownSets us := by simp [ownSets]
      have h1 := h u (by simp)
      have := ih fun x hx => h x (by simp [hx])
      rw [e]
      simp only [List.length_append, beBytes_len, List.length_cons]
      omega
  have l1 := len spss fun u hu => (hok u (by simp [hu])).2.1
  have l2 := len ppss fun u hu => (hok u (by simp [hu])).2.1
  refine ⟨spss.map Nal.of ++ ppss.map Nal.of, ?_, ?_⟩
  · have eb : around profile compat level r6 r3 ownSets spss ppss = 1 :: profile :: compat :: level :: UInt8.ofNat (4 * r6 + 3) :: UInt8.ofNat (32 * r3 + spss.length) ::
        (ownSets spss ++ (UInt8.ofNat ppss.length :: (ownSets ppss ++ []))) := by simp [around]
    have hsm : (around profile compat level r6 r3 ownSets spss ppss).length < 2 ^ 29 := by
      rw [eb]; simp only [List.length_cons, List.length_append, List.length_nil]; omega
    have ha := Al.init _ hsm
    have hacq := ha.acquire 7 (by omega) (by rw [eb]; simp; omega)
    rw [eb] at ha
    obtain ⟨c1, e1, a1⟩ := NaluParser.headFields_al ha
    have hl : (UInt8.ofNat (4 * r6 + 3)).toNat % 4 = 3 := by simp
    have hn : (UInt8.ofNat (32 * r3 + spss.length)).toNat % 32 = spss.length := by simp; omega
    rw [hl, hn] at e1
    obtain ⟨c2, e2, a2⟩ := NaluParser.setsLoop_own { isAvc := true, lenSize := 3 } rfl rfl _ spss c1 [] a1 fun u hu => hok u (by simp [hu])
    obtain ⟨c3, e3, a3, -⟩ := a2.read 1 (by omega) (by simp)
    obtain ⟨c4, e4, -⟩ := NaluParser.setsLoop_own { isAvc := true, lenSize := 3 } rfl rfl [] ppss c3 (spss.map Nal.of) (by simpa using a3) fun u hu => hok u (by simp [hu])
    have e3' : c2.readBits 8 = some (ppss.length, c3) := by
      rw [show (8 : Nat) = 8 * 1 by rfl, e3]; simp [beVal]; omega
    unfold NaluParser.decode NaluParser.decodeHeader
    rw [if_pos rfl]
    rw [eb] at hacq ⊢
    simp only [if_true]
    rw [if_neg (by rw [hacq]; simp), e1]
    have ev : ((1 : UInt8).toNat != 0) = true := by decide
    simp only [Option.bind_some, ev]
    rw [show ((3 : Nat) : Int) = 3 by rfl, e2]
    simp only [Option.bind_some, List.nil_append, ne_eq, not_true_eq_false, if_false, e3', e4, Option.map_some]
  · rw [List.map_append, List.map_map, List.map_map]
    conv => rhs; rw [← List.map_id spss, ← List.map_id ppss]
    rfl

/-- Against **C38**: no record of the standard with an SPS is read, whatever else is in it: of the first SPS the first four bytes are taken for a length. -/
theorem C38_negation_reads (p : NaluParser) (profile compat level : UInt8) (r6 r3 : Nat) (h3 : r3 < 8) (sps : List UInt8) (spss ppss : List (List UInt8)) (hs : spss.length < 31) (ht : unitType sps = 7)
    (h4 : 4 ≤ sps.length) (hlen : sps.length < 2 ^ 16) (hsm : (around profile compat level r6 r3 stdSets (sps :: spss) ppss).length < 2 ^ 29) :
    NaluParser.decode p (around profile compat level r6 r3 stdSets (sps :: spss) ppss) true [] = some (Err.ERROR_H264_DECODER, { isAvc := true, lenSize := 3 }, []) := by
  generalize hrest : stdSets spss ++ UInt8.ofNat ppss.length :: stdSets ppss = rest
  have eb : around profile compat level r6 r3 stdSets (sps :: spss) ppss = 1 :: profile :: compat :: level :: UInt8.ofNat (4 * r6 + 3) :: UInt8.ofNat (32 * r3 + (spss.length + 1)) ::
      (beBytes 2 sps.length ++ (sps ++ rest)) := by
    rw [← hrest]; simp [around, stdSets]
  have ha := Al.init _ hsm
  have hacq := ha.acquire 7 (by omega) (by rw [eb]; simp; omega)
  rw [eb] at ha hsm
  obtain ⟨c1, e1, a1⟩ := NaluParser.headFields_al ha
  have hl : (UInt8.ofNat (4 * r6 + 3)).toNat % 4 = 3 := by simp
  have hn : (UInt8.ofNat (32 * r3 + (spss.length + 1))).toNat % 32 = spss.length + 1 := by simp; omega
  rw [hl, hn] at e1
  have hb2 := beBytes_len 2 sps.length
  obtain ⟨c2, e2, a2, -⟩ := a1.read 2 (by omega) (by simp [hb2])
  rw [List.take_left' hb2, beVal_beBytes, Nat.mod_eq_of_lt (by omega)] at e2
  rw [List.drop_left' hb2] at a2
  have key : ∃ c', NaluParser.setsLoop { isAvc := true, lenSize := 3 } (spss.length + 1) c1 [] = some (Err.ERROR_H264_DECODER, c', []) := by
    refine ⟨c2, ?_⟩
    rw [NaluParser.setsLoop, show (16 : Nat) = 8 * 2 by rfl, e2]
    simp only [Option.bind_some]
    by_cases hroom : sps.length + 2 ≤ (sps ++ rest).length
    · rw [if_neg (by rw [a2.acquire _ (by omega) hroom]; simp), NaluParser.slice_eq a2 _ hroom]
      have hd : ∃ t, (sps ++ rest).take (sps.length + 2) = sps ++ t ∧ t.length = 2 := by
        refine ⟨rest.take 2, ?_, ?_⟩
        · rw [List.take_append, List.take_of_length_le (by omega), Nat.add_sub_cancel_left]
        · rw [List.length_append] at hroom; simp; omega
      obtain ⟨t, hd, htl⟩ := hd
      rw [hd]
      have hdd : NaluParser.decodeData { isAvc := true, lenSize := 3 } (sps ++ t) [] = some (Err.ERROR_H264_DECODER, []) := by
        match sps, h4, ht with
        | x0 :: x1 :: x2 :: x3 :: y, _, ht =>
          have hz : (x0 :: x1 :: x2 :: x3 :: y ++ t).length < 2 ^ 17 := by
            rw [List.length_append, htl]; simp only [List.length_cons] at hlen ⊢; omega
          have hi := Al.init _ (Nat.lt_trans hz (by decide : 2 ^ 17 < 2 ^ 29))
          obtain ⟨c3, g1, g2, -⟩ := hi.read 4 (by omega) (by simp)
          have hacq : c3.acquire (beVal ((x0 :: x1 :: x2 :: x3 :: y ++ t).take 4)) ≠ Err.SUCCESS := by
            have h7 : x0.toNat % 32 = 7 := ht
            have := x1.toNat_lt; have := x2.toNat_lt; have := x3.toNat_lt
            unfold BitCtx.acquire acquireBits
            rw [g2.sizeBits, if_neg]
            · decide
            · have ev : beVal ((x0 :: x1 :: x2 :: x3 :: y ++ t).take 4) = x0.toNat * 16777216 + x1.toNat * 65536 + x2.toNat * 256 + x3.toNat := by
                simp [beVal]; omega
              rw [ev]
              have : ((x0 :: x1 :: x2 :: x3 :: y ++ t).drop 4).length < 2 ^ 17 := by rw [List.length_drop]; omega
              omega
          unfold NaluParser.decodeData
          rw [if_neg (by simp), NaluParser.dataLoop, if_neg (by rw [hi.acquire 4 (by omega) (by simp)]; simp)]
          unfold NaluParser.nextSize
          rw [if_pos rfl, show ((3 : Int) + 1).toNat * 8 = 8 * 4 by decide, g1]
          simp only [Option.map_some, Option.bind_some]
          rw [if_pos hacq]
      simp only [Option.bind_some, hdd]
      rw [if_pos (by decide)]
    · rw [if_pos (by rw [a2.acquire_fail _ (by omega) (by omega)]; decide)]
  obtain ⟨c', key⟩ := key
  unfold NaluParser.decode NaluParser.decodeHeader
  rw [if_pos rfl]
  rw [eb] at hacq ⊢
  simp only [if_true]
  rw [if_neg (by rw [hacq]; simp), e1]
  have ev : ((1 : UInt8).toNat != 0) = true := by decide
  simp only [Option.bind_some, ev]
  rw [show ((3 : Nat) : Int) = 3 by rfl, key]
  simp only [Option.bind_some]
  rw [if_pos (by decide)]

/-- A record in the way of the parser, with two SPS and a PPS. -/
example : (∀ u ∈ ([[0x67, 0x42, 0, 0x1e], [0x67, 0x64, 0, 0x28, 9]] ++ [[0x68, 0xce]] : List (List UInt8)), u ≠ [] ∧ u.length + 2 < 2 ^ 16 ∧ ∀ b ∈ u.head?, b.toNat < 128) ∧
    (NaluParser.decode {} (around 0x42 0 0x1e 63 7 ownSets [[0x67, 0x42, 0, 0x1e], [0x67, 0x64, 0, 0x28, 9]] [[0x68, 0xce]]) true []).map (fun r => (r.1, r.2.2.map (·.data))) =
      some (Err.SUCCESS, [[0x67, 0x42, 0, 0x1e], [0x67, 0x64, 0, 0x28, 9], [0x68, 0xce]]) := by constructor <;> decide +kernel
/-- The usual record. -/
example : around 0x42 0 0x1e 63 7 stdSets [[0x67, 0x42, 0, 0x1e]] [[0x68, 0xce]] = [1, 0x42, 0, 0x1e, 0xff, 0xe1, 0, 4, 0x67, 0x42, 0, 0x1e, 1, 0, 2, 0x68, 0xce] ∧ unitType [0x67, 0x42, 0, 0x1e] = 7 := by decide +kernel

end Sps
