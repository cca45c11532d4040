import Verif.Lemmas.HttpCut
import Verif.Lemmas.FlvMux
/-! Lemmas about the HTTP response writer and the proxy. -/
namespace Sps
open Spec Spec.Http

namespace HttpRsp

/-- Chunks as the writer makes them. -/
def hexed (ds : List (List UInt8)) : List (List UInt8 × List UInt8) := ds.map fun d => (Text.hex d.length, d)

/-- What the writes put on the wire behind the header. -/
def wire (chunked : Bool) (ds : List (List UInt8)) : List UInt8 := if chunked then (hexed ds).flatMap chunk else ds.flatten

theorem writeBody_ok (chunked : Bool) (d : List UInt8) (s : Sink) (hs : s.fails = []) :
    writeBody chunked d s = (Err.SUCCESS, { s with out := s.out ++ wire chunked [d] }) := by
  unfold writeBody
  cases chunked with
  | true =>
    simp only [if_true]
    rw [FlvMuxer.write_ok _ _ (by exact hs)]
    simp only
    rw [if_neg (by decide)]
    by_cases hd : d.length > 0
    · rw [if_pos hd, FlvMuxer.write_ok _ _ (by exact hs)]
      simp only
      rw [if_neg (by decide), FlvMuxer.write_ok _ _ (by exact hs)]
      simp [wire, hexed, chunk, Text.crlf, crlf, CR, LF]
    · rw [if_neg hd]
      simp only
      rw [if_neg (by decide), FlvMuxer.write_ok _ _ (by exact hs)]
      have : d = [] := List.length_eq_zero_iff.mp (by omega)
      subst this
      simp [wire, hexed, chunk, Text.crlf, crlf, CR, LF]
  | false =>
    simp only [Bool.false_eq_true, if_false]
    rw [if_neg (by decide)]
    by_cases hd : d.length > 0
    · rw [if_pos hd, FlvMuxer.write_ok _ _ (by exact hs)]
      simp [wire]
    · rw [if_neg hd]
      have : d = [] := List.length_eq_zero_iff.mp (by omega)
      subst this
      simp [wire]

theorem wire_cons (chunked : Bool) (d : List UInt8) (ds : List (List UInt8)) : wire chunked (d :: ds) = wire chunked [d] ++ wire chunked ds := by
  cases chunked <;> simp [wire, hexed]

theorem write_sent (reason : Int → Text) (r : HttpRsp) (hr : r.sent = true) (d : List UInt8) (s : Sink) (hs : s.fails = []) :
    r.write reason d s = (Err.SUCCESS, r, { s with out := s.out ++ wire r.chunked [d] }) := by
  unfold write
  rw [if_pos hr]
  simp only
  rw [if_neg (by decide), writeBody_ok _ _ _ (by exact hs)]

theorem writes_sent (reason : Int → Text) : ∀ (ds : List (List UInt8)) (r : HttpRsp) (s : Sink), r.sent = true → s.fails = [] →
    writes reason ds r s = (ds.map fun _ => Err.SUCCESS, r, { s with out := s.out ++ wire r.chunked ds })
  | [], r, s, _, _ => by cases hc : r.chunked <;> simp [writes, wire, hexed]
  | d :: ds, r, s, hr, hs => by
    unfold writes
    rw [write_sent reason r hr d s hs]
    simp only
    rw [writes_sent reason ds r { s with out := s.out ++ wire r.chunked [d] } hr hs, wire_cons r.chunked d ds]
    simp

theorem writes_new (reason : Int → Text) (d : List UInt8) (ds : List (List UInt8)) (r : HttpRsp) (s : Sink) (hr : r.sent = false) (hs : s.fails = []) :
    writes reason (d :: ds) r s =
      ((d :: ds).map fun _ => Err.SUCCESS, { r with sent := true }, { s with out := s.out ++ r.headText reason ++ wire r.chunked (d :: ds) }) := by
  unfold writes write
  rw [if_neg (by rw [hr]; decide)]
  unfold writeHeader
  rw [FlvMuxer.write_ok _ _ (by exact hs)]
  simp only
  rw [if_neg (by decide), writeBody_ok _ _ _ (by exact hs)]
  simp only
  rw [writes_sent reason ds { r with sent := true } { s with out := s.out ++ r.headText reason ++ wire r.chunked [d] } rfl hs, wire_cons r.chunked d ds]
  simp

theorem hexed_map (ds : List (List UInt8)) : (hexed ds).map (·.2) = ds := by
  unfold hexed
  rw [List.map_map]
  exact List.map_id ds

theorem hexed_content (ds : List (List UInt8)) : content (hexed ds) = ds.flatten := by
  simp only [content, hexed, List.flatMap_map]
  exact List.flatMap_id

theorem hexed_ok (ds : List (List UInt8)) (h : ∀ d ∈ ds, d ≠ [] ∧ d.length < 2 ^ 64) : codedOk (hexed ds) (Text.hex 0) where
  sizes c hc := by
    obtain ⟨d, hd, rfl⟩ := List.mem_map.mp hc
    exact ⟨(h d hd).1, (Text.sizeLine_hex _ (h d hd).2).1, (Text.sizeLine_hex _ (h d hd).2).2, (h d hd).2⟩
  last := (Text.sizeLine_hex 0 (by decide)).1
  short := (Text.sizeLine_hex 0 (by decide)).2

theorem wire_coded (ds : List (List UInt8)) : wire true (ds ++ [[]]) = coded (hexed ds) (Text.hex 0) := by
  simp [wire, hexed, coded]

/-! ## The header -/

/-- The fields of the header. -/
def fields (r : HttpRsp) : List Header :=
  (if r.chunked then [(ascii "Transfer-Encoding", ascii "chunked")]
    else if 0 ≤ r.cl then [(ascii "Content-Length", Text.decInt r.cl)] else []) ++
  (r.headers.filter fun h => !(h.1 == ascii "Content-Length" && (!r.chunked && decide (0 ≤ r.cl)))) ++
  (if r.headers.any (fun h => h.1 == ascii "Server") then [] else [(ascii "Server", ascii "sps")])

theorem headText_fields (reason : Int → Text) (r : HttpRsp) : r.headText reason =
    ascii "HTTP/1.1 " ++ Text.decInt r.status ++ ascii " " ++ reason r.status ++ crlf ++ r.fields.flatMap fieldLine ++ crlf := by
  have e1 : Text.crlf = crlf := rfl
  have e2 : (headerLine : Header → Text) = fieldLine := rfl
  have e3 : r.framing = (if r.chunked then [(ascii "Transfer-Encoding", ascii "chunked")]
    else if 0 ≤ r.cl then [(ascii "Content-Length", Text.decInt r.cl)] else ([] : List Header)).flatMap fieldLine := by
    unfold framing
    split
    · simp only [List.flatMap_cons, List.flatMap_nil, List.append_nil, fieldLine, e1]; rfl
    · split
      · simp only [List.flatMap_cons, List.flatMap_nil, List.append_nil, fieldLine, e1]; rfl
      · rfl
  have e4 : (if r.headers.any (fun h => h.1 == ascii "Server") then [] else ascii "Server: sps" ++ crlf) =
      (if r.headers.any (fun h => h.1 == ascii "Server") then [] else [(ascii "Server", ascii "sps")] : List Header).flatMap fieldLine := by
    split
    · rfl
    · simp only [List.flatMap_cons, List.flatMap_nil, List.append_nil, fieldLine]; rfl
  unfold headText fields
  simp only [e1, e2, List.flatMap_append, e3, e4, List.append_assoc]

end HttpRsp

namespace Text

theorem decDigit_digit (d : Nat) (h : d < 10) : decDigit (digit d) = some d := by
  have t : ∀ n : Fin 10, decDigit (digit n.val) = some n.val := by decide +kernel
  exact t ⟨d, h⟩

theorem decValue_append : ∀ (a b : List UInt8) (acc : Nat), decValue acc (a ++ b) = (decValue acc a).bind fun x => decValue x b
  | [], b, acc => rfl
  | d :: a, b, acc => by
    rw [List.cons_append, decValue, decValue]
    cases decDigit d with
    | none => rfl
    | some v => exact decValue_append a b _

theorem digits_dec : ∀ (fuel n : Nat), n < 10 ^ fuel → decValue 0 (digits 10 fuel n) = some n
  | 0, n, h => by
    have : n = 0 := by simpa using h
    subst this; rfl
  | fuel + 1, n, h => by
    rw [digits]
    split
    · rename_i hn
      rw [decValue, decDigit_digit n hn]
      simp [decValue]
    · rw [decValue_append, digits_dec fuel (n / 10) (by rw [Nat.pow_succ] at h; omega), Option.bind_some, decValue,
        decDigit_digit _ (Nat.mod_lt _ (by decide)), Option.bind_some, decValue]
      congr 1
      omega

theorem dec_value (n : Nat) (h : n < 2 ^ 64) : decValue 0 (dec n) = some n :=
  digits_dec 64 n (Nat.lt_of_lt_of_le h (by decide))

theorem decInt_value (n : Nat) (h : n < 2 ^ 64) : decValue 0 (decInt (n : Int)) = some n := by
  unfold decInt
  rw [if_neg (by omega), Int.natAbs_natCast]
  exact dec_value n h

theorem digits_line (base : Nat) (hb : 0 < base) (h16 : base ≤ 16) : ∀ (fuel n : Nat), ∀ b ∈ digits base fuel n, b ≠ CR ∧ b ≠ LF := by
  have t : ∀ n : Fin 16, digit n.val ≠ CR ∧ digit n.val ≠ LF := by decide +kernel
  intro fuel
  induction fuel with
  | zero => intro n b hb; cases hb
  | succ fuel ih =>
    intro n b hm
    rw [digits] at hm
    split at hm
    · simp only [List.mem_singleton] at hm
      subst hm
      exact t ⟨n, by omega⟩
    · rcases List.mem_append.mp hm with hm | hm
      · exact ih _ b hm
      · simp only [List.mem_singleton] at hm
        subst hm
        exact t ⟨n % base, Nat.lt_of_lt_of_le (Nat.mod_lt _ hb) h16⟩

theorem decInt_line (n : Int) : ∀ b ∈ decInt n, b ≠ CR ∧ b ≠ LF := by
  unfold decInt
  split
  · intro b hb
    rcases List.mem_cons.mp hb with rfl | hb
    · decide
    · exact digits_line 10 (by decide) (by decide) 64 _ b hb
  · exact digits_line 10 (by decide) (by decide) 64 _

end Text

namespace HttpProxy
open HttpRsp

theorem relay_chunked (reason : Int → Text) {t : List UInt8} {cl : Err} {z : List UInt8} : ∀ (fuel : Nat) (b : HttpBody) (io : Io)
    (X d : List UInt8) (cs : List (List UInt8 × List UInt8)) (r : HttpRsp) (s : Sink), HttpBody.Pending b io X t cl d cs z → r.sent = true → r.chunked = true →
    s.fails = [] → X.length + 2 ≤ fuel →
    ∃ io' ds, relay reason fuel b io r s = some (.inr Err.ERROR_HTTP_RES_EOF, io', { s with out := s.out ++ coded (hexed ds) (Text.hex 0) }) ∧
      ds.flatten = X ∧ (∀ d ∈ ds, d ≠ [] ∧ d.length ≤ 1024) ∧ Arrives io' t cl
  | 0, _, _, _, _, _, _, _, _, _, _, _, hf => by omega
  | fuel + 1, b, io, X, d, cs, r, s, h, hr, hc, hs, hf => by
    obtain ⟨d1, X', b1, io1, h1, h2, h4, h3⟩ := HttpBody.read_pending (side := .client) h 1024 (by decide)
    unfold relay
    rw [h1, Option.bind_some]
    simp only
    rw [if_neg (by decide), write_sent reason r hr d1 s hs]
    simp only
    rw [if_neg (by decide)]
    rcases h3 with ⟨g1, d', cs', g2⟩ | ⟨g1, g2, g3⟩
    · have hd1 : 0 < d1.length := by cases d1 with | nil => exact absurd rfl g1 | cons => simp
      obtain ⟨io', ds, k1, k2, k3, k4⟩ := relay_chunked reason fuel b1 io1 X' d' cs' r { s with out := s.out ++ wire r.chunked [d1] } g2 hr hc hs (by
        rw [h2] at hf; simp at hf; omega)
      refine ⟨io', d1 :: ds, ?_, by rw [h2, ← k2]; rfl, ?_, k4⟩
      · rw [k1, hc]
        simp [wire, coded, hexed, List.append_assoc]
      · intro x hx
        rcases List.mem_cons.mp hx with rfl | hx
        · exact ⟨g1, h4⟩
        · exact k3 x hx
    · have hd1 : d1 = [] := by rw [g1] at h2; exact (List.append_eq_nil_iff.mp h2.symm).1
      subst hd1
      match fuel, hf with
      | fuel + 1, _ =>
        unfold relay HttpBody.read
        rw [if_pos g2, Option.bind_some]
        simp only
        rw [if_pos (by decide), hc]
        exact ⟨io1, [], by simp [wire, coded, hexed], by rw [g1]; rfl, by simp, g3⟩

theorem relay_length (reason : Int → Text) {cl : Err} {t : List UInt8} {N : Nat} (hN : N < 2 ^ 31) : ∀ (fuel : Nat) (b : HttpBody) (io : Io) (X : List UInt8)
    (r : HttpRsp) (s : Sink), b.chunked = false → b.cl = (N : Int) → b.eof = decide (X = []) → b.nread + X.length = N → Arrives io (X ++ t) cl →
    r.sent = true → r.chunked = false → s.fails = [] → X.length + 1 ≤ fuel →
    ∃ io', relay reason fuel b io r s = some (.inr Err.ERROR_HTTP_RES_EOF, io', { s with out := s.out ++ X }) ∧ Arrives io' t cl
  | 0, _, _, _, _, _, _, _, _, _, _, _, _, _, hf => by omega
  | fuel + 1, b, io, X, r, s, hc, hcl, he, hrd, ha, hr, hrc, hs, hf => by
    by_cases hX : X = []
    · subst hX
      unfold relay HttpBody.read
      rw [if_pos (by rw [he]; decide), Option.bind_some]
      simp only
      rw [if_pos (by decide)]
      exact ⟨io, by simp, by simpa using ha⟩
    · have hXl : 0 < X.length := by cases X with | nil => exact absurd rfl hX | cons => simp
      unfold relay HttpBody.read
      rw [if_neg (by rw [he]; simpa using hX), if_neg (by rw [hc]; decide)]
      have h0 : (0 : Int) ≤ b.cl := by omega
      have hsub : subSz b.cl.toNat b.nread = X.length := by
        rw [hcl, Int.toNat_natCast, subSz_eq (by omega) (by omega)]
        omega
      simp only [if_pos h0, hsub]
      obtain ⟨d1, s', io1, h1, h2, h3, h4, h5⟩ := Io.read_on ha (by simp [hX]) (min X.length 1024) (by omega)
      rw [h1]
      simp only [Option.bind_some]
      rw [if_neg (by decide), write_sent reason r hr d1 s hs]
      simp only
      rw [if_neg (by decide)]
      have hd1 : d1.length ≤ X.length := by omega
      have e2 : X = d1 ++ X.drop d1.length := by
        have := congrArg (List.take d1.length) h2
        rw [List.take_append_of_le_length hd1, List.take_left] at this
        conv => lhs; rw [← List.take_append_drop d1.length X]
        rw [this]
      have e3 : s' = X.drop d1.length ++ t := by
        have := congrArg (List.drop d1.length) h2
        rw [List.drop_append_of_le_length hd1, List.drop_left] at this
        exact this.symm
      have hd0 : 0 < d1.length := by cases d1 with | nil => exact absurd rfl h3 | cons => simp
      obtain ⟨io', k1, k2⟩ := relay_length reason hN fuel
        { b with nread := b.nread + d1.length, eof := decide (b.cl.toNat ≤ b.nread + d1.length) } io1 (X.drop d1.length) r
        { s with out := s.out ++ wire r.chunked [d1] } hc hcl (by
          simp only [decide_eq_decide, hcl, Int.toNat_natCast, List.drop_eq_nil_iff]
          omega) (by simp only [List.length_drop]; omega) (e3 ▸ h5) hr hrc hs (by rw [List.length_drop]; omega)
      rw [k1]
      refine ⟨io', ?_, k2⟩
      rw [hrc]
      simp only [wire, Bool.false_eq_true, if_false, List.flatten_cons, List.flatten_nil, List.append_nil, List.append_assoc]
      rw [← e2]

theorem relay_unlimited (reason : Int → Text) {cl : Err} : ∀ (fuel : Nat) (b : HttpBody) (io : Io) (X : List UInt8) (r : HttpRsp) (s : Sink),
    b.chunked = false → b.cl < 0 → b.eof = false → Arrives io X cl → r.sent = true → r.chunked = false → s.fails = [] → X.length + 1 ≤ fuel →
    ∃ io', relay reason fuel b io r s = some (.inr cl, io', { s with out := s.out ++ X })
  | 0, _, _, _, _, _, _, _, _, _, _, _, _, hf => by omega
  | fuel + 1, b, io, X, r, s, hc, hcl, he, ha, hr, hrc, hs, hf => by
    unfold relay HttpBody.read
    rw [if_neg (by rw [he]; decide), if_neg (by rw [hc]; decide)]
    have h0 : ¬ (0 : Int) ≤ b.cl := by omega
    simp only [if_neg h0]
    by_cases hX : X = []
    · subst hX
      obtain ⟨io1, h1, h2⟩ := Io.read_end ha 1024 (by decide)
      rw [h1]
      simp only [Option.bind_some]
      rw [if_pos (arrives_ne ha)]
      exact ⟨io1, by simp⟩
    · obtain ⟨d1, s', io1, h1, h2, h3, h4, h5⟩ := Io.read_on ha hX 1024 (by decide)
      rw [h1]
      simp only [Option.bind_some]
      rw [if_neg (by decide), write_sent reason r hr d1 s hs]
      simp only
      rw [if_neg (by decide)]
      have hd0 : 0 < d1.length := by cases d1 with | nil => exact absurd rfl h3 | cons => simp
      obtain ⟨io', k1⟩ := relay_unlimited reason fuel { b with nread := b.nread + d1.length, eof := b.eof } io1 s' r
        { s with out := s.out ++ wire r.chunked [d1] } hc hcl he h5 hr hrc hs (by rw [h2] at hf; simp at hf; omega)
      rw [k1]
      refine ⟨io', ?_⟩
      rw [hrc, h2]
      simp [wire]

end HttpProxy
end Sps
