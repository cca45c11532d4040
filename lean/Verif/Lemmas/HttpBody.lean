import Verif.Lemmas.Http
/-! Lemmas about HTTP bodies: chunk size lines, the body readers. -/
namespace Sps
open Spec Spec.Http

namespace Text

theorem digitVal_hex (b : UInt8) : digitVal 16 b = hexDigit b := by
  have t : ∀ n : Fin 256, digitVal 16 (UInt8.ofNat n.val) = hexDigit (UInt8.ofNat n.val) := by decide +kernel
  have := t ⟨b.toNat, b.toNat_lt⟩
  simpa using this

theorem hexDigit_front (b : UInt8) (h : (hexDigit b).isSome) : isSpace b = false ∧ b ≠ 45 ∧ b ≠ 43 ∧ b ≠ 120 ∧ b ≠ 88 ∧ b ≠ CR ∧ b ≠ LF := by
  have t : ∀ n : Fin 256, (hexDigit (UInt8.ofNat n.val)).isSome → isSpace (UInt8.ofNat n.val) = false ∧ UInt8.ofNat n.val ≠ 45 ∧
      UInt8.ofNat n.val ≠ 43 ∧ UInt8.ofNat n.val ≠ 120 ∧ UInt8.ofNat n.val ≠ 88 ∧ UInt8.ofNat n.val ≠ CR ∧ UInt8.ofNat n.val ≠ LF := by decide +kernel
  have := t ⟨b.toNat, b.toNat_lt⟩
  simp only [UInt8.ofNat_toNat] at this
  exact this h

theorem hexValue_digits : ∀ (ds : List UInt8) (acc n : Nat), hexValue acc ds = some n → ∀ b ∈ ds, (hexDigit b).isSome
  | [], _, _, _, b, hb => by cases hb
  | d :: ds, acc, n, h, b, hb => by
    unfold hexValue at h
    cases hd : hexDigit d with
    | none => rw [hd] at h; cases h
    | some v =>
      rw [hd] at h
      rcases List.mem_cons.mp hb with rfl | hb
      · rw [hd]; rfl
      · exact hexValue_digits ds _ n h b hb

theorem number_hex (ext : List UInt8) (hext : ext = [] ∨ ext.head? = some 59) : ∀ (ds : List UInt8) (acc n : Nat),
    hexValue acc ds = some n → number 16 acc (ds ++ ext) = n
  | [], acc, n, h => by
    unfold hexValue at h
    cases h
    cases ext with
    | nil => rfl
    | cons e ext =>
      simp at hext
      subst hext
      have : digitVal 16 59 = none := by decide +kernel
      simp only [List.nil_append, number, this]
  | d :: ds, acc, n, h => by
    unfold hexValue at h
    cases hd : hexDigit d with
    | none => rw [hd] at h; cases h
    | some v =>
      rw [hd] at h
      have := number_hex ext hext ds (16 * acc + v) n h
      rw [List.cons_append, number, digitVal_hex, hd]
      simp only
      rw [Nat.mul_comm acc 16]
      exact this

theorem strtoul16_line {l : List UInt8} {n : Nat} (h : sizeLine l n) (hn : n < 2 ^ 64) : strtoul16 l = n := by
  obtain ⟨ds, ext, rfl, hne, hv, hext, _⟩ := h
  have hd := hexValue_digits ds 0 n hv
  obtain ⟨b, ds', rfl⟩ : ∃ b ds', ds = b :: ds' := by
    cases ds with
    | nil => exact absurd rfl hne
    | cons b ds' => exact ⟨b, ds', rfl⟩
  have hb := hexDigit_front b (hd b (by simp))
  have hsg : signed (b :: ds' ++ ext) = (false, b :: ds' ++ ext) := by
    unfold signed
    rw [List.cons_append, List.dropWhile_cons_of_neg (by rw [hb.1]; decide)]
    split
    · rename_i heq; cases heq; exact absurd rfl hb.2.1
    · rename_i heq; cases heq; exact absurd rfl hb.2.2.1
    · rfl
  have hsk : skip0x (b :: ds' ++ ext) = b :: ds' ++ ext := by
    unfold skip0x
    split
    · rename_i x d r heq
      rw [if_neg]
      · rw [heq]
      · rintro ⟨hx, hdd⟩
        cases ds' with
        | nil =>
          simp only [List.cons_append, List.nil_append, List.cons.injEq] at heq
          rw [heq.2] at hext
          rcases hext with hext | hext
          · cases hext
          · simp only [List.head?_cons, Option.some.injEq] at hext
            subst hext
            rcases hx with hx | hx <;> exact absurd hx (by decide)
        | cons y ds'' =>
          simp only [List.cons_append, List.cons.injEq] at heq
          have := hexDigit_front y (hd y (by simp))
          rw [heq.2.1] at this
          rcases hx with hx | hx
          · exact this.2.2.2.1 hx
          · exact this.2.2.2.2.1 hx
    · rfl
  unfold strtoul16
  rw [hsg]
  simp only
  rw [hsk, number_hex ext hext (b :: ds') 0 n hv, if_neg (by omega), if_neg (by decide)]

theorem sizeLine_noLf {l : List UInt8} {n : Nat} (h : sizeLine l n) : ∀ b ∈ l, b ≠ LF := by
  obtain ⟨ds, ext, rfl, hne, hv, hext, hx⟩ := h
  intro b hb
  rcases List.mem_append.mp hb with hb | hb
  · exact (hexDigit_front b (hexValue_digits ds 0 n hv b hb)).2.2.2.2.2.2
  · exact (hx b hb).2

theorem sizeLine_len {l : List UInt8} {n : Nat} (h : sizeLine l n) : l ≠ [] := by
  obtain ⟨ds, ext, rfl, hne, _⟩ := h
  simp [hne]

/-! ## Writing numbers -/

theorem hexDigit_digit (d : Nat) (h : d < 16) : hexDigit (digit d) = some d := by
  have t : ∀ n : Fin 16, hexDigit (digit n.val) = some n.val := by decide +kernel
  exact t ⟨d, h⟩

theorem hexValue_append : ∀ (a b : List UInt8) (acc : Nat), hexValue acc (a ++ b) = (hexValue acc a).bind fun x => hexValue x b
  | [], b, acc => rfl
  | d :: a, b, acc => by
    rw [List.cons_append, hexValue, hexValue]
    cases hexDigit d with
    | none => rfl
    | some v => exact hexValue_append a b _

theorem digits_value : ∀ (fuel n : Nat), n < 16 ^ fuel → hexValue 0 (digits 16 fuel n) = some n
  | 0, n, h => by
    have : n = 0 := by simpa using h
    subst this; rfl
  | fuel + 1, n, h => by
    rw [digits]
    split
    · rename_i hn
      rw [hexValue, hexDigit_digit n hn]
      simp [hexValue]
    · rw [hexValue_append, digits_value fuel (n / 16) (by rw [Nat.pow_succ] at h; omega), Option.bind_some, hexValue,
        hexDigit_digit _ (Nat.mod_lt _ (by decide)), Option.bind_some, hexValue]
      congr 1
      omega

theorem digits_len (base : Nat) (hb : 1 < base) : ∀ (fuel k n : Nat), n < base ^ k → 0 < k → k ≤ fuel → (digits base fuel n).length ≤ k
  | 0, k, n, _, h0, hk => by omega
  | fuel + 1, k, n, h, h0, hk => by
    rw [digits]
    split
    · exact h0
    · rename_i hn
      match k, h, h0, hk with
      | 1, h, _, _ => exact absurd (by simpa using h) hn
      | k + 2, h, _, hk =>
        have := digits_len base hb fuel (k + 1) (n / base) (by
          rw [Nat.pow_succ] at h
          exact Nat.div_lt_of_lt_mul (by rw [Nat.mul_comm]; exact h)) (by omega) (by omega)
        simp
        omega

theorem digits_ne (base : Nat) : ∀ (fuel n : Nat), 0 < fuel → digits base fuel n ≠ []
  | fuel + 1, n, _ => by rw [digits]; split <;> simp

/-- What `hex` writes is a size line. -/
theorem sizeLine_hex (n : Nat) (hn : n < 2 ^ 64) : sizeLine (hex n) n ∧ (hex n).length ≤ 31 := by
  constructor
  · refine ⟨hex n, [], by simp, digits_ne 16 64 n (by decide), digits_value 64 n (Nat.lt_of_lt_of_le hn (by decide)), Or.inl rfl, by simp⟩
  · exact Nat.le_trans (digits_len 16 (by decide) 64 16 n (Nat.lt_of_lt_of_le hn (by decide)) (by decide) (by decide)) (by decide)

end Text

namespace HttpBody

theorem line_on {cl : Err} : ∀ (fuel : Nat) (l got s : List UInt8) (io : Io), Arrives io (l ++ crlf ++ s) cl → (∀ b ∈ l, b ≠ LF) →
    got.length + l.length + 2 ≤ 33 → l.length + 2 ≤ fuel → ∃ io', line fuel io got = some (Err.SUCCESS, got ++ l ++ crlf, io') ∧ Arrives io' s cl
  | 0, l, got, s, io, _, _, _, hf => by omega
  | fuel + 1, [], got, s, io, ha, _, hg, hf => by
    simp only [List.nil_append, crlf, List.cons_append] at ha
    obtain ⟨io1, h1, h2⟩ := Io.read_one ha
    obtain ⟨io2, h3, h4⟩ := Io.read_one h2
    unfold line
    rw [h1]
    simp only
    simp only [List.length_nil] at hg hf
    rw [if_pos ⟨by decide, by omega⟩]
    match fuel, hf with
    | fuel + 1, _ =>
      unfold line
      rw [h3]
      simp only
      rw [if_neg (fun h => h.1 rfl)]
      exact ⟨io2, by simp [crlf], h4⟩
  | fuel + 1, b :: l, got, s, io, ha, hl, hg, hf => by
    simp only [List.cons_append] at ha
    obtain ⟨io1, h1, h2⟩ := Io.read_one ha
    unfold line
    rw [h1]
    simp only [List.length_cons] at hg hf ⊢
    have hb : b ≠ LF := hl b (by simp)
    rw [if_pos ⟨by simpa [LF] using hb, by omega⟩]
    obtain ⟨io2, h3, h4⟩ := line_on fuel l (got ++ [b]) s io1 h2 (fun x hx => hl x (List.mem_cons_of_mem _ hx)) (by simp; omega) (by omega)
    exact ⟨io2, by rw [h3]; simp, h4⟩

theorem readLength_on {io : Io} {l s : List UInt8} {n : Nat} {cl : Err} (b : HttpBody) (ha : Arrives io (l ++ crlf ++ s) cl) (hs : sizeLine l n) (hl : l.length ≤ 31)
    (hn : n < 2 ^ 64) : ∃ io', b.readLength io = some (Err.SUCCESS, { b with left := n, size := n }, io') ∧ Arrives io' s cl := by
  obtain ⟨io1, h1, h2⟩ := line_on 34 l [] s io ha (Text.sizeLine_noLf hs) (by simp; omega) (by omega)
  refine ⟨io1, ?_, h2⟩
  unfold readLength
  rw [h1, Option.bind_some]
  simp only [List.nil_append]
  have e1 : (l ++ crlf).getLast? = some 10 := by simp [crlf, LF]
  have e2 : (l ++ crlf).dropLast = l ++ [13] := by
    rw [show l ++ crlf = (l ++ [13]) ++ [10] by simp [crlf, CR, LF], List.dropLast_concat]
  have e3 : (l ++ [13]).getLast? = some (13 : UInt8) := by simp
  have e4 : (l ++ [13]).dropLast = l := List.dropLast_concat
  rw [if_neg (by decide), if_neg (by rw [e1]; decide), e2, e3, e4, if_neg (by simp [crlf]), Text.strtoul16_line hs hn]

theorem tail_on {io : Io} {s : List UInt8} {cl : Err} (b : HttpBody) (d : List UInt8) (ha : Arrives io ((if b.left = 0 then crlf else []) ++ s) cl) :
    ∃ io', b.tail Err.SUCCESS d io = some (Err.SUCCESS, d, if b.size = 0 then { b with eof := true } else b, io') ∧ Arrives io' s cl := by
  unfold tail
  by_cases h0 : b.left = 0
  · rw [if_pos h0] at ha
    obtain ⟨io1, h1, h2⟩ := Io.full_on (d := crlf) ha (by decide) (by decide)
    have h1' : io.full 2 = some (Err.SUCCESS, crlf, io1) := h1
    rw [if_pos ⟨rfl, h0⟩, h1']
    refine ⟨io1, ?_, h2⟩
    have hc : ¬ (crlf ≠ [13, 10]) := by decide
    simp only [Option.map_some, true_and, if_neg hc]
  · rw [if_neg h0] at ha
    rw [if_neg (fun h => h0 h.2)]
    exact ⟨io, by simp only [Option.map_some, true_and], by simpa using ha⟩

/-- A chunked body of which `X` is still to come, `t` behind it. -/
structure Pending (b : HttpBody) (io : Io) (X t : List UInt8) (cl : Err) (d : List UInt8) (cs : List (List UInt8 × List UInt8)) (z : List UInt8) : Prop where
  chunked : b.chunked = true
  eof : b.eof = false
  all : X = d ++ content cs
  left : b.left = d.length
  size : d ≠ [] → b.size ≠ 0
  small : d.length < 2 ^ 64
  io : Arrives io ((if d = [] then [] else d ++ crlf) ++ (coded cs z ++ t)) cl
  ok : codedOk cs z

theorem readData_on {side : HttpSide} {b : HttpBody} {io : Io} {t d : List UInt8} {cl : Err} {cs : List (List UInt8 × List UInt8)} {z : List UInt8} {n : Nat}
    (hc : b.chunked = true) (he : b.eof = false) (hl : b.left = d.length) (hs : b.size ≠ 0) (hd : d ≠ []) (hsm : d.length < 2 ^ 64)
    (ha : Arrives io (d ++ (crlf ++ (coded cs z ++ t))) cl) (hok : codedOk cs z) (hn : 0 < n) :
    ∃ d1 d2 b' io', readData side b n io = some (Err.SUCCESS, d1, b', io') ∧ d = d1 ++ d2 ∧ d1 ≠ [] ∧ d1.length ≤ n ∧
      Pending b' io' (d2 ++ content cs) t cl d2 cs z := by
  have hdl : 0 < d.length := by cases d with | nil => exact absurd rfl hd | cons => simp
  have fin : ∀ (d1 d2 : List UInt8) (io1 : Io), d = d1 ++ d2 → d1 ≠ [] → d1.length ≤ n → Arrives io1 (d2 ++ (crlf ++ (coded cs z ++ t))) cl →
      ∃ b' io', tail { b with left := subSz b.left d1.length } Err.SUCCESS d1 io1 = some (Err.SUCCESS, d1, b', io') ∧
        Pending b' io' (d2 ++ content cs) t cl d2 cs z := by
    intro d1 d2 io1 h1 h2 h3 h4
    have hl2 : subSz b.left d1.length = d2.length := by
      rw [hl, h1, List.length_append, subSz_eq (by omega) (by rw [h1, List.length_append] at hsm; omega)]
      omega
    rw [hl2]
    have hda : Arrives io1 ((if ({ b with left := d2.length } : HttpBody).left = 0 then crlf else []) ++ ((if d2 = [] then [] else d2 ++ crlf) ++ (coded cs z ++ t))) cl := by
      cases d2 with
      | nil => simpa using h4
      | cons x d2 => simpa using h4
    obtain ⟨io2, k1, k2⟩ := tail_on { b with left := d2.length } d1 hda
    refine ⟨_, io2, k1, ?_⟩
    rw [if_neg hs]
    exact ⟨hc, he, rfl, rfl, fun _ => hs, by rw [h1, List.length_append] at hsm; omega, k2, hok⟩
  unfold readData
  cases side with
  | server =>
    simp only
    rw [if_pos hs]
    have hm : 0 < min b.left n := by omega
    obtain ⟨d1, s', io1, h1, h2, h3, h4, h5⟩ := Io.read_on ha (by simp [hd]) (min b.left n) hm
    rw [h1]
    simp only
    have hd1 : d1.length ≤ d.length := by omega
    have e1 : d1 = d.take d1.length := by
      have := congrArg (List.take d1.length) h2
      rw [List.take_append_of_le_length hd1, List.take_left] at this
      exact this.symm
    have e2 : d = d1 ++ d.drop d1.length := by
      conv => lhs; rw [← List.take_append_drop d1.length d]
      rw [← e1]
    have e3 : s' = d.drop d1.length ++ (crlf ++ (coded cs z ++ t)) := by
      have := congrArg (List.drop d1.length) h2
      rw [List.drop_append_of_le_length hd1, List.drop_left] at this
      exact this.symm
    obtain ⟨b', io', g1, g2⟩ := fin d1 (d.drop d1.length) io1 e2 h3 (by omega) (e3 ▸ h5)
    exact ⟨d1, _, b', io', g1, e2, h3, by omega, g2⟩
  | client =>
    simp only
    rw [if_pos (by omega)]
    have hmn : (d.take (min b.left n)).length = min b.left n := by rw [List.length_take]; omega
    rw [← List.take_append_drop (min b.left n) d, List.append_assoc] at ha
    obtain ⟨io1, h1, h2⟩ := Io.full_on ha (by omega) (by omega)
    rw [hmn] at h1
    rw [h1, Option.bind_some]
    simp only
    have hne : d.take (min b.left n) ≠ [] := by
      intro h0
      rw [h0] at hmn
      simp at hmn
      omega
    obtain ⟨b', io', g1, g2⟩ := fin (d.take (min b.left n)) (d.drop (min b.left n)) io1 (List.take_append_drop _ _).symm hne (by omega) h2
    rw [hmn] at g1
    exact ⟨_, _, b', io', g1, (List.take_append_drop _ _).symm, hne, by omega, g2⟩

/-- One read of a chunked body. -/
theorem read_pending {side : HttpSide} {b : HttpBody} {io : Io} {X t : List UInt8} {cl : Err} {d z : List UInt8} {cs : List (List UInt8 × List UInt8)}
    (h : Pending b io X t cl d cs z) (n : Nat) (hn : 0 < n) :
    ∃ d1 X' b' io', b.read side n io = some (Err.SUCCESS, d1, b', io') ∧ X = d1 ++ X' ∧ d1.length ≤ n ∧
      ((d1 ≠ [] ∧ ∃ d' cs', Pending b' io' X' t cl d' cs' z) ∨ (X = [] ∧ b'.eof = true ∧ Arrives io' t cl)) := by
  unfold read
  rw [if_neg (by rw [h.eof]; decide), if_pos h.chunked]
  unfold readChunked
  by_cases hd : d = []
  · subst hd
    have hl : b.left = 0 := h.left
    rw [if_pos hl]
    have hio := h.io
    rw [if_pos rfl, List.nil_append] at hio
    have hX := h.all
    have hok := h.ok
    cases cs with
    | nil =>
      have hio' : Arrives io (z ++ crlf ++ (crlf ++ t)) cl := by simpa [coded, chunk] using hio
      obtain ⟨io1, h1, h2⟩ := readLength_on b hio' hok.last hok.short (by decide)
      rw [h1, Option.bind_some]
      simp only
      rw [if_neg (by decide)]
      obtain ⟨io2, h3, h4⟩ := tail_on (s := t) ({ b with left := 0, size := 0 } : HttpBody) [] (by simpa using h2)
      refine ⟨[], [], { b with left := 0, size := 0, eof := true }, io2, ?_, by simpa [content] using hX, by simp, Or.inr ⟨by simpa [content] using hX, rfl, h4⟩⟩
      unfold readData
      cases side
      · simp only
        rw [if_neg (by simp), h3, if_pos rfl]
      · simp only
        rw [if_neg (by simp), h3, if_pos rfl]
    | cons c cs =>
      have hc := hok.sizes c (by simp)
      have hio' : Arrives io (c.1 ++ crlf ++ (c.2 ++ (crlf ++ (coded cs z ++ t)))) cl := by simpa [coded, chunk] using hio
      obtain ⟨io1, h1, h2⟩ := readLength_on b hio' hc.2.1 hc.2.2.1 hc.2.2.2
      rw [h1, Option.bind_some]
      simp only
      rw [if_neg (by decide)]
      have hcl : c.2.length ≠ 0 := by
        intro h0; exact hc.1 (List.length_eq_zero_iff.mp h0)
      obtain ⟨d1, d2, b', io', g1, g2, g3, g4, g5⟩ := readData_on (side := side) (b := { b with left := c.2.length, size := c.2.length }) h.chunked h.eof rfl hcl
        hc.1 hc.2.2.2 h2 ⟨fun x hx => hok.sizes x (List.mem_cons_of_mem _ hx), hok.last, hok.short⟩ hn
      refine ⟨d1, d2 ++ content cs, b', io', g1, ?_, g4, Or.inl ⟨g3, d2, cs, g5⟩⟩
      rw [hX]
      simp only [content, List.nil_append, List.flatMap_cons]
      rw [g2, List.append_assoc]
  · have hdl : 0 < d.length := by cases d with | nil => exact absurd rfl hd | cons => simp
    rw [if_neg (by rw [h.left]; omega), Option.bind_some]
    simp only
    rw [if_neg (by decide)]
    have hio := h.io
    rw [if_neg hd, List.append_assoc] at hio
    obtain ⟨d1, d2, b', io', g1, g2, g3, g4, g5⟩ := readData_on (side := side) h.chunked h.eof h.left (h.size hd) hd h.small hio h.ok hn
    exact ⟨d1, d2 ++ content cs, b', io', g1, by rw [h.all, g2, List.append_assoc], g4, Or.inl ⟨g3, d2, cs, g5⟩⟩

theorem session_eof (side : HttpSide) {b : HttpBody} (io : Io) (he : b.eof = true) : ∀ ns : List Nat, session side ns b io =
    some (if ns = [] then Err.SUCCESS else Err.ERROR_HTTP_RES_EOF, [], b, io)
  | [] => rfl
  | n :: ns => by
    unfold session read
    rw [if_pos he, Option.bind_some]
    simp only
    rw [if_pos (by decide)]
    simp

theorem session_pending (side : HttpSide) {t : List UInt8} {cl : Err} {z : List UInt8} : ∀ (ns : List Nat) (b : HttpBody) (io : Io)
    (X d : List UInt8) (cs : List (List UInt8 × List UInt8)), (∀ n ∈ ns, 0 < n) → Pending b io X t cl d cs z →
    ∃ e out b' io', session side ns b io = some (e, out, b', io') ∧ out <+: X ∧
      (e = Err.SUCCESS ∨ e = Err.ERROR_HTTP_RES_EOF ∧ out = X ∧ Arrives io' t cl) ∧ (X.length + 2 ≤ ns.length → e = Err.ERROR_HTTP_RES_EOF)
  | [], b, io, X, d, cs, _, _ => ⟨_, _, _, _, rfl, List.nil_prefix, Or.inl rfl, fun h => by simp at h⟩
  | n :: ns, b, io, X, d, cs, hn, h => by
    obtain ⟨d1, X', b1, io1, h1, h2, _, h3⟩ := read_pending (side := side) h n (hn n (by simp))
    unfold session
    rw [h1, Option.bind_some]
    simp only
    rw [if_neg (by decide)]
    rcases h3 with ⟨g1, d', cs', g2⟩ | ⟨g1, g2, g3⟩
    · obtain ⟨e, out, b', io', k1, k2, k3, k4⟩ := session_pending side ns b1 io1 X' d' cs' (fun x hx => hn x (List.mem_cons_of_mem _ hx)) g2
      rw [k1]
      refine ⟨e, d1 ++ out, b', io', rfl, ?_, ?_, ?_⟩
      · rw [h2]; exact (List.prefix_append_right_inj d1).mpr k2
      · rcases k3 with k3 | ⟨k3, k5, k6⟩
        · exact Or.inl k3
        · exact Or.inr ⟨k3, by rw [k5, h2], k6⟩
      · intro hl
        apply k4
        have : 0 < d1.length := by cases d1 with | nil => exact absurd rfl g1 | cons => simp
        rw [h2] at hl
        simp at hl
        omega
    · rw [session_eof side io1 g2 ns]
      have hd1 : d1 = [] := by rw [g1] at h2; exact (List.append_eq_nil_iff.mp h2.symm).1
      subst hd1
      refine ⟨_, [], b1, io1, rfl, List.nil_prefix, ?_, ?_⟩
      · by_cases h0 : ns = []
        · exact Or.inl (by rw [if_pos h0])
        · exact Or.inr ⟨by rw [if_neg h0], g1.symm, g3⟩
      · intro hl
        rw [if_neg]
        intro h0
        subst h0
        simp at hl

/-- The whole chunked body from its beginning. -/
theorem session_chunked (side : HttpSide) {io : Io} {t : List UInt8} {cl : Err} {z : List UInt8} {cs : List (List UInt8 × List UInt8)} {b : HttpBody}
    (hb : b.chunked = true) (he : b.eof = false) (hl : b.left = 0) (hok : codedOk cs z) (ha : Arrives io (coded cs z ++ t) cl) (ns : List Nat) (hn : ∀ n ∈ ns, 0 < n) :
    ∃ e out b' io', session side ns b io = some (e, out, b', io') ∧ out <+: content cs ∧
      (e = Err.SUCCESS ∨ e = Err.ERROR_HTTP_RES_EOF ∧ out = content cs ∧ Arrives io' t cl) ∧
      ((content cs).length + 2 ≤ ns.length → e = Err.ERROR_HTTP_RES_EOF) :=
  session_pending side ns b io (content cs) [] cs hn ⟨hb, he, rfl, hl, fun h => absurd rfl h, by decide, by simpa using ha, hok⟩

/-! ## Content-Length -/

theorem session_length (side : HttpSide) {cl : Err} {t : List UInt8} {N : Nat} (hN : N < 2 ^ 31) : ∀ (ns : List Nat) (b : HttpBody) (io : Io) (X : List UInt8),
    (∀ n ∈ ns, 0 < n) → b.chunked = false → b.cl = (N : Int) → b.eof = decide (X = []) → b.nread + X.length = N → Arrives io (X ++ t) cl →
    ∃ e out b' io', session side ns b io = some (e, out, b', io') ∧ out <+: X ∧
      (e = Err.SUCCESS ∨ e = Err.ERROR_HTTP_RES_EOF ∧ out = X ∧ Arrives io' t cl) ∧ (X.length + 1 ≤ ns.length → e = Err.ERROR_HTTP_RES_EOF)
  | [], b, io, X, _, _, _, _, _, _ => ⟨_, _, _, _, rfl, List.nil_prefix, Or.inl rfl, fun h => by simp at h⟩
  | n :: ns, b, io, X, hn, hc, hcl, he, hr, ha => by
    by_cases hX : X = []
    · subst hX
      rw [session_eof side io (by rw [he]; decide)]
      exact ⟨_, _, _, _, rfl, List.nil_prefix, Or.inr ⟨by simp, rfl, by simpa using ha⟩, fun _ => by simp⟩
    · have hXl : 0 < X.length := by cases X with | nil => exact absurd rfl hX | cons => simp
      unfold session read
      have hn0 := hn n (by simp)
      rw [if_neg (by rw [he]; simpa using hX), if_neg (by rw [hc]; decide)]
      simp only
      have h0 : (0 : Int) ≤ b.cl := by omega
      have hsub : subSz b.cl.toNat b.nread = X.length := by
        rw [hcl, Int.toNat_natCast, subSz_eq (by omega) (by omega)]
        omega
      simp only [if_pos h0, hsub]
      obtain ⟨d1, s', io1, h1, h2, h3, h4, h5⟩ := Io.read_on ha (by simp [hX]) (min X.length n) (by omega)
      rw [h1]
      simp only [Option.bind_some]
      rw [if_neg (by decide)]
      have hd1 : d1.length ≤ X.length := by omega
      have e2 : X = d1 ++ X.drop d1.length := by
        have := congrArg (List.take d1.length) h2
        rw [List.take_append_of_le_length hd1, List.take_left] at this
        conv => lhs; rw [← List.take_append_drop d1.length X]
        rw [this]
      have e3 : s' = X.drop d1.length ++ t := by
        have := congrArg (List.drop d1.length) h2
        rw [List.drop_append_of_le_length hd1, List.drop_left] at this
        exact this.symm
      have hd0 : 0 < d1.length := by cases d1 with | nil => exact absurd rfl h3 | cons => simp
      obtain ⟨e, out, b', io', k1, k2, k3, k4⟩ := session_length side hN ns
        { b with nread := b.nread + d1.length, eof := decide (b.cl.toNat ≤ b.nread + d1.length) } io1 (X.drop d1.length)
        (fun x hx => hn x (List.mem_cons_of_mem _ hx)) hc hcl (by
          simp only [decide_eq_decide, hcl, Int.toNat_natCast, List.drop_eq_nil_iff]
          omega) (by simp only [List.length_drop]; omega) (e3 ▸ h5)
      rw [k1]
      refine ⟨e, d1 ++ out, b', io', rfl, ?_, ?_, ?_⟩
      · conv => rhs; rw [e2]
        exact (List.prefix_append_right_inj d1).mpr k2
      · rcases k3 with k3 | ⟨k3, k5, k6⟩
        · exact Or.inl k3
        · exact Or.inr ⟨k3, by rw [k5]; exact e2.symm, k6⟩
      · intro hl
        apply k4
        simp only [List.length_cons, List.length_drop] at hl ⊢
        omega

end HttpBody
end Sps
