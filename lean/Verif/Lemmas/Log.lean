import Verif.Spec.Log
import Verif.Lemmas.HttpConn
/-! # Lemmas about the log -/
namespace Sps.Log
open Spec Spec.Log

/-- Printing a buffer as a format. -/
theorem format_iff : ∀ s o : Text, format s [] = some o ↔ Halved s o
  | [], o => by
    constructor
    · intro h
      have : [] = o := Option.some.inj h
      subst this
      exact .nil
    · intro h; cases h; rfl
  | [b], o => by
    constructor
    · intro h
      unfold format at h
      by_cases hb : b = 37
      · rw [if_pos hb] at h; exact absurd h (by simp)
      · rw [if_neg hb] at h
        cases h
        exact .char hb .nil
    · intro h
      cases h with
      | char hb h => cases h; unfold format; rw [if_neg hb]
  | b :: c :: r, o => by
    constructor
    · intro h
      rw [format] at h
      by_cases hb : b = 37
      · rw [if_pos hb] at h
        by_cases hc : c = 37
        · rw [if_pos hc] at h
          obtain ⟨o', h1, rfl⟩ := Option.map_eq_some_iff.1 h
          subst hb hc
          exact .pair ((format_iff r o').1 h1)
        · rw [if_neg hc] at h
          exact absurd h (by simp)
      · rw [if_neg hb] at h
        obtain ⟨o', h1, rfl⟩ := Option.map_eq_some_iff.1 h
        exact .char hb ((format_iff (c :: r) o').1 h1)
    · intro h
      rw [format]
      cases h with
      | char hb h => rw [if_neg hb, (format_iff (c :: r) _).2 h]; rfl
      | pair h => rw [if_pos rfl, if_pos rfl, (format_iff r _).2 h]; rfl

theorem halved_self : ∀ s : Text, (37 : UInt8) ∉ s → Halved s s
  | [], _ => .nil
  | b :: s, h => .char (fun e => h (by simp [e])) (halved_self s fun h' => h (List.mem_cons_of_mem _ h'))

theorem format_plain (s : Text) (h : (37 : UInt8) ∉ s) : format s [] = some s := (format_iff s s).2 (halved_self s h)

/-- A lone `%` is undefined. -/
theorem format_percent : ∀ (x y : Text), (37 : UInt8) ∉ x → y.head? ≠ some 37 → format (x ++ 37 :: y) [] = none
  | [], [], _, _ => rfl
  | [], b :: y, _, hb => by
    have : b ≠ 37 := fun e => hb (by simp [e])
    simp [format, this]
  | [b], y, hx, hy => by
    have hb : b ≠ 37 := fun e => hx (by simp [e])
    show format (b :: 37 :: y) [] = none
    have := format_percent [] y (by simp) hy
    rw [List.nil_append] at this
    rw [format, if_neg hb, this]
    rfl
  | b :: c :: x, y, hx, hy => by
    have hb : b ≠ 37 := fun e => hx (by simp [e])
    have := format_percent (c :: x) y (fun h => hx (List.mem_cons_of_mem _ h)) hy
    rw [List.cons_append] at this
    show format (b :: c :: (x ++ 37 :: y)) [] = none
    rw [format, if_neg hb, this]
    rfl

theorem format_cut (n : Nat) (x y : Text) (hx : (37 : UInt8) ∉ x) (hy : y.head? ≠ some 37) (hn : x.length < n) : format ((x ++ 37 :: y).take n) [] = none := by
  rw [List.take_append, List.take_of_length_le (by omega)]
  obtain ⟨k, hk⟩ : ∃ k, n - x.length = k + 1 := ⟨n - x.length - 1, by omega⟩
  rw [hk, List.take_succ_cons]
  refine format_percent x _ hx ?_
  cases k with
  | zero => simp
  | succ k => cases y with
    | nil => simp
    | cons b y => simpa using hy

/-- Fixed text at the front of a format. -/
theorem format_lit : ∀ (t f : Text) (as : List LogArg), (37 : UInt8) ∉ t → format (t ++ f) as = (format f as).map (t ++ ·)
  | [], f, as, _ => by simp
  | [b], f, as, h => by
    have hb : b ≠ 37 := fun e => h (by simp [e])
    cases f with
    | nil => simp [format, hb]
    | cons c f => simp [format, hb]
  | b :: c :: t, f, as, h => by
    have hb : b ≠ 37 := fun e => h (by simp [e])
    have := format_lit (c :: t) f as fun h' => h (List.mem_cons_of_mem _ h')
    rw [List.cons_append] at this
    show format (b :: c :: (t ++ f)) as = _
    rw [format.eq_def]
    simp only [if_neg hb]
    rw [this, Option.map_map]
    rfl

theorem takeWhile_all {t : Text} (h : (0 : UInt8) ∉ t) : t.takeWhile (· ≠ 0) = t := by
  induction t with
  | nil => rfl
  | cons b t ih =>
    have hb : b ≠ 0 := fun e => h (by simp [e])
    rw [List.takeWhile_cons, if_pos (by simpa using hb), ih fun h' => h (List.mem_cons_of_mem _ h')]

theorem digits_lead : ∀ (fuel n : Nat), n < 10 ^ fuel → n ≠ 0 → (Text.digits 10 fuel n).head? ≠ some 48
  | 0, n, h, h0 => by simp at h; exact absurd h h0
  | fuel + 1, n, h, h0 => by
    have hd : ∀ d, d < 10 → d ≠ 0 → Text.digit d ≠ 48 := by decide
    unfold Text.digits
    by_cases hn : n < 10
    · rw [if_pos hn]
      intro e
      exact hd n hn h0 (by simpa using e)
    · rw [if_neg hn]
      have hlt : n / 10 < 10 ^ fuel := by rw [Nat.pow_succ] at h; omega
      have ih := digits_lead fuel (n / 10) hlt (by omega)
      have hf : 0 < fuel := by
        cases fuel with
        | zero => simp at hlt; omega
        | succ f => omega
      have hne := Sps.Text.digits_ne 10 fuel (n / 10) hf
      cases hg : Text.digits 10 fuel (n / 10) with
      | nil => exact absurd hg hne
      | cons b r => rw [hg] at ih; simpa using ih

theorem dec_decimal (n : Nat) (h : n < 2 ^ 64) : Digits n (Text.dec n) :=
  ⟨Sps.Text.digits_ne 10 64 n (by omega), Sps.Text.dec_value n h, digits_lead 64 n (Nat.lt_of_lt_of_le h (by decide))⟩

theorem decInt_decimal (n : Int) (h : n.natAbs < 2 ^ 64) : Decimal n (Text.decInt n) := by
  have := dec_decimal n.natAbs h
  unfold Text.decInt
  by_cases hn : n < 0
  · rw [if_pos hn]; exact .inr ⟨hn, _, rfl, this⟩
  · rw [if_neg hn]; exact .inl ⟨by omega, this⟩

/-- The message of the parts. -/
theorem format_pieces : ∀ ps : List Piece, (∀ p ∈ ps, p.Ok) → ∃ m, Shown ps m ∧ format (fmt ps) (args ps) = some m
  | [], _ => ⟨[], .nil, rfl⟩
  | p :: ps, h => by
    obtain ⟨m, h1, h2⟩ := format_pieces ps fun q hq => h q (List.mem_cons_of_mem _ hq)
    have hp := h p (by simp)
    cases p with
    | lit t => exact ⟨t ++ m, .lit h1, by rw [fmt, args, format_lit t _ _ hp, h2]; rfl⟩
    | text t =>
      refine ⟨t ++ m, .text h1, ?_⟩
      show format (37 :: 115 :: fmt ps) (.str t :: args ps) = _
      rw [format, if_pos rfl, if_neg (by decide), h2]
      simp only [if_pos]
      rw [takeWhile_all hp]
      rfl
    | num n =>
      refine ⟨Text.decInt n ++ m, .num (decInt_decimal n hp) h1, ?_⟩
      show format (37 :: 100 :: fmt ps) (.num n :: args ps) = _
      rw [format, if_pos rfl, if_neg (by decide), h2]
      rfl

theorem digits_percent : ∀ (fuel n : Nat), (37 : UInt8) ∉ Text.digits 10 fuel n
  | 0, _ => by simp [Text.digits]
  | fuel + 1, n => by
    have hd : ∀ d, d < 10 → (37 : UInt8) ≠ Text.digit d := by decide
    unfold Text.digits
    by_cases h : n < 10
    · rw [if_pos h]; simpa using hd n h
    · rw [if_neg h]
      intro hm
      rcases List.mem_append.1 hm with hm | hm
      · exact digits_percent fuel _ hm
      · exact hd _ (Nat.mod_lt _ (by omega)) (by simpa using hm)

theorem digits_short (base : Nat) : ∀ (fuel n : Nat), (Text.digits base fuel n).length ≤ fuel
  | 0, _ => by simp [Text.digits]
  | fuel + 1, n => by
    unfold Text.digits
    by_cases h : n < base
    · rw [if_pos h]; simp
    · rw [if_neg h]; simpa using digits_short base fuel (n / base)

theorem pad_percent (w n : Nat) : (37 : UInt8) ∉ pad w n := by
  unfold pad
  intro h
  rcases List.mem_append.1 h with h | h
  · exact absurd (List.eq_of_mem_replicate h) (by decide)
  · exact digits_percent _ _ h

theorem pad_short (w n : Nat) : (pad w n).length ≤ w + 64 := by
  have := digits_short 10 64 n
  unfold pad Text.dec
  simp only [List.length_append, List.length_replicate]
  omega

theorem stamp_percent (t : LogTime) : (37 : UInt8) ∉ stamp t := by
  unfold stamp
  simp only [List.mem_append, not_or]
  refine ⟨⟨⟨⟨⟨⟨⟨⟨⟨⟨⟨⟨⟨⟨?_, pad_percent _ _⟩, ?_⟩, pad_percent _ _⟩, ?_⟩, pad_percent _ _⟩, ?_⟩, pad_percent _ _⟩, ?_⟩, pad_percent _ _⟩, ?_⟩, pad_percent _ _⟩, ?_⟩, pad_percent _ _⟩, ?_⟩ <;>
    decide

theorem digits_width : ∀ (fuel n w : Nat), 0 < w → w ≤ fuel → n < 10 ^ w → (Text.digits 10 fuel n).length ≤ w
  | 0, _, w, h, h', _ => by omega
  | fuel + 1, n, w, hw, hf, hn => by
    unfold Text.digits
    by_cases h : n < 10
    · rw [if_pos h]; simp only [List.length_singleton]; omega
    · rw [if_neg h]
      obtain ⟨v, rfl⟩ : ∃ v, w = v + 1 := ⟨w - 1, by omega⟩
      rw [Nat.pow_succ] at hn
      have hv : 0 < v := by
        cases v with
        | zero => simp at hn; omega
        | succ v => omega
      have := digits_width fuel (n / 10) v hv (by omega) (by omega)
      simpa using this

theorem zeros_value : ∀ (k : Nat) (t : Text), Spec.Http.decValue 0 (List.replicate k 48 ++ t) = Spec.Http.decValue 0 t
  | 0, t => by simp
  | k + 1, t => by
    rw [List.replicate_succ, List.cons_append]
    have := zeros_value k t
    have h0 : Spec.Http.decDigit 48 = some 0 := by decide
    simpa [Spec.Http.decValue, h0] using this

theorem pad_field (w n : Nat) (h0 : 0 < w) (hw : w ≤ 4) (h : n < 10 ^ w) : Field w n (pad w n) := by
  have h1 := digits_width 64 n w h0 (by omega) h
  have hn : n < 2 ^ 64 := Nat.lt_of_lt_of_le h (Nat.le_trans (Nat.pow_le_pow_right (by decide) hw) (by decide))
  constructor
  · unfold pad Text.dec at *
    simp only [List.length_append, List.length_replicate]
    omega
  · unfold pad
    rw [zeros_value, Text.dec_value n hn]

theorem stamped {t : LogTime} (h : Moment t) : Stamped t (stamp t) := by
  obtain ⟨h1, h2, h3, h4, h5, h6, h7⟩ := h
  exact ⟨_, _, _, _, _, _, _, pad_field 4 _ (by decide) (by decide) h1, pad_field 2 _ (by decide) (by decide) h2, pad_field 2 _ (by decide) (by decide) h3, pad_field 2 _ (by decide) (by decide) h4,
    pad_field 2 _ (by decide) (by decide) h5, pad_field 2 _ (by decide) (by decide) h6, pad_field 3 _ (by decide) (by decide) h7, rfl⟩

theorem stamp_short (t : LogTime) : (stamp t).length ≤ 500 := by
  have h1 := pad_short 4 t.year
  have h2 := pad_short 2 t.mon
  have h3 := pad_short 2 t.day
  have h4 := pad_short 2 t.hour
  have h5 := pad_short 2 t.min
  have h6 := pad_short 2 t.sec
  have h7 := pad_short 3 t.ms
  unfold stamp
  simp only [List.length_append]
  have a1 : (ascii "[").length = 1 := rfl
  have a2 : (ascii "-").length = 1 := rfl
  have a3 : (ascii " ").length = 1 := rfl
  have a4 : (ascii ":").length = 1 := rfl
  have a5 : (ascii ".").length = 1 := rfl
  have a6 : (ascii "] ").length = 2 := rfl
  omega

theorem decimal_percent {n : Int} {t : Text} (h : Decimal n t) : (37 : UInt8) ∉ t := by
  have key : ∀ (k : Nat) (r : Text), Digits k r → (37 : UInt8) ∉ r := by
    intro k r hr hm
    have := HttpConn.dec_chars r 0 k hr.2.1 37 hm
    revert this
    decide
  rcases h with ⟨-, h⟩ | ⟨-, r, rfl, h⟩
  · exact key _ _ h
  · intro hm
    rcases List.mem_cons.1 hm with hm | hm
    · exact absurd hm (by decide)
    · exact key _ _ h hm

/-- No text given by someone has a `%`. -/
def clean (ps : List Piece) : Prop := ∀ t, Piece.text t ∈ ps → (37 : UInt8) ∉ t

theorem shown_percent {ps : List Piece} {m : Text} (h : Shown ps m) : (∀ p ∈ ps, p.Ok) → clean ps → (37 : UInt8) ∉ m := by
  induction h with
  | nil => intro _ _; simp
  | @lit t m ps h ih =>
    intro hok hc hm
    rcases List.mem_append.1 hm with hm | hm
    · exact hok _ (List.mem_cons_self ..) hm
    · exact ih (fun p hp => hok p (List.mem_cons_of_mem _ hp)) (fun t ht => hc t (List.mem_cons_of_mem _ ht)) hm
  | @text t m ps h ih =>
    intro hok hc hm
    rcases List.mem_append.1 hm with hm | hm
    · exact hc t (List.mem_cons_self ..) hm
    · exact ih (fun p hp => hok p (List.mem_cons_of_mem _ hp)) (fun t ht => hc t (List.mem_cons_of_mem _ ht)) hm
  | @num n t m ps hd h ih =>
    intro hok hc hm
    rcases List.mem_append.1 hm with hm | hm
    · exact decimal_percent hd hm
    · exact ih (fun p hp => hok p (List.mem_cons_of_mem _ hp)) (fun t ht => hc t (List.mem_cons_of_mem _ ht)) hm

theorem shown_split : ∀ (ps qs : List Piece) (m : Text), Shown (ps ++ qs) m → ∃ a b, m = a ++ b ∧ Shown ps a ∧ Shown qs b
  | [], qs, m, h => ⟨[], m, rfl, .nil, h⟩
  | p :: ps, qs, m, h => by
    cases h with
    | lit h => obtain ⟨a, b, rfl, h1, h2⟩ := shown_split ps qs _ h; exact ⟨_, b, by simp, .lit h1, h2⟩
    | text h => obtain ⟨a, b, rfl, h1, h2⟩ := shown_split ps qs _ h; exact ⟨_, b, by simp, .text h1, h2⟩
    | num hd h => obtain ⟨a, b, rfl, h1, h2⟩ := shown_split ps qs _ h; exact ⟨_, b, by simp, .num hd h1, h2⟩

/-- How long the parts can be. -/
def room : List Piece → Nat
  | [] => 0
  | .lit t :: ps => t.length + room ps
  | .text t :: ps => t.length + room ps
  | .num _ :: ps => 65 + room ps

theorem decInt_short (n : Int) : (Text.decInt n).length ≤ 65 := by
  have := digits_short 10 64 n.natAbs
  unfold Text.decInt Text.dec
  split <;> simp <;> omega

/-- A line with a `%` in a text of a client. -/
theorem printf_percent (t : LogTime) (ps qs : List Piece) (x y : Text) (hok : ∀ p ∈ ps ++ .text (x ++ 37 :: y) :: qs, p.Ok) (hc : clean ps) (hx : (37 : UInt8) ∉ x)
    (hy : ∃ b r, y = b :: r ∧ b ≠ 37) (hroom : 500 + room ps + x.length < 4095) :
    printf t (fmt (ps ++ .text (x ++ 37 :: y) :: qs)) (args (ps ++ .text (x ++ 37 :: y) :: qs)) = none := by
  have key : ∀ ps : List Piece, (∀ p ∈ ps ++ .text (x ++ 37 :: y) :: qs, p.Ok) → clean ps →
      ∃ a m, format (fmt (ps ++ .text (x ++ 37 :: y) :: qs)) (args (ps ++ .text (x ++ 37 :: y) :: qs)) = some (a ++ (x ++ 37 :: y) ++ m) ∧ (37 : UInt8) ∉ a ∧ a.length ≤ room ps := by
    intro ps
    induction ps with
    | nil =>
      intro hok _
      obtain ⟨m, -, h2⟩ := format_pieces qs fun q hq => hok q (by simp [hq])
      refine ⟨[], m, ?_, by simp, by simp⟩
      have hp : (0 : UInt8) ∉ x ++ 37 :: y := hok _ (List.mem_cons_self ..)
      show format (37 :: 115 :: fmt qs) (.str (x ++ 37 :: y) :: args qs) = _
      rw [format, if_pos rfl, if_neg (by decide), h2]
      simp only [if_pos]
      rw [takeWhile_all hp]
      simp
    | cons p ps ih =>
      intro hok hc
      obtain ⟨a, m, h1, h2, h3⟩ := ih (fun q hq => hok q (List.mem_cons_of_mem _ hq)) (fun t ht => hc t (List.mem_cons_of_mem _ ht))
      have hp := hok p (List.mem_cons_self ..)
      cases p with
      | lit t =>
        refine ⟨t ++ a, m, ?_, ?_, by simp [room]; omega⟩
        · rw [List.cons_append, fmt, args, format_lit t _ _ hp, h1]; simp
        · intro hm; rcases List.mem_append.1 hm with hm | hm
          · exact hp hm
          · exact h2 hm
      | text t =>
        refine ⟨t ++ a, m, ?_, ?_, by simp [room]; omega⟩
        · show format (37 :: 115 :: fmt (ps ++ _)) (.str t :: args (ps ++ _)) = _
          rw [format, if_pos rfl, if_neg (by decide), h1]
          simp only [if_pos]
          rw [takeWhile_all hp]
          simp
        · intro hm; rcases List.mem_append.1 hm with hm | hm
          · exact hc t (List.mem_cons_self ..) hm
          · exact h2 hm
      | num n =>
        refine ⟨Text.decInt n ++ a, m, ?_, ?_, by have := decInt_short n; simp [room]; omega⟩
        · show format (37 :: 100 :: fmt (ps ++ _)) (.num n :: args (ps ++ _)) = _
          rw [format, if_pos rfl, if_neg (by decide), h1]
          simp
        · intro hm; rcases List.mem_append.1 hm with hm | hm
          · exact decimal_percent (decInt_decimal n hp) hm
          · exact h2 hm
  obtain ⟨a, m, h1, h2, h3⟩ := key ps hok hc
  obtain ⟨b, r, rfl, hb⟩ := hy
  unfold printf
  rw [h1]
  simp only
  have e : stamp t ++ (a ++ (x ++ 37 :: b :: r) ++ m) = (stamp t ++ a ++ x) ++ 37 :: (b :: r ++ m) := by simp
  rw [e]
  have hs := stamp_short t
  refine format_cut _ _ _ ?_ (by simpa using hb) (by simp; omega)
  intro hm
  simp only [List.mem_append] at hm
  rcases hm with (hm | hm) | hm
  · exact stamp_percent t hm
  · exact h2 hm
  · exact hx hm

/-- A line without `%` in texts of clients. -/
theorem printf_clean (t : LogTime) (ht : Moment t) (ps : List Piece) (hok : ∀ p ∈ ps, p.Ok) (hc : clean ps) : ∃ out, printf t (fmt ps) (args ps) = some out ∧ Prints t ps out := by
  obtain ⟨m, h1, h2⟩ := format_pieces ps hok
  refine ⟨_, ?_, stamp t, m, stamped ht, h1, rfl⟩
  unfold printf
  rw [h2]
  refine format_plain _ fun hm => ?_
  rcases List.mem_append.1 (List.mem_of_mem_take hm) with hm | hm
  · exact stamp_percent t hm
  · exact shown_percent h1 hok hc hm

/-- What the line about a request is made of. -/
theorem ask_fields {p : Parsers} (hp : Spec.HttpConn.Reads p) {a : Spec.HttpConn.Ask} (ok : a.Ok) :
    (Names.http p.url a.method a.target a.fields).port = (((a.port.bind (Http.decValue 0)).getD 80 : Nat) : Int) ∧
    (Names.http p.url a.method a.target a.fields).params = a.query.getD [] ∧
    (Names.http p.url a.method a.target a.fields).isChunked = false ∧ (Names.http p.url a.method a.target a.fields).contentLength = -1 := by
  have hne : ∀ k ∈ [ascii "Host", ascii "Content-Length", ascii "Transfer-Encoding"], ∀ f ∈ a.before ++ a.after, f.1 ≠ k := by
    intro k hk f hf h
    have := (ok.fields f hf).2.2
    rw [h] at this
    revert this
    rcases List.mem_cons.1 hk with rfl | hk
    · decide +kernel
    · rcases List.mem_cons.1 hk with rfl | hk
      · decide +kernel
      · rcases List.mem_cons.1 hk with rfl | hk
        · decide +kernel
        · cases hk
  have hl : Url.lookup (ascii "Host") a.fields = a.host ++ Spec.Names.opt 58 a.port :=
    Url.lookup_first (ascii "Host") _ _ _ fun f hf => hne _ (by simp) f (List.mem_append_left _ hf)
  have hno : ∀ k ∈ [ascii "Content-Length", ascii "Transfer-Encoding"], Url.lookup k a.fields = [] := by
    intro k hk
    have : ∀ fs : List Header, (∀ f ∈ fs, f.1 ≠ k) → Url.lookup k fs = [] := by
      intro fs
      induction fs with
      | nil => intro _; rfl
      | cons f fs ih =>
        intro h
        rw [Url.lookup, if_neg (h f (List.mem_cons_self ..))]
        exact ih fun g hg => h g (List.mem_cons_of_mem _ hg)
    refine this _ fun f hf => ?_
    unfold Spec.HttpConn.Ask.fields at hf
    rcases List.mem_append.1 hf with hf | hf
    · exact hne k (List.mem_cons_of_mem _ hk) f (List.mem_append_left _ hf)
    · rcases List.mem_cons.1 hf with rfl | hf
      · rcases List.mem_cons.1 hk with rfl | hk
        · show ascii "Host" ≠ ascii "Content-Length"; decide
        · rcases List.mem_cons.1 hk with rfl | hk
          · show ascii "Host" ≠ ascii "Transfer-Encoding"; decide
          · cases hk
      · exact hne k (List.mem_cons_of_mem _ hk) f (List.mem_append_right _ hf)
  obtain ⟨u, h1, -, -, -, -, h5⟩ := HttpConn.ask_url hp ok
  refine ⟨?_, ?_, ?_, ?_⟩
  case refine_3 =>
    rw [h1]
    unfold Url.isChunked Url.getHeader
    rw [h5, hno _ (by simp)]
    decide
  case refine_4 =>
    rw [h1]
    unfold Url.contentLength Url.getHeader
    rw [h5, hno _ (by simp)]
    rfl
  all_goals
    have e : ascii "http://" ++ (a.host ++ Spec.Names.opt 58 a.port) ++ a.target = Spec.Names.Parts.text ⟨ascii "http", a.host, a.port, a.path, a.query⟩ := by
      have h1 : ascii "http://" = ascii "http" ++ ascii "://" := by decide
      rw [h1]
      simp [Spec.Names.Parts.text, Spec.HttpConn.Ask.target]
    have hok : Spec.Names.Parts.Ok ⟨ascii "http", a.host, a.port, a.path, a.query⟩ := ⟨Names.schema_http.1, ok.host, ok.port, ok.path, ok.query⟩
    have hh : a.host ++ Spec.Names.opt 58 a.port ≠ [] := fun h => ok.host.1 (List.append_eq_nil_iff.1 h).1
    unfold Names.http
    simp only [hl, ne_eq, hh, not_false_eq_true, if_true]
    rw [e]
    unfold Names.parseUrl
    rw [hp.url _ hok, Option.bind_some]
    unfold Url.parse
    have hs : ¬ (Spec.Names.Parts.fields ⟨ascii "http", a.host, a.port, a.path, a.query⟩).schema.getD ([] : Text) = ascii "file" := by
      show ¬ ascii "http" = ascii "file"
      decide
    simp only [if_neg hs]
  · simp only [Option.getD_some, Spec.Names.Parts.fields]
    cases hq : a.port with
    | none => decide
    | some d =>
      obtain ⟨n, -, -, hn⟩ := ok.port d hq
      simp [hn]
  · rfl

theorem origin_fmt (file : Text) (w : LogAt) (ps : List Piece) : fmt (origin file w ++ ps) = ascii "[%s:%d] [%d] " ++ fmt ps := rfl
theorem origin_args (file : Text) (w : LogAt) (ps : List Piece) : args (origin file w ++ ps) = .str file :: .num w.line :: .num w.id :: args ps := rfl

theorem http_fmt (a : Spec.HttpConn.Ask) : fmt (httpLine a) = ascii "Request %s:%d %s %s %s %s, chunked %d, content-length %d" ++ ascii "\r\n" := by
  simp only [httpLine, fmt]
  decide +kernel
theorem rtmp_fmt (ip : Text) (port : Int) (url : Text) : fmt (rtmpLine ip port url) = ascii "Request client %s:%d, %s" ++ ascii "\r\n" := by
  simp only [rtmpLine, fmt]
  decide +kernel
theorem srt_fmt (id url mode : Text) : fmt (srtLine id url mode) = ascii "success parse srt streamid %s, url %s, mode %s" ++ ascii "\r\n" := by
  simp only [srtLine, fmt]
  decide +kernel

theorem http_args (a : Spec.HttpConn.Ask) : args (httpLine a) =
    [.str [], .num (((a.port.bind (Http.decValue 0)).getD 80 : Nat) : Int), .str a.method, .str a.host, .str a.target, .str (a.query.getD []), .num 0, .num (-1)] := rfl

/-- A line of the program. -/
theorem trace_pieces (w : LogAt) (file msg : Text) (ps : List Piece) (h : fmt ps = msg ++ ascii "\r\n") :
    trace w.time file w.line w.id msg (args ps) = printf w.time (fmt (origin file w ++ ps)) (args (origin file w ++ ps)) := by
  rw [origin_fmt, origin_args, h]
  unfold trace
  rw [List.append_assoc]

/-- The parse phase with its line. -/
theorem parse_logged {p : Parsers} (hp : Spec.HttpConn.Reads p) {a : Spec.HttpConn.Ask} (ok : a.Ok) (w : LogAt) {c : Sps.HttpConn} {rest : List UInt8} {cl : Err}
    (ha : Arrives c.io (a.text ++ rest) cl) :
    ∃ u io', HttpSite.parse p c = .ok (Phase.CONTINUE, { c with io := io', req := some u }) ∧ Arrives io' rest cl ∧ u.host = a.host ∧ u.url = a.target ∧
      HttpSite.parseLogged p w c = (match printf w.time (fmt (origin (ascii "sps_http_phase_handler.cpp") w ++ httpLine a)) (args (origin (ascii "sps_http_phase_handler.cpp") w ++ httpLine a)) with
        | none => .error .crash
        | some l => .ok ((Phase.CONTINUE, { c with io := io', req := some u }), l)) := by
  obtain ⟨r, io', h1, h2, -⟩ := C42_exact 2048 (a.first :: a.fields.map Spec.HttpConn.line) (by simp) (HttpConn.ask_lines ok) rest c.io cl ha
  obtain ⟨rfl, h3⟩ := h2 ok.short
  obtain ⟨u, h4, -, k1, k2, k3, -⟩ := HttpConn.ask_url hp ok
  obtain ⟨f1, f2, f3, f4⟩ := ask_fields hp ok
  rw [h4] at f1 f2 f3 f4
  have h6 := hp.req a ok
  unfold Spec.HttpConn.Ask.text at h6
  have hcount : ¬ (Http.head (a.first :: a.fields.map Spec.HttpConn.line)).length = 0 := by simp [Http.head, Http.crlf]
  refine ⟨u, io', ?_, h3, k1, k3, ?_⟩
  · unfold HttpSite.parse
    rw [h1]
    simp only [h6, h4]
    rw [if_neg hcount]
  · unfold HttpSite.parseLogged
    rw [h1]
    simp only [h6, h4]
    rw [if_neg hcount]
    unfold HttpSite.requestLine
    rw [f1, f2, f3, f4, k1, k2, k3, ← trace_pieces w _ _ _ (http_fmt a), http_args a, if_neg (by decide)]
    generalize Log.trace _ _ _ _ _ _ = o
    cases o <;> rfl

end Sps.Log
