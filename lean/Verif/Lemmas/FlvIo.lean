import Verif.Spec.FlvIo
import Verif.Lemmas.ByteProg
import Mathlib.Data.List.Forall2
/-! # Lemmas for C104 -/
namespace Verif.FlvIoLemmas
open Sps Spec Spec.FlvIo Sps.FlvIo

theorem int24_be (v : Nat) : int24 v = beBytes 3 v := by
  simp [int24, beBytes, Nat.shiftRight_eq_div_pow]

theorem int32_be (v : Nat) : int32 v = beBytes 4 v := by
  simp [int32, int24, beBytes, Nat.shiftRight_eq_div_pow]

theorem writeTag_be (type size ts stream : Nat) :
    writeTag type size ts stream =
      beBytes 1 type ++ beBytes 3 size ++ beBytes 3 (ts % 2 ^ 24) ++ beBytes 1 (ts / 2 ^ 24) ++ beBytes 3 stream := by
  have h : ts &&& 0xffffff = ts % 2 ^ 24 := Nat.and_two_pow_sub_one_eq_mod ts 24
  simp only [writeTag, int24_be, h, Nat.shiftRight_eq_div_pow]
  simp [beBytes]

/-- What is left to be read. -/
def rest (s : FlvIo) : List UInt8 :=
  (if s.headRead then [] else header) ++
  (match s.pkt with | none => [] | some (_, b) => (s.tagHead ++ b ++ int32 (b.length + 11)).drop s.off) ++
  chain (tags s.inbox)

structure Inv (s : FlvIo) : Prop where
  fresh : s.headRead = false → s.pkt = none
  pkt : ∀ m b, s.pkt = some (m, b) → s.tagHead.length = 11 ∧ (s.off ≤ 11 + b.length ∨ s.off = 15 + b.length)

theorem media_iff (t : Nat) : media t = true ↔ t ∈ [8, 9, 15, 18] := by
  simp [media]; omega

theorem next_rest (c : Err) (ms : List RtmpIn) :
    let r := next c ms
    rest r.2 = chain (tags ms) ∧ Inv r.2 ∧ r.2.closed = c ∧ r.2.headRead = true ∧
      ((r.1 = c ∧ chain (tags ms) = [] ∧ r.2.pkt = none) ∨
       (r.1 = Err.SUCCESS ∧ ∃ m b, r.2.pkt = some (m, b) ∧ r.2.off = 0)) := by
  induction ms with
  | nil =>
    refine ⟨rfl, ⟨fun h => rfl, fun m b h => by simp [next] at h⟩, rfl, rfl, Or.inl ⟨rfl, rfl, rfl⟩⟩
  | cons m ms ih =>
    cases hb : m.msg.body with
    | none =>
      have ht : tags (m :: ms) = tags ms := by simp [tags, tagOf, hb]
      simp only [next, hb, ht]; exact ih
    | some b =>
      by_cases hm : media m.msg.type = true
      · have ht : tags (m :: ms) = { type := m.msg.type, ts := m.msg.ts, stream := m.stream, body := b } :: tags ms := by
          simp only [tags, List.filterMap_cons, tagOf, hb, if_pos ((media_iff _).1 hm)]
        simp only [next, hb, hm, if_true]
        refine ⟨?_, ⟨fun h => by simp at h, ?_⟩, trivial, trivial, Or.inr ⟨trivial, m, b, rfl, trivial⟩⟩
        · simp only [rest, ht, chain, List.flatMap_cons, Tag.bytes, writeTag_be, int32_be, if_true]
          simp [List.append_assoc]
        · intro m' b' h
          simp only [Option.some.injEq, Prod.mk.injEq] at h
          obtain ⟨rfl, rfl⟩ := h
          exact ⟨by simp [writeTag, int24], Or.inl (Nat.zero_le _)⟩
      · have ht : tags (m :: ms) = tags ms := by
          have : ¬ m.msg.type ∈ [8, 9, 15, 18] := fun h => hm ((media_iff _).2 h)
          simp only [tags, List.filterMap_cons, tagOf, hb, if_neg this]
        simp only [next, hb, hm, ht]; exact ih

theorem drop_take_drop {α} (l : List α) (k n : Nat) : l.drop k = (l.drop k).take n ++ l.drop (k + n) := by
  rw [← List.drop_drop, List.take_append_drop]

/-- The pieces are the next bytes of the tag. -/
theorem pieces_ok (s : FlvIo) (m : RtmpIn) (b : List UInt8) (size : Nat) (hh : s.tagHead.length = 11)
    (ho : s.off ≤ 11 + b.length) :
    let r := pieces s b size
    let T := s.tagHead ++ b ++ int32 (b.length + 11)
    (∃ o, r.1 = { s with off := o } ∧ T.drop s.off = r.2 ++ T.drop o ∧ (o ≤ 11 + b.length ∨ o = 15 + b.length)) ∧
    r.2.length ≤ size ∧ (4 ≤ size → r.2 ≠ []) := by
  have hl4 : (int32 (b.length + 11)).length = 4 := rfl
  generalize hP : int32 (b.length + 11) = P at hl4
  simp only [pieces]
  rw [hP]
  generalize hn1 : (if 0 < size ∧ s.off < 11 then min size (11 - s.off) else 0) = n1
  have h1 : n1 ≤ size ∧ n1 ≤ 11 - s.off ∧ (n1 = 11 - s.off ∨ n1 = size) := by
    subst hn1; split <;> omega
  generalize hn2 : (if 0 < size - n1 ∧ 11 + b.length > s.off + n1 then min (size - n1) (b.length + 11 - (s.off + n1)) else 0) = n2
  have h2 : n2 ≤ size - n1 ∧ n2 ≤ 11 + b.length - (s.off + n1) ∧ (n2 = 11 + b.length - (s.off + n1) ∨ n2 = size - n1) := by
    subst hn2; split <;> omega
  -- first piece
  have e1 : (s.tagHead ++ b ++ P).drop s.off = (s.tagHead.drop s.off).take n1 ++ (s.tagHead ++ b ++ P).drop (s.off + n1) := by
    conv => lhs; rw [drop_take_drop _ _ n1]
    congr 1
    by_cases hz : n1 = 0
    · simp [hz]
    · rw [List.append_assoc, List.drop_append_of_le_length (by omega), List.take_append_of_le_length (by simp; omega)]
  have e2 : (s.tagHead ++ b ++ P).drop (s.off + n1) = (b.drop (s.off + n1 - 11)).take n2 ++ (s.tagHead ++ b ++ P).drop (s.off + n1 + n2) := by
    conv => lhs; rw [drop_take_drop _ _ n2]
    congr 1
    by_cases hz : n2 = 0
    · simp [hz]
    · have : 11 ≤ s.off + n1 := by omega
      rw [List.append_assoc, List.drop_append, List.drop_eq_nil_of_le (by omega), List.nil_append, hh,
        List.drop_append_of_le_length (by omega), List.take_append_of_le_length (by simp; omega)]
  have l1 : ((s.tagHead.drop s.off).take n1).length = n1 := by simp; omega
  have l2 : ((b.drop (s.off + n1 - 11)).take n2).length = n2 := by simp; omega
  by_cases h4 : size - n1 - n2 ≥ 4
  · rw [if_pos h4]
    refine ⟨⟨s.off + n1 + n2 + 4, rfl, ?_, by omega⟩, by simp only [List.length_append, l1, l2, hl4]; omega, ?_⟩
    · rw [e1, e2]
      have : (s.tagHead ++ b ++ P).drop (s.off + n1 + n2) = P := by
        rw [List.drop_append, List.drop_eq_nil_of_le (by simp; omega), List.nil_append]
        simp only [List.length_append, hh]
        have : s.off + n1 + n2 - (11 + b.length) = 0 := by omega
        rw [this]; rfl
      rw [this, List.drop_eq_nil_of_le (as := s.tagHead ++ b ++ P) (by simp only [List.length_append]; omega)]
      simp
    · intro _ h
      have := congrArg List.length h
      simp only [List.length_append, hl4, List.length_nil] at this
      omega
  · rw [if_neg h4]
    refine ⟨⟨s.off + n1 + n2, rfl, by rw [e1, e2, ← List.append_assoc], by omega⟩, by simp only [List.length_append, l1, l2]; omega, ?_⟩
    intro hs h
    have := congrArg List.length h
    simp only [List.length_append, l1, l2, List.length_nil] at this
    omega

theorem read_ok (s : FlvIo) (hi : Inv s) (hc : s.closed ≠ Err.SUCCESS) (size : Nat) :
    let r := Sps.FlvIo.read s size
    rest s = r.2.2 ++ rest r.2.1 ∧ Inv r.2.1 ∧ r.2.1.closed = s.closed ∧ r.2.2.length ≤ size ∧
      (13 ≤ size → (r.1 = Err.SUCCESS ∧ r.2.2 ≠ []) ∨ (r.1 = s.closed ∧ rest s = [] ∧ r.2.2 = [])) := by
  by_cases hr : s.headRead = false
  · simp only [Sps.FlvIo.read, if_pos hr]
    by_cases hz : size < 13
    · rw [if_pos hz]; exact ⟨rfl, hi, rfl, by simp, by omega⟩
    · rw [if_neg hz]
      have hp := hi.fresh hr
      refine ⟨?_, ⟨fun h => by simp at h, fun m b h => hi.pkt m b h⟩, rfl, by simp [header]; omega,
        fun _ => Or.inl ⟨rfl, by simp [header]⟩⟩
      simp [rest, hr, hp]
  · have hr' : s.headRead = true := by simpa using hr
    simp only [Sps.FlvIo.read, if_neg hr]
    have key : rest s = rest (fetch s).2 ∧ Inv (fetch s).2 ∧ (fetch s).2.closed = s.closed ∧
        (((fetch s).1 = s.closed ∧ rest s = [] ∧ (fetch s).2.pkt = none) ∨
         ((fetch s).1 = Err.SUCCESS ∧ ∃ m b, (fetch s).2.pkt = some (m, b) ∧ (fetch s).2.off ≤ 11 + b.length)) := by
      have hn := next_rest s.closed s.inbox
      simp only [] at hn
      obtain ⟨a1, a2, a3, a4, a5⟩ := hn
      cases hp : s.pkt with
      | none =>
        have hrs : rest s = chain (tags s.inbox) := by simp [rest, hr', hp]
        simp only [fetch, hp]
        refine ⟨by rw [a1, hrs], a2, a3, ?_⟩
        rcases a5 with ⟨h1, h2, h3⟩ | ⟨h1, m, b, h2, h3⟩
        · exact Or.inl ⟨h1, by rw [hrs, h2], h3⟩
        · exact Or.inr ⟨h1, m, b, h2, by omega⟩
      | some mb =>
        obtain ⟨m, b⟩ := mb
        obtain ⟨q1, q2⟩ := hi.pkt m b hp
        simp only [fetch, hp]
        by_cases hd : b.length + 11 + 4 = s.off
        · rw [if_pos hd]
          have hrs : rest s = chain (tags s.inbox) := by
            simp only [rest, hr', hp, if_true]
            rw [List.drop_eq_nil_of_le (by simp [int32, int24, q1]; omega)]; rfl
          refine ⟨by rw [a1, hrs], a2, a3, ?_⟩
          rcases a5 with ⟨h1, h2, h3⟩ | ⟨h1, m, b, h2, h3⟩
          · exact Or.inl ⟨h1, by rw [hrs, h2], h3⟩
          · exact Or.inr ⟨h1, m, b, h2, by omega⟩
        · rw [if_neg hd]
          exact ⟨rfl, hi, rfl, Or.inr ⟨rfl, m, b, hp, by show s.off ≤ _; omega⟩⟩
    have hhead : (fetch s).2.headRead = true := by
      have hn := (next_rest s.closed s.inbox).2.2.2.1
      simp only [fetch]
      split
      · exact hn
      · split
        · exact hn
        · exact hr'
    obtain ⟨k1, k2, k3, k4⟩ := key
    rcases k4 with ⟨h1, h2, h3⟩ | ⟨h1, m, b, h2, h3⟩
    · have hne : (fetch s).1 ≠ Err.SUCCESS := by rw [h1]; exact hc
      rw [if_pos hne]
      exact ⟨by rw [k1]; rfl, k2, k3, by simp, fun _ => Or.inr ⟨h1, h2, rfl⟩⟩
    · have hne : ¬ (fetch s).1 ≠ Err.SUCCESS := by simp [h1]
      rw [if_neg hne]
      simp only [h2]
      obtain ⟨q1, _⟩ := k2.pkt m b h2
      obtain ⟨⟨o, p1, p2, p3⟩, p4, p5⟩ := pieces_ok (fetch s).2 m b size q1 h3
      refine ⟨?_, ?_, by rw [p1]; exact k3, p4, fun hs => Or.inl ⟨h1, p5 (by omega)⟩⟩
      · rw [k1, p1]
        simp only [rest, h2, hhead, if_true, p2, List.nil_append]
        rw [List.append_assoc]
      · rw [p1]
        refine ⟨fun h => by simp [hhead] at h, ?_⟩
        intro m' b' h
        simp only [h2, Option.some.injEq, Prod.mk.injEq] at h
        obtain ⟨rfl, rfl⟩ := h
        exact ⟨q1, p3⟩

theorem reads_ok (s : FlvIo) (hi : Inv s) (hc : s.closed ≠ Err.SUCCESS) (sizes : List Nat) :
    ((reads s sizes).flatMap (·.2)) <+: rest s ∧
    List.Forall₂ (fun n r => r.2.length ≤ n) sizes (reads s sizes) ∧
    ((∀ n ∈ sizes, 13 ≤ n) → (∀ r ∈ reads s sizes, (r.1 = Err.SUCCESS ∧ r.2 ≠ []) ∨ (r.1 = s.closed ∧ r.2 = [])) ∧
      ((rest s).length ≤ sizes.length → (reads s sizes).flatMap (·.2) = rest s) ∧
      (s.closed ∈ (reads s sizes).map (·.1) → (reads s sizes).flatMap (·.2) = rest s)) := by
  induction sizes generalizing s with
  | nil =>
    refine ⟨by simp [reads], .nil, fun _ => ⟨by simp [reads], fun h => ?_, by simp [reads]⟩⟩
    have : rest s = [] := List.eq_nil_of_length_eq_zero (by simpa using h)
    simp [reads, this]
  | cons n ns ih =>
    obtain ⟨a1, a2, a3, a4, a5⟩ := read_ok s hi hc n
    have hc' : (Sps.FlvIo.read s n).2.1.closed ≠ Err.SUCCESS := by rw [a3]; exact hc
    obtain ⟨b1, b2, b3⟩ := ih (Sps.FlvIo.read s n).2.1 a2 hc'
    simp only [reads, List.flatMap_cons]
    refine ⟨?_, .cons a4 b2, ?_⟩
    · rw [a1]; exact (List.prefix_append_right_inj _).2 b1
    · intro hall
      have hn := a5 (hall n (by simp))
      obtain ⟨c1, c2, c3⟩ := b3 (fun k hk => hall k (List.mem_cons_of_mem _ hk))
      rw [a3] at c1 c3
      refine ⟨?_, ?_, ?_⟩
      · intro r hr
        rcases List.mem_cons.1 hr with rfl | hr
        · rcases hn with ⟨h, h'⟩ | ⟨h, _, h'⟩
          · exact Or.inl ⟨h, h'⟩
          · exact Or.inr ⟨h, h'⟩
        · exact c1 r hr
      · intro hlen
        rw [a1]
        congr 1
        apply c2
        rcases hn with ⟨_, h'⟩ | ⟨_, h, h'⟩
        · have hp := List.length_pos_iff.2 h'
          have := congrArg List.length a1
          simp only [List.length_append, List.length_cons] at *
          omega
        · have := congrArg List.length a1
          simp only [h, h', List.length_append, List.length_nil] at this
          omega
      · intro hm
        rw [a1]
        congr 1
        rcases hn with ⟨h, _⟩ | ⟨_, h, h'⟩
        · apply c3
          simp only [List.map_cons, List.mem_cons] at hm
          rcases hm with hm | hm
          · rw [h] at hm; exact absurd hm hc
          · exact hm
        · have h2 : rest (Sps.FlvIo.read s n).2.1 = [] := by
            have := a1; rw [h, h'] at this; simpa using this.symm
          rw [h2] at b1 ⊢
          exact List.prefix_nil.1 b1

/-! ## Writing -/
open FlvOut

theorem number_eq (l : List UInt8) : number l = beVal l := by
  unfold number beVal
  congr 1; funext a b; rw [Nat.mul_comm]

theorem take_exact {α} (a b : List α) (n : Nat) (h : a.length = n) : (a ++ b).take n = a := by
  subst h; simp

theorem drop_exact {α} (a b : List α) (n : Nat) (h : a.length = n) : (a ++ b).drop n = b := by
  subst h; simp

theorem or_shift (a b : Nat) (h : a < 2 ^ 24) : a ||| (b <<< 24) = b * 2 ^ 24 + a := by
  rw [Nat.or_comm, Nat.shiftLeft_eq, Nat.mul_comm, ← Nat.two_pow_add_eq_or_of_lt h]

/-- A whole tag is taken. -/
theorem one_tag (t : Tag) (h : t.Fits) (r : List UInt8) :
    one (t.bytes ++ r) = (Err.SUCCESS, some (message t, r)) := by
  obtain ⟨hty, hts, hst, hb⟩ := h
  generalize hd : t.bytes ++ r = d
  have e : d = beBytes 1 t.type ++ (beBytes 3 t.body.length ++ (beBytes 3 (t.ts % 2 ^ 24) ++ (beBytes 1 (t.ts / 2 ^ 24) ++
      (beBytes 3 t.stream ++ (t.body ++ (beBytes 4 (t.body.length + 11) ++ r)))))) := by
    rw [← hd]; simp only [Tag.bytes, List.append_assoc]
  have f1 : d.take 1 = beBytes 1 t.type := by rw [e]; exact take_exact _ _ _ (by simp)
  have f2 : d.drop 1 = beBytes 3 t.body.length ++ (beBytes 3 (t.ts % 2 ^ 24) ++ (beBytes 1 (t.ts / 2 ^ 24) ++
      (beBytes 3 t.stream ++ (t.body ++ (beBytes 4 (t.body.length + 11) ++ r))))) := by
    rw [e]; exact drop_exact _ _ _ (by simp)
  have f4 : d.drop 4 = beBytes 3 (t.ts % 2 ^ 24) ++ (beBytes 1 (t.ts / 2 ^ 24) ++
      (beBytes 3 t.stream ++ (t.body ++ (beBytes 4 (t.body.length + 11) ++ r)))) := by
    have : d.drop 4 = (d.drop 1).drop 3 := by rw [List.drop_drop]
    rw [this, f2]; exact drop_exact _ _ _ (by simp)
  have f7 : d.drop 7 = beBytes 1 (t.ts / 2 ^ 24) ++
      (beBytes 3 t.stream ++ (t.body ++ (beBytes 4 (t.body.length + 11) ++ r))) := by
    have : d.drop 7 = (d.drop 4).drop 3 := by rw [List.drop_drop]
    rw [this, f4]; exact drop_exact _ _ _ (by simp)
  have f11 : d.drop 11 = t.body ++ (beBytes 4 (t.body.length + 11) ++ r) := by
    have : d.drop 11 = ((d.drop 7).drop 1).drop 3 := by rw [List.drop_drop, List.drop_drop]
    rw [this, f7, drop_exact _ _ _ (by simp)]; exact drop_exact _ _ _ (by simp)
  have hlen : ¬ d.length < 11 := by rw [e]; simp only [List.length_append, beBytes_length]; omega
  have g1 : number (d.take 1) = t.type := by
    rw [f1, number_eq, beVal_beBytes]; exact Nat.mod_eq_of_lt (by simpa using hty)
  have g2 : number ((d.drop 1).take 3) = t.body.length := by
    rw [f2, take_exact _ _ _ (by simp), number_eq, beVal_beBytes]; exact Nat.mod_eq_of_lt (by simpa using hb)
  have g3 : number ((d.drop 4).take 3) ||| (number ((d.drop 7).take 1) <<< 24) = t.ts := by
    rw [f4, f7, take_exact _ _ _ (by simp), take_exact _ _ _ (by simp), number_eq, number_eq, beVal_beBytes, beVal_beBytes,
      or_shift _ _ (by omega)]
    omega
  have g4 : number (((d.drop 11).drop t.body.length).take 4) = t.body.length + 11 := by
    rw [f11, drop_exact _ _ _ rfl, take_exact _ _ _ (by simp), number_eq, beVal_beBytes]; exact Nat.mod_eq_of_lt (by omega)
  have g5 : (d.drop 11).take t.body.length = t.body := by rw [f11]; exact take_exact _ _ _ rfl
  have g6 : (d.drop 11).drop (t.body.length + 4) = r := by
    rw [← List.drop_drop, f11, drop_exact _ _ _ rfl]; exact drop_exact _ _ _ (by simp)
  have g7 : ¬ (d.drop 11).length < t.body.length + 4 := by
    rw [f11]; simp only [List.length_append, beBytes_length]; omega
  simp only [one, if_neg hlen, g1, g2, g3, g4, g5, g6, if_neg g7, ne_eq, not_true_eq_false, if_false]
  simp [message]

/-- What is taken is a whole tag. -/
theorem one_some (d : List UInt8) (m : FlvSend) (r : List UInt8) (h : (one d).2 = some (m, r)) :
    ∃ t : Tag, t.Fits ∧ d = t.bytes ++ r ∧ m = message t := by
  by_cases hlen : d.length < 11
  · simp [one, hlen] at h
  · simp only [one, if_neg hlen] at h
    by_cases h1 : (d.drop 11).length < number ((d.drop 1).take 3) + 4
    · simp only [if_pos h1] at h; cases h
    · simp only [if_neg h1] at h
      by_cases h2 : number (((d.drop 11).drop (number ((d.drop 1).take 3))).take 4) ≠ number ((d.drop 1).take 3) + 11
      · simp only [if_pos h2] at h; cases h
      · simp only [if_neg h2, Option.some.injEq, Prod.mk.injEq] at h
        obtain ⟨hm, hr⟩ := h
        have h2' : number (((d.drop 11).drop (number ((d.drop 1).take 3))).take 4) = number ((d.drop 1).take 3) + 11 := by
          simpa using h2
        have be : ∀ l : List UInt8, ∀ k, l.length = k → beBytes k (number l) = l := by
          intro l k hk; subst hk; rw [number_eq]; exact beBytes_beVal l
        have lt : ∀ l : List UInt8, ∀ k, l.length = k → number l < 256 ^ k := by
          intro l k hk; subst hk
          have := beBytes_beVal l
          rw [number_eq, ← this, beVal_beBytes, this]
          exact Nat.mod_lt _ (Nat.pow_pos (by omega))
        have l1 : (d.take 1).length = 1 := by simp; omega
        have l2 : ((d.drop 1).take 3).length = 3 := by simp; omega
        have l4 : ((d.drop 4).take 3).length = 3 := by simp; omega
        have l7 : ((d.drop 7).take 1).length = 1 := by simp; omega
        have l8 : ((d.drop 8).take 3).length = 3 := by simp; omega
        generalize hn : number ((d.drop 1).take 3) = n at *
        have lb : ((d.drop 11).take n).length = n := by simp only [List.length_take]; omega
        have lp : (((d.drop 11).drop n).take 4).length = 4 := by simp only [List.length_take, List.length_drop] at *; omega
        have bt := lt _ _ l1
        have b3 := lt _ _ l2
        have b4 := lt _ _ l4
        have b7 := lt _ _ l7
        have b8 := lt _ _ l8
        have hts : number ((d.drop 4).take 3) ||| (number ((d.drop 7).take 1) <<< 24) =
            number ((d.drop 7).take 1) * 2 ^ 24 + number ((d.drop 4).take 3) := or_shift _ _ (by simpa using b4)
        rw [hts] at hm
        refine ⟨⟨number (d.take 1), number ((d.drop 7).take 1) * 2 ^ 24 + number ((d.drop 4).take 3),
          number ((d.drop 8).take 3), (d.drop 11).take n⟩, ⟨?_, ?_, ?_, ?_⟩, ?_, ?_⟩
        · simpa using bt
        · simp only [] at *; omega
        · simpa using b8
        · simp only [lb]; omega
        · simp only [Tag.bytes, lb]
          have q1 : (number ((d.drop 7).take 1) * 2 ^ 24 + number ((d.drop 4).take 3)) % 2 ^ 24 = number ((d.drop 4).take 3) := by omega
          have q2 : (number ((d.drop 7).take 1) * 2 ^ 24 + number ((d.drop 4).take 3)) / 2 ^ 24 = number ((d.drop 7).take 1) := by omega
          rw [q1, q2, ← h2', be _ _ l1, be _ _ l4, be _ _ l7, be _ _ l8, be _ _ lp, ← hr, ← hn, be _ _ l2, hn]
          have s1 : d = d.take 1 ++ d.drop 1 := (List.take_append_drop 1 d).symm
          have s2 := drop_take_drop d 1 3
          have s3 := drop_take_drop d 4 3
          have s4 := drop_take_drop d 7 1
          have s5 := drop_take_drop d 8 3
          have s6 := drop_take_drop d 11 n
          have s7 := drop_take_drop d (11 + n) 4
          simp only [Nat.reduceAdd] at s2 s3 s4 s5
          conv => lhs; rw [s1, s2, s3, s4, s5, s6, s7]
          simp only [List.append_assoc, List.drop_drop, Nat.add_assoc]
        · rw [← hm]; simp [message]

theorem bytes_len (t : Tag) : t.bytes.length = t.body.length + 15 := by
  simp only [Tag.bytes, List.length_append, beBytes_length]; omega

theorem chain_cons (t : Tag) (ts : List Tag) : chain (t :: ts) = t.bytes ++ chain ts := by simp [chain]

/-- The loop takes tags from the beginning as long as there are whole ones and they are accepted. -/
theorem loop_any (answer : FlvSend → Err) (fuel : Nat) (d : List UInt8) (hf : d.length ≤ fuel) :
    ∃ ts rest, (∀ t ∈ ts, t.Fits) ∧ d = chain ts ++ rest ∧ (loop answer fuel d).1 = ts.map message ∧
      (((loop answer fuel d).2 = Err.SUCCESS ∧ rest = [] ∧ ∀ t ∈ ts, answer (message t) = Err.SUCCESS) ∨
       ((loop answer fuel d).2 ∈ [Err.ERROR_IO_NOT_ENOUGH, Err.ERROR_FLV_TAG] ∧ rest ≠ [] ∧
          (∀ t ∈ ts, answer (message t) = Err.SUCCESS) ∧ ∀ t : Tag, t.Fits → ¬ t.bytes <+: rest) ∨
       (∃ ts' t, ts = ts' ++ [t] ∧ (∀ t ∈ ts', answer (message t) = Err.SUCCESS) ∧
          (loop answer fuel d).2 = answer (message t) ∧ answer (message t) ≠ Err.SUCCESS)) := by
  induction fuel generalizing d with
  | zero =>
    have : d = [] := List.eq_nil_of_length_eq_zero (by omega)
    subst this
    exact ⟨[], [], by simp, rfl, rfl, Or.inl ⟨rfl, rfl, by simp⟩⟩
  | succ fuel ih =>
    by_cases h0 : d.length = 0
    · have : d = [] := List.eq_nil_of_length_eq_zero h0
      subst this
      exact ⟨[], [], by simp, rfl, rfl, Or.inl ⟨rfl, rfl, by simp⟩⟩
    · cases ho : (one d).2 with
      | none =>
        have hl : loop answer (fuel + 1) d = ([], (one d).1) := by
          simp only [loop, if_neg h0]
          have : one d = ((one d).1, none) := by rw [← ho]
          rw [this]
        refine ⟨[], d, by simp, rfl, by rw [hl]; rfl, Or.inr (Or.inl ⟨?_, fun h => h0 (by simp [h]), by simp, ?_⟩)⟩
        · rw [hl]
          show (one d).1 ∈ _
          revert ho
          simp only [one]
          split
          · intro _; simp
          · split
            · intro _; simp
            · split
              · intro _; simp
              · intro h; cases h
        · rintro t ht ⟨r, hr⟩
          rw [← hr, one_tag t ht r] at ho
          cases ho
      | some mr =>
        obtain ⟨m, r⟩ := mr
        obtain ⟨t, htf, hd, hm⟩ := one_some d m r ho
        have hone : one d = ((one d).1, some (m, r)) := by rw [← ho]
        by_cases ha : answer m ≠ Err.SUCCESS
        · have hl : loop answer (fuel + 1) d = ([m], answer m) := by
            simp only [loop, if_neg h0]; rw [hone]; simp only [if_pos ha]
          refine ⟨[t], r, by simpa using htf, by rw [hd]; simp [chain], by rw [hl, hm]; rfl,
            Or.inr (Or.inr ⟨[], t, rfl, by simp, by rw [hl, hm], by rw [← hm]; exact ha⟩)⟩
        · have hl : loop answer (fuel + 1) d = (m :: (loop answer fuel r).1, (loop answer fuel r).2) := by
            simp only [loop, if_neg h0]; rw [hone]; simp only [if_neg ha]
          have hlen : r.length ≤ fuel := by
            have := congrArg List.length hd
            simp only [List.length_append, bytes_len] at this
            omega
          have ha' : answer (message t) = Err.SUCCESS := by rw [← hm]; simpa using ha
          obtain ⟨ts, rest, i1, i2, i3, i4⟩ := ih r hlen
          refine ⟨t :: ts, rest, ?_, by rw [hd, chain_cons, List.append_assoc, ← i2], by rw [hl, i3, hm]; rfl, ?_⟩
          · intro u hu
            rcases List.mem_cons.1 hu with rfl | hu
            · exact htf
            · exact i1 u hu
          · have all : (∀ t ∈ ts, answer (message t) = Err.SUCCESS) → ∀ u ∈ t :: ts, answer (message u) = Err.SUCCESS := by
              intro h u hu
              rcases List.mem_cons.1 hu with rfl | hu
              · exact ha'
              · exact h u hu
            rw [hl]
            rcases i4 with ⟨j1, j2, j3⟩ | ⟨j1, j2, j3, j4⟩ | ⟨ts', u, j1, j2, j3, j4⟩
            · exact Or.inl ⟨j1, j2, all j3⟩
            · exact Or.inr (Or.inl ⟨j1, j2, all j3, j4⟩)
            · refine Or.inr (Or.inr ⟨t :: ts', u, by rw [j1]; rfl, ?_, j3, j4⟩)
              intro v hv
              rcases List.mem_cons.1 hv with rfl | hv
              · exact ha'
              · exact j2 v hv

/-- Whole tags are taken. -/
theorem loop_chain (answer : FlvSend → Err) (ts : List Tag) (hf : ∀ t ∈ ts, t.Fits)
    (ha : ∀ t ∈ ts, answer (message t) = Err.SUCCESS) (fuel : Nat) (hl : (chain ts).length ≤ fuel) :
    loop answer fuel (chain ts) = (ts.map message, Err.SUCCESS) := by
  induction ts generalizing fuel with
  | nil => cases fuel <;> simp [loop, chain]
  | cons t ts ih =>
    rw [chain_cons] at hl ⊢
    simp only [List.length_append, bytes_len] at hl
    obtain ⟨k, rfl⟩ : ∃ k, fuel = k + 1 := ⟨fuel - 1, by omega⟩
    have h0 : ¬ (t.bytes ++ chain ts).length = 0 := by simp only [List.length_append, bytes_len]; omega
    have h1 : ¬ answer (message t) ≠ Err.SUCCESS := by simpa using ha t (by simp)
    simp only [loop, if_neg h0, one_tag t (hf t (by simp)), if_neg h1]
    rw [ih (fun u hu => hf u (by simp [hu])) (fun u hu => ha u (by simp [hu])) k (by omega)]
    rfl

theorem write_chain (answer : FlvSend → Err) (ts : List Tag) (hf : ∀ t ∈ ts, t.Fits)
    (ha : ∀ t ∈ ts, answer (message t) = Err.SUCCESS) :
    write answer true (chain ts) = (true, ts.map message, Err.SUCCESS) := by
  simp only [write, if_neg (show ¬ true = false by simp), loop_chain answer ts hf ha _ (Nat.le_refl _)]

theorem write_header (answer : FlvSend → Err) (hd : List UInt8) (hl : hd.length = 13) (ts : List Tag) (hf : ∀ t ∈ ts, t.Fits)
    (ha : ∀ t ∈ ts, answer (message t) = Err.SUCCESS) :
    write answer false (hd ++ chain ts) = (true, ts.map message, Err.SUCCESS) := by
  have : ¬ (hd ++ chain ts).length < 13 := by simp; omega
  simp only [write, if_true, if_neg this, drop_exact hd _ 13 hl, loop_chain answer ts hf ha _ (show _ ≤ (hd ++ chain ts).length by simp)]

theorem writes_chain (answer : FlvSend → Err) (gs : List (List Tag)) (hf : ∀ g ∈ gs, ∀ t ∈ g, t.Fits)
    (ha : ∀ g ∈ gs, ∀ t ∈ g, answer (message t) = Err.SUCCESS) :
    writes answer true (gs.map chain) = (gs.flatten.map message, Err.SUCCESS) := by
  induction gs with
  | nil => rfl
  | cons g gs ih =>
    simp only [List.map_cons, writes, write_chain answer g (hf g (by simp)) (ha g (by simp)), ne_eq, not_true_eq_false, if_false]
    rw [ih (fun g' h => hf g' (by simp [h])) (fun g' h => ha g' (by simp [h]))]
    simp

end Verif.FlvIoLemmas
