import Verif.Model.RtmpBody
import Verif.Spec.RtmpBody
/-!
# C125: the bodies of RTMP messages are given back, once each
-/
namespace Sps.RtmpBody
open Spec.RtmpBody

/-- What holds between operations: `h0` is the memory at the start, `lost` the bodies that were lost. -/
structure Inv (h0 : Heap) (sc : Scope) (lost : List Nat) (s : St) : Prop where
  scope : ∀ i, sc i = (s.pkts i).map Pkt.own
  fresh : ∀ b, s.heap.live b = true → b < s.heap.next
  start : ∀ b, h0.live b = true → s.heap.live b = true ∧ b < h0.next
  next : h0.next ≤ s.heap.next
  owned : ∀ i p b, s.pkts i = some p → p.own = true → p.body = some b → s.heap.live b = true ∧ h0.next ≤ b
  apart : ∀ i j p q b, s.pkts i = some p → s.pkts j = some q → p.own = true → q.own = true → p.body = some b → q.body = some b → i = j
  lent : ∀ i p b, s.pkts i = some p → p.own = false → p.body = some b → h0.live b = true
  all : ∀ b, s.heap.live b = true → h0.live b = true ∨ (∃ i p, s.pkts i = some p ∧ p.own = true ∧ p.body = some b) ∨ b ∈ lost
  gone : ∀ b ∈ lost, s.heap.live b = true ∧ h0.next ≤ b ∧ ∀ i p, s.pkts i = some p → p.own = true → p.body ≠ some b
  nodup : lost.Nodup

/-- Giving back the body of an owning packet. -/
theorem reset_inv {h0 : Heap} {sc : Scope} {lost : List Nat} {s : St} (v : Inv h0 sc lost s) {i : Nat} {p : Pkt} (hp : s.pkts i = some p) :
    ∃ h p', reset s.heap p = some (h, p') ∧ p'.own = p.own ∧ h.next = s.heap.next ∧
      (∀ b, h.live b = true ↔ s.heap.live b = true ∧ ¬(p.own = true ∧ p.body = some b)) ∧ (p.own = true → p'.body = none) ∧ (p.own = false → p' = p) := by
  unfold reset
  obtain ⟨own, body⟩ := p
  cases own with
  | false => exact ⟨_, _, rfl, rfl, rfl, by simp, by simp, fun _ => rfl⟩
  | true =>
    cases body with
    | none => exact ⟨_, _, rfl, rfl, rfl, by simp, by simp, by simp⟩
    | some b =>
      have hl := (v.owned i _ b hp rfl rfl).1
      refine ⟨⟨fun x => if x = b then false else s.heap.live x, s.heap.next⟩, ⟨true, none⟩, ?_, rfl, rfl, ?_, fun _ => rfl, by simp⟩
      · simp only [if_true, Heap.free, hl, Option.map_some]
      · intro x
        show (if x = b then false else s.heap.live x) = true ↔ _
        by_cases hx : x = b
        · subst hx; simp
        · rw [if_neg hx]
          constructor
          · intro h
            refine ⟨h, ?_⟩
            rintro ⟨-, h2⟩
            cases h2
            exact hx rfl
          · exact fun h => h.1

theorem step_inv {h0 : Heap} {sc : Scope} {lost : List Nat} {s : St} (v : Inv h0 sc lost s) {o : Op} (ha : allowed sc (fun b => h0.live b = true) o) :
    ∃ s' lost', step s o = some s' ∧ lost'.length = lost.length + (if breaksFirst o then 1 else 0) ∧ Inv h0 (after sc o) lost' s' := by
  cases o with
  | new i own =>
    have hnone : s.pkts i = none := by
      have := v.scope i
      rw [show sc i = none from ha] at this
      cases hq : s.pkts i with
      | none => rfl
      | some q => rw [hq] at this; cases this
    refine ⟨_, lost, rfl, rfl, ⟨?_, v.fresh, v.start, v.next, ?_, ?_, ?_, ?_, ?_, v.nodup⟩⟩
    · intro j
      show (if j = i then some own else sc j) = ((if j = i then some (⟨own, none⟩ : Pkt) else s.pkts j)).map Pkt.own
      by_cases hj : j = i
      · simp [hj]
      · simp only [if_neg hj]; exact v.scope j
    · intro j p b hp ho hb
      change (if j = i then some (⟨own, none⟩ : Pkt) else s.pkts j) = some p at hp
      split at hp
      · cases hp; cases hb
      · exact v.owned j p b hp ho hb
    · intro j k p q b hp hq h1 h2 h3 h4
      change (if j = i then some (⟨own, none⟩ : Pkt) else s.pkts j) = some p at hp
      change (if k = i then some (⟨own, none⟩ : Pkt) else s.pkts k) = some q at hq
      split at hp
      · cases hp; cases h3
      · split at hq
        · cases hq; cases h4
        · exact v.apart j k p q b hp hq h1 h2 h3 h4
    · intro j p b hp ho hb
      change (if j = i then some (⟨own, none⟩ : Pkt) else s.pkts j) = some p at hp
      split at hp
      · cases hp; cases hb
      · exact v.lent j p b hp ho hb
    · intro b hb
      rcases v.all b hb with h | ⟨j, p, h1, h2, h3⟩ | h
      · exact .inl h
      · refine .inr (.inl ⟨j, p, ?_, h2, h3⟩)
        show (if j = i then some (⟨own, none⟩ : Pkt) else s.pkts j) = some p
        rw [if_neg, h1]
        rintro rfl
        rw [hnone] at h1
        cases h1
      · exact .inr (.inr h)
    · intro b hb
      obtain ⟨h1, h2, h3⟩ := v.gone b hb
      refine ⟨h1, h2, fun j p hp ho hb => ?_⟩
      change (if j = i then some (⟨own, none⟩ : Pkt) else s.pkts j) = some p at hp
      split at hp
      · cases hp; cases hb
      · exact h3 j p hp ho hb
  | use i =>
    have hsc : sc i ≠ none := ha
    cases hp : s.pkts i with
    | none => rw [v.scope i, hp] at hsc; exact absurd rfl hsc
    | some p =>
      obtain ⟨own, body⟩ := p
      have hstep : step s (.use i) = some s := by
        unfold step
        cases body with
        | none => simp only [hp]
        | some b =>
          have hl : s.heap.live b = true := by
            cases own with
            | true => exact (v.owned i _ b hp rfl rfl).1
            | false => exact (v.start b (v.lent i _ b hp rfl rfl)).1
          simp only [hp, hl, if_true]
      exact ⟨s, lost, hstep, rfl, v⟩
  | lend i b =>
    obtain ⟨hsc, hb⟩ := ha
    cases hp : s.pkts i with
    | none => rw [v.scope i, hp] at hsc; cases hsc
    | some p =>
      have hown : p.own = false := by
        rw [v.scope i, hp] at hsc
        exact Option.some.inj hsc
      refine ⟨s.set s.heap i (some { p with body := some b }), lost, by unfold step; simp only [hp], rfl, ⟨?_, v.fresh, v.start, v.next, ?_, ?_, ?_, ?_, ?_, v.nodup⟩⟩
      · intro j
        show sc j = ((if j = i then some { p with body := some b } else s.pkts j)).map Pkt.own
        by_cases hj : j = i
        · subst hj
          simp [hsc, hown]
        · simp only [if_neg hj]; exact v.scope j
      · intro j q c hq ho hc
        change (if j = i then some { p with body := some b } else s.pkts j) = some q at hq
        split at hq
        · cases hq
          rw [show p.own = true from ho] at hown
          cases hown
        · exact v.owned j q c hq ho hc
      · intro j k q r c hq hr h1 h2 h3 h4
        change (if j = i then some { p with body := some b } else s.pkts j) = some q at hq
        change (if k = i then some { p with body := some b } else s.pkts k) = some r at hr
        split at hq
        · cases hq
          rw [show p.own = true from h1] at hown
          cases hown
        · split at hr
          · cases hr
            rw [show p.own = true from h2] at hown
            cases hown
          · exact v.apart j k q r c hq hr h1 h2 h3 h4
      · intro j q c hq ho hc
        change (if j = i then some { p with body := some b } else s.pkts j) = some q at hq
        split at hq
        · cases hq
          cases hc
          exact hb
        · exact v.lent j q c hq ho hc
      · intro c hl
        rcases v.all c hl with h | ⟨j, q, h1, h2, h3⟩ | h
        · exact .inl h
        · refine .inr (.inl ⟨j, q, ?_, h2, h3⟩)
          show (if j = i then some { p with body := some b } else s.pkts j) = some q
          rw [if_neg, h1]
          rintro rfl
          rw [hp] at h1
          cases h1
          rw [hown] at h2
          cases h2
        · exact .inr (.inr h)
      · intro c hc
        obtain ⟨h1, h2, h3⟩ := v.gone c hc
        refine ⟨h1, h2, fun j q hq ho hb => ?_⟩
        change (if j = i then some { p with body := some b } else s.pkts j) = some q at hq
        split at hq
        · cases hq
          rw [show p.own = true from ho] at hown
          cases hown
        · exact h3 j q hq ho hb
  | leave i =>
    have hsc : sc i ≠ none := ha
    cases hp : s.pkts i with
    | none => rw [v.scope i, hp] at hsc; exact absurd rfl hsc
    | some p =>
      obtain ⟨h, p', e1, e2, e3, e4, e5, e6⟩ := reset_inv v hp
      refine ⟨s.set h i none, lost, by unfold step; simp only [hp, e1, Option.map_some], rfl, ⟨?_, ?_, ?_, ?_, ?_, ?_, ?_, ?_, ?_, v.nodup⟩⟩
      · intro j
        show (if j = i then none else sc j) = ((if j = i then none else s.pkts j)).map Pkt.own
        by_cases hj : j = i
        · simp [hj]
        · simp only [if_neg hj]; exact v.scope j
      · intro b hb
        show b < h.next
        rw [e3]
        exact v.fresh b ((e4 b).1 hb).1
      · intro b hb
        refine ⟨(e4 b).2 ⟨(v.start b hb).1, ?_⟩, (v.start b hb).2⟩
        rintro ⟨h1, h2⟩
        exact absurd (v.owned i p b hp h1 h2).2 (Nat.not_le.2 (v.start b hb).2)
      · show h0.next ≤ h.next
        rw [e3]
        exact v.next
      · intro j q b hq ho hb
        change (if j = i then none else s.pkts j) = some q at hq
        split at hq
        · cases hq
        · rename_i hj
          obtain ⟨h1, h2⟩ := v.owned j q b hq ho hb
          refine ⟨(e4 b).2 ⟨h1, ?_⟩, h2⟩
          rintro ⟨h3, h4⟩
          exact hj (v.apart j i q p b hq hp ho h3 hb h4)
      · intro j k q r b hq hr
        change (if j = i then none else s.pkts j) = some q at hq
        change (if k = i then none else s.pkts k) = some r at hr
        split at hq
        · cases hq
        · split at hr
          · cases hr
          · exact v.apart j k q r b hq hr
      · intro j q b hq
        change (if j = i then none else s.pkts j) = some q at hq
        split at hq
        · cases hq
        · exact v.lent j q b hq
      · intro b hb
        obtain ⟨h1, h2⟩ := (e4 b).1 hb
        rcases v.all b h1 with h | ⟨j, q, g1, g2, g3⟩ | h
        · exact .inl h
        · refine .inr (.inl ⟨j, q, ?_, g2, g3⟩)
          show (if j = i then none else s.pkts j) = some q
          rw [if_neg, g1]
          rintro rfl
          rw [hp] at g1
          cases g1
          exact h2 ⟨g2, g3⟩
        · exact .inr (.inr h)
      · intro b hb
        obtain ⟨h1, h2, h3⟩ := v.gone b hb
        refine ⟨(e4 b).2 ⟨h1, fun h => h3 i p hp h.1 h.2⟩, h2, fun j q hq => ?_⟩
        change (if j = i then none else s.pkts j) = some q at hq
        split at hq
        · cases hq
        · exact h3 j q hq
  | recv i r =>
    have hsc : sc i = some true := ha
    cases hp : s.pkts i with
    | none => rw [v.scope i, hp] at hsc; cases hsc
    | some p =>
      have hown : p.own = true := by
        rw [v.scope i, hp] at hsc
        exact Option.some.inj hsc
      obtain ⟨h, p', e1, e2, e3, e4, e5, e6⟩ := reset_inv v hp
      -- what is common to all results: memory `g`, and the body of the packet
      have key : ∀ (g : Heap) (q : Pkt), q.own = true → h.next ≤ g.next → (∀ b, h.live b = true → g.live b = true) → (∀ b, g.live b = true → b < g.next) →
          (∀ b, q.body = some b → g.live b = true ∧ h.next ≤ b) →
          ∀ new : List Nat, (∀ b, g.live b = true → h.live b = true ∨ q.body = some b ∨ b ∈ new) → (∀ b ∈ new, g.live b = true ∧ h.next ≤ b ∧ q.body ≠ some b) → new.Nodup →
          Inv h0 sc (new ++ lost) (s.set g i (some q)) := by
        intro g q g1 g2 g3 g4 g5 new g6 g7 g8
        have hs : ∀ j, j ≠ i → (s.set g i (some q)).pkts j = s.pkts j := fun j hj => if_neg hj
        have hi : (s.set g i (some q)).pkts i = some q := if_pos rfl
        refine ⟨?_, g4, ?_, ?_, ?_, ?_, ?_, ?_, ?_, ?_⟩
        · intro j
          by_cases hj : j = i
          · subst hj
            rw [hi, hsc, Option.map_some, g1]
          · rw [hs j hj]; exact v.scope j
        · intro b hb
          refine ⟨g3 b ((e4 b).2 ⟨(v.start b hb).1, ?_⟩), (v.start b hb).2⟩
          rintro ⟨h1, h2⟩
          exact absurd (v.owned i p b hp h1 h2).2 (Nat.not_le.2 (v.start b hb).2)
        · show h0.next ≤ g.next
          exact Nat.le_trans v.next (by rw [← e3]; exact g2)
        · intro j q' b hq ho hb
          by_cases hj : j = i
          · subst hj
            rw [hi] at hq
            cases hq
            obtain ⟨h1, h2⟩ := g5 b hb
            exact ⟨h1, Nat.le_trans v.next (by rw [← e3]; exact h2)⟩
          · rw [hs j hj] at hq
            obtain ⟨h1, h2⟩ := v.owned j q' b hq ho hb
            refine ⟨g3 b ((e4 b).2 ⟨h1, ?_⟩), h2⟩
            rintro ⟨h3, h4⟩
            exact hj (v.apart j i q' p b hq hp ho h3 hb h4)
        · intro j k x y b hx hy h1 h2 h3 h4
          have old : ∀ j x, j ≠ i → (s.set g i (some q)).pkts j = some x → x.own = true → x.body = some b → q.body = some b → False := by
            intro j x hj hx h1 h3 h4
            rw [hs j hj] at hx
            have a := v.fresh b (v.owned j x b hx h1 h3).1
            have c := (g5 b h4).2
            rw [e3] at c
            omega
          by_cases hj : j = i <;> by_cases hk : k = i
          · rw [hj, hk]
          · subst hj
            rw [hi] at hx
            cases hx
            exact (old k y hk hy h2 h4 h3).elim
          · subst hk
            rw [hi] at hy
            cases hy
            exact (old j x hj hx h1 h3 h4).elim
          · rw [hs j hj] at hx
            rw [hs k hk] at hy
            exact v.apart j k x y b hx hy h1 h2 h3 h4
        · intro j x b hx ho hb
          by_cases hj : j = i
          · subst hj
            rw [hi] at hx
            cases hx
            rw [g1] at ho
            cases ho
          · rw [hs j hj] at hx
            exact v.lent j x b hx ho hb
        · intro b hb
          rcases g6 b hb with h1 | h1 | h1
          · obtain ⟨h1, h2⟩ := (e4 b).1 h1
            rcases v.all b h1 with h | ⟨j, x, x1, x2, x3⟩ | h
            · exact .inl h
            · refine .inr (.inl ⟨j, x, ?_, x2, x3⟩)
              rw [hs, x1]
              rintro rfl
              rw [hp] at x1
              cases x1
              exact h2 ⟨x2, x3⟩
            · exact .inr (.inr (List.mem_append_right _ h))
          · exact .inr (.inl ⟨i, q, hi, g1, h1⟩)
          · exact .inr (.inr (List.mem_append_left _ h1))
        · intro b hb
          rcases List.mem_append.1 hb with hb | hb
          · obtain ⟨h1, h2, h3⟩ := g7 b hb
            refine ⟨h1, Nat.le_trans v.next (by rw [← e3]; exact h2), fun j x hx ho hb' => ?_⟩
            by_cases hj : j = i
            · subst hj
              rw [hi] at hx
              cases hx
              exact h3 hb'
            · rw [hs j hj] at hx
              have a := v.fresh b (v.owned j x b hx ho hb').1
              rw [e3] at h2
              omega
          · obtain ⟨h1, h2, h3⟩ := v.gone b hb
            refine ⟨g3 b ((e4 b).2 ⟨h1, fun h => h3 i p hp h.1 h.2⟩), h2, fun j x hx ho hb' => ?_⟩
            by_cases hj : j = i
            · subst hj
              rw [hi] at hx
              cases hx
              have a := v.fresh b h1
              have c := (g5 b hb').2
              rw [e3] at c
              omega
            · rw [hs j hj] at hx
              exact h3 j x hx ho hb'
        · refine List.nodup_append.2 ⟨g8, v.nodup, ?_⟩
          rintro b hb c hc rfl
          have a := v.fresh b (v.gone b hc).1
          have d := (g7 b hb).2.1
          rw [e3] at d
          omega
      have hfr : ∀ b, h.live b = true → b < h.next := fun b hb => by rw [e3]; exact v.fresh b ((e4 b).1 hb).1
      have halloc : ∀ b, (if b = h.next then true else h.live b) = true → b < h.next + 1 := by
        intro b hb
        split at hb
        · omega
        · exact Nat.lt_succ_of_lt (hfr b hb)
      have hmono : ∀ b, h.live b = true → (if b = h.next then true else h.live b) = true := by
        intro b hb
        split
        · rfl
        · exact hb
      have hown' : p'.own = true := by rw [e2]; exact hown
      unfold step recv
      simp only [hp, e1]
      cases r with
      | ready =>
        refine ⟨_, [] ++ lost, rfl, rfl, key ⟨fun b => if b = h.next then true else h.live b, h.next + 1⟩ { p' with body := some h.next } hown' (Nat.le_succ _) hmono halloc ?_ [] ?_ (fun b hb => nomatch hb) List.nodup_nil⟩
        · intro b hb
          cases hb
          exact ⟨if_pos rfl, Nat.le_refl _⟩
        · intro b hb
          change (if b = h.next then true else h.live b) = true at hb
          split at hb
          · rename_i hb'
            exact .inr (.inl (by rw [hb']))
          · exact .inl hb
      | failed =>
        exact ⟨_, [] ++ lost, rfl, rfl, key h { p' with body := none } hown' (Nat.le_refl _) (fun b hb => hb) hfr (fun b hb => nomatch hb) [] (fun b hb => .inl hb) (fun b hb => nomatch hb) List.nodup_nil⟩
      | failedFirst =>
        refine ⟨_, [h.next] ++ lost, rfl, by simp [breaksFirst], key ⟨fun b => if b = h.next then true else h.live b, h.next + 1⟩ { p' with body := none } hown' (Nat.le_succ _) hmono halloc (fun b hb => nomatch hb) [h.next] ?_ ?_ (by simp)⟩
        · intro b hb
          change (if b = h.next then true else h.live b) = true at hb
          split at hb
          · rename_i hb'
            exact .inr (.inr (by rw [hb']; simp))
          · exact .inl hb
        · intro b hb
          cases List.mem_singleton.1 hb
          exact ⟨if_pos rfl, Nat.le_refl _, fun h => nomatch h⟩
      | failedLater =>
        exact ⟨_, [] ++ lost, rfl, rfl, key { h with next := h.next + 1 } { p' with body := none } hown' (Nat.le_succ _) (fun b hb => hb) (fun b hb => Nat.lt_succ_of_lt (hfr b hb)) (fun b hb => nomatch hb) [] (fun b hb => .inl hb)
          (fun b hb => nomatch hb) List.nodup_nil⟩

theorem run_inv {h0 : Heap} : ∀ (os : List Op) (sc : Scope) (lost : List Nat) (s : St), Inv h0 sc lost s → Program (fun b => h0.live b = true) sc os →
    ∃ s' lost', run s os = some s' ∧ lost'.length = lost.length + os.countP breaksFirst ∧ Inv h0 (ends sc os) lost' s'
  | [], sc, lost, s, v, _ => ⟨s, lost, rfl, rfl, v⟩
  | o :: os, sc, lost, s, v, hp => by
    obtain ⟨s1, l1, h1, n1, v1⟩ := step_inv v hp.1
    obtain ⟨s2, l2, h2, n2, v2⟩ := run_inv os _ _ s1 v1 hp.2
    refine ⟨s2, l2, by unfold run; rw [h1]; exact h2, ?_, v2⟩
    rw [n2, n1, List.countP_cons]
    omega

theorem start_inv {h0 : Heap} (hf : ∀ b, h0.live b = true → b < h0.next) : Inv h0 none' [] ⟨h0, fun _ => none⟩ where
  scope _ := rfl
  fresh := hf
  start b hb := ⟨hb, hf b hb⟩
  next := Nat.le_refl _
  owned i p b hp := by cases hp
  apart i j p q b hp := by cases hp
  lent i p b hp := by cases hp
  all b hb := .inl hb
  gone b hb := nomatch hb
  nodup := List.nodup_nil

/-- **C125**, whatever the program does with its packets, in whatever order, and however the library fails: no body is given back twice or used after it was given back, and the memory of the packets of
streams, which is only lent, is not given back. -/
theorem C125_once (h0 : Heap) (hf : ∀ b, h0.live b = true → b < h0.next) (os : List Op) (hp : Program (fun b => h0.live b = true) none' os) :
    ∃ s, run ⟨h0, fun _ => none⟩ os = some s ∧ ∀ b, h0.live b = true → s.heap.live b = true := by
  obtain ⟨s, lost, h1, -, v⟩ := run_inv os none' [] _ (start_inv hf) hp
  exact ⟨s, h1, fun b hb => (v.start b hb).1⟩

/-- **C125**, what is in use at any time: the memory in use at the start, the bodies of the packets there are, and one body for every time the library failed in the first chunk of a message; nothing else. -/
theorem C125_lost (h0 : Heap) (hf : ∀ b, h0.live b = true → b < h0.next) (os : List Op) (hp : Program (fun b => h0.live b = true) none' os)
    (s : St) (hr : run ⟨h0, fun _ => none⟩ os = some s) :
    ∃ lost : List Nat, lost.Nodup ∧ lost.length = os.countP breaksFirst ∧
      (∀ b, s.heap.live b = true ↔ h0.live b = true ∨ (∃ i p, s.pkts i = some p ∧ p.own = true ∧ p.body = some b) ∨ b ∈ lost) ∧
      (∀ b ∈ lost, h0.live b = false ∧ ∀ i p, s.pkts i = some p → p.own = true → p.body ≠ some b) := by
  obtain ⟨s', lost, h1, n, v⟩ := run_inv os none' [] _ (start_inv hf) hp
  rw [hr] at h1
  cases h1
  refine ⟨lost, v.nodup, by simpa using n, fun b => ⟨v.all b, ?_⟩, fun b hb => ⟨?_, (v.gone b hb).2.2⟩⟩
  · rintro (h | ⟨i, p, h1, h2, h3⟩ | h)
    · exact (v.start b h).1
    · exact (v.owned i p b h1 h2 h3).1
    · exact (v.gone b h).1
  · cases hl : h0.live b with
    | false => rfl
    | true => exact absurd (hf b hl) (Nat.not_lt.2 (v.gone b hb).2.1)

/-- **C125**, everything is given back: when no packet is left, the memory in use is that at the start. Missing: programs in which the library fails in the first chunk of a message (`C125_lost` says what is
lost then). -/
theorem C125_back_partial (h0 : Heap) (hf : ∀ b, h0.live b = true → b < h0.next) (os : List Op) (hp : Program (fun b => h0.live b = true) none' os)
    (hb : ∀ o ∈ os, breaksFirst o = false) (he : ∀ i, ends none' os i = none) (s : St) (hr : run ⟨h0, fun _ => none⟩ os = some s) :
    ∀ b, s.heap.live b = h0.live b := by
  obtain ⟨s', lost, h1, n, v⟩ := run_inv os none' [] _ (start_inv hf) hp
  rw [hr] at h1
  cases h1
  have hn : lost = [] := by
    rw [List.countP_eq_zero.2 (fun o ho => by rw [hb o ho]; simp)] at n
    exact List.length_eq_zero_iff.1 n
  intro b
  rw [Bool.eq_iff_iff]
  refine ⟨fun h => ?_, fun h => (v.start b h).1⟩
  rcases v.all b h with h | ⟨i, p, h1, -, -⟩ | h
  · exact h
  · have := v.scope i
    rw [he i, h1] at this
    cases this
  · rw [hn] at h
    cases h

/-- A connection: commands are received into one packet, media into one packet each, and a player is sent the memory of a packet of its stream (block 0); the connection is lost in a later chunk. -/
def talk : List Op := [.new 0 true, .recv 0 .ready, .use 0, .recv 0 .ready, .use 0, .leave 0, .new 1 true, .recv 1 .ready, .new 2 false, .lend 2 0, .use 1, .use 2, .leave 1, .leave 2,
  .new 3 true, .recv 3 .failedLater, .use 3, .leave 3]

/-- A memory with one block, that of a packet of a stream. -/
def one : Heap := ⟨fun b => b = 0, 1⟩

example : (∀ b, one.live b = true → b < one.next) ∧ Program (fun b => one.live b = true) none' talk ∧ (∀ o ∈ talk, breaksFirst o = false) := by
  refine ⟨fun b hb => ?_, ?_, by decide⟩
  · have : b = 0 := of_decide_eq_true hb
    show b < 1
    omega
  · simp [Program, talk, allowed, after, none', one]

/-- **C125**, a body for which the library fails in the first chunk of the message is lost: the program forgets it without giving it back. Every connection can lose one, of up to 16 MB. -/
theorem C125_negation_first : (run ⟨one, fun _ => none⟩ [.new 0 true, .recv 0 .failedFirst, .leave 0]).map (fun s => (s.heap.live 0, s.heap.live 1)) = some (true, true) ∧
    (run ⟨one, fun _ => none⟩ [.new 0 true, .recv 0 .ready, .leave 0]).map (fun s => (s.heap.live 0, s.heap.live 1)) = some (true, false) := by decide +kernel

end Sps.RtmpBody
