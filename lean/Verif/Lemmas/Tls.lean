import Verif.Spec.Tls
import Verif.Lemmas.Source
/-!
# Lemmas on TLS
-/
namespace Sps.Tls
open Spec Spec.Tls

/-! ## Reading -/

def size (evs : List IoEv) : Nat := (evs.map fun ev => match ev with | .data p => p.length + 1 | .err _ => 1).sum

theorem io_size {io io' : Io} {n : Nat} {d : List UInt8} (hn : 0 < n) (hd : d ≠ []) (h : io.read n = (.ok d, io')) : size io'.evs < size io.evs := by
  unfold Io.read at h
  rw [if_neg (by omega)] at h
  cases he : io.evs with
  | nil => rw [he] at h; simp at h
  | cons ev evs =>
    rw [he] at h
    cases ev with
    | err e => simp at h
    | data p =>
      simp only at h
      split at h
      · simp only [Prod.mk.injEq] at h
        rw [← h.2]
        simp [size]
      · simp only [Prod.mk.injEq] at h
        rw [← h.2]
        simp [size]; omega

theorem readLoop_serves {c : Records} (hc : Lawful c) (n : Nat) (hn : 0 < n) : ∀ (fuel : Nat) (t : Tls) (p : List UInt8) (cl : Err),
    size t.io.evs < fuel → Carries c t p cl →
    ∃ x t' p', readLoop c fuel t n = some (x, t') ∧ Carries c t' p' cl ∧
      match x with
      | .ok d => d.length ≤ n ∧ p = d ++ p' ∧ d ≠ []
      | .err e => e = cl ∧ p = [] ∧ p' = []
  | 0, _, _, _, h, _ => absurd h (Nat.not_lt_zero _)
  | fuel + 1, t, p, cl, hf, ⟨s, cl0, ha, hp, ht, hcl⟩ => by
    unfold readLoop
    simp only
    have hmore := hc.more (t.raw ++ t.rbio) s
    obtain ⟨w, hw⟩ := hmore
    have htk : t.taken ≤ (c.plain (t.raw ++ t.rbio)).length := by
      obtain ⟨v, hv⟩ := hc.more t.raw t.rbio
      rw [← hv, List.length_append]; omega
    by_cases hav : (c.plain (t.raw ++ t.rbio)).drop t.taken ≠ []
    · rw [if_pos hav]
      have hpos : 0 < ((c.plain (t.raw ++ t.rbio)).drop t.taken).length := List.length_pos_iff.2 hav
      obtain ⟨c1, c2, c3⟩ := hc.cut (t.raw ++ t.rbio) ((c.plain (t.raw ++ t.rbio)).drop t.taken).length n hpos hn
      generalize hk : c.cut (t.raw ++ t.rbio) ((c.plain (t.raw ++ t.rbio)).drop t.taken).length n = k at c1 c2 c3 ⊢
      refine ⟨_, _, (c.plain (t.raw ++ t.rbio ++ s)).drop (t.taken + k), rfl, ⟨s, cl0, ha, ?_, ?_, ?_⟩, ?_, ?_, ?_⟩
      · simp only [List.append_nil]
      · simp only
        rw [List.length_drop] at c2
        omega
      · simp only [List.append_nil]; exact hcl
      · rw [List.length_take]; omega
      · rw [hp, ← hw]
        rw [List.drop_append_of_le_length (by omega)]
        rw [List.drop_append_of_le_length (by rw [List.length_drop] at c2; omega)]
        rw [← List.append_assoc, ← List.drop_drop, List.take_append_drop]
      · intro h
        have := congrArg List.length h
        rw [List.length_take] at this
        simp only [List.length_nil] at this
        omega
    · rw [if_neg hav]
      have hav' : (c.plain (t.raw ++ t.rbio)).drop t.taken = [] := by
        cases h : (c.plain (t.raw ++ t.rbio)).drop t.taken with
        | nil => rfl
        | cons a b => rw [h] at hav; simp at hav
      by_cases he : c.ended (t.raw ++ t.rbio) = true
      · rw [if_pos he]
        obtain ⟨g1, g2⟩ := hc.ended (t.raw ++ t.rbio) s he
        refine ⟨_, _, [], rfl, ⟨s, cl0, ha, ?_, htk, ?_⟩, ?_, ?_, rfl⟩
        · simp only [List.append_nil]; rw [g1]; exact hav'.symm
        · simp only [List.append_nil]; exact hcl
        · rw [hcl, if_pos g2]
        · rw [hp, g1]; exact hav'
      · rw [if_neg he]
        by_cases hs : s = []
        · subst hs
          obtain ⟨io', h1, h2⟩ := Io.read_end ha n hn
          rw [h1]
          simp only [List.append_nil] at hp hcl
          refine ⟨_, _, [], rfl, ⟨[], cl0, h2, ?_, htk, ?_⟩, ?_, ?_, rfl⟩
          · simp only [List.append_nil]; exact hav'.symm
          · simp only [List.append_nil]; exact hcl
          · rw [hcl, if_neg he]
          · rw [hp]; exact hav'
        · obtain ⟨d, s', io', h1, h2, h3, h4, h5⟩ := Io.read_on ha hs n hn
          rw [h1]
          simp only
          rw [if_neg h3]
          refine readLoop_serves hc n hn fuel _ p cl ?_ ⟨s', cl0, h5, ?_, htk, ?_⟩
          · have := io_size hn h3 h1
            simp only
            omega
          · rw [hp, h2]; simp [List.append_assoc]
          · rw [hcl, h2]; simp [List.append_assoc]

theorem read_serves {c : Records} (hc : Lawful c) (n : Nat) (hn : 0 < n) (t : Tls) (p : List UInt8) (cl : Err) (h : Carries c t p cl) :
    ∃ x t' p', t.read c n = some (x, t') ∧ Carries c t' p' cl ∧
      match x with
      | .ok d => d.length ≤ n ∧ p = d ++ p' ∧ d ≠ []
      | .err e => e = cl ∧ p = [] ∧ p' = [] :=
  readLoop_serves hc n hn t.passes t p cl (Nat.lt_succ_self _) h

theorem arrives_nil {io : Io} {cl : Err} (h : Arrives io [] cl) : io = ⟨[], cl⟩ := by
  obtain ⟨evs, closed⟩ := io
  have h1 := h.closed
  have h2 := h.stream
  have h3 := h.ok
  have h4 := h.noErr
  simp only at h1 h2 h4
  subst h1
  cases evs with
  | nil => rfl
  | cons ev evs =>
    cases ev with
    | err e => simp [noErr] at h4
    | data p =>
      simp only [streamOf, List.flatMap_cons, evBytes, List.append_eq_nil_iff] at h2
      simp [ioOk, evOk, h2.1] at h3

theorem arrives_cons {d : List UInt8} (hd : d ≠ []) {io : Io} {s : List UInt8} {cl : Err} (h : Arrives io s cl) :
    Arrives ⟨.data d :: io.evs, io.closed⟩ (d ++ s) cl := by
  constructor
  · have := h.ok
    simp only [ioOk, Bool.and_eq_true] at this ⊢
    refine ⟨?_, this.2⟩
    rw [List.all_cons, Bool.and_eq_true]
    exact ⟨by simp [evOk, hd], this.1⟩
  · have := h.noErr
    simp only [noErr, List.all_cons, Bool.true_and] at this ⊢
    exact this
  · rw [← h.stream]; rfl
  · exact h.closed

/-- Any program that reads cannot tell a TLS socket from a TCP socket. -/
theorem like_tcp {c : Records} (hc : Lawful c) {α : Type} (prog : Prog α) : ∀ (t : Tls) (p : List UInt8) (cl : Err), cl ≠ 0 → Carries c t p cl →
    ∃ io a, Arrives io p cl ∧ prog.result (fun io n => some (Io.read io n)) io = some a ∧ prog.result (Tls.read c) t = some a := by
  induction prog with
  | done a =>
    intro t p cl hcl h
    refine ⟨⟨if p = [] then [] else [.data p], cl⟩, a, ?_, rfl, rfl⟩
    by_cases hp : p = []
    · subst hp
      exact ⟨by simpa [ioOk] using hcl, rfl, rfl, rfl⟩
    · rw [if_neg hp]
      have := arrives_cons hp (io := ⟨[], cl⟩) (s := []) (cl := cl) ⟨by simpa [ioOk] using hcl, rfl, rfl, rfl⟩
      simpa using this
  | ask n hn k ih =>
    intro t p cl hcl h
    obtain ⟨x, t', p', h1, h2, h3⟩ := read_serves hc n hn t p cl h
    obtain ⟨io', a, g1, g2, g3⟩ := ih x t' p' cl hcl h2
    cases x with
    | ok d =>
      obtain ⟨l1, rfl, l3⟩ := h3
      refine ⟨⟨.data d :: io'.evs, io'.closed⟩, a, arrives_cons l3 g1, ?_, ?_⟩
      · have : Io.read ⟨.data d :: io'.evs, io'.closed⟩ n = (.ok d, io') := by
          unfold Io.read
          rw [if_neg (by omega)]
          simp only
          rw [if_pos l1]
        simp only [Prog.result, this, Option.bind_some]
        exact g2
      · simp only [Prog.result, h1, Option.bind_some]
        exact g3
    | err e =>
      obtain ⟨rfl, rfl, rfl⟩ := h3
      refine ⟨io', a, g1, ?_, ?_⟩
      · have hio := arrives_nil g1
        have : Io.read io' n = (.err e, io') := by
          rw [hio]; unfold Io.read; rw [if_neg (by omega)]
        simp only [Prog.result, this, Option.bind_some]
        exact g2
      · simp only [Prog.result, h1, Option.bind_some]
        exact g3

/-! ## Writing -/

theorem writeLoop_spec {s : Seal} {peer : List UInt8 → List UInt8} {sent : Nat → List UInt8 → Prop} (ho : Opens s peer sent) :
    ∀ (calls : List (Option Nat)) (i : Nat) (t : Tls) (rest : List UInt8) (e : Err) (j : Nat) (t' : Tls),
      (∀ k, some k ∈ calls → 1 ≤ k) → rest ≠ [] → t.wbio = [] → sent i t.snk.out → writeLoop s calls i t rest = some (e, j, t') →
      ∃ d, d <+: rest ∧ (e = Err.SUCCESS → d = rest ∧ t'.wbio = []) ∧ peer t'.snk.out = peer t.snk.out ++ d ∧
        (e = Err.SUCCESS → sent j t'.snk.out)
  | [], _, _, _, _, _, _, _, _, _, _, h => by simp [writeLoop] at h
  | none :: _, i, t, rest, e, j, t', _, _, _, hs, h => by
    simp only [writeLoop, Option.some.injEq, Prod.mk.injEq] at h
    obtain ⟨rfl, rfl, rfl⟩ := h
    exact ⟨[], List.nil_prefix, fun h => absurd h (by decide), by simp, fun h => absurd h (by decide)⟩
  | some n :: calls, i, t, rest, e, j, t', hk, hr, hw, hs, h => by
    have hn : 1 ≤ n := hk n (by simp)
    have hd : rest.take n ≠ [] := by
      intro hnil
      rw [List.take_eq_nil_iff] at hnil
      rcases hnil with hnil | hnil
      · omega
      · exact hr hnil
    simp only [writeLoop, hw, List.nil_append] at h
    obtain ⟨o1, o2⟩ := ho i t.snk.out (rest.take n) hs hd
    generalize hwr : t.snk.write (s.wrap i (rest.take n)) = r at h
    obtain ⟨e1, snk⟩ := r
    simp only at h
    by_cases he1 : e1 = Err.SUCCESS
    · have hout : snk.out = t.snk.out ++ s.wrap i (rest.take n) := by
        unfold Sink.write at hwr
        split at hwr
        · simp only [Prod.mk.injEq] at hwr; rw [← hwr.2]
        · split at hwr
          · simp only [Prod.mk.injEq] at hwr; rw [← hwr.2]
          · simp only [Prod.mk.injEq] at hwr; rename_i hh; exact absurd (hwr.1.trans he1) hh
      rw [if_neg (by simpa using he1)] at h
      by_cases hlt : n < rest.length
      · rw [if_pos hlt] at h
        obtain ⟨d, q1, q2, q3, q4⟩ := writeLoop_spec ho calls (i + 1) _ (rest.drop n) e j t' (fun k hk' => hk k (by simp [hk']))
          (by intro hnil; rw [List.drop_eq_nil_iff] at hnil; omega) rfl (by simp only; rw [hout]; exact o1) h
        simp only at q3
        obtain ⟨r, hr'⟩ := q1
        refine ⟨rest.take n ++ d, ⟨r, by rw [List.append_assoc, hr', List.take_append_drop]⟩, fun he => ?_, ?_, q4⟩
        · obtain ⟨rfl, h2⟩ := q2 he
          exact ⟨by rw [List.take_append_drop], h2⟩
        · rw [q3, hout, o2, List.append_assoc]
      · rw [if_neg hlt] at h
        simp only [Option.some.injEq, Prod.mk.injEq] at h
        obtain ⟨rfl, rfl, rfl⟩ := h
        have hall : rest.take n = rest := List.take_of_length_le (by omega)
        rw [hall] at hout o1 o2
        exact ⟨rest, List.prefix_refl _, fun _ => ⟨rfl, rfl⟩, by simp only; rw [hout, o2], fun _ => by simp only; rw [hout]; exact o1⟩
    · rw [if_pos he1] at h
      simp only [Option.some.injEq, Prod.mk.injEq] at h
      obtain ⟨rfl, rfl, rfl⟩ := h
      have hout : snk.out = t.snk.out := by
        unfold Sink.write at hwr
        split at hwr
        · simp only [Prod.mk.injEq] at hwr; exact absurd hwr.1.symm he1
        · split at hwr
          · simp only [Prod.mk.injEq] at hwr; rename_i hh; exact absurd (hwr.1.symm.trans hh) he1
          · simp only [Prod.mk.injEq] at hwr; rw [← hwr.2]
      exact ⟨[], List.nil_prefix, fun h => absurd h he1, by simp only; rw [hout]; simp, fun h => absurd h he1⟩

end Sps.Tls
