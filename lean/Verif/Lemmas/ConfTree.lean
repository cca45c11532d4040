import Verif.Lemmas.Conf
import Verif.Lemmas.Url
/-! # Configuration files: blocks -/
namespace Sps.Conf
open Spec.Conf

/-- A successful loop leaves no more lines than there were. -/
theorem loop_len (fin : Err) (fuel : Nat) : ∀ (m : Module) (lines : List Text) (m' : Module) (rest : List Text),
    loop fin fuel m lines = .ok m' rest → rest.length ≤ lines.length := by
  induction fuel with
  | zero => intro m lines m' rest h; cases h
  | succ fuel ih =>
    intro m lines m' rest h
    unfold loop at h
    cases lines with
    | nil =>
      simp only at h
      split at h
      · cases h
      · split at h <;> cases h
        exact Nat.le_refl _
    | cons l ls =>
      simp only at h
      split at h
      · cases h
      · exact Nat.le_succ_of_le (ih _ _ _ _ h)
      · exact Nat.le_succ_of_le (ih _ _ _ _ h)
      · split at h
        · cases h
        · cases h
          simp
      · split at h
        · exact Nat.le_succ_of_le (ih _ _ _ _ h)
        · split at h
          · cases h
          · exact Nat.le_succ_of_le (ih _ _ _ _ h)
      · split at h
        · cases h
        · split at h
          · cases h
          · split at h
            · rename_i hs
              split at h
              · have h1 := ih _ _ _ _ hs
                have h2 := ih _ _ _ _ h
                simp only [List.length_cons]
                omega
              · rename_i hn
                exact absurd h (hn _ _)
            · rename_i hn
              exact absurd h (hn _ _)

/-- More fuel than lines changes nothing. -/
theorem loop_fuel (fin : Err) : ∀ (n : Nat) (m : Module) (lines : List Text) (f g : Nat), lines.length ≤ n → lines.length < f →
    lines.length < g → loop fin f m lines = loop fin g m lines := by
  intro n
  induction n with
  | zero =>
    intro m lines f g hn hf hg
    obtain ⟨f, rfl⟩ : ∃ k, f = k + 1 := ⟨f - 1, by omega⟩
    obtain ⟨g, rfl⟩ : ∃ k, g = k + 1 := ⟨g - 1, by omega⟩
    cases lines with
    | nil => rfl
    | cons l ls => simp at hn
  | succ n ih =>
    intro m lines f g hn hf hg
    obtain ⟨f, rfl⟩ : ∃ k, f = k + 1 := ⟨f - 1, by omega⟩
    obtain ⟨g, rfl⟩ : ∃ k, g = k + 1 := ⟨g - 1, by omega⟩
    cases lines with
    | nil => rfl
    | cons l ls =>
      simp only [List.length_cons] at hn hf hg
      have e : ∀ m, loop fin f m ls = loop fin g m ls := fun m => ih m ls f g (by omega) (by omega) (by omega)
      unfold loop
      simp only [e]
      cases hp : parse l with
      | none => rfl
      | some x =>
        cases x with
        | empty => rfl
        | comment => rfl
        | close => rfl
        | item name arg => rfl
        | start name arg =>
          simp only
          cases Kind.ofName name with
          | none => rfl
          | some k =>
            simp only
            by_cases hk : k = .location
            · simp only [hk, if_true]
            · simp only [hk, if_false]
              cases hs : loop fin g (.mk k arg (defaults k) []) ls with
              | err e => rfl
              | exit => rfl
              | undef => rfl
              | ok sub rest =>
                simp only
                have hl := loop_len fin g _ _ _ _ hs
                cases postSub m sub with
                | err e => rfl
                | exit => rfl
                | undef => rfl
                | ok m _ => exact ih m rest f g (by omega) (by omega) (by omega)

/-- The loop with enough fuel. -/
def run (fin : Err) (m : Module) (lines : List Text) : Res := loop fin (lines.length + 1) m lines

theorem run_len {fin : Err} {m m' : Module} {lines rest : List Text} (h : run fin m lines = .ok m' rest) : rest.length ≤ lines.length :=
  loop_len fin _ _ _ _ _ h

theorem run_nil (fin : Err) (m : Module) : run fin m [] = (if fin ≠ Err.ERROR_IO_EOF then .err fin
    else if m.kind = .root then .ok m [] else .err Err.ERROR_CONFIG_PARSE_INVALID) := rfl

/-- One round of the loop. -/
theorem run_cons (fin : Err) (m : Module) (l : Text) (ls : List Text) : run fin m (l :: ls) = (match parse l with
    | none => .err Err.ERROR_CONFIG_PARSE_INVALID
    | some .empty => run fin m ls
    | some .comment => run fin m ls
    | some .close => if m.kind = .root then .err Err.ERROR_CONFIG_PARSE_INVALID else .ok m ls
    | some (.item name arg) =>
      match m.kind.opt name with
      | none => run fin m ls
      | some o => if o.type = .sub then .err Err.ERROR_CONFIG_PARSE_INVALID
        else run fin (.mk m.kind m.name (store m.conf o arg) m.inner) ls
    | some (.start name arg) =>
      match Kind.ofName name with
      | none => .exit
      | some k =>
        if k = .location then .undef
        else match run fin (.mk k arg (defaults k) []) ls with
          | .ok sub rest => match postSub m sub with
            | .ok m _ => run fin m rest
            | r => r
          | r => r) := by
  have e : ∀ m, loop fin (ls.length + 1) m ls = run fin m ls := fun _ => rfl
  rw [show run fin m (l :: ls) = loop fin (ls.length + 1 + 1) m (l :: ls) from rfl, loop]
  simp only [e]
  cases hp : parse l with
  | none => rfl
  | some x =>
    cases x with
    | empty => rfl
    | comment => rfl
    | close => rfl
    | item name arg => rfl
    | start name arg =>
      simp only
      cases Kind.ofName name with
      | none => rfl
      | some k =>
        simp only
        by_cases hk : k = .location
        · simp only [hk, if_true]
        · simp only [hk, if_false]
          cases hs : run fin (.mk k arg (defaults k) []) ls with
          | err e => rfl
          | exit => rfl
          | undef => rfl
          | ok sub rest =>
            simp only
            have hl := run_len hs
            cases postSub m sub with
            | err e => rfl
            | exit => rfl
            | undef => rfl
            | ok m _ => exact loop_fuel fin ls.length m rest _ _ hl (by omega) (by omega)

/-- The options behind these directives. -/
def after (k : Kind) (c : Text → Option Val) : List Tree → (Text → Option Val)
  | [] => c
  | .dir n a :: ts => after k (match k.opt n with
    | none => c
    | some o => store c o a) ts
  | .block _ _ _ :: ts => after k c ts

/-- The module behind these directives and blocks. -/
def apply (m : Module) (ts : List Tree) : Module := .mk m.kind m.name (after m.kind m.conf ts) (m.inner ++ inners ts)

theorem apply_nil (m : Module) : apply m [] = m := by
  cases m
  simp [apply, after, inners, Module.kind, Module.name, Module.conf, Module.inner]

theorem ofName_name (k : Kind) : Kind.ofName k.name = some k := by
  cases k <;> decide +kernel

theorem name_ofName {n : Text} {k : Kind} (h : Kind.ofName n = some k) : k.name = n := by
  have := List.find?_some h
  simpa using this

/-! ## The values -/

theorem store_of {o : Opt} {c : Text → Option Val} {a : Text} (h : o.type ≠ .sub) :
    store c o a = fun n => if n = o.name then o.value a else c n := by
  have : ∃ v, o.value a = some v := by
    unfold Opt.value
    cases ht : o.type
    · exact ⟨_, rfl⟩
    · exact ⟨_, rfl⟩
    · exact ⟨_, rfl⟩
    · exact ⟨_, rfl⟩
    · exact absurd ht h
  obtain ⟨v, hv⟩ := this
  unfold store
  rw [hv]

theorem store_other {o : Opt} {c : Text → Option Val} {a n : Text} (h : n ≠ o.name) : store c o a n = c n := by
  unfold store
  cases o.value a with
  | none => rfl
  | some v => exact if_neg h

theorem defaults_value (k : Kind) (n : Text) : defaults k n = value k [] n := by
  have h1 : ∀ k : Kind, ∀ o ∈ k.opts, o.type ≠ .sub → ∀ p ∈ k.opts, p.name = o.name → p = o := by
    intro k; cases k <;> decide +kernel
  have h3 : ∀ (os : List Opt) (c : Text → Option Val), (∀ o ∈ os, o.name = n → o.type = .sub) →
      os.foldl (fun c o => if o.type = .sub then c else store c o o.dflt) c n = c n := by
    intro os
    induction os with
    | nil => intros; rfl
    | cons o os ih =>
      intro c h
      rw [List.foldl_cons, ih _ fun x hx => h x (List.mem_cons_of_mem _ hx)]
      by_cases ho : o.type = .sub
      · rw [if_pos ho]
      · rw [if_neg ho, store_of ho]
        simp only
        rw [if_neg]
        intro hn
        exact ho (h o (List.mem_cons_self ..) hn.symm)
  have h2 : ∀ (os : List Opt) (c : Text → Option Val) (o : Opt), o ∈ os → o.name = n → o.type ≠ .sub →
      (∀ p ∈ os, p.name = n → p = o) →
      os.foldl (fun c o => if o.type = .sub then c else store c o o.dflt) c n = o.value o.dflt := by
    intro os
    induction os with
    | nil => intro c o h; cases h
    | cons p os ih =>
      intro c o hm hn ht hu
      rw [List.foldl_cons]
      by_cases ho : o ∈ os
      · exact ih _ o ho hn ht fun q hq => hu q (List.mem_cons_of_mem _ hq)
      · have : p = o := by
          rcases List.mem_cons.1 hm with h | h
          · exact h.symm
          · exact absurd h ho
        subst this
        rw [if_neg ht, h3, store_of ht]
        · simp only [hn, if_true]
        · intro q hq hqn
          have := hu q (List.mem_cons_of_mem _ hq) hqn
          subst this
          exact absurd hq ho
  unfold value
  cases hf : k.opts.find? fun o => o.name = n with
  | none =>
    unfold defaults
    rw [h3]
    intro o ho hn
    exact absurd hn (by simpa using List.find?_eq_none.1 hf o ho)
  | some o =>
    have hm := List.mem_of_find?_eq_some hf
    have hn : o.name = n := by simpa using List.find?_some hf
    by_cases ht : o.type = .sub
    · have h4 : ∀ k : Kind, ∀ o ∈ k.opts, o.type = .sub → ∀ p ∈ k.opts, p.name = o.name → p.type = .sub := by
        intro k; cases k <;> decide +kernel
      unfold defaults
      rw [h3 _ _ fun p hp hpn => h4 k o hm ht p hp (hpn.trans hn.symm)]
      simp [Opt.value, ht]
    · unfold defaults
      rw [h2 k.opts _ o hm hn ht fun p hp hpn => h1 k o hm ht p hp (hpn.trans hn.symm)]
      rfl

theorem after_value (k : Kind) (ts : List Tree) (c : Text → Option Val) (n : Text)
    (hs : ∀ o ∈ k.opts, o.name = n → o.type ≠ .sub) : after k c ts n = (match lastArg n ts with
      | none => c n
      | some a => match k.opt n with
        | none => c n
        | some o => o.value a) := by
  induction ts generalizing c with
  | nil => rfl
  | cons t ts ih =>
    cases t with
    | block _ _ _ => exact ih c
    | dir m a =>
      rw [after, ih]
      cases hl : lastArg n ts with
      | some b =>
        simp only [lastArg, hl]
        cases ho : k.opt n with
        | some o => rfl
        | none =>
          simp only
          cases hm : k.opt m with
          | none => rfl
          | some o =>
            refine store_other ?_
            rintro rfl
            have h1 : o.name = m := by simpa using List.find?_some hm
            rw [h1, hm] at ho
            cases ho
      | none =>
        simp only [lastArg, hl]
        by_cases hmn : m = n
        · subst hmn
          simp only [if_true]
          cases ho : k.opt m with
          | none => rfl
          | some o =>
            have h1 : o.name = m := by simpa using List.find?_some ho
            have h2 := List.mem_of_find?_eq_some ho
            simp only [store_of (hs o h2 h1)]
            simp [h1]
        · simp only [hmn, if_false]
          cases ho : k.opt m with
          | none => rfl
          | some o =>
            have h1 : o.name = m := by simpa using List.find?_some ho
            exact store_other (by rw [h1]; exact Ne.symm hmn)

theorem after_sub (k : Kind) (ts : List Tree) (c : Text → Option Val) (n : Text)
    (hl : ∀ n a, Tree.dir n a ∈ ts → ∀ o ∈ k.opts, o.name = n → o.type ≠ .sub)
    (hs : ∃ o ∈ k.opts, o.name = n ∧ o.type = .sub) : after k c ts n = c n := by
  induction ts generalizing c with
  | nil => rfl
  | cons t ts ih =>
    have ih := fun c => ih c fun n a h => hl n a (List.mem_cons_of_mem _ h)
    cases t with
    | block _ _ _ => exact ih c
    | dir m a =>
      rw [after, ih]
      cases ho : k.opt m with
      | none => rfl
      | some o =>
        have h1 : o.name = m := by simpa using List.find?_some ho
        · refine store_other ?_
          rintro rfl
          obtain ⟨p, hp, hpn, hpt⟩ := hs
          exact hl m a (List.mem_cons_self ..) p hp (hpn.trans h1) hpt

theorem legal_dir {k : Kind} {ts : List Tree} (h : Legal k ts) : ∀ n a, Tree.dir n a ∈ ts → ∀ o ∈ k.opts, o.name = n → o.type ≠ .sub := by
  induction h with
  | nil => intro n a h; cases h
  | dir k n a ts ho _ ih =>
    intro n' a' hm
    rcases List.mem_cons.1 hm with h | h
    · cases h
      exact ho
    · exact ih n' a' h
  | block k k' a ks ts _ _ _ _ _ _ ih =>
    intro n' a' hm
    rcases List.mem_cons.1 hm with h | h
    · cases h
    · exact ih n' a' h

theorem after_defaults {k : Kind} {ts : List Tree} (h : Legal k ts) : after k (defaults k) ts = value k ts := by
  funext n
  by_cases hs : ∃ o ∈ k.opts, o.name = n ∧ o.type = .sub
  · rw [after_sub _ _ _ _ (legal_dir h) hs, defaults_value]
    obtain ⟨o, ho, hn, ht⟩ := hs
    unfold value
    have h4 : ∀ k : Kind, ∀ o ∈ k.opts, o.type = .sub → ∀ p ∈ k.opts, p.name = o.name → p.type = .sub := by
      intro k; cases k <;> decide +kernel
    cases hf : k.opts.find? fun o => o.name = n with
    | none => rfl
    | some p =>
      have hp := List.mem_of_find?_eq_some hf
      have hpn : p.name = n := by simpa using List.find?_some hf
      have := h4 k o ho ht p hp (hpn.trans hn.symm)
      simp [Opt.value, this]
  · have hs' : ∀ o ∈ k.opts, o.name = n → o.type ≠ .sub := fun o ho hn ht => hs ⟨o, ho, hn, ht⟩
    rw [after_value k ts _ n hs', defaults_value]
    unfold value Kind.opt
    cases lastArg n ts with
    | none =>
      cases hf : k.opts.find? fun o => o.name = n <;> rfl
    | some a =>
      cases hf : k.opts.find? fun o => o.name = n <;> rfl

theorem apply_new {k : Kind} {a : Text} {ks : List Tree} (h : Legal k ks) : apply (.mk k a (defaults k) []) ks = build k a ks := by
  unfold apply build
  simp only [Module.kind, Module.name, Module.conf, Module.inner, List.nil_append, after_defaults h]

/-! ## The lines of a tree -/

theorem postSub_ok {m : Module} {k : Kind} {a : Text} {c : Text → Option Val} {i : List Module} (h : accepts m.kind k a) :
    postSub m (.mk k a c i) = .ok (.mk m.kind m.name m.conf (m.inner ++ [.mk k a c i])) [] := by
  unfold postSub
  unfold accepts at h
  cases hk : m.kind <;> rw [hk] at h <;> simp_all [Module.kind, Module.name]

theorem postSub_inv {m sub m' : Module} {r : List Text} (hm : m.kind ≠ .location) (h : postSub m sub = .ok m' r) :
    accepts m.kind sub.kind sub.name ∧ m' = .mk m.kind m.name m.conf (m.inner ++ [sub]) := by
  unfold postSub at h
  unfold accepts
  cases hk : m.kind <;> rw [hk] at h <;> simp only at h ⊢
  case location => exact absurd hk hm
  case root => cases h; exact ⟨trivial, rfl⟩
  case upstream => cases h; exact ⟨trivial, rfl⟩
  case stream => cases h; exact ⟨trivial, rfl⟩
  all_goals
    split at h
    · rename_i hc
      cases h
      exact ⟨hc, rfl⟩
    · cases h

theorem inners_block (k : Kind) (a : Text) (ks ts : List Tree) : inners (.block k.name a ks :: ts) = build k a ks :: inners ts := by
  simp [inners, inner, ofName_name, build]

theorem apply_dir (m : Module) (n a : Text) (ts : List Tree) (o : Opt) (h : m.kind.opt n = some o) :
    apply (.mk m.kind m.name (store m.conf o a) m.inner) ts = apply m (.dir n a :: ts) := by
  cases m with
  | mk k nm c i =>
    rw [show (Module.mk k nm c i).kind = k from rfl] at h
    simp [apply, after, inners, inner, Module.kind, Module.name, Module.conf, Module.inner, h]

theorem apply_skip (m : Module) (n a : Text) (ts : List Tree) (h : m.kind.opt n = none) : apply m ts = apply m (.dir n a :: ts) := by
  cases m with
  | mk k nm c i =>
    rw [show (Module.mk k nm c i).kind = k from rfl] at h
    simp [apply, after, inners, inner, Module.kind, Module.name, Module.conf, Module.inner, h]

theorem apply_block (m : Module) (k : Kind) (a : Text) (ks ts : List Tree) :
    apply (.mk m.kind m.name m.conf (m.inner ++ [build k a ks])) ts = apply m (.block k.name a ks :: ts) := by
  cases m with
  | mk k nm c i => simp [apply, after, inners_block, Module.kind, Module.name, Module.conf, Module.inner]

theorem run_writes {ls : List Text} {ts : List Tree} (hw : Writes ls ts) : ∀ (fin : Err) (m : Module) (tail : List Text),
    Legal m.kind ts → run fin m (ls ++ tail) = run fin (apply m ts) tail := by
  induction hw with
  | done => intro fin m tail _; rw [apply_nil]; rfl
  | skip l ls ts hl _ ih =>
    intro fin m tail h
    rw [List.cons_append, run_cons]
    rcases hl with hl | hl
    · rw [parse_says hl]
      exact ih fin m tail h
    · rw [parse_says hl]
      exact ih fin m tail h
  | dir l n a ls ts hl _ ih =>
    intro fin m tail h
    cases h with
    | dir _ _ _ _ ho h =>
      rw [List.cons_append, run_cons, parse_says hl]
      simp only
      cases hopt : m.kind.opt n with
      | none =>
        simp only
        rw [ih fin m tail h, ← apply_skip _ _ _ _ hopt]
      | some o =>
        have h1 : o.name = n := by simpa using List.find?_some hopt
        have h2 := List.mem_of_find?_eq_some hopt
        simp only [ho o h2 h1, if_false]
        rw [ih fin (.mk m.kind m.name (store m.conf o a) m.inner) tail h, apply_dir _ _ _ _ _ hopt]
  | block l n a c is ls ks ts hl _ hc _ ih1 ih2 =>
    intro fin m tail h
    cases h with
    | block _ k' _ _ _ h1 h2 h3 h4 h5 =>
      rw [List.cons_append, run_cons, parse_says hl]
      simp only [ofName_name, h2, if_false]
      rw [List.append_assoc, List.cons_append, ih1 fin (.mk k' a (defaults k') []) _ h4, run_cons, parse_says hc, apply_new h4]
      simp only [show (build k' a ks).kind = k' from rfl, h1, if_false]
      rw [show postSub m (build k' a ks) = _ from postSub_ok h3]
      simp only
      have := ih2 fin (.mk m.kind m.name m.conf (m.inner ++ [build k' a ks])) tail h5
      rw [apply_block] at this
      exact this

/-! ## And back -/

theorem writes_run (fin : Err) : ∀ (n : Nat) (lines : List Text) (m m' : Module) (rest : List Text), lines.length ≤ n →
    m.kind ≠ .location → noRoot lines → run fin m lines = .ok m' rest → ∃ ls ts, Writes ls ts ∧ Legal m.kind ts ∧ m' = apply m ts ∧
      (m.kind = .root ∧ lines = ls ∧ rest = [] ∧ fin = Err.ERROR_IO_EOF ∨
        m.kind ≠ .root ∧ ∃ c, lines = ls ++ c :: rest ∧ LineSays c .close) := by
  intro n
  induction n with
  | zero =>
    intro lines m m' rest hn hloc hr h
    cases lines with
    | cons l ls => simp at hn
    | nil =>
      rw [run_nil] at h
      split at h
      · cases h
      · rename_i hf
        split at h
        · rename_i hk
          cases h
          exact ⟨[], [], .done, .nil _, (apply_nil _).symm, .inl ⟨hk, rfl, rfl, by simpa using hf⟩⟩
        · cases h
  | succ n ih =>
    intro lines m m' rest hn hloc hr h
    cases lines with
    | nil => exact ih [] m m' rest (Nat.zero_le _) hloc hr h
    | cons l ls =>
      simp only [List.length_cons, Nat.add_le_add_iff_right] at hn
      have hr' : noRoot ls := fun x hx => hr x (List.mem_cons_of_mem _ hx)
      rw [run_cons] at h
      cases hp : parse l with
      | none => rw [hp] at h; cases h
      | some x =>
        rw [hp] at h
        have hl := says_parse hp
        have skip : LineSays l .empty ∨ LineSays l .comment → run fin m ls = .ok m' rest → ∃ ls' ts, Writes ls' ts ∧ Legal m.kind ts ∧
            m' = apply m ts ∧ (m.kind = .root ∧ l :: ls = ls' ∧ rest = [] ∧ fin = Err.ERROR_IO_EOF ∨
              m.kind ≠ .root ∧ ∃ c, l :: ls = ls' ++ c :: rest ∧ LineSays c .close) := by
          intro hl h
          obtain ⟨ls', ts, h1, h2, h3, h4⟩ := ih ls m m' rest hn hloc hr' h
          refine ⟨l :: ls', ts, .skip _ _ _ hl h1, h2, h3, ?_⟩
          rcases h4 with ⟨h4, rfl, h5⟩ | ⟨h4, c, rfl, h5⟩
          · exact .inl ⟨h4, rfl, h5⟩
          · exact .inr ⟨h4, c, rfl, h5⟩
        cases x with
        | empty => exact skip (.inl hl) h
        | comment => exact skip (.inr hl) h
        | close =>
          simp only at h
          split at h
          · cases h
          · rename_i hk
            cases h
            exact ⟨[], [], .done, .nil _, (apply_nil _).symm, .inr ⟨hk, l, rfl, hl⟩⟩
        | item name arg =>
          simp only at h
          have key : ∀ c, c = (match m.kind.opt name with
              | none => m.conf
              | some o => store m.conf o arg) → (∀ o ∈ m.kind.opts, o.name = name → o.type ≠ .sub) →
              run fin (.mk m.kind m.name c m.inner) ls = .ok m' rest → ∃ ls' ts, Writes ls' ts ∧ Legal m.kind ts ∧
              m' = apply m ts ∧ (m.kind = .root ∧ l :: ls = ls' ∧ rest = [] ∧ fin = Err.ERROR_IO_EOF ∨
                m.kind ≠ .root ∧ ∃ c, l :: ls = ls' ++ c :: rest ∧ LineSays c .close) := by
            intro c hc ho h
            obtain ⟨ls', ts, h1, h2, h3, h4⟩ := ih ls (.mk m.kind m.name c m.inner) m' rest hn hloc hr' h
            refine ⟨l :: ls', .dir name arg :: ts, .dir _ _ _ _ _ hl h1, .dir _ _ _ _ ho h2, ?_, ?_⟩
            · rw [h3, hc]
              cases ho : m.kind.opt name with
              | none => rw [← apply_skip _ _ _ _ ho]; cases m; rfl
              | some o => exact apply_dir _ _ _ _ _ ho
            · rcases h4 with ⟨h4, rfl, h5⟩ | ⟨h4, c, rfl, h5⟩
              · exact .inl ⟨h4, rfl, h5⟩
              · exact .inr ⟨h4, c, rfl, h5⟩
          cases ho : m.kind.opt name with
          | none =>
            rw [ho] at h key
            refine key m.conf rfl ?_ ?_
            · intro o hm hn
              exact absurd hn (by simpa using List.find?_eq_none.1 ho o hm)
            · cases m
              exact h
          | some o =>
            rw [ho] at h key
            simp only at h
            split at h
            · cases h
            · rename_i ht
              refine key _ rfl ?_ h
              have h1 : o.name = name := by simpa using List.find?_some ho
              have h2 := List.mem_of_find?_eq_some ho
              intro p hp hpn hpt
              have h4 : ∀ k : Kind, ∀ o ∈ k.opts, o.type = .sub → ∀ p ∈ k.opts, p.name = o.name → p.type = .sub := by
                intro k; cases k <;> decide +kernel
              exact ht (h4 m.kind p hp hpt o h2 (h1.trans hpn.symm))
        | start name arg =>
          simp only at h
          cases hk : Kind.ofName name with
          | none => rw [hk] at h; cases h
          | some k =>
            rw [hk] at h
            have hkn := name_ofName hk
            subst hkn
            simp only at h
            by_cases hkl : k = .location
            · simp only [hkl, if_true] at h
              cases h
            · simp only [hkl, if_false] at h
              have hkr : k ≠ .root := by
                rintro rfl
                exact hr l (List.mem_cons_self ..) arg hl
              cases hs : run fin (.mk k arg (defaults k) []) ls with
              | err e => rw [hs] at h; cases h
              | exit => rw [hs] at h; cases h
              | undef => rw [hs] at h; cases h
              | ok sub rest1 =>
                rw [hs] at h
                simp only at h
                have hlen := run_len hs
                obtain ⟨is, ks, i1, i2, i3, i4⟩ := ih ls (.mk k arg (defaults k) []) sub rest1 hn hkl hr' hs
                rcases i4 with ⟨i4, _⟩ | ⟨_, c, i5, i6⟩
                · exact absurd i4 hkr
                rw [show (Module.mk k arg (defaults k) []).kind = k from rfl] at i2
                rw [apply_new i2] at i3
                subst i3
                cases hps : postSub m (build k arg ks) with
                | err e => rw [hps] at h; cases h
                | exit => rw [hps] at h; cases h
                | undef => rw [hps] at h; cases h
                | ok m2 r2 =>
                  rw [hps] at h
                  simp only at h
                  obtain ⟨p1, p2⟩ := postSub_inv hloc hps
                  subst p2
                  have hr1 : noRoot rest1 := fun x hx => hr' x (by rw [i5]; simp [hx])
                  obtain ⟨ls', ts, j1, j2, j3, j4⟩ := ih rest1 (.mk m.kind m.name m.conf (m.inner ++ [build k arg ks])) m' rest (by omega) hloc hr1 h
                  refine ⟨l :: (is ++ c :: ls'), .block k.name arg ks :: ts, .block _ _ _ _ _ _ _ _ hl i1 i6 j1,
                    .block _ _ _ _ _ hkr hkl p1 i2 j2, ?_, ?_⟩
                  · rw [j3, apply_block]
                  · rcases j4 with ⟨j4, rfl, j5⟩ | ⟨j4, d, rfl, j5⟩
                    · exact .inl ⟨j4, by rw [i5], j5⟩
                    · exact .inr ⟨j4, d, by rw [i5]; simp, j5⟩

/-! ## The usual way to write a tree -/

theorem isWords_join (ws : List Text) (h : ∀ w ∈ ws, w ≠ [] ∧ ∀ b ∈ w, ¬space b) : IsWords (join ws) ws := by
  induction ws with
  | nil => exact .none [] (by simp)
  | cons w ws ih =>
    obtain ⟨h1, h2⟩ := h w (List.mem_cons_self ..)
    have ih := ih fun x hx => h x (List.mem_cons_of_mem _ hx)
    cases ws with
    | nil =>
      have := IsWords.word [] w [] [] (by simp) h1 h2 (by simp) (.none [] (by simp))
      simpa [join] using this
    | cons v r =>
      have hs : space 32 := by unfold space; decide
      have := IsWords.word [] w (32 :: join (v :: r)) (v :: r) (by simp) h1 h2 (by simpa using hs) (isWords_space 32 hs ih)
      simpa [join] using this

theorem snoc_cases (ws : List Text) : ws = [] ∨ ∃ i w, ws = i ++ [w] := by
  rcases List.eq_nil_or_concat ws with h | ⟨i, w, h⟩
  · exact .inl h
  · exact .inr ⟨i, w, by simpa using h⟩

theorem join_cons (n : Text) {ws : List Text} (h : ws ≠ []) : join (n :: ws) = n ++ 32 :: join ws := by
  cases ws with
  | nil => exact absurd rfl h
  | cons v r => rfl

theorem trail_nil : trail [] := by simp [trail]

theorem render_dir (n : Text) (ws : List Text) (hn : plain n) (hp : ¬pound n) (hw : ∀ w ∈ ws, plain w) :
    LineSays (n ++ 32 :: (join ws ++ [59])) (.item n (join ws)) := by
  rcases snoc_cases ws with rfl | ⟨i, w, rfl⟩
  · refine ⟨[n, [59]], ?_, ?_⟩
    · have := isWords_join [n, [59]] (by
        intro w hw
        rcases List.mem_cons.1 hw with rfl | hw
        · exact ⟨hn.1, hn.2.1⟩
        · rcases List.mem_singleton.1 hw with rfl
          exact ⟨by simp, by unfold space; decide⟩)
      simpa [join] using this
    · have := Says.item n [] [] [] hp (by simpa using hn.2.2) trail_nil
      simpa [join] using this
  · refine ⟨n :: (i ++ [w ++ [59]]), ?_, ?_⟩
    · have e : n ++ 32 :: (join (i ++ [w]) ++ [59]) = join (n :: (i ++ [w ++ [59]])) := by
        rw [join_cons n (by simp), join_snoc, join_snoc]
        simp
      rw [e]
      refine isWords_join _ ?_
      intro x hx
      simp only [List.mem_cons, List.mem_append, List.not_mem_nil, or_false] at hx
      rcases hx with rfl | hx | rfl
      · exact ⟨hn.1, hn.2.1⟩
      · have := hw x (by simp [hx])
        exact ⟨this.1, this.2.1⟩
      · have := hw w (by simp)
        refine ⟨by simp, ?_⟩
        intro b hb
        rcases List.mem_append.1 hb with hb | hb
        · exact this.2.1 b hb
        · rcases List.mem_singleton.1 hb with rfl
          unfold space; decide
    · have hw1 := hw w (by simp)
      have := Says.item n w i [] hp (by
        intro x hx
        rcases List.mem_cons.1 hx with rfl | hx
        · exact hn.2.2
        · exact (hw x (by simp [hx])).2.2) trail_nil
      rw [if_neg hw1.1] at this
      exact this

theorem render_start (n : Text) (ws : List Text) (hn : plain n) (hp : ¬pound n) (hw : ∀ w ∈ ws, plain w) :
    LineSays (n ++ 32 :: (if join ws = [] then [123] else join ws ++ [32, 123])) (.start n (join ws)) := by
  have hne : ∀ w ∈ ws, w ≠ [] := fun w h => (hw w h).1
  have e : n ++ 32 :: (if join ws = [] then [123] else join ws ++ [32, 123]) = join (n :: (ws ++ [[123]])) := by
    rw [join_cons n (by simp), join_snoc]
    by_cases hws : ws = []
    · subst hws
      rfl
    · rw [if_neg (fun h => hws ((join_eq_nil ws hne).1 h)), if_neg hws]
      simp
  refine ⟨n :: (ws ++ [[123]]), ?_, ?_⟩
  · rw [e]
    refine isWords_join _ ?_
    intro x hx
    simp only [List.mem_cons, List.mem_append, List.not_mem_nil, or_false] at hx
    rcases hx with rfl | hx | rfl
    · exact ⟨hn.1, hn.2.1⟩
    · exact ⟨(hw x hx).1, (hw x hx).2.1⟩
    · exact ⟨by simp, by unfold space; decide⟩
  · have := Says.start n [] ws [] hp (by
      intro x hx
      rcases List.mem_cons.1 hx with rfl | hx
      · exact hn.2.2
      · exact (hw x hx).2.2) trail_nil
    simpa using this

theorem render_close : LineSays [125] .close := by
  refine ⟨[[125]], ?_, ?_⟩
  · have := isWords_join [[125]] (by
      intro x hx
      rcases List.mem_singleton.1 hx with rfl
      exact ⟨by simp, by unfold space; decide⟩)
    simpa [join] using this
  · have := Says.close [] [] [] (by unfold pound; simp) (by simp) trail_nil
    simpa using this

theorem render_writes {ts : List Tree} (h : Clean ts) : Writes (renders ts) ts := by
  induction h with
  | nil => exact .done
  | dir n ws ts h1 h2 h3 _ ih => exact .dir _ _ _ _ _ (render_dir n ws h1 h2 h3) ih
  | block n ws ks ts h1 h2 h3 _ _ ih1 ih2 =>
    have := Writes.block _ _ _ _ _ _ _ _ (render_start n ws h1 h2 h3) ih1 render_close ih2
    simpa [renders, render] using this

theorem no_lf_join (ws : List Text) (h : ∀ w ∈ ws, plain w) : ∀ b ∈ join ws, b ≠ 10 := by
  induction ws with
  | nil => simp [join]
  | cons w ws ih =>
    have hw : ∀ b ∈ w, b ≠ 10 := by
      rintro b hb rfl
      exact (h w (List.mem_cons_self ..)).2.1 10 hb (by unfold space; decide)
    have ih := ih fun x hx => h x (List.mem_cons_of_mem _ hx)
    cases ws with
    | nil => simpa [join] using hw
    | cons v r =>
      intro b hb
      rw [join] at hb
      rcases List.mem_append.1 hb with hb | hb
      · exact hw b hb
      · rcases List.mem_cons.1 hb with rfl | hb
        · decide
        · exact ih b hb

theorem render_lf {ts : List Tree} (h : Clean ts) : ∀ l ∈ renders ts, ∀ b ∈ l, b ≠ 10 := by
  have hp : ∀ n, plain n → ∀ b ∈ n, b ≠ 10 := by
    rintro n hn b hb rfl
    exact hn.2.1 10 hb (by unfold space; decide)
  induction h with
  | nil => intro l hl; cases hl
  | dir n ws ts h1 _ h3 _ ih =>
    intro l hl b hb
    simp only [renders, render, List.mem_append, List.mem_singleton] at hl
    rcases hl with rfl | hl
    · simp only [List.mem_append, List.mem_cons, List.not_mem_nil, or_false] at hb
      rcases hb with hb | rfl | hb | rfl
      · exact hp n h1 b hb
      · decide
      · exact no_lf_join ws h3 b hb
      · decide
    · exact ih l hl b hb
  | block n ws ks ts h1 _ h3 _ _ ih1 ih2 =>
    intro l hl b hb
    simp only [renders, render, List.mem_append, List.mem_cons, List.not_mem_nil, or_false] at hl
    rcases hl with (rfl | hl | rfl) | hl
    · simp only [List.mem_append, List.mem_cons] at hb
      rcases hb with hb | rfl | hb
      · exact hp n h1 b hb
      · decide
      · split at hb
        · rcases List.mem_singleton.1 hb with rfl
          decide
        · rcases List.mem_append.1 hb with hb | hb
          · exact no_lf_join ws h3 b hb
          · simp only [List.mem_cons, List.not_mem_nil, or_false] at hb
            rcases hb with rfl | rfl <;> decide
    · exact ih1 l hl b hb
    · rcases List.mem_singleton.1 hb with rfl
      decide
    · exact ih2 l hl b hb

theorem isLines_file (ls : List Text) (h : ∀ l ∈ ls, ∀ b ∈ l, b ≠ 10) : IsLines (fileOf ls) ls := by
  induction ls with
  | nil => exact .none
  | cons l ls ih =>
    have := IsLines.line l (fileOf ls) ls (h l (List.mem_cons_self ..)) (ih fun x hx => h x (List.mem_cons_of_mem _ hx))
    simpa [fileOf] using this

/-! ## Values -/

theorem opts_unique : ∀ k : Kind, ∀ o ∈ k.opts, ∀ p ∈ k.opts, p.name = o.name → p = o := by
  intro k; cases k <;> decide +kernel

theorem opt_of {k : Kind} {o : Opt} (h : o ∈ k.opts) : (k.opts.find? fun p => p.name = o.name) = some o := by
  cases hf : k.opts.find? fun p => p.name = o.name with
  | none =>
    have := List.find?_eq_none.1 hf o h
    simp at this
  | some p => rw [opts_unique k o h p (List.mem_of_find?_eq_some hf) (by simpa using List.find?_some hf)]

theorem signed_digits {s : Text} {n : Nat} (hs : s ≠ []) (h : Spec.Http.decValue 0 s = some n) : Text.signed s = (false, s) := by
  obtain ⟨b, r, rfl⟩ : ∃ b r, s = b :: r := by
    cases s with
    | nil => exact absurd rfl hs
    | cons b r => exact ⟨b, r, rfl⟩
  have hb : (Spec.Http.decDigit b).isSome := by
    unfold Spec.Http.decValue at h
    cases hd : Spec.Http.decDigit b with
    | none => rw [hd] at h; cases h
    | some v => rfl
  have hb := Text.decDigit_front b hb
  unfold Text.signed
  rw [List.dropWhile_cons, if_neg (by simp [hb])]
  split
  · rename_i h; cases h; simp at hb
  · rename_i h; cases h; simp at hb
  · rfl

theorem means_value {o : Opt} {a : Text} {v : Val} (h : Means o.type a v) : o.value a = some v := by
  unfold Opt.value
  generalize o.type = t at h
  cases h with
  | int _ n hn hd hl =>
    have hp : 0 < a.length := List.length_pos_iff.2 hn
    simp only [hp, if_true]
    rw [Text.atoi_dec hn hd hl]
  | intNeg ds n hn hd hl =>
    simp only [List.length_cons, Nat.zero_lt_succ, if_true]
    have hs : Text.signed (45 :: ds) = (true, ds) := rfl
    unfold Text.atoi
    rw [hs]
    simp only [if_true]
    rw [Text.number_dec _ 0 n hd, if_neg (by omega)]
    unfold i32
    congr 2
    omega
  | u64 _ n hn hd hl =>
    have hp : 0 < a.length := List.length_pos_iff.2 hn
    simp only [hp, if_true]
    unfold Text.atoll
    rw [signed_digits hn hd]
    simp only [Bool.false_eq_true, if_false]
    rw [Text.number_dec _ 0 n hd, if_neg (by omega)]
    congr 2
    omega
  | forever => decide +kernel
  | noInt => rfl
  | noU64 => rfl
  | str s hz =>
    simp only
    unfold Text.cstr
    have : ∀ s : Text, (∀ b ∈ s, b ≠ 0) → s.takeWhile (· ≠ 0) = s := by
      intro s
      induction s with
      | nil => intro _; rfl
      | cons b s ih =>
        intro h
        rw [List.takeWhile_cons, if_pos (by simpa using h b (List.mem_cons_self ..)), ih fun x hx => h x (List.mem_cons_of_mem _ hx)]
    rw [this _ hz]
  | on => decide +kernel
  | off => decide +kernel

theorem initConf_eq (file : Text) : initConf file = run Err.ERROR_IO_EOF (.mk .root [] (defaults .root) []) (Text.lines file) := rfl

end Sps.Conf
