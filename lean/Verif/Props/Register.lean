import Verif.Lemmas.Register
/-! # Properties of the registers: C61 -/
namespace Sps
open Spec.Register

/-- For every history of registrations and cancellations, a register holds exactly what was registered and not cancelled since. -/
theorem C61_register (ops : List Registers.Op) (ho : objects ops) (r : Reg) : r ∈ Registers.run [] ops ↔ Registered ops r := by
  rw [Registers.mem_run ops [] (by simpa using ho) r]
  simp

/-- The format chosen is registered and its extension begins the extension asked for; no format is chosen exactly if there is none. (What
lies in memory after the extension asked for plays no part.)
Partial: it is the first by address, not the first registered (`C61_negation_order`), and the extension need only begin with the
registered one (`C61_negation_prefix`). -/
theorem C61_format_partial (fmts : List Reg) (e junk : Text) (h0 : ∀ f ∈ fmts, (0 : UInt8) ∉ f.word) (he : (0 : UInt8) ∉ e) :
    (∀ f, Format.create fmts e junk = some f → f ∈ fmts ∧ f.word <+: e) ∧
    (Format.create fmts e junk = none ↔ ∀ f ∈ fmts, ¬ f.word <+: e) ∧
    (∀ f, Format.create fmts e junk = some f → ∃ a b, fmts = a ++ f :: b ∧ ∀ g ∈ a, ¬ g.word <+: e) := by
  have hm : ∀ f ∈ fmts, Format.matches' f.word e junk = true ↔ f.word <+: e := fun f hf => Format.matches_iff f.word e junk (h0 f hf) he
  refine ⟨fun f h => ?_, ?_, fun f h => ?_⟩
  · have h1 := List.mem_of_find?_eq_some h
    exact ⟨h1, (hm f h1).1 (List.find?_some (p := fun f : Reg => Format.matches' f.word e junk) h)⟩
  · rw [Format.create, List.find?_eq_none]
    exact ⟨fun h f hf hp => h f hf ((hm f hf).2 hp), fun h f hf hp => h f hf ((hm f hf).1 hp)⟩
  · obtain ⟨_, a, b, rfl, h2⟩ := List.find?_eq_some_iff_append.1 h
    refine ⟨a, b, rfl, fun g hg hp => ?_⟩
    have := h2 g hg
    rw [(hm g (by simp [hg])).2 hp] at this
    simp at this

/-- When no registered extension begins another one, the choice does not depend on the order: whatever was registered in whatever order
at whatever addresses, it is the format whose extension begins the one asked for.

Missing: registers in which one extension begins another (the negations of C61). -/
theorem C61_unique_partial (rs : List Reg) (hu : ∀ x ∈ rs, ∀ y ∈ rs, x.addr = y.addr → x = y) (hp : ∀ x ∈ rs, ∀ y ∈ rs, x.word <+: y.word → x = y)
    (h0 : ∀ f ∈ rs, (0 : UInt8) ∉ f.word) (e junk : Text) (he : (0 : UInt8) ∉ e) (f : Reg) :
    Format.create (Registers.install rs) e junk = some f ↔ f ∈ rs ∧ f.word <+: e := by
  have hmem : ∀ r, r ∈ Registers.install rs ↔ r ∈ rs := fun r =>
    ⟨fun h => by simpa using Registers.mem_install r rs [] h, fun h => Registers.install_mem r rs [] (by simpa using hu) (.inl h)⟩
  have hm : ∀ f ∈ rs, Format.matches' f.word e junk = true ↔ f.word <+: e := fun f hf => Format.matches_iff f.word e junk (h0 f hf) he
  have huniq : ∀ x ∈ Registers.install rs, ∀ y ∈ Registers.install rs, Format.matches' x.word e junk = true → Format.matches' y.word e junk = true → x = y := by
    intro x hx y hy h1 h2
    have hx := (hmem x).1 hx
    have hy := (hmem y).1 hy
    have h1 := (hm x hx).1 h1
    have h2 := (hm y hy).1 h2
    rcases List.prefix_or_prefix_of_prefix h1 h2 with h | h
    · exact hp x hx y hy h
    · exact (hp y hy x hx h).symm
  rw [Format.create, find_some_iff huniq, hmem]
  exact and_congr_right fun hf => hm f hf

/-- The installed formats: `flv` for extensions that begin with `flv`, RTMP for `-`, TS for `ts`, nothing otherwise, whatever the addresses. -/
theorem C61_installed (a b c : Nat) (hab : a ≠ b) (hac : a ≠ c) (hbc : b ≠ c) (e junk : Text) (he : (0 : UInt8) ∉ e) (f : Reg) :
    Format.create (Registers.install (Format.inputs a b c)) e junk = some f ↔ f ∈ Format.inputs a b c ∧ f.word <+: e := by
  refine C61_unique_partial _ ?_ ?_ ?_ e junk he f
  · intro x hx y hy h
    simp only [Format.inputs, List.mem_cons, List.not_mem_nil, or_false] at hx hy
    rcases hx with rfl | rfl | rfl <;> rcases hy with rfl | rfl | rfl <;> first | rfl | exact absurd h (by first | exact hab | exact hac | exact hbc | exact hab.symm | exact hac.symm | exact hbc.symm)
  · intro x hx y hy h
    simp only [Format.inputs, List.mem_cons, List.not_mem_nil, or_false] at hx hy
    rcases hx with rfl | rfl | rfl <;> rcases hy with rfl | rfl | rfl <;> first | rfl | (exfalso; simp only at h; revert h; decide +kernel)
  · intro x hx
    simp only [Format.inputs, List.mem_cons, List.not_mem_nil, or_false] at hx
    rcases hx with rfl | rfl | rfl <;> simp only <;> decide +kernel

/-- The protocol chosen is the registered one with exactly the schema; none is chosen exactly if there is none. -/
theorem C61_protocol (rs : List Reg) (hu : ∀ x ∈ rs, ∀ y ∈ rs, x.addr = y.addr → x = y) (hd : ∀ x ∈ rs, ∀ y ∈ rs, x.word = y.word → x = y)
    (schema : Text) (p : Reg) : Protocol.create (Registers.install rs) schema = some p ↔ p ∈ rs ∧ p.word = schema := by
  have hmem : ∀ r, r ∈ Registers.install rs ↔ r ∈ rs := fun r =>
    ⟨fun h => by simpa using Registers.mem_install r rs [] h, fun h => Registers.install_mem r rs [] (by simpa using hu) (.inl h)⟩
  have huniq : ∀ x ∈ Registers.install rs, ∀ y ∈ Registers.install rs, decide (schema = x.word) = true → decide (schema = y.word) = true → x = y := by
    intro x hx y hy h1 h2
    rw [decide_eq_true_eq] at h1 h2
    exact hd x ((hmem x).1 hx) y ((hmem y).1 hy) (by rw [← h1, ← h2])
  rw [Protocol.create, find_some_iff huniq, hmem, decide_eq_true_eq]
  exact and_congr_right fun _ => eq_comm

/-- Of two formats that match, the one with the lower address is chosen, though it was registered later. -/
theorem C61_negation_order : Format.create (Registers.run [] [.reg ⟨2000, ascii "ts"⟩, .reg ⟨1000, ascii "ts"⟩]) (ascii "ts") [] = some ⟨1000, ascii "ts"⟩ := by
  decide +kernel

/-- Extensions that only begin with a registered one are taken for it. -/
theorem C61_negation_prefix (junk : Text) : Format.create (Registers.install (Format.inputs 1 2 3)) (ascii "tsv") junk = some ⟨3, ascii "ts"⟩ := by
  rw [C61_installed 1 2 3 (by decide) (by decide) (by decide) _ _ (by decide +kernel)]
  decide +kernel

/-- TS can be read but not written. -/
theorem C61_negation_ts (a b : Nat) : Format.create (Format.outputs a b) (ascii "ts") [] = none := by
  simp only [Format.create, Format.outputs, List.find?_cons]
  have h1 : Format.matches' (ascii "flv") (ascii "ts") [] = false := by decide +kernel
  have h2 : Format.matches' (ascii "-") (ascii "ts") [] = false := by decide +kernel
  rw [h1, h2]
  rfl

example : Format.create (Registers.install (Format.inputs 30 20 10)) (ascii "flv") (ascii "x") = some ⟨30, ascii "flv"⟩ := by decide +kernel
example : Format.create (Registers.install (Format.inputs 30 20 10)) (ascii "") (ascii "flv") = none := by decide +kernel
example : Protocol.create (Registers.install (Protocol.installed 30 20 10)) (ascii "rtmp") = some ⟨10, ascii "rtmp"⟩ := by decide +kernel
example : Protocol.create (Registers.install (Protocol.installed 30 20 10)) (ascii "https") = none := by decide +kernel
example : objects [.reg ⟨1, ascii "a"⟩, .reg ⟨2, ascii "b"⟩, .cancel ⟨1, ascii "a"⟩] ∧ Registered [.reg ⟨1, ascii "a"⟩, .reg ⟨2, ascii "b"⟩, .cancel ⟨1, ascii "a"⟩] ⟨2, ascii "b"⟩ := by
  refine ⟨?_, [.reg ⟨1, ascii "a"⟩], [.cancel ⟨1, ascii "a"⟩], rfl, ?_⟩
  · intro x y hx hy h
    simp only [List.mem_cons, Registers.Op.reg.injEq, Registers.Op.cancel.injEq, List.not_mem_nil, or_false, reduceCtorEq, false_or] at hx hy
    rcases hx with (rfl | rfl) | rfl <;> rcases hy with (rfl | rfl) | rfl <;> first | rfl | (exfalso; revert h; decide)
  · intro x hx
    simp only [List.mem_cons, Registers.Op.cancel.injEq, List.not_mem_nil, or_false] at hx
    subst hx
    decide

end Sps
