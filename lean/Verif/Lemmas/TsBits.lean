import Verif.Lemmas.TsCtx
/-! # Well-formed sections and units -/
namespace Sps.BProg
open Spec
variable {α : Type}

theorem fieldBits_nil : fieldBits [] = [] := rfl
theorem fieldBits_cons (v w : Nat) (fs : List (Nat × Nat)) : fieldBits ((v, w) :: fs) = bitsOfNat w v ++ fieldBits fs := rfl

theorem rd_field (w v off : Nat) (r : List Bool) (hw : w ≤ 32) :
    onBits (rd w) off (bitsOfNat w v ++ r) = some (v % 2 ^ w, off + w, r) := by
  unfold rd; rw [on_field w v hw]; rfl

theorem acq_on (n off : Nat) (s : List Bool) (hn : n < 2 ^ 29) (h : 8 * n ≤ s.length) :
    onBits (acq n) off s = some (Err.SUCCESS, off, s) := by
  unfold acq; rw [on_acq n hn _ _ _ h]; rfl

theorem rdBytes_on (d : List UInt8) (off : Nat) (r : List Bool) (ho : off % 8 = 0) :
    onBits (rdBytes d.length) off (bitsOf d ++ r) = some (d, off + 8 * d.length, r) := by
  unfold rdBytes; rw [on_bytes _ d rfl _ _ ho]; rfl

theorem skp_on (d : List UInt8) (off : Nat) (r : List Bool) :
    onBits (skp d.length) off (bitsOf d ++ r) = some ((), off + 8 * d.length, r) := by
  unfold skp; rw [on_skip _ d rfl]; rfl

theorem bitsOf_nil : bitsOf [] = [] := rfl

end Sps.BProg

namespace Sps.Ts
open Spec BProg

theorem patEntries_length : ∀ es : List (Nat × Nat), (es.flatMap Spec.Ts.patEntryBits).length = 32 * es.length
  | [] => rfl
  | e :: es => by
    rw [List.flatMap_cons, List.length_append, patEntries_length es]
    simp [Spec.Ts.patEntryBits, fieldBits]; omega

theorem patLoop_bits : ∀ (fuel : Nat) (es : List (Nat × Nat)) (off : Nat) (r : List Bool), 4 * es.length ≤ fuel →
    (∀ e ∈ es, e.2 < 2 ^ 13) →
    onBits (patLoop fuel (4 * es.length)) off (es.flatMap Spec.Ts.patEntryBits ++ r) =
      some (es.map (·.2), off + 32 * es.length, r)
  | fuel, [], off, r, _, _ => by cases fuel <;> rfl
  | 0, e :: es, _, _, h, _ => by simp at h
  | fuel + 1, (num, pid) :: es, off, r, h, hp => by
    rw [show 4 * ((num, pid) :: es).length = (4 * es.length + 3) + 1 by simp; omega]
    have hpid : pid < 2 ^ 13 := hp _ (List.mem_cons_self)
    simp only [patLoop, List.flatMap_cons]
    rw [Spec.Ts.patEntryBits]
    simp only [fieldBits_cons, fieldBits_nil, List.append_assoc, List.nil_append]
    simp (discharger := decide) only [on_bind, rd_field, Option.bind_some]
    rw [show 4 * es.length + 3 + 1 - 4 = 4 * es.length by omega,
      patLoop_bits fuel es _ _ (by simp at h; omega) (fun e he => hp e (List.mem_cons_of_mem _ he))]
    simp only [Option.bind_some, on_pure, List.map_cons, Nat.mod_eq_of_lt hpid, List.length_cons, Option.some.injEq, Prod.mk.injEq,
      true_and, and_true]
    omega

theorem pat_bits (b tsid ver crc : Nat) (es : List (Nat × Nat)) (r : List Bool) (hl : 9 + 4 * es.length < 2 ^ 12)
    (hp : ∀ e ∈ es, e.2 < 2 ^ 13) :
    ∃ o, onBits (psi [] 1 patBody) b (Spec.Ts.patBits tsid ver es crc ++ r) = some ((Err.SUCCESS, es.map (·.2)), o, r) := by
  unfold psi Spec.Ts.patBits Spec.Ts.patHead
  rw [on_bind, acq_on _ _ _ (by decide) (by simp [fieldBits]; omega)]
  simp only [Option.bind_some]
  rw [if_neg (by simp)]
  simp only [fieldBits_cons, fieldBits_nil, List.append_assoc, List.nil_append]
  unfold sectionHeader onFlag
  rw [if_pos (by decide)]
  simp (discharger := decide) only [on_bind, rd_field, Option.bind_some, on_pure, Nat.mod_eq_of_lt hl]
  unfold patBody
  by_cases hz : es = []
  · subst hz
    rw [if_neg (by simp)]
    simp (discharger := decide) only [on_pure, Option.bind_some, List.flatMap_nil, List.nil_append, rd_field]
    exact ⟨_, rfl⟩
  · have : 0 < es.length := List.length_pos_iff.2 hz
    rw [if_pos (by omega), on_bind, acq_on _ _ _ (by omega) (by
      have := patEntries_length es
      simp only [List.length_append, this]
      omega)]
    simp only [Option.bind_some]
    rw [if_neg (by simp), show 9 + 4 * es.length - 9 = 4 * es.length by omega, on_bind, patLoop_bits _ es _ _ (Nat.le_refl _) hp]
    simp (discharger := decide) only [on_pure, Option.bind_some, rd_field]
    exact ⟨_, rfl⟩

theorem descriptors_bits (d : List UInt8) (off : Nat) (r : List Bool) (hd : d.length < 2 ^ 12) (ho : off % 8 = 0) :
    onBits (descriptors d.length) off (bitsOf d ++ r) = some (Err.SUCCESS, off + 8 * d.length, r) := by
  unfold descriptors
  by_cases h : d = []
  · subst h; rfl
  · have : 0 < d.length := List.length_pos_iff.2 h
    rw [if_pos this, on_bind, acq_on _ _ _ (by omega) (by simp)]
    simp only [Option.bind_some]
    rw [if_neg (by simp), on_bind, rdBytes_on _ _ _ ho]
    rfl

theorem pmtLoop_bits : ∀ (fuel : Nat) (es : List Spec.Ts.Entry) (off : Nat) (r : List Bool),
    (es.map Spec.Ts.Entry.size).sum < fuel → off % 8 = 0 → (∀ e ∈ es, e.ok) →
    ∃ o, onBits (pmtLoop fuel (es.map Spec.Ts.Entry.size).sum) off (es.flatMap Spec.Ts.Entry.bits ++ r) =
      some ((Err.SUCCESS, es.map fun e => (e.ty, e.pid)), o, r)
  | 0, es, _, _, h, _, _ => by simp at h
  | fuel + 1, [], off, r, _, _, _ => by exact ⟨off, rfl⟩
  | fuel + 1, e :: es, off, r, h, ho, hok => by
    obtain ⟨h1, h2, h3⟩ := hok e (List.mem_cons_self)
    have hs : (List.map Spec.Ts.Entry.size (e :: es)).sum = 5 + e.desc.length + (es.map Spec.Ts.Entry.size).sum := rfl
    rw [hs] at h ⊢
    simp only [pmtLoop, List.flatMap_cons, Spec.Ts.Entry.bits, fieldBits_cons, fieldBits_nil, List.append_assoc, List.nil_append]
    rw [if_pos (by omega)]
    simp (discharger := decide) only [on_bind, rd_field, Option.bind_some, Nat.mod_eq_of_lt h3]
    rw [descriptors_bits _ _ _ h3 (by omega)]
    simp only [Option.bind_some]
    rw [if_neg (by simp), on_bind]
    rw [show ((5 + e.desc.length + (es.map Spec.Ts.Entry.size).sum : Nat) : Int) - (5 + (e.desc.length : Int)) =
      ((es.map Spec.Ts.Entry.size).sum : Nat) by omega]
    obtain ⟨o, ih⟩ := pmtLoop_bits fuel es (off + 8 + 3 + 13 + 4 + 12 + 8 * e.desc.length) r (by omega) (by omega)
      (fun x hx => hok x (List.mem_cons_of_mem _ hx))
    rw [ih]
    refine ⟨o, ?_⟩
    simp only [Option.bind_some]
    rw [if_neg (by simp), on_pure, Nat.mod_eq_of_lt h1, Nat.mod_eq_of_lt h2]
    rfl

theorem pmt_bits (b num ver pcr crc : Nat) (info : List UInt8) (es : List Spec.Ts.Entry) (r : List Bool) (hb : b % 8 = 0)
    (hi : info.length < 2 ^ 10) (hl : 13 + info.length + (es.map Spec.Ts.Entry.size).sum < 2 ^ 12) (hok : ∀ e ∈ es, e.ok) :
    ∃ o, onBits (psi [] 1 pmtBody) b (Spec.Ts.pmtBits num ver pcr info es crc ++ r) =
      some ((Err.SUCCESS, es.map fun e => (e.ty, e.pid)), o, r) := by
  unfold psi Spec.Ts.pmtBits
  rw [on_bind, acq_on _ _ _ (by decide) (by simp [fieldBits]; omega)]
  simp only [Option.bind_some]
  rw [if_neg (by simp)]
  simp only [fieldBits_cons, fieldBits_nil, List.append_assoc, List.nil_append]
  unfold sectionHeader onFlag
  rw [if_pos (by decide)]
  simp (discharger := decide) only [on_bind, rd_field, Option.bind_some, on_pure, Nat.mod_eq_of_lt hl]
  unfold pmtBody
  rw [on_bind, acq_on _ _ _ (by decide) (by simp; omega)]
  simp only [Option.bind_some]
  rw [if_neg (by simp)]
  simp (discharger := decide) only [on_bind, rd_field, Option.bind_some, on_pure, Nat.mod_eq_of_lt hi]
  rw [descriptors_bits _ _ _ (by omega) (by omega)]
  simp only [Option.bind_some]
  rw [if_neg (by simp)]
  rw [show ((13 + info.length + (es.map Spec.Ts.Entry.size).sum : Nat) : Int) - 5 - 4 - (info.length : Int) - 4 =
    ((es.map Spec.Ts.Entry.size).sum : Nat) by omega]
  obtain ⟨o, ih⟩ := pmtLoop_bits (13 + info.length + (es.map Spec.Ts.Entry.size).sum) es
    (b + 8 + 8 + 1 + 1 + 2 + 12 + 16 + 2 + 5 + 1 + 8 + 8 + 3 + 13 + 4 + 2 + 10 + 8 * info.length) (bitsOfNat 32 crc ++ r)
    (by omega) (by omega) hok
  rw [ih]
  simp (discharger := decide) only [on_pure, Option.bind_some, rd_field]
  exact ⟨_, rfl⟩

end Sps.Ts
