import Verif.Spec.Time
import Verif.Lemmas.SiteFile
/-!
# Lemmas about time limits
-/
namespace Sps.Time
open Spec Spec.Time

theorem waitFor_soon {limit lag L prev now w : Nat} (hl : lag ≤ L) (hp : prev ≤ now) (h : Soon limit L prev w) :
    ∃ now', waitFor limit now lag w = some now' ∧ now ≤ now' ∧ w ≤ now' := by
  unfold waitFor
  split
  · exact ⟨now, rfl, Nat.le_refl _, by assumption⟩
  · rename_i hw
    rw [if_pos (h.2.imp id fun h => by omega)]
    exact ⟨_, rfl, by omega, by omega⟩

/-- The invariant of a transport whose pieces come in time. -/
def Inv (limit L now : Nat) (t : Timed) : Prop := ∃ prev, prev ≤ now ∧ InTime limit L prev t.pieces t.closes

theorem Inv.mono {limit L now now' : Nat} {t : Timed} (h : Inv limit L now t) (hn : now ≤ now') : Inv limit L now' t := by
  obtain ⟨p, h1, h2⟩ := h
  exact ⟨p, by omega, h2⟩

theorem read_inTime (late : Err) {limit L now lag : Nat} (size : Nat) {t : Timed} (hl : lag ≤ L) (h : Inv limit L now t) :
    ∃ now' t', t.read late limit now lag size = some ((Io.read (plain late t) size).1, now', t') ∧ plain late t' = (Io.read (plain late t) size).2 ∧
      now ≤ now' ∧ Inv limit L now' t' := by
  obtain ⟨prev, hp, hi⟩ := h
  obtain ⟨ps, c⟩ := t
  simp only at hi
  unfold Timed.read Io.read
  by_cases hs : size = 0
  · simp only [if_pos hs]
    exact ⟨now, _, rfl, rfl, Nat.le_refl _, prev, hp, hi⟩
  · simp only [if_neg hs]
    cases ps with
    | nil =>
      cases c with
      | none =>
        simp only [InTime] at hi
        simp only [if_neg hi]
        exact ⟨_, _, rfl, rfl, by omega, prev, by omega, hi⟩
      | some x =>
        obtain ⟨w, e⟩ := x
        simp only [InTime] at hi
        obtain ⟨now', h1, h2, h3⟩ := waitFor_soon hl hp hi
        simp only [h1]
        exact ⟨now', _, rfl, rfl, h2, prev, by omega, hi⟩
    | cons x ps =>
      obtain ⟨w, p⟩ := x
      simp only [InTime] at hi
      obtain ⟨now', h1, h2, h3⟩ := waitFor_soon hl hp hi.1
      simp only [h1, plain, List.map_cons]
      by_cases hle : p.length ≤ size
      · simp only [if_pos hle]
        exact ⟨now', _, rfl, rfl, h2, w, h3, hi.2⟩
      · simp only [if_neg hle]
        exact ⟨now', _, rfl, rfl, h2, prev, by omega, hi⟩

theorem prog_inTime {L : Nat} {α : Type} (late : Err) (limit : Nat) (p : Prog L α) : ∀ (now : Nat) (t : Timed), Inv limit L now t →
    ∃ now', p.timed late limit now t = some (p.plain (plain late t), now') ∧ now ≤ now' := by
  induction p with
  | done a => exact fun now t _ => ⟨now, rfl, Nat.le_refl _⟩
  | ask busy lag size ok k ih =>
    intro now t h
    obtain ⟨now', t', h1, h2, h3, h4⟩ := read_inTime late size ok (h.mono (Nat.le_add_right now busy))
    obtain ⟨now'', h5, h6⟩ := ih _ now' t' h4
    refine ⟨now'', ?_, by omega⟩
    unfold Prog.timed Prog.plain
    rw [h1]
    show (k _).timed late limit now' t' = _
    rw [h5, h2]

/-- Reads with a limit. -/
theorem read_limit (late : Err) {limit now lag size : Nat} (t : Timed) (hs : 0 < size) (hl : limit ≠ noLimit) :
    ∃ r w t', t.read late limit now lag size = some (r, w, t') ∧ now ≤ w ∧ w ≤ now + limit ∧
      (Silent t now limit lag → r = .err late ∧ w = now + limit ∧ t' = t) ∧
      (¬Silent t now limit lag → r = (Io.read (plain late t) size).1 ∧ plain late t' = (Io.read (plain late t) size).2) := by
  have hw : ∀ w, (∃ now', waitFor limit now lag w = some now' ∧ now ≤ now' ∧ now' ≤ now + limit ∧ ¬(now < w ∧ now + limit ≤ w + lag)) ∨
      (waitFor limit now lag w = none ∧ now < w ∧ now + limit ≤ w + lag) := by
    intro w
    unfold waitFor
    split
    · exact .inl ⟨now, rfl, by omega, by omega, by omega⟩
    · split
      · rename_i h
        rcases h with h | h
        · exact absurd h hl
        · exact .inl ⟨_, rfl, by omega, by omega, by omega⟩
      · exact .inr ⟨rfl, by omega, by omega⟩
  have hs' : size ≠ 0 := by omega
  obtain ⟨ps, c⟩ := t
  unfold Timed.read Io.read Silent next
  simp only [if_neg hs']
  cases ps with
  | nil =>
    cases c with
    | none =>
      simp only [if_neg hl]
      exact ⟨_, _, _, rfl, by omega, by omega, fun _ => ⟨rfl, rfl, rfl⟩, fun h => absurd (by simp) h⟩
    | some x =>
      obtain ⟨w, e⟩ := x
      rcases hw w with ⟨now', h1, h2, h3, h4⟩ | ⟨h1, h2⟩
      · simp only [h1]
        exact ⟨_, _, _, rfl, h2, h3, fun h => absurd (h w rfl) h4, fun _ => ⟨rfl, rfl⟩⟩
      · simp only [h1]
        exact ⟨_, _, _, rfl, by omega, by omega, fun _ => ⟨rfl, rfl, rfl⟩, fun h => absurd (by simpa using h2) h⟩
  | cons x ps =>
    obtain ⟨w, p⟩ := x
    rcases hw w with ⟨now', h1, h2, h3, h4⟩ | ⟨h1, h2⟩
    · simp only [h1, plain, List.map_cons]
      by_cases hle : p.length ≤ size
      · simp only [if_pos hle]
        exact ⟨_, _, _, rfl, h2, h3, fun h => absurd (h w rfl) h4, fun _ => ⟨rfl, rfl⟩⟩
      · simp only [if_neg hle]
        exact ⟨_, _, _, rfl, h2, h3, fun h => absurd (h w rfl) h4, fun _ => ⟨rfl, rfl⟩⟩
    · simp only [h1]
      exact ⟨_, _, _, rfl, by omega, by omega, fun _ => ⟨rfl, rfl, rfl⟩, fun h => absurd (by simpa using h2) h⟩

/-! ## Writing -/

/-- Room of which the first part is there already. -/
def Left (limit now : Nat) (room : List (Nat × Nat)) : Prop := ∃ w k r, room = (w, k) :: r ∧ w ≤ now ∧ Drains limit w r

theorem send_drains (limit : Nat) (breaks : Option Nat) (room : List (Nat × Nat)) : ∀ (prev now n : Nat), prev ≤ now → Drains limit prev room → 0 < n → n ≤ total room →
    ∃ now' room', Drain.send limit breaks now n room = some (Err.SUCCESS, n, now', room') ∧ now ≤ now' ∧ total room' + n = total room ∧ Left limit now' room' := by
  induction room with
  | nil => intro prev now n _ _ h0 h1; simp [total] at h1; omega
  | cons x r ih =>
    obtain ⟨w, k⟩ := x
    intro prev now n hp hd h0 h1
    simp only [Drains] at hd
    obtain ⟨hw, hk, hd⟩ := hd
    obtain ⟨now', h2, h3, h4⟩ := waitFor_soon (Nat.le_refl 0) hp hw
    have ht : total ((w, k) :: r) = k + total r := by simp [total]
    unfold Drain.send
    simp only [if_neg (by omega : ¬k = 0), h2]
    by_cases hn : n ≤ k
    · simp only [if_pos hn]
      refine ⟨now', _, rfl, h3, ?_, w, k - n, r, rfl, h4, hd⟩
      simp only [total, List.map_cons, List.sum_cons]
      omega
    · simp only [if_neg hn]
      obtain ⟨now'', room', h5, h6, h7, h8⟩ := ih w now' (n - k) h4 hd (by omega) (by omega)
      rw [h5]
      refine ⟨now'', room', ?_, by omega, by omega, h8⟩
      simp only [Option.map_some, Option.some.injEq, Prod.mk.injEq, true_and]
      exact ⟨by omega, trivial⟩

theorem send_left {limit : Nat} (breaks : Option Nat) {room : List (Nat × Nat)} {now n : Nat} (h : Left limit now room) (h0 : 0 < n) (h1 : n ≤ total room) :
    ∃ now' room', Drain.send limit breaks now n room = some (Err.SUCCESS, n, now', room') ∧ now ≤ now' ∧ total room' + n = total room ∧ Left limit now' room' := by
  obtain ⟨w, k, r, rfl, hw, hd⟩ := h
  have ht : total ((w, k) :: r) = k + total r := by simp [total]
  unfold Drain.send
  by_cases hk : k = 0
  · simp only [if_pos hk]
    obtain ⟨now'', room', h5, h6, h7, h8⟩ := send_drains limit breaks r w now n hw hd h0 (by omega)
    exact ⟨now'', room', h5, h6, by omega, h8⟩
  · have h2 : waitFor limit now 0 w = some now := by simp [waitFor, hw]
    simp only [if_neg hk, h2]
    by_cases hn : n ≤ k
    · simp only [if_pos hn]
      refine ⟨now, _, rfl, Nat.le_refl _, ?_, w, k - n, r, rfl, hw, hd⟩
      simp only [total, List.map_cons, List.sum_cons]
      omega
    · simp only [if_neg hn]
      obtain ⟨now'', room', h5, h6, h7, h8⟩ := send_drains limit breaks r w now (n - k) hw hd (by omega) (by omega)
      rw [h5]
      refine ⟨now'', room', ?_, by omega, by omega, h8⟩
      simp only [Option.map_some, Option.some.injEq, Prod.mk.injEq, true_and]
      exact ⟨by omega, trivial⟩

theorem writes_ok (limit : Nat) (ws : List (Nat × Nat)) : ∀ (now : Nat) (d : Drain), (Left limit now d.room ∨ ∃ prev, prev ≤ now ∧ Drains limit prev d.room) → (∀ x ∈ ws, 0 < x.2) →
    (ws.map (·.2)).sum ≤ total d.room → writes limit ws now d = some (ws.map fun _ => Err.SUCCESS) := by
  induction ws with
  | nil => intro _ _ _ _ _; rfl
  | cons x ws ih =>
    obtain ⟨busy, n⟩ := x
    intro now d h h0 ht
    have hn : 0 < n := h0 (busy, n) (by simp)
    have ht : n + (ws.map (·.2)).sum ≤ total d.room := by simpa using ht
    obtain ⟨now', room', h1, h2, h3, h4⟩ : ∃ now' room', Drain.send limit d.breaks (now + busy) n d.room = some (Err.SUCCESS, n, now', room') ∧ now + busy ≤ now' ∧
        total room' + n = total d.room ∧ Left limit now' room' := by
      rcases h with ⟨w, k, r, h5, h6, h7⟩ | ⟨prev, h5, h6⟩
      · exact send_left d.breaks ⟨w, k, r, h5, by omega, h7⟩ hn (by omega)
      · exact send_drains limit d.breaks d.room prev _ n (by omega) h6 hn (by omega)
    unfold writes Drain.write
    simp only [if_neg (by omega : ¬n = 0), h1, Option.map_some, Option.bind_some]
    rw [ih now' { d with room := room' } (.inl h4) (fun x hx => h0 x (List.mem_cons_of_mem _ hx)) (by simp only; omega)]
    rfl

/-- A peer that makes too little room: the write returns. -/
theorem send_stalled {limit : Nat} (hl : limit ≠ noLimit) (room : List (Nat × Nat)) : ∀ (now n X : Nat), (∀ x ∈ room, x.1 ≤ X) → total room < n →
    ∃ s w r, Drain.send limit none now n room = some (Err.ERROR_SOCKET_TIMEOUT, s, w, r) ∧ s ≤ total room ∧ w ≤ max now X + limit := by
  induction room with
  | nil =>
    intro now n X _ _
    unfold Drain.send
    simp only [if_neg hl]
    exact ⟨_, _, _, rfl, by omega, by omega⟩
  | cons x r ih =>
    obtain ⟨w, k⟩ := x
    intro now n X hX ht
    have hw : w ≤ X := hX (w, k) (by simp)
    have ht' : total ((w, k) :: r) = k + total r := by simp [total]
    unfold Drain.send
    by_cases hk : k = 0
    · simp only [if_pos hk]
      obtain ⟨s, w', r', h1, h2, h3⟩ := ih now n X (fun x hx => hX x (List.mem_cons_of_mem _ hx)) (by omega)
      exact ⟨s, w', r', h1, by omega, h3⟩
    · simp only [if_neg hk]
      cases h : waitFor limit now 0 w with
      | none => exact ⟨_, _, _, rfl, by omega, by omega⟩
      | some now' =>
        have hn' : now' ≤ max now X := by
          unfold waitFor at h
          split at h
          · cases h; omega
          · split at h
            · cases h; omega
            · cases h
        simp only [if_neg (by omega : ¬n ≤ k)]
        obtain ⟨s, w', r', h1, h2, h3⟩ := ih now' (n - k) X (fun x hx => hX x (List.mem_cons_of_mem _ hx)) (by omega)
        rw [h1]
        exact ⟨_, _, _, rfl, by simp only; omega, by omega⟩

/-! ## Players -/

/-- The packets are in the order in which they come. -/
def Sorted (c : Coming) : Prop := c.puts.Pairwise fun x y => x.1 ≤ y.1

theorem dropWhile_gt {ps : List (Nat × AVPkt)} (h : ps.Pairwise fun x y => x.1 ≤ y.1) (n : Nat) : ∀ x ∈ ps.dropWhile (fun x => decide (x.1 ≤ n)), n < x.1 := by
  induction ps with
  | nil => simp
  | cons y ps ih =>
    obtain ⟨h1, h2⟩ := List.pairwise_cons.1 h
    intro x hx
    rw [List.dropWhile_cons] at hx
    split at hx
    · exact ih h2 x hx
    · rename_i hy
      simp only [decide_eq_true_eq] at hy
      rcases List.mem_cons.1 hx with rfl | hx
      · omega
      · have := h1 x hx
        omega

theorem takeWhile_le (ps : List (Nat × AVPkt)) (n : Nat) : ∀ x ∈ ps.takeWhile (fun x => decide (x.1 ≤ n)), x.1 ≤ n := by
  induction ps with
  | nil => simp
  | cons y ps ih =>
    intro x hx
    rw [List.takeWhile_cons] at hx
    split at hx
    · rename_i hy
      rcases List.mem_cons.1 hx with rfl | hx
      · simpa using hy
      · exact ih x hx
    · simp at hx

/-- A wait of a player. -/
theorem dump_spec (limit now lag : Nat) (c : Coming) (hs : Sorted c) :
    (∃ ps now' c', c.dump limit now lag = (ps, now', c') ∧ ps ≠ [] ∧ now ≤ now' ∧ ps = c.queue ++ (c.puts.takeWhile fun x => decide (x.1 ≤ now')).map (·.2) ∧
      c' = ⟨[], c.puts.dropWhile fun x => decide (x.1 ≤ now')⟩) ∨
    (∃ c', c.dump limit now lag = ([], now + limit, c') ∧ c.queue = [] ∧ ∀ x ∈ c.puts, now < x.1 ∧ now + limit ≤ x.1) := by
  unfold Coming.dump
  by_cases hq : (c.advance now).queue ≠ []
  · simp only [if_pos hq]
    exact .inl ⟨_, _, _, rfl, hq, Nat.le_refl _, rfl, rfl⟩
  · simp only [if_neg hq]
    have hq : (c.advance now).queue = [] := Decidable.not_not.1 hq
    have h1 : c.queue = [] := (List.append_eq_nil_iff.1 hq).1
    have h2 : c.puts.takeWhile (fun x => decide (x.1 ≤ now)) = [] := List.map_eq_nil_iff.1 (List.append_eq_nil_iff.1 hq).2
    have h3 : c.puts.dropWhile (fun x => decide (x.1 ≤ now)) = c.puts := by
      have := List.takeWhile_append_dropWhile (p := fun x : Nat × AVPkt => decide (x.1 ≤ now)) (l := c.puts)
      rw [h2] at this
      exact this
    have hgt : ∀ x ∈ c.puts, now < x.1 := by
      have := dropWhile_gt hs now
      rwa [h3] at this
    have hc : c.advance now = c := by
      unfold Coming.advance
      rw [h2, h3]
      simp
    rw [hc]
    obtain ⟨q, puts⟩ := c
    simp only at h1 hgt hs
    subst h1
    cases puts with
    | nil => exact .inr ⟨_, rfl, rfl, by simp⟩
    | cons x ps =>
      obtain ⟨w, p⟩ := x
      have hw := hgt (w, p) (by simp)
      simp only at hw ⊢
      by_cases hlt : w < now + limit
      · simp only [if_pos hlt]
        refine .inl ⟨_, _, _, rfl, ?_, by omega, rfl, rfl⟩
        simp [Coming.advance]
      · simp only [if_neg hlt]
        refine .inr ⟨_, rfl, trivial, fun x hx => ⟨hgt x hx, ?_⟩⟩
        rcases List.mem_cons.1 hx with rfl | hx
        · simp only; omega
        · have := (List.pairwise_cons.1 hs).1 x hx
          simp only at this
          omega

theorem play_spec (work : List (Nat × Nat)) : ∀ (now : Nat) (c : Coming), Sorted c → ∃ ps e, Coming.play work now c = (ps, e) ∧ ps <+: c.queue ++ c.puts.map (·.2) ∧
    (e = none → work.length ≤ ps.length) ∧
    ∀ t, e = some t → now + playerWait ≤ t ∧ ps = before c t ∧ ∀ x ∈ c.puts, x.1 + playerWait ≤ t ∨ t ≤ x.1 := by
  induction work with
  | nil => exact fun now c _ => ⟨_, _, rfl, List.nil_prefix, fun _ => Nat.le_refl _, fun t h => by cases h⟩
  | cons x work ih =>
    obtain ⟨busy, lag⟩ := x
    intro now c hs
    unfold Coming.play
    rcases dump_spec playerWait now lag c hs with ⟨ps, now', c', h1, h2, h3, h4, h5⟩ | ⟨c', h1, h2, h3⟩
    · rw [h1]
      cases hps : ps with
      | nil => exact absurd hps h2
      | cons p ps' =>
        rw [← hps]
        have hsplit := List.takeWhile_append_dropWhile (p := fun x : Nat × AVPkt => decide (x.1 ≤ now')) (l := c.puts)
        have hs' : Sorted c' := by
          subst h5
          exact hs.sublist (List.dropWhile_sublist _)
        obtain ⟨qs, e, h6, h7, h8, h9⟩ := ih (now' + busy) c' hs'
        have hc' : c'.queue = [] ∧ c'.puts = c.puts.dropWhile fun x => decide (x.1 ≤ now') := by subst h5; exact ⟨rfl, rfl⟩
        refine ⟨ps ++ qs, e, ?_, ?_, ?_, ?_⟩
        · subst hps
          simp only [h6]
        · rw [hc'.1, hc'.2, List.nil_append] at h7
          rw [h4]
          obtain ⟨z, hz⟩ := h7
          refine ⟨z, ?_⟩
          rw [List.append_assoc, List.append_assoc, hz, ← List.map_append, hsplit]
        · intro he
          have := h8 he
          subst hps
          simp only [List.length_cons, List.length_append]
          omega
        · intro t ht
          obtain ⟨a1, a2, a3⟩ := h9 t ht
          have hle := takeWhile_le c.puts now'
          have hpw : 0 < playerWait := by decide
          refine ⟨by omega, ?_, fun x hx => ?_⟩
          · rw [a2, h4]
            unfold before
            rw [hc'.1, hc'.2, List.nil_append, List.append_assoc, ← List.map_append]
            congr 2
            conv => rhs; rw [← hsplit]
            rw [List.filter_append]
            congr 1
            symm
            refine List.filter_eq_self.2 fun x hx => ?_
            have := hle x hx
            simp only [decide_eq_true_eq]
            omega
          · rw [← hsplit] at hx
            rcases List.mem_append.1 hx with hx | hx
            · have := hle x hx
              exact .inl (by omega)
            · rw [← hc'.2] at hx
              exact a3 x hx
    · rw [h1]
      refine ⟨[], _, rfl, List.nil_prefix, (fun h => by cases h), fun t ht => ?_⟩
      cases ht
      refine ⟨Nat.le_refl _, ?_, fun x hx => .inr (h3 x hx).2⟩
      unfold before
      rw [h2, List.filter_eq_nil_iff.2]
      · rfl
      · intro x hx
        have := (h3 x hx).2
        simp only [decide_eq_true_eq]
        omega

/-! ## The configuration -/

theorem limit_eq {n : String} (ho : Conf.Kind.server.opts.find? (fun o => o.name = ascii n) = some ⟨ascii n, .u64, ascii "-1"⟩) {a : Text} {body : List Conf.Tree} {l : Nat}
    (h : Limit n body l) : Limits.option (Spec.Conf.build .server a body) n = l := by
  have hv : Spec.Conf.value .server body (ascii n) = some (.u64 l) := by
    unfold Spec.Conf.value
    rw [ho]
    unfold Limit at h
    cases ha : Spec.Conf.lastArg (ascii n) body with
    | none =>
      rw [ha] at h
      simp only at h
      subst h
      show Conf.Opt.value _ (ascii "-1") = _
      exact Conf.means_value .forever
    | some x =>
      rw [ha] at h
      exact Conf.means_value h
  show (match Spec.Conf.value .server body (ascii n) with | some (.u64 v) => v | _ => 0) = l
  rw [hv]

end Sps.Time
