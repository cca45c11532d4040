import Verif.Spec.Net
/-! # Lemmas: sockets -/
namespace Sps
open Spec Spec.Net

/-! ## Stream ids -/

namespace SrtId

theorem params_word : ∀ (t key cur r : Text), word t → params key cur (t ++ r) = params key (cur ++ t) r
  | [], key, cur, r, _ => by simp
  | b :: t, key, cur, r, h => by
    have hb : b ≠ 44 ∧ b ≠ 61 := ⟨fun hb => h.1 (hb ▸ List.mem_cons_self ..), fun hb => h.2 (hb ▸ List.mem_cons_self ..)⟩
    have ht : word t := ⟨fun m => h.1 (List.mem_cons_of_mem _ m), fun m => h.2 (List.mem_cons_of_mem _ m)⟩
    rw [List.cons_append, params, if_neg hb.1, if_neg hb.2, params_word t key (cur ++ [b]) r ht]
    simp

theorem params_pair (k v r : Text) (hk : word k) (hv : word v) : params [] [] (k ++ 61 :: (v ++ 44 :: r)) = (k, v) :: params [] [] r := by
  rw [params_word k _ _ _ hk, params, if_neg (by decide), if_pos rfl, params_word v _ _ _ hv, params, if_pos rfl]
  simp

theorem params_render : ∀ (ps : List Header) (r : Text), (∀ p ∈ ps, word p.1 ∧ word p.2) →
    params [] [] (renderTrail ps ++ r) = ps ++ params [] [] r
  | [], r, _ => rfl
  | p :: ps, r, h => by
    have hp := h p (List.mem_cons_self ..)
    have : renderTrail (p :: ps) ++ r = p.1 ++ 61 :: (p.2 ++ 44 :: (renderTrail ps ++ r)) := by simp [renderTrail]
    rw [this, params_pair _ _ _ hp.1 hp.2, params_render ps r fun q hq => h q (List.mem_cons_of_mem _ hq)]
    rfl

theorem params_open : ∀ (t key cur : Text), 44 ∉ t → params key cur t = []
  | [], _, _, _ => rfl
  | b :: t, key, cur, h => by
    have hb : b ≠ 44 := fun hb => h (hb ▸ List.mem_cons_self ..)
    have ht : (44 : UInt8) ∉ t := fun m => h (List.mem_cons_of_mem _ m)
    rw [params, if_neg hb]
    split
    · exact params_open t _ _ ht
    · exact params_open t _ _ ht

theorem foldl_none (k : Text) : ∀ (c : List Header) (v : Text), (∀ p ∈ c, p.1 ≠ k) → c.foldl (fun v p => if p.1 = k then p.2 else v) v = v
  | [], _, _ => rfl
  | p :: c, v, h => by
    rw [List.foldl_cons, if_neg (h p (List.mem_cons_self ..))]
    exact foldl_none k c v fun q hq => h q (List.mem_cons_of_mem _ hq)

theorem last_eq {k : Text} {ps : List Header} {v : Text} (h : Last k ps v) : last k ps = v := by
  rcases h with ⟨a, c, rfl, hc⟩ | ⟨h, rfl⟩
  · rw [last, List.foldl_append, List.foldl_cons, if_pos rfl, foldl_none k c v hc]
  · exact foldl_none k ps [] h

theorem prefix_ne (u : Text) : u.take 5 ≠ ascii "srt://" := by
  intro h
  have h := congrArg List.length h
  have h6 : (ascii "srt://").length = 6 := by decide +kernel
  rw [h6, List.length_take] at h
  omega

end SrtId

/-! ## Reading a number of bytes -/

theorem readFully_sound {S : Type} {Ok : S → Prop} {read : S → Nat → ReadRes × S} {pending : S → List UInt8} (hs : Sound Ok read pending) (size : Nat) :
    ∀ (fuel : Nat) (s : S) (got : List UInt8) (e : Err) (d : List UInt8) (s' : S), Ok s → readFully read fuel s size got = some (e, d, s') →
      got.length < size → got ++ pending s = d ++ pending s' ∧ (e = Err.SUCCESS ∧ d.length = size ∨ e ≠ Err.SUCCESS ∧ d.length < size)
  | 0, s, got, e, d, s', _, h, _ => by simp [readFully] at h
  | fuel + 1, s, got, e, d, s', hok, h, hl => by
    rw [readFully] at h
    cases hr : read s (size - got.length) with
    | mk r t =>
    rw [hr] at h
    cases r with
    | err e' =>
      simp only [Option.some.injEq, Prod.mk.injEq] at h
      obtain ⟨rfl, rfl, rfl⟩ := h
      have ⟨h1, h2⟩ := hs.err _ _ _ _ hok (by omega) hr
      exact ⟨by rw [h2], .inr ⟨h1, hl⟩⟩
    | ok x =>
      have ⟨h1, h2, h3⟩ := hs.ok _ _ _ _ hok (by omega) hr
      simp only at h
      split at h
      · rename_i hlt
        have := readFully_sound hs size fuel t _ e d s' h3 h hlt
        rw [h2, ← List.append_assoc]
        exact this
      · rename_i hge
        simp only [Option.some.injEq, Prod.mk.injEq] at h
        obtain ⟨rfl, rfl, rfl⟩ := h
        have : (got ++ x).length = size := by
          rw [List.length_append] at hge ⊢
          omega
        exact ⟨by rw [h2, List.append_assoc], .inl ⟨rfl, this⟩⟩

theorem readFully_returns {S : Type} {Ok : S → Prop} {read : S → Nat → ReadRes × S} {pending : S → List UInt8} (hs : Sound Ok read pending)
    (hp : ∀ s n d s', Ok s → 0 < n → read s n = (.ok d, s') → d ≠ []) (size : Nat) :
    ∀ (fuel : Nat) (s : S) (got : List UInt8), Ok s → got.length < size → size - got.length < fuel → readFully read fuel s size got ≠ none
  | 0, _, _, _, _, h => by omega
  | fuel + 1, s, got, hP, hl, hf => by
    rw [readFully]
    cases hr : read s (size - got.length) with
    | mk r t =>
    cases r with
    | err e => simp
    | ok d =>
      have hd := List.length_pos_iff.2 (hp _ _ _ _ hP (by omega) hr)
      simp only
      split
      · rename_i hlt
        rw [List.length_append] at hlt
        exact readFully_returns hs hp size fuel t _ (hs.ok _ _ _ _ hP (by omega) hr).2.2 (by rw [List.length_append]; omega) (by rw [List.length_append]; omega)
      · simp

theorem io_ok (s : Io) (n : Nat) (d : List UInt8) (s' : Io) (hP : ioOk s = true) (hn : 0 < n) (h : s.read n = (.ok d, s')) :
    d ≠ [] ∧ d.length ≤ n ∧ streamOf s.evs = d ++ streamOf s'.evs ∧ ioOk s' = true := by
  rw [Io.read, if_neg (by omega)] at h
  split at h
  · simp at h
  · simp at h
  · rename_i p evs he
    simp only [ioOk, he, List.all_cons, Bool.and_eq_true, evOk] at hP
    have hp : p ≠ [] := by simpa using hP.1.1
    split at h
    · rename_i hpl
      simp only [Prod.mk.injEq, ReadRes.ok.injEq] at h
      obtain ⟨rfl, rfl⟩ := h
      exact ⟨hp, hpl, by rw [he]; rfl, by simpa [ioOk] using ⟨by simpa using hP.1.2, by simpa using hP.2⟩⟩
    · simp only [Prod.mk.injEq, ReadRes.ok.injEq] at h
      obtain ⟨rfl, rfl⟩ := h
      have hl := List.length_pos_iff.2 hp
      refine ⟨?_, by simp; omega, by rw [he]; simp [streamOf, evBytes, ← List.append_assoc], ?_⟩
      · rw [← List.length_pos_iff]
        simp; omega
      · simp only [ioOk, List.all_cons, Bool.and_eq_true, evOk]
        refine ⟨⟨?_, hP.1.2⟩, hP.2⟩
        simp; omega

theorem io_err (s : Io) (n : Nat) (e : Err) (s' : Io) (hP : ioOk s = true) (hn : 0 < n) (h : s.read n = (.err e, s')) :
    e ≠ Err.SUCCESS ∧ streamOf s.evs = streamOf s'.evs := by
  rw [Io.read, if_neg (by omega)] at h
  simp only [ioOk, Bool.and_eq_true] at hP
  split at h
  · simp only [Prod.mk.injEq, ReadRes.err.injEq] at h
    obtain ⟨rfl, rfl⟩ := h
    exact ⟨by simpa using hP.2, rfl⟩
  · rename_i he
    simp only [Prod.mk.injEq, ReadRes.err.injEq] at h
    obtain ⟨rfl, rfl⟩ := h
    rw [he] at hP ⊢
    simp only [List.all_cons, Bool.and_eq_true, evOk] at hP
    exact ⟨by simpa using hP.1.1, rfl⟩
  · split at h <;> simp at h

theorem io_sound : Sound (fun io => ioOk io = true) Io.read fun io => streamOf io.evs :=
  ⟨fun s n d s' h hn hr => (io_ok s n d s' h hn hr).2, io_err⟩

theorem srt_ok (s : SrtSock) (n : Nat) (d : List UInt8) (s' : SrtSock) (hP : ioOk s.io = true) (hn : 0 < n) (h : s.read n = (.ok d, s')) :
    d ≠ [] ∧ d.length ≤ n ∧ s.buf ++ streamOf s.io.evs = d ++ (s'.buf ++ streamOf s'.io.evs) ∧ ioOk s'.io = true := by
  rw [SrtSock.read] at h
  split at h
  · rename_i hb
    simp only [Prod.mk.injEq, ReadRes.ok.injEq] at h
    obtain ⟨rfl, rfl⟩ := h
    refine ⟨?_, by simp; omega, by simp [← List.append_assoc], hP⟩
    rw [← List.length_pos_iff]
    simp; omega
  · rename_i hb
    have hb : s.buf = [] := List.eq_nil_of_length_eq_zero (by omega)
    split at h
    · cases hr : s.io.read SrtSock.PLSIZE with
      | mk r io =>
      rw [hr] at h
      cases r with
      | err e => simp at h
      | ok x =>
        simp only [Prod.mk.injEq, ReadRes.ok.injEq] at h
        obtain ⟨rfl, rfl⟩ := h
        have ⟨h1, h2, h3, h4⟩ := io_ok _ _ _ _ hP (by decide) hr
        have := List.length_pos_iff.2 h1
        refine ⟨?_, by simp; omega, ?_, h4⟩
        · rw [← List.length_pos_iff]
          simp; omega
        · rw [hb, List.nil_append, h3, ← List.append_assoc, List.take_append_drop]
    · cases hr : s.io.read n with
      | mk r io =>
      rw [hr] at h
      cases r with
      | err e => simp at h
      | ok x =>
        simp only [Prod.mk.injEq, ReadRes.ok.injEq] at h
        obtain ⟨rfl, rfl⟩ := h
        have ⟨h1, h2, h3, h4⟩ := io_ok _ _ _ _ hP hn hr
        exact ⟨h1, h2, by simp [hb, h3], h4⟩

theorem srt_err (s : SrtSock) (n : Nat) (e : Err) (s' : SrtSock) (hP : ioOk s.io = true) (hn : 0 < n) (h : s.read n = (.err e, s')) :
    e ≠ Err.SUCCESS ∧ s.buf ++ streamOf s.io.evs = s'.buf ++ streamOf s'.io.evs := by
  rw [SrtSock.read] at h
  split at h
  · simp at h
  · split at h
    · cases hr : s.io.read SrtSock.PLSIZE with
      | mk r io =>
      rw [hr] at h
      cases r with
      | ok x => simp at h
      | err e' =>
        simp only [Prod.mk.injEq, ReadRes.err.injEq] at h
        obtain ⟨rfl, rfl⟩ := h
        have := io_err _ _ _ _ hP (by decide) hr
        exact ⟨this.1, by simp only; rw [this.2]⟩
    · cases hr : s.io.read n with
      | mk r io =>
      rw [hr] at h
      cases r with
      | ok x => simp at h
      | err e' =>
        simp only [Prod.mk.injEq, ReadRes.err.injEq] at h
        obtain ⟨rfl, rfl⟩ := h
        have := io_err _ _ _ _ hP hn hr
        exact ⟨this.1, by simp only; rw [this.2]⟩

theorem srt_sound : Sound (fun s => ioOk s.io = true) SrtSock.read fun s => s.buf ++ streamOf s.io.evs :=
  ⟨fun s n d s' h hn hr => (srt_ok s n d s' h hn hr).2, srt_err⟩

theorem queue_sound : Sound (fun _ => True) Udp.take List.flatten where
  ok := by
    intro q n d q' _ _ h
    cases q with
    | nil => simp [Udp.take] at h
    | cons b q =>
      rw [Udp.take] at h
      split at h
      · simp at h
      · simp only [Prod.mk.injEq, ReadRes.ok.injEq] at h
        obtain ⟨rfl, rfl⟩ := h
        exact ⟨by omega, rfl, trivial⟩
  err := by
    intro q n e q' _ _ h
    cases q with
    | nil =>
      simp only [Udp.take, Prod.mk.injEq, ReadRes.err.injEq] at h
      rw [← h.2, ← h.1]
      exact ⟨by decide, rfl⟩
    | cons b q =>
      rw [Udp.take] at h
      split at h
      · simp only [Prod.mk.injEq, ReadRes.err.injEq] at h
        rw [← h.2, ← h.1]
        exact ⟨by decide, rfl⟩
      · simp at h

/-! ## SRT messages -/

theorem write_spec : ∀ (evs : List SrtSock.Send) (buf : List UInt8) (e : Err) (ms : List (List UInt8)) (r : List SrtSock.Send),
    SrtSock.write evs buf = some (e, ms, r) →
      ∃ rest, buf = ms.flatten ++ rest ∧ (e = Err.SUCCESS → rest = []) ∧ ∀ m ∈ ms, m.length ≤ SrtSock.PLSIZE
  | [], buf, e, ms, r, h => by
    rw [SrtSock.write] at h
    split at h
    · rename_i hb
      simp only [Option.some.injEq, Prod.mk.injEq] at h
      obtain ⟨rfl, rfl, rfl⟩ := h
      exact ⟨[], by simpa using hb, fun _ => rfl, by simp⟩
    · simp at h
  | ev :: evs, buf, e, ms, r, h => by
    rw [SrtSock.write] at h
    split at h
    · rename_i hb
      simp only [Option.some.injEq, Prod.mk.injEq] at h
      obtain ⟨rfl, rfl, rfl⟩ := h
      exact ⟨[], by simpa using hb, fun _ => rfl, by simp⟩
    · cases ev with
      | fail =>
        simp only [Option.some.injEq, Prod.mk.injEq] at h
        obtain ⟨rfl, rfl, rfl⟩ := h
        exact ⟨buf, rfl, fun h => absurd h (by decide), by simp⟩
      | again x =>
        simp only at h
        split at h
        · rename_i hx
          simp only [Option.some.injEq, Prod.mk.injEq] at h
          obtain ⟨rfl, rfl, rfl⟩ := h
          exact ⟨buf, rfl, fun h => absurd h hx, by simp⟩
        · exact write_spec evs buf e ms r h
      | sent n =>
        simp only at h
        cases hw : SrtSock.write evs (buf.drop (min n (buf.take SrtSock.PLSIZE).length)) with
        | none => rw [hw] at h; simp at h
        | some x =>
          obtain ⟨e', ms', r'⟩ := x
          rw [hw] at h
          simp only [Option.some.injEq, Prod.mk.injEq] at h
          obtain ⟨rfl, rfl, rfl⟩ := h
          obtain ⟨rest, h1, h2, h3⟩ := write_spec evs _ _ _ _ hw
          refine ⟨rest, ?_, h2, ?_⟩
          · rw [List.flatten_cons, List.append_assoc, ← h1, List.take_take, List.length_take]
            have : buf.take (min n SrtSock.PLSIZE) = buf.take (min n (min SrtSock.PLSIZE buf.length)) := by
              rw [← Nat.min_assoc]
              exact List.take_eq_take_min
            rw [this, List.take_append_drop]
          · intro m hm
            rcases List.mem_cons.1 hm with rfl | hm
            · simp; omega
            · exact h3 m hm

theorem write_whole : ∀ (evs : List SrtSock.Send) (buf : List UInt8) (e : Err) (ms : List (List UInt8)) (r : List SrtSock.Send),
    SrtSock.write evs buf = some (e, ms, r) → (∀ n, .sent n ∈ evs → SrtSock.PLSIZE ≤ n) → e = Err.SUCCESS →
      (∀ m ∈ ms, m ≠ []) ∧ ∀ m ∈ ms.dropLast, m.length = SrtSock.PLSIZE
  | [], buf, e, ms, r, h, _, _ => by
    rw [SrtSock.write] at h
    split at h
    · simp only [Option.some.injEq, Prod.mk.injEq] at h
      obtain ⟨rfl, rfl, rfl⟩ := h
      simp
    · simp at h
  | ev :: evs, buf, e, ms, r, h, hn, he => by
    have hn' : ∀ n, .sent n ∈ evs → SrtSock.PLSIZE ≤ n := fun n m => hn n (List.mem_cons_of_mem _ m)
    rw [SrtSock.write] at h
    split at h
    · simp only [Option.some.injEq, Prod.mk.injEq] at h
      obtain ⟨rfl, rfl, rfl⟩ := h
      simp
    · rename_i hb
      cases ev with
      | fail =>
        simp only [Option.some.injEq, Prod.mk.injEq] at h
        obtain ⟨rfl, rfl, rfl⟩ := h
        simp
      | again x =>
        simp only at h
        split at h
        · simp only [Option.some.injEq, Prod.mk.injEq] at h
          obtain ⟨rfl, rfl, rfl⟩ := h
          simp
        · exact write_whole evs buf e ms r h hn' he
      | sent n =>
        have hp := hn n (List.mem_cons_self ..)
        simp only at h
        cases hw : SrtSock.write evs (buf.drop (min n (buf.take SrtSock.PLSIZE).length)) with
        | none => rw [hw] at h; simp at h
        | some x =>
          obtain ⟨e', ms', r'⟩ := x
          rw [hw] at h
          simp only [Option.some.injEq, Prod.mk.injEq] at h
          obtain ⟨rfl, rfl, rfl⟩ := h
          have ⟨h1, h2⟩ := write_whole evs _ _ _ _ hw hn' he
          obtain ⟨rest, hr, hrest, _⟩ := write_spec evs _ _ _ _ hw
          have hb : 0 < buf.length := by
            cases buf with
            | nil => simp at hb
            | cons a b => simp
          constructor
          · intro m hm
            rcases List.mem_cons.1 hm with rfl | hm
            · intro h0
              have h0 := congrArg List.length h0
              simp [SrtSock.PLSIZE] at h0
              simp [SrtSock.PLSIZE] at hp
              rcases h0 with h0 | h0
              · omega
              · simp [h0] at hb
            · exact h1 m hm
          · intro m hm
            cases hms : ms' with
            | nil => rw [hms] at hm; simp at hm
            | cons a b =>
              rw [hms, List.dropLast_cons_of_ne_nil (by simp)] at hm
              rcases List.mem_cons.1 hm with rfl | hm
              · have ha : a ≠ [] := h1 a (by rw [hms]; exact List.mem_cons_self ..)
                have : 0 < (buf.drop (min n (buf.take SrtSock.PLSIZE).length)).length := by
                  rw [hr, hms, List.flatten_cons]
                  have := List.length_pos_iff.2 ha
                  simp; omega
                simp at this ⊢
                omega
              · exact h2 m (by rw [hms]; exact hm)

/-! ## SRT events -/

namespace Dispatch

theorem waits_iff (d : Dispatch) (fd : Nat) (w : Waiter) : Waits d fd w ↔ w ∈ (d.conds.find fd).getD [] := by
  unfold Waits
  cases d.conds.find fd <;> simp

theorem waits_wait (d : Dispatch) (fd ev fd' : Nat) (w : Waiter) :
    Waits (d.wait fd ev true) fd' w ↔ Waits d fd' w ∨ (fd' = fd ∧ w = ⟨d.count, ev⟩) := by
  simp only [waits_iff, wait, Bool.not_true, Bool.false_eq_true, if_false, Assoc.find_insert]
  by_cases h : fd' = fd
  · subst h; simp
  · simp [h]

theorem watch_wait (d : Dispatch) (fd ev fd' : Nat) :
    (d.wait fd ev true).watch.find fd' = if fd' = fd then some (match d.conds.find fd with
      | none => ev ||| ERR
      | some _ => d.exits fd ||| ev ||| ERR ||| ET) else d.watch.find fd' := by
  simp only [wait, Bool.not_true, Bool.false_eq_true, if_false, Assoc.find_insert]
  rfl

/-- The conditions after a waiter is removed. -/
def drop (d : Dispatch) (fd : Nat) (w : Waiter) : Dispatch := match d.conds.find fd with
  | some ws => { d with conds := d.conds.insert fd (ws.filter (· ≠ w)) }
  | none => d

theorem leave_eq (d : Dispatch) (fd : Nat) (w : Waiter) : d.leave fd w =
    if (d.drop fd w).exits fd = 0 then { d.drop fd w with watch := (d.drop fd w).watch.erase fd }
    else { d.drop fd w with watch := (d.drop fd w).watch.insert fd ((d.drop fd w).exits fd ||| ET) } := rfl

theorem conds_leave (d : Dispatch) (fd : Nat) (w : Waiter) : (d.leave fd w).conds = (d.drop fd w).conds := by
  rw [leave_eq]; split <;> rfl

theorem drop_same (d : Dispatch) (fd : Nat) (w : Waiter) : (d.drop fd w).woken = d.woken ∧ (d.drop fd w).count = d.count ∧ (d.drop fd w).watch = d.watch := by
  rw [drop]; split <;> simp

theorem woken_leave (d : Dispatch) (fd : Nat) (w : Waiter) : (d.leave fd w).woken = d.woken := by
  rw [leave_eq]; split <;> exact (drop_same d fd w).1

theorem count_leave (d : Dispatch) (fd : Nat) (w : Waiter) : (d.leave fd w).count = d.count := by
  rw [leave_eq]; split <;> exact (drop_same d fd w).2.1

theorem waits_drop (d : Dispatch) (fd : Nat) (w : Waiter) (fd' : Nat) (w' : Waiter) :
    Waits (d.drop fd w) fd' w' ↔ Waits d fd' w' ∧ ¬(fd' = fd ∧ w' = w) := by
  rw [drop]
  split
  · rename_i ws hws
    simp only [waits_iff, Assoc.find_insert]
    by_cases h : fd' = fd
    · subst h; simp [hws]
    · simp [h]
  · rename_i hn
    by_cases h : fd' = fd
    · subst h
      simp [waits_iff, hn]
    · simp [h]

theorem waits_congr {d d' : Dispatch} (h : d.conds = d'.conds) (fd : Nat) (w : Waiter) : Waits d fd w ↔ Waits d' fd w := by
  unfold Waits; rw [h]

theorem waits_leave (d : Dispatch) (fd : Nat) (w : Waiter) (fd' : Nat) (w' : Waiter) :
    Waits (d.leave fd w) fd' w' ↔ Waits d fd' w' ∧ ¬(fd' = fd ∧ w' = w) := by
  rw [waits_congr (conds_leave d fd w), waits_drop]

theorem waits_event (d : Dispatch) (fd es : Nat) (err : Err) (fd' : Nat) (w : Waiter) :
    Waits (d.event fd es err) fd' w ↔ Waits d fd' w ∧ ¬(fd' = fd ∧ (es &&& ERR ≠ 0 ∨ es &&& w.event ≠ 0)) := by
  rw [event]
  split
  · rename_i hn
    by_cases h : fd' = fd
    · subst h; simp [waits_iff, hn]
    · simp [h]
  · rename_i ws hws
    simp only [waits_iff]
    split
    · rename_i he
      rw [Assoc.find_erase]
      by_cases h : fd' = fd
      · subst h
        simp only [if_true, hws, Option.getD_none, Option.getD_some, true_and, List.not_mem_nil, false_iff]
        intro ⟨hm, hn⟩
        have : w ∈ ws.filter fun w => !decide (es &&& ERR ≠ 0 ∨ es &&& w.event ≠ 0) := List.mem_filter.2 ⟨hm, by simpa using hn⟩
        rw [List.isEmpty_iff.1 he] at this
        simp at this
      · simp [h]
    · rw [Assoc.find_insert]
      by_cases h : fd' = fd
      · subst h
        simp only [if_true, hws, Option.getD_some, true_and, List.mem_filter, Bool.not_eq_true', decide_eq_false_iff_not]
      · simp [h]

theorem woken_event (d : Dispatch) (fd es : Nat) (err : Err) (x : Waiter × Nat × Err) :
    x ∈ (d.event fd es err).woken ↔ x ∈ d.woken ∨ (∃ w, Waits d fd w ∧ (es &&& ERR ≠ 0 ∨ es &&& w.event ≠ 0) ∧
      x = (w, fd, if es &&& ERR ≠ 0 then err else 0)) := by
  rw [event]
  split
  · rename_i hn
    simp [waits_iff, hn]
  · rename_i ws hws
    simp only [waits_iff, hws, Option.getD_some, List.mem_append, List.mem_map, List.mem_filter, decide_eq_true_eq]
    constructor
    · rintro (h | ⟨w, ⟨h1, h2⟩, h3⟩)
      · exact .inl h
      · exact .inr ⟨w, h1, h2, h3.symm⟩
    · rintro (h | ⟨w, h1, h2, h3⟩)
      · exact .inl h
      · exact .inr ⟨w, ⟨h1, h2⟩, h3.symm⟩

theorem rest_event (d : Dispatch) (fd es : Nat) (err : Err) : (d.event fd es err).watch = d.watch ∧ (d.event fd es err).count = d.count := by
  rw [event]; split <;> simp

/-- Waiters are told apart by their numbers. -/
structure Ids (d : Dispatch) : Prop where
  waits : ∀ fd w, Waits d fd w → w.id < d.count
  woken : ∀ x ∈ d.woken, x.1.id < d.count
  same : ∀ fd w fd' w', Waits d fd w → Waits d fd' w' → w.id = w'.id → fd = fd' ∧ w = w'
  apart : ∀ fd w, ∀ x ∈ d.woken, Waits d fd w → w.id ≠ x.1.id
  once : ∀ x ∈ d.woken, ∀ y ∈ d.woken, x.1.id = y.1.id → x = y

theorem ids_init : Ids init := by
  have h : ∀ fd w, ¬ Waits init fd w := fun fd w h => by simp [waits_iff, init, Assoc.find_nil] at h
  exact ⟨fun fd w hw => absurd hw (h fd w), fun x hx => by simp [init] at hx, fun fd w _ _ hw => absurd hw (h fd w), fun fd w x hx => by simp [init] at hx,
    fun x hx => by simp [init] at hx⟩

theorem ids_wait {d : Dispatch} (h : Ids d) (fd ev : Nat) (ok : Bool) : Ids (d.wait fd ev ok) := by
  cases ok with
  | false => exact h
  | true =>
    have hw : (d.wait fd ev true).woken = d.woken := rfl
    have hc : (d.wait fd ev true).count = d.count + 1 := rfl
    refine ⟨?_, ?_, ?_, ?_, ?_⟩
    · intro fd' w hx
      rw [hc]
      rcases (waits_wait ..).1 hx with hx | ⟨_, rfl⟩
      · have := h.waits _ _ hx; omega
      · exact Nat.lt_succ_self _
    · intro x hx
      rw [hc]
      have := h.woken x hx; omega
    · intro fd' w fd'' w' hx hy he
      rcases (waits_wait ..).1 hx with hp | ⟨rfl, rfl⟩ <;> rcases (waits_wait ..).1 hy with hq | ⟨rfl, rfl⟩
      · exact h.same _ _ _ _ hp hq he
      · have := h.waits _ _ hp; simp only at he; omega
      · have := h.waits _ _ hq; simp only at he; omega
      · exact ⟨rfl, rfl⟩
    · intro fd' w x hx hy
      rw [hw] at hx
      rcases (waits_wait ..).1 hy with hy | ⟨rfl, rfl⟩
      · exact h.apart _ _ x hx hy
      · have := h.woken x hx; simp only; omega
    · exact h.once

theorem ids_leave {d : Dispatch} (h : Ids d) (fd : Nat) (w : Waiter) : Ids (d.leave fd w) := by
  have hl : ∀ fd' w', Waits (d.leave fd w) fd' w' → Waits d fd' w' := fun _ _ hx => ((waits_leave ..).1 hx).1
  refine ⟨?_, ?_, ?_, ?_, ?_⟩
  · intro _ _ hx
    rw [count_leave]; exact h.waits _ _ (hl _ _ hx)
  · rw [count_leave, woken_leave]; exact h.woken
  · intro _ _ _ _ hx hy
    exact h.same _ _ _ _ (hl _ _ hx) (hl _ _ hy)
  · rw [woken_leave]
    intro _ _ x hx hy
    exact h.apart _ _ x hx (hl _ _ hy)
  · rw [woken_leave]; exact h.once

theorem ids_event {d : Dispatch} (h : Ids d) (fd es : Nat) (err : Err) : Ids (d.event fd es err) := by
  have hl : ∀ fd' w', Waits (d.event fd es err) fd' w' → Waits d fd' w' := fun _ _ hx => ((waits_event ..).1 hx).1
  refine ⟨?_, ?_, ?_, ?_, ?_⟩
  · intro _ _ hx
    rw [(rest_event ..).2]; exact h.waits _ _ (hl _ _ hx)
  · intro x hx
    rw [(rest_event ..).2]
    rcases (woken_event ..).1 hx with hx | ⟨w, hz, _, rfl⟩
    · exact h.woken x hx
    · exact h.waits _ _ hz
  · intro _ _ _ _ hx hy
    exact h.same _ _ _ _ (hl _ _ hx) (hl _ _ hy)
  · intro fd' w x hx hy
    rcases (woken_event ..).1 hx with hx | ⟨w', hz, hn, rfl⟩
    · exact h.apart _ _ x hx (hl _ _ hy)
    · intro he
      have ⟨h1, h2⟩ := (waits_event ..).1 hy
      obtain ⟨rfl, rfl⟩ := h.same _ _ _ _ h1 hz he
      exact h2 ⟨rfl, hn⟩
  · intro x hx y hy he
    rcases (woken_event ..).1 hx with hx | ⟨w, hz, _, rfl⟩ <;> rcases (woken_event ..).1 hy with hy | ⟨w', hv, _, rfl⟩
    · exact h.once x hx y hy he
    · exact absurd he.symm (h.apart _ _ x hx hv)
    · exact absurd he (h.apart _ _ y hy hz)
    · obtain ⟨_, rfl⟩ := h.same _ _ _ _ hz hv he
      rfl

theorem ids_filter {d : Dispatch} (h : Ids d) (w : Waiter) : Ids { d with woken := d.woken.filter fun x => x.1 ≠ w } := by
  have hs : ∀ x, x ∈ d.woken.filter (fun x => x.1 ≠ w) → x ∈ d.woken := fun x hx => (List.mem_filter.1 hx).1
  exact ⟨h.waits, fun x hx => h.woken x (hs x hx), h.same, fun fd w' x hx hy => h.apart fd w' x (hs x hx) hy,
    fun x hx y hy => h.once x (hs x hx) y (hs y hy)⟩

theorem resume_some {d : Dispatch} {w : Waiter} {d' : Dispatch} {e : Err} (h : d.resume w = (d', some e)) :
    ∃ fd, (w, fd, e) ∈ d.woken ∧ d' = ({ d with woken := d.woken.filter fun x => x.1 ≠ w } : Dispatch).leave fd w := by
  rw [resume] at h
  split at h
  · simp at h
  · rename_i x hx
    simp only [Prod.mk.injEq, Option.some.injEq] at h
    have h1 := List.mem_of_find?_eq_some hx
    have h2 := List.find?_some hx
    simp only [decide_eq_true_eq] at h2
    obtain ⟨x1, x2, x3⟩ := x
    obtain ⟨h3, h4⟩ := h
    simp only at h2 h3 h4
    subst h2; subst h4
    exact ⟨x2, h1, h3.symm⟩

theorem resume_none {d : Dispatch} {w : Waiter} {d' : Dispatch} (h : d.resume w = (d', none)) : d' = d := by
  rw [resume] at h
  split at h
  · simp only [Prod.mk.injEq] at h; exact h.1.symm
  · simp at h

theorem ids_resume {d : Dispatch} (h : Ids d) (w : Waiter) : Ids (d.resume w).1 := by
  rw [resume]
  split
  · exact h
  · exact ids_leave (ids_filter h w) _ _

theorem ids_timeout {d : Dispatch} (h : Ids d) (fd : Nat) (w : Waiter) : Ids (d.timeout fd w).1 := by
  rw [timeout]
  split
  · exact ids_leave h _ _
  · exact h

theorem step_timeout (d : Dispatch) (fd : Nat) (w : Waiter) : d.step (.timeout fd w) = ((d.timeout fd w).1, (d.timeout fd w).2.map fun e => (w, e)) := rfl
theorem step_resume (d : Dispatch) (w : Waiter) : d.step (.resume w) = ((d.resume w).1, (d.resume w).2.map fun e => (w, e)) := rfl

theorem ids_step {d : Dispatch} (h : Ids d) (op : Op) : Ids (d.step op).1 := by
  cases op with
  | wait fd ev ok => exact ids_wait h fd ev ok
  | event fd es err => exact ids_event h fd es err
  | timeout fd w => exact ids_timeout h fd w
  | resume w => exact ids_resume h w

theorem run_cons (d : Dispatch) (op : Op) (ops : List Op) :
    d.run (op :: ops) = (((d.step op).1.run ops).1, (d.step op).2.toList ++ ((d.step op).1.run ops).2) := rfl

theorem run_append : ∀ (a b : List Op) (d : Dispatch), d.run (a ++ b) = (((d.run a).1.run b).1, (d.run a).2 ++ ((d.run a).1.run b).2)
  | [], b, d => rfl
  | op :: a, b, d => by
    rw [List.cons_append, run_cons, run_append a b, run_cons]
    simp

theorem ids_run : ∀ (ops : List Op) (d : Dispatch), Ids d → Ids (d.run ops).1
  | [], _, h => h
  | op :: ops, d, h => by
    rw [run_cons]
    exact ids_run ops _ (ids_step h op)

/-- A waiter with this number waits or is notified. -/
def Active (d : Dispatch) (i : Nat) : Prop := (∃ fd w, Waits d fd w ∧ w.id = i) ∨ ∃ x ∈ d.woken, x.1.id = i

theorem active_leave {d : Dispatch} {fd : Nat} {w : Waiter} {i : Nat} (h : Active (d.leave fd w) i) : Active d i := by
  rcases h with ⟨fd', w', h, rfl⟩ | ⟨x, hx, rfl⟩
  · exact .inl ⟨fd', w', ((waits_leave ..).1 h).1, rfl⟩
  · rw [woken_leave] at hx
    exact .inr ⟨x, hx, rfl⟩

theorem count_step (d : Dispatch) (op : Op) : d.count ≤ (d.step op).1.count := by
  cases op with
  | wait fd ev ok => cases ok <;> simp [step, wait]
  | event fd es err => exact Nat.le_of_eq (rest_event ..).2.symm
  | timeout fd w =>
    rw [step_timeout, timeout]
    split
    · exact Nat.le_of_eq (count_leave ..).symm
    · exact Nat.le_refl _
  | resume w =>
    rw [step_resume, resume]
    split
    · exact Nat.le_refl _
    · simp only
      rw [count_leave]
      exact Nat.le_refl _

theorem active_step (d : Dispatch) (op : Op) (i : Nat) (h : Active (d.step op).1 i) : Active d i ∨ d.count ≤ i := by
  cases op with
  | wait fd ev ok =>
    cases ok with
    | false => exact .inl h
    | true =>
      rcases h with ⟨fd', w, h, rfl⟩ | ⟨x, hx, rfl⟩
      · rcases (waits_wait ..).1 h with h | ⟨_, rfl⟩
        · exact .inl (.inl ⟨fd', w, h, rfl⟩)
        · exact .inr (Nat.le_refl _)
      · exact .inl (.inr ⟨x, hx, rfl⟩)
  | event fd es err =>
    rcases h with ⟨fd', w, h, rfl⟩ | ⟨x, hx, rfl⟩
    · exact .inl (.inl ⟨fd', w, ((waits_event ..).1 h).1, rfl⟩)
    · rcases (woken_event ..).1 hx with hx | ⟨w, hz, _, rfl⟩
      · exact .inl (.inr ⟨x, hx, rfl⟩)
      · exact .inl (.inl ⟨fd, w, hz, rfl⟩)
  | timeout fd w =>
    rw [step_timeout, timeout] at h
    split at h
    · exact .inl (active_leave h)
    · exact .inl h
  | resume w =>
    rw [step_resume, resume] at h
    split at h
    · exact .inl h
    · rcases active_leave h with ⟨fd', w', hz, rfl⟩ | ⟨x, hx, rfl⟩
      · exact .inl (.inl ⟨fd', w', hz, rfl⟩)
      · exact .inl (.inr ⟨x, (List.mem_filter.1 hx).1, rfl⟩)

theorem step_result {d : Dispatch} (hi : Ids d) {op : Op} {w : Waiter} {e : Err} (h : (d.step op).2 = some (w, e)) :
    Active d w.id ∧ ¬ Active (d.step op).1 w.id := by
  cases op with
  | wait fd ev ok => simp [step] at h
  | event fd es err => simp [step] at h
  | timeout fd w' =>
    rw [step_timeout] at h ⊢
    rw [timeout] at h ⊢
    split at h
    · rename_i hw
      simp only [Option.map_some, Option.some.injEq, Prod.mk.injEq] at h
      obtain ⟨rfl, _⟩ := h
      have hw := (waits_iff ..).2 hw
      rw [if_pos ((waits_iff ..).1 hw)]
      refine ⟨.inl ⟨fd, w', hw, rfl⟩, ?_⟩
      rintro (⟨fd', w, h, he⟩ | ⟨x, hx, he⟩)
      · have ⟨h1, h2⟩ := (waits_leave ..).1 h
        exact h2 (hi.same _ _ _ _ h1 hw he)
      · rw [woken_leave] at hx
        exact hi.apart _ _ x hx hw he.symm
    · simp at h
  | resume w' =>
    rw [step_resume] at h ⊢
    cases hr : d.resume w' with
    | mk d' r =>
    rw [hr] at h
    cases r with
    | none => simp at h
    | some e' =>
      simp only [Option.map_some, Option.some.injEq, Prod.mk.injEq] at h
      obtain ⟨rfl, _⟩ := h
      obtain ⟨fd, hm, rfl⟩ := resume_some hr
      refine ⟨.inr ⟨_, hm, rfl⟩, ?_⟩
      rintro (⟨fd', w, h, he⟩ | ⟨x, hx, he⟩)
      · have h1 := ((waits_leave ..).1 h).1
        exact hi.apart fd' w _ hm h1 he
      · rw [woken_leave] at hx
        have ⟨h1, h2⟩ := List.mem_filter.1 hx
        have := hi.once _ h1 _ hm he
        subst this
        simp at h2

theorem active_lt {d : Dispatch} (hi : Ids d) {i : Nat} (h : Active d i) : i < d.count := by
  rcases h with ⟨fd, w, h, rfl⟩ | ⟨x, hx, rfl⟩
  · exact hi.waits _ _ h
  · exact hi.woken _ hx

theorem results_once : ∀ (ops : List Op) (d : Dispatch), Ids d →
    ((d.run ops).2.map fun r => r.1.id).Nodup ∧ ∀ r ∈ (d.run ops).2, Active d r.1.id ∨ d.count ≤ r.1.id
  | [], d, _ => by simp [run]
  | op :: ops, d, h => by
    have ⟨h1, h2⟩ := results_once ops _ (ids_step h op)
    rw [run_cons]
    have h3 : ∀ r ∈ ((d.step op).1.run ops).2, Active d r.1.id ∨ d.count ≤ r.1.id := by
      intro r hr
      rcases h2 r hr with ha | hc
      · exact active_step d op _ ha
      · exact .inr (Nat.le_trans (count_step d op) hc)
    cases hs : (d.step op).2 with
    | none => exact ⟨by simpa [hs] using h1, by simpa [hs] using h3⟩
    | some r =>
      obtain ⟨w, e⟩ := r
      have ⟨ha, hn⟩ := step_result h hs
      constructor
      · simp only [Option.toList_some, List.cons_append, List.nil_append, List.map_cons, List.nodup_cons]
        refine ⟨?_, h1⟩
        intro hm
        obtain ⟨r, hr, he⟩ := List.mem_map.1 hm
        rcases h2 r hr with hx | hx
        · exact hn (he ▸ hx)
        · have := active_lt h ha
          have := count_step d op
          omega
      · intro r hr
        simp only [Option.toList_some, List.cons_append, List.nil_append, List.mem_cons] at hr
        rcases hr with rfl | hr
        · exact .inl ha
        · exact h3 r hr

theorem _root_.Spec.Net.Cause.more {ops : List Op} {w : Waiter} {e : Err} (h : Cause ops w e) (b : List Op) : Cause (ops ++ b) w e := by
  obtain ⟨pre, fd, es, err, post, rfl, h1, h2⟩ := h
  exact ⟨pre, fd, es, err, post ++ b, by simp, h1, h2⟩

theorem results_cause : ∀ (ops pre : List Op), (∀ x ∈ (init.run pre).1.woken, Cause pre x.1 x.2.2) →
    ∀ r ∈ ((init.run pre).1.run ops).2, r.2 = Err.ERROR_SRT_SOCKET_TIMEOUT ∨ Cause (pre ++ ops) r.1 r.2
  | [], pre, _, r, hr => by simp [run] at hr
  | op :: ops, pre, h, r, hr => by
    have hone : init.run (pre ++ [op]) = (((init.run pre).1.step op).1, (init.run pre).2 ++ ((init.run pre).1.step op).2.toList) := by
      rw [run_append]; simp [run_cons, run]
    have hw : ∀ x ∈ (init.run (pre ++ [op])).1.woken, Cause (pre ++ [op]) x.1 x.2.2 := by
      intro x hx
      rw [hone] at hx
      simp only at hx
      cases op with
      | wait fd ev ok => exact (h x (by cases ok <;> exact hx)).more _
      | event fd es err =>
        rcases (woken_event ..).1 hx with hx | ⟨w, hz, hn, rfl⟩
        · exact (h x hx).more _
        · refine ⟨pre, fd, es, err, [], rfl, hz, ?_⟩
          by_cases he : es &&& ERR = 0
          · exact .inr ⟨he, (hn.resolve_left (fun h => h he)), by simp [he]⟩
          · exact .inl ⟨he, by simp [he]⟩
      | timeout fd w =>
        rw [step_timeout, timeout] at hx
        split at hx
        · rw [woken_leave] at hx; exact (h x hx).more _
        · exact (h x hx).more _
      | resume w =>
        rw [step_resume, resume] at hx
        split at hx
        · exact (h x hx).more _
        · rw [woken_leave] at hx
          exact (h x (List.mem_filter.1 hx).1).more _
    have ih := results_cause ops (pre ++ [op]) hw
    rw [run_cons] at hr
    simp only [List.mem_append] at hr
    rcases hr with hr | hr
    · cases op with
      | wait fd ev ok => simp [step] at hr
      | event fd es err => simp [step] at hr
      | timeout fd w =>
        rw [step_timeout, timeout] at hr
        split at hr
        · simp only [Option.map_some, Option.toList_some, List.mem_singleton] at hr
          exact .inl (by rw [hr])
        · simp at hr
      | resume w =>
        rw [step_resume] at hr
        cases hs : (init.run pre).1.resume w with
        | mk d' res =>
        rw [hs] at hr
        cases res with
        | none => simp at hr
        | some e =>
          simp only [Option.map_some, Option.toList_some, List.mem_singleton] at hr
          obtain ⟨fd, hm, _⟩ := resume_some hs
          rw [hr]
          exact .inr ((h _ hm).more _)
    · have := ih r (by rw [hone]; exact hr)
      simpa using this

/-! What is watched. -/

theorem testBit_foldl (i : Nat) : ∀ (ws : List Waiter) (a : Nat), (ws.foldl (fun e w => e ||| w.event) a).testBit i = (a.testBit i || ws.any fun w => w.event.testBit i)
  | [], a => by simp
  | w :: ws, a => by
    rw [List.foldl_cons, testBit_foldl i ws]
    simp [Nat.testBit_or, Bool.or_assoc]

theorem exits_covers {d : Dispatch} {fd : Nat} {w : Waiter} (h : Waits d fd w) : covers (d.exits fd) w.event := by
  obtain ⟨ws, h1, h2⟩ := h
  intro i hi
  rw [exits, h1]
  simp only [testBit_foldl, Bool.or_eq_true, List.any_eq_true]
  exact .inr ⟨w, h2, hi⟩

theorem covers_or {a ev : Nat} (h : covers a ev) (b : Nat) : covers (a ||| b) ev := fun i hi => by
  rw [Nat.testBit_or, h i hi, Bool.true_or]

theorem covers_or' (a b : Nat) : covers (a ||| b) b := fun i hi => by rw [Nat.testBit_or, hi, Bool.or_true]

theorem covers_self (a : Nat) : covers a a := fun _ hi => hi

theorem covers_zero {ev : Nat} (h : covers 0 ev) : ev = 0 := by
  apply Nat.eq_of_testBit_eq
  intro i
  rw [Nat.zero_testBit]
  cases hb : ev.testBit i
  · rfl
  · have := h i hb
    rw [Nat.zero_testBit] at this
    exact absurd this (by decide)

/-- Every waiter's events are watched. -/
def Watched (d : Dispatch) : Prop := ∀ fd w, Waits d fd w → w.event ≠ 0 ∧ ∃ e, d.watch.find fd = some e ∧ covers e w.event

theorem watched_leave {d : Dispatch} (h : Watched d) (fd : Nat) (w : Waiter) : Watched (d.leave fd w) := by
  intro fd' w' hx
  have ⟨h1, h2⟩ := (waits_leave ..).1 hx
  refine ⟨(h _ _ h1).1, ?_⟩
  have hd := (waits_drop d fd w fd' w').2 ⟨h1, h2⟩
  have hsame := (drop_same d fd w).2.2
  rw [leave_eq]
  by_cases hf : fd' = fd
  · subst hf
    have hc := exits_covers hd
    split
    · rename_i h0
      rw [h0] at hc
      exact absurd (covers_zero hc) (h _ _ h1).1
    · exact ⟨_, by rw [Assoc.find_insert, if_pos rfl], covers_or hc _⟩
  · obtain ⟨e, he, hc⟩ := (h _ _ h1).2
    split
    · exact ⟨e, by simp only; rw [Assoc.find_erase, if_neg hf, hsame, he], hc⟩
    · exact ⟨e, by simp only; rw [Assoc.find_insert, if_neg hf, hsame, he], hc⟩

theorem watched_step {d : Dispatch} (h : Watched d) (op : Op) (hop : ∀ fd ok, op ≠ .wait fd 0 ok) : Watched (d.step op).1 := by
  cases op with
  | wait fd ev ok =>
    cases ok with
    | false => exact h
    | true =>
      have hev : ev ≠ 0 := fun h0 => hop fd true (by rw [h0])
      intro fd' w hx
      show _ ∧ ∃ e, (d.wait fd ev true).watch.find fd' = some e ∧ _
      rw [watch_wait]
      rcases (waits_wait ..).1 hx with hz | ⟨rfl, rfl⟩
      · refine ⟨(h _ _ hz).1, ?_⟩
        by_cases hf : fd' = fd
        · subst hf
          rw [if_pos rfl]
          obtain ⟨ws, hws, _⟩ := id hz
          exact ⟨_, rfl, by rw [hws]; exact covers_or (covers_or (covers_or (exits_covers hz) _) _) _⟩
        · rw [if_neg hf]; exact (h _ _ hz).2
      · refine ⟨hev, ?_⟩
        rw [if_pos rfl]
        refine ⟨_, rfl, ?_⟩
        split
        · exact covers_or (covers_self ev) _
        · exact covers_or (covers_or (covers_or' _ _) _) _
  | event fd es err =>
    intro fd' w hx
    show _ ∧ ∃ e, (d.event fd es err).watch.find fd' = some e ∧ _
    rw [(rest_event ..).1]
    exact h _ _ ((waits_event ..).1 hx).1
  | timeout fd w =>
    rw [step_timeout, timeout]
    split
    · exact watched_leave h _ _
    · exact h
  | resume w =>
    rw [step_resume, resume]
    split
    · exact h
    · exact watched_leave (d := { d with woken := d.woken.filter fun x => x.1 ≠ w }) h _ _

theorem watched_run : ∀ (ops : List Op) (d : Dispatch), Watched d → (∀ fd ok, .wait fd 0 ok ∉ ops) → Watched (d.run ops).1
  | [], _, h, _ => h
  | op :: ops, d, h, hop => by
    rw [run_cons]
    exact watched_run ops _ (watched_step h op fun fd ok he => hop fd ok (he ▸ List.mem_cons_self ..)) fun fd ok hm => hop fd ok (List.mem_cons_of_mem _ hm)

end Dispatch

/-! ## UDP -/

namespace Udp

theorem run_cons (u : Udp) (op : Op) (ops : List Op) : u.run (op :: ops) = (((u.step op).1.run ops).1, (op, (u.step op).2) :: ((u.step op).1.run ops).2) := rfl

theorem waiting_set {u : Udp} {s : Nat} {x : Session} (hx : u.all[s]? = some x) (y : Session) (t : Nat) :
    waiting { u with all := u.all.set s y } t = if t = s then y.queue else waiting u t := by
  have hl := (List.getElem?_eq_some_iff.1 hx).1
  by_cases h : t = s
  · subst h
    simp [waiting, List.getElem?_set, hl]
  · simp [waiting, List.getElem?_set, Ne.symm h, h]

/-- What a push does. -/
theorem push_cases (u : Udp) (s : Nat) (data : List UInt8) :
    u.push s data = (u, .null) ∧ (∀ x, u.all[s]? = some x → x.alive = false) ∨ ∃ x, u.all[s]? = some x ∧ x.alive = true ∧
      (LIMIT ≤ x.queue.length ∧ u.push s data = (u, .dropped s) ∨ x.queue.length < LIMIT ∧
        u.push s data = ({ u with all := u.all.set s { x with queue := x.queue ++ [data] } }, .queued s)) := by
  rw [push]
  split
  · rename_i hn
    exact .inl ⟨rfl, fun x hx => by rw [hn] at hx; simp at hx⟩
  · rename_i x hx
    cases ha : x.alive with
    | false => exact .inl ⟨by simp, fun y hy => by rw [hx] at hy; simp only [Option.some.injEq] at hy; rw [← hy, ha]⟩
    | true =>
      refine .inr ⟨x, hx, ha, ?_⟩
      simp only [Bool.not_true, Bool.false_eq_true, if_false]
      by_cases hl : LIMIT ≤ x.queue.length
      · exact .inl ⟨hl, by rw [if_pos hl]⟩
      · exact .inr ⟨by omega, by rw [if_neg hl, ← ha]⟩

/-- The state with a new session for a datagram. -/
def grow (u : Udp) (d : Dgram) : Udp :=
  { u with map := u.map.insert (keyOf d) u.all.length, all := u.all ++ [({ key := keyOf d, queue := [], accepted := false, alive := true } : Session)] }

theorem arrive_known {u : Udp} {d : Dgram} {s : Nat} (h : u.map.find (keyOf d) = some s) : u.arrive d = u.push s (d.data.take SIZE) := by
  rw [arrive, h]

theorem arrive_new {u : Udp} {d : Dgram} (h : u.map.find (keyOf d) = none) :
    u.arrive d = ({ map := u.map.insert (keyOf d) u.all.length, all := u.all ++ [({ key := keyOf d, queue := [d.data.take SIZE], accepted := false, alive := true } : Session)], fresh := u.fresh ++ [u.all.length] }, .queued u.all.length) := by
  rw [arrive, h]
  simp [push, LIMIT]

theorem take_cases (q : List (List UInt8)) (n : Nat) : (∃ e, take q n = (.err e, q)) ∨ ∃ b r, q = b :: r ∧ b.length ≤ n ∧ take q n = (.ok b, r) := by
  cases q with
  | nil => exact .inl ⟨_, rfl⟩
  | cons b r =>
    by_cases h : n < b.length
    · exact .inl ⟨_, by rw [take, if_pos h]⟩
    · exact .inr ⟨b, r, rfl, by omega, by rw [take, if_neg h]⟩

/-- What a read does. -/
theorem read_cases (u : Udp) (s n : Nat) : u.read s n = (u, .nothing) ∨ ∃ x, u.all[s]? = some x ∧ x.alive = true ∧
    ((∃ e, u.read s n = (u, .failed s e)) ∨ ∃ b r, x.queue = b :: r ∧ b.length ≤ n ∧
      u.read s n = ({ u with all := u.all.set s { x with queue := r } }, .got s b)) := by
  rw [read]
  split
  · exact .inl rfl
  · rename_i x hx
    cases ha : x.alive with
    | false => exact .inl (by simp)
    | true =>
      refine .inr ⟨x, hx, ha, ?_⟩
      simp only [Bool.not_true, Bool.false_eq_true, if_false]
      rcases take_cases x.queue n with ⟨e, h⟩ | ⟨b, r, hq, hl, h⟩
      · exact .inl ⟨e, by rw [h]⟩
      · exact .inr ⟨b, r, hq, hl, by rw [h, ← ha]⟩

theorem waiting_accept (u : Udp) (t : Nat) : waiting u.accept.1 t = waiting u t := by
  rw [accept]
  split
  · rfl
  · rename_i s r hf
    cases hx : u.all[s]? with
    | none => rfl
    | some x =>
      have := waiting_set hx { x with accepted := true } t
      simp only [waiting] at this ⊢
      rw [this]
      split
      · rename_i h; subst h; rw [hx]
      · rfl

theorem waiting_destroy (u : Udp) (s t : Nat) : waiting (u.destroy s).1 t = waiting u t := by
  rw [destroy]
  split
  · rfl
  · rename_i x hx
    split
    · have := waiting_set hx { x with alive := false } t
      simp only [waiting] at this ⊢
      rw [this]
      split
      · rename_i h; subst h; rw [hx]
      · rfl
    · rfl

theorem fifo_step (u : Udp) (op : Op) (t : Nat) : waiting u t ++ queuedFor t [(op, (u.step op).2)] = readBy t [(op, (u.step op).2)] ++ waiting (u.step op).1 t := by
  cases op with
  | arrive d =>
    show waiting u t ++ queuedFor t [(_, (u.arrive d).2)] = readBy t [(_, (u.arrive d).2)] ++ waiting (u.arrive d).1 t
    cases hm : u.map.find (keyOf d) with
    | none =>
      rw [arrive_new hm]
      by_cases h : u.all.length = t
      · subst h
        simp [waiting, queuedFor, readBy, SIZE]
      · have : (u.all ++ [({ key := keyOf d, queue := [d.data.take SIZE], accepted := false, alive := true } : Session)])[t]? = u.all[t]? := by
          rw [List.getElem?_append]
          split
          · rfl
          · rw [List.getElem?_eq_none (by simp; omega), List.getElem?_eq_none (by omega)]
        simp [waiting, queuedFor, readBy, h, this]
    | some s =>
      rw [arrive_known hm]
      rcases push_cases u s (d.data.take SIZE) with ⟨h, _⟩ | ⟨x, hx, _, ⟨_, h⟩ | ⟨_, h⟩⟩
      · rw [h]; simp [queuedFor, readBy]
      · rw [h]; simp [queuedFor, readBy]
      · rw [h, waiting_set hx]
        by_cases hs : s = t
        · subst hs; simp [queuedFor, readBy, waiting, hx, SIZE]
        · simp [queuedFor, readBy, hs, Ne.symm hs]
  | read s n =>
    show waiting u t ++ queuedFor t [(_, (u.read s n).2)] = readBy t [(_, (u.read s n).2)] ++ waiting (u.read s n).1 t
    rcases read_cases u s n with h | ⟨x, hx, _, ⟨e, h⟩ | ⟨b, r, hq, _, h⟩⟩
    · rw [h]; simp [queuedFor, readBy]
    · rw [h]; simp [queuedFor, readBy]
    · rw [h, waiting_set hx]
      by_cases hs : s = t
      · subst hs; simp [queuedFor, readBy, waiting, hx, hq]
      · simp [queuedFor, readBy, hs, Ne.symm hs]
  | accept =>
    show waiting u t ++ queuedFor t [(_, u.accept.2)] = readBy t [(_, u.accept.2)] ++ waiting u.accept.1 t
    rw [waiting_accept, accept]
    cases u.fresh <;> simp [queuedFor, readBy]
  | destroy s =>
    show waiting u t ++ queuedFor t [(_, (u.destroy s).2)] = readBy t [(_, (u.destroy s).2)] ++ waiting (u.destroy s).1 t
    rw [waiting_destroy, destroy]
    split
    · simp [queuedFor, readBy]
    · split <;> simp [queuedFor, readBy]

theorem queuedFor_cons (t : Nat) (p : Op × Ev) (log : List (Op × Ev)) : queuedFor t (p :: log) = queuedFor t [p] ++ queuedFor t log := by
  obtain ⟨op, ev⟩ := p
  cases op <;> cases ev <;> simp only [queuedFor, List.nil_append] <;> split <;> simp

theorem readBy_cons (t : Nat) (p : Op × Ev) (log : List (Op × Ev)) : readBy t (p :: log) = readBy t [p] ++ readBy t log := by
  obtain ⟨op, ev⟩ := p
  cases ev <;> simp only [readBy, List.nil_append]
  split <;> simp

theorem fifo : ∀ (ops : List Op) (u : Udp) (t : Nat), waiting u t ++ queuedFor t (u.run ops).2 = readBy t (u.run ops).2 ++ waiting (u.run ops).1 t
  | [], u, t => by simp [run, queuedFor, readBy]
  | op :: ops, u, t => by
    rw [run_cons, queuedFor_cons, readBy_cons, ← List.append_assoc, fifo_step, List.append_assoc, fifo ops, List.append_assoc]

/-- The map is the map of the living sessions; a session has at most 4000 datagrams; sessions are handed out in the order they were made. -/
structure Inv (u : Udp) : Prop where
  found : ∀ (k : Text) (s : Nat), u.map.find k = some s → ∃ x : Session, u.all[s]? = some x ∧ x.alive = true ∧ x.key = k
  alive : ∀ (s : Nat) (x : Session), u.all[s]? = some x → x.alive = true → u.map.find x.key = some s
  short : ∀ (s : Nat) (x : Session), u.all[s]? = some x → x.queue.length ≤ LIMIT
  fresh : ∃ n, u.fresh = List.range' n (u.all.length - n) ∧ n ≤ u.all.length

theorem inv_init : Inv init :=
  ⟨fun k s h => by simp [init, Assoc.find_nil] at h, fun s x h => by simp [init] at h, fun s x h => by simp [init] at h, 0, by simp [init], by simp [init]⟩

/-- Replacing a session by one with the same key and life keeps the map right. -/
theorem inv_set {u : Udp} (h : Inv u) {s : Nat} {x y : Session} (hx : u.all[s]? = some x) (hk : y.key = x.key) (ha : y.alive = x.alive)
    (hq : y.queue.length ≤ LIMIT) : Inv { u with all := u.all.set s y } := by
  have hl := (List.getElem?_eq_some_iff.1 hx).1
  refine ⟨?_, ?_, ?_, ?_⟩
  · intro k t hf
    obtain ⟨z, h1, h2, h3⟩ := h.found k t hf
    simp only [List.getElem?_set]
    by_cases hs : s = t
    · subst hs
      rw [hx] at h1
      simp only [Option.some.injEq] at h1
      subst h1
      exact ⟨y, by simp [hl], by rw [ha, h2], by rw [hk, h3]⟩
    · exact ⟨z, by simp [hs, h1], h2, h3⟩
  · intro t z hz hza
    simp only [List.getElem?_set] at hz
    by_cases hs : s = t
    · subst hs
      simp only [if_true, hl, Option.some.injEq] at hz
      subst hz
      rw [hk]
      exact h.alive s x hx (by rw [← ha, hza])
    · rw [if_neg hs] at hz
      exact h.alive t z hz hza
  · intro t z hz
    simp only [List.getElem?_set] at hz
    by_cases hs : s = t
    · subst hs
      simp only [if_true, hl, Option.some.injEq] at hz
      subst hz
      exact hq
    · rw [if_neg hs] at hz
      exact h.short t z hz
  · simpa using h.fresh

theorem inv_step {u : Udp} (h : Inv u) (op : Op) : Inv (u.step op).1 := by
  cases op with
  | arrive d =>
    show Inv (u.arrive d).1
    cases hm : u.map.find (keyOf d) with
    | none =>
      rw [arrive_new hm]
      refine ⟨?_, ?_, ?_, ?_⟩
      · intro k s hf
        simp only [Assoc.find_insert] at hf
        split at hf
        · rename_i hk
          simp only [Option.some.injEq] at hf
          subst hf
          exact ⟨{ key := keyOf d, queue := [d.data.take SIZE], accepted := false, alive := true }, by simp, rfl, hk.symm⟩
        · obtain ⟨x, h1, h2, h3⟩ := h.found k s hf
          have := (List.getElem?_eq_some_iff.1 h1).1
          exact ⟨x, by simp only; rw [List.getElem?_append_left this, h1], h2, h3⟩
      · intro s x hx ha
        simp only [Assoc.find_insert]
        by_cases hs : s < u.all.length
        · simp only [List.getElem?_append_left hs] at hx
          have := h.alive s x hx ha
          rw [if_neg (fun hk => by rw [hk, hm] at this; simp at this)]
          exact this
        · have hlt := (List.getElem?_eq_some_iff.1 hx).1
          simp only [List.length_append, List.length_cons, List.length_nil] at hlt
          have : s = u.all.length := by omega
          subst this
          simp at hx
          rw [← hx, if_pos rfl]
      · intro s x hx
        by_cases hs : s < u.all.length
        · simp only [List.getElem?_append_left hs] at hx
          exact h.short s x hx
        · have hlt := (List.getElem?_eq_some_iff.1 hx).1
          simp only [List.length_append, List.length_cons, List.length_nil] at hlt
          have : s = u.all.length := by omega
          subst this
          simp at hx
          rw [← hx]
          simp [LIMIT]
      · obtain ⟨n, h1, h2⟩ := h.fresh
        refine ⟨n, ?_, by simp; omega⟩
        simp only [List.length_append, List.length_cons, List.length_nil]
        rw [h1]
        have : u.all.length + (0 + 1) - n = (u.all.length - n) + 1 := by omega
        rw [this, List.range'_concat]
        congr 1
        simp
        omega
    | some s =>
      rw [arrive_known hm]
      rcases push_cases u s (d.data.take SIZE) with ⟨hp, _⟩ | ⟨x, hx, _, ⟨_, hp⟩ | ⟨hq, hp⟩⟩
      · rw [hp]; exact h
      · rw [hp]; exact h
      · rw [hp]; exact inv_set h hx rfl rfl (by simp; omega)
  | read s n =>
    show Inv (u.read s n).1
    rcases read_cases u s n with hr | ⟨x, hx, _, ⟨e, hr⟩ | ⟨b, r, hq, _, hr⟩⟩
    · rw [hr]; exact h
    · rw [hr]; exact h
    · rw [hr]
      have := h.short s x hx
      rw [hq] at this
      exact inv_set h hx rfl rfl (by simp at this ⊢; omega)
  | accept =>
    show Inv u.accept.1
    rw [accept]
    split
    · exact h
    · rename_i s r hf
      have hfr : ∀ v : Udp, Inv v → v.fresh = u.fresh → Inv { v with fresh := r } := by
        intro v hv he
        refine ⟨hv.found, hv.alive, hv.short, ?_⟩
        obtain ⟨n, h1, h2⟩ := hv.fresh
        rw [he, hf] at h1
        cases hl : v.all.length - n with
        | zero => rw [hl] at h1; simp at h1
        | succ m =>
          rw [hl, List.range'_succ] at h1
          simp only [List.cons.injEq] at h1
          refine ⟨n + 1, ?_, by simp only; omega⟩
          simp only
          rw [h1.2]
          congr 1
          omega
      cases hx : u.all[s]? with
      | none => exact hfr u h rfl
      | some x => exact hfr _ (inv_set h hx (y := { x with accepted := true }) rfl rfl (h.short s x hx)) rfl
  | destroy s =>
    show Inv (u.destroy s).1
    rw [destroy]
    split
    · exact h
    · rename_i x hx
      split
      · rename_i ha
        have hl := (List.getElem?_eq_some_iff.1 hx).1
        have hmap := h.alive s x hx ha.2
        refine ⟨?_, ?_, ?_, ?_⟩
        · intro k t hf
          simp only [Assoc.find_erase] at hf
          split at hf
          · simp at hf
          · rename_i hk
            obtain ⟨z, h1, h2, h3⟩ := h.found k t hf
            have hs : s ≠ t := by
              rintro rfl
              rw [hx] at h1
              simp only [Option.some.injEq] at h1
              exact hk (by rw [← h3, h1])
            exact ⟨z, by simp only [List.getElem?_set]; rw [if_neg hs, h1], h2, h3⟩
        · intro t z hz hza
          simp only [List.getElem?_set] at hz
          by_cases hs : s = t
          · subst hs
            simp only [if_true, hl, Option.some.injEq] at hz
            subst hz
            simp at hza
          · rw [if_neg hs] at hz
            have := h.alive t z hz hza
            simp only [Assoc.find_erase]
            rw [if_neg (fun hk => by rw [hk, hmap] at this; simp at this; exact hs this)]
            exact this
        · intro t z hz
          simp only [List.getElem?_set] at hz
          by_cases hs : s = t
          · subst hs
            simp only [if_true, hl, Option.some.injEq] at hz
            subst hz
            exact h.short s x hx
          · rw [if_neg hs] at hz
            exact h.short t z hz
        · simpa using h.fresh
      · exact h

theorem inv_run : ∀ (ops : List Op) (u : Udp), Inv u → Inv (u.run ops).1
  | [], _, h => h
  | op :: ops, u, h => by
    rw [run_cons]
    exact inv_run ops _ (inv_step h op)

/-- A session keeps its key. -/
theorem key_step (u : Udp) (op : Op) {s : Nat} {x : Session} (hx : u.all[s]? = some x) : ∃ y, (u.step op).1.all[s]? = some y ∧ y.key = x.key := by
  have hl := (List.getElem?_eq_some_iff.1 hx).1
  have hset : ∀ (t : Nat) (z y : Session), u.all[t]? = some z → y.key = z.key → ∃ v, (u.all.set t y)[s]? = some v ∧ v.key = x.key := by
    intro t z y hz hk
    rw [List.getElem?_set]
    by_cases hs : t = s
    · subst hs
      rw [hx] at hz
      simp only [Option.some.injEq] at hz
      exact ⟨y, by simp [hl], by rw [hk, ← hz]⟩
    · exact ⟨x, by rw [if_neg hs, hx], rfl⟩
  cases op with
  | arrive d =>
    show ∃ y, (u.arrive d).1.all[s]? = some y ∧ _
    cases hm : u.map.find (keyOf d) with
    | none =>
      rw [arrive_new hm]
      exact ⟨x, by simp only; rw [List.getElem?_append_left hl, hx], rfl⟩
    | some t =>
      rw [arrive_known hm]
      rcases push_cases u t (d.data.take SIZE) with ⟨h, _⟩ | ⟨y, hy, _, ⟨_, h⟩ | ⟨_, h⟩⟩
      · rw [h]; exact ⟨x, hx, rfl⟩
      · rw [h]; exact ⟨x, hx, rfl⟩
      · rw [h]; exact hset t y _ hy rfl
  | read t n =>
    show ∃ y, (u.read t n).1.all[s]? = some y ∧ _
    rcases read_cases u t n with h | ⟨y, hy, _, ⟨e, h⟩ | ⟨b, r, _, _, h⟩⟩
    · rw [h]; exact ⟨x, hx, rfl⟩
    · rw [h]; exact ⟨x, hx, rfl⟩
    · rw [h]; exact hset t y _ hy rfl
  | accept =>
    show ∃ y, u.accept.1.all[s]? = some y ∧ _
    rw [accept]
    split
    · exact ⟨x, hx, rfl⟩
    · rename_i t r hf
      cases hy : u.all[t]? with
      | none => exact ⟨x, hx, rfl⟩
      | some y => exact hset t y _ hy rfl
  | destroy t =>
    show ∃ y, (u.destroy t).1.all[s]? = some y ∧ _
    rw [destroy]
    split
    · exact ⟨x, hx, rfl⟩
    · rename_i y hy
      split
      · exact hset t y _ hy rfl
      · exact ⟨x, hx, rfl⟩

theorem key_run : ∀ (ops : List Op) (u : Udp) {s : Nat} {x : Session}, u.all[s]? = some x → ∃ y, (u.run ops).1.all[s]? = some y ∧ y.key = x.key
  | [], _, _, x, h => ⟨x, h, rfl⟩
  | op :: ops, u, s, x, h => by
    obtain ⟨y, h1, h2⟩ := key_step u op h
    obtain ⟨z, h3, h4⟩ := key_run ops _ h1
    exact ⟨z, by rw [run_cons]; exact h3, by rw [h4, h2]⟩

/-- What happens to a datagram. -/
theorem arrive_result {u : Udp} (h : Inv u) (d : Dgram) : ∃ s x, (u.arrive d).1.all[s]? = some x ∧ x.key = keyOf d ∧ x.alive = true ∧
    ((u.arrive d).2 = .queued s ∨ (u.arrive d).2 = .dropped s ∧ (u.arrive d).1 = u ∧ (waiting u s).length = LIMIT) := by
  cases hm : u.map.find (keyOf d) with
  | none =>
    rw [arrive_new hm]
    exact ⟨u.all.length, { key := keyOf d, queue := [d.data.take SIZE], accepted := false, alive := true }, by simp, rfl, rfl, .inl rfl⟩
  | some s =>
    rw [arrive_known hm]
    obtain ⟨x, h1, h2, h3⟩ := h.found _ _ hm
    have hl := (List.getElem?_eq_some_iff.1 h1).1
    rcases push_cases u s (d.data.take SIZE) with ⟨_, hp⟩ | ⟨y, hy, _, ⟨hq, hp⟩ | ⟨hq, hp⟩⟩
    · have := hp x h1
      rw [h2] at this
      simp at this
    · rw [hp]
      refine ⟨s, x, h1, h3, h2, .inr ⟨rfl, rfl, ?_⟩⟩
      rw [hy] at h1
      simp only [Option.some.injEq] at h1
      simp only [waiting, hy]
      have := h.short s y hy
      omega
    · rw [hp]
      rw [hy] at h1
      simp only [Option.some.injEq] at h1
      exact ⟨s, { y with queue := y.queue ++ [d.data.take SIZE] }, by simp [hl], by rw [← h3, ← h1], by simp [h1, h2], .inl rfl⟩

end Udp
end Sps
