import Verif.Model.Http
import Verif.Spec.Http
import Verif.Lemmas.Bytes
/-! Lemmas about HTTP transports. -/
namespace Sps
open Spec

namespace Io

theorem readFully_any (size : Nat) (hs : size < 2 ^ 64) : ∀ (fuel : Nat) (io : Io) (got : List UInt8), ioOk io = true → got.length < size →
    size ≤ fuel + got.length →
    ∃ e d io', readFully fuel io size got = some (e, got ++ d, io') ∧ ioOk io' = true ∧ io'.closed = io.closed ∧
      streamOf io.evs = d ++ streamOf io'.evs ∧
      (e = Err.SUCCESS ∧ got.length + d.length = size ∨ e ≠ Err.SUCCESS ∧ got.length + d.length < size) ∧
      (noErr io.evs = true → noErr io'.evs = true ∧ (e ≠ Err.SUCCESS → e = io.closed ∧ streamOf io'.evs = []))
  | 0, io, got, _, hg, hf => by omega
  | fuel + 1, io, got, hok, hg, hf => by
    have hsub : subSz size got.length = size - got.length := subSz_eq (by omega) hs
    obtain ⟨h1, h2, h3, h4⟩ := Io.read_spec io (size - got.length) hok
    unfold readFully
    rw [hsub]
    cases hr : io.read (size - got.length) with
    | mk r io1 =>
      rw [hr] at h1 h2 h3 h4
      cases r with
      | err e =>
        simp only at h4 ⊢
        obtain ⟨g1, g2, g3⟩ := h4
        refine ⟨e, [], io1, by simp, h1, h2, by simp [g2], .inr ⟨g1, by simpa using hg⟩, fun hn => ⟨h3 hn, fun _ => ?_⟩⟩
        obtain ⟨k1, k2⟩ := g3 (by omega) hn
        exact ⟨k1, by rw [g2, k2]⟩
      | ok d =>
        simp only at h4 ⊢
        obtain ⟨g1, g2, g3⟩ := h4
        have hd : 0 < d.length := by cases d with | nil => exact absurd rfl g1 | cons => simp
        by_cases hl : got.length + d.length < size
        · rw [if_pos hl]
          obtain ⟨e, d', io', k1, k2, k3, k4, k5, k6⟩ := readFully_any size hs fuel io1 (got ++ d) h1 (by simpa using hl) (by simp; omega)
          refine ⟨e, d ++ d', io', by rw [k1, List.append_assoc], k2, k3.trans h2, by rw [g3, k4, List.append_assoc], ?_, ?_⟩
          · simp only [List.length_append] at k5 ⊢
            rcases k5 with ⟨q1, q2⟩ | ⟨q1, q2⟩
            · exact .inl ⟨q1, by omega⟩
            · exact .inr ⟨q1, by omega⟩
          · intro hn
            obtain ⟨m1, m2⟩ := k6 (h3 hn)
            exact ⟨m1, fun he => by rw [← h2]; exact m2 he⟩
        · rw [if_neg hl]
          refine ⟨Err.SUCCESS, d, io1, rfl, h1, h2, g3, .inl ⟨rfl, by omega⟩, fun hn => ⟨h3 hn, fun he => absurd rfl he⟩⟩

/-- A `read_fully` on any transport. -/
theorem full_any (io : Io) (n : Nat) (h0 : 0 < n) (hn : n < 2 ^ 64) (hok : ioOk io = true) :
    ∃ e d io', io.full n = some (e, d, io') ∧ ioOk io' = true ∧ io'.closed = io.closed ∧ streamOf io.evs = d ++ streamOf io'.evs ∧
      (e = Err.SUCCESS ∧ d.length = n ∨ e ≠ Err.SUCCESS ∧ d.length < n) ∧
      (noErr io.evs = true → noErr io'.evs = true ∧ (e ≠ Err.SUCCESS → e = io.closed ∧ streamOf io'.evs = [])) := by
  have := readFully_any n hn (n + 1) io [] hok (by simpa using h0) (by simp)
  simpa [full] using this

/-- On a stream that has the bytes. -/
theorem full_on {io : Io} {d s : List UInt8} {cl : Err} (h : Arrives io (d ++ s) cl) (h0 : 0 < d.length) (hn : d.length < 2 ^ 64) :
    ∃ io', io.full d.length = some (Err.SUCCESS, d, io') ∧ Arrives io' s cl := by
  obtain ⟨e, d', io', h1, h2, h3, h4, h5, h6⟩ := full_any io d.length h0 hn h.ok
  obtain ⟨g1, g2⟩ := h6 h.noErr
  rw [h.stream] at h4
  have hl := congrArg List.length h4
  simp only [List.length_append] at hl
  rcases h5 with ⟨he, hd⟩ | ⟨he, hd⟩
  · obtain ⟨k1, k2⟩ := List.append_inj h4 hd.symm
    subst k1
    exact ⟨io', by rw [h1, he], h2, g1, k2.symm, h3.trans h.closed⟩
  · obtain ⟨_, hz⟩ := g2 he
    rw [hz, List.length_nil] at hl
    omega

/-- On a stream that ends before. -/
theorem full_short {io : Io} {s : List UInt8} {cl : Err} (h : Arrives io s cl) (n : Nat) (hs : s.length < n) (hn : n < 2 ^ 64) :
    ∃ io', io.full n = some (cl, s, io') ∧ Arrives io' [] cl := by
  obtain ⟨e, d', io', h1, h2, h3, h4, h5, h6⟩ := full_any io n (by omega) hn h.ok
  obtain ⟨g1, g2⟩ := h6 h.noErr
  rw [h.stream] at h4
  have hl := congrArg List.length h4
  simp only [List.length_append] at hl
  rcases h5 with ⟨he, hd⟩ | ⟨he, hd⟩
  · omega
  · obtain ⟨ha, hz⟩ := g2 he
    rw [hz, List.append_nil] at h4
    exact ⟨io', by rw [h1, h4, ha, h.closed], h2, g1, hz, h3.trans h.closed⟩

/-- A `read` on a stream that has bytes. -/
theorem read_on {io : Io} {s : List UInt8} {cl : Err} (h : Arrives io s cl) (hs : s ≠ []) (n : Nat) (hn : 0 < n) :
    ∃ d s' io', io.read n = (.ok d, io') ∧ s = d ++ s' ∧ d ≠ [] ∧ d.length ≤ n ∧ Arrives io' s' cl := by
  obtain ⟨h1, h2, h3, h4⟩ := Io.read_spec io n h.ok
  cases hr : io.read n with
  | mk r io1 =>
    rw [hr] at h1 h2 h3 h4
    cases r with
    | err e =>
      obtain ⟨_, _, g3⟩ := h4
      exact absurd (h.stream ▸ (g3 hn h.noErr).2) hs
    | ok d =>
      obtain ⟨g1, g2, g3⟩ := h4
      exact ⟨d, streamOf io1.evs, io1, rfl, by rw [← h.stream]; exact g3, g1, g2, h1, h3 h.noErr, rfl, h2.trans h.closed⟩

/-- A `read` at the end of the stream. -/
theorem read_end {io : Io} {cl : Err} (h : Arrives io [] cl) (n : Nat) (hn : 0 < n) :
    ∃ io', io.read n = (.err cl, io') ∧ Arrives io' [] cl := by
  obtain ⟨h1, h2, h3, h4⟩ := Io.read_spec io n h.ok
  cases hr : io.read n with
  | mk r io1 =>
    rw [hr] at h1 h2 h3 h4
    cases r with
    | err e =>
      obtain ⟨_, g2, g3⟩ := h4
      obtain ⟨k1, k2⟩ := g3 hn h.noErr
      refine ⟨io1, ?_, h1, h3 h.noErr, by rw [g2, k2], h2.trans h.closed⟩
      rw [k1, h.closed]
    | ok d =>
      obtain ⟨g1, _, g3⟩ := h4
      rw [h.stream] at g3
      have := List.append_eq_nil_iff.mp g3.symm
      exact absurd this.1 g1

/-- One byte. -/
theorem read_one {io : Io} {b : UInt8} {s : List UInt8} {cl : Err} (h : Arrives io (b :: s) cl) :
    ∃ io', io.read 1 = (.ok [b], io') ∧ Arrives io' s cl := by
  obtain ⟨d, s', io', h1, h2, h3, h4, h5⟩ := read_on h (by simp) 1 (by decide)
  match d, h3, h4 with
  | [x], _, _ =>
    simp only [List.cons_append, List.nil_append, List.cons.injEq] at h2
    obtain ⟨rfl, rfl⟩ := h2
    exact ⟨io', h1, h5⟩

end Io

namespace HttpHead
open Spec.Http

/-- The reader may take `k` more bytes without passing an end of header. -/
def Safe (b : List UInt8) (k : Nat) : Prop := ∀ x, x.length < k → ¬ headEnd <:+: b ++ x

theorem infix_suffix {b : List UInt8} (h : ∀ a c, b = a ++ headEnd ++ c → c = []) (hi : headEnd <:+: b) : headEnd <:+ b := by
  obtain ⟨a, c, h1⟩ := hi
  have := h a c h1.symm
  subst this
  exact ⟨a, by simpa using h1⟩

/-- The end of header can only be at the end of what was read. -/
theorem Safe.read {b : List UInt8} {k : Nat} (h : Safe b k) (hk : 0 < k) {y : List UInt8} (hy : y.length = k) :
    ∀ a c, b ++ y = a ++ headEnd ++ c → c = [] := by
  intro a c he
  refine Classical.byContradiction fun hc => ?_
  have hcl : 0 < c.length := by cases c with | nil => exact absurd rfl hc | cons => simp
  have hl := congrArg List.length he
  simp only [List.length_append, headEnd, crlf, List.length_cons, List.length_nil] at hl
  have ht : (b ++ y).take (b.length + k - c.length) = a ++ headEnd := by
    rw [he, List.take_append_of_le_length (by simp [headEnd, crlf]; omega), List.take_of_length_le (by simp [headEnd, crlf]; omega)]
  by_cases hb : b.length ≤ b.length + k - c.length
  · rw [List.take_append, List.take_of_length_le hb] at ht
    exact h (y.take (b.length + k - c.length - b.length)) (by rw [List.length_take]; omega) ⟨a, [], by rw [ht]; simp⟩
  · have hb' : b.length + k - c.length ≤ b.length := by omega
    rw [List.take_append_of_le_length hb'] at ht
    refine h [] (by simpa using hk) ?_
    rw [List.append_nil]
    exact ⟨a, b.drop (b.length + k - c.length), by rw [← ht, List.take_append_drop]⟩

/-- The next state is safe. -/
theorem next_safe {r : List UInt8} {c0 c1 c2 c3 : UInt8} {k : Nat} (hn : next c0 c1 c2 c3 = some k)
    (h : ∀ a c, r ++ [c3, c2, c1, c0] = a ++ headEnd ++ c → c = []) : Safe (r ++ [c3, c2, c1, c0]) k := by
  have hno : ¬ headEnd <:+: r ++ [c3, c2, c1, c0] := by
    intro hi
    obtain ⟨a, ha⟩ := infix_suffix h hi
    have := List.append_inj_right' ha rfl
    simp only [headEnd, crlf, CR, LF, List.cons_append, List.nil_append, List.cons.injEq, and_true] at this
    obtain ⟨rfl, rfl, rfl, rfl⟩ := this
    simp [next] at hn
  intro x hx
  rintro ⟨a, c, he⟩
  have hlen := congrArg List.length he
  simp only [List.length_append, headEnd, crlf, List.length_cons, List.length_nil] at hlen
  by_cases hc : x.length ≤ c.length
  · -- it would lie in what was read
    apply hno
    have h2 : (r ++ [c3, c2, c1, c0]) = (a ++ headEnd) ++ c.take (c.length - x.length) := by
      have h3 := congrArg (List.take (r ++ [c3, c2, c1, c0]).length) he
      rw [List.take_left' rfl] at h3
      rw [← h3, List.take_append, List.take_of_length_le (by simp [headEnd, crlf]; omega)]
      congr 2
      simp [headEnd, crlf]
      omega
    exact ⟨a, _, h2.symm⟩
  · -- it would end in `x`
    have hk4 : k ≤ 4 := by
      unfold next at hn
      repeat' split at hn
      all_goals first | cases hn; done | (cases hn; decide)
    have hrev := congrArg List.reverse he
    simp only [List.reverse_append, headEnd, crlf, CR, LF, List.reverse_cons, List.reverse_nil, List.nil_append, List.cons_append] at hrev
    have hrev2 := congrArg (List.drop c.length) hrev
    rw [List.drop_left' (by simp), List.drop_append_of_le_length (by simp; omega)] at hrev2
    have hj : (List.drop c.length x.reverse).length = x.length - c.length := by simp
    have hj1 : 1 ≤ x.length - c.length := by omega
    have hj2 : x.length - c.length < k := by omega
    generalize List.drop c.length x.reverse = z at hrev2 hj
    match z, hj with
    | [], hj => simp at hj; omega
    | [z0], hj =>
      simp only [List.cons_append, List.nil_append, List.cons.injEq] at hrev2
      obtain ⟨_, rfl, rfl, rfl, _⟩ := hrev2
      simp [next] at hn
      omega
    | [z0, z1], hj =>
      simp only [List.cons_append, List.nil_append, List.cons.injEq] at hrev2
      obtain ⟨_, _, rfl, rfl, _⟩ := hrev2
      simp only [List.length_cons, List.length_nil] at hj
      simp [next] at hn
      omega
    | [z0, z1, z2], hj =>
      simp only [List.cons_append, List.nil_append, List.cons.injEq] at hrev2
      obtain ⟨_, _, _, rfl, _⟩ := hrev2
      simp only [List.length_cons, List.length_nil] at hj
      unfold next at hn
      simp only [ne_eq, not_true_eq_false, and_false, if_false, if_true] at hn
      split at hn <;> cases hn <;> omega
    | _ :: _ :: _ :: _ :: _, hj => simp at hj; omega

theorem next_le {c0 c1 c2 c3 : UInt8} {k : Nat} (hn : next c0 c1 c2 c3 = some k) : 1 ≤ k ∧ k ≤ 4 := by
  unfold next at hn
  repeat' split at hn
  all_goals first | cases hn; done | (cases hn; decide)

theorem rev4 {b : List UInt8} (h : 4 ≤ b.length) : ∃ r c3 c2 c1 c0, b = r ++ [c3, c2, c1, c0] ∧ b.reverse = c0 :: c1 :: c2 :: c3 :: r.reverse := by
  have : 4 ≤ b.reverse.length := by simpa using h
  match hb : b.reverse, this with
  | c0 :: c1 :: c2 :: c3 :: r, _ =>
    refine ⟨r.reverse, c3, c2, c1, c0, ?_, by simp⟩
    have := congrArg List.reverse hb
    simpa using this

/-- The reader on any transport: what it consumes, and that it stops at the first end of header at the latest. -/
theorem read_any (max : Nat) : ∀ (fuel state : Nat) (buf : List UInt8) (io : Io), ioOk io = true → 1 ≤ state → state ≤ 4 → 4 ≤ buf.length + state →
    Safe buf state → max < fuel + buf.length → buf.length ≤ max →
    ∃ r d io', read max fuel state buf io = some (r, io') ∧ ioOk io' = true ∧ io'.closed = io.closed ∧ streamOf io.evs = d ++ streamOf io'.evs ∧
      (buf ++ d).length ≤ max ∧ (∀ a c, buf ++ d = a ++ headEnd ++ c → c = []) ∧
      (∀ h, r = .ok h → h = buf ++ d)
  | 0, state, buf, io, _, h1, h4, hb, hs, hf, hm0 => by omega
  | fuel + 1, state, buf, io, hok, h1, h4, hb, hs, hf, hm0 => by
    unfold read
    by_cases hm : (state : Int) > (max : Int) - (buf.length : Int)
    · rw [if_pos hm]
      refine ⟨_, [], io, rfl, hok, rfl, by simp, by simpa using hm0, ?_, by intro h hh; cases hh⟩
      intro a c he
      rw [List.append_nil] at he
      have h0 : ¬ headEnd <:+: buf := by have := hs [] (by simp; omega); rwa [List.append_nil] at this
      exact absurd ⟨a, c, he.symm⟩ h0
    · rw [if_neg hm]
      obtain ⟨e, d, io1, k1, k2, k3, k4, k5, _⟩ := Io.full_any io state (by omega) (by omega) hok
      rw [k1, Option.bind_some]
      simp only
      by_cases he : e ≠ Err.SUCCESS
      · rw [if_pos he]
        have hd : d.length < state := by rcases k5 with h | h; exact absurd h.1 he; exact h.2
        refine ⟨_, d, io1, rfl, k2, k3, k4, ?_, ?_, by intro h hh; cases hh⟩
        · simp only [List.length_append]; omega
        · intro a c hac
          exact absurd (⟨a, c, hac.symm⟩ : headEnd <:+: buf ++ d) (hs d hd)
      · rw [if_neg he]
        have hd : d.length = state := by rcases k5 with h | h; exact h.2; exact absurd h.1 he
        obtain ⟨r, c3, c2, c1, c0, g1, g2⟩ := rev4 (b := buf ++ d) (by simp; omega)
        rw [g2]
        simp only
        have hread := hs.read h1 hd
        cases hn : next c0 c1 c2 c3 with
        | none =>
          refine ⟨_, d, io1, rfl, k2, k3, k4, ?_, hread, by intro h hh; cases hh; rfl⟩
          simp only [List.length_append]; omega
        | some k =>
          simp only
          have hk := next_le hn
          obtain ⟨r', d', io', m1, m2, m3, m4, m5, m6, m7⟩ := read_any max fuel k (buf ++ d) io1 k2 hk.1 hk.2 (by simp; omega)
            (by rw [g1]; exact next_safe hn (by rw [← g1]; exact hread)) (by simp; omega) (by simp; omega)
          refine ⟨r', d ++ d', io', m1, m2, m3.trans k3, by rw [k4, m4, List.append_assoc], ?_, ?_, ?_⟩
          · rw [← List.append_assoc]
            exact m5
          · rw [← List.append_assoc]; exact m6
          · rw [← List.append_assoc]; exact m7

/-- CR and LF come together only. -/
def clean : List UInt8 → Bool
  | [] => true
  | [b] => b != 13 && b != 10
  | b :: c :: r => if b = 13 then c == 10 && clean r else b != 10 && clean (c :: r)

theorem clean_lf : ∀ (s a c : List UInt8), clean s = true → s = a ++ 10 :: c → ∃ a', a = a' ++ [13]
  | [], a, c, _, h => by cases a <;> cases h
  | [b], a, c, hc, h => by
    cases a with
    | nil => simp only [List.nil_append, List.cons.injEq] at h; obtain ⟨rfl, _⟩ := h; simp [clean] at hc
    | cons x a => simp at h
  | b :: d :: r, a, c, hc, h => by
    unfold clean at hc
    split at hc
    · rename_i hb
      simp only [Bool.and_eq_true, beq_iff_eq] at hc
      match a, h with
      | [], h => simp only [List.nil_append, List.cons.injEq] at h; rw [hb] at h; exact absurd h.1 (by decide)
      | [x], h => simp only [List.cons_append, List.nil_append, List.cons.injEq] at h; exact ⟨[], by rw [← h.1, hb]; rfl⟩
      | x :: y :: a, h =>
        simp only [List.cons_append, List.cons.injEq] at h
        obtain ⟨a', ha⟩ := clean_lf r a c hc.2 h.2.2
        exact ⟨x :: y :: a', by rw [ha]; rfl⟩
    · rename_i hb
      simp only [Bool.and_eq_true, bne_iff_ne] at hc
      match a, h with
      | [], h => simp only [List.nil_append, List.cons.injEq] at h; exact absurd h.1 hc.1
      | x :: a, h =>
        simp only [List.cons_append, List.cons.injEq] at h
        obtain ⟨a', ha⟩ := clean_lf (d :: r) a c hc.2 h.2
        exact ⟨x :: a', by rw [ha]; rfl⟩

theorem clean_cr : ∀ (s a c : List UInt8), clean s = true → s = a ++ 13 :: c → ∃ c', c = 10 :: c'
  | [], a, c, _, h => by cases a <;> cases h
  | [b], a, c, hc, h => by
    cases a with
    | nil => simp only [List.nil_append, List.cons.injEq] at h; obtain ⟨rfl, _⟩ := h; simp [clean] at hc
    | cons x a => simp at h
  | b :: d :: r, a, c, hc, h => by
    unfold clean at hc
    split at hc
    · rename_i hb
      simp only [Bool.and_eq_true, beq_iff_eq] at hc
      match a, h with
      | [], h => simp only [List.nil_append, List.cons.injEq] at h; exact ⟨r, by rw [← h.2, hc.1]⟩
      | [x], h => simp only [List.cons_append, List.nil_append, List.cons.injEq] at h; rw [hc.1] at h; exact absurd h.2.1 (by decide)
      | x :: y :: a, h =>
        simp only [List.cons_append, List.cons.injEq] at h
        exact clean_cr r a c hc.2 h.2.2
    · rename_i hb
      simp only [Bool.and_eq_true, bne_iff_ne] at hc
      match a, h with
      | [], h => simp only [List.nil_append, List.cons.injEq] at h; exact absurd h.1 hb
      | x :: a, h =>
        simp only [List.cons_append, List.cons.injEq] at h
        exact clean_cr (d :: r) a c hc.2 h.2

theorem clean_line : ∀ (l r : List UInt8), (∀ b ∈ l, b ≠ CR ∧ b ≠ LF) → clean (l ++ crlf ++ r) = clean r
  | [], r, _ => by simp [crlf, CR, LF, clean]
  | b :: l, r, h => by
    have hb := h b (by simp)
    have hl := clean_line l r fun x hx => h x (List.mem_cons_of_mem _ hx)
    have : ∃ y ys, l ++ crlf ++ r = y :: ys := by
      cases l with
      | nil => exact ⟨_, _, rfl⟩
      | cons y ys => exact ⟨y, ys ++ crlf ++ r, rfl⟩
    obtain ⟨y, ys, hy⟩ := this
    rw [List.cons_append, List.cons_append, hy, clean, if_neg (show b ≠ 13 from hb.1), ← hy, hl]
    have : (b != 10) = true := bne_iff_ne.mpr hb.2
    rw [this, Bool.true_and]

theorem clean_head : ∀ lines : List (List UInt8), (∀ l ∈ lines, lineOk l) → clean (head lines) = true
  | [], _ => by decide
  | l :: ls, h => by
    have := clean_head ls fun x hx => h x (List.mem_cons_of_mem _ hx)
    unfold head at this ⊢
    rw [List.flatMap_cons, List.append_assoc, clean_line l _ (h l (by simp)).2]
    exact this

theorem first_head : ∀ lines : List (List UInt8), (∀ l ∈ lines, lineOk l) → ∀ a c, head lines = a ++ headEnd ++ c → c = []
  | [], _, a, c, h => by
    have := congrArg List.length h
    simp [head, headEnd, crlf] at this
    omega
  | l :: ls, hl, a, c, h => by
    have h1 : l ++ (crlf ++ head ls) = a ++ (headEnd ++ c) := by
      rw [← List.append_assoc a, ← h]; simp [head]
    have key : ∀ a', crlf ++ head ls = a' ++ (headEnd ++ c) → c = [] := by
      intro a' h2
      match a', h2 with
      | [], h2 =>
        simp only [headEnd, crlf, List.cons_append, List.nil_append, List.cons.injEq, true_and] at h2
        cases ls with
        | nil => simp [head, crlf] at h2; exact h2
        | cons l2 ls =>
          have hl2 := hl l2 (by simp)
          obtain ⟨b, l2', rfl⟩ : ∃ b l2', l2 = b :: l2' := by
            cases l2 with
            | nil => exact absurd rfl hl2.1
            | cons b l2' => exact ⟨b, l2', rfl⟩
          simp only [head, List.flatMap_cons, List.cons_append, List.cons.injEq] at h2
          exact absurd h2.1 (hl2.2 b (by simp)).1
      | [x], h2 =>
        simp only [headEnd, crlf, CR, LF, List.cons_append, List.nil_append, List.cons.injEq] at h2
        exact absurd h2.2.1 (by decide)
      | x :: y :: a', h2 =>
        simp only [crlf, List.cons_append, List.nil_append, List.cons.injEq] at h2
        exact first_head ls (fun x hx => hl x (List.mem_cons_of_mem _ hx)) a' c (by rw [h2.2.2, List.append_assoc])
    rcases List.append_eq_append_iff.mp h1 with ⟨a', h2, h3⟩ | ⟨l', h2, h3⟩
    · exact key a' h3
    · cases l' with
      | nil => exact key [] h3.symm
      | cons x l' =>
        simp only [headEnd, crlf, List.cons_append, List.cons.injEq] at h3
        exact absurd h3.1.symm ((hl l (by simp)).2 x (by rw [h2]; simp)).1

theorem end_head (lines : List (List UInt8)) (hne : lines ≠ []) : headEnd <:+: head lines := by
  obtain ⟨ls, l, rfl⟩ : ∃ ls l, lines = ls ++ [l] := ⟨lines.dropLast, lines.getLast hne, (List.dropLast_concat_getLast hne).symm⟩
  exact ⟨ls.flatMap (· ++ crlf) ++ l, [], by simp [head, headEnd]⟩

/-- The reader on a header (or a beginning of one). -/
theorem read_clean (max : Nat) {h : List UInt8} (hc : clean h = true) (hf : ∀ a c, h = a ++ headEnd ++ c → c = []) (he : headEnd <:+: h)
    {cl : Err} (hcl : cl ≠ Err.SUCCESS) : ∀ (fuel state : Nat) (buf x t : List UInt8) (io : Io), h = buf ++ x → (x <+: t ∨ t <+: x) → Arrives io t cl →
    1 ≤ state → state ≤ 4 → 4 ≤ buf.length + state → Safe buf state → max < fuel + buf.length → buf.length ≤ max →
    ∃ r io', read max fuel state buf io = some (r, io') ∧ (h.length ≤ max → x <+: t → r = .ok h ∧ Arrives io' (t.drop x.length) cl) ∧
      (max < h.length → x <+: t → r = .error (-1)) ∧ (h.length ≤ max → ¬ x <+: t → r = .error (-(cl : Int)))
  | 0, state, buf, x, t, io, _, _, _, _, _, _, _, hfu, hm0 => by omega
  | fuel + 1, state, buf, x, t, io, hx, hpre, ha, h1, h4, hb, hs, hfu, hm0 => by
    have hst : state ≤ x.length := by
      refine Classical.byContradiction fun hlt => ?_
      exact hs x (by omega) (hx ▸ he)
    have hlen : h.length = buf.length + x.length := by rw [hx, List.length_append]
    unfold read
    by_cases hm : (state : Int) > (max : Int) - (buf.length : Int)
    · rw [if_pos hm]
      exact ⟨_, io, rfl, fun _ => by omega, fun _ _ => rfl, fun _ => by omega⟩
    · rw [if_neg hm]
      by_cases ht : t.length < state
      · obtain ⟨io', k1, k2⟩ := Io.full_short ha state ht (by omega)
        rw [k1, Option.bind_some]
        simp only
        rw [if_pos hcl]
        have hnp : ¬ x <+: t := fun hp => by have := hp.length_le; omega
        exact ⟨_, io', rfl, fun _ hp => absurd hp hnp, fun _ hp => absurd hp hnp, fun _ _ => rfl⟩
      · have hd : (t.take state).length = state := by rw [List.length_take]; omega
        rw [← List.take_append_drop state t] at ha
        obtain ⟨io1, k1, k2⟩ := Io.full_on ha (by omega) (by omega)
        rw [hd] at k1
        rw [k1, Option.bind_some]
        simp only
        rw [if_neg (by decide)]
        have hxt : t.take state = x.take state := by
          rcases hpre with ⟨y, hy⟩ | ⟨y, hy⟩
          · rw [← hy, List.take_append_of_le_length hst]
          · rw [← hy, List.take_append_of_le_length (by omega)]
        generalize hdd : t.take state = d at *
        obtain ⟨r, c3, c2, c1, c0, g1, g2⟩ := rev4 (b := buf ++ d) (by simp; omega)
        have hx' : h = (buf ++ d) ++ x.drop state := by rw [hxt, List.append_assoc, List.take_append_drop, hx]
        rw [g2]
        simp only
        have hread := hs.read h1 hd
        cases hn : next c0 c1 c2 c3 with
        | none =>
          have hin : headEnd <:+ buf ++ d := by
            rw [g1] at hx' ⊢
            unfold next at hn
            split at hn
            · cases hn
            · rename_i h0
              split at hn
              · split at hn <;> cases hn
              · rename_i h13
                have hc0 : c0 = 10 := by
                  refine Classical.byContradiction fun hq => h0 ⟨hq, h13⟩
                subst hc0
                split at hn
                · cases hn
                · rename_i h2
                  have e1 : c1 = 13 := by
                    obtain ⟨a', ha'⟩ := clean_lf h (r ++ [c3, c2, c1]) (x.drop state) hc (by rw [hx']; simp)
                    have := List.append_inj_right' (s₁ := r ++ [c3, c2]) (t₁ := [c1]) (s₂ := a') (t₂ := [13]) (by rw [← ha']; simp) rfl
                    simpa using this
                  have e23 : c2 = 10 ∧ c3 = 13 := by
                    by_cases h2' : c2 = 10
                    · subst h2'
                      refine ⟨rfl, ?_⟩
                      obtain ⟨a', ha'⟩ := clean_lf h (r ++ [c3]) (c1 :: 10 :: x.drop state) hc (by rw [hx']; simp)
                      have := List.append_inj_right' (s₁ := r) (t₁ := [c3]) (s₂ := a') (t₂ := [13]) ha' rfl
                      simpa using this
                    · have h3 : c3 = 13 := Classical.byContradiction fun hq => h2 ⟨h2', hq⟩
                      subst h3
                      obtain ⟨c', hc'⟩ := clean_cr h r (c2 :: c1 :: 10 :: x.drop state) hc (by rw [hx']; simp)
                      simp only [List.cons.injEq] at hc'
                      exact absurd hc'.1 h2'
                  refine ⟨r, ?_⟩
                  rw [e1, e23.1, e23.2]
                  rfl
          obtain ⟨a, hae⟩ := hin
          have hz := hf a (x.drop state) (by rw [hae]; exact hx')
          have hxl : x.length = state := by
            have := congrArg List.length hz
            simp at this
            omega
          rw [hz, List.append_nil] at hx'
          refine ⟨_, io1, rfl, fun _ _ => ⟨by rw [hx'], by rw [hxl]; exact k2⟩, fun hgt => by omega, fun _ hnp => ?_⟩
          exfalso
          apply hnp
          rw [← List.take_of_length_le (l := x) (i := state) (by omega), ← hxt, ← hdd]
          exact List.take_prefix _ _
        | some k =>
          simp only
          have hk := next_le hn
          have hpre' : x.drop state <+: t.drop state ∨ t.drop state <+: x.drop state := by
            rcases hpre with ⟨y, hy⟩ | ⟨y, hy⟩
            · left; exact ⟨y, by rw [← hy, List.drop_append_of_le_length hst]⟩
            · right; exact ⟨y, by rw [← hy, List.drop_append_of_le_length (by omega)]⟩
          have hiff : x <+: t ↔ x.drop state <+: t.drop state := by
            constructor
            · rintro ⟨y, hy⟩
              exact ⟨y, by rw [← hy, List.drop_append_of_le_length hst]⟩
            · rintro ⟨y, hy⟩
              exact ⟨y, by rw [← List.take_append_drop state t, hdd, hxt, ← hy, ← List.append_assoc, List.take_append_drop]⟩
          obtain ⟨r', io', m1, m2, m3, m4⟩ := read_clean max hc hf he hcl fuel k (buf ++ d) (x.drop state) (t.drop state) io1 hx' hpre' k2 hk.1 hk.2
            (by simp; omega) (by rw [g1]; exact next_safe hn (by rw [← g1]; exact hread)) (by simp; omega) (by simp; omega)
          refine ⟨r', io', m1, ?_, ?_, ?_⟩
          · intro hmx hp
            obtain ⟨q1, q2⟩ := m2 hmx (hiff.mp hp)
            refine ⟨q1, ?_⟩
            rw [List.length_drop, List.drop_drop] at q2
            have : state + (x.length - state) = x.length := by omega
            rwa [this] at q2
          · intro hmx hp; exact m3 hmx (hiff.mp hp)
          · intro hmx hp; exact m4 hmx (fun hq => hp (hiff.mpr hq))

end HttpHead
end Sps
