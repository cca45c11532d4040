import Verif.Lemmas.HttpBody
/-! A connection that ends early: every step is as on the whole stream, or fails with the error of the transport. -/
namespace Sps
open Spec Spec.Http

/-- `b` is `a` with `x` coming after it. -/
structure Cut (x : List IoEv) (cl : Err) (a b : Io) : Prop where
  evs : b.evs = a.evs ++ x
  ca : a.closed = cl
  cb : b.closed = cl
  noErr : noErr a.evs = true

/-- The same on both, or the error of the transport on the shorter. -/
def Rel1 (x : List IoEv) (cl : Err) {α : Type} (ra rb : Option (Err × α × Io)) : Prop :=
  (ra = none ∧ rb = none) ∨ (∃ e v a b, ra = some (e, v, a) ∧ rb = some (e, v, b) ∧ Cut x cl a b) ∨ ∃ v a, ra = some (cl, v, a)

/-- The same with one more component. -/
def Rel2 (x : List IoEv) (cl : Err) {α β : Type} (ra rb : Option (Err × α × β × Io)) : Prop :=
  (ra = none ∧ rb = none) ∨ (∃ e v w a b, ra = some (e, v, w, a) ∧ rb = some (e, v, w, b) ∧ Cut x cl a b) ∨ ∃ v w a, ra = some (cl, v, w, a)

namespace Io

theorem read_cut {x : List IoEv} {cl : Err} {a b : Io} (h : Cut x cl a b) (n : Nat) :
    (∃ r a' b', a.read n = (r, a') ∧ b.read n = (r, b') ∧ Cut x cl a' b') ∨ ∃ a', a.read n = (.err cl, a') := by
  obtain ⟨h1, h2, h3, h4⟩ := h
  unfold read
  by_cases hn : n = 0
  · left; rw [if_pos hn, if_pos hn]; exact ⟨_, _, _, rfl, rfl, h1, h2, h3, h4⟩
  · rw [if_neg hn, if_neg hn, h1]
    cases he : a.evs with
    | nil => right; exact ⟨a, by simp [h2]⟩
    | cons ev evs =>
      rw [he] at h4
      cases ev with
      | err e => simp [Spec.noErr] at h4
      | data p =>
        left
        have h4' : Spec.noErr evs = true := by simpa [Spec.noErr] using h4
        simp only [List.cons_append]
        split
        · exact ⟨_, _, _, rfl, rfl, rfl, h2, h3, h4'⟩
        · exact ⟨_, _, _, rfl, rfl, rfl, h2, h3, by simpa [Spec.noErr] using h4'⟩

theorem readFully_cut {x : List IoEv} {cl : Err} (size : Nat) : ∀ (fuel : Nat) (a b : Io) (got : List UInt8), Cut x cl a b →
    Rel1 x cl (a.readFully fuel size got) (b.readFully fuel size got)
  | 0, a, b, got, _ => Or.inl ⟨rfl, rfl⟩
  | fuel + 1, a, b, got, h => by
    unfold readFully
    rcases read_cut h (subSz size got.length) with ⟨r, a', b', h1, h2, h3⟩ | ⟨a', h1⟩
    · rw [h1, h2]
      cases r with
      | err e => exact Or.inr (Or.inl ⟨_, _, _, _, rfl, rfl, h3⟩)
      | ok d =>
        simp only
        split
        · exact readFully_cut size fuel a' b' _ h3
        · exact Or.inr (Or.inl ⟨_, _, _, _, rfl, rfl, h3⟩)
    · rw [h1]; exact Or.inr (Or.inr ⟨_, _, rfl⟩)

theorem full_cut {x : List IoEv} {cl : Err} {a b : Io} (h : Cut x cl a b) (n : Nat) : Rel1 x cl (a.full n) (b.full n) := readFully_cut n _ a b [] h

end Io

namespace HttpBody

theorem line_cut {x : List IoEv} {cl : Err} : ∀ (fuel : Nat) (a b : Io) (got : List UInt8), Cut x cl a b → Rel1 x cl (line fuel a got) (line fuel b got)
  | 0, a, b, got, _ => Or.inl ⟨rfl, rfl⟩
  | fuel + 1, a, b, got, h => by
    unfold line
    rcases Io.read_cut h 1 with ⟨r, a', b', h1, h2, h3⟩ | ⟨a', h1⟩
    · rw [h1, h2]
      cases r with
      | err e => exact Or.inr (Or.inl ⟨_, _, _, _, rfl, rfl, h3⟩)
      | ok d =>
        simp only
        split
        · exact line_cut fuel a' b' _ h3
        · exact Or.inr (Or.inl ⟨_, _, _, _, rfl, rfl, h3⟩)
    · rw [h1]; exact Or.inr (Or.inr ⟨_, _, rfl⟩)

theorem readLength_cut {x : List IoEv} {cl : Err} (hcl : cl ≠ Err.SUCCESS) {a b : Io} (h : Cut x cl a b) (s : HttpBody) :
    Rel1 x cl (s.readLength a) (s.readLength b) := by
  unfold readLength
  rcases line_cut 34 a b [] h with ⟨h1, h2⟩ | ⟨e, v, a', b', h1, h2, h3⟩ | ⟨v, a', h1⟩
  · rw [h1, h2]; exact Or.inl ⟨rfl, rfl⟩
  · rw [h1, h2]
    simp only [Option.bind_some]
    right; left
    split
    · exact ⟨_, _, _, _, rfl, rfl, h3⟩
    · split
      · exact ⟨_, _, _, _, rfl, rfl, h3⟩
      · split
        · exact ⟨_, _, _, _, rfl, rfl, h3⟩
        · exact ⟨_, _, _, _, rfl, rfl, h3⟩
  · rw [h1]
    simp only [Option.bind_some]
    rw [if_pos hcl]
    exact Or.inr (Or.inr ⟨_, _, rfl⟩)

theorem tail_cut {x : List IoEv} {cl : Err} (hcl : cl ≠ Err.SUCCESS) {a b : Io} (h : Cut x cl a b) (s : HttpBody) (ret : Err) (d : List UInt8) :
    Rel2 x cl (s.tail ret d a) (s.tail ret d b) := by
  unfold tail
  by_cases hc : ret = Err.SUCCESS ∧ s.left = 0
  · rw [if_pos hc, if_pos hc]
    rcases Io.full_cut h 2 with ⟨h1, h2⟩ | ⟨e, v, a', b', h1, h2, h3⟩ | ⟨v, a', h1⟩
    · rw [h1, h2]; exact Or.inl ⟨rfl, rfl⟩
    · rw [h1, h2]; exact Or.inr (Or.inl ⟨_, _, _, _, _, rfl, rfl, h3⟩)
    · rw [h1]
      by_cases hs : cl = Err.SUCCESS ∧ v ≠ [13, 10]
      · exact absurd hs.1 hcl
      · refine Or.inr (Or.inr ?_)
        simp only [Option.map_some, if_neg hs]
        exact ⟨_, _, _, rfl⟩
  · rw [if_neg hc, if_neg hc]
    exact Or.inr (Or.inl ⟨_, _, _, _, _, rfl, rfl, h⟩)

theorem readData_cut {x : List IoEv} {cl : Err} (hcl : cl ≠ Err.SUCCESS) (side : HttpSide) {a b : Io} (h : Cut x cl a b) (s : HttpBody) (n : Nat) :
    Rel2 x cl (readData side s n a) (readData side s n b) := by
  have err : ∀ (s : HttpBody) (d : List UInt8) (a : Io), ∃ v w a', s.tail cl d a = some (cl, v, w, a') := by
    intro s d a
    unfold tail
    rw [if_neg (fun h => hcl h.1)]
    exact ⟨_, _, _, rfl⟩
  unfold readData
  cases side with
  | server =>
    simp only
    split
    · rcases Io.read_cut h (min s.left n) with ⟨r, a', b', h1, h2, h3⟩ | ⟨a', h1⟩
      · rw [h1, h2]
        cases r with
        | err e => exact tail_cut hcl h3 _ _ _
        | ok d => exact tail_cut hcl h3 _ _ _
      · rw [h1]
        exact Or.inr (Or.inr (err _ _ _))
    · exact tail_cut hcl h _ _ _
  | client =>
    simp only
    split
    · rcases Io.full_cut h (min s.left n) with ⟨h1, h2⟩ | ⟨e, v, a', b', h1, h2, h3⟩ | ⟨v, a', h1⟩
      · rw [h1, h2]; exact Or.inl ⟨rfl, rfl⟩
      · rw [h1, h2]; exact tail_cut hcl h3 _ _ _
      · rw [h1]; exact Or.inr (Or.inr (err _ _ _))
    · exact tail_cut hcl h _ _ _

theorem read_cut {x : List IoEv} {cl : Err} (hcl : cl ≠ Err.SUCCESS) (side : HttpSide) {a b : Io} (h : Cut x cl a b) (s : HttpBody) (n : Nat) :
    Rel2 x cl (s.read side n a) (s.read side n b) := by
  unfold read
  split
  · exact Or.inr (Or.inl ⟨_, _, _, _, _, rfl, rfl, h⟩)
  · split
    · unfold readChunked
      by_cases hl : s.left = 0
      · rw [if_pos hl, if_pos hl]
        rcases readLength_cut hcl h s with ⟨h1, h2⟩ | ⟨e, v, a', b', h1, h2, h3⟩ | ⟨v, a', h1⟩
        · rw [h1, h2]; exact Or.inl ⟨rfl, rfl⟩
        · rw [h1, h2]
          simp only [Option.bind_some]
          split
          · exact Or.inr (Or.inl ⟨_, _, _, _, _, rfl, rfl, h3⟩)
          · exact readData_cut hcl side h3 v n
        · rw [h1]
          simp only [Option.bind_some]
          rw [if_pos hcl]
          exact Or.inr (Or.inr ⟨_, _, _, rfl⟩)
      · rw [if_neg hl, if_neg hl]
        simp only [Option.bind_some]
        rw [if_neg (by decide), if_neg (by decide)]
        exact readData_cut hcl side h s n
    · simp only
      rcases Io.read_cut h (if 0 ≤ s.cl then min (subSz s.cl.toNat s.nread) n else n) with ⟨r, a', b', h1, h2, h3⟩ | ⟨a', h1⟩
      · rw [h1, h2]
        cases r with
        | err e => exact Or.inr (Or.inl ⟨_, _, _, _, _, rfl, rfl, h3⟩)
        | ok d => exact Or.inr (Or.inl ⟨_, _, _, _, _, rfl, rfl, h3⟩)
      · rw [h1]; exact Or.inr (Or.inr ⟨_, _, _, rfl⟩)

/-- A session on the shorter stream is that on the longer one, or ends with the error of the transport after some of its reads. -/
theorem session_cut {x : List IoEv} {cl : Err} (hcl : cl ≠ Err.SUCCESS) (side : HttpSide) : ∀ (ns : List Nat) (s : HttpBody) (a b : Io), Cut x cl a b →
    (session side ns s a = none ∧ session side ns s b = none) ∨
    (∃ e v w a' b', session side ns s a = some (e, v, w, a') ∧ session side ns s b = some (e, v, w, b') ∧ Cut x cl a' b') ∨
    (∃ v w a' ns' w' b', session side ns s a = some (cl, v, w, a') ∧ ns' <+: ns ∧ session side ns' s b = some (Err.SUCCESS, v, w', b'))
  | [], s, a, b, h => Or.inr (Or.inl ⟨_, _, _, _, _, rfl, rfl, h⟩)
  | n :: ns, s, a, b, h => by
    unfold session
    rcases read_cut hcl side h s n with ⟨h1, h2⟩ | ⟨e, v, w, a', b', h1, h2, h3⟩ | ⟨v, w, a', h1⟩
    · rw [h1, h2]; exact Or.inl ⟨rfl, rfl⟩
    · rw [h1, h2]
      simp only [Option.bind_some]
      by_cases he : e = Err.SUCCESS
      · subst he
        rw [if_neg (by decide), if_neg (by decide)]
        rcases session_cut hcl side ns w a' b' h3 with ⟨g1, g2⟩ | ⟨e', v', w', a2, b2, g1, g2, g3⟩ | ⟨v', w', a2, ns', w2, b2, g1, g2, g3⟩
        · rw [g1, g2]; exact Or.inl ⟨rfl, rfl⟩
        · rw [g1, g2]; exact Or.inr (Or.inl ⟨_, _, _, _, _, rfl, rfl, g3⟩)
        · rw [g1]
          refine Or.inr (Or.inr ⟨_, _, _, n :: ns', w2, b2, rfl, (List.cons_prefix_cons).mpr ⟨rfl, g2⟩, ?_⟩)
          show (s.read side n b).bind _ = _
          rw [h2, Option.bind_some]
          simp only
          rw [if_neg (by decide), g3]
          rfl
      · rw [if_pos he, if_pos he]
        exact Or.inr (Or.inl ⟨_, _, _, _, _, rfl, rfl, h3⟩)
    · rw [h1]
      simp only [Option.bind_some]
      rw [if_pos hcl]
      exact Or.inr (Or.inr ⟨_, _, _, [], s, b, rfl, List.nil_prefix, rfl⟩)

/-- The error never comes from the transport. -/
def Never (x : Err) (io : Io) : Prop := (∀ e, .err e ∈ io.evs → e ≠ x) ∧ io.closed ≠ x

theorem never_read {x : Err} {io : Io} (h : Never x io) (n : Nat) (hx : x ≠ Err.ERROR_IO_BUFFER_FULL) :
    Never x (io.read n).2 ∧ ∀ e, (io.read n).1 = .err e → e ≠ x := by
  unfold Io.read
  split
  · exact ⟨h, fun e he => by cases he; exact fun h => hx h.symm⟩
  · split
    · exact ⟨h, fun e he => by cases he; exact h.2⟩
    · rename_i e evs hev
      refine ⟨⟨fun e' he' => h.1 e' (by rw [hev]; exact List.mem_cons_of_mem _ he'), h.2⟩, fun e' he' => ?_⟩
      cases he'
      exact h.1 e (by rw [hev]; simp)
    · rename_i p evs hev
      split
      · exact ⟨⟨fun e' he' => h.1 e' (by rw [hev]; exact List.mem_cons_of_mem _ he'), h.2⟩, fun e' he' => by cases he'⟩
      · refine ⟨⟨fun e' he' => h.1 e' ?_, h.2⟩, fun e' he' => by cases he'⟩
        rw [hev]
        rcases List.mem_cons.mp he' with h' | h'
        · cases h'
        · exact List.mem_cons_of_mem _ h'

/-- Content-Length on any transport, errors included: what was returned is the front of the stream and never more than announced, and the
end is reported only when all of it was returned. -/
theorem session_length_any (side : HttpSide) {N : Nat} (hN : N < 2 ^ 31) : ∀ (ns : List Nat) (b : HttpBody) (io : Io),
    ioOk io = true → b.chunked = false → b.cl = (N : Int) → b.nread ≤ N → (b.eof = true → b.nread = N) → Never Err.ERROR_HTTP_RES_EOF io →
    ∃ e out b' io', session side ns b io = some (e, out, b', io') ∧ streamOf io.evs = out ++ streamOf io'.evs ∧
      b.nread + out.length ≤ N ∧ (e = Err.ERROR_HTTP_RES_EOF → b.nread + out.length = N)
  | [], b, io, hok, _, _, hle, _, _ => ⟨_, _, _, _, rfl, rfl, by simpa using hle, fun h => by cases h⟩
  | n :: ns, b, io, hok, hc, hcl, hle, he, hnv => by
    by_cases hb : b.eof = true
    · rw [session_eof side io hb]
      exact ⟨_, _, _, _, rfl, rfl, by simpa using hle, fun _ => by simpa using he hb⟩
    · unfold session read
      rw [if_neg hb, if_neg (by rw [hc]; decide)]
      have h0 : (0 : Int) ≤ b.cl := by omega
      have hsub : subSz b.cl.toNat b.nread = N - b.nread := by
        rw [hcl, Int.toNat_natCast, subSz_eq (by omega) (by omega)]
      simp only [if_pos h0, hsub]
      obtain ⟨r1, r2, r3, r4⟩ := Io.read_spec io (min (N - b.nread) n) hok
      obtain ⟨v1, v2⟩ := never_read hnv (min (N - b.nread) n) (by decide)
      cases hr : io.read (min (N - b.nread) n) with
      | mk res io1 =>
        rw [hr] at r1 r2 r3 r4 v1 v2
        cases res with
        | err e =>
          simp only [Option.bind_some] at r4 ⊢
          rw [if_pos r4.1]
          exact ⟨_, _, _, _, rfl, r4.2.1.symm, by simpa using hle, fun h => absurd h (v2 e rfl)⟩
        | ok d =>
          simp only [Option.bind_some] at r4 ⊢
          rw [if_neg (by decide)]
          obtain ⟨e, out, b', io', k1, k2, k3, k4⟩ := session_length_any side hN ns
            { b with nread := b.nread + d.length, eof := decide (b.cl.toNat ≤ b.nread + d.length) } io1 r1 hc hcl
            (by simp only; omega) (by simp only [decide_eq_true_eq, hcl, Int.toNat_natCast]; omega) v1
          rw [k1]
          refine ⟨e, d ++ out, b', io', rfl, by rw [r4.2.2, k2, List.append_assoc], ?_, ?_⟩
          · simp only [List.length_append] at k3 ⊢; omega
          · intro h; have := k4 h; simp only [List.length_append] at this ⊢; omega

end HttpBody

/-- What is missing can be thought to come later. -/
theorem arrives_cut {io : Io} {s : List UInt8} {cl : Err} (h : Arrives io s cl) (m : List UInt8) (hm : m ≠ []) :
    Cut [.data m] cl io { io with evs := io.evs ++ [.data m] } ∧ Arrives { io with evs := io.evs ++ [.data m] } (s ++ m) cl := by
  obtain ⟨h1, h2, h3, h4⟩ := h
  refine ⟨⟨rfl, h4, h4, h2⟩, ?_, ?_, ?_, h4⟩
  · simp only [Spec.ioOk, Bool.and_eq_true] at h1 ⊢
    rw [List.all_append, Bool.and_eq_true]
    exact ⟨⟨h1.1, by simpa [Spec.evOk] using hm⟩, h1.2⟩
  · simp only [Spec.noErr] at h2 ⊢
    rw [List.all_append, Bool.and_eq_true]
    exact ⟨h2, rfl⟩
  · simp only [Spec.streamOf] at h3 ⊢
    rw [List.flatMap_append, h3]
    simp [Spec.evBytes]

theorem arrives_ne {io : Io} {s : List UInt8} {cl : Err} (h : Arrives io s cl) : cl ≠ Err.SUCCESS := by
  have := h.ok
  simp only [Spec.ioOk, Bool.and_eq_true, bne_iff_ne] at this
  rw [← h.closed]
  exact this.2

/-- What arrives on the longer stream ends with what is missing on the shorter one. -/
theorem Cut.missing {a b : Io} {cl : Err} {m t : List UInt8} (h : Cut [.data m] cl a b) (hb : Arrives b t cl) : ∃ t', t = t' ++ m := by
  have := hb.stream
  rw [h.evs, Spec.streamOf, List.flatMap_append] at this
  exact ⟨Spec.streamOf a.evs, by rw [← this]; simp [Spec.evBytes, Spec.streamOf]⟩

/-- A chunked body on a connection that may end early (`m` does not come). -/
theorem HttpBody.session_chunked_cut (side : HttpSide) {io : Io} {s m t : List UInt8} {cl : Err} {z : List UInt8} {cs : List (List UInt8 × List UInt8)} {b : HttpBody}
    (hb : b.chunked = true) (he : b.eof = false) (hl : b.left = 0) (hok : codedOk cs z) (hs : s ++ m = coded cs z ++ t) (hm : m ≠ [])
    (ha : Arrives io s cl) (ns : List Nat) (hn : ∀ n ∈ ns, 0 < n) :
    ∃ e out b' io', session side ns b io = some (e, out, b', io') ∧ out <+: content cs ∧
      (e = Err.SUCCESS ∨ e = cl ∨ e = Err.ERROR_HTTP_RES_EOF ∧ out = content cs ∧ coded cs z <+: s) := by
  obtain ⟨hc, ha'⟩ := arrives_cut ha m hm
  rw [hs] at ha'
  rcases session_cut (arrives_ne ha) side ns b _ _ hc with ⟨h1, h2⟩ | ⟨e, v, w, a', b', h1, h2, h3⟩ | ⟨v, w, a', ns', w', b', h1, h2, h3⟩
  · obtain ⟨e, out, b', io', g1, _⟩ := session_chunked side hb he hl hok ha' ns hn
    rw [h2] at g1; cases g1
  · obtain ⟨e', out, b2, io', g1, g2, g3, _⟩ := session_chunked side hb he hl hok ha' ns hn
    rw [h2] at g1
    cases g1
    refine ⟨e, v, w, a', h1, g2, ?_⟩
    rcases g3 with g3 | ⟨g3, g4, g5⟩
    · exact Or.inl g3
    · refine Or.inr (Or.inr ⟨g3, g4, ?_⟩)
      obtain ⟨t', rfl⟩ := h3.missing g5
      rw [← List.append_assoc] at hs
      exact ⟨t', (List.append_cancel_right hs).symm⟩
  · obtain ⟨e', out, b2, io', g1, g2, g3, _⟩ := session_chunked side hb he hl hok ha' ns' (fun n hx => hn n (h2.subset hx))
    rw [h3] at g1
    cases g1
    exact ⟨cl, v, w, a', h1, g2, Or.inr (Or.inl rfl)⟩

/-- A body without length: all that arrives. -/
theorem HttpBody.session_unlimited (side : HttpSide) {cl : Err} : ∀ (ns : List Nat) (b : HttpBody) (io : Io) (s : List UInt8),
    (∀ n ∈ ns, 0 < n) → b.chunked = false → b.cl < 0 → b.eof = false → Arrives io s cl →
    ∃ e out b' io', session side ns b io = some (e, out, b', io') ∧ out <+: s ∧ (e = Err.SUCCESS ∨ e = cl ∧ out = s) ∧ (s.length + 1 ≤ ns.length → e = cl)
  | [], b, io, s, _, _, _, _, _ => ⟨_, _, _, _, rfl, List.nil_prefix, Or.inl rfl, fun h => by simp at h⟩
  | n :: ns, b, io, s, hn, hc, hcl, he, ha => by
    have hn0 := hn n (by simp)
    unfold session HttpBody.read
    rw [if_neg (by rw [he]; decide), if_neg (by rw [hc]; decide)]
    have h0 : ¬ (0 : Int) ≤ b.cl := by omega
    simp only [if_neg h0]
    by_cases hs : s = []
    · subst hs
      obtain ⟨io1, h1, h2⟩ := Io.read_end ha n hn0
      rw [h1]
      simp only [Option.bind_some]
      rw [if_pos (arrives_ne ha)]
      exact ⟨_, _, _, _, rfl, List.nil_prefix, Or.inr ⟨rfl, rfl⟩, fun _ => rfl⟩
    · obtain ⟨d, s', io1, h1, h2, h3, h4, h5⟩ := Io.read_on ha hs n hn0
      rw [h1]
      simp only [Option.bind_some]
      rw [if_neg (by decide)]
      obtain ⟨e, out, b', io', k1, k2, k3, k4⟩ := HttpBody.session_unlimited side ns { b with nread := b.nread + d.length, eof := b.eof } io1 s'
        (fun x hx => hn x (List.mem_cons_of_mem _ hx)) hc hcl he h5
      rw [k1]
      refine ⟨e, d ++ out, b', io', rfl, ?_, ?_, ?_⟩
      · rw [h2]; exact (List.prefix_append_right_inj d).mpr k2
      · rcases k3 with k3 | ⟨k3, k5⟩
        · exact Or.inl k3
        · exact Or.inr ⟨k3, by rw [k5, h2]⟩
      · intro hl
        apply k4
        have : 0 < d.length := by cases d with | nil => exact absurd rfl h3 | cons => simp
        rw [h2] at hl
        simp at hl
        omega

end Sps
