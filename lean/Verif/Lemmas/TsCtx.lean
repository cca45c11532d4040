import Verif.Lemmas.TsPsi
/-! # The transport stream context -/
namespace Sps.PesSt
open Spec BProg

/-- Whatever the program returns, the state belongs to the same stream. -/
def Keeps (ty : Nat) (p : BProg (Err × PesSt)) : Prop :=
  ∀ (off : Nat) (r : List Bool) (e : Err) (s : PesSt) (o : Nat) (r' : List Bool),
    onBits p off r = some ((e, s), o, r') → s.streamType = ty

theorem Keeps.ret {ty : Nat} {e : Err} {s : PesSt} (h : s.streamType = ty) : Keeps ty (.ret (e, s)) := by
  intro off r e' s' o r' hr
  simp only [onBits, Option.some.injEq, Prod.mk.injEq] at hr
  obtain ⟨⟨_, rfl⟩, _⟩ := hr
  exact h

theorem Keeps.acquire {ty n : Nat} {k : Err → BProg (Err × PesSt)} (h : ∀ e, Keeps ty (k e)) : Keeps ty (.acquire n k) := by
  intro off r e' s' o r' hr
  simp only [onBits] at hr
  split at hr <;> exact h _ _ _ _ _ _ _ hr

theorem Keeps.bits {ty n : Nat} {k : Nat → BProg (Err × PesSt)} (h : ∀ v, Keeps ty (k v)) : Keeps ty (.bits n k) := by
  intro off r e' s' o r' hr
  simp only [onBits] at hr
  split at hr
  · exact h _ _ _ _ _ _ _ hr
  · simp at hr

theorem Keeps.bytes {ty n : Nat} {k : List UInt8 → BProg (Err × PesSt)} (h : ∀ v, Keeps ty (k v)) : Keeps ty (.bytes n k) := by
  intro off r e' s' o r' hr
  simp only [onBits] at hr
  split at hr
  · exact h _ _ _ _ _ _ _ hr
  · simp at hr

theorem Keeps.skip {ty n : Nat} {k : BProg (Err × PesSt)} (h : Keeps ty k) : Keeps ty (.skip n k) := by
  intro off r e' s' o r' hr
  simp only [onBits] at hr
  split at hr
  · exact h _ _ _ _ _ _ hr
  · simp at hr

theorem Keeps.size {ty : Nat} {k : Nat → BProg (Err × PesSt)} (h : ∀ v, Keeps ty (k v)) : Keeps ty (.size k) := by
  intro off r e' s' o r' hr; exact h _ _ _ _ _ _ _ hr

theorem Keeps.pos {ty : Nat} {k : Int → BProg (Err × PesSt)} (h : ∀ v, Keeps ty (k v)) : Keeps ty (.pos k) := by
  intro off r e' s' o r' hr; exact h _ _ _ _ _ _ _ hr

theorem Keeps.bind {ty : Nat} {α : Type} {p : BProg α} {k : α → BProg (Err × PesSt)} (h : ∀ v, Keeps ty (k v)) : Keeps ty (p >>= k) := by
  intro off r e' s' o r' hr
  obtain ⟨a, o1, s1, _, h2⟩ := bind_some hr
  exact h _ _ _ _ _ _ _ h2

theorem keeps_dump (s : PesSt) : Keeps s.streamType s.dump := by
  unfold dump
  split
  · exact .bind fun n => .bind fun _ => .ret rfl
  · refine .bind fun n => ?_
    dsimp only
    generalize (if s.len > 0 then min (subSz s.len _) n else n) = left
    split
    · exact .ret rfl
    · exact .bind fun x => .bind fun n => .bind fun _ => .ret rfl

theorem keeps_optional {s : PesSt} {f n : Nat} {k : BProg (Err × PesSt)} (h : Keeps s.streamType k) :
    Keeps s.streamType (optional f n s k) := by
  unfold optional
  split
  · refine .acquire fun e => ?_
    split
    · exact .ret rfl
    · exact .skip h
  · exact h

theorem keeps_counted {s : PesSt} {f u w : Nat} {k : BProg (Err × PesSt)} (h : Keeps s.streamType k) :
    Keeps s.streamType (counted f u w s k) := by
  unfold counted
  split
  · refine .acquire fun e => ?_
    split
    · exact .ret rfl
    · refine .bits fun _ => .bits fun n => .acquire fun e => ?_
      split
      · exact .ret rfl
      · exact .skip h
  · exact h

theorem keeps_extension {s : PesSt} {f : Nat} {k : BProg (Err × PesSt)} (h : Keeps s.streamType k) :
    Keeps s.streamType (extension f s k) := by
  unfold extension
  split
  · refine .acquire fun e => ?_
    split
    · exact .ret rfl
    · exact .bits fun _ => .bits fun _ => .bits fun _ => .bits fun _ => .bits fun _ => .bits fun _ =>
        keeps_optional (keeps_counted (keeps_optional (keeps_optional (keeps_counted h))))
  · exact h

theorem keeps_finish (s : PesSt) (n : Nat) (p0 : Int) : Keeps s.streamType (finish s n p0) := by
  unfold finish
  refine .pos fun p1 => .acquire fun e => ?_
  split
  · exact .ret rfl
  · exact .skip (keeps_dump s)

theorem keeps_stamps (s : PesSt) (f : Nat) (k : PesSt → BProg (Err × PesSt))
    (h : ∀ s', s'.streamType = s.streamType → Keeps s.streamType (k s')) : Keeps s.streamType (stamps f s k) := by
  unfold stamps
  simp only
  split
  · refine .bind fun e => ?_
    split
    · exact .ret rfl
    · refine .bind fun t => ?_
      split
      · refine .bind fun e => ?_
        split
        · exact .ret rfl
        · exact .bind fun t => h _ rfl
      · exact h _ rfl
  · exact h _ rfl

theorem keeps_header (s : PesSt) : Keeps s.streamType s.header := by
  unfold header
  refine .bits fun _ => .bits fun _ => .bits fun _ => .bits fun _ => .bits fun _ => .bits fun _ => .bits fun _ => .bits fun _ =>
    .bits fun _ => .bits fun _ => .bits fun _ => .bits fun _ => .bits fun _ => .bits fun _ => .pos fun _ => ?_
  refine keeps_stamps _ _ _ fun s' hs => ?_
  rw [← hs]
  exact keeps_optional (keeps_optional (keeps_optional (keeps_optional (keeps_optional (keeps_extension (keeps_finish _ _ _))))))

theorem keeps_start (s : PesSt) : Keeps s.streamType s.start := by
  unfold start
  refine .bind fun pre => .bind fun id => .bind fun len => ?_
  simp only
  split
  · exact .ret rfl
  · split
    · exact .bind fun _ => .bind fun _ => .ret rfl
    · split
      · exact keeps_dump (s.init len)
      · exact keeps_header (s.init len)

theorem keeps_run {p : BProg (Err × PesSt)} {ty : Nat} (h : Keeps ty p) {c c' : BitCtx} {off : Nat} {r : List Bool} (ha : At c off r)
    {e : Err} {s : PesSt} (hr : p.run c = some ((e, s), c')) : s.streamType = ty := by
  obtain ⟨o, r', h1, _⟩ := of_run ha hr
  exact h _ _ _ _ _ _ h1

end Sps.PesSt

namespace Sps.TsCtx
open Spec BProg
variable {σ : Type}

theorem find_add (c : TsCtx) (pid k : Nat) (p : TsProgram) :
    (c.add pid p).progs.find k = if k = pid then some p else c.progs.find k := by
  unfold add; exact Assoc.find_insert _ _ _ _

theorem find_addPmts : ∀ (ps : List Nat) (c : TsCtx) (k : Nat),
    (c.addPmts ps).progs.find k = if k ∈ ps then some .pmt else c.progs.find k
  | [], c, k => by simp [addPmts]
  | pid :: ps, c, k => by
    rw [addPmts, find_addPmts ps, find_add]
    by_cases h1 : k ∈ ps
    · simp [h1]
    · by_cases h2 : k = pid
      · simp [h2]
      · simp [h1, h2]

theorem find_addStreams : ∀ (es : List (Nat × Nat)) (c : TsCtx) (k : Nat),
    (c.addStreams es).progs.find k = (c.progs.find k).or
      ((es.find? fun e => decide (Spec.Ts.supported e.1) && e.2 == k).map fun e => .pes (.create e.1))
  | [], c, k => by simp [addStreams]
  | (ty, pid) :: es, c, k => by
    rw [addStreams]
    by_cases h : Spec.Ts.supported ty
    · rw [if_pos (show ty = 0x0f ∨ ty = 0x1b ∨ ty = 0x24 from h)]
      cases hf : c.progs.find pid with
      | none =>
        simp only
        rw [find_addStreams es, find_add]
        by_cases hk : k = pid
        · subst hk; rw [if_pos rfl, hf]
          rw [List.find?_cons_of_pos (by simp [h])]
          rfl
        · rw [if_neg hk, List.find?_cons_of_neg (by simp; intro _ h2; exact hk h2.symm)]
      | some x =>
        simp only
        rw [find_addStreams es]
        by_cases hk : k = pid
        · subst hk; rw [hf]; rfl
        · rw [List.find?_cons_of_neg (by simp; intro _ h2; exact hk h2.symm)]
    · rw [if_neg (show ¬ (ty = 0x0f ∨ ty = 0x1b ∨ ty = 0x24) from h), find_addStreams es, List.find?_cons_of_neg (by simp [h])]

theorem pusi_lt (p : List UInt8) : (Spec.Ts.header p).pusi < 2 := field_lt p 9 1

/-- What a decode step starts with. -/
theorem decode_start (h : TsHandler σ) (c : TsCtx) (st : σ) (p : List UInt8) (hp : p.length = 188) {e : Err} {c' : TsCtx} {st' : σ}
    (hd : decode h c st p = some (e, c', st')) :
    (c' = c ∧ st' = st) ∨ ∃ prog rd, c.progs.find (Spec.Ts.header p).pid = some prog ∧
      At rd (8 * Spec.Ts.payloadOff p) (bitsOf (Spec.Ts.payload p)) ∧
      ∃ e1 st1, decodeProgram h c (Spec.Ts.header p) prog rd st = some (e1, c', st1) ∧
        ((e1 ≠ Err.SUCCESS ∧ st' = st1 ∧ e = e1) ∨
          (e1 = Err.SUCCESS ∧ h.onPkt p prog.type (Spec.Ts.header p).pusi st1 = some (e, st'))) := by
  unfold decode at hd
  have ha := At.init p (by omega)
  rcases run_eq Ts.packet ha with ⟨_, h1⟩ | ⟨⟨e0, hdr⟩, o, s, rd, h1, h2, h3⟩
  · rw [h1] at hd; simp at hd
  rw [h2] at hd
  simp only [Option.bind_eq_bind, Option.bind_some] at hd
  by_cases he : e0 = Err.SUCCESS
  · subst he
    rw [if_neg (by simp)] at hd
    obtain ⟨rfl, rfl, rfl⟩ := Ts.packet_pos p hp h1
    cases hf : c.progs.find (Spec.Ts.header p).pid with
    | none =>
      rw [hf] at hd
      simp only [Option.pure_def, Option.some.injEq, Prod.mk.injEq] at hd
      exact .inl ⟨hd.2.1.symm, hd.2.2.symm⟩
    | some prog =>
      rw [hf] at hd
      simp only at hd
      split at hd
      · simp only [Option.pure_def, Option.some.injEq, Prod.mk.injEq] at hd
        exact .inl ⟨hd.2.1.symm, hd.2.2.symm⟩
      · right
        refine ⟨prog, rd, rfl, h3, ?_⟩
        rw [Option.bind_eq_some_iff] at hd
        obtain ⟨⟨e1, c1, st1⟩, h4, hd⟩ := hd
        simp only at hd
        split at hd
        · rename_i hne
          simp only [Option.pure_def, Option.some.injEq, Prod.mk.injEq] at hd
          obtain ⟨rfl, rfl, rfl⟩ := hd
          exact ⟨e1, st1, h4, .inl ⟨hne, rfl, rfl⟩⟩
        · rename_i heq
          rw [Option.bind_eq_some_iff] at hd
          obtain ⟨⟨e2, st2⟩, h5, hd⟩ := hd
          simp only [Option.pure_def, Option.some.injEq, Prod.mk.injEq] at hd
          obtain ⟨rfl, rfl, rfl⟩ := hd
          exact ⟨e1, st1, h4, .inr ⟨by simpa using heq, h5⟩⟩
  · rw [if_pos he] at hd
    simp only [Option.pure_def, Option.some.injEq, Prod.mk.injEq] at hd
    exact .inl ⟨hd.2.1.symm, hd.2.2.symm⟩

theorem decodePes_type (h : TsHandler σ) (pid : Nat) (hd : TsHeader) (s : PesSt) (rd : BitCtx) (st : σ) {off : Nat} {r : List Bool}
    (ha : At rd off r) {e : Err} {s' : PesSt} {st' : σ} (hr : decodePes h pid hd s rd st = some (e, s', st')) :
    s'.streamType = s.streamType := by
  unfold decodePes at hr
  split at hr
  · simp only [Option.some.injEq, Prod.mk.injEq] at hr; rw [← hr.2.1]
  split at hr
  · simp only [Option.some.injEq, Prod.mk.injEq] at hr; rw [← hr.2.1]
  simp only at hr
  split at hr
  · rw [Option.map_eq_some_iff] at hr
    obtain ⟨⟨⟨e1, s1⟩, c1⟩, h1, h2⟩ := hr
    simp only [Prod.mk.injEq] at h2
    obtain ⟨_, rfl, _⟩ := h2
    have := PesSt.keeps_run (PesSt.keeps_dump _) ha h1
    exact this
  split at hr
  · simp only [Option.some.injEq, Prod.mk.injEq] at hr; rw [← hr.2.1]
  split at hr
  · rw [Option.map_eq_some_iff] at hr
    obtain ⟨⟨⟨e1, s1⟩, c1⟩, h1, h2⟩ := hr
    simp only [Prod.mk.injEq] at h2
    obtain ⟨_, rfl, _⟩ := h2
    have := PesSt.keeps_run (PesSt.keeps_start _) ha h1
    exact this
  · simp only [Option.bind_eq_bind] at hr
    rw [Option.bind_eq_some_iff] at hr
    obtain ⟨⟨e1, st1⟩, h0, hr⟩ := hr
    simp only at hr
    split at hr
    · simp only [Option.pure_def, Option.some.injEq, Prod.mk.injEq] at hr; rw [← hr.2.1]; rfl
    · rw [Option.map_eq_some_iff] at hr
      obtain ⟨⟨⟨e1, s1⟩, c1⟩, h1, h2⟩ := hr
      simp only [Prod.mk.injEq] at h2
      obtain ⟨_, rfl, _⟩ := h2
      have := PesSt.keeps_run (PesSt.keeps_start _) ha h1
      exact this

/-- How a packet changes the known pids. -/
theorem decode_ctx (h : TsHandler σ) (c : TsCtx) (st : σ) (p : List UInt8) (hp : p.length = 188) {e : Err} {c' : TsCtx} {st' : σ}
    (hd : decode h c st p = some (e, c', st')) :
    c' = c ∨
    (c.progs.find (Spec.Ts.header p).pid = some .pat ∧ ∃ ps, c' = c.addPmts ps ∧
      ∀ k ∈ ps, Spec.Ts.patLists (Spec.Ts.payload p) (Spec.Ts.header p).pusi k) ∨
    (c.progs.find (Spec.Ts.header p).pid = some .pmt ∧ ∃ es, c' = c.addStreams es ∧
      ∀ x ∈ es, Spec.Ts.pmtLists (Spec.Ts.payload p) (Spec.Ts.header p).pusi x.1 x.2) ∨
    (∃ s s', c.progs.find (Spec.Ts.header p).pid = some (.pes s) ∧ c' = c.add (Spec.Ts.header p).pid (.pes s') ∧
      s'.streamType = s.streamType) := by
  rcases decode_start h c st p hp hd with ⟨rfl, _⟩ | ⟨prog, rd, hf, ha, e1, st1, hr, _⟩
  · exact .inl rfl
  cases prog with
  | pat =>
    right; left
    refine ⟨hf, ?_⟩
    simp only [decodeProgram, Option.map_eq_some_iff] at hr
    obtain ⟨⟨⟨e2, ps⟩, c2⟩, h1, h2⟩ := hr
    simp only [Prod.mk.injEq] at h2
    obtain ⟨_, rfl, _⟩ := h2
    obtain ⟨_, _, h3, _⟩ := of_run ha h1
    exact ⟨ps, rfl, Ts.pat_some (pusi_lt p) h3⟩
  | sdt =>
    left
    simp only [decodeProgram, Option.map_eq_some_iff] at hr
    obtain ⟨_, _, h2⟩ := hr
    simp only [Prod.mk.injEq] at h2
    exact h2.2.1.symm
  | pmt =>
    right; right; left
    refine ⟨hf, ?_⟩
    simp only [decodeProgram, Option.map_eq_some_iff] at hr
    obtain ⟨⟨⟨e2, es⟩, c2⟩, h1, h2⟩ := hr
    simp only [Prod.mk.injEq] at h2
    obtain ⟨_, rfl, _⟩ := h2
    obtain ⟨_, _, h3, _⟩ := of_run ha h1
    exact ⟨es, rfl, Ts.pmt_some (pusi_lt p) h3⟩
  | pes s =>
    right; right; right
    simp only [decodeProgram, Option.map_eq_some_iff] at hr
    obtain ⟨⟨e2, s2, st2⟩, h1, h2⟩ := hr
    simp only [Prod.mk.injEq] at h2
    obtain ⟨_, rfl, _⟩ := h2
    exact ⟨s, s2, hf, rfl, decodePes_type h _ _ s rd st ha h1⟩

/-- Only pid 0 carries PATs. -/
def PatOnly (c : TsCtx) : Prop := ∀ k, c.progs.find k = some .pat → k = 0

theorem PatOnly.create : PatOnly TsCtx.create := by
  intro k h
  unfold TsCtx.create at h
  rw [Assoc.find_insert, Assoc.find_insert] at h
  split at h
  · simp at h
  · split at h
    · assumption
    · simp [Assoc.find_nil] at h

theorem PatOnly.decode {h : TsHandler σ} {c : TsCtx} {st : σ} {p : List UInt8} (hp : p.length = 188) {e : Err} {c' : TsCtx} {st' : σ}
    (hd : TsCtx.decode h c st p = some (e, c', st')) (hc : PatOnly c) : PatOnly c' := by
  rcases decode_ctx h c st p hp hd with rfl | ⟨_, ps, rfl, _⟩ | ⟨_, es, rfl, _⟩ | ⟨s, s', _, rfl, _⟩
  · exact hc
  · intro k hk
    rw [find_addPmts] at hk
    split at hk
    · simp at hk
    · exact hc k hk
  · intro k hk
    rw [find_addStreams] at hk
    cases hf : c.progs.find k with
    | some x => rw [hf] at hk; simp at hk; subst hk; exact hc k hf
    | none =>
      rw [hf] at hk
      simp only [Option.none_or, Option.map_eq_some_iff] at hk
      obtain ⟨_, _, hk⟩ := hk
      simp at hk
  · intro k hk
    rw [find_add] at hk
    split at hk
    · simp at hk
    · exact hc k hk

/-- Packets of other pids leave a stream alone, unless a PAT names it. -/
theorem decode_frame {h : TsHandler σ} {c : TsCtx} {st : σ} {p : List UInt8} (hp : p.length = 188) {e : Err} {c' : TsCtx} {st' : σ}
    (hd : TsCtx.decode h c st p = some (e, c', st')) (hc : PatOnly c) {k : Nat} {s : PesSt} (hk : c.progs.find k = some (.pes s))
    (h1 : (Spec.Ts.header p).pid ≠ k)
    (h2 : (Spec.Ts.header p).pid = 0 → ¬ Spec.Ts.patLists (Spec.Ts.payload p) (Spec.Ts.header p).pusi k) :
    c'.progs.find k = some (.pes s) := by
  rcases decode_ctx h c st p hp hd with rfl | ⟨hf, ps, rfl, hl⟩ | ⟨_, es, rfl, _⟩ | ⟨s1, s', _, rfl, _⟩
  · exact hk
  · rw [find_addPmts, if_neg]
    · exact hk
    · exact fun hm => h2 (hc _ hf) (hl k hm)
  · rw [find_addStreams, hk]; rfl
  · rw [find_add, if_neg (fun h => h1 h.symm)]; exact hk

end Sps.TsCtx
