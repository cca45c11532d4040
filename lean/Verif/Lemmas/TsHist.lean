import Verif.Lemmas.TsPes
/-! # Histories of packets -/
namespace Sps.TsCtx
open Spec BProg
variable {σ : Type}

theorem acquire_at {c : BitCtx} {off : Nat} {s : List Bool} (h : At c off s) (n : Nat) :
    c.acquire n = if (n * 8) % 2 ^ 32 ≤ s.length then Err.SUCCESS else Err.ERROR_IO_NOT_ENOUGH := by
  have hl := h.length
  have hsz := h.wf.toWF8.sizeBits h.len
  rw [h.at_] at hsz
  unfold BitCtx.acquire BitCtx.acquireBits
  rw [hsz, ← hl]

/-- A well-formed packet of a known pid reaches its program. -/
theorem decode_ok (h : TsHandler σ) (c : TsCtx) (st : σ) (p : List UInt8) (hp : Spec.Ts.packetOk p) {prog : TsProgram}
    (hf : c.progs.find (Spec.Ts.header p).pid = some prog) (hs : Spec.Ts.hasPayload p ∨ prog.isSection = true) :
    ∃ rd, At rd (8 * Spec.Ts.payloadOff p) (bitsOf (Spec.Ts.payload p)) ∧
      decode h c st p = (decodeProgram h c (Spec.Ts.header p) prog rd st).bind fun x =>
        if x.1 ≠ Err.SUCCESS then some x
        else (h.onPkt p prog.type (Spec.Ts.header p).pusi x.2.2).map fun y => (y.1, x.2.1, y.2) := by
  have ha := At.init p (by have := hp.size; omega)
  obtain ⟨rd, h1, h2⟩ := run_of ha (Ts.packet_ok p hp)
  refine ⟨rd, h2, ?_⟩
  unfold decode
  rw [h1]
  simp only [Option.bind_eq_bind, Option.bind_some]
  rw [if_neg (by simp), hf]
  dsimp only
  have hc : ¬ ((Spec.Ts.header p).afc &&& 1 = 0 ∧ prog.isSection = false) := by
    rintro ⟨h3, h4⟩
    rcases hs with hs | hs
    · unfold Spec.Ts.hasPayload at hs
      have : (Spec.Ts.header p).afc = field p 26 2 := rfl
      rw [this, Nat.and_one_is_mod] at h3; omega
    · rw [h4] at hs; simp at hs
  rw [if_neg hc]
  congr 1
  funext x
  obtain ⟨e, c1, st1⟩ := x
  dsimp only
  split
  · rfl
  · cases h.onPkt p prog.type (Spec.Ts.header p).pusi st1 <;> rfl

theorem decode_unknown (h : TsHandler σ) (c : TsCtx) (st : σ) (p : List UInt8) (hp : Spec.Ts.packetOk p)
    (hf : c.progs.find (Spec.Ts.header p).pid = none) : decode h c st p = some (Err.SUCCESS, c, st) := by
  have ha := At.init p (by have := hp.size; omega)
  obtain ⟨rd, h1, h2⟩ := run_of ha (Ts.packet_ok p hp)
  unfold decode
  rw [h1]
  simp only [Option.bind_eq_bind, Option.bind_some]
  rw [if_neg (by simp), hf]
  rfl

/-- The state of a stream with counter `cc` and unit `u`. -/
def Holds (s : PesSt) (ty cc : Nat) : Spec.Ts.OpenUnit → Prop
  | none => s.streamType = ty ∧ s.cc = cc ∧ s.buf = none
  | some (h, x) => h.ok ∧ x.length ≤ Spec.Ts.room h ∧ s = { streamType := ty, cc := cc, buf := some x, len := h.len, cap := Spec.Ts.room h, pts := h.ptsOf, dts := h.dtsOf }

theorem Holds.type {s : PesSt} {ty cc : Nat} {u : Spec.Ts.OpenUnit} (h : Holds s ty cc u) : s.streamType = ty := by
  rcases u with _ | ⟨hd, x⟩
  · exact h.1
  · rw [h.2.2]

theorem Holds.counter {s : PesSt} {ty cc : Nat} {u : Spec.Ts.OpenUnit} (h : Holds s ty cc u) : s.cc = cc := by
  rcases u with _ | ⟨hd, x⟩
  · exact h.2.1
  · rw [h.2.2]

theorem Holds.buf {s : PesSt} {ty cc : Nat} {u : Spec.Ts.OpenUnit} (h : Holds s ty cc u) : s.buf = u.map (·.2) := by
  rcases u with _ | ⟨hd, x⟩
  · exact h.2.2
  · rw [h.2.2]; rfl

theorem next_cc (n : Nat) : (n + 1) &&& 0x0f = (n + 1) % 16 := Nat.and_two_pow_sub_one_eq_mod (n + 1) 4

/-- More data of a unit. -/
theorem pes_cont (h : TsHandler σ) (pid : Nat) (hd : TsHeader) (s : PesSt) (rd : BitCtx) (st : σ) (b ty cc : Nat)
    (ph : Spec.Ts.PesHead) (x d : List UInt8) (hh : Holds s ty cc (some (ph, x))) (ha : At rd (8 * b) (bitsOf d))
    (hu : hd.pusi = 0) (hc : hd.cc = (cc + 1) % 16) (hf : (x ++ d).length ≤ Spec.Ts.room ph) :
    ∃ s', Holds s' ty hd.cc (some (ph, x ++ d)) ∧ decodePes h pid hd s rd st = some (Err.SUCCESS, s', st) := by
  obtain ⟨h1, h2, rfl⟩ := hh
  rw [List.length_append] at hf
  have e := PesSt.dump_bits
    { streamType := ty, cc := hd.cc, buf := some x, len := ph.len, cap := Spec.Ts.room ph, pts := ph.ptsOf, dts := ph.dtsOf } x d (8 * b)
    rfl (by omega) hf (by
      show ph.len = 0 ∨ ph.len = Spec.Ts.room ph
      unfold Spec.Ts.room; split
      · exact .inr rfl
      · left; omega) (PesSt.room_lt ph h1)
  obtain ⟨rd', e1, _⟩ := run_of ha e
  refine ⟨{ streamType := ty, cc := hd.cc, buf := some (x ++ d), len := ph.len, cap := Spec.Ts.room ph, pts := ph.ptsOf, dts := ph.dtsOf }, ⟨h1, by rw [List.length_append]; exact hf, rfl⟩, ?_⟩
  unfold decodePes
  rw [if_neg (by simp), if_neg (by rw [next_cc, hc]; simp)]
  simp only
  rw [if_pos hu, e1]
  rfl

/-- The start of a unit. -/
theorem pes_start (h : TsHandler σ) (pid : Nat) (hd : TsHeader) (s : PesSt) (rd : BitCtx) (st : σ) (b ty cc : Nat)
    (u : Spec.Ts.OpenUnit) (ph : Spec.Ts.PesHead) (d : List UInt8) (hh : Holds s ty cc u) (ho : ph.ok)
    (ha : At rd (8 * b) (ph.bits ++ bitsOf d)) (hu : hd.pusi = 1) (hc : hd.cc = (cc + 1) % 16) (hf : d.length ≤ Spec.Ts.room ph) :
    ∃ s', Holds s' ty hd.cc (some (ph, d)) ∧ decodePes h pid hd s rd st =
      match u with
      | none => some (Err.SUCCESS, s', st)
      | some v => (h.onPes (Spec.Ts.report pid ty v) st).map fun y =>
          if y.1 ≠ Err.SUCCESS then (y.1, { s with cc := hd.cc }.reset, y.2) else (Err.SUCCESS, s', y.2) := by
  have hacq : rd.acquire 9 = Err.SUCCESS := by
    rw [acquire_at ha, if_pos]
    unfold Spec.Ts.PesHead.bits
    simp [fieldBits]; omega
  refine ⟨{ streamType := ty, cc := hd.cc, buf := some d, len := ph.len, cap := Spec.Ts.room ph, pts := ph.ptsOf, dts := ph.dtsOf }, ⟨ho, hf, rfl⟩, ?_⟩
  have ht := hh.type
  have hcc := hh.counter
  have hb := hh.buf
  unfold decodePes
  rw [if_neg (by omega), if_neg (by rw [next_cc, hc, hcc]; simp)]
  simp only
  rw [if_neg (by omega), if_neg (by rw [hacq]; simp)]
  cases u with
  | none =>
    obtain ⟨sty, scc, sbuf, slen, scap, spts, sdts⟩ := s
    dsimp only [Option.map] at hb ht
    subst hb ht
    dsimp only
    obtain ⟨o, e⟩ := PesSt.start_bits ph ho { streamType := sty, cc := hd.cc, buf := none, len := slen, cap := scap, pts := spts, dts := sdts } d hf b
    obtain ⟨rd', e1, _⟩ := run_of ha e
    rw [e1]
    rfl
  | some v =>
    have hdone : ({ s with cc := hd.cc } : PesSt).done pid v.2 = Spec.Ts.report pid ty v := by
      obtain ⟨_, _, rfl⟩ := hh
      rfl
    obtain ⟨sty, scc, sbuf, slen, scap, spts, sdts⟩ := s
    dsimp only [Option.map] at hb ht hdone
    subst hb ht
    dsimp only
    rw [hdone]
    cases ho1 : h.onPes (Spec.Ts.report pid sty v) st with
    | none => rfl
    | some y =>
      obtain ⟨e1, st1⟩ := y
      simp only [Option.bind_eq_bind, Option.bind_some, Option.map_some]
      split
      · rfl
      ·
        obtain ⟨o, e⟩ := PesSt.start_bits ph ho ({ streamType := sty, cc := hd.cc, buf := some v.2, len := slen, cap := scap, pts := spts, dts := sdts } : PesSt).reset d hf b
        obtain ⟨rd', e2, _⟩ := run_of ha e
        rw [e2]
        rfl

/-- One packet of the stream. -/
theorem carries_step (h : TsHandler σ) (c : TsCtx) (st : σ) (p : List UInt8) (k ty cc : Nat) (u : Spec.Ts.OpenUnit) (x : Spec.Ts.Piece)
    (s : PesSt) (hk : c.progs.find k = some (.pes s)) (hh : Holds s ty cc u) (hc : Spec.Ts.carries p k ((cc + 1) % 16) x)
    (hf : Spec.Ts.unitFits (Spec.Ts.after u x)) :
    ∃ s', Holds s' ty ((cc + 1) % 16) (Spec.Ts.after u x) ∧ decode h c st p =
      (match x, u with
      | .start _ _, some v => (h.onPes (Spec.Ts.report k ty v) st).map fun (y : Err × σ) =>
          if y.1 ≠ Err.SUCCESS then (y.1, c.add k (.pes { s with cc := (cc + 1) % 16 }.reset), y.2)
          else (Err.SUCCESS, c.add k (.pes s'), y.2)
      | _, _ => some (Err.SUCCESS, c.add k (.pes s'), st)).bind fun (y : Err × TsCtx × σ) =>
        if y.1 ≠ Err.SUCCESS then some y
        else (h.onPkt p 1 (Spec.Ts.header p).pusi y.2.2).map fun (z : Err × σ) => (z.1, y.2.1, z.2) := by
  cases x with
  | start ph d =>
    obtain ⟨h1, h2, h3, h4, h5, h6, h7⟩ := hc
    obtain ⟨rd, ha, e⟩ := decode_ok h c st p h1 (h3 ▸ hk) (.inl h2)
    rw [h7] at ha
    obtain ⟨s', hs', e2⟩ := pes_start h k (Spec.Ts.header p) s rd st _ ty cc u ph d hh h6 ha h5 h4 hf
    refine ⟨s', h4 ▸ hs', ?_⟩
    rw [e]
    simp only [decodeProgram]
    rw [h3, e2]
    cases u with
    | none => rfl
    | some v =>
      dsimp only
      rw [Option.map_map]
      congr 1
      congr 1
      funext y
      dsimp only [Function.comp]
      rw [h4]
      split <;> rfl
  | cont d =>
    obtain ⟨h1, h2, h3, h4, h5, h6⟩ := hc
    obtain ⟨rd, ha, e⟩ := decode_ok h c st p h1 (h3 ▸ hk) (.inl h2)
    rw [h6] at ha
    cases u with
    | none => exact absurd hf id
    | some v =>
      obtain ⟨ph, y⟩ := v
      obtain ⟨s', hs', e2⟩ := pes_cont h k (Spec.Ts.header p) s rd st _ ty cc ph y d hh ha h5 h4 hf
      refine ⟨s', h4 ▸ hs', ?_⟩
      rw [e]
      simp only [decodeProgram]
      rw [h3, e2]
      rfl

/-- What is recorded during a packet belongs to its pid. -/
theorem decode_log (h : TsHandler σ) (c : TsCtx) (log : List PesDone) (st : σ) (p : List UInt8) (hp : p.length = 188) {e : Err}
    {c' : TsCtx} {log' : List PesDone} {st' : σ}
    (hd : decode (Spec.Ts.recorder h) c (log, st) p = some (e, c', (log', st'))) :
    ∃ extra, log' = log ++ extra ∧ ∀ d ∈ extra, d.pid = (Spec.Ts.header p).pid := by
  rcases decode_start _ c _ p hp hd with ⟨_, h1⟩ | ⟨prog, rd, hf, ha, e1, st1, hr, hl⟩
  · simp only [Prod.mk.injEq] at h1
    exact ⟨[], by simp [h1.1], by simp⟩
  have hlog : ∃ extra, st1.1 = log ++ extra ∧ ∀ d ∈ extra, d.pid = (Spec.Ts.header p).pid := by
    cases prog with
    | pat =>
      simp only [decodeProgram, Option.map_eq_some_iff, Prod.mk.injEq] at hr
      obtain ⟨_, _, _, _, rfl⟩ := hr
      exact ⟨[], by simp, by simp⟩
    | sdt =>
      simp only [decodeProgram, Option.map_eq_some_iff, Prod.mk.injEq] at hr
      obtain ⟨_, _, _, _, rfl⟩ := hr
      exact ⟨[], by simp, by simp⟩
    | pmt =>
      simp only [decodeProgram, Option.map_eq_some_iff, Prod.mk.injEq] at hr
      obtain ⟨_, _, _, _, rfl⟩ := hr
      exact ⟨[], by simp, by simp⟩
    | pes s =>
      simp only [decodeProgram, Option.map_eq_some_iff, Prod.mk.injEq] at hr
      obtain ⟨⟨e2, s2, st2⟩, hr, _, _, rfl⟩ := hr
      unfold decodePes at hr
      split at hr
      · simp only [Option.some.injEq, Prod.mk.injEq] at hr; rw [← hr.2.2]; exact ⟨[], by simp, by simp⟩
      split at hr
      · simp only [Option.some.injEq, Prod.mk.injEq] at hr; rw [← hr.2.2]; exact ⟨[], by simp, by simp⟩
      simp only at hr
      split at hr
      · rw [Option.map_eq_some_iff] at hr
        obtain ⟨⟨⟨_, _⟩, _⟩, _, h2⟩ := hr
        simp only [Prod.mk.injEq] at h2
        rw [← h2.2.2]; exact ⟨[], by simp, by simp⟩
      split at hr
      · simp only [Option.some.injEq, Prod.mk.injEq] at hr; rw [← hr.2.2]; exact ⟨[], by simp, by simp⟩
      split at hr
      · rw [Option.map_eq_some_iff] at hr
        obtain ⟨⟨⟨_, _⟩, _⟩, _, h2⟩ := hr
        simp only [Prod.mk.injEq] at h2
        rw [← h2.2.2]; exact ⟨[], by simp, by simp⟩
      · simp only [Option.bind_eq_bind] at hr
        rw [Option.bind_eq_some_iff] at hr
        obtain ⟨⟨e3, st3⟩, h0, hr⟩ := hr
        simp only [Spec.Ts.recorder, Option.map_eq_some_iff, Prod.mk.injEq] at h0
        obtain ⟨⟨_, _⟩, _, _, rfl⟩ := h0
        simp only at hr
        split at hr
        · simp only [Option.pure_def, Option.some.injEq, Prod.mk.injEq] at hr; rw [← hr.2.2]
          exact ⟨[_], rfl, by intro d hd; rw [List.mem_singleton.1 hd]; rfl⟩
        · rw [Option.map_eq_some_iff] at hr
          obtain ⟨⟨⟨_, _⟩, _⟩, _, h2⟩ := hr
          simp only [Prod.mk.injEq] at h2
          rw [← h2.2.2]
          exact ⟨[_], rfl, by intro d hd; rw [List.mem_singleton.1 hd]; rfl⟩
  obtain ⟨extra, hx, hy⟩ := hlog
  refine ⟨extra, ?_, hy⟩
  rcases hl with ⟨_, h2, _⟩ | ⟨_, h2⟩
  · rw [← h2] at hx; exact hx
  · simp only [Spec.Ts.recorder, Option.map_eq_some_iff, Prod.mk.injEq] at h2
    obtain ⟨_, _, _, h3, _⟩ := h2
    rw [← h3]; exact hx

theorem feed_history (h : TsHandler σ) (k ty : Nat) : ∀ (l : List (List UInt8 × Option Spec.Ts.Piece)) (cc : Nat)
    (u : Spec.Ts.OpenUnit) (c : TsCtx) (log : List PesDone) (st : σ) (s : PesSt) (c' : TsCtx) (log' : List PesDone) (st' : σ),
    c.progs.find k = some (.pes s) → Holds s ty cc u → PatOnly c → Spec.Ts.history k cc u l →
    Spec.Ts.feed (Spec.Ts.recorder h) c (log, st) (l.map (·.1)) = some (Err.SUCCESS, c', (log', st')) →
    ∃ extra, log' = log ++ extra ∧
      extra.filter (fun d => d.pid == k) = (Spec.Ts.completed u (Spec.Ts.pieces l)).map (Spec.Ts.report k ty) ∧
      ∃ s', c'.progs.find k = some (.pes s') ∧ s'.cc % 16 = (cc + (Spec.Ts.pieces l).length) % 16 ∧
        ((s'.buf = none) ↔ ((Spec.Ts.pieces l).foldl Spec.Ts.after u = none))
  | [], cc, u, c, log, st, s, c', log', st', hk, hh, _, _, hr => by
    simp only [Spec.Ts.feed, List.map_nil, Option.some.injEq, Prod.mk.injEq] at hr
    obtain ⟨_, rfl, rfl, _⟩ := hr
    refine ⟨[], by simp, by simp [Spec.Ts.pieces, Spec.Ts.completed], s, hk, by rw [hh.counter]; rfl, ?_⟩
    rw [hh.buf]
    simp [Spec.Ts.pieces]
  | (p, none) :: l, cc, u, c, log, st, s, c', log', st', hk, hh, hpo, hist, hr => by
    obtain ⟨h1, h2, h3, h4⟩ := hist
    simp only [Spec.Ts.feed, List.map_cons, Option.bind_eq_bind, Option.bind_eq_some_iff] at hr
    obtain ⟨⟨e1, c1, log1, st1⟩, hd, hr⟩ := hr
    simp only at hr
    split at hr
    · rename_i hne
      simp only [Option.pure_def, Option.some.injEq, Prod.mk.injEq] at hr
      exact absurd hr.1 hne
    obtain ⟨x1, rfl, hx1⟩ := decode_log h c log st p h1 hd
    have hk' := decode_frame h1 hd hpo hk h2 h3
    obtain ⟨x2, rfl, hx2, hend⟩ := feed_history h k ty l cc u c1 _ st1 s c' log' st' hk' hh (hpo.decode h1 hd) h4 hr
    refine ⟨x1 ++ x2, by simp, ?_, hend⟩
    rw [List.filter_append, hx2, List.filter_eq_nil_iff.2]
    · rfl
    · intro d hd
      rw [hx1 d hd]; simpa using h2
  | (p, some x) :: l, cc, u, c, log, st, s, c', log', st', hk, hh, hpo, hist, hr => by
    obtain ⟨h1, h2, h3⟩ := hist
    have hlen : p.length = 188 := by cases x <;> exact h1.1.size
    simp only [Spec.Ts.feed, List.map_cons, Option.bind_eq_bind, Option.bind_eq_some_iff] at hr
    obtain ⟨⟨e1, c1, log1, st1⟩, hd, hr⟩ := hr
    simp only at hr
    split at hr
    · rename_i hne
      simp only [Option.pure_def, Option.some.injEq, Prod.mk.injEq] at hr
      exact absurd hr.1 hne
    rename_i he
    have he : e1 = Err.SUCCESS := by simpa using he
    subst he
    obtain ⟨s', hs', e2⟩ := carries_step (Spec.Ts.recorder h) c (log, st) p k ty cc u x s hk hh h1 h2
    have hpo1 := hpo.decode hlen hd
    rw [e2, Option.bind_eq_some_iff] at hd
    obtain ⟨y, hy, hd⟩ := hd
    have key : y.1 = Err.SUCCESS → y.2.1 = c.add k (.pes s') ∧ y.2.2.1 = log ++ (match x, u with
        | .start _ _, some v => [Spec.Ts.report k ty v] | _, _ => []) := by
      intro hy1
      cases x with
      | cont d =>
        cases u <;> simp only [Option.some.injEq] at hy <;> subst hy <;> exact ⟨rfl, by simp⟩
      | start ph d =>
        cases u with
        | none => simp only [Option.some.injEq] at hy; subst hy; exact ⟨rfl, by simp⟩
        | some v =>
          simp only [Option.map_eq_some_iff, Spec.Ts.recorder] at hy
          obtain ⟨z, ⟨w, hw, rfl⟩, rfl⟩ := hy
          simp only at hy1 ⊢
          split at hy1
          · rename_i hne; exact absurd hy1 hne
          · rename_i heq
            rw [if_neg heq]
            exact ⟨rfl, rfl⟩
    split at hd
    · rename_i hne
      simp only [Option.some.injEq] at hd
      rw [hd] at hne
      simp at hne
    rename_i hy1
    obtain ⟨hc1, hl1⟩ := key (by simpa using hy1)
    simp only [Option.map_eq_some_iff, Spec.Ts.recorder] at hd
    obtain ⟨z, ⟨w, _, rfl⟩, hz⟩ := hd
    simp only [Prod.mk.injEq] at hz
    obtain ⟨_, rfl, rfl, rfl⟩ := hz
    obtain ⟨x2, rfl, hx2, s2, hs2, hcc2, hu2⟩ := feed_history h k ty l _ _ _ _ _ s' c' log' st' (by rw [hc1, find_add, if_pos rfl]) hs'
      hpo1 h3 hr
    rw [hl1]
    refine ⟨_, List.append_assoc _ _ _, ?_, s2, hs2, ?_, hu2⟩
    rotate_left
    · rw [hcc2]
      have : (Spec.Ts.pieces ((p, some x) :: l)).length = (Spec.Ts.pieces l).length + 1 := rfl
      rw [this]; omega
    rw [List.filter_append, hx2]
    cases x with
    | cont d => cases u <;> rfl
    | start ph d =>
      cases u with
      | none => rfl
      | some v =>
        have : (Spec.Ts.report k ty v).pid = k := rfl
        simp [Spec.Ts.completed, Spec.Ts.pieces, this, Spec.Ts.after]

theorem replay_announced (h : TsHandler σ) : ∀ (ps hist : List (List UInt8)) (c : TsCtx) (st : σ) (c' : TsCtx) (st' : σ),
    (∀ p ∈ ps, p.length = 188) → (∀ pid prog, c.progs.find pid = some prog → Spec.Ts.Announced hist pid (Spec.Ts.kindOf prog)) →
    Spec.Ts.replay h c st ps = some (c', st') →
    ∀ pid prog, c'.progs.find pid = some prog → Spec.Ts.Announced (hist ++ ps) pid (Spec.Ts.kindOf prog)
  | [], hist, c, st, c', st', _, hi, hr => by
    simp only [Spec.Ts.replay, Option.some.injEq, Prod.mk.injEq] at hr
    obtain ⟨rfl, rfl⟩ := hr
    simpa using hi
  | p :: ps, hist, c, st, c', st', hl, hi, hr => by
    simp only [Spec.Ts.replay, Option.bind_eq_some_iff] at hr
    obtain ⟨⟨e1, c1, st1⟩, hd, hr⟩ := hr
    have hp : p.length = 188 := hl p (List.mem_cons_self)
    have := replay_announced h ps (hist ++ [p]) c1 st1 c' st' (fun q hq => hl q (List.mem_cons_of_mem _ hq)) ?_ hr
    · simpa using this
    intro pid prog hf
    rcases decode_ctx h c st p hp hd with rfl | ⟨hpat, qs, rfl, hls⟩ | ⟨hpmt, es, rfl, hls⟩ | ⟨s, s', hs, rfl, hty⟩
    · exact .earlier (hi pid prog hf)
    · rw [find_addPmts] at hf
      split at hf
      · rename_i hm
        simp only [Option.some.injEq] at hf
        subst hf
        exact .program (hi _ _ hpat) (hls pid hm)
      · exact .earlier (hi pid prog hf)
    · rw [find_addStreams] at hf
      cases hc : c.progs.find pid with
      | some x =>
        rw [hc] at hf
        simp only [Option.some_or, Option.some.injEq] at hf
        subst hf
        exact .earlier (hi pid _ hc)
      | none =>
        rw [hc] at hf
        simp only [Option.none_or, Option.map_eq_some_iff] at hf
        obtain ⟨⟨ty, k⟩, hfind, rfl⟩ := hf
        have hm := List.mem_of_find?_eq_some hfind
        have hp2 := List.find?_some hfind
        simp only [Bool.and_eq_true, decide_eq_true_eq, beq_iff_eq] at hp2
        obtain ⟨hsup, rfl⟩ := hp2
        exact .stream (hi _ _ hpmt) (hls _ hm) hsup
    · rw [find_add] at hf
      split at hf
      · rename_i hk
        simp only [Option.some.injEq] at hf
        subst hf hk
        have := hi _ _ hs
        simp only [Spec.Ts.kindOf] at this ⊢
        rw [hty]
        exact .earlier this
      · exact .earlier (hi pid prog hf)

/-- A packet out of sequence. -/
theorem decode_gap (h : TsHandler σ) (c : TsCtx) (st : σ) (p : List UInt8) (s : PesSt) (hp : Spec.Ts.packetOk p)
    (hl : Spec.Ts.hasPayload p) (hk : c.progs.find (Spec.Ts.header p).pid = some (.pes s))
    (hc : (Spec.Ts.header p).cc ≠ (s.cc + 1) % 16) :
    decode h c st p = some (if (Spec.Ts.header p).pusi = 0 ∧ s.buf = none then Err.ERROR_TS_PACKET_DECODE
      else Err.ERROR_TS_PACKET_CC_CONTINUE, c.add (Spec.Ts.header p).pid (.pes s), st) := by
  obtain ⟨rd, ha, e⟩ := decode_ok h c st p hp hk (.inl hl)
  rw [e]
  simp only [decodeProgram]
  unfold decodePes
  by_cases h1 : (Spec.Ts.header p).pusi = 0 ∧ s.buf = none
  · rw [if_pos h1, if_pos h1]; rfl
  · rw [if_neg h1, if_neg h1, if_pos (by rw [next_cc]; exact hc)]; rfl

theorem decodeAll_eq (h : TsHandler σ) : ∀ (fuel : Nat) (c : TsCtx) (st : σ) (p : List UInt8), p.length < fuel →
    decodeAll h fuel c st p = (Spec.Ts.feed h c st (Spec.Ts.chunks (p.length / 188) p)).map fun x =>
      if x.1 = Err.SUCCESS ∧ p.length % 188 ≠ 0 then (Err.ERROR_TS_PACKET_SIZE, x.2) else x
  | 0, _, _, p, hl => by omega
  | fuel + 1, c, st, p, hl => by
    unfold decodeAll
    by_cases h0 : p.length = 0
    · rw [if_pos h0, h0]; rfl
    rw [if_neg h0]
    by_cases h1 : p.length < 188
    · rw [if_pos h1, Nat.div_eq_of_lt h1]
      simp only [Spec.Ts.chunks, Spec.Ts.feed, Option.map_some]
      rw [if_pos ⟨trivial, by omega⟩]
    · rw [if_neg h1, show p.length / 188 = (p.drop 188).length / 188 + 1 by simp; omega]
      simp only [Spec.Ts.chunks, Spec.Ts.feed]
      cases hd : decode h c st (p.take 188) with
      | none => rfl
      | some x =>
        obtain ⟨e, c1, st1⟩ := x
        simp only [Option.bind_eq_bind, Option.bind_some]
        split
        · rename_i he
          simp only [Option.pure_def, Option.map_some, he, false_and, if_false]
        · rw [decodeAll_eq h fuel c1 st1 (p.drop 188) (by simp; omega)]
          have : (p.drop 188).length % 188 = p.length % 188 := by simp; omega
          rw [this]

/-- A history of the stream alone is processed to the end if the handlers do not fail. -/
theorem feed_progress (h : TsHandler σ) (h1 : ∀ d st, ∃ st', h.onPes d st = some (Err.SUCCESS, st'))
    (h2 : ∀ p t u st, ∃ st', h.onPkt p t u st = some (Err.SUCCESS, st')) (k ty : Nat) :
    ∀ (l : List (List UInt8 × Spec.Ts.Piece)) (cc : Nat) (u : Spec.Ts.OpenUnit) (c : TsCtx) (st : σ) (s : PesSt),
    c.progs.find k = some (.pes s) → Holds s ty cc u → Spec.Ts.history k cc u (l.map fun x => (x.1, some x.2)) →
    ∃ c' st', Spec.Ts.feed h c st (l.map (·.1)) = some (Err.SUCCESS, c', st')
  | [], _, _, c, st, _, _, _, _ => ⟨c, st, rfl⟩
  | (p, x) :: l, cc, u, c, st, s, hk, hh, hist => by
    obtain ⟨g1, g2, g3⟩ := hist
    obtain ⟨s', hs', e2⟩ := carries_step h c st p k ty cc u x s hk hh g1 g2
    have : ∃ st', decode h c st p = some (Err.SUCCESS, c.add k (.pes s'), st') := by
      rw [e2]
      cases x with
      | cont d =>
        obtain ⟨st', e⟩ := h2 p 1 (Spec.Ts.header p).pusi st
        refine ⟨st', ?_⟩
        simp only [Option.bind_some]
        rw [if_neg (by simp), e]; rfl
      | start ph d =>
        cases u with
        | none =>
          obtain ⟨st', e⟩ := h2 p 1 (Spec.Ts.header p).pusi st
          refine ⟨st', ?_⟩
          simp only [Option.bind_some]
          rw [if_neg (by simp), e]; rfl
        | some v =>
          obtain ⟨st1, e1⟩ := h1 (Spec.Ts.report k ty v) st
          obtain ⟨st', e⟩ := h2 p 1 (Spec.Ts.header p).pusi st1
          refine ⟨st', ?_⟩
          simp only [e1, Option.map_some, ne_eq, not_true_eq_false, if_false, Option.bind_some, e]
    obtain ⟨st', e⟩ := this
    obtain ⟨c', st'', e3⟩ := feed_progress h h1 h2 k ty l _ _ (c.add k (.pes s')) st' s' (by rw [find_add, if_pos rfl]) hs' g3
    refine ⟨c', st'', ?_⟩
    simp only [List.map_cons, Spec.Ts.feed, e, Option.bind_eq_bind, Option.bind_some, ne_eq, not_true_eq_false, if_false, e3]

end Sps.TsCtx
