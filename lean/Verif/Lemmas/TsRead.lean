import Verif.Lemmas.TsHist
import Verif.Lemmas.Bytes
/-! # The demuxer on a transport -/
namespace Sps.TsDemuxer
open Spec
variable {σ β : Type}

/-- The reader has nothing buffered and `s` in front of it. -/
structure AtTs (r : Reader) (closed : Err) (s : List UInt8) : Prop where
  wf : r.WF
  cap : r.buf.cap = 188
  ptr : r.buf.ptr = 0
  fin : r.buf.fin = 0
  rw_ : r.buf.rewindable = false
  io : ∃ io, r.io = some io ∧ noErr io.evs = true ∧ io.closed = closed ∧ streamOf io.evs = s

theorem AtTs.acquire {r : Reader} {closed : Err} {s : List UInt8} (h : AtTs r closed s) :
    ∃ e r', r.acquire 188 = some (e, r') ∧
      ((s.length < 188 ∧ e = closed) ∨
       (188 ≤ s.length ∧ e = Err.SUCCESS ∧ (∃ x, r'.bytes 188 = some (s.take 188, x)) ∧ AtTs { r' with buf := r'.buf.clear } closed (s.drop 188))) := by
  obtain ⟨io, hio, hne, hcl, hst⟩ := h.io
  have hw := h.wf.buf
  have hc0 : r.buf.content = [] := by
    have := hw.content_length
    rw [h.fin, h.ptr] at this
    exact List.eq_nil_of_length_eq_zero this
  have hcap := h.cap
  have hptr := h.ptr
  obtain ⟨e, r', io', k1, k2, k3, k4, k5, k6, k7, k8, k9⟩ :=
    Reader.acquireLoop_spec 188 h.wf io hio 188 (by rw [hc0]; decide) (by omega) (by omega)
  have ha : r.acquire 188 = some (e, r') := by
    unfold Reader.acquire
    rw [hw.size_eq, hc0, if_neg (by simp)]
    have : r.buf.capSize = 188 := by rw [AVBuf.capSize, h.rw_]; simp only [Bool.false_eq_true, if_false]; rw [hw.noRewindCap, hcap, hptr]
    rw [this, if_neg (by omega)]
    have h2 : r.buf.noRewindCap = 188 := by rw [hw.noRewindCap, hcap, hptr]
    rw [h2, if_neg (by omega)]
    simp only
    rw [h2, if_pos (by omega)]
    exact k1
  refine ⟨e, r', ha, ?_⟩
  obtain ⟨m1, m2⟩ := k9 hne
  have hp : r.pending = s := by simp only [Reader.pending, hio, hc0, hst, List.nil_append]
  rw [hp] at m2 k6
  rcases m2 with ⟨rfl, hl⟩ | ⟨he, hl⟩
  · right
    have hlen := k8 rfl
    have hw' := k2.buf
    have hcl' := hw'.content_length
    have h2 := hw'.fin_le
    rw [k4, hcap] at h2
    have hp0 : r'.buf.ptr = 0 := by omega
    have hf : r'.buf.fin = 188 := by omega
    have hcont : r'.buf.content = s.take 188 := by
      rw [← k6]
      simp only [Reader.pending, k3]
      rw [List.take_append_of_le_length hlen, List.take_of_length_le (by omega)]
    refine ⟨hl, rfl, ?_, ?_⟩
    · obtain ⟨x, hx, _⟩ := Reader.bytes_spec k2 (s.take 188) [] (by rw [hcont, List.append_nil])
      rw [show (s.take 188).length = 188 by simp; omega] at hx
      exact ⟨x, hx⟩
    · refine ⟨⟨?_, k2.io⟩, k4.trans hcap, rfl, rfl, k5.trans h.rw_, io', k3, m1, k7.trans hcl, ?_⟩
      · exact ⟨Nat.le_refl _, Nat.zero_le _, hw'.cap_lt⟩
      · rw [← k6]
        simp only [Reader.pending, k3]
        rw [List.drop_append, List.drop_eq_nil_of_le (by omega)]
        simp only [List.nil_append]
        rw [show 188 - r'.buf.content.length = 0 by omega, List.drop_zero]
  · exact .inl ⟨hl, by rw [he, hcl]⟩

theorem decodeAll_one (h : TsHandler σ) (c : TsCtx) (st : σ) (p : List UInt8) (hp : p.length = 188) :
    TsCtx.decodeAll h 189 c st p = TsCtx.decode h c st p := by
  rw [TsCtx.decodeAll_eq h 189 c st p (by omega), hp]
  simp only [Nat.reduceDiv, Spec.Ts.chunks, Spec.Ts.feed, Nat.reduceMod, ne_eq, not_true_eq_false, and_false, if_false]
  rw [List.take_of_length_le (by omega)]
  cases hd : TsCtx.decode h c st p with
  | none => rfl
  | some x =>
    obtain ⟨e, c1, st1⟩ := x
    simp only [Option.bind_eq_bind, Option.bind_some, Option.pure_def]
    split
    · rfl
    · rename_i he
      have : e = Err.SUCCESS := by simpa using he
      rw [this]; rfl

/-- `readPacket` on any fragmentation is `readStream` on the bytes. -/
theorem readPacket_eq (h : TsHandler σ) (pop : σ → Option (β × σ)) (closed : Err) (hc : closed ≠ Err.SUCCESS) :
    ∀ (fuel : Nat) (r : Reader) (s : List UInt8) (c : TsCtx) (st : σ), AtTs r closed s →
    match Spec.Ts.readStream h pop closed fuel s c st with
    | none => readPacket h pop fuel r c st = none
    | some (e, b, s', c', st') => ∃ r', readPacket h pop fuel r c st = some (e, b, r', c', st') ∧ (e = Err.SUCCESS → AtTs r' closed s')
  | 0, r, s, c, st, _ => rfl
  | fuel + 1, r, s, c, st, ha => by
    unfold Spec.Ts.readStream readPacket
    cases hp : pop st with
    | some x => exact ⟨r, rfl, fun _ => ha⟩
    | none =>
      simp only
      obtain ⟨e, r', h1, h2⟩ := ha.acquire
      rw [h1]
      rcases h2 with ⟨h2, rfl⟩ | ⟨h2, rfl, ⟨x, hx⟩, h3⟩
      · rw [if_pos h2]
        refine ⟨r', ?_, fun he => absurd he hc⟩
        simp only [Option.bind_eq_bind, Option.bind_some]
        rw [if_pos hc]; rfl
      · rw [if_neg (by omega)]
        simp only [Option.bind_eq_bind, Option.bind_some]
        rw [if_neg (by simp), hx]
        simp only [Option.bind_some]
        rw [decodeAll_one h c st _ (by simp; omega)]
        cases hd : TsCtx.decode h c st (s.take 188) with
        | none => rfl
        | some y =>
          obtain ⟨e1, c1, st1⟩ := y
          simp only [Option.bind_some]
          by_cases he : e1 ≠ Err.SUCCESS
          · rw [if_pos he, if_pos he]
            exact ⟨r', rfl, fun h => absurd h he⟩
          · rw [if_neg he, if_neg he]
            exact readPacket_eq h pop closed hc fuel _ (s.drop 188) c1 st1 h3

theorem session_eq (h : TsHandler σ) (pop : σ → Option (β × σ)) (fuel : Nat) (closed : Err) (hc : closed ≠ Err.SUCCESS) :
    ∀ (n : Nat) (r1 r2 : Reader) (s : List UInt8) (c : TsCtx) (st : σ), AtTs r1 closed s → AtTs r2 closed s →
    session h pop fuel n r1 c st = session h pop fuel n r2 c st
  | 0, _, _, _, _, _, _, _ => rfl
  | n + 1, r1, r2, s, c, st, h1, h2 => by
    have e1 := readPacket_eq h pop closed hc fuel r1 s c st h1
    have e2 := readPacket_eq h pop closed hc fuel r2 s c st h2
    unfold session
    cases hr : Spec.Ts.readStream h pop closed fuel s c st with
    | none => rw [hr] at e1 e2; rw [e1, e2]
    | some x =>
      obtain ⟨e, b, s', c', st'⟩ := x
      rw [hr] at e1 e2
      obtain ⟨r1', e1, g1⟩ := e1
      obtain ⟨r2', e2, g2⟩ := e2
      rw [e1, e2]
      simp only [Option.bind_eq_bind, Option.bind_some]
      by_cases he : e ≠ Err.SUCCESS
      · rw [if_pos he, if_pos he]
      · rw [if_neg he, if_neg he]
        have he : e = Err.SUCCESS := by simpa using he
        rw [session_eq h pop fuel closed hc n r1' r2' s' c' st' (g1 he) (g2 he)]

theorem AtTs.start (mem0 : List UInt8) (hm : mem0.length = 188) (io : Io) (ho : ioOk io = true) (hn : noErr io.evs = true) :
    AtTs (reader mem0 io) io.closed (streamOf io.evs) where
  wf := ⟨AVBuf.WF.ofCap mem0 false (by omega), by intro x hx; cases hx; exact ho⟩
  cap := hm
  ptr := rfl
  fin := rfl
  rw_ := rfl
  io := ⟨io, rfl, hn, rfl, rfl⟩

/-- When nothing is returned in between, the packets are decoded one after the other. -/
theorem readStream_feed (h : TsHandler σ) (pop : σ → Option (β × σ)) (hp : ∀ st, pop st = none) (closed : Err) :
    ∀ (fuel : Nat) (s : List UInt8) (c : TsCtx) (st : σ), s.length / 188 < fuel →
    (Spec.Ts.readStream h pop closed fuel s c st).map (fun x => (x.1, x.2.2.2)) =
      (Spec.Ts.feed h c st (Spec.Ts.chunks (s.length / 188) s)).map fun x => (if x.1 = Err.SUCCESS then closed else x.1, x.2)
  | 0, _, _, _, hf => by omega
  | fuel + 1, s, c, st, hf => by
    unfold Spec.Ts.readStream
    rw [hp]
    simp only
    by_cases hs : s.length < 188
    · rw [if_pos hs, Nat.div_eq_of_lt hs]
      rfl
    · rw [if_neg hs, show s.length / 188 = (s.drop 188).length / 188 + 1 by simp; omega]
      simp only [Spec.Ts.chunks, Spec.Ts.feed]
      cases hd : TsCtx.decode h c st (s.take 188) with
      | none => rfl
      | some x =>
        obtain ⟨e, c1, st1⟩ := x
        simp only [Option.bind_eq_bind, Option.bind_some]
        by_cases he : e ≠ Err.SUCCESS
        · rw [if_pos he, if_pos he]
          simp only [Option.pure_def, Option.map_some]
          rw [if_neg (by simpa using he)]
        · rw [if_neg he, if_neg he]
          exact readStream_feed h pop hp closed fuel (s.drop 188) c1 st1 (by simp; omega)

end Sps.TsDemuxer
