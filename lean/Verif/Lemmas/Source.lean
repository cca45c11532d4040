import Verif.Model.Source
import Verif.Lemmas.RProg
import Verif.Lemmas.HttpCut
/-! Readers over sources that deliver a byte string do what the stream semantics says. -/
namespace Sps
open Spec

/-- A source that delivers: `R k s rest` says that exactly `rest` is still to come from `s`, then `closed` for ever; `k` says that one
successful read of no bytes may still happen. -/
def Serves {σ : Type} [Source σ] (closed : Err) (R : Bool → σ → List UInt8 → Prop) : Prop :=
  ∀ {k : Bool} {s : σ} {rest : List UInt8} (n : Nat), 0 < n → R k s rest → ∃ x s' k' rest', Source.read s n = some (x, s') ∧ R k' s' rest' ∧
    match x with
    | .ok d => d.length ≤ n ∧ rest = d ++ rest' ∧ (k' = true → k = true) ∧ (d = [] → k = true ∧ k' = false)
    | .err e => e = closed ∧ rest = [] ∧ rest' = []

namespace SReader
variable {σ : Type} [Source σ] {closed : Err} {R : Bool → σ → List UInt8 → Prop}

/-- A reader with `s` still to come, at least `avail` of it buffered. -/
def Holds (cap : Nat) (R : Bool → σ → List UInt8 → Prop) (r : SReader σ) (avail : Nat) (s : List UInt8) : Prop :=
  r.buf.WF ∧ r.buf.rewindable = true ∧ r.buf.cap = cap ∧ avail ≤ r.buf.content.length ∧ ∃ k rest, R k r.src rest ∧ s = r.buf.content ++ rest

theorem Holds.init {mem0 : List UInt8} (hm : mem0.length < 2 ^ 63) {k : Bool} {s : σ} {rest : List UInt8} (h : R k s rest) :
    Holds mem0.length R (SReader.on mem0 s) 0 rest :=
  ⟨AVBuf.WF.ofCap _ _ hm, rfl, rfl, Nat.zero_le _, k, rest, h, by simp [SReader.on, AVBuf.content_ofCap]⟩

theorem acquireLoop_spec (H : Serves closed R) (fuel : Nat) {r : SReader σ} (hw : r.buf.WF) (n : Nat) {k : Bool} {rest : List UInt8}
    (hR : R k r.src rest) (hlt : r.buf.content.length < n) (hfit : n ≤ r.buf.cap - r.buf.ptr)
    (hf : n + (if k then 1 else 0) ≤ fuel + r.buf.content.length) :
    ∃ e r', acquireLoop fuel r n = some (e, r') ∧ r'.buf.WF ∧ r'.buf.cap = r.buf.cap ∧ r'.buf.rewindable = r.buf.rewindable ∧
      r.buf.content.length ≤ r'.buf.content.length ∧
      (∃ k' rest', R k' r'.src rest' ∧ r.buf.content ++ rest = r'.buf.content ++ rest') ∧
      (if (r.buf.content ++ rest).length < n then e = closed else e = Err.SUCCESS ∧ n ≤ r'.buf.content.length) := by
  induction fuel generalizing r k rest with
  | zero => exact absurd hf (by omega)
  | succ fuel ih =>
    have h1 := hw.ptr_le; have h2 := hw.fin_le; have h3 := hw.cap_lt
    have hcl := hw.content_length
    have hrem : 0 < r.buf.remain := by rw [hw.remain]; omega
    obtain ⟨x, s', k', rest', e1, e2, e3⟩ := H r.buf.remain hrem hR
    unfold acquireLoop
    rw [e1, Option.bind_some]
    cases x with
    | err e =>
      obtain ⟨rfl, rfl, rfl⟩ := e3
      refine ⟨e, _, rfl, hw, rfl, rfl, Nat.le_refl _, ⟨k', [], e2, rfl⟩, ?_⟩
      rw [List.append_nil, if_pos hlt]
    | ok d =>
      obtain ⟨g1, rfl, g3, g4⟩ := e3
      rw [hw.remain] at g1
      obtain ⟨b1, eb, wb, cb, contb, rwb, pb, fb⟩ := AVBuf.poke_append_spec hw d g1
      simp only [eb, Option.bind_some]
      have hcontl : (b1.append d.length).content.length = r.buf.content.length + d.length := by rw [contb]; simp
      rw [wb.size_eq]
      split
      · rename_i hlt2
        obtain ⟨e, r', q1, q2, q3, q4, q5, ⟨k2, rest2, q6, q7⟩, q8⟩ :=
          ih (r := ⟨b1.append d.length, s'⟩) wb e2 hlt2 (by change n ≤ (b1.append d.length).cap - b1.ptr; rw [cb, pb]; exact hfit)
            (by
              change _ ≤ fuel + (b1.append d.length).content.length
              rw [hcontl]
              by_cases hd : d = []
              · obtain ⟨rfl, rfl⟩ := g4 hd
                subst hd
                simp only [if_true, List.length_nil] at hf ⊢
                simp only [Bool.false_eq_true, if_false]
                omega
              · have : 0 < d.length := List.length_pos_iff.2 hd
                cases k' with
                | false => simp only [Bool.false_eq_true, if_false]; omega
                | true => rw [g3 rfl] at hf; simp only [if_true] at hf ⊢; omega)
        refine ⟨e, r', q1, q2, q3.trans cb, q4.trans rwb, ?_, ⟨k2, rest2, q6, ?_⟩, ?_⟩
        · change (b1.append d.length).content.length ≤ _ at q5; omega
        · rw [← q7]; change _ = (b1.append d.length).content ++ rest'; rw [contb, List.append_assoc]
        · change if ((b1.append d.length).content ++ rest').length < n then _ else _ at q8
          rw [contb, List.append_assoc] at q8
          exact q8
      · rename_i hge
        refine ⟨_, _, rfl, wb, cb, rwb, ?_, ⟨k', rest', e2, ?_⟩, ?_⟩
        · change _ ≤ (b1.append d.length).content.length; omega
        · change _ = (b1.append d.length).content ++ rest'; rw [contb, List.append_assoc]
        · rw [if_neg]
          · exact ⟨rfl, by change _ ≤ (b1.append d.length).content.length; omega⟩
          · rw [List.length_append, List.length_append]; omega

theorem acquire_spec (H : Serves closed R) {cap avail : Nat} {r : SReader σ} {s : List UInt8} (h : Holds cap R r avail s) (n : Nat) :
    ∃ e r', acquire r n = some (e, r') ∧
      if cap < n then e = Err.ERROR_IO_BUFFER_FULL ∧ Holds cap R r' avail s
      else if s.length < n then e = closed ∧ Holds cap R r' avail s
      else e = Err.SUCCESS ∧ Holds cap R r' (max avail n) s := by
  obtain ⟨hw, hrw, hc, hav, k, rest, hR, rfl⟩ := h
  have h1 := hw.ptr_le; have h2 := hw.fin_le; have h3 := hw.cap_lt
  have hcl := hw.content_length
  unfold acquire
  rw [hw.size_eq]
  by_cases hge : r.buf.content.length ≥ n
  · rw [if_pos hge]
    refine ⟨_, _, rfl, ?_⟩
    rw [if_neg (by omega), if_neg (by rw [List.length_append]; omega)]
    exact ⟨rfl, hw, hrw, hc, by omega, k, rest, hR, rfl⟩
  · rw [if_neg hge]
    have hcap : r.buf.capSize = cap := by simp [AVBuf.capSize, hrw, hc]
    rw [hcap]
    by_cases hcn : cap < n
    · rw [if_pos hcn]
      refine ⟨_, _, rfl, ?_⟩
      rw [if_pos hcn]
      exact ⟨rfl, hw, hrw, hc, hav, k, rest, hR, rfl⟩
    · rw [if_neg hcn]
      have hbuf : ∃ b, (if r.buf.noRewindCap < n then r.buf.rewind else some r.buf) = some b ∧ b.WF ∧
          b.cap = r.buf.cap ∧ b.content = r.buf.content ∧ b.rewindable = true ∧ n ≤ b.cap - b.ptr := by
        rw [hw.noRewindCap]
        split
        · obtain ⟨b, q1, q2, q3, q4, q5, q6⟩ := AVBuf.rewind_spec hw
          exact ⟨b, q1, q2, q3, q4, q5.trans hrw, by rw [q6, q3]; omega⟩
        · exact ⟨r.buf, rfl, hw, rfl, rfl, hrw, by omega⟩
      obtain ⟨b, q1, q2, q3, q4, q5, q6⟩ := hbuf
      rw [q1, Option.bind_some, q2.noRewindCap, if_pos (by omega)]
      obtain ⟨e, r', k1, k2, k3, k4, k5, ⟨k', rest', k6, k7⟩, k8⟩ :=
        acquireLoop_spec H (n + 1) (r := { r with buf := b }) q2 n hR
          (by change b.content.length < n; rw [q4]; omega) q6 (by split <;> omega)
      change b.content.length ≤ _ at k5
      change b.content ++ rest = _ at k7
      change if (b.content ++ rest).length < n then _ else _ at k8
      rw [q4] at k5 k7 k8
      refine ⟨e, r', k1, ?_⟩
      rw [if_neg hcn]
      have hh : ∀ a, a ≤ r'.buf.content.length → Holds cap R r' a (r.buf.content ++ rest) := fun a ha =>
        ⟨k2, k4.trans q5, (k3.trans q3).trans hc, ha, k', rest', k6, k7⟩
      by_cases hl : (r.buf.content ++ rest).length < n
      · rw [if_pos hl] at k8 ⊢
        exact ⟨k8, hh _ (by omega)⟩
      · rw [if_neg hl] at k8 ⊢
        exact ⟨k8.1, hh _ (by omega)⟩

omit [Source σ] in
/-- After taking `n` buffered bytes. -/
theorem Holds.drop {cap avail : Nat} {r : SReader σ} {s : List UInt8} (h : Holds cap R r avail s) (n : Nat) (hn : n ≤ avail) {b : AVBuf} (hw : b.WF)
    (hc : b.content = r.buf.content.drop n) (hcap : b.cap = r.buf.cap) (hrw : b.rewindable = r.buf.rewindable) :
    Holds cap R ⟨b, r.src⟩ (avail - n) (s.drop n) := by
  obtain ⟨h1, h2, h3, h4, k, rest, h5, rfl⟩ := h
  refine ⟨hw, hrw.trans h2, hcap.trans h3, ?_, k, rest, h5, ?_⟩
  · change _ ≤ b.content.length; rw [hc, List.length_drop]; omega
  · rw [List.drop_append_of_le_length (by omega), hc]

end SReader

namespace RProg
variable {σ : Type} [Source σ]

theorem runOn_bind {α β : Type} (p : RProg α) (f : α → RProg β) (r : SReader σ) :
    (p >>= f).runOn r = (p.runOn r).bind fun x => (f x.1).runOn x.2 := by
  change (p.bind f).runOn r = _
  induction p generalizing r with
  | ret a => rfl
  | acquire n k ih => simp only [bind, runOn]; cases r.acquire n with | none => rfl | some x => exact ih _ _
  | int8 k ih => simp only [bind, runOn]; cases r.lift Reader.int8 with | none => rfl | some x => exact ih _ _
  | bytes n k ih => simp only [bind, runOn]; cases r.lift (·.bytes n) with | none => rfl | some x => exact ih _ _
  | skip n k ih => simp only [bind, runOn]; exact ih _
  | size k ih => simp only [bind, runOn]; exact ih _ _

/-- The reader over a source. -/
def onSource (σ : Type) [Source σ] : Runner (SReader σ) := ⟨fun p r => p.runOn r, fun _ _ => rfl, runOn_bind⟩

theorem sim_source {closed : Err} {R : Bool → σ → List UInt8 → Prop} (H : Serves closed R) (cap : Nat) :
    (onSource σ).Sim cap closed (SReader.Holds cap R) where
  sim := by
    intro α p
    induction p with
    | ret a =>
      intro r avail s a' avail' s' h hs
      simp only [onStream, Option.some.injEq, Prod.mk.injEq] at hs
      obtain ⟨rfl, rfl, rfl⟩ := hs
      exact ⟨r, rfl, h⟩
    | acquire n k ih =>
      intro r avail s a' avail' s' h hs
      obtain ⟨e, r', g1, g2⟩ := SReader.acquire_spec H h n
      simp only [onStream] at hs
      change ∃ r', (r.acquire n).bind (fun x => (k x.1).runOn x.2) = _ ∧ _
      rw [g1, Option.bind_some]
      by_cases h1 : cap < n
      · rw [if_pos h1] at g2 hs
        obtain ⟨rfl, g2⟩ := g2
        exact ih _ g2 hs
      · rw [if_neg h1] at g2 hs
        by_cases h2 : s.length < n
        · rw [if_pos h2] at g2 hs
          obtain ⟨rfl, g2⟩ := g2
          exact ih _ g2 hs
        · rw [if_neg h2] at g2 hs
          obtain ⟨rfl, g2⟩ := g2
          exact ih _ g2 hs
    | int8 k ih =>
      intro r avail s a' avail' s' h hs
      cases avail with
      | zero => simp [onStream] at hs
      | succ a =>
        have hh := h
        obtain ⟨h1, h2, h3, h4, k0, rest0, h5, rfl⟩ := h
        cases hc : r.buf.content with
        | nil => rw [hc] at h4; simp at h4
        | cons b rest =>
          obtain ⟨r', e, w, c, i, p1, q1⟩ := Reader.int8_spec (r := ⟨r.buf, none⟩) ⟨h1, by intro _ hx; cases hx⟩ b rest hc
          rw [hc] at hs
          simp only [onStream, List.cons_append] at hs
          change ∃ r', (r.lift Reader.int8).bind (fun x => (k x.1).runOn x.2) = _ ∧ _
          unfold SReader.lift
          rw [e, Option.map_some, Option.bind_some]
          have := hh.drop 1 (by omega) w.buf (by rw [c, hc]; rfl) p1 q1
          rw [hc] at this
          exact ih _ this hs
    | bytes n k ih =>
      intro r avail s a' avail' s' h hs
      simp only [onStream] at hs
      split at hs
      · rename_i hn
        have hh := h
        obtain ⟨h1, h2, h3, h4, k0, rest0, h5, rfl⟩ := h
        have hsplit : r.buf.content = r.buf.content.take n ++ r.buf.content.drop n := (List.take_append_drop _ _).symm
        obtain ⟨r', e, w, c, i, p1, q1⟩ := Reader.bytes_spec (r := ⟨r.buf, none⟩) ⟨h1, by intro _ hx; cases hx⟩ (r.buf.content.take n) (r.buf.content.drop n) hsplit
        have hl : (r.buf.content.take n).length = n := by rw [List.length_take]; omega
        rw [hl] at e
        rw [List.take_append_of_le_length (by omega)] at hs
        change ∃ r', (r.lift (·.bytes n)).bind (fun x => (k x.1).runOn x.2) = _ ∧ _
        unfold SReader.lift
        simp only [e, Option.map_some, Option.bind_some]
        exact ih _ (hh.drop n hn.1 w.buf c p1 q1) hs
      · simp at hs
    | skip n k ih =>
      intro r avail s a' avail' s' h hs
      simp only [onStream] at hs
      split at hs
      · rename_i hn
        have hh := h
        obtain ⟨h1, h2, h3, h4, k0, rest0, h5, rfl⟩ := h
        obtain ⟨w, c, i, p1, q1⟩ := skipBytes_spec (r := ⟨r.buf, none⟩) ⟨h1, by intro _ hx; cases hx⟩ n (by change n ≤ r.buf.content.length; omega)
        exact ih (r := ⟨r.buf.skip n, r.src⟩) (hh.drop n hn.1 w.buf c p1 q1) hs
      · simp at hs
    | size k ih => intro r avail s a' avail' s' h hs; simp [onStream] at hs
  mono h hb := ⟨h.1, h.2.1, h.2.2.1, Nat.le_trans hb h.2.2.2.1, h.2.2.2.2⟩

end RProg

/-! ## Sources that deliver -/

/-- A socket. -/
theorem Io.serves (cl : Err) : Serves (σ := Io) cl fun _ io s => Arrives io s cl := by
  intro k io rest n hn h
  by_cases hs : rest = []
  · subst hs
    obtain ⟨io', h1, h2⟩ := Io.read_end h n hn
    exact ⟨.err cl, io', k, [], congrArg some h1, h2, rfl, rfl, rfl⟩
  · obtain ⟨d, s', io', h1, h2, h3, h4, h5⟩ := Io.read_on h hs n hn
    exact ⟨.ok d, io', k, s', congrArg some h1, h5, h4, h2, id, fun h => absurd h h3⟩

namespace HttpSrc

/-- A chunked body. -/
def Chunked (t : List UInt8) (cl : Err) (k : Bool) (s : HttpSrc) (rest : List UInt8) : Prop :=
  (k = true ∧ ∃ d cs z, HttpBody.Pending s.body s.io rest t cl d cs z) ∨ (k = false ∧ s.body.eof = true ∧ rest = [] ∧ Arrives s.io t cl)

theorem serves_chunked (t : List UInt8) (cl : Err) : Serves (σ := HttpSrc) Err.ERROR_HTTP_RES_EOF (Chunked t cl) := by
  rintro k s rest n hn (⟨rfl, d, cs, z, h⟩ | ⟨rfl, h, rfl, ha⟩)
  · obtain ⟨d1, X', b', io', h1, h2, h3, h4⟩ := HttpBody.read_pending (side := s.side) h n hn
    have hr : Source.read s n = some (.ok d1, { s with body := b', io := io' }) := by
      change HttpSrc.read s n = _
      unfold HttpSrc.read
      rw [h1]; rfl
    rcases h4 with ⟨g1, d', cs', g2⟩ | ⟨g1, g2, g3⟩
    · exact ⟨.ok d1, _, true, X', hr, .inl ⟨rfl, d', cs', z, g2⟩, h3, h2, fun _ => rfl, fun h => absurd h g1⟩
    · have hx := g1 ▸ h2
      obtain ⟨hd, hX⟩ := List.append_eq_nil_iff.mp hx.symm
      exact ⟨.ok d1, _, false, X', hr, .inr ⟨rfl, g2, hX, g3⟩, h3, h2, fun _ => rfl, fun _ => ⟨rfl, rfl⟩⟩
  · refine ⟨.err Err.ERROR_HTTP_RES_EOF, s, false, [], ?_, .inr ⟨rfl, h, rfl, ha⟩, rfl, rfl, rfl⟩
    change HttpSrc.read s n = _
    unfold HttpSrc.read HttpBody.read
    rw [if_pos h]; rfl

/-- A body with a length. -/
def Limited (t : List UInt8) (cl : Err) (N : Nat) (_ : Bool) (s : HttpSrc) (rest : List UInt8) : Prop :=
  s.body.chunked = false ∧ s.body.cl = (N : Int) ∧ s.body.eof = decide (rest = []) ∧ s.body.nread + rest.length = N ∧ Arrives s.io (rest ++ t) cl

theorem serves_limited (t : List UInt8) (cl : Err) {N : Nat} (hN : N < 2 ^ 31) : Serves (σ := HttpSrc) Err.ERROR_HTTP_RES_EOF (Limited t cl N) := by
  rintro k s rest n hn ⟨hc, hcl, he, hr, ha⟩
  by_cases hX : rest = []
  · subst hX
    refine ⟨.err Err.ERROR_HTTP_RES_EOF, s, k, [], ?_, ⟨hc, hcl, he, hr, ha⟩, rfl, rfl, rfl⟩
    change HttpSrc.read s n = _
    unfold HttpSrc.read HttpBody.read
    rw [if_pos (by rw [he]; rfl)]; rfl
  · have hXl : 0 < rest.length := List.length_pos_iff.2 hX
    have h0 : (0 : Int) ≤ s.body.cl := by omega
    have hsub : subSz s.body.cl.toNat s.body.nread = rest.length := by
      rw [hcl, Int.toNat_natCast, subSz_eq (by omega) (by omega)]
      omega
    obtain ⟨d1, s', io1, h1, h2, h3, h4, h5⟩ := Io.read_on ha (by simp [hX]) (min rest.length n) (by omega)
    have hd1 : d1.length ≤ rest.length := by omega
    have e2 : rest = d1 ++ rest.drop d1.length := by
      have := congrArg (List.take d1.length) h2
      rw [List.take_append_of_le_length hd1, List.take_left] at this
      conv => lhs; rw [← List.take_append_drop d1.length rest]
      rw [this]
    have e3 : s' = rest.drop d1.length ++ t := by
      have := congrArg (List.drop d1.length) h2
      rw [List.drop_append_of_le_length hd1, List.drop_left] at this
      exact this.symm
    refine ⟨.ok d1, { s with body := { s.body with nread := s.body.nread + d1.length, eof := decide (s.body.cl.toNat ≤ s.body.nread + d1.length) }, io := io1 }, k,
      rest.drop d1.length, ?_, ⟨hc, hcl, ?_, ?_, ?_⟩, by omega, e2, id, fun h => absurd h h3⟩
    · change HttpSrc.read s n = _
      unfold HttpSrc.read HttpBody.read
      rw [if_neg (by rw [he]; simpa using hX), if_neg (by rw [hc]; decide)]
      simp only [if_pos h0, hsub, h1, Option.map_some, if_true]
    · change decide (s.body.cl.toNat ≤ s.body.nread + d1.length) = decide (rest.drop d1.length = [])
      rw [hcl, Int.toNat_natCast]
      exact decide_eq_decide.mpr (List.drop_eq_nil_iff.trans ⟨fun h => by omega, fun h => by omega⟩).symm
    · change s.body.nread + d1.length + (rest.drop d1.length).length = N
      rw [List.length_drop]; omega
    · change Arrives io1 (rest.drop d1.length ++ t) cl
      rw [← e3]; exact h5

/-- A body without length. -/
def Unlimited (cl : Err) (_ : Bool) (s : HttpSrc) (rest : List UInt8) : Prop :=
  s.body.chunked = false ∧ s.body.cl < 0 ∧ s.body.eof = false ∧ Arrives s.io rest cl

theorem serves_unlimited (cl : Err) : Serves (σ := HttpSrc) cl (Unlimited cl) := by
  rintro k s rest n hn ⟨hc, hcl, he, ha⟩
  have h0 : ¬ (0 : Int) ≤ s.body.cl := by omega
  by_cases hs : rest = []
  · subst hs
    obtain ⟨io1, h1, h2⟩ := Io.read_end ha n hn
    refine ⟨.err cl, { s with io := io1 }, k, [], ?_, ⟨hc, hcl, he, h2⟩, rfl, rfl, rfl⟩
    change HttpSrc.read s n = _
    unfold HttpSrc.read HttpBody.read
    rw [if_neg (by rw [he]; decide), if_neg (by rw [hc]; decide)]
    simp only [if_neg h0, h1, Option.map_some, if_neg (arrives_ne ha)]
  · obtain ⟨d, s', io1, h1, h2, h3, h4, h5⟩ := Io.read_on ha hs n hn
    refine ⟨.ok d, { s with body := { s.body with nread := s.body.nread + d.length, eof := s.body.eof }, io := io1 }, k, s', ?_, ⟨hc, hcl, he, h5⟩, h4, h2, id, fun h => absurd h h3⟩
    change HttpSrc.read s n = _
    unfold HttpSrc.read HttpBody.read
    rw [if_neg (by rw [he]; decide), if_neg (by rw [hc]; decide)]
    simp only [if_neg h0, h1, Option.map_some, if_true]

/-- A body that arrives is a source that delivers. -/
theorem serves_body {ch : Bool} {cl : Int} {io : Io} {body : List UInt8} {closed : Err} (h : Http.BodyArrives ch cl io body closed) (side : HttpSide) :
    closed ≠ Err.SUCCESS ∧ ∃ R : Bool → HttpSrc → List UInt8 → Prop, Serves closed R ∧ ∃ k, R k ⟨side, { chunked := ch, cl := cl }, io⟩ body := by
  cases h with
  | @chunks cl io cs z t e ok ha =>
    exact ⟨by decide, _, serves_chunked t e, true, .inl ⟨rfl, [], cs, z, rfl, rfl, rfl, rfl, fun h => absurd rfl h, by decide, by simpa using ha, ok⟩⟩
  | @length io body t e h0 hl ha =>
    exact ⟨by decide, _, serves_limited t e hl, false, rfl, rfl, by simpa using h0, by simp, ha⟩
  | close hcl ha => exact ⟨arrives_ne ha, _, serves_unlimited _, false, rfl, hcl, rfl, ha⟩

end HttpSrc

/-! ## Bodies that are cut -/

namespace HttpBody
open Http

theorem line_end {cl : Err} : ∀ (fuel : Nat) (p got : List UInt8) (io : Io), Arrives io p cl → (∀ b ∈ p, b ≠ LF) → got.length + p.length < 33 →
    p.length < fuel → ∃ io', line fuel io got = some (cl, got ++ p, io') ∧ Arrives io' [] cl
  | 0, p, got, io, _, _, _, hf => by omega
  | fuel + 1, [], got, io, ha, _, _, _ => by
    obtain ⟨io1, h1, h2⟩ := Io.read_end ha 1 (by decide)
    unfold line
    rw [h1]
    exact ⟨io1, by simp, h2⟩
  | fuel + 1, b :: p, got, io, ha, hl, hg, hf => by
    obtain ⟨io1, h1, h2⟩ := Io.read_one ha
    unfold line
    rw [h1]
    simp only [List.length_cons] at hg hf ⊢
    have hb : b ≠ LF := hl b (by simp)
    rw [if_pos ⟨by simpa [LF] using hb, by omega⟩]
    obtain ⟨io2, h3, h4⟩ := line_end fuel p (got ++ [b]) io1 h2 (fun x hx => hl x (List.mem_cons_of_mem _ hx)) (by simp; omega) (by omega)
    exact ⟨io2, by rw [h3]; simp, h4⟩

theorem readLength_end {io : Io} {l p : List UInt8} {n : Nat} {cl : Err} (b : HttpBody) (ha : Arrives io p cl) (hs : sizeLine l n) (hl : l.length ≤ 31)
    (hp : p <+: l ++ [CR]) : ∃ io', b.readLength io = some (cl, b, io') ∧ Arrives io' [] cl := by
  have hlen := hp.length_le
  simp only [List.length_append, List.length_cons, List.length_nil] at hlen
  obtain ⟨io1, h1, h2⟩ := line_end 34 p [] io ha (by
    intro x hx
    rcases List.mem_append.1 (hp.subset hx) with h | h
    · exact Text.sizeLine_noLf hs x h
    · simp only [List.mem_singleton] at h; subst h; decide) (by simp; omega) (by omega)
  refine ⟨io1, ?_, h2⟩
  unfold readLength
  rw [h1, Option.bind_some]
  simp only
  rw [if_pos (arrives_ne ha)]

/-- How it ends: in a size line, or in the data `q` of a chunk. -/
inductive Last : (last q : List UInt8) → Prop
  | line {l p : List UInt8} {n : Nat} : sizeLine l n → l.length ≤ 31 → p <+: l ++ [CR] → Last p []
  | data {l q : List UInt8} {n : Nat} : sizeLine l n → l.length ≤ 31 → n < 2 ^ 64 → q.length < n → Last (l ++ crlf ++ q) q

/-- `X` is still to come of a chunked body that is cut. -/
inductive Cutting (b : HttpBody) (io : Io) (cl : Err) : (X : List UInt8) → Prop
  | whole {d last q : List UInt8} {cs : List (List UInt8 × List UInt8)} : b.chunked = true → b.eof = false → b.left = d.length → (d ≠ [] → b.size ≠ 0) →
      d.length < 2 ^ 64 → chunksOk cs → Last last q → Arrives io ((if d = [] then [] else d ++ crlf) ++ (cs.flatMap chunk ++ last)) cl →
      Cutting b io cl (d ++ (content cs ++ q))
  | part {q : List UInt8} : b.chunked = true → b.eof = false → q.length < b.left → b.left < 2 ^ 64 → b.size ≠ 0 → Arrives io q cl → Cutting b io cl q

/-- Data that arrives is taken, as much as is there. -/
theorem data_cut {b : HttpBody} {io : Io} {cl : Err} {d t : List UInt8} (hd : d ≠ []) (ha : Arrives io (d ++ t) cl) (hl : d.length ≤ b.left) (n : Nat)
    (hn : 0 < n) : ∃ d1 d2 io', d = d1 ++ d2 ∧ d1 ≠ [] ∧ d1.length ≤ n ∧ io.read (min (min b.left d.length) n) = (.ok d1, io') ∧ Arrives io' (d2 ++ t) cl := by
  have hdl : 0 < d.length := List.length_pos_iff.2 hd
  obtain ⟨d1, s', io1, h1, h2, h3, h4, h5⟩ := Io.read_on ha (by simp [hd]) (min (min b.left d.length) n) (by omega)
  have hd1 : d1.length ≤ d.length := by omega
  have e1 : d.take d1.length = d1 := by
    have := congrArg (List.take d1.length) h2
    rwa [List.take_append_of_le_length hd1, List.take_left] at this
  have e3 : s' = d.drop d1.length ++ t := by
    have := congrArg (List.drop d1.length) h2
    rw [List.drop_append_of_le_length hd1, List.drop_left] at this
    exact this.symm
  exact ⟨d1, d.drop d1.length, io1, by conv => lhs; rw [← List.take_append_drop d1.length d, e1], h3, by omega, h1, e3 ▸ h5⟩

/-- Reading in the chunk that is cut. -/
theorem read_part {b : HttpBody} {io : Io} {cl : Err} {q : List UInt8} (hl : q.length < b.left) (h64 : b.left < 2 ^ 64) (hs : b.size ≠ 0)
    (ha : Arrives io q cl) (n : Nat) (hn : 0 < n) :
    (q = [] ∧ ∃ io', readData .server b n io = some (cl, [], b, io') ∧ Arrives io' [] cl) ∨
    ∃ d1 q' io', readData .server b n io = some (Err.SUCCESS, d1, { b with left := subSz b.left d1.length }, io') ∧ q = d1 ++ q' ∧ d1 ≠ [] ∧ d1.length ≤ n ∧
      subSz b.left d1.length = b.left - d1.length ∧ Arrives io' q' cl := by
  have hm : 0 < min b.left n := by omega
  unfold readData
  simp only
  rw [if_pos hs]
  by_cases hq : q = []
  · subst hq
    obtain ⟨io1, h1, h2⟩ := Io.read_end ha _ hm
    rw [h1]
    refine .inl ⟨rfl, io1, ?_, h2⟩
    unfold tail
    have hne := arrives_ne ha
    simp [hne]
  · obtain ⟨d1, s', io1, h1, h2, h3, h4, h5⟩ := Io.read_on ha hq _ hm
    rw [h1]
    have hd : d1.length ≤ q.length := by rw [h2]; simp
    have hsub : subSz b.left d1.length = b.left - d1.length := subSz_eq (by omega) h64
    refine .inr ⟨d1, s', io1, ?_, h2, h3, by omega, hsub, h5⟩
    unfold tail
    simp only [true_and]
    rw [hsub, if_neg (by omega)]
    simp [hs]

/-- One read of a chunked body that is cut. -/
theorem read_cutting {b : HttpBody} {io : Io} {X : List UInt8} {cl : Err} (h : Cutting b io cl X) (n : Nat) (hn : 0 < n) :
    (X = [] ∧ ∃ d b' io', b.read .server n io = some (cl, d, b', io') ∧ Cutting b' io' cl []) ∨
    ∃ d1 X' b' io', b.read .server n io = some (Err.SUCCESS, d1, b', io') ∧ X = d1 ++ X' ∧ d1 ≠ [] ∧ d1.length ≤ n ∧ Cutting b' io' cl X' := by
  cases h with
  | part hc he hl h64 hs ha =>
    unfold read
    rw [if_neg (by rw [he]; decide), if_pos hc]
    unfold readChunked
    rw [if_neg (by omega), Option.bind_some]
    simp only
    rw [if_neg (by decide)]
    rcases read_part hl h64 hs ha n hn with ⟨rfl, io', k1, k2⟩ | ⟨d1, q', io', k1, k2, k3, k4, k5, k6⟩
    · exact .inl ⟨rfl, [], b, io', k1, .part hc he (by simpa using hl) h64 hs k2⟩
    · refine .inr ⟨d1, q', _, io', k1, k2, k3, k4, .part hc he ?_ ?_ hs k6⟩
      · change q'.length < subSz _ _; rw [k5]; rw [k2, List.length_append] at hl; omega
      · change subSz _ _ < _; rw [k5]; omega
  | @whole d last q cs hc he hl hsz h64 hok hla ha =>
    unfold read
    rw [if_neg (by rw [he]; decide), if_pos hc]
    unfold readChunked
    have data : ∀ (b : HttpBody) (io : Io) (d : List UInt8) (cs : List (List UInt8 × List UInt8)), b.chunked = true → b.eof = false → b.left = d.length → b.size ≠ 0 → d ≠ [] → d.length < 2 ^ 64 →
        chunksOk cs → Arrives io (d ++ (crlf ++ (cs.flatMap chunk ++ last))) cl →
        ∃ d1 X' b' io', readData .server b n io = some (Err.SUCCESS, d1, b', io') ∧ d ++ (content cs ++ q) = d1 ++ X' ∧ d1 ≠ [] ∧ d1.length ≤ n ∧
          Cutting b' io' cl X' := by
      intro b io d cs hc he hl hs hd h64 hok ha
      have hdl : 0 < d.length := List.length_pos_iff.2 hd
      obtain ⟨d1, d2, io1, g1, g2, g3, g4, g5⟩ := data_cut (b := b) hd ha (by omega) n hn
      unfold readData
      simp only
      rw [if_pos hs, show min b.left n = min (min b.left d.length) n by omega, g4]
      simp only
      have hsub : subSz b.left d1.length = d2.length := by
        rw [hl, g1, List.length_append, subSz_eq (by omega) (by rw [g1, List.length_append] at h64; omega)]
        omega
      rw [hsub]
      have hda : Arrives io1 ((if ({ b with left := d2.length } : HttpBody).left = 0 then crlf else []) ++ ((if d2 = [] then [] else d2 ++ crlf) ++ (cs.flatMap chunk ++ last))) cl := by
        cases d2 with
        | nil => simpa using g5
        | cons x d2 => simpa using g5
      obtain ⟨io2, k1, k2⟩ := tail_on { b with left := d2.length } d1 hda
      rw [if_neg hs] at k1
      refine ⟨d1, d2 ++ (content cs ++ q), _, io2, k1, by rw [g1, List.append_assoc], g2, g3, ?_⟩
      exact .whole hc he rfl (fun _ => hs) (by rw [g1, List.length_append] at h64; omega) hok hla k2
    by_cases hd : d = []
    · subst hd
      rw [if_pos (by simpa using hl)]
      rw [if_pos rfl, List.nil_append] at ha
      cases cs with
      | cons c cs =>
        have hcc := hok c (by simp)
        have ha' : Arrives io (c.1 ++ crlf ++ (c.2 ++ (crlf ++ (cs.flatMap chunk ++ last)))) cl := by simpa [chunk] using ha
        obtain ⟨io1, h1, h2⟩ := readLength_on b ha' hcc.2.1 hcc.2.2.1 hcc.2.2.2
        rw [h1, Option.bind_some]
        simp only
        rw [if_neg (by decide)]
        have hcl : c.2.length ≠ 0 := by intro h0; exact hcc.1 (List.length_eq_zero_iff.mp h0)
        obtain ⟨d1, X', b', io', k1, k2, k3, k4, k5⟩ := data { b with left := c.2.length, size := c.2.length } io1 c.2 cs hc he rfl hcl hcc.1 hcc.2.2.2
          (fun x hx => hok x (List.mem_cons_of_mem _ hx)) h2
        refine .inr ⟨d1, X', b', io', k1, ?_, k3, k4, k5⟩
        rw [← k2]
        simp [content]
      | nil =>
        simp only [List.flatMap_nil, List.nil_append] at ha
        simp only [content, List.flatMap_nil, List.nil_append]
        cases hla with
        | @line l p m h1 h2 h3 =>
          obtain ⟨io1, k1, k2⟩ := readLength_end b ha h1 h2 h3
          rw [k1, Option.bind_some]
          simp only
          rw [if_pos (arrives_ne ha)]
          exact .inl ⟨trivial, _, _, io1, rfl, .whole (d := []) (cs := []) (last := []) (q := []) hc he hl hsz h64 hok (.line h1 h2 List.nil_prefix) (by simpa using k2)⟩
        | @data l q m h1 h2 h3 h4 =>
          obtain ⟨io1, k1, k2⟩ := readLength_on b ha h1 h2 h3
          rw [k1, Option.bind_some]
          simp only
          rw [if_neg (by decide)]
          rcases read_part (b := { b with left := m, size := m }) h4 h3 (by change m ≠ 0; omega) k2 n hn with ⟨rfl, io', g1, g2⟩ | ⟨d1, q', io', g1, g2, g3, g4, g5, g6⟩
          · exact .inl ⟨rfl, _, _, io', g1, .part hc he (by change [].length < m; simpa using h4) h3 (by change m ≠ 0; omega) g2⟩
          · refine .inr ⟨d1, q', _, io', g1, g2, g3, g4, .part hc he ?_ ?_ (by change m ≠ 0; omega) g6⟩
            · change q'.length < subSz m _; change subSz m _ = m - _ at g5; rw [g5]; rw [g2, List.length_append] at h4; omega
            · change subSz m _ < _; change subSz m _ = m - _ at g5; rw [g5]; omega
    · have hdl : 0 < d.length := List.length_pos_iff.2 hd
      rw [if_neg (by omega), Option.bind_some]
      simp only
      rw [if_neg (by decide)]
      rw [if_neg hd, List.append_assoc] at ha
      exact .inr (data b io d cs hc he hl (hsz hd) hd h64 hok ha)

end HttpBody

namespace HttpSrc

theorem serves_cutting (cl : Err) : Serves (σ := HttpSrc) cl fun _ s X => s.side = .server ∧ cl ≠ Err.SUCCESS ∧ HttpBody.Cutting s.body s.io cl X := by
  rintro k s rest n hn ⟨hs, hcl, h⟩
  rcases HttpBody.read_cutting h n hn with ⟨rfl, d, b', io', k1, k2⟩ | ⟨d1, X', b', io', k1, k2, k3, k4, k5⟩
  · refine ⟨.err cl, { s with body := b', io := io' }, k, [], ?_, ⟨hs, hcl, k2⟩, rfl, rfl, rfl⟩
    change HttpSrc.read s n = _
    unfold HttpSrc.read
    rw [hs, k1, Option.map_some]
    simp only [if_neg hcl]
  · refine ⟨.ok d1, { s with body := b', io := io' }, k, X', ?_, ⟨hs, hcl, k5⟩, k4, k2, id, fun h => absurd h k3⟩
    change HttpSrc.read s n = _
    unfold HttpSrc.read
    rw [hs, k1, Option.map_some]
    simp only [if_true]

theorem serves_short (cl : Err) {N : Nat} (hN : N < 2 ^ 31) : Serves (σ := HttpSrc) cl fun _ s rest =>
    s.body.chunked = false ∧ s.body.cl = (N : Int) ∧ s.body.eof = false ∧ s.body.nread + rest.length < N ∧ Arrives s.io rest cl := by
  rintro k s rest n hn ⟨hc, hcl, he, hr, ha⟩
  have h0 : (0 : Int) ≤ s.body.cl := by omega
  have hsub : subSz s.body.cl.toNat s.body.nread = N - s.body.nread := by
    rw [hcl, Int.toNat_natCast, subSz_eq (by omega) (by omega)]
  by_cases hs : rest = []
  · subst hs
    obtain ⟨io1, h1, h2⟩ := Io.read_end ha (min (N - s.body.nread) n) (by simp at hr; omega)
    refine ⟨.err cl, { s with io := io1 }, k, [], ?_, ⟨hc, hcl, he, hr, h2⟩, rfl, rfl, rfl⟩
    change HttpSrc.read s n = _
    unfold HttpSrc.read HttpBody.read
    rw [if_neg (by rw [he]; decide), if_neg (by rw [hc]; decide)]
    simp only [if_pos h0, hsub, h1, Option.map_some, if_neg (arrives_ne ha)]
  · obtain ⟨d, s', io1, h1, h2, h3, h4, h5⟩ := Io.read_on ha hs (min (N - s.body.nread) n) (by omega)
    have hl : rest.length = d.length + s'.length := by rw [h2, List.length_append]
    have hfalse : decide (s.body.cl.toNat ≤ s.body.nread + d.length) = false := by
      rw [hcl, Int.toNat_natCast]; exact decide_eq_false (by omega)
    refine ⟨.ok d, { s with body := { s.body with nread := s.body.nread + d.length, eof := false }, io := io1 }, k, s', ?_, ⟨hc, hcl, rfl, ?_, h5⟩, by omega, h2, id, fun h => absurd h h3⟩
    · change HttpSrc.read s n = _
      unfold HttpSrc.read HttpBody.read
      rw [if_neg (by rw [he]; decide), if_neg (by rw [hc]; decide)]
      simp only [if_pos h0, hsub, h1, Option.map_some, if_true, hfalse]
    · change s.body.nread + d.length + s'.length < N; omega

/-- A body that is cut delivers what arrived of it: on the server, and with a length also on the client. -/
theorem serves_cut {ch : Bool} {cl : Int} {io : Io} {part : List UInt8} {e : Err} (h : Http.BodyCut ch cl io part e) (side : HttpSide)
    (hs : side = .server ∨ ch = false) :
    e ≠ Err.SUCCESS ∧ ∃ R : Bool → HttpSrc → List UInt8 → Prop, Serves e R ∧ ∃ k, R k ⟨side, { chunked := ch, cl := cl }, io⟩ part := by
  cases h with
  | @line cl io cs l p n e ok size short pre arr =>
    refine ⟨arrives_ne arr, _, serves_cutting e, false, by simpa using hs, arrives_ne arr, ?_⟩
    have := HttpBody.Cutting.whole (b := { chunked := true, cl := cl }) (d := []) (cl := e) rfl rfl rfl (by simp) (by decide) ok (.line size short pre) (by simpa using arr)
    simpa using this
  | @data cl io cs l d n e ok size short small pre arr =>
    refine ⟨arrives_ne arr, _, serves_cutting e, false, by simpa using hs, arrives_ne arr, ?_⟩
    have := HttpBody.Cutting.whole (b := { chunked := true, cl := cl }) (d := []) (cl := e) rfl rfl rfl (by simp) (by decide) ok (.data size short small pre) (by simpa using arr)
    simpa using this
  | @length n io part e small pre arr => exact ⟨arrives_ne arr, _, serves_short e small, false, rfl, rfl, rfl, by simpa using pre, arr⟩

end HttpSrc
end Sps
