import Verif.Lemmas.Edge
import Verif.Props.Flv
/-! # Start-up packets of start-up packets, and what FLV keeps of them (C111) -/
namespace Spec
open Sps

theorem fromLast_append (key : AVPkt → Bool) (a b : List AVPkt) :
    fromLast key (a ++ b) = if b.any key then fromLast key b else if a.any key then fromLast key a ++ b else [] := by
  induction a with
  | nil =>
    simp only [List.nil_append, List.any_nil, Bool.false_eq_true, if_false]
    split
    · rfl
    · rename_i h
      have : b.any key = false := by simpa using h
      clear h
      induction b with
      | nil => rfl
      | cons p b ih =>
        simp only [List.any_cons, Bool.or_eq_false_iff] at this
        simp [fromLast, this.1, this.2]
  | cons p a ih =>
    simp only [List.cons_append, fromLast, List.any_append, List.any_cons]
    rw [ih]
    rcases Bool.eq_false_or_eq_true (b.any key) with hb | hb <;> rcases Bool.eq_false_or_eq_true (a.any key) with ha | ha <;> rcases Bool.eq_false_or_eq_true (key p) with hp | hp <;>
      simp only [hb, ha, hp, Bool.or_true, Bool.or_false, if_true, Bool.false_eq_true, if_false, List.nil_append, List.cons_append]

theorem fromLast_any (key : AVPkt → Bool) (a : List AVPkt) : (fromLast key a).any key = a.any key := by
  induction a with
  | nil => rfl
  | cons p a ih =>
    simp only [fromLast, List.any_cons]
    cases ha : a.any key <;> cases hp : key p <;> simp [ih, ha, hp]

theorem fromLast_twice (key : AVPkt → Bool) (a b : List AVPkt) : fromLast key (fromLast key a ++ b) = fromLast key (a ++ b) := by
  rw [fromLast_append, fromLast_append, fromLast_any]
  split
  · rfl
  · split
    · congr 1
      have := fromLast_append key [] a
      induction a with
      | nil => rfl
      | cons p a ih =>
        simp only [fromLast]
        cases ha : a.any key <;> cases hp : key p <;> simp_all [fromLast]
    · rfl

theorem fromLast_mem {key : AVPkt → Bool} {a : List AVPkt} {p : AVPkt} (h : p ∈ fromLast key a) : p ∈ a := by
  induction a with
  | nil => simp [fromLast] at h
  | cons q a ih =>
    simp only [fromLast] at h
    split at h
    · exact List.mem_cons_of_mem _ (ih h)
    · split at h
      · exact h
      · simp at h

def isScr (p : AVPkt) : Bool := p.stream == .subtitle
def isAud (p : AVPkt) : Bool := p.stream == .audio && p.pktType == 0
def isVid (p : AVPkt) : Bool := p.stream == .video && p.pktType == 0

theorem startup_def (h : List AVPkt) : startup h = lastOf isScr h ++ lastOf isAud h ++ lastOf isVid h ++ fromLast isKey (h.filter isMedia) := rfl

theorem lastOf_mem {f : AVPkt → Bool} {h : List AVPkt} {p : AVPkt} (hp : p ∈ lastOf f h) : p ∈ h ∧ f p = true := by
  simp only [lastOf, Option.mem_toList, Option.mem_def] at hp
  have := List.mem_of_getLast? hp
  simpa using this

theorem lastOf_append (f : AVPkt → Bool) (a b : List AVPkt) : lastOf f (lastOf f a ++ b) = lastOf f (a ++ b) := by
  simp only [lastOf, List.filter_append, List.getLast?_append]
  cases hb : (b.filter f).getLast? with
  | some x => simp
  | none =>
    simp only [Option.none_or]
    cases ha : (a.filter f).getLast? with
    | none => simp
    | some x =>
      have := List.mem_of_getLast? ha
      simp only [List.mem_filter] at this
      simp [this.2]

theorem filter_lastOf_self (f : AVPkt → Bool) (h : List AVPkt) : (lastOf f h).filter f = lastOf f h :=
  List.filter_eq_self.2 fun _ hp => (lastOf_mem hp).2

theorem filter_none {f g : AVPkt → Bool} (hfg : ∀ p, f p = true → g p = false) {l : List AVPkt} (hl : ∀ p ∈ l, f p = true) : l.filter g = [] :=
  List.filter_eq_nil_iff.2 fun p hp => by rw [hfg p (hl p hp)]; simp

theorem media_mem {h : List AVPkt} {p : AVPkt} (hp : p ∈ fromLast isKey (h.filter isMedia)) : isMedia p = true := by
  have := fromLast_mem hp
  simp only [List.mem_filter] at this
  exact this.2

theorem scr_aud (p : AVPkt) : isScr p = true → isAud p = false := by unfold isScr isAud; cases p.stream <;> simp
theorem scr_vid (p : AVPkt) : isScr p = true → isVid p = false := by unfold isScr isVid; cases p.stream <;> simp
theorem scr_med (p : AVPkt) : isScr p = true → isMedia p = false := by unfold isScr isMedia; cases p.stream <;> simp
theorem aud_scr (p : AVPkt) : isAud p = true → isScr p = false := by unfold isScr isAud; cases p.stream <;> simp
theorem aud_vid (p : AVPkt) : isAud p = true → isVid p = false := by unfold isVid isAud; cases p.stream <;> simp
theorem aud_med (p : AVPkt) : isAud p = true → isMedia p = false := by unfold isMedia isAud; cases p.stream <;> simp
theorem vid_scr (p : AVPkt) : isVid p = true → isScr p = false := by unfold isScr isVid; cases p.stream <;> simp
theorem vid_aud (p : AVPkt) : isVid p = true → isAud p = false := by unfold isVid isAud; cases p.stream <;> simp
theorem vid_med (p : AVPkt) : isVid p = true → isMedia p = false := by unfold isMedia isVid; cases p.stream <;> simp
theorem med_scr (p : AVPkt) : isMedia p = true → isScr p = false := by unfold isScr isMedia; cases p.stream <;> simp
theorem med_aud (p : AVPkt) : isMedia p = true → isAud p = false := by unfold isMedia isAud; cases p.stream <;> simp
theorem med_vid (p : AVPkt) : isMedia p = true → isVid p = false := by unfold isMedia isVid; cases p.stream <;> simp

/-- A list in the order of start-up packets. -/
structure Canon (s a v g : List AVPkt) : Prop where
  s1 : s.length ≤ 1
  a1 : a.length ≤ 1
  v1 : v.length ≤ 1
  s2 : ∀ p ∈ s, isScr p = true
  a2 : ∀ p ∈ a, isAud p = true
  v2 : ∀ p ∈ v, isVid p = true
  g2 : ∀ p ∈ g, isMedia p = true

theorem Canon.filters {s a v g : List AVPkt} (h : Canon s a v g) (m : List AVPkt) :
    (s ++ a ++ v ++ g ++ m).filter isScr = s ++ m.filter isScr ∧ (s ++ a ++ v ++ g ++ m).filter isAud = a ++ m.filter isAud ∧
    (s ++ a ++ v ++ g ++ m).filter isVid = v ++ m.filter isVid ∧ (s ++ a ++ v ++ g ++ m).filter isMedia = g ++ m.filter isMedia := by
  have ss : s.filter isScr = s := List.filter_eq_self.2 h.s2
  have aa : a.filter isAud = a := List.filter_eq_self.2 h.a2
  have vv : v.filter isVid = v := List.filter_eq_self.2 h.v2
  have gg : g.filter isMedia = g := List.filter_eq_self.2 h.g2
  refine ⟨?_, ?_, ?_, ?_⟩ <;> simp only [List.filter_append]
  · rw [ss, filter_none aud_scr h.a2, filter_none vid_scr h.v2, filter_none med_scr h.g2]; simp
  · rw [aa, filter_none scr_aud h.s2, filter_none vid_aud h.v2, filter_none med_aud h.g2]; simp
  · rw [vv, filter_none scr_vid h.s2, filter_none aud_vid h.a2, filter_none med_vid h.g2]; simp
  · rw [gg, filter_none scr_med h.s2, filter_none aud_med h.a2, filter_none vid_med h.v2]; simp

theorem last_self {l : List AVPkt} (h : l.length ≤ 1) : l.getLast?.toList = l := by
  match l, h with
  | [], _ => rfl
  | [x], _ => rfl

theorem lastOf_length (f : AVPkt → Bool) (h : List AVPkt) : (lastOf f h).length ≤ 1 := by
  unfold lastOf
  cases (h.filter f).getLast? <;> simp

theorem startup_canon (h : List AVPkt) : Canon (lastOf isScr h) (lastOf isAud h) (lastOf isVid h) (fromLast isKey (h.filter isMedia)) :=
  ⟨lastOf_length _ _, lastOf_length _ _, lastOf_length _ _, fun _ hp => (lastOf_mem hp).2, fun _ hp => (lastOf_mem hp).2, fun _ hp => (lastOf_mem hp).2, fun _ hp => media_mem hp⟩

/-- What follows start-up packets has the start-up packets that it had behind the whole. -/
theorem startup_append (h m : List AVPkt) : startup (startup h ++ m) = startup (h ++ m) := by
  obtain ⟨f1, f2, f3, f4⟩ := (startup_canon h).filters m
  rw [← startup_def] at f1 f2 f3 f4
  rw [startup_def (startup h ++ m), startup_def (h ++ m)]
  have e : ∀ f : AVPkt → Bool, (startup h ++ m).filter f = lastOf f h ++ m.filter f → lastOf f (startup h ++ m) = lastOf f (h ++ m) := by
    intro f hf
    rw [← lastOf_append f h m]
    unfold lastOf at hf ⊢
    rw [hf, List.filter_append]
    congr 2
    exact (congrArg (· ++ _) (filter_lastOf_self f h).symm)
  rw [e _ f1, e _ f2, e _ f3, f4, List.filter_append, fromLast_twice]

theorem prefix_split {x a b : List AVPkt} (h : x <+: a ++ b) : x <+: a ∨ ∃ t, x = a ++ t ∧ t <+: b := by
  rcases Nat.le_total x.length a.length with hl | hl
  · exact .inl (List.prefix_of_prefix_length_le h (List.prefix_append a b) hl)
  · obtain ⟨t, rfl⟩ := List.prefix_of_prefix_length_le (List.prefix_append a b) h hl
    exact .inr ⟨t, rfl, (List.prefix_append_right_inj a).1 h⟩

theorem Canon.self {s a v g : List AVPkt} (h : Canon s a v g) (hg : fromLast isKey g = g) : startup (s ++ a ++ v ++ g) = s ++ a ++ v ++ g := by
  obtain ⟨f1, f2, f3, f4⟩ := h.filters []
  simp only [List.append_nil, List.filter_nil] at f1 f2 f3 f4
  rw [startup_def]
  unfold lastOf
  rw [f1, f2, f3, f4, last_self h.s1, last_self h.a1, last_self h.v1, hg]

theorem fromLast_prefix {key : AVPkt → Bool} {h x : List AVPkt} (hx : x <+: fromLast key h) : fromLast key x = x := by
  have h1 : ∀ h : List AVPkt, fromLast key h = [] ∨ ∃ p t, fromLast key h = p :: t ∧ key p = true ∧ t.any key = false := by
    intro h
    induction h with
    | nil => exact .inl rfl
    | cons p t ih =>
      simp only [fromLast]
      split
      · exact ih
      · split
        · rename_i hp; exact .inr ⟨p, t, rfl, hp, by simpa using ‹¬ t.any key = true›⟩
        · exact .inl rfl
  rcases h1 h with h1 | ⟨p, t, h1, hp, ht⟩
  · rw [h1] at hx
    rw [List.prefix_nil.1 hx]
    rfl
  · rw [h1] at hx
    cases x with
    | nil => rfl
    | cons y x =>
      obtain ⟨r, hr⟩ := hx
      simp only [List.cons_append, List.cons.injEq] at hr
      obtain ⟨rfl, rfl⟩ := hr
      simp only [List.any_append, Bool.or_eq_false_iff] at ht
      simp [fromLast, hp, ht.1]

/-- An initial part of start-up packets is its own start-up packets. -/
theorem startup_prefix {h x : List AVPkt} (hx : x <+: startup h) : startup x = x := by
  have c := startup_canon h
  rw [startup_def] at hx
  rcases prefix_split hx with hx | ⟨t, rfl, ht⟩
  · rcases prefix_split hx with hx | ⟨t, rfl, ht⟩
    · rcases prefix_split hx with hx | ⟨t, rfl, ht⟩
      · have : Canon x [] [] [] := ⟨Nat.le_trans hx.length_le c.s1, by simp, by simp, fun p hp => c.s2 p (hx.subset hp), by simp, by simp, by simp⟩
        simpa using this.self rfl
      · have : Canon (lastOf isScr h) t [] [] := ⟨c.s1, Nat.le_trans ht.length_le c.a1, by simp, c.s2, fun p hp => c.a2 p (ht.subset hp), by simp, by simp⟩
        simpa using this.self rfl
    · have : Canon (lastOf isScr h) (lastOf isAud h) t [] := ⟨c.s1, c.a1, Nat.le_trans ht.length_le c.v1, c.s2, c.a2, fun p hp => c.v2 p (ht.subset hp), by simp⟩
      simpa using this.self rfl
  · have : Canon (lastOf isScr h) (lastOf isAud h) (lastOf isVid h) t := ⟨c.s1, c.a1, c.v1, c.s2, c.a2, c.v2, fun p hp => c.g2 p (ht.subset hp)⟩
    exact this.self (fromLast_prefix ht)

/-- Whoever comes to one who came, comes at some point. -/
theorem startup_slide {P x y : List AVPkt} {k : Nat} (h : x ++ y = startup (P.take k) ++ P.drop k) : ∃ k', startup x ++ y = startup (P.take k') ++ P.drop k' := by
  rcases List.append_eq_append_iff.1 h with ⟨c, h1, h2⟩ | ⟨c, h1, h2⟩
  · refine ⟨k, ?_⟩
    rw [startup_prefix (h := P.take k) (by rw [h1]; exact List.prefix_append _ _), h]
  · refine ⟨k + c.length, ?_⟩
    rw [h1, startup_append, List.take_add, h2, List.take_left, ← List.drop_drop, h2, List.drop_left]

namespace Edge

theorem back_back (p : AVPkt) : back (back p) = back p := by
  obtain ⟨mg, st, pt, pl, dts, pts, fl, cd⟩ := p
  cases st with
  | audio => simp [back, Flv.wire, FlvProps.bits_bits8, FlvProps.bits_bits32]
  | video =>
    by_cases hc : Flv.isCommand (Flv.bits 8 fl) = true
    · simp [back, Flv.wire, hc, FlvProps.bits_bits8, FlvProps.bits_bits32]
    · have : ((Flv.bits 32 dts : Nat) : Int) + Flv.signed 24 (Flv.bits 24 (pts - dts)) - ((Flv.bits 32 dts : Nat) : Int) = Flv.signed 24 (Flv.bits 24 (pts - dts)) := by omega
      simp [back, Flv.wire, hc, FlvProps.bits_bits8, FlvProps.bits_bits32, this, FlvProps.bits_signed24]
  | _ => simp [back, Flv.wire, FlvProps.bits_bits32]

theorem back_kept (p : AVPkt) : kept (back p) := by
  unfold kept
  rw [back_back]
  have : (back p).stream = .subtitle ∨ (back p).stream = .audio ∨ (back p).stream = .video := by
    unfold back
    cases p.stream <;> simp
  exact this.imp id fun h => ⟨h, Iff.rfl⟩

theorem back_stream {p : AVPkt} (h : kept p) : (back p).stream = p.stream := by
  unfold back
  rcases h with h | ⟨h | h, -⟩ <;> simp [h]

theorem kept_of_back {p : AVPkt} (h : back p = p) : kept p := by rw [← h]; exact back_kept p

theorem back_scr {p : AVPkt} (h : kept p) : isScr (back p) = isScr p := by unfold isScr; rw [back_stream h]

theorem type_beq {p : AVPkt} (h : kept p) : p.stream = .subtitle ∨ ((back p).pktType == 0) = (p.pktType == 0) := by
  refine h.imp id fun h => ?_
  rw [Bool.eq_iff_iff, beq_iff_eq, beq_iff_eq]
  exact h.2

theorem back_aud {p : AVPkt} (h : kept p) : isAud (back p) = isAud p := by
  unfold isAud; rw [back_stream h]; rcases type_beq h with h | h <;> rw [h]; rfl
theorem back_vid {p : AVPkt} (h : kept p) : isVid (back p) = isVid p := by
  unfold isVid; rw [back_stream h]; rcases type_beq h with h | h <;> rw [h]; rfl
theorem back_media {p : AVPkt} (h : kept p) : isMedia (back p) = isMedia p := by
  unfold isMedia; rw [back_stream h]; rcases type_beq h with h | h <;> simp [h]

theorem back_key {p : AVPkt} (h : kept p) : isKey (back p) = isKey p := by
  unfold isKey
  rw [back_stream h]
  cases hs : p.stream <;> try rfl
  have : (back p).flags = (Flv.bits 8 p.flags : Nat) := by
    unfold back Flv.wire
    simp only [hs]
    split <;> rfl
  rw [this]
  have : ((Flv.bits 8 p.flags : Nat) : Int) / 16 % 16 = p.flags / 16 % 16 := by unfold Flv.bits; omega
  rw [this]

theorem filter_back {f : AVPkt → Bool} (hf : ∀ p, kept p → f (back p) = f p) {ps : List AVPkt} (h : ∀ p ∈ ps, kept p) : (ps.map back).filter f = (ps.filter f).map back := by
  induction ps with
  | nil => rfl
  | cons p ps ih =>
    simp only [List.map_cons, List.filter_cons, hf p (h p (by simp)), ih fun x hx => h x (List.mem_cons_of_mem _ hx)]
    split <;> rfl

theorem lastOf_back {f : AVPkt → Bool} (hf : ∀ p, kept p → f (back p) = f p) {ps : List AVPkt} (h : ∀ p ∈ ps, kept p) : lastOf f (ps.map back) = (lastOf f ps).map back := by
  unfold lastOf
  rw [filter_back hf h, List.getLast?_map]
  cases (ps.filter f).getLast? <;> rfl

theorem fromLast_back {f : AVPkt → Bool} (hf : ∀ p, kept p → f (back p) = f p) {ps : List AVPkt} (h : ∀ p ∈ ps, kept p) : fromLast f (ps.map back) = (fromLast f ps).map back := by
  induction ps with
  | nil => rfl
  | cons p ps ih =>
    have h' : ∀ x ∈ ps, kept x := fun x hx => h x (List.mem_cons_of_mem _ hx)
    have e : (ps.map back).any f = ps.any f := by
      rw [List.any_map]
      rw [Bool.eq_iff_iff, List.any_eq_true, List.any_eq_true]
      constructor
      · rintro ⟨x, hx, hy⟩; exact ⟨x, hx, by rw [← hf x (h' x hx)]; exact hy⟩
      · rintro ⟨x, hx, hy⟩; exact ⟨x, hx, by rw [← hf x (h' x hx)] at hy; exact hy⟩
    simp only [List.map_cons, fromLast, e, hf p (h p (by simp)), ih h']
    split
    · rfl
    · split <;> rfl

theorem startup_back {ps : List AVPkt} (h : ∀ p ∈ ps, kept p) : startup (ps.map back) = (startup ps).map back := by
  rw [startup_def, startup_def, lastOf_back (fun _ => back_scr) h, lastOf_back (fun _ => back_aud) h, lastOf_back (fun _ => back_vid) h, filter_back (fun _ => back_media) h,
    fromLast_back (fun _ => back_key) fun p hp => h p (List.mem_filter.1 hp).1]
  simp

theorem mem_startup_all {P : List AVPkt} {k : Nat} {p : AVPkt} (hp : p ∈ startup (P.take k) ++ P.drop k) : p ∈ P := by
  rcases List.mem_append.1 hp with hp | hp
  · rw [startup_def] at hp
    simp only [List.mem_append] at hp
    rcases hp with ((hp | hp) | hp) | hp
    · exact List.mem_of_mem_take (lastOf_mem hp).1
    · exact List.mem_of_mem_take (lastOf_mem hp).1
    · exact List.mem_of_mem_take (lastOf_mem hp).1
    · exact List.mem_of_mem_take (List.mem_filter.1 (fromLast_mem hp)).1
  · exact List.mem_of_mem_drop hp

/-- What one who comes to a server is given, of what one who came is given. -/
theorem slide {P a b t : List AVPkt} {k : Nat} (hP : ∀ p ∈ P, kept p) (h : a ++ b ++ t = (startup (P.take k) ++ P.drop k).map back) :
    ∃ k', startup a ++ b ++ t = (startup (P.take k') ++ P.drop k').map back := by
  rw [List.append_assoc] at h
  obtain ⟨x, y, h1, h2, h3⟩ := List.map_eq_append_iff.1 h.symm
  obtain ⟨k', h4⟩ := startup_slide h1.symm
  refine ⟨k', ?_⟩
  rw [← h4, List.map_append, ← startup_back, h2, h3, List.append_assoc]
  intro p hp
  refine hP p (mem_startup_all (k := k) ?_)
  rw [h1]
  exact List.mem_append_left _ hp

theorem back_of_back {ps : List AVPkt} {l : List AVPkt} (h : l <+: ps.map back) : l.map back = l := by
  obtain ⟨t, h⟩ := h
  obtain ⟨x, y, -, rfl, -⟩ := List.map_eq_append_iff.1 h.symm
  rw [List.map_map]
  exact List.map_congr_left fun p _ => back_back p

/-- Of packets that FLV can carry, `back` is what FLV keeps. -/
theorem back_wire {p : AVPkt} (h : kept p) : back p = Flv.wire p := by
  have h1 := back_stream h
  have h2 := FlvProps.wire_stream p
  have e : back p = { Flv.wire p with stream := (back p).stream } := rfl
  rw [e, h1, ← h2]

theorem tag_back (p : AVPkt) : Flv.typeOf (back p).stream = Flv.typeOf p.stream ∧ (Flv.bits 32 (back p).dts = Flv.bits 32 p.dts) ∧ Flv.body (back p) = Flv.body p := by
  refine ⟨?_, ?_, ?_⟩
  · unfold back; cases p.stream <;> rfl
  · have : (back p).dts = (Flv.wire p).dts := rfl
    rw [this, FlvProps.wire_dts]
  · rw [← FlvProps.wire_body p]
    have hst := FlvProps.wire_stream p
    unfold back
    cases hs : p.stream <;> rw [hs] at hst <;> simp [Flv.body, hst]

/-- The tags of what is read back from tags are these tags. -/
theorem chain_back (ps : List AVPkt) (prev : Nat) : Flv.chain prev (ps.map back) = Flv.chain prev ps := by
  induction ps generalizing prev with
  | nil => rfl
  | cons p ps ih =>
    obtain ⟨h1, h2, h3⟩ := tag_back p
    simp only [List.map_cons, Flv.chain, h1, h2, h3, ih]

theorem bits8_small {x : Int} (h0 : 0 ≤ x) (h1 : x < 256) : (Flv.bits 8 x : Int) = x := by unfold Flv.bits; omega

/-- A packet whose type is a byte is kept, unless it is a command frame with another type than 0. -/
theorem kept_byte {p : AVPkt} (hs : p.stream = .audio ∨ p.stream = .video ∨ p.stream = .subtitle) (ht : 0 ≤ p.pktType ∧ p.pktType < 256)
    (hc : p.stream = .video → Flv.isCommand (Flv.bits 8 p.flags) = true → p.pktType = 0) : kept p := by
  rcases hs with hs | hs | hs
  · refine .inr ⟨.inl hs, ?_⟩
    have : (back p).pktType = (Flv.bits 8 p.pktType : Nat) := by unfold back Flv.wire; simp only [hs]
    rw [this, bits8_small ht.1 ht.2]
  · refine .inr ⟨.inr hs, ?_⟩
    by_cases hcm : Flv.isCommand (Flv.bits 8 p.flags) = true
    · have : (back p).pktType = 0 := by unfold back Flv.wire; simp only [hs, if_pos hcm]
      rw [this, hc hs hcm]
    · have : (back p).pktType = (Flv.bits 8 p.pktType : Nat) := by unfold back Flv.wire; simp only [hs, if_neg hcm]
      rw [this, bits8_small ht.1 ht.2]
  · exact .inl hs

theorem kept_rtmp {m : RtmpMsg} {p : AVPkt} (h : Rtmp.judge m = .accept p) : kept p := by
  have hb : ∀ f : UInt8, (0 : Int) ≤ f.toNat ∧ (f.toNat : Int) < 256 := fun f => ⟨by omega, by have := f.toNat_lt; omega⟩
  unfold Rtmp.judge at h
  split at h
  · simp at h
  · split at h
    · split at h
      · simp at h
      · split at h
        · simp at h
        · split at h
          · simp only [Rtmp.Verdict.accept.injEq] at h
            subst h
            exact kept_byte (.inr (.inl rfl)) ⟨Int.le_refl 0, by show (0 : Int) < 256; decide⟩ (fun _ _ => rfl)
          · rename_i f r _ _ hcm
            have e : Flv.bits 8 (f.toNat : Int) = f.toNat := by have := bits8_small (hb f).1 (hb f).2; omega
            split at h
            · simp only [Rtmp.Verdict.accept.injEq] at h
              subst h
              exact kept_byte (.inr (.inl rfl)) (hb _) (fun _ h => absurd (by simpa only [e] using h) hcm)
            · simp at h
    · split at h
      · split at h
        · simp at h
        · split at h
          · simp at h
          · split at h
            · simp at h
            · simp only [Rtmp.Verdict.accept.injEq] at h
              subst h
              exact kept_byte (.inl rfl) (hb _) (by simp)
      · split at h
        · simp only [Rtmp.Verdict.accept.injEq] at h
          subst h
          exact .inl rfl
        · simp at h

theorem kept_media {ms : List RtmpMsg} : ∀ p ∈ Rtmp.media ms, kept p := by
  induction ms with
  | nil => simp [Rtmp.media]
  | cons m ms ih =>
    intro p hp
    rw [Rtmp.media] at hp
    split at hp
    · exact ih p hp
    · rename_i h
      rcases List.mem_cons.1 hp with rfl | hp
      · exact kept_rtmp h
      · exact ih p hp
    · simp at hp
    · simp at hp

theorem kept_tag {ty ts : Nat} {b : List UInt8} {p : AVPkt} (h : Flv.judge ty ts b = .accept p) : kept p := by
  have hb : ∀ f : UInt8, (0 : Int) ≤ f.toNat ∧ (f.toNat : Int) < 256 := fun f => ⟨by omega, by have := f.toNat_lt; omega⟩
  unfold Flv.judge at h
  split at h
  · split at h
    · simp at h
    · split at h
      · simp at h
      · split at h
        · simp at h
        · simp at h
        · simp only [Flv.Verdict.accept.injEq] at h
          subst h
          exact kept_byte (.inl rfl) (hb _) (by simp)
  · split at h
    · split at h
      · simp at h
      · split at h
        · simp at h
        · split at h
          · split at h
            · simp at h
            · simp only [Flv.Verdict.accept.injEq] at h
              subst h
              exact kept_byte (.inr (.inl rfl)) ⟨Int.le_refl 0, by show (0 : Int) < 256; decide⟩ (fun _ _ => rfl)
          · rename_i f r _ hcm
            have e : Flv.bits 8 (f.toNat : Int) = f.toNat := by have := bits8_small (hb f).1 (hb f).2; omega
            split at h
            · split at h
              · simp at h
              · simp only [Flv.Verdict.accept.injEq] at h
                subst h
                exact kept_byte (.inr (.inl rfl)) (hb _) (fun _ h => absurd (by simpa only [e] using h) hcm)
            · simp at h
    · split at h
      · split at h
        · simp at h
        · simp only [Flv.Verdict.accept.injEq] at h
          subst h
          exact .inl rfl
      · simp at h

theorem kept_tags (cap : Nat) (closed : Err) : ∀ (n : Nat) (s : List UInt8), ∀ p ∈ (Flv.packets cap closed n s).1, kept p
  | 0, _ => by simp [Flv.packets]
  | n + 1, s => by
    intro p hp
    rw [Flv.packets] at hp
    split at hp
    · rename_i q r h
      rcases List.mem_cons.1 hp with rfl | hp
      · unfold Flv.firstTag at h
        split at h
        · simp at h
        · simp only at h
          split at h
          · simp at h
          · split at h
            · simp at h
            · simp only [Prod.mk.injEq] at h
              exact kept_tag h.1
      · exact kept_tags cap closed n r p hp
    · simp at hp
    · simp at hp

theorem kept_file (cap : Nat) (closed : Err) (n : Nat) (s : List UInt8) : ∀ p ∈ (Flv.file cap closed n s).1, kept p := by
  intro p hp
  unfold Flv.file at hp
  split at hp
  · simp at hp
  · split at hp
    · simp at hp
    · exact kept_tags _ _ _ _ p hp

end Edge
end Spec
