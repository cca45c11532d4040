import Verif.Lemmas.Rtmp
/-! # Lemmas for RTMP commands -/
namespace Sps.RtmpCmd
open Spec Rtmp Amf

theorem getStr_ok {p : AmfProp} (h : valid p) {s : List UInt8} : getStr p = (Err.SUCCESS, s) ↔ p.2.1 = .str s := by
  unfold getStr; rw [if_neg h]
  cases hv : p.2.1 <;> simp

theorem getStr_ok1 {p : AmfProp} (h : (getStr p).1 = Err.SUCCESS) : p.2.1 = .str (getStr p).2 ∧ valid p := by
  unfold getStr at *
  by_cases hv : p.2.2 = 0xff
  · rw [if_pos hv] at h; simp at h
  · rw [if_neg hv] at h ⊢
    refine ⟨?_, hv⟩
    cases hs : p.2.1 <;> simp [hs] at h ⊢

theorem getStr_str {p : AmfProp} (h : valid p) {s : List UInt8} (hs : p.2.1 = .str s) : getStr p = (Err.SUCCESS, s) :=
  (getStr_ok h).2 hs

theorem getNum_ok1 {p : AmfProp} (h : (getNum p).1 = Err.SUCCESS) : p.2.1 = .num (getNum p).2 := by
  unfold getNum at *
  by_cases hv : p.2.2 = 0xff
  · rw [if_pos hv] at h; simp at h
  · rw [if_neg hv] at h ⊢
    cases hs : p.2.1 <;> simp [hs] at h ⊢

theorem getNum_num {p : AmfProp} (h : valid p) {n : Nat} (hs : p.2.1 = .num n) : getNum p = (Err.SUCCESS, n) := by
  unfold getNum; rw [if_neg h, hs]

theorem getObj_ok1 {p : AmfProp} (h : (getObj p).1 = Err.SUCCESS) :
    objOrNull p.2.1 ∧ (∀ o, (getObj p).2 = some o → p.2.1 = .obj o) ∧ ((getObj p).2 = none → p.2.1 = .null) := by
  unfold getObj at *
  by_cases hv : p.2.2 = 0xff
  · rw [if_pos hv] at h; simp at h
  · rw [if_neg hv] at h ⊢
    cases hs : p.2.1 <;> simp [hs, objOrNull] at h ⊢

theorem getObj_val {p : AmfProp} (h : valid p) (hs : objOrNull p.2.1) :
    (getObj p).1 = Err.SUCCESS ∧ ∀ o, p.2.1 = .obj o → getObj p = (Err.SUCCESS, some o) := by
  unfold getObj; rw [if_neg h]
  cases hv : p.2.1 <;> simp [hv, objOrNull] at hs ⊢

theorem fromHead_ok1 {props : List AmfProp} (h : (fromHead props).1 = Err.SUCCESS) :
    ∃ p0 p1 p2 r, props = p0 :: p1 :: p2 :: r ∧ (fromHead props).2.1 = (getStr p0).2 ∧ p0.2.1 = .str (getStr p0).2 ∧
      p1.2.1 = .num (fromHead props).2.2.1 ∧ objOrNull p2.2.1 ∧
      (∀ o, (fromHead props).2.2.2 = some o → p2.2.1 = .obj o) ∧ ((fromHead props).2.2.2 = none → p2.2.1 = .null) := by
  match props with
  | [] => simp [fromHead] at h
  | [_] => simp [fromHead] at h
  | [_, _] => simp [fromHead] at h
  | p0 :: p1 :: p2 :: r =>
    refine ⟨p0, p1, p2, r, rfl, ?_⟩
    unfold fromHead at *
    simp only at h ⊢
    split at h
    · rename_i he; exact absurd h he
    · rename_i he
      simp only [if_neg he]
      split at h
      · rename_i he2; exact absurd h he2
      · rename_i he2
        simp only [if_neg he2]
        split at h
        · simp at h
        · rename_i he3
          simp only [if_neg he3]
          have a := getStr_ok1 (p := p0) (by simpa using he)
          have b := getNum_ok1 (p := p1) (by simpa using he2)
          have c := getObj_ok1 (p := p2) (by simpa using he3)
          exact ⟨by simp, a.1, b, c⟩

theorem fromHead_mk {p0 p1 p2 : AmfProp} {r : List AmfProp} (v0 : valid p0) (v1 : valid p1) (v2 : valid p2) {n : List UInt8}
    {t : Nat} (h0 : p0.2.1 = .str n) (h1 : p1.2.1 = .num t) (h2 : objOrNull p2.2.1) :
    (fromHead (p0 :: p1 :: p2 :: r)).1 = Err.SUCCESS ∧ (fromHead (p0 :: p1 :: p2 :: r)).2.2.1 = t ∧
      ∀ o, p2.2.1 = .obj o → (fromHead (p0 :: p1 :: p2 :: r)).2.2.2 = some o := by
  obtain ⟨a, b⟩ := getObj_val v2 h2
  unfold fromHead
  simp only [getStr_str v0 h0, getNum_num v1 h1, ne_eq, not_true_eq_false, if_false, a]
  refine ⟨trivial, trivial, ?_⟩
  intro o ho
  rw [b o ho]

theorem netStream_ok1 {props : List AmfProp} (h : (netStream props).1 = Err.SUCCESS) :
    ∃ p, props[3]? = some p ∧ p.2.1 = .str (netStream props).2 := by
  unfold netStream at *
  cases hp : props[3]? with
  | none => simp [hp] at h
  | some p =>
    simp only [hp] at h ⊢
    split at h
    · simp at h
    · rename_i he
      simp only [if_neg he]
      exact ⟨p, rfl, (getStr_ok1 (by simpa using he)).1⟩

theorem netStream_mk {props : List AmfProp} {p : AmfProp} (h : props[3]? = some p) (hv : valid p) {s : List UInt8}
    (hs : p.2.1 = .str s) : netStream props = (Err.SUCCESS, s) := by
  unfold netStream; simp [h, getStr_str hv hs]

theorem getNamedStr_iff {o : List AmfProp} {name : String} {s : List UInt8} :
    getNamedStr o (ascii name) = (Err.SUCCESS, s) ↔ strProp o name s := by
  unfold getNamedStr strProp
  constructor
  · intro h
    cases hf : o.find? (fun p => p.1 == ascii name) with
    | none => simp [hf] at h
    | some p =>
      simp only [hf] at h
      obtain ⟨h1, as, bs, h2, h3⟩ := List.find?_eq_some_iff_append.1 hf
      have q := getStr_ok1 (p := p) (by rw [h])
      refine ⟨as, p, bs, h2, ?_, by simpa using h1, ?_, q.2⟩
      · intro q hq; have := h3 q hq; simpa using this
      · rw [q.1, h]
  · rintro ⟨as, p, bs, h1, h2, h3, h4, h5⟩
    have : o.find? (fun p => p.1 == ascii name) = some p := by
      apply List.find?_eq_some_iff_append.2
      refine ⟨by simpa using h3, as, bs, h1, ?_⟩
      intro q hq; have := h2 q hq; simpa using this
    rw [this]
    exact getStr_str h5 h4

theorem strProp_unique {o : List AmfProp} {name : String} {s s' : List UInt8} (h : strProp o name s) (h' : strProp o name s') :
    s = s' := by
  have a := getNamedStr_iff.2 h
  have b := getNamedStr_iff.2 h'
  rw [a] at b
  simpa using b

theorem publishType_spec {props : List AmfProp} (hv : ∀ p ∈ props, valid p) (h5 : props.length ≠ 5) (h4 : 4 ≤ props.length) :
    (props.length = 4 ∧ publishType props = (Err.SUCCESS, [])) ∨
    ∃ p, props[4]? = some p ∧ 5 < props.length ∧
      ((∃ s, p.2.1 = .str s ∧ publishType props = (Err.SUCCESS, s)) ∨
       ((∀ s, p.2.1 ≠ .str s) ∧ (publishType props).1 ≠ Err.SUCCESS)) := by
  by_cases h : props.length = 4
  · exact .inl ⟨h, by unfold publishType; rw [if_neg (by omega)]⟩
  · right
    have hl : 4 < props.length := by omega
    refine ⟨props[4], List.getElem?_eq_getElem hl, by omega, ?_⟩
    have hval := hv props[4] (List.getElem_mem hl)
    unfold publishType
    rw [if_pos (by omega), List.getElem?_eq_getElem hl]
    simp only
    by_cases he : (getStr props[4]).1 = Err.SUCCESS
    · left
      have := (getStr_ok1 he).1
      exact ⟨_, this, by rw [if_neg (by simpa using he)]⟩
    · right
      rw [if_pos (by simpa using he)]
      refine ⟨?_, by simp⟩
      intro s hs
      exact he (by rw [getStr_str hval hs])

end Sps.RtmpCmd

namespace Sps.RtmpCmd
open Spec Rtmp Amf

theorem four_of_netStream {props : List AmfProp} (h : (netStream props).1 = Err.SUCCESS) : 4 ≤ props.length := by
  obtain ⟨p, hp, _⟩ := netStream_ok1 h
  have := (List.getElem?_eq_some_iff.1 hp).1
  omega

/-- A command object is made only from the command it stands for. -/
theorem convertSelf_sound {props : List AmfProp} (hs : InScope props) {e : Err} {c : RtmpCmd}
    (h : convertSelf props = some (e, some c)) : e = Err.SUCCESS ∧ Command (props.map (·.2.1)) c := by
  match props with
  | [] => simp [convertSelf] at h
  | p0 :: ps =>
    unfold convertSelf at h
    simp only at h
    split at h
    · simp at h
    rename_i h0
    have hn := (getStr_ok1 (p := p0) (by simpa using h0)).1
    -- the shapes the tests establish
    have H : (fromHead (p0 :: ps)).1 = Err.SUCCESS → ∃ p1 p2 r, ps = p1 :: p2 :: r ∧
        p1.2.1 = .num (fromHead (p0 :: ps)).2.2.1 ∧ objOrNull p2.2.1 ∧
        (∀ o, (fromHead (p0 :: ps)).2.2.2 = some o → p2.2.1 = .obj o) := by
      intro hh
      obtain ⟨q0, q1, q2, r, e1, _, _, e2, e3, e4, _⟩ := fromHead_ok1 hh
      simp only [List.cons.injEq] at e1
      exact ⟨q1, q2, r, e1.2, e2, e3, e4⟩
    have S : (fromHead (p0 :: ps)).1 = Err.SUCCESS → (netStream (p0 :: ps)).1 = Err.SUCCESS → ∃ p1 p2 p3 r,
        ps = p1 :: p2 :: p3 :: r ∧ p1.2.1 = .num (fromHead (p0 :: ps)).2.2.1 ∧ objOrNull p2.2.1 ∧
        p3.2.1 = .str (netStream (p0 :: ps)).2 := by
      intro hh hst
      obtain ⟨p1, p2, r, e1, e2, e3, _⟩ := H hh
      obtain ⟨p, hp, hq⟩ := netStream_ok1 hst
      subst e1
      cases r with
      | nil => simp at hp
      | cons p3 r =>
        simp at hp; subst hp
        exact ⟨p1, p2, p3, r, rfl, e2, e3, hq⟩
    split at h
    · rename_i hk
      split at h
      · simp at h
      · rename_i hh
        obtain ⟨p1, p2, r, e1, e2, e3, e4⟩ := H (by simpa using hh)
        split at h
        · simp at h
        · rename_i o ho
          split at h
          · simp at h
          · rename_i ha
            split at h
            · simp at h
            · rename_i hu
              simp only [Option.some.injEq, Prod.mk.injEq] at h
              obtain ⟨rfl, rfl⟩ := h
              refine ⟨rfl, ?_⟩
              generalize fromHead (p0 :: ps) = fh at *
              subst e1
              simp only [List.map_cons, hn, hk, e2, e4 o ho]
              refine .connect (getNamedStr_iff.1 ?_) (getNamedStr_iff.1 ?_)
              · exact Prod.ext (by simpa using ha) rfl
              · exact Prod.ext (by simpa using hu) rfl
    · split at h
      · rename_i hk
        split at h
        · simp at h
        · rename_i hh
          obtain ⟨p1, p2, r, e1, e2, e3, e4⟩ := H (by simpa using hh)
          simp only [Option.some.injEq, Prod.mk.injEq] at h
          obtain ⟨rfl, rfl⟩ := h
          refine ⟨rfl, ?_⟩
          generalize fromHead (p0 :: ps) = fh at *
          subst e1
          simp only [List.map_cons, hn, hk, e2]
          exact .createStream e3
      · split at h
        · rename_i hk
          split at h
          · simp at h
          · rename_i hh
            simp only [ne_eq, not_or, not_not] at hh
            obtain ⟨p1, p2, p3, r, e1, e2, e3, e4⟩ := S hh.1 hh.2
            simp only [Option.some.injEq, Prod.mk.injEq] at h
            obtain ⟨rfl, rfl⟩ := h
            refine ⟨rfl, ?_⟩
            generalize fromHead (p0 :: ps) = fh at *
            generalize netStream (p0 :: ps) = ns at *
            subst e1
            simp only [List.map_cons, hn, hk, e2, e4]
            exact .play e3
        · split at h
          · rename_i hk
            split at h
            · simp at h
            · rename_i hh
              simp only [ne_eq, not_or, not_not] at hh
              obtain ⟨p1, p2, p3, r, e1, e2, e3, e4⟩ := S hh.1 hh.2
              split at h
              · simp at h
              · rename_i ht
                simp only [Option.some.injEq, Prod.mk.injEq] at h
                obtain ⟨rfl, rfl⟩ := h
                refine ⟨rfl, ?_⟩
                have h5 := hs.five p0 ps rfl (by rw [hn, hk])
                have hpt := publishType_spec hs.valid h5 (four_of_netStream hh.2)
                generalize fromHead (p0 :: ps) = fh at *
                generalize netStream (p0 :: ps) = ns at *
                generalize publishType (p0 :: ps) = pt at *
                subst e1
                simp only [List.map_cons, hn, hk, e2, e4]
                rcases hpt with ⟨hl, hq⟩ | ⟨p, hp, hl, ⟨s, hq1, hq2⟩ | ⟨_, hq⟩⟩
                · have : r = [] := by simpa using hl
                  subst this
                  rw [hq]
                  exact .publish e3
                · rcases r with _ | ⟨p4, r⟩
                  · simp at hp
                  · simp at hp; subst hp
                    simp only [List.map_cons, hq1, hq2]
                    exact .publishAs e3
                · exact absurd (by simpa using ht) hq
          · split at h
            · rename_i hk
              split at h
              · simp at h
              · rename_i hh
                simp only [ne_eq, not_or, not_not] at hh
                obtain ⟨p1, p2, p3, r, e1, e2, e3, e4⟩ := S hh.1 hh.2
                simp only [Option.some.injEq, Prod.mk.injEq] at h
                obtain ⟨rfl, rfl⟩ := h
                refine ⟨rfl, ?_⟩
                generalize fromHead (p0 :: ps) = fh at *
                generalize netStream (p0 :: ps) = ns at *
                subst e1
                simp only [List.map_cons, hn, hk, e2, e4]
                exact .releaseStream e3
            · split at h
              · rename_i hk
                split at h
                · simp at h
                · rename_i hh
                  simp only [ne_eq, not_or, not_not] at hh
                  obtain ⟨p1, p2, p3, r, e1, e2, e3, e4⟩ := S hh.1 hh.2
                  simp only [Option.some.injEq, Prod.mk.injEq] at h
                  obtain ⟨rfl, rfl⟩ := h
                  refine ⟨rfl, ?_⟩
                  generalize fromHead (p0 :: ps) = fh at *
                  generalize netStream (p0 :: ps) = ns at *
                  subst e1
                  simp only [List.map_cons, hn, hk, e2, e4]
                  exact .fcPublish e3
              · simp at h

theorem map_cons_inv {α β : Type} {f : α → β} {l : List α} {b : β} {bs : List β} (h : l.map f = b :: bs) :
    ∃ a as, l = a :: as ∧ f a = b ∧ as.map f = bs := by
  cases l with
  | nil => simp at h
  | cons a as => simp at h; exact ⟨a, as, rfl, h.1, h.2⟩

/-- Every command makes its command object. -/
theorem convertSelf_complete {props : List AmfProp} (hs : InScope props) {c : RtmpCmd}
    (h : Command (props.map (·.2.1)) c) : convertSelf props = some (Err.SUCCESS, some c) := by
  have hv := hs.valid
  have h5 := hs.five
  generalize hm : props.map (·.2.1) = vs at h
  have head : ∀ {n : List UInt8} {t : Nat} {o : AmfVal} {r : List AmfVal}, props.map (·.2.1) = .str n :: .num t :: o :: r → objOrNull o →
      ∃ p0 p1 p2 ps, props = p0 :: p1 :: p2 :: ps ∧ getStr p0 = (Err.SUCCESS, n) ∧ p2.2.1 = o ∧ ps.map (·.2.1) = r ∧
        (fromHead props).1 = Err.SUCCESS ∧ (fromHead props).2.2.1 = t ∧ ∀ o', o = .obj o' → (fromHead props).2.2.2 = some o' := by
    intro n t o r h1 h2
    obtain ⟨p0, q, e1, e2, k1⟩ := map_cons_inv h1
    obtain ⟨p1, q, rfl, e4, k2⟩ := map_cons_inv k1
    obtain ⟨p2, q, rfl, e6, k3⟩ := map_cons_inv k2
    subst e1
    have := fromHead_mk (r := q) (hv p0 (by simp)) (hv p1 (by simp)) (hv p2 (by simp)) e2 e4 (by rw [e6]; exact h2)
    refine ⟨p0, p1, p2, q, rfl, getStr_str (hv p0 (by simp)) e2, e6, k3, this.1, this.2.1, ?_⟩
    intro o' ho'
    exact this.2.2 o' (by rw [e6, ho'])
  cases h with
  | @connect t o app url r ha hu =>
    obtain ⟨p0, p1, p2, ps, e1, e2, e3, e4, e5, e6, e7⟩ := head hm (by simp [objOrNull])
    unfold convertSelf
    subst e1
    simp only [e2, e5, e6, e7 o rfl, getNamedStr_iff.2 ha, getNamedStr_iff.2 hu, ne_eq, not_true_eq_false, if_false, if_true]
  | createStream ho =>
    obtain ⟨p0, p1, p2, ps, e1, e2, e3, e4, e5, e6, e7⟩ := head hm ho
    unfold convertSelf
    subst e1
    simp only [e2, e5, e6, ne_eq, not_true_eq_false, if_false, if_true]
    rw [if_neg (by decide)]
  | @play t o s r ho =>
    obtain ⟨p0, p1, p2, ps, e1, e2, e3, e4, e5, e6, e7⟩ := head hm ho
    obtain ⟨p3, q, rfl, f2, f3⟩ := map_cons_inv e4
    subst e1
    have hst := netStream_mk (props := p0 :: p1 :: p2 :: p3 :: q) (p := p3) rfl (hv p3 (by simp)) f2
    unfold convertSelf
    simp only [e2, e5, e6, hst, ne_eq, not_true_eq_false, if_false, if_true, or_self]
    rw [if_neg (by decide), if_neg (by decide)]
  | @publish t o s ho =>
    obtain ⟨p0, p1, p2, ps, e1, e2, e3, e4, e5, e6, e7⟩ := head hm ho
    obtain ⟨p3, q, rfl, f2, f3⟩ := map_cons_inv e4
    simp only [List.map_eq_nil_iff] at f3
    subst f3
    subst e1
    have hst := netStream_mk (props := [p0, p1, p2, p3]) (p := p3) rfl (hv p3 (by simp)) f2
    have hpt : publishType [p0, p1, p2, p3] = (Err.SUCCESS, []) := rfl
    unfold convertSelf
    simp only [e2, e5, e6, hst, hpt, ne_eq, not_true_eq_false, if_false, if_true, or_self]
    rw [if_neg (by decide), if_neg (by decide), if_neg (by decide)]
  | @publishAs t o s ty r ho =>
    obtain ⟨p0, p1, p2, ps, e1, e2, e3, e4, e5, e6, e7⟩ := head hm ho
    obtain ⟨p3, q, rfl, f2, f3⟩ := map_cons_inv e4
    obtain ⟨p4, q, rfl, g2, g3⟩ := map_cons_inv f3
    subst e1
    have hst := netStream_mk (props := p0 :: p1 :: p2 :: p3 :: p4 :: q) (p := p3) rfl (hv p3 (by simp)) f2
    have hpt : publishType (p0 :: p1 :: p2 :: p3 :: p4 :: q) = (Err.SUCCESS, ty) := by
      have hl := h5 p0 _ rfl (getStr_ok1 (p := p0) (by rw [e2]) |>.1.trans (by rw [e2]))
      rcases publishType_spec hv hl (by simp) with ⟨a, _⟩ | ⟨p, hp, _, ⟨x, hx1, hx2⟩ | ⟨hx, _⟩⟩
      · simp at a
      · simp at hp; subst hp
        rw [g2] at hx1
        simp only [AmfVal.str.injEq] at hx1
        rw [hx2, hx1]
      · simp at hp; subst hp
        exact absurd g2 (hx ty)
    unfold convertSelf
    simp only [e2, e5, e6, hst, hpt, ne_eq, not_true_eq_false, if_false, if_true, or_self]
    rw [if_neg (by decide), if_neg (by decide), if_neg (by decide)]
  | @releaseStream t o s r ho =>
    obtain ⟨p0, p1, p2, ps, e1, e2, e3, e4, e5, e6, e7⟩ := head hm ho
    obtain ⟨p3, q, rfl, f2, f3⟩ := map_cons_inv e4
    subst e1
    have hst := netStream_mk (props := p0 :: p1 :: p2 :: p3 :: q) (p := p3) rfl (hv p3 (by simp)) f2
    unfold convertSelf
    simp only [e2, e5, e6, hst, ne_eq, not_true_eq_false, if_false, if_true, or_self]
    rw [if_neg (by decide), if_neg (by decide), if_neg (by decide), if_neg (by decide)]
  | @fcPublish t o s r ho =>
    obtain ⟨p0, p1, p2, ps, e1, e2, e3, e4, e5, e6, e7⟩ := head hm ho
    obtain ⟨p3, q, rfl, f2, f3⟩ := map_cons_inv e4
    subst e1
    have hst := netStream_mk (props := p0 :: p1 :: p2 :: p3 :: q) (p := p3) rfl (hv p3 (by simp)) f2
    unfold convertSelf
    simp only [e2, e5, e6, hst, ne_eq, not_true_eq_false, if_false, if_true, or_self]
    rw [if_neg (by decide), if_neg (by decide), if_neg (by decide), if_neg (by decide), if_neg (by decide)]

/-- Outside the disagreements nothing is undefined. -/
theorem convertSelf_total {props : List AmfProp} (hs : InScope props) : ∃ e r, convertSelf props = some (e, r) := by
  match props with
  | [] => exact ⟨_, _, rfl⟩
  | p0 :: ps =>
    unfold convertSelf
    simp only
    split
    · exact ⟨_, _, rfl⟩
    rename_i h0
    split
    · rename_i hk
      split
      · exact ⟨_, _, rfl⟩
      · rename_i hh
        split
        · rename_i ho
          obtain ⟨q0, q1, q2, r, e1, _, e0, e2, e3, _, e4⟩ := fromHead_ok1 (by simpa using hh)
          have hn := (getStr_ok1 (p := p0) (by simpa using h0)).1
          exact absurd (e4 ho) (hs.null q0 q1 q2 r e1 (by rw [← (List.cons.inj e1).1, hn, hk]))
        · repeat' split
          all_goals exact ⟨_, _, rfl⟩
    · repeat' split
      all_goals exact ⟨_, _, rfl⟩

/-- What is accepted and ignored. -/
theorem convertSelf_ignores {props : List AmfProp} (hs : InScope props) :
    convertSelf props = some (Err.SUCCESS, none) ↔ ∃ n vs, props.map (·.2.1) = .str n :: vs ∧ n ∉ names := by
  constructor
  · intro h
    match props with
    | [] => simp [convertSelf] at h
    | p0 :: ps =>
      unfold convertSelf at h
      simp only at h
      split at h
      · rename_i hh; simp only [Option.some.injEq, Prod.mk.injEq] at h; exact absurd h.1 hh
      rename_i h0
      have hn := (getStr_ok1 (p := p0) (by simpa using h0)).1
      refine ⟨_, ps.map (·.2.1), by rw [List.map_cons, hn], ?_⟩
      intro hmem
      simp only [names, List.map_cons, List.map_nil, List.mem_cons, List.not_mem_nil, or_false] at hmem
      have nope : ∀ x : Err × Option RtmpCmd, x.2 = none → x.1 ≠ Err.SUCCESS → some x ≠ some (Err.SUCCESS, none) := by
        intro x _ h2 h3; simp only [Option.some.injEq] at h3; rw [h3] at h2; exact h2 rfl
      have hconv : (some (Err.ERROR_RTMP_AMF_CMD_CONVERT, (none : Option RtmpCmd))) ≠ some (Err.SUCCESS, none) := by simp
      repeat' split at h
      all_goals first
        | (simp at h; done)
        | (exact absurd h hconv)
        | skip
      rcases hmem with hm | hm | hm | hm | hm | hm <;> contradiction
  · rintro ⟨n, vs, h1, h2⟩
    obtain ⟨p0, ps, rfl, h3, _⟩ := map_cons_inv h1
    have hg := getStr_str (hs.valid p0 (by simp)) h3
    simp only [names, List.map_cons, List.map_nil, List.mem_cons, List.not_mem_nil, or_false, not_or] at h2
    unfold convertSelf
    simp only [hg, ne_eq, not_true_eq_false, if_false, if_neg h2.1, if_neg h2.2.1, if_neg h2.2.2.1, if_neg h2.2.2.2.1,
      if_neg h2.2.2.2.2.1, if_neg h2.2.2.2.2.2]

end Sps.RtmpCmd
