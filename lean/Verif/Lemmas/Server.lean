import Verif.Spec.Server
/-! # Hosts and servers -/
namespace Sps
open Conf Spec.Server

theorem Text.cstr_dec (ds : Text) (n acc : Nat) (h : Spec.Http.decValue acc ds = some n) : Text.cstr ds = ds := by
  induction ds generalizing acc with
  | nil => rfl
  | cons b r ih =>
    unfold Spec.Http.decValue at h
    cases hd : Spec.Http.decDigit b with
    | none => rw [hd] at h; cases h
    | some d =>
      rw [hd] at h
      unfold Text.cstr
      rw [List.takeWhile_cons, if_pos]
      · exact congrArg _ (ih _ h)
      · have : b ≠ 0 := by
          rintro rfl
          have : Spec.Http.decDigit 0 = none := by decide +kernel
          rw [this] at hd
          cases hd
        simpa using this

namespace Router

/-- Registering hosts one after the other, whatever comes of it. -/
def history (r : Router) (hs : List Module) : Router := hs.foldl (fun r h => (r.register h).2) r

/-- The router knows the first host for every slot. -/
structure Knows (r : Router) (hs : List Module) : Prop where
  exact : ∀ n, r.exact.find n = firstFor hs (.exact n)
  wild : ∀ d, r.wild.find (46 :: d).reverse = firstFor hs (.wild d)
  empty : r.wild.find [] = none
  dflt : r.dflt = firstFor hs .dflt

theorem knows_new : Knows .new [] := ⟨fun _ => rfl, fun _ => rfl, rfl, rfl⟩

theorem firstFor_snoc (hs : List Module) (h : Module) (s : Slot) : firstFor (hs ++ [h]) s =
    (match firstFor hs s with
    | some x => some x
    | none => if slot h.name = some s then some h else none) := by
  unfold firstFor
  rw [List.find?_append]
  cases List.find? (fun h => decide (slot h.name = some s)) hs with
  | some x => rfl
  | none =>
    by_cases hs : slot h.name = some s <;> simp [hs]

theorem wildcard_dot (d : Text) : wildcard (42 :: 46 :: d) = (46 :: d).reverse := rfl

theorem wildcard_domain (n : Text) : wildcard n = (match domain n with
    | some d => (46 :: d).reverse
    | none => []) := by
  induction n with
  | nil => rfl
  | cons b r ih =>
    unfold wildcard domain
    by_cases hb : b = 46
    · subst hb
      simp
    · rw [if_neg hb, ← ih]
      unfold wildcard
      rw [List.dropWhile_cons_of_pos (by simpa using hb)]

/-- The four ways to register a host. -/
inductive Reg (r : Router) (h : Module) : Err × Router → Prop
  | exact : slot h.name = some (.exact h.name) → r.exact.find h.name = none →
      Reg r h (Err.SUCCESS, { r with exact := r.exact.insert h.name h })
  | dflt : slot h.name = some .dflt → r.dflt = none → Reg r h (Err.SUCCESS, { r with dflt := some h })
  | wild (d : Text) : slot h.name = some (.wild d) → r.wild.find (46 :: d).reverse = none →
      Reg r h (Err.SUCCESS, { r with wild := r.wild.insert (46 :: d).reverse h })
  | bad : slot h.name = none → Reg r h (Err.ERROR_CONFIG_PARSE_INVALID, r)
  | dupExact : slot h.name = some (.exact h.name) → (r.exact.find h.name).isSome → Reg r h (Err.ERROR_CONFIG_PARSE_INVALID, r)
  | dupDflt : slot h.name = some .dflt → r.dflt.isSome → Reg r h (Err.ERROR_CONFIG_PARSE_INVALID, r)
  | dupWild (d : Text) : slot h.name = some (.wild d) → (r.wild.find (46 :: d).reverse).isSome →
      Reg r h (Err.ERROR_CONFIG_PARSE_INVALID, r)

theorem register_reg (r : Router) (h : Module) (hz : (0 : UInt8) ∉ h.name) : Reg r h (r.register h) := by
  have opt : ∀ {α : Type} (o : Option α), o = none ∨ o.isSome := by intro α o; cases o <;> simp
  unfold register
  generalize hn : h.name = n at hz
  have hcons : ∀ (b : UInt8) (t : Text), n = b :: t → b ≠ 0 := by
    rintro b t rfl rfl
    exact hz (List.mem_cons_self ..)
  by_cases h0 : ∃ t, n = 42 :: t
  · obtain ⟨t, rfl⟩ := h0
    rw [if_neg (by simp [char])]
    cases t with
    | nil =>
      rw [if_pos (by simp [char])]
      have hs : slot h.name = some .dflt := by rw [hn]; rfl
      rcases opt r.dflt with ho | ho
      · rw [if_neg (by simp [ho])]
        exact .dflt hs ho
      · rw [if_pos ho]
        exact .dupDflt hs ho
    | cons c t =>
      have hc : c ≠ 0 := fun hc => hz (by simp [hc])
      rw [if_neg (by simpa [char] using hc)]
      by_cases hd : c = 46
      · subst hd
        cases t with
        | nil =>
          rw [if_pos (by right; rfl)]
          exact .bad (by rw [hn]; rfl)
        | cons e t =>
          have he : e ≠ 0 := fun he => hz (by simp [he])
          rw [if_neg (by simpa [char] using he)]
          have hs : slot h.name = some (.wild (e :: t)) := by rw [hn]; rfl
          rw [wildcard_dot]
          rcases opt (r.wild.find (46 :: e :: t).reverse) with ho | ho
          · rw [if_neg (by simp only [ho]; simp)]
            exact .wild _ hs ho
          · rw [if_pos ho]
            exact .dupWild _ hs ho
      · rw [if_pos (by left; simpa [char] using hd)]
        refine .bad ?_
        rw [hn]
        unfold slot
        split
        · rename_i heq
          cases heq
          split
          · rename_i h; cases h
          · rename_i h; cases h; exact absurd rfl hd
          · rfl
        · rename_i h
          exact absurd rfl (h _)
  · have hs : slot h.name = some (.exact h.name) := by
      rw [hn]
      unfold slot
      split
      · rename_i r
        exact absurd ⟨_, rfl⟩ h0
      · rfl
    have hc : char n 0 ≠ 42 := by
      unfold char
      cases n with
      | nil => simp
      | cons b t =>
        intro hb
        exact h0 ⟨t, by simpa using hb⟩
    rw [if_pos hc]
    subst hn
    rcases opt (r.exact.find h.name) with ho | ho
    · rw [if_neg (by simp [ho])]
      exact .exact hs ho
    · rw [if_pos ho]
      exact .dupExact hs ho

theorem knows_register {r : Router} {hs : List Module} {h : Module} (k : Knows r hs) (hz : (0 : UInt8) ∉ h.name) :
    Knows (r.register h).2 (hs ++ [h]) ∧ ((r.register h).1 = Err.SUCCESS ↔ ∃ s, slot h.name = some s ∧ firstFor hs s = none) ∧
      ((r.register h).1 ≠ Err.SUCCESS → (r.register h).2 = r) := by
  have R := register_reg r h hz
  have keep : ∀ {s : Slot}, slot h.name = some s → firstFor hs s = none → ∀ s', s' ≠ s → firstFor (hs ++ [h]) s' = firstFor hs s' := by
    intro s h1 _ s' hne
    rw [firstFor_snoc, h1]
    cases firstFor hs s' with
    | some x => rfl
    | none => simp [Ne.symm hne]
  have same : (∀ s, slot h.name = some s → (firstFor hs s).isSome) → ∀ s, firstFor (hs ++ [h]) s = firstFor hs s := by
    intro h1 s
    rw [firstFor_snoc]
    cases hf : firstFor hs s with
    | some x => rfl
    | none =>
      simp only
      rw [if_neg]
      intro h2
      have := h1 s h2
      rw [hf] at this
      cases this
  have new : ∀ {s : Slot}, slot h.name = some s → firstFor hs s = none → firstFor (hs ++ [h]) s = some h := by
    intro s h1 h2
    rw [firstFor_snoc, h2]
    simp [h1]
  have refl : Err.SUCCESS = Err.SUCCESS := rfl
  have ne : ¬(Err.ERROR_CONFIG_PARSE_INVALID = Err.SUCCESS) := by decide
  have bad : (∀ s, slot h.name = some s → (firstFor hs s).isSome) → Knows r (hs ++ [h]) ∧
      (Err.ERROR_CONFIG_PARSE_INVALID = Err.SUCCESS ↔ ∃ s, slot h.name = some s ∧ firstFor hs s = none) := by
    intro h1
    have e := same h1
    refine ⟨⟨fun n => by rw [e]; exact k.exact n, fun d => by rw [e]; exact k.wild d, k.empty, by rw [e]; exact k.dflt⟩, ?_⟩
    constructor
    · intro h; exact absurd h ne
    · rintro ⟨s, h2, h3⟩
      have := h1 s h2
      rw [h3] at this
      cases this
  generalize r.register h = res at R
  cases R with
  | exact h1 h2 =>
    rw [k.exact] at h2
    refine ⟨⟨fun n => ?_, fun d => ?_, k.empty, ?_⟩, ⟨fun _ => ⟨_, h1, h2⟩, fun _ => rfl⟩, fun h => absurd refl h⟩
    · rw [Assoc.find_insert]
      by_cases hn : n = h.name
      · rw [if_pos hn, hn, new h1 h2]
      · rw [if_neg hn, k.exact, keep h1 h2]
        intro h; cases h; exact hn rfl
    · rw [k.wild, keep h1 h2]
      intro h; cases h
    · rw [k.dflt, keep h1 h2]
      intro h; cases h
  | dflt h1 h2 =>
    rw [k.dflt] at h2
    refine ⟨⟨fun n => ?_, fun d => ?_, k.empty, ?_⟩, ⟨fun _ => ⟨_, h1, h2⟩, fun _ => rfl⟩, fun h => absurd refl h⟩
    · rw [k.exact, keep h1 h2]
      intro h; cases h
    · rw [k.wild, keep h1 h2]
      intro h; cases h
    · exact (new h1 h2).symm
  | wild d h1 h2 =>
    rw [k.wild] at h2
    refine ⟨⟨fun n => ?_, fun e => ?_, ?_, ?_⟩, ⟨fun _ => ⟨_, h1, h2⟩, fun _ => rfl⟩, fun h => absurd refl h⟩
    · rw [k.exact, keep h1 h2]
      intro h; cases h
    · rw [Assoc.find_insert]
      by_cases he : e = d
      · subst he
        rw [if_pos rfl, new h1 h2]
      · rw [if_neg, k.wild, keep h1 h2]
        · intro h; cases h; exact he rfl
        · intro h
          exact he (by simpa using h)
    · rw [Assoc.find_insert, if_neg (by simp), k.empty]
    · rw [k.dflt, keep h1 h2]
      intro h; cases h
  | bad h1 =>
    obtain ⟨a, b⟩ := bad fun s h2 => by rw [h1] at h2; cases h2
    exact ⟨a, b, fun _ => rfl⟩
  | dupExact h1 h2 =>
    obtain ⟨a, b⟩ := bad fun s h3 => by
      rw [h1] at h3
      cases h3
      rwa [k.exact] at h2
    exact ⟨a, b, fun _ => rfl⟩
  | dupDflt h1 h2 =>
    obtain ⟨a, b⟩ := bad fun s h3 => by
      rw [h1] at h3
      cases h3
      rwa [k.dflt] at h2
    exact ⟨a, b, fun _ => rfl⟩
  | dupWild d h1 h2 =>
    obtain ⟨a, b⟩ := bad fun s h3 => by
      rw [h1] at h3
      cases h3
      rwa [k.wild] at h2
    exact ⟨a, b, fun _ => rfl⟩

theorem knows_history {r : Router} {hs : List Module} (k : Knows r hs) (xs : List Module) (hz : ∀ h ∈ xs, (0 : UInt8) ∉ h.name) :
    Knows (r.history xs) (hs ++ xs) := by
  induction xs generalizing r hs with
  | nil => rw [List.append_nil]; exact k
  | cons x xs ih =>
    have := ih (knows_register k (hz x (List.mem_cons_self ..))).1 fun h hh => hz h (List.mem_cons_of_mem _ hh)
    rw [List.append_assoc] at this
    exact this

theorem knows_find {r : Router} {hs : List Module} (k : Knows r hs) (name : Text) : r.find name = choose hs name := by
  unfold find choose
  rw [k.exact]
  cases firstFor hs (.exact name) with
  | some h => rfl
  | none =>
    simp only [HOrElse.hOrElse, OrElse.orElse, Option.orElse]
    rw [wildcard_domain]
    have hw : r.wild.isEmpty → ∀ n, r.wild.find n = none := by
      intro h n
      rw [List.isEmpty_iff] at h
      rw [h]
      rfl
    by_cases he : r.wild.isEmpty
    · rw [if_pos he, k.dflt]
      cases hd : domain name with
      | none => rfl
      | some d =>
        have := k.wild d
        rw [hw he] at this
        simp only [Option.bind, ← this]
    · rw [if_neg he]
      cases hd : domain name with
      | none =>
        simp only [k.empty, k.dflt]
        rfl
      | some d =>
        simp only [k.wild, k.dflt]
        cases hf : firstFor hs (.wild d) <;> simp [Option.bind, hf]

/-- Building a router. -/
theorem build_ok {r : Router} {hs : List Module} (k : Knows r hs) (xs : List Module) (hz : ∀ h ∈ xs, (0 : UInt8) ∉ h.name)
    (h1 : ∀ h ∈ xs, ∃ s, slot h.name = some s ∧ firstFor hs s = none) (h2 : (xs.map fun h => slot h.name).Nodup) :
    build r xs = (Err.SUCCESS, r.history xs) := by
  induction xs generalizing r hs with
  | nil => rfl
  | cons x xs ih =>
    obtain ⟨k1, k2, _⟩ := knows_register k (hz x (List.mem_cons_self ..))
    have hs1 := k2.2 (h1 x (List.mem_cons_self ..))
    rw [List.map_cons, List.nodup_cons] at h2
    have := ih k1 (fun h hh => hz h (List.mem_cons_of_mem _ hh)) (fun h hh => by
      obtain ⟨s, h3, h4⟩ := h1 h (List.mem_cons_of_mem _ hh)
      refine ⟨s, h3, ?_⟩
      rw [firstFor_snoc, h4]
      simp only
      rw [if_neg]
      intro h5
      exact h2.1 (by rw [h5, ← h3]; exact List.mem_map_of_mem hh)) h2.2
    unfold build
    rcases hr : r.register x with ⟨e, r1⟩
    rw [hr] at hs1 this
    simp only at hs1 this ⊢
    rw [if_neg (by simpa using hs1), this]
    unfold history
    rw [List.foldl_cons, hr]

end Router

namespace Setup
open Router

theorem install_distinct (listen : Int → Err) : ∀ (ss : List Srv) (sites : Assoc Int Site), (∀ s ∈ ss, sites.find s.port = none) →
    (ss.map Srv.port).Nodup → (∀ s ∈ ss, Router.build .new s.hosts = (Err.SUCCESS, Router.new.history s.hosts)) →
    (∀ s ∈ ss, listen s.port = Err.SUCCESS) → ∃ sites', install listen sites ss = .ok sites' ∧
      (∀ p, (∀ s ∈ ss, s.port ≠ p) → sites'.find p = sites.find p) ∧
      (∀ s ∈ ss, sites'.find s.port = some ⟨s, Router.new.history s.hosts⟩) := by
  intro ss
  induction ss with
  | nil => intro sites _ _ _ _; exact ⟨sites, rfl, fun _ _ => rfl, fun s hs => by cases hs⟩
  | cons s ss ih =>
    intro sites h1 h2 h3 h4
    rw [List.map_cons, List.nodup_cons] at h2
    have hne : ∀ t ∈ ss, t.port ≠ s.port := fun t ht he => h2.1 (by rw [← he]; exact List.mem_map_of_mem ht)
    obtain ⟨sites', i1, i2, i3⟩ := ih (sites.insert s.port ⟨s, Router.new.history s.hosts⟩) (fun t ht => by
        rw [Assoc.find_insert, if_neg (hne t ht)]
        exact h1 t (List.mem_cons_of_mem _ ht)) h2.2 (fun t ht => h3 t (List.mem_cons_of_mem _ ht))
      (fun t ht => h4 t (List.mem_cons_of_mem _ ht))
    refine ⟨sites', ?_, ?_, ?_⟩
    · unfold install
      rw [h1 s (List.mem_cons_self ..)]
      simp only
      rw [h3 s (List.mem_cons_self ..)]
      simp only
      rw [if_neg (by simp), if_neg (by simpa using h4 s (List.mem_cons_self ..)), i1]
    · intro p hp
      rw [i2 p fun t ht => hp t (List.mem_cons_of_mem _ ht), Assoc.find_insert, if_neg (Ne.symm (hp s (List.mem_cons_self ..)))]
    · intro t ht
      rcases List.mem_cons.1 ht with rfl | ht
      · rw [i2 _ hne, Assoc.find_insert, if_pos rfl]
      · exact i3 t ht

theorem installAll_distinct (listen : Int → Err) : ∀ (rs : List (List Srv)) (sites : Assoc Int Site),
    (∀ s ∈ rs.flatten, sites.find s.port = none) →
    (rs.flatten.map Srv.port).Nodup → (∀ s ∈ rs.flatten, Router.build .new s.hosts = (Err.SUCCESS, Router.new.history s.hosts)) →
    (∀ s ∈ rs.flatten, listen s.port = Err.SUCCESS) → ∃ sites', installAll listen sites rs = .ok sites' ∧
      (∀ p, (∀ s ∈ rs.flatten, s.port ≠ p) → sites'.find p = sites.find p) ∧
      (∀ s ∈ rs.flatten, sites'.find s.port = some ⟨s, Router.new.history s.hosts⟩) := by
  intro rs
  induction rs with
  | nil => intro sites _ _ _ _; exact ⟨sites, rfl, fun _ _ => rfl, fun s hs => by cases hs⟩
  | cons r rs ih =>
    intro sites h1 h2 h3 h4
    rw [List.flatten_cons, List.map_append, List.nodup_append] at h2
    obtain ⟨n1, n2, n3⟩ := h2
    have ml : ∀ s ∈ r, s ∈ (r :: rs).flatten := fun s hs => by simp [hs]
    have mr : ∀ s ∈ rs.flatten, s ∈ (r :: rs).flatten := fun s hs => by
      rw [List.flatten_cons]
      exact List.mem_append_right _ hs
    obtain ⟨s1, i1, i2, i3⟩ := install_distinct listen r sites (fun s hs => h1 s (ml s hs)) n1 (fun s hs => h3 s (ml s hs))
      (fun s hs => h4 s (ml s hs))
    have hne : ∀ s ∈ r, ∀ t ∈ rs.flatten, s.port ≠ t.port := fun s hs t ht =>
      n3 _ (List.mem_map_of_mem hs) _ (List.mem_map_of_mem ht)
    obtain ⟨s2, j1, j2, j3⟩ := ih s1 (fun t ht => by
        rw [i2 t.port fun s hs => hne s hs t ht]
        exact h1 t (mr t ht)) n2 (fun s hs => h3 s (mr s hs)) (fun s hs => h4 s (mr s hs))
    refine ⟨s2, ?_, ?_, ?_⟩
    · unfold installAll
      rw [i1]
      exact j1
    · intro p hp
      rw [j2 p fun s hs => hp s (mr s hs), i2 p fun s hs => hp s (ml s hs)]
    · intro s hs
      rw [List.flatten_cons, List.mem_append] at hs
      rcases hs with hs | hs
      · rw [j2 s.port fun t ht => Ne.symm (hne s hs t ht)]
        exact i3 s hs
      · exact j3 s hs

theorem servers_key (tag : Nat) (extra ms : List Module) :
    (servers tag extra ms).map (fun s => (s.port, s.hosts)) = ms.map fun m => (port m, m.inner ++ extra) := by
  unfold servers
  rw [List.map_map]
  have : ((fun (s : Srv) => (s.port, s.hosts)) ∘ fun (x : Module × Nat) => match x with
      | (m, i) => (⟨(tag, i), port m, m.inner ++ extra⟩ : Srv)) = (fun m => (port m, m.inner ++ extra)) ∘ Prod.fst := rfl
  rw [this, ← List.map_map, List.zipIdx_map_fst]

theorem rounds_key (f : Nat → Nat) (extra : List Module) (l : List Module) (k : Nat) :
    (((l.zipIdx k).map fun (m, i) => servers (f i) extra m.inner).flatten).map (fun s => (s.port, s.hosts)) =
      (l.flatMap Module.inner).map fun m => (port m, m.inner ++ extra) := by
  induction l generalizing k with
  | nil => rfl
  | cons a l ih =>
    rw [List.zipIdx_cons, List.map_cons, List.flatten_cons, List.flatMap_cons, List.map_append, List.map_append, ih, servers_key]

theorem filter_perm (l : List Module) : (l.filter fun b => b.kind = .http ∨ b.kind = .rtmp ∨ b.kind = .srt).Perm
    (l.filter (fun b => b.kind = .http) ++ l.filter (fun b => b.kind = .rtmp) ++ l.filter (fun b => b.kind = .srt)) := by
  induction l with
  | nil => exact .nil
  | cons a l ih =>
    by_cases h1 : a.kind = .http
    · rw [List.filter_cons_of_pos (by simp [h1]), List.filter_cons_of_pos (by simp [h1]), List.filter_cons_of_neg (by simp [h1]),
        List.filter_cons_of_neg (by simp [h1])]
      exact ih.cons a
    · by_cases h2 : a.kind = .rtmp
      · rw [List.filter_cons_of_pos (by simp [h2]), List.filter_cons_of_neg (by simp [h2]), List.filter_cons_of_pos (by simp [h2]),
          List.filter_cons_of_neg (by simp [h2]), List.append_assoc, List.cons_append]
        exact (ih.cons a).trans (by rw [List.append_assoc]; exact List.perm_middle.symm)
      · by_cases h3 : a.kind = .srt
        · rw [List.filter_cons_of_pos (by simp [h3]), List.filter_cons_of_neg (by simp [h3]), List.filter_cons_of_neg (by simp [h3]),
            List.filter_cons_of_pos (by simp [h3])]
          exact (ih.cons a).trans List.perm_middle.symm
        · rw [List.filter_cons_of_neg (by simp [h1, h2, h3]), List.filter_cons_of_neg (by simp [h1]),
            List.filter_cons_of_neg (by simp [h2]), List.filter_cons_of_neg (by simp [h3])]
          exact ih

/-- With one `http` block the servers are those of the blocks, in some order. -/
theorem rounds_servers (root : Module) (hone : (blocks root .http).length ≤ 1) : ∃ ms, (all root).Perm ms ∧
    (rounds root).flatten.map (fun s => (s.port, s.hosts)) = ms.map fun m => (port m, m.inner ++ globals root) := by
  refine ⟨_, (filter_perm root.inner).flatMap_right Module.inner, ?_⟩
  rw [List.flatMap_append, List.flatMap_append, List.map_append, List.map_append]
  unfold rounds
  rw [List.flatten_append, List.flatten_append, List.map_append, List.map_append, rounds_key (fun i => 2 * i + 1), rounds_key (fun i => 2 * i + 2)]
  congr 2
  change _ = List.map _ (List.flatMap _ (blocks root .http))
  generalize blocks root .http = bs at hone
  match bs, hone with
  | [], _ => rfl
  | [b], _ =>
    simp only [List.map_cons, List.map_nil, List.flatten_cons, List.flatten_nil, List.append_nil, List.flatMap_cons, List.flatMap_nil]
    exact servers_key ..

/-- Installing listens on the port of every server. -/
theorem install_listens (listen : Int → Err) : ∀ (ss : List Srv) (sites sites' : Assoc Int Site),
    (∀ p, (sites.find p).isSome → listen p = Err.SUCCESS) → install listen sites ss = .ok sites' →
    (∀ p, (sites'.find p).isSome → listen p = Err.SUCCESS) ∧ (∀ p, (sites.find p).isSome → (sites'.find p).isSome) ∧
      ∀ s ∈ ss, (sites'.find s.port).isSome := by
  intro ss
  induction ss with
  | nil =>
    intro sites sites' h1 h2
    unfold install at h2
    cases h2
    exact ⟨h1, fun _ h => h, fun s hs => by cases hs⟩
  | cons s ss ih =>
    intro sites sites' h1 h2
    unfold install at h2
    split at h2
    · next p hp =>
      split at h2
      · split at h2
        · obtain ⟨a, b, c⟩ := ih sites sites' h1 h2
          refine ⟨a, b, fun t ht => ?_⟩
          rcases List.mem_cons.1 ht with rfl | ht
          · exact b _ (by rw [hp]; rfl)
          · exact c t ht
        · cases h2
      · obtain ⟨a, b, c⟩ := ih _ sites' (fun q hq => by
          rw [Assoc.find_insert] at hq
          split at hq
          · next e => rw [e]; exact h1 _ (by rw [hp]; rfl)
          · exact h1 q hq) h2
        refine ⟨a, fun q hq => b q ?_, fun t ht => ?_⟩
        · rw [Assoc.find_insert]; split
          · rfl
          · exact hq
        · rcases List.mem_cons.1 ht with rfl | ht
          · exact b _ (by rw [Assoc.find_insert, if_pos rfl]; rfl)
          · exact c t ht
    · simp only at h2
      split at h2
      · cases h2
      · split at h2
        · cases h2
        · next hl =>
          have hl : listen s.port = Err.SUCCESS := Decidable.byContradiction hl
          obtain ⟨a, b, c⟩ := ih _ sites' (fun q hq => by
            rw [Assoc.find_insert] at hq
            split at hq
            · next e => rw [e]; exact hl
            · exact h1 q hq) h2
          refine ⟨a, fun q hq => b q ?_, fun t ht => ?_⟩
          · rw [Assoc.find_insert]; split
            · rfl
            · exact hq
          · rcases List.mem_cons.1 ht with rfl | ht
            · exact b _ (by rw [Assoc.find_insert, if_pos rfl]; rfl)
            · exact c t ht

theorem installAll_listens (listen : Int → Err) : ∀ (rs : List (List Srv)) (sites sites' : Assoc Int Site),
    (∀ p, (sites.find p).isSome → listen p = Err.SUCCESS) → installAll listen sites rs = .ok sites' →
    (∀ p, (sites'.find p).isSome → listen p = Err.SUCCESS) ∧ (∀ p, (sites.find p).isSome → (sites'.find p).isSome) ∧
      ∀ s ∈ rs.flatten, (sites'.find s.port).isSome := by
  intro rs
  induction rs with
  | nil =>
    intro sites sites' h1 h2
    unfold installAll at h2
    cases h2
    exact ⟨h1, fun _ h => h, fun s hs => by cases hs⟩
  | cons r rs ih =>
    intro sites sites' h1 h2
    unfold installAll at h2
    split at h2
    · next m hm =>
      obtain ⟨a, b, c⟩ := install_listens listen r sites m h1 hm
      obtain ⟨a', b', c'⟩ := ih m sites' a h2
      refine ⟨a', fun p hp => b' p (b p hp), fun s hs => ?_⟩
      rw [List.flatten_cons, List.mem_append] at hs
      rcases hs with hs | hs
      · exact b' _ (c s hs)
      · exact c' s hs
    · next hno => exact absurd h2 (hno sites')

theorem servers_mem {tag : Nat} {extra ms : List Module} {m : Module} (h : m ∈ ms) : ∃ s ∈ servers tag extra ms, s.port = port m := by
  have : (port m, m.inner ++ extra) ∈ (servers tag extra ms).map fun s => (s.port, s.hosts) := by
    rw [servers_key]; exact List.mem_map_of_mem h
  obtain ⟨s, h1, h2⟩ := List.mem_map.1 this
  exact ⟨s, h1, (Prod.mk.inj h2).1⟩

theorem rounds_mem {root m : Module} (h : m ∈ all root) : ∃ s ∈ (rounds root).flatten, s.port = port m := by
  obtain ⟨b, hb, hm⟩ := List.mem_flatMap.1 h
  obtain ⟨hb, hk⟩ := List.mem_filter.1 hb
  simp only [decide_eq_true_eq] at hk
  have mem : ∀ k, b.kind = k → b ∈ blocks root k := fun k e => List.mem_filter.2 ⟨hb, by simp [e]⟩
  have indexed : ∀ (f : Nat → Nat) (l : List Module), b ∈ l →
      ∃ s ∈ (l.zipIdx.map fun (m, i) => servers (f i) (globals root) m.inner).flatten, s.port = port m := by
    intro f l hl
    have : (port m, m.inner ++ globals root) ∈ ((l.zipIdx.map fun (m, i) => servers (f i) (globals root) m.inner).flatten).map fun s => (s.port, s.hosts) := by
      rw [rounds_key f]
      exact List.mem_map.2 ⟨m, List.mem_flatMap.2 ⟨b, hl, hm⟩, rfl⟩
    obtain ⟨s, h1, h2⟩ := List.mem_map.1 this
    exact ⟨s, h1, (Prod.mk.inj h2).1⟩
  unfold rounds
  rw [List.flatten_append, List.flatten_append]
  rcases hk with hk | hk | hk
  · obtain ⟨s, h1, h2⟩ := servers_mem (tag := 0) (extra := (blocks root .http).flatMap fun _ => globals root)
      (List.mem_flatMap.2 ⟨b, mem _ hk, hm⟩)
    exact ⟨s, List.mem_append_left _ (List.mem_append_left _ (List.mem_flatten.2 ⟨_, List.mem_map.2 ⟨b, mem _ hk, rfl⟩, h1⟩)), h2⟩
  · obtain ⟨s, h1, h2⟩ := indexed (fun i => 2 * i + 1) _ (mem _ hk)
    exact ⟨s, List.mem_append_left _ (List.mem_append_right _ h1), h2⟩
  · obtain ⟨s, h1, h2⟩ := indexed (fun i => 2 * i + 2) _ (mem _ hk)
    exact ⟨s, List.mem_append_right _ h1, h2⟩

end Setup
end Sps
