import Verif.Spec.SiteFile
import Verif.Lemmas.ConfTree
import Verif.Spec.HttpConn
/-!
# The modules of a configuration file
-/
namespace Sps.SiteFile
open Spec Sps.Conf Spec.Conf Spec.Server Spec.SiteFile

/-- The module a host block stands for. -/
abbrev host (h : Text × List Tree) : Module := build .host h.1 h.2

theorem ofName_name (k : Kind) : Kind.ofName k.name = some k := by cases k <;> decide +kernel

theorem name_inj {k k' : Kind} (h : k.name = k'.name) : k = k' := by
  have := ofName_name k
  rw [h, ofName_name] at this
  cases this
  rfl

/-- The blocks of some kinds are the modules of these kinds. -/
theorem inners_kinds (names : List String) (kinds : List Kind) (hk : ∀ k : Kind, k.name ∈ names.map ascii ↔ k ∈ kinds) {k : Kind} {ts : List Tree} (hl : Legal k ts) :
    ((inners ts).filter fun m => decide (m.kind ∈ kinds)).map Module.inner = (blocks names ts).map (fun b => inners b.2) := by
  induction ts generalizing k with
  | nil => rfl
  | cons t ts ih =>
    cases hl with
    | dir _ n a _ h1 h2 => exact ih h2
    | block _ k' a ks _ h1 h2 h3 h4 h5 =>
      simp only [inners, inner, ofName_name, Option.map_some, blocks, hk]
      by_cases hm : k' ∈ kinds
      · rw [List.filter_cons_of_pos (by exact decide_eq_true hm), if_pos hm, List.map_cons, List.map_cons, ih h5]
        rfl
      · rw [List.filter_cons_of_neg (by simp only [Module.kind, hm, decide_false, Bool.false_eq_true, not_false_eq_true]), if_neg hm, ih h5]

/-- The hosts of a server block, or of a `globalhost` block. -/
theorem inners_hosts {k : Kind} (hk : k = .server ∨ k = .globalHost) {ts : List Tree} (hl : Legal k ts) : inners ts = (blocks ["host"] ts).map host := by
  induction ts with
  | nil => rfl
  | cons t ts ih =>
    cases hl with
    | dir _ n a _ h1 h2 => exact ih h2
    | block _ k' a ks _ h1 h2 h3 h4 h5 =>
      have : k' = .host := by rcases hk with rfl | rfl <;> exact h3.1
      subst this
      simp only [inners, inner, ofName_name, Option.map_some, blocks, ih h5]
      rfl

/-- The servers of an `http`, `rtmp` or `srt` block. -/
theorem inners_servers {k : Kind} (hk : k = .http ∨ k = .rtmp ∨ k = .srt) {ts : List Tree} (hl : Legal k ts) :
    inners ts = (blocks ["server"] ts).map fun b => build .server b.1 b.2 := by
  induction ts with
  | nil => rfl
  | cons t ts ih =>
    cases hl with
    | dir _ n a _ h1 h2 => exact ih h2
    | block _ k' a ks _ h1 h2 h3 h4 h5 =>
      have : k' = .server := by rcases hk with rfl | rfl | rfl <;> exact h3
      subst this
      simp only [inners, inner, ofName_name, Option.map_some, blocks, ih h5]
      rfl

/-- What is in a block that was found is legal there. -/
theorem blocks_legal {names : List String} {k : Kind} {ts : List Tree} (hl : Legal k ts) {b : Text × List Tree} (hb : b ∈ blocks names ts) :
    ∃ k', k'.name ∈ names.map ascii ∧ Legal k' b.2 ∧ accepts k k' b.1 := by
  induction ts generalizing k with
  | nil => cases hb
  | cons t ts ih =>
    cases hl with
    | dir _ n a _ h1 h2 => exact ih h2 hb
    | block _ k' a ks _ h1 h2 h3 h4 h5 =>
      simp only [blocks] at hb
      split at hb
      · rename_i hn
        rcases List.mem_cons.1 hb with rfl | hb
        · exact ⟨k', hn, h4, h3⟩
        · exact ih h5 hb
      · exact ih h5 hb

/-- Fewer names, fewer blocks. -/
theorem blocks_sub {names names' : List String} (hs : ∀ x ∈ names, x ∈ names') {ts : List Tree} {b : Text × List Tree} (hb : b ∈ blocks names ts) : b ∈ blocks names' ts := by
  induction ts with
  | nil => cases hb
  | cons t ts ih =>
    cases t with
    | dir n a => exact ih hb
    | block n a ks =>
      simp only [blocks] at hb ⊢
      split at hb
      · rename_i hn
        obtain ⟨x, h1, h2⟩ := List.mem_map.1 hn
        rw [if_pos (List.mem_map.2 ⟨x, hs x h1, h2⟩)]
        rcases List.mem_cons.1 hb with rfl | hb
        · exact List.mem_cons_self
        · exact List.mem_cons_of_mem _ (ih hb)
      · split
        · exact List.mem_cons_of_mem _ (ih hb)
        · exact ih hb

/-- The servers of a file. -/
theorem all_servers {ts : List Tree} (hl : Legal .root ts) :
    ∃ bs : List (Text × List Tree), Setup.all (build .root [] ts) = bs.map (fun b => build .server b.1 b.2) ∧ allServers ts = bs.map (·.2) ∧ ∀ b ∈ bs, Legal .server b.2 := by
  refine ⟨(blocks ["http", "rtmp", "srt"] ts).flatMap fun b => blocks ["server"] b.2, ?_, ?_, ?_⟩
  · have h := inners_kinds ["http", "rtmp", "srt"] [.http, .rtmp, .srt] (by intro k; cases k <;> decide +kernel) hl
    unfold Setup.all
    show ((inners ts).filter fun b => decide (b.kind = .http ∨ b.kind = .rtmp ∨ b.kind = .srt)).flatMap Module.inner = _
    rw [List.flatMap_def, show (fun b : Module => decide (b.kind = .http ∨ b.kind = .rtmp ∨ b.kind = .srt)) = fun m => decide (m.kind ∈ [Kind.http, .rtmp, .srt]) from
      funext fun m => by simp, h, List.flatMap_def, List.map_flatten, List.map_map]
    refine congrArg List.flatten (List.map_congr_left fun b hb => ?_)
    obtain ⟨k', h1, h2, -⟩ := blocks_legal hl hb
    refine inners_servers ?_ h2
    have := (by decide +kernel : ∀ k ∈ Kind.all, k.name ∈ ["http", "rtmp", "srt"].map ascii → k = .http ∨ k = .rtmp ∨ k = .srt)
    exact this k' (by cases k' <;> decide) h1
  · unfold allServers servers
    rw [List.map_flatMap]
  · intro b hb
    obtain ⟨c, h1, h2⟩ := List.mem_flatMap.1 hb
    obtain ⟨k', h3, h4, -⟩ := blocks_legal hl h1
    obtain ⟨k'', h5, h6, -⟩ := blocks_legal h4 h2
    have := (by decide +kernel : ∀ k ∈ Kind.all, k.name ∈ ["server"].map ascii → k = .server)
    rw [this k'' (by cases k'' <;> decide) h5] at h6
    exact h6

/-- The global hosts of a file. -/
theorem all_globals {ts : List Tree} (hl : Legal .root ts) : Setup.globals (build .root [] ts) = ((blocks ["globalhost"] ts).flatMap fun b => blocks ["host"] b.2).map host := by
  have h := inners_kinds ["globalhost"] [.globalHost] (by intro k; cases k <;> decide +kernel) hl
  unfold Setup.globals Setup.blocks
  show ((inners ts).filter fun b => decide (b.kind = .globalHost)).flatMap Module.inner = _
  rw [List.flatMap_def, show (fun b : Module => decide (b.kind = .globalHost)) = fun m => decide (m.kind ∈ [Kind.globalHost]) from
      funext fun m => by simp, h, List.flatMap_def, List.map_flatten, List.map_map]
  refine congrArg List.flatten (List.map_congr_left fun b hb => ?_)
  obtain ⟨k', h1, h2, -⟩ := blocks_legal hl hb
  have := (by decide +kernel : ∀ k ∈ Kind.all, k.name ∈ ["globalhost"].map ascii → k = .globalHost)
  exact inners_hosts (.inr (this k' (by cases k' <;> decide) h1)) h2

/-- The hosts of a server of a file. -/
theorem all_hosts {ts : List Tree} (hl : Legal .root ts) {b : Text × List Tree} (hb : Legal .server b.2) :
    (build .server b.1 b.2).inner ++ Setup.globals (build .root [] ts) = (hosts ts b.2).map host := by
  unfold hosts
  rw [List.map_append, all_globals hl]
  exact congrArg (· ++ _) (inners_hosts (.inl rfl) hb)

theorem http_count {ts : List Tree} (hl : Legal .root ts) : (Setup.blocks (build .root [] ts) .http).length = (blocks ["http"] ts).length := by
  have h := congrArg List.length (inners_kinds ["http"] [.http] (by intro k; cases k <;> decide +kernel) hl)
  rw [List.length_map, List.length_map] at h
  rw [← h]
  unfold Setup.blocks
  exact congrArg List.length (congrArg (fun f => (inners ts).filter f) (funext fun m => by simp))

theorem port_eq {b : Text × List Tree} {p : Int} (h : Port b.2 p) : Setup.port (build .server b.1 b.2) = p := by
  have hv : value .server b.2 (ascii "listen_port") = some (.int p) := by
    have hf : Kind.server.opts.find? (fun o => o.name = ascii "listen_port") = some ⟨ascii "listen_port", .int, ascii "80"⟩ := by decide +kernel
    unfold value
    rw [hf]
    unfold Port at h
    cases ha : lastArg (ascii "listen_port") b.2 with
    | none =>
      rw [ha] at h
      simp only at h
      subst h
      show Opt.value _ (ascii "80") = _
      decide +kernel
    | some a =>
      rw [ha] at h
      exact means_value h
  show (match value .server b.2 (ascii "listen_port") with | some (.int n) => n | _ => 0) = p
  rw [hv]

/-- The choice among the blocks is the choice among the modules. -/
theorem choose_chosen (hs : List (Text × List Tree)) (name : Text) : choose (hs.map host) name = (chosen hs name).map host := by
  have h : ∀ s, firstFor (hs.map host) s = (firstBlock hs s).map host := by
    intro s
    unfold firstFor firstBlock
    rw [List.find?_map]
    rfl
  unfold choose chosen
  simp only [h]
  cases firstBlock hs (.exact name) with
  | some x => rfl
  | none =>
    cases domain name with
    | none => rfl
    | some d =>
      simp only [Option.bind_some, Option.map_none]
      cases firstBlock hs (.wild d) <;> rfl

theorem setting_value {n dflt : String} (ho : Kind.host.opts.find? (fun o => o.name = ascii n) = some ⟨ascii n, .str, ascii dflt⟩) (body : List Tree)
    (h : ∀ b ∈ setting n dflt body, b ≠ 0) : value .host body (ascii n) = some (.str (setting n dflt body)) := by
  unfold value
  rw [ho]
  exact means_value (.str _ h)

/-- A host block that proxies is a host that proxies. -/
theorem proxies {name : Text} {body : List Tree} {ip : Text} {port : Int} (hl : Legal .host body) (h : Proxies body ip port) : HttpConn.ProxyTo (host (name, body)) ip port where
  type := by
    show value .host body (ascii "type") = some (.str (ascii "proxy"))
    rw [setting_value (n := "type") (dflt := "proxy") (by decide +kernel) body (by rw [h.type]; decide +kernel), h.type]
  address := ⟨_, setting_value (n := "pass_proxy") (dflt := "") (by decide +kernel) body h.text, h.address⟩
  own := by
    have h1 := inners_kinds ["upstream"] [.upstream] (by intro k; cases k <;> decide +kernel) hl
    rw [h.own] at h1
    have h1 := List.map_eq_nil_iff.1 h1
    intro m hm hk
    exact absurd (List.filter_eq_nil_iff.1 h1 m hm) (by simp [hk])

theorem chosen_mem {hs : List (Text × List Tree)} {name : Text} {h : Text × List Tree} (hc : chosen hs name = some h) : h ∈ hs := by
  have hf : ∀ s h, firstBlock hs s = some h → h ∈ hs := fun s h he => List.mem_of_find?_eq_some he
  unfold chosen at hc
  cases h1 : firstBlock hs (.exact name) with
  | some x =>
    rw [h1] at hc
    cases hc
    exact hf _ _ h1
  | none =>
    rw [h1] at hc
    cases h2 : (domain name).bind fun d => firstBlock hs (.wild d) with
    | some x =>
      rw [h2] at hc
      cases hc
      obtain ⟨d, -, h3⟩ := Option.bind_eq_some_iff.1 h2
      exact hf _ _ h3
    | none =>
      rw [h2] at hc
      exact hf _ _ hc

/-- What is in a host block is legal there. -/
theorem hosts_legal {ts sv : List Tree} (hl : Legal .root ts) (hs : Legal .server sv) {h : Text × List Tree} (hm : h ∈ hosts ts sv) : Legal .host h.2 := by
  have hone := (by decide +kernel : ∀ k ∈ Kind.all, k.name ∈ ["host"].map ascii → k = .host)
  have key : ∀ {k : Kind} {ts : List Tree}, Legal k ts → h ∈ blocks ["host"] ts → Legal .host h.2 := by
    intro k ts hl hb
    obtain ⟨k', h1, h2, -⟩ := blocks_legal hl hb
    rw [hone k' (by cases k' <;> decide) h1] at h2
    exact h2
  rcases List.mem_append.1 hm with hm | hm
  · exact key hs hm
  · obtain ⟨c, h1, h2⟩ := List.mem_flatMap.1 hm
    obtain ⟨k', h3, h4, -⟩ := blocks_legal hl h1
    exact key h4 h2

theorem answered_served {ts sv : List Tree} (hl : Legal .root ts) (hs : Legal .server sv) {as : List HttpConn.Ask} {us : List Upstream} {rs : List (Nat × List UInt8)}
    {qs : List (Text × Int × List UInt8)} (h : Answered (hosts ts sv) as us rs qs) : HttpConn.Served (choose ((hosts ts sv).map host)) as us rs qs := by
  induction h with
  | nil => exact .nil
  | unknown ok hc _ ih => exact .unknown ok (by rw [choose_chosen, hc]; rfl) ih
  | proxied ok hc hp rok ha _ ih => exact .proxied ok (by rw [choose_chosen, hc]; rfl) (proxies (hosts_legal hl hs (chosen_mem hc)) hp) rok ha ih

end Sps.SiteFile
