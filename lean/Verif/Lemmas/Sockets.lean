import Verif.Spec.Sockets
/-! # Lemmas about opening sockets -/
namespace Sps.Sockets
open Spec.Sockets

/-- `os'` is `os` with the socket `s` more, after `k` calls. -/
structure Plus (os os' : Os) (k : Nat) (s : Sock) : Prop where
  socks : os'.socks = os.socks ++ [s]
  id : s.id = os.next
  next : os.next < os'.next
  answers : os'.answers = os.answers.drop k

/-- `os'` has the sockets of `os`, after `k` calls. -/
structure Back (os os' : Os) (k : Nat) : Prop where
  socks : os'.socks = os.socks
  next : os.next ≤ os'.next
  answers : os'.answers = os.answers.drop k

theorem ask_eq (os : Os) : os.ask = (os.answers.getD 0 true, { os with answers := os.answers.drop 1 }) := by
  unfold Os.ask
  obtain ⟨n, ss, as⟩ := os
  cases as <;> rfl

theorem getD_drop (l : List Bool) (k : Nat) : (l.drop k).getD 0 true = l.getD k true := by
  simp [List.getD_eq_getElem?_getD]

theorem plus_ask {os os' : Os} {k : Nat} {s : Sock} (h : Plus os os' k s) :
    ∃ os'', os'.ask = (os.answers.getD k true, os'') ∧ Plus os os'' (k + 1) s := by
  refine ⟨{ os' with answers := os'.answers.drop 1 }, ?_, h.socks, h.id, h.next, ?_⟩
  · rw [ask_eq, h.answers, getD_drop]
  · show os'.answers.drop 1 = _
    rw [h.answers, List.drop_drop]

theorem plus_change {os os' : Os} {k : Nat} {s : Sock} (hf : Fresh os) (h : Plus os os' k s) (f : Sock → Sock) (hid : (f s).id = s.id) :
    ∃ os'', os'.change os.next f = (os.answers.getD k true, os'') ∧ (os.answers.getD k true = true → Plus os os'' (k + 1) (f s)) ∧
      (os.answers.getD k true = false → Plus os os'' (k + 1) s) := by
  obtain ⟨o, h1, h2⟩ := plus_ask h
  unfold Os.change
  rw [h1]
  cases hg : os.answers.getD k true with
  | false => exact ⟨o, rfl, (fun h => by cases h), fun _ => h2⟩
  | true =>
    refine ⟨_, rfl, fun _ => ⟨?_, by rw [hid]; exact h.id, h2.next, h2.answers⟩, fun h => by cases h⟩
    show o.socks.map _ = _
    rw [h2.socks, List.map_append, List.map_cons, List.map_nil, if_pos h.id]
    congr 1
    conv => rhs; rw [← List.map_id os.socks]
    refine List.map_congr_left fun t ht => ?_
    have := hf t ht
    rw [if_neg (by omega)]
    rfl

theorem plus_close {os os' : Os} {k : Nat} {s : Sock} (hf : Fresh os) (h : Plus os os' k s) : Back os (os'.close os.next) k := by
  refine ⟨?_, Nat.le_of_lt h.next, h.answers⟩
  show os'.socks.filter _ = _
  rw [h.socks, List.filter_append, List.filter_cons_of_neg (by simp [h.id]), List.filter_nil, List.append_nil, List.filter_eq_self]
  intro t ht
  have := hf t ht
  simp only [ne_eq, decide_eq_true_eq]
  omega

theorem plus_socket (os : Os) (k : SockKind) : (os.answers.getD 0 true = true ∧ ∃ os', os.socket k = (some os.next, os') ∧ Plus os os' 1 { id := os.next, kind := k }) ∨
    (os.answers.getD 0 true = false ∧ ∃ os', os.socket k = (none, os') ∧ Back os os' 1) := by
  unfold Os.socket
  rw [ask_eq]
  cases hg : os.answers.getD 0 true with
  | true => exact .inl ⟨rfl, _, rfl, rfl, rfl, Nat.lt_succ_self _, rfl⟩
  | false => exact .inr ⟨rfl, _, rfl, rfl, Nat.le_refl _, rfl⟩

theorem create_cases (os : Os) (hf : Fresh os) (k : SockKind) :
    (os.answers.getD 0 true = true ∧ os.answers.getD 1 true = true ∧ ∃ os', os.create k = (Err.SUCCESS, some os.next, os') ∧ Plus os os' 2 { id := os.next, kind := k }) ∨
    (¬ (os.answers.getD 0 true = true ∧ os.answers.getD 1 true = true) ∧ ∃ e os' n, os.create k = (e, none, os') ∧ e ≠ Err.SUCCESS ∧ Back os os' n) := by
  unfold Os.create
  rcases plus_socket os k with ⟨h0, o, h1, h2⟩ | ⟨h0, o, h1, h2⟩
  · rw [h1]
    obtain ⟨o2, h3, h4⟩ := plus_ask h2
    simp only
    rw [h3]
    cases hg : os.answers.getD 1 true with
    | true => exact .inl ⟨h0, rfl, _, rfl, h4⟩
    | false => exact .inr ⟨by simp, _, _, _, rfl, by decide, plus_close hf h4⟩
  · rw [h1]
    exact .inr ⟨by rw [h0]; simp, _, _, _, rfl, by decide, h2⟩

theorem reuse_cases {os os' : Os} {k : Nat} {s : Sock} (h : Plus os os' k s) (r : Bool) :
    ∃ os'' n, os'.reuse r = ((os.answers.getD k true && (!r || os.answers.getD (k + 1) true)), os'') ∧ Plus os os'' n s ∧
      ((os.answers.getD k true && (!r || os.answers.getD (k + 1) true)) = true → n = if r then k + 2 else k + 1) := by
  unfold Os.reuse
  obtain ⟨o, h1, h2⟩ := plus_ask h
  rw [h1]
  cases hg : os.answers.getD k true with
  | false => exact ⟨o, k + 1, by simp, h2, fun h => by simp at h⟩
  | true =>
    simp only [Bool.true_and]
    cases r with
    | false => exact ⟨o, k + 1, rfl, h2, fun _ => rfl⟩
    | true =>
      obtain ⟨o2, h3, h4⟩ := plus_ask h2
      rw [if_pos rfl, h3]
      exact ⟨o2, k + 2, by simp, h4, fun _ => rfl⟩

/-- One more socket `s` if the first `n` calls succeed, else an error and no more sockets. -/
def Opens (os : Os) (n : Nat) (s : Sock) (r : Err × Option Nat × Os) : Prop :=
  (allGood os n ∧ r.1 = Err.SUCCESS ∧ r.2.1 = some os.next ∧ Plus os r.2.2 n s) ∨
  (¬ allGood os n ∧ r.1 ≠ Err.SUCCESS ∧ r.2.1 = none ∧ ∃ k, Back os r.2.2 k)

theorem not_good {os : Os} {n : Nat} (i : Nat) (hi : i < n) (h : os.answers.getD i true = false) : ¬ allGood os n := fun hg => by
  have := hg i hi
  rw [h] at this
  cases this

theorem good_succ {os : Os} {n : Nat} (h : allGood os n) (h' : os.answers.getD n true = true) : allGood os (n + 1) := fun i hi => by
  rcases Nat.lt_succ_iff_lt_or_eq.1 hi with hi | hi
  · exact h i hi
  · rw [hi]; exact h'

theorem good_two {os : Os} (h : os.answers.getD 0 true = true) (h' : os.answers.getD 1 true = true) : allGood os 2 :=
  good_succ (good_succ (fun i hi => absurd hi (Nat.not_lt_zero i)) h) h'

theorem not_two {os : Os} {n : Nat} (hn : 2 ≤ n) (h : ¬ (os.answers.getD 0 true = true ∧ os.answers.getD 1 true = true)) : ¬ allGood os n := fun hg =>
  h ⟨hg 0 (by omega), hg 1 (by omega)⟩

/-- The calls `reuse` makes. -/
def reuses (r : Bool) : Nat := if r then 2 else 1

theorem reuse_good {os : Os} {k : Nat} (r : Bool) (hg : allGood os k) (h : (os.answers.getD k true && (!r || os.answers.getD (k + 1) true)) = true) :
    allGood os (k + reuses r) := by
  simp only [Bool.and_eq_true, Bool.or_eq_true] at h
  cases r with
  | false => exact good_succ hg h.1
  | true => exact good_succ (good_succ hg h.1) (h.2.resolve_left (by simp))

theorem reuse_bad {os : Os} {k n : Nat} (r : Bool) (hn : k + reuses r ≤ n) (h : (os.answers.getD k true && (!r || os.answers.getD (k + 1) true)) = false) :
    ¬ allGood os n := fun hg => by
  have h0 : os.answers.getD k true = true := hg k (by unfold reuses at hn; split at hn <;> omega)
  rw [h0] at h
  cases r with
  | false => simp at h
  | true =>
    have h1 : os.answers.getD (k + 1) true = true := hg (k + 1) (by simp [reuses] at hn; omega)
    rw [h1] at h
    simp at h

theorem udpBind_opens (os : Os) (hf : Fresh os) (port : Nat) (r : Bool) :
    Opens os (3 + reuses r) { id := os.next, kind := .udp, port := some (port % 65536) } (os.udpBind port r) := by
  unfold Os.udpBind
  rcases create_cases os hf .udp with ⟨h0, h1, o, h2, h3⟩ | ⟨h0, e, o, n, h2, h3, h4⟩
  · rw [h2]
    have g2 := good_two h0 h1
    obtain ⟨o2, n2, h4, h5, h6⟩ := reuse_cases h3 r
    simp only
    rw [h4]
    cases hr : (os.answers.getD 2 true && (!r || os.answers.getD (2 + 1) true)) with
    | false => exact .inr ⟨reuse_bad r (by omega) hr, (by (try dsimp only); decide), rfl, _, plus_close hf h5⟩
    | true =>
      have g3 := reuse_good r g2 hr
      have hn2 : n2 = 2 + reuses r := by rw [h6 hr]; unfold reuses; split <;> rfl
      rw [hn2] at h5
      obtain ⟨o3, h7, h8, h9⟩ := plus_change hf h5 (fun s => { s with port := some (port % 65536) }) rfl
      simp only
      unfold Os.bind
      rw [h7]
      cases hg : os.answers.getD (2 + reuses r) true with
      | false => exact .inr ⟨not_good (2 + reuses r) (by omega) hg, (by (try dsimp only); decide), rfl, _, plus_close hf (h9 hg)⟩
      | true =>
        rw [show 3 + reuses r = 2 + reuses r + 1 by omega]
        exact .inl ⟨good_succ g3 hg, rfl, rfl, h8 hg⟩
  · rw [h2]
    exact .inr ⟨not_two (by omega) h0, h3, rfl, n, h4⟩

theorem tcpListen_opens (os : Os) (hf : Fresh os) (port : Nat) (r : Bool) :
    Opens os (4 + reuses r) { id := os.next, kind := .tcp, port := some (port % 65536), listens := true } (os.tcpListen port r) := by
  unfold Os.tcpListen
  rcases create_cases os hf .tcp with ⟨h0, h1, o, h2, h3⟩ | ⟨h0, e, o, n, h2, h3, h4⟩
  · rw [h2]
    have g2 := good_two h0 h1
    obtain ⟨o2, n2, h4, h5, h6⟩ := reuse_cases h3 r
    simp only
    rw [h4]
    cases hr : (os.answers.getD 2 true && (!r || os.answers.getD (2 + 1) true)) with
    | false => exact .inr ⟨reuse_bad r (by omega) hr, (by (try dsimp only); decide), rfl, _, plus_close hf h5⟩
    | true =>
      have g3 := reuse_good r g2 hr
      have hn2 : n2 = 2 + reuses r := by rw [h6 hr]; unfold reuses; split <;> rfl
      rw [hn2] at h5
      obtain ⟨o3, h7, h8, h9⟩ := plus_change hf h5 (fun s => { s with port := some (port % 65536) }) rfl
      simp only
      unfold Os.bind
      rw [h7]
      cases hg : os.answers.getD (2 + reuses r) true with
      | false => exact .inr ⟨not_good (2 + reuses r) (by omega) hg, (by (try dsimp only); decide), rfl, _, plus_close hf (h9 hg)⟩
      | true =>
        obtain ⟨o4, ha, hb, hc⟩ := plus_change hf (h8 hg) (fun s => { s with listens := true }) rfl
        unfold Os.listen
        simp only
        rw [ha]
        cases hg2 : os.answers.getD (2 + reuses r + 1) true with
        | false => exact .inr ⟨not_good (2 + reuses r + 1) (by omega) hg2, (by (try dsimp only); decide), rfl, _, plus_close hf (hc hg2)⟩
        | true =>
          rw [show 4 + reuses r = 2 + reuses r + 1 + 1 by omega]
          exact .inl ⟨good_succ (good_succ g3 hg) hg2, rfl, rfl, hb hg2⟩
  · rw [h2]
    exact .inr ⟨not_two (by omega) h0, h3, rfl, n, h4⟩

theorem tcpConnect_opens (os : Os) (hf : Fresh os) (dns : Text → Text) (server : Text) (port : Nat) :
    (dns server ≠ [] ∧ Opens os 3 { id := os.next, kind := .tcp, peer := some (dns server, port % 65536) } (os.tcpConnect dns server port)) ∨
    (dns server = [] ∧ (os.tcpConnect dns server port).1 ≠ Err.SUCCESS ∧ (os.tcpConnect dns server port).2.1 = none ∧ ∃ k, Back os (os.tcpConnect dns server port).2.2 k) := by
  unfold Os.tcpConnect
  rcases create_cases os hf .tcp with ⟨h0, h1, o, h2, h3⟩ | ⟨h0, e, o, n, h2, h3, h4⟩
  · rw [h2]
    simp only
    by_cases hd : dns server = []
    · rw [if_pos hd]
      exact .inr ⟨hd, (by (try dsimp only); decide), rfl, _, plus_close hf h3⟩
    · rw [if_neg hd]
      refine .inl ⟨hd, ?_⟩
      obtain ⟨o3, h7, h8, h9⟩ := plus_change hf h3 (fun s => { s with peer := some (dns server, port % 65536) }) rfl
      unfold Os.connect
      rw [h7]
      cases hg : os.answers.getD 2 true with
      | false => exact .inr ⟨not_good 2 (by omega) hg, (by (try dsimp only); decide), rfl, _, plus_close hf (h9 hg)⟩
      | true => exact .inl ⟨good_succ (good_two h0 h1) hg, rfl, rfl, h8 hg⟩
  · rw [h2]
    by_cases hd : dns server = []
    · exact .inr ⟨hd, (by (try dsimp only); decide), rfl, n, h4⟩
    · exact .inl ⟨hd, .inr ⟨not_two (by omega) h0, (by (try dsimp only); decide), rfl, n, h4⟩⟩

theorem plus_fresh {os o : Os} {k : Nat} {s : Sock} (hf : Fresh os) (h : Plus os o k s) : Fresh o := fun t ht => by
  have hn := h.next
  rw [h.socks] at ht
  rcases List.mem_append.1 ht with ht | ht
  · have := hf t ht; omega
  · rw [List.mem_singleton.1 ht, h.id]; exact hn

theorem plus_getD {os o : Os} {k : Nat} {s : Sock} (h : Plus os o k s) (i : Nat) : o.answers.getD i true = os.answers.getD (k + i) true := by
  rw [h.answers]
  simp [List.getD_eq_getElem?_getD]

theorem plus_good {os o : Os} {k : Nat} {s : Sock} (h : Plus os o k s) (hg : allGood os k) (j : Nat) : allGood o j ↔ allGood os (k + j) := by
  constructor
  · intro hj i hi
    by_cases hk : i < k
    · exact hg i hk
    · have := hj (i - k) (by omega)
      rw [plus_getD h, show k + (i - k) = i by omega] at this
      exact this
  · intro hj i hi
    rw [plus_getD h]
    exact hj _ (by omega)

theorem back_plus {os o o' : Os} {k j : Nat} {s : Sock} (h : Plus os o k s) (hb : Back o o' j) : Plus os o' (k + j) s :=
  ⟨by rw [hb.socks, h.socks], h.id, Nat.lt_of_lt_of_le h.next hb.next, by rw [hb.answers, h.answers, List.drop_drop]⟩

/-- The calls `srtUdp` makes. -/
def srtCalls (r : Bool) : Nat := if r then 5 else 3

theorem acquire_cases {o o2 : Os} {k : Nat} {u : Sock} (os : Os) (m : Nat) (s : Sock) (hf : Fresh os) (hs : Plus os o m s) (hu : Plus o o2 k u) :
    ∃ o3, o2.acquire os.next o.next = (o.answers.getD k true, o3) ∧ (o.answers.getD k true = true → Plus os o3 (m + (k + 1)) { s with port := u.port }) ∧
      (o.answers.getD k true = false → Plus o o3 (k + 1) u) := by
  obtain ⟨o3, h1, h2⟩ := plus_ask hu
  unfold Os.acquire
  rw [h1]
  cases hg : o.answers.getD k true with
  | false => exact ⟨o3, rfl, (fun h => by cases h), fun _ => h2⟩
  | true =>
    have hn := hs.next
    have hfo := plus_fresh hf hs
    have hnone : o.socks.find? (fun t => decide (t.id = o.next)) = none := by
      rw [List.find?_eq_none]
      intro t ht
      have := hfo t ht
      simp only [decide_eq_true_eq]
      omega
    have hfind : o3.socks.find? (fun t => decide (t.id = o.next)) = some u := by
      rw [h2.socks, List.find?_append, hnone, List.find?_cons_of_pos (by simp [hu.id])]
      rfl
    have hrest : o3.socks.filter (fun t => decide (t.id ≠ o.next)) = o.socks := by
      have := (plus_close hfo h2).socks
      exact this
    refine ⟨_, rfl, fun _ => ⟨?_, hs.id, Nat.lt_trans hn h2.next, ?_⟩, fun h => by cases h⟩
    · show (o3.socks.filter _).map _ = _
      rw [hrest, hfind, hs.socks, List.map_append, List.map_cons, List.map_nil, if_pos hs.id]
      congr 1
      conv => rhs; rw [← List.map_id os.socks]
      refine List.map_congr_left fun t ht => ?_
      have := hf t ht
      rw [if_neg (by omega)]
      rfl
    · show o3.answers = _
      rw [h2.answers, hs.answers, List.drop_drop]

theorem srtUdp_cases {os o : Os} {m : Nat} {s : Sock} (hf : Fresh os) (hs : Plus os o m s) (port : Nat) (r : Bool) :
    (allGood o (srtCalls r) ∧ ∃ o', o.srtUdp os.next port r = (true, o') ∧ Plus os o' (m + srtCalls r) { s with port := some (port % 65536) }) ∨
    (¬ allGood o (srtCalls r) ∧ ∃ o' j, o.srtUdp os.next port r = (false, o') ∧ Plus os o' j s) := by
  have hfo := plus_fresh hf hs
  unfold Os.srtUdp
  rcases plus_socket o .udp with ⟨h0, o1, h1, h2⟩ | ⟨h0, o1, h1, h2⟩
  · rw [h1]
    simp only
    have g1 : allGood o 1 := good_succ (fun i hi => absurd hi (Nat.not_lt_zero i)) h0
    have hre : ∃ o2 b n, (if r = true then o1.reuse true else (true, o1)) = (b, o2) ∧ Plus o o2 n { id := o.next, kind := .udp } ∧
        (b = true → n + 2 = srtCalls r ∧ allGood o n) ∧ (b = false → ¬ allGood o (srtCalls r)) := by
      cases r with
      | false => exact ⟨o1, true, 1, rfl, h2, fun _ => ⟨rfl, g1⟩, fun h => by cases h⟩
      | true =>
        obtain ⟨o2, n, h3, h4, h5⟩ := reuse_cases h2 true
        refine ⟨o2, _, n, h3, h4, fun hb => ?_, fun hb => reuse_bad true (by simp [reuses, srtCalls]) hb⟩
        have := h5 hb
        refine ⟨by rw [this]; rfl, ?_⟩
        have hg := reuse_good true g1 hb
        rw [this]
        exact hg
    obtain ⟨o2, b, n, h3, h4, h5, h6⟩ := hre
    rw [h3]
    cases b with
    | false => exact .inr ⟨h6 rfl, _, _, rfl, back_plus hs (plus_close hfo h4)⟩
    | true =>
      obtain ⟨hn, gn⟩ := h5 rfl
      obtain ⟨o3, h7, h8, h9⟩ := plus_change hfo h4 (fun s => { s with port := some (port % 65536) }) rfl
      simp only
      unfold Os.bind
      rw [h7]
      cases hg : o.answers.getD n true with
      | false => exact .inr ⟨not_good n (by omega) hg, _, _, rfl, back_plus hs (plus_close hfo (h9 hg))⟩
      | true =>
        obtain ⟨o4, ha, hb, hc⟩ := acquire_cases os m s hf hs (h8 hg)
        simp only
        rw [ha]
        cases hg2 : o.answers.getD (n + 1) true with
        | false => exact .inr ⟨not_good (n + 1) (by omega) hg2, _, _, rfl, back_plus hs (plus_close hfo (hc hg2))⟩
        | true =>
          refine .inl ⟨?_, _, rfl, ?_⟩
          · rw [← hn]
            exact good_succ (good_succ gn hg) hg2
          · have := hb hg2
            rw [← hn]
            exact this
  · rw [h1]
    exact .inr ⟨not_good 0 (by unfold srtCalls; split <;> omega) h0, _, _, rfl, back_plus hs h2⟩

theorem srtServe_opens (os : Os) (hf : Fresh os) (port : Nat) (r : Bool) :
    (allGood os (2 + srtCalls r) ∧ (os.srtServe port r).1 = Err.SUCCESS ∧ (os.srtServe port r).2.1 = some os.next ∧
      Plus os (os.srtServe port r).2.2 (2 + srtCalls r) { id := os.next, kind := .srt, port := some (port % 65536), listens := true }) ∨
    (¬ allGood os (2 + srtCalls r) ∧ (os.srtServe port r).1 ≠ Err.SUCCESS ∧ ∃ k, Back os ((os.srtServe port r).2.2.drop (os.srtServe port r).2.1) k) := by
  unfold Os.srtServe
  rcases plus_socket os .srt with ⟨h0, o, h1, h2⟩ | ⟨h0, o, h1, h2⟩
  · rw [h1]
    simp only
    unfold Os.srtListen
    have g1 : allGood os 1 := good_succ (fun i hi => absurd hi (Nat.not_lt_zero i)) h0
    rcases srtUdp_cases hf h2 port r with ⟨hg, o2, h3, h4⟩ | ⟨hg, o2, j, h3, h4⟩
    · rw [h3]
      simp only
      have g2 := (plus_good h2 g1 _).1 hg
      obtain ⟨o3, h7, h8, h9⟩ := plus_change hf h4 (fun s => { s with listens := true }) rfl
      unfold Os.listen
      rw [h7]
      cases hg2 : os.answers.getD (1 + srtCalls r) true with
      | false => exact .inr ⟨not_good (1 + srtCalls r) (by omega) hg2, (by (try dsimp only); decide), _, plus_close hf (h9 hg2)⟩
      | true =>
        rw [show 2 + srtCalls r = 1 + srtCalls r + 1 by omega]
        exact .inl ⟨good_succ g2 hg2, (by first | trivial | rfl), (by first | trivial | rfl), h8 hg2⟩
    · rw [h3]
      simp only
      have : ¬ allGood os (2 + srtCalls r) := fun h => hg ((plus_good h2 g1 _).2 fun i hi => h i (by omega))
      cases r
      · exact .inr ⟨this, (show Err.ERROR_SRT_SOCKET_BIND ≠ Err.SUCCESS by decide), _, plus_close hf h4⟩
      · exact .inr ⟨this, (show Err.ERROR_SRT_SOCKET_CREATE ≠ Err.SUCCESS by decide), _, plus_close hf h4⟩
  · rw [h1]
    exact .inr ⟨not_good 0 (by omega) h0, (by (try dsimp only); decide), _, h2⟩

theorem client_opens (os : Os) (hf : Fresh os) (dns : Text → Text) (waited : Err) (t : Transport) (ip : Text) (port : Nat) :
    (clientGood os dns waited t ip ∧ (os.client dns waited t ip port).1 = some os.next ∧
      ∃ k n, Plus os (os.client dns waited t ip port).2 n { id := os.next, kind := k, peer := some (dns ip, port % 65536) } ∧ (k = .srt ↔ t = .srt) ∧ k ≠ .udp) ∨
    (¬ clientGood os dns waited t ip ∧ (os.client dns waited t ip port).1 = none ∧ ∃ n, Back os (os.client dns waited t ip port).2 n) := by
  unfold clientGood
  cases t with
  | other => exact .inr ⟨fun h => h.1 rfl, rfl, 0, rfl, Nat.le_refl _, rfl⟩
  | tcp =>
    simp only [Os.client]
    rcases tcpConnect_opens os hf dns ip port with ⟨hd, h⟩ | ⟨hd, h1, h2, h3⟩
    · rcases h with ⟨hg, h1, h2, h3⟩ | ⟨hg, h1, h2, h3⟩
      · rw [if_neg (fun h => h h1)]
        exact .inl ⟨⟨(by simp), hd, (by simp), hg⟩, h2, .tcp, 3, h3, by simp, by simp⟩
      · rw [if_pos h1]
        exact .inr ⟨fun h => hg h.2.2.2, rfl, h3⟩
    · rw [if_pos h1]
      exact .inr ⟨fun h => h.2.1 hd, rfl, h3⟩
  | https =>
    simp only [Os.client]
    rcases tcpConnect_opens os hf dns ip port with ⟨hd, h⟩ | ⟨hd, h1, h2, h3⟩
    · rcases h with ⟨hg, h1, h2, h3⟩ | ⟨hg, h1, h2, h3⟩
      · rw [if_neg (fun h => h h1)]
        obtain ⟨o, h4, h5⟩ := plus_ask h3
        rw [h4]
        cases hl : os.answers.getD 3 true with
        | true => exact .inl ⟨⟨(by simp), hd, (by simp), good_succ hg hl⟩, h2, .tcp, 4, h5, by simp, by simp⟩
        | false =>
          refine .inr ⟨fun h => not_good 3 (by simp [clientCalls]) hl h.2.2.2, rfl, ?_⟩
          simp only
          rw [h2]
          exact ⟨_, plus_close hf h5⟩
      · rw [if_pos h1]
        exact .inr ⟨fun h => hg fun i hi => h.2.2.2 i (by simp [clientCalls]; omega), rfl, h3⟩
    · rw [if_pos h1]
      exact .inr ⟨fun h => h.2.1 hd, rfl, h3⟩
  | srt =>
    simp only [Os.client]
    rcases plus_socket os .srt with ⟨h0, o, h1, h2⟩ | ⟨h0, o, h1, h2⟩
    · rw [h1]
      simp only
      have g1 : allGood os 1 := good_succ (fun i hi => absurd hi (Nat.not_lt_zero i)) h0
      unfold Os.srtConnect
      by_cases hd : dns ip = []
      · rw [if_pos hd]
        simp only
        rw [if_pos (by decide)]
        exact .inr ⟨fun h => h.2.1 hd, rfl, _, plus_close hf h2⟩
      · rw [if_neg hd]
        obtain ⟨o2, h3, h4⟩ := plus_ask h2
        rw [h3]
        cases hg : os.answers.getD 1 true with
        | false =>
          simp only
          rw [if_pos (by decide)]
          exact .inr ⟨fun h => not_good 1 (by simp [clientCalls]) hg h.2.2.2, rfl, _, plus_close hf h4⟩
        | true =>
          obtain ⟨o3, h7, h8, h9⟩ := plus_change hf h4 (fun s => { s with peer := some (dns ip, port % 65536) }) rfl
          simp only
          unfold Os.connect
          rw [h7]
          cases hg2 : os.answers.getD (1 + 1) true with
          | false =>
            simp only
            rw [if_pos (by decide)]
            exact .inr ⟨fun h => not_good (1 + 1) (by simp [clientCalls]) hg2 h.2.2.2, rfl, _, plus_close hf (h9 hg2)⟩
          | true =>
            simp only
            by_cases hw : waited = Err.SUCCESS
            · rw [if_neg (fun h => h hw)]
              exact .inl ⟨⟨(by simp), hd, (fun _ => hw), good_succ (good_succ g1 hg) hg2⟩, rfl, .srt, _, h8 hg2, by simp, by simp⟩
            · rw [if_pos hw]
              exact .inr ⟨fun h => hw (h.2.2.1 trivial), rfl, _, plus_close hf (h8 hg2)⟩
    · rw [h1]
      exact .inr ⟨fun h => not_good 0 (by simp [clientCalls]) h0 h.2.2.2, rfl, _, h2⟩

theorem back_fresh {os o : Os} {k : Nat} (hf : Fresh os) (h : Back os o k) : Fresh o := fun t ht => by
  rw [h.socks] at ht
  have := hf t ht
  have := h.next
  omega

theorem plus_adds {os o : Os} {k : Nat} {s : Sock} (hf : Fresh os) (h : Plus os o k s) : Adds os o s :=
  ⟨h.socks, fun t ht => by have := hf t ht; rw [h.id]; omega⟩

end Sps.Sockets
