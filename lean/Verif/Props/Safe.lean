import Verif.Lemmas.Safe
import Mathlib.Data.List.Induction
import Verif.Lemmas.Relay
import Verif.Props.RtmpServe
import Verif.Props.SrtServe
/-!
# Serving is defined (C116)
-/
namespace Sps.SafeProps
open Spec HttpStream World StreamProps Sys ServeProps RProg FlvDemuxer

/-- **C116** (one turn). In every execution, a turn of a request that keeps to the formats is defined: no memory outside of buffers is read and no null is used, whatever
the other requests send and do. -/
theorem C116_turn {env : Site.Env} {ops : List Sys.Op} (hop : ∀ q ∈ requestsOf ops, ReqOk q) {s : Sys} {L : Log} (he : Sys.run env Sys.init ops = some (s, L)) (hfit : fitsFlv L)
    {i : Nat} {q : Req} (hq : (requestsOf ops)[i]? = some q) (hk : Keeps env q) : (s.step env (.run i)).isSome := by
  have h := run_init hop he hfit
  have hj := jobs_init hop he hfit
  have hrq := hop q (List.mem_of_getElem? hq)
  cases hi : s.conns[i]? with
  | none => simp [Sys.step, hi]
  | some k =>
    have hc := h.ok i k q hi hq
    have hjob := hj i k q hi hq
    obtain ⟨job, r, snk⟩ := k
    unfold Keeps at hk
    cases job with
    | done was ret => simp [Sys.step, hi]
    | waits u tag own => simp [Sys.step, hi]
    | pub cid => simp [Sys.step, hi]
    | rtmpWaits u fails own => simp [Sys.step, hi]
    | otherView c => simp [Sys.step, hi]
    | srtView c => simp [Sys.step, hi]
    | flvPub cid rd headed =>
      obtain ⟨hv, hm⟩ := hjob
      rw [hv] at hk
      simp only [if_pos hm] at hk
      obtain ⟨b, cl, hb, hk⟩ := hk
      have hp := hc.2.2 b cl hb
      simp only [Sys.step, hi, runPub]
      cases headed with
      | false => simp only [Bool.false_eq_true, if_false, Option.isSome_map]; exact hp.header_defined hrq.mem.1
      | true => simp only [if_true, Option.isSome_map]; exact hp.packet_defined hrq.mem.1 hk
    | view c m => exact C76_defined hop he hfit hi rfl
    | nullView c =>
      obtain ⟨hv, hm, f, hf, hw⟩ := hjob
      rw [hv] at hk
      simp only [if_neg hm] at hk
      exact absurd (hk f hf) hw
    | rtmpView c snk' =>
      simp only [Sys.step, hi, runRtmpView]
      split <;> rfl
    | rtmpPub cid ms cl =>
      obtain ⟨-, -, ms0, hv, -, pre, rfl⟩ := hc
      have hmsgs := hrq.msgs
      rw [hv] at hk hmsgs
      simp only at hk hmsgs
      simp only [Sys.step, hi, runRtmpPub, Option.isSome_map]
      rw [RtmpDemuxer.readPacket_eq cl ms fun m hm => hmsgs m (by simp [hm])]
      exact first_defined cl ms fun m hm => hk trivial m (by simp [hm])
    | srtPub cid rd ctx st =>
      obtain ⟨hv, hm⟩ := hjob
      rw [hv] at hk
      obtain ⟨b, cl, hb, hk⟩ := hk hm
      obtain ⟨-, -, h5⟩ := hc
      obtain ⟨hcl, n, ha, hf⟩ := h5 b cl hb
      simp only [Sys.step, hi]
      exact srt_defined hcl ha hf hk

/-- **C116** (whose fault it is). If an execution cannot go on, the piece was a turn of a request, and that request did not keep to the formats. -/
theorem C116_blame {env : Site.Env} {ops : List Sys.Op} (hop : ∀ q ∈ requestsOf ops, ReqOk q) {s : Sys} {L : Log} (he : Sys.run env Sys.init ops = some (s, L)) (hfit : fitsFlv L)
    {op : Sys.Op} (hn : s.step env op = none) : ∃ i q, op = .run i ∧ (requestsOf ops)[i]? = some q ∧ ¬ Keeps env q := by
  cases op with
  | other o => simp only [Sys.step] at hn; split at hn <;> cases hn
  | request q => cases hn
  | wake i ret => cases hn
  | run i =>
    have h := run_init hop he hfit
    cases hi : s.conns[i]? with
    | none => simp [Sys.step, hi] at hn
    | some k =>
      have hlt := get_len hi
      rw [h.len] at hlt
      refine ⟨i, _, rfl, List.getElem?_eq_getElem hlt, fun hk => ?_⟩
      have := C116_turn hop he hfit (List.getElem?_eq_getElem hlt) hk
      rw [hn] at this
      cases this

theorem startView_puts (env : Site.Env) (w : World) (c : Nat) (f : Reg) (tag : List UInt8) (r : HttpRsp) (s : Sink) (cid : Nat) (p : AVPkt) (o : WOut) :
    (.put cid p, o) ∉ (startView env w c f tag r s).2.1 := by
  unfold startView
  split
  · split
    split <;> simp
  · simp

theorem afterAttach_puts (env : Site.Env) (k : Key) (x : StreamHandler.Join × World) (tag : List UInt8) (r : HttpRsp) (s : Sink) (cid : Nat) (p : AVPkt) (o : WOut) :
    (.put cid p, o) ∉ (afterAttach env k x tag r s).2.1 := by
  unfold afterAttach
  split
  · rename_i c d f w
    have := startView_puts env w c f tag r s cid p o
    generalize startView env w c f tag r s = y at this
    obtain ⟨w', l, k'⟩ := y
    simpa using this
  · simp
  · simp

theorem rtmpAttach_puts (k : Key) (x : StreamHandler.Join × World) (fails : List Err) (cid : Nat) (p : AVPkt) (o : WOut) : (.put cid p, o) ∉ (rtmpAttach k x fails).2.1 := by
  unfold rtmpAttach
  split <;> simp

theorem request_puts (env : Site.Env) (s : Sys) (q : Req) (cid : Nat) (p : AVPkt) (o : WOut) : (.put cid p, o) ∉ (s.request env q).2 := by
  unfold Sys.request
  split
  · unfold httpRequest
    simp only
    split
    · split <;> simp
    · split
      · simp
      · exact fun h => afterAttach_puts _ _ _ _ _ _ _ _ _ h
  · unfold rtmpRequest
    simp only
    split
    · split <;> simp
    · split
      · simp
      · exact fun h => rtmpAttach_puts _ _ _ _ _ _ h
  · unfold srtRequest
    simp only
    split <;> split <;> simp

theorem wake_puts (env : Site.Env) (s : Sys) (i : Nat) (ret : Err) (cid : Nat) (p : AVPkt) (o : WOut) : (.put cid p, o) ∉ (s.wake env i ret).2 := by
  have hd : ∀ w own, (.put cid p, o) ∉ (dropPull w own).2 := by
    intro w own
    cases own <;> simp [dropPull]
  unfold wake
  split
  · intro h
    rcases List.mem_append.1 h with h | h
    · exact hd _ _ h
    · exact afterAttach_puts _ _ _ _ _ _ _ _ _ h
  · intro h
    rcases List.mem_append.1 h with h | h
    · exact hd _ _ h
    · exact rtmpAttach_puts _ _ _ _ _ _ h
  · simp

/-- What a piece publishes fits into FLV tags. -/
theorem puts_small {env : Site.Env} {ops : List Sys.Op} (hop : ∀ q ∈ requestsOf ops, ReqOk q) {s : Sys} {L : Log} (he : Sys.run env Sys.init ops = some (s, L)) (hfit : fitsFlv L)
    (hk : ∀ q ∈ requestsOf ops, Keeps env q ∧ KeepsSmall q) {op : Sys.Op} (ho : ∀ cid p, op = .other (.put cid p) → Small p) {s' : Sys} {l : Log}
    (hs : s.step env op = some (s', l)) : fitsFlv (L ++ l) := by
  have h := run_init hop he hfit
  have hj := jobs_init hop he hfit
  have app : (∀ cid, ∀ p ∈ publishedTo cid l, Small p) → fitsFlv (L ++ l) := by
    intro hl cid p hp
    rw [publishedTo_append] at hp
    rcases List.mem_append.1 hp with hp | hp
    · exact hfit cid p hp
    · exact hl cid p hp
  have mem : ∀ (l : Log) (cid : Nat) (p : AVPkt), p ∈ publishedTo cid l → (.put cid p, .ok) ∈ l := by
    intro l cid p
    induction l with
    | nil => intro h; cases h
    | cons x l ih =>
      intro hp
      unfold publishedTo at hp
      split at hp
      · cases hp
      · rename_i c p' l' hx
        cases hx
        split at hp
        · rename_i hcc
          subst hcc
          rcases List.mem_cons.1 hp with rfl | hp
          · simp
          · exact List.mem_cons_of_mem _ (ih hp)
        · exact List.mem_cons_of_mem _ (ih hp)
      · rename_i hx
        cases hx
        exact List.mem_cons_of_mem _ (ih hp)
  have none_ : (∀ cid p, (.put cid p, .ok) ∉ l) → fitsFlv (L ++ l) := fun hno => app fun cid p hp => absurd (mem l cid p hp) (hno cid p)
  cases op with
  | other o =>
    simp only [Sys.step] at hs
    split at hs
    · cases hs; exact none_ (by simp)
    · cases hs
      refine app fun cid p hp => ?_
      have := mem _ cid p hp
      simp only [List.mem_singleton, Prod.mk.injEq] at this
      exact ho cid p (by rw [this.1])
  | request q =>
    simp only [Sys.step, Option.some.injEq] at hs
    have : l = (s.request env q).2 := by rw [hs]
    exact none_ fun cid p hx => request_puts env s q cid p _ (this ▸ hx)
  | wake i ret =>
    simp only [Sys.step, Option.some.injEq] at hs
    have : l = (s.wake env i ret).2 := by rw [hs]
    exact none_ fun cid p hx => wake_puts env s i ret cid p _ (this ▸ hx)
  | run i =>
    simp only [Sys.step] at hs
    split at hs
    · rename_i cid rd hd r snk hi
      have hlt := get_len hi
      rw [h.len] at hlt
      have hq := List.getElem?_eq_getElem hlt
      have hrq := hop _ (List.getElem_mem hlt)
      have hkq := hk _ (List.getElem_mem hlt)
      obtain ⟨-, -, hc⟩ := h.ok i _ _ hi hq
      obtain ⟨hv, hm⟩ := hj i _ _ hi hq
      generalize (requestsOf ops)[i] = q at *
      have hkk := hkq.1
      unfold Keeps at hkk
      rw [hv] at hkk
      simp only [if_pos hm] at hkk
      obtain ⟨b, cl, hb, -⟩ := hkk
      have hp := hc b cl hb
      unfold runPub at hs
      split at hs
      · rename_i hh
        subst hh
        cases hr : readPacket.runOn rd with
        | none => rw [hr] at hs; cases hs
        | some x =>
          obtain ⟨⟨e, o⟩, rd'⟩ := x
          rw [hr] at hs
          cases o with
          | none => cases hs; exact none_ (by simp)
          | some p =>
            have hsm := hp.packet_small hrq.mem.1 hr
            cases hs
            refine app fun cid' p' hp' => ?_
            have := mem _ cid' p' hp'
            simp only [List.mem_singleton, Prod.mk.injEq, WOp.put.injEq] at this
            rw [this.1.2]; exact hsm
      · cases hr : readHeader.runOn rd with
        | none => rw [hr] at hs; cases hs
        | some x =>
          obtain ⟨⟨e, o⟩, rd'⟩ := x
          rw [hr] at hs
          cases o with
          | none => cases hs; exact none_ (by simp)
          | some p => cases hs; exact none_ (by simp)
    · unfold runView at hs
      split at hs
      · cases hs; exact none_ (by simp)
      · simp only [Option.map_eq_some_iff] at hs
        obtain ⟨⟨e, m, r, k⟩, -, hs⟩ := hs
        simp only at hs
        split at hs <;> (cases hs; exact none_ (by simp))
      · cases hs; exact none_ (by simp)
    · unfold runNull at hs
      split at hs
      · cases hs; exact none_ (by simp)
      · split at hs
        · cases hs
        · cases hs; exact none_ (by simp)
      · cases hs; exact none_ (by simp)
    · rename_i cid ms cl r snk hi
      have hlt := get_len hi
      rw [h.len] at hlt
      have hq := List.getElem?_eq_getElem hlt
      have hrq := hop _ (List.getElem_mem hlt)
      have hkq := hk _ (List.getElem_mem hlt)
      obtain ⟨-, -, ms0, hv, -, pre, rfl⟩ := h.ok i _ _ hi hq
      have hmsgs := hrq.msgs
      have hsm := hkq.2
      unfold KeepsSmall at hsm
      rw [hv] at hmsgs hsm
      simp only at hmsgs hsm
      unfold runRtmpPub at hs
      rw [RtmpDemuxer.readPacket_eq cl ms fun m hm => hmsgs m (by simp [hm])] at hs
      simp only [Option.map_eq_some_iff] at hs
      obtain ⟨⟨⟨e, o⟩, ms'⟩, hr, hs⟩ := hs
      cases o with
      | none => cases hs; exact none_ (by simp)
      | some p =>
        obtain ⟨m, hm, hjm⟩ := first_mem cl ms hr
        obtain ⟨b, hb, hlen⟩ := rtmp_size hjm
        have := hsm m (by simp [hm]) b hb
        cases hs
        refine app fun cid' p' hp' => ?_
        have hmm := mem _ cid' p' hp'
        simp only [List.mem_singleton, Prod.mk.injEq, WOp.put.injEq] at hmm
        rw [hmm.1.2]
        unfold Small
        omega
    · unfold runRtmpView at hs
      split at hs
      · cases hs; exact none_ (by simp [endRtmpView])
      · simp only [Option.some.injEq] at hs
        split at hs <;> (cases hs; exact none_ (by simp [endRtmpView]))
      · cases hs; exact none_ (by simp)
    · rename_i cid rd ctx st r snk hi
      have hlt := get_len hi
      rw [h.len] at hlt
      have hq := List.getElem?_eq_getElem hlt
      have hkq := hk _ (List.getElem_mem hlt)
      obtain ⟨hv, hm⟩ := hj i _ _ hi hq
      have hrun := runSrtPub_inv h hi hs
      have hc' := hrun
      obtain ⟨hkk, hsm⟩ := hkq
      unfold Keeps at hkk
      unfold KeepsSmall at hsm
      rw [hv] at hkk hsm
      simp only at hkk hsm
      obtain ⟨b, cl, hb, -⟩ := hkk hm
      obtain ⟨h1, ⟨key, h2⟩, h5⟩ := h.ok i _ _ hi hq
      obtain ⟨hcl, n, ha, hf⟩ := h5 b cl hb
      have htw := h.inv2.twin _ _ _ h2
      unfold runSrtPub at hs
      cases hpop : st.pop with
      | some x =>
        obtain ⟨p, st1⟩ := x
        rw [hpop] at hs
        cases hs
        have hmem : p ∈ st.queue := by
          unfold TsCodec.pop at hpop
          split at hpop
          · cases hpop
          · rename_i hq'
            cases hpop
            rw [hq']; simp
        refine app fun cid' p' hp' => ?_
        have hmm := mem _ cid' p' hp'
        simp only [List.mem_singleton, Prod.mk.injEq, WOp.put.injEq] at hmm
        rw [hmm.1.2]
        exact hsm b cl n _ _ _ hb hf.1 hf.2 p (by simp [hmem])
      | none =>
        rw [hpop] at hs
        simp only at hs
        obtain ⟨e, rd1, hac, h7⟩ := ha.acquire
        rw [hac] at hs
        simp only [Option.bind_some] at hs
        split at hs
        · cases hs; exact none_ (by simp)
        · rename_i he0
          rcases h7 with ⟨_, h7⟩ | ⟨h7, -, ⟨x, hx⟩, -⟩
          · exact absurd (h7 ▸ (by simpa using he0)) hcl
          · rw [List.length_drop] at h7
            rw [hx] at hs
            simp only [Option.bind_some] at hs
            rw [TsDemuxer.decodeAll_one _ _ _ _ (by simp; omega)] at hs
            simp only [Option.map_eq_some_iff] at hs
            obtain ⟨⟨e2, ctx2, st2, raw⟩, hd, hs⟩ := hs
            simp only at hs
            obtain ⟨w1, l1, g1, g2, g3, g4, g5, g6⟩ := putAll_spec (cid + 1) raw s.w htw
            rw [g1] at hs
            simp only at hs
            have hqe : st.queue = [] := by
              unfold TsCodec.pop at hpop
              split at hpop
              · assumption
              · simp at hpop
            split at hs
            · rename_i hne
              obtain ⟨rfl, -⟩ := hf.fail (by omega) hqe hne hd
              cases hs
              refine app fun cid' p' hp' => ?_
              rw [publishedTo_append, published_other _ (by simp), List.append_nil] at hp'
              by_cases hcc : cid' = cid + 1
              · subst hcc; rw [g5] at hp'; cases hp'
              · rw [g6 _ hcc] at hp'; cases hp'
            · rename_i heq
              have heq : e2 = Err.SUCCESS := by simpa using heq
              subst heq
              cases hs
              have hf' := hf.step (by omega) hqe hd
              refine app fun cid' p' hp' => ?_
              by_cases hcc : cid' = cid + 1
              · subst hcc; rw [g5] at hp'
                exact hsm b cl (n + 1) _ _ _ hb hf'.1 hf'.2 p' (by simp [hp'])
              · rw [g6 _ hcc] at hp'; cases hp'
    · simp only [Option.some.injEq] at hs
      unfold runSrtView at hs
      split at hs
      · cases hs; exact none_ (by simp)
      · split at hs
        split at hs <;> (cases hs; exact none_ (by simp))
      · cases hs; exact none_ (by simp)
    · cases hs; exact none_ (by simp)

/-- **C116.** Every execution is defined if the requests keep to the formats and their packets, like those of everything else that publishes, fit into FLV tags: in any order of
arrivals, turns, waits and departures, of any number of requests over HTTP, RTMP and SRT. And then the condition `fitsFlv` of the theorems about executions is met. -/
theorem C116_defined (env : Site.Env) (ops : List Sys.Op) (hop : ∀ q ∈ requestsOf ops, ReqOk q) (hk : ∀ q ∈ requestsOf ops, Keeps env q ∧ KeepsSmall q)
    (ho : ∀ cid p, .other (.put cid p) ∈ ops → Small p) : ∃ s L, Sys.run env Sys.init ops = some (s, L) ∧ fitsFlv L := by
  induction ops using List.reverseRecOn with
  | nil => exact ⟨_, _, rfl, fun cid p hp => by cases hp⟩
  | append_singleton ops op ih =>
    have hrq : requestsOf (ops ++ [op]) = requestsOf ops ++ requestsOf [op] := by unfold requestsOf; rw [List.filterMap_append]
    rw [hrq] at hop hk
    have hop1 : ∀ q ∈ requestsOf ops, ReqOk q := fun q hq => hop q (List.mem_append_left _ hq)
    have hk1 : ∀ q ∈ requestsOf ops, Keeps env q ∧ KeepsSmall q := fun q hq => hk q (List.mem_append_left _ hq)
    obtain ⟨s, L, he, hfit⟩ := ih hop1 hk1 (fun cid p hp => ho cid p (List.mem_append_left _ hp))
    cases hs : s.step env op with
    | none =>
      obtain ⟨i, q, -, hq, hn⟩ := C116_blame hop1 he hfit hs
      exact absurd (hk1 q (List.mem_of_getElem? hq)).1 hn
    | some x =>
      obtain ⟨s', l⟩ := x
      refine ⟨s', L ++ l, Relay.run_append_sys ops [op] he ?_, puts_small hop1 he hfit hk1 (fun cid p e => ho cid p (by rw [e]; simp)) hs⟩
      simp [Sys.run, hs]



/-! ## Executions -/

theorem packets_flag (cap : Nat) (cl : Err) : ∀ (N : Nat) (s : List UInt8), (Flv.packets cap cl N s).2.2 = false → (Flv.packets cap cl N s).1.length < N →
    ∀ n, (Flv.packets cap cl n s).2.2 = false := by
  intro N
  induction N with
  | zero => intro s _ h; omega
  | succ N ih =>
    intro s h1 h2 n
    cases n with
    | zero => rfl
    | succ n =>
      unfold Flv.packets at h1 h2 ⊢
      rcases hf : Flv.firstTag cap cl s with ⟨v, r⟩
      rw [hf] at h1 h2
      cases v with
      | accept p =>
        simp only [List.length_cons] at h1 h2 ⊢
        exact ih r h1 (by omega) n
      | reject e => rfl
      | tooShort es => exact h1

theorem file_flag {cap : Nat} {cl : Err} {b : List UInt8} (N : Nat) (h : ((Flv.packets cap cl N (b.drop 9)).2.2, decide ((Flv.packets cap cl N (b.drop 9)).1.length < N)) = (false, true)) (n : Nat) :
    (Flv.file cap cl n b).2.2 = false := by
  simp only [Prod.mk.injEq, decide_eq_true_eq] at h
  unfold Flv.file
  split
  · rfl
  · split
    · rfl
    · exact packets_flag _ _ _ _ h.1 h.2 n

/-- Clients over HTTP, RTMP and SRT: publishers (one of which loses its connection) and players. -/
def clients : List Req :=
  [post, lostPost, ServeProps.get "source" "GET" "flv", RtmpServe.client "source" (.rtmp true RtmpServe.msgs Err.ERROR_IO_EOF), RtmpServe.client "source" (.rtmp false [] 0),
   SrtServe.srt "publish" SrtServe.sent, SrtServe.srt "request" []]

theorem clients_ok : ∀ q ∈ clients, ReqOk q := by
  intro q hq
  simp only [clients, List.mem_cons, List.not_mem_nil, or_false] at hq
  rcases hq with rfl | rfl | rfl | rfl | rfl | rfl | rfl
  · exact ⟨by decide +kernel, by decide +kernel, by simp [post, ServeProps.get], by simp [post, ServeProps.get]⟩
  · exact ⟨by decide +kernel, by decide +kernel, by simp [lostPost, post, ServeProps.get], by simp [lostPost, post, ServeProps.get]⟩
  · exact ⟨by decide +kernel, by decide +kernel, by simp [ServeProps.get], by simp [ServeProps.get]⟩
  · refine ⟨by decide +kernel, by decide +kernel, by simp [RtmpServe.client], ?_⟩
    simp only [RtmpServe.client]
    intro m hm b hb
    simp only [RtmpServe.msgs, List.mem_cons, List.not_mem_nil, or_false] at hm
    rcases hm with rfl | rfl | rfl | rfl <;> (cases hb; decide)
  · exact ⟨by decide +kernel, by decide +kernel, by simp [RtmpServe.client], by simp [RtmpServe.client]⟩
  · exact ⟨by decide +kernel, by decide +kernel, (by intro e he; cases he), by show _ = 188; decide +kernel⟩
  · exact ⟨by decide +kernel, by decide +kernel, (by intro e he; cases he), by show _ = 188; decide +kernel⟩

theorem clients_keep : ∀ q ∈ clients, Keeps site q ∧ KeepsSmall q := by
  intro q hq
  simp only [clients, List.mem_cons, List.not_mem_nil, or_false] at hq
  rcases hq with rfl | rfl | rfl | rfl | rfl | rfl | rfl
  · exact ⟨⟨_, _, post_sends, file_flag 4 (by decide +kernel)⟩, trivial⟩
  · exact ⟨⟨_, _, lostPost_sends, file_flag 4 (by decide +kernel)⟩, trivial⟩
  · refine ⟨?_, trivial⟩
    show ∀ f, _ → _
    intro f hf
    have : (Format.create site.outs (ServeProps.get "source" "GET" "flv").url.ext site.junk).map (·.word) = some (ascii "flv") := by decide +kernel
    rw [hf] at this
    exact Option.some.inj this
  · refine ⟨fun _ => ?_, ?_⟩
    · intro m hm
      simp only [RtmpServe.msgs, List.mem_cons, List.not_mem_nil, or_false] at hm
      rcases hm with rfl | rfl | rfl | rfl <;> decide +kernel
    · show ∀ m ∈ RtmpServe.msgs, ∀ b, m.body = some b → b.length < 2 ^ 24
      intro m hm b hb
      simp only [RtmpServe.msgs, List.mem_cons, List.not_mem_nil, or_false] at hm
      rcases hm with rfl | rfl | rfl | rfl <;> (cases hb; decide)
  · exact ⟨fun h => (by cases h), (by intro m hm; cases hm)⟩
  · have hlen : SrtServe.sent.length = 752 := by decide +kernel
    have hfeed : (List.range 5).all (fun n => match Ts.feed TsTap.handler TsCtx.create ({}, []) (Ts.chunks n SrtServe.sent) with
        | some (_, _, st, raw) => (st.queue ++ raw).all fun p => decide ((Flv.body p).length < 2 ^ 24) | none => false) = true := by decide +kernel
    have hfeed : ∀ n, 188 * n ≤ SrtServe.sent.length → (match Ts.feed TsTap.handler TsCtx.create ({}, []) (Ts.chunks n SrtServe.sent) with
        | some (_, _, st, raw) => (st.queue ++ raw).all fun p => decide ((Flv.body p).length < 2 ^ 24) | none => false) = true := fun n hn =>
      List.all_eq_true.1 hfeed n (by simp; omega)
    refine ⟨fun _ => ⟨SrtServe.sent, Err.ERROR_IO_EOF, ⟨by decide +kernel, by decide +kernel, by decide +kernel, rfl⟩, fun n hn h0 => ?_⟩, ?_⟩
    · have := hfeed n hn
      rw [h0] at this
      cases this
    · intro b cl n c st raw hb hn hf p hp
      have : b = SrtServe.sent := by
        rw [← hb.stream]; decide +kernel
      subst this
      have := hfeed n hn
      rw [hf] at this
      simpa [Small] using List.all_eq_true.1 this p hp
  · refine ⟨fun h => absurd rfl h, ?_⟩
    intro b cl n c st raw hb hn hf p hp
    have : b = [] := by
      rw [← hb.stream]; decide +kernel
    subst this
    obtain rfl : n = 0 := by simpa using hn
    cases hf
    cases hp

/-- Whatever these clients do together, in any number and order, with pulls that fail and any other clients that play, the server goes on. -/
example (ops : List Sys.Op) (h : ∀ q ∈ requestsOf ops, q ∈ clients) (ho : ∀ cid p, .other (.put cid p) ∉ ops) : ∃ s L, Sys.run site Sys.init ops = some (s, L) ∧ fitsFlv L :=
  C116_defined site ops (fun q hq => clients_ok q (h q hq)) (fun q hq => clients_keep q (h q hq)) fun cid p hp => absurd hp (ho cid p)

/-- The conditions are needed: the requests that crash the server in C75, C94 and C98 do not meet them. -/
example : ¬ Keeps site (ServeProps.get "source" "GET" "-a") ∧ ¬ Keeps site (RtmpServe.client "source" (.rtmp true [⟨8, 0, some [0xaf]⟩] Err.ERROR_IO_EOF)) := by
  refine ⟨fun h => ?_, fun h => ?_⟩
  · have : ((Format.create site.outs (ServeProps.get "source" "GET" "-a").url.ext site.junk).map (·.word)) = some (ascii "-") := by decide +kernel
    cases hf : Format.create site.outs (ServeProps.get "source" "GET" "-a").url.ext site.junk with
    | none => rw [hf] at this; cases this
    | some f =>
      have h' : ∀ f, Format.create site.outs (ServeProps.get "source" "GET" "-a").url.ext site.junk = some f → f.word = ascii "flv" := h
      rw [hf] at this
      have h2 := h' f hf
      rw [Option.map_some, h2] at this
      revert this; decide +kernel
  · exact h rfl ⟨8, 0, some [0xaf]⟩ (by simp) (by decide +kernel)

end Sps.SafeProps
