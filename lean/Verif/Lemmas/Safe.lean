import Verif.Lemmas.ServeInv
import Verif.Spec.Safe
/-! # When serving is defined -/
namespace Sps
open Spec HttpStream World StreamProps RProg FlvDemuxer

/-- A job that belongs to a request. -/
def JobOf (env : Site.Env) (q : Req) : Job → Prop
  | .flvPub .. => q.via = .http ∧ q.url.method = ascii "POST"
  | .waits u _ _ => q.via = .http ∧ q.url.method ≠ ascii "POST" ∧ u = q.url
  | .nullView _ => q.via = .http ∧ q.url.method ≠ ascii "POST" ∧ ∃ f, Format.create env.outs q.url.ext env.junk = some f ∧ f.word ≠ ascii "flv"
  | .rtmpPub .. => ∃ ms cl, q.via = .rtmp true ms cl
  | .srtPub .. => q.via = .srt ∧ q.url.method ≠ ascii "request"
  | _ => True

namespace Sys

theorem close_job (env : Site.Env) (q : Req) (was : Role) (ret : Err) (r : HttpRsp) (s : Sink) : JobOf env q (close env.reason was ret r s).job := by
  simp [close, JobOf]

theorem startView_job {env : Site.Env} {q : Req} (hv : q.via = .http) (hm : q.url.method ≠ ascii "POST") (w : World) (c : Nat) {f : Reg}
    (hf : Format.create env.outs q.url.ext env.junk = some f) (tag : List UInt8) (r : HttpRsp) (s : Sink) : JobOf env q (startView env w c f tag r s).2.2.job := by
  unfold startView
  split
  · split
    split
    · exact close_job ..
    · trivial
  · rename_i hw
    exact ⟨hv, hm, f, hf, hw⟩

theorem attach_fmt {outs : List Reg} {junk : Text} {ret : Err} {u : Url} {w w' : World} {c cid : Nat} {f : Reg}
    (h : StreamHandler.attach outs junk ret u w = (.joined c cid f, w')) : Format.create outs u.ext junk = some f := by
  unfold StreamHandler.attach at h
  split at h
  · cases h
  · split at h
    · cases h
    · rename_i g hg
      split at h
      · cases h; exact hg
      · cases h

theorem afterAttach_job {env : Site.Env} {q : Req} (hv : q.via = .http) (hm : q.url.method ≠ ascii "POST") (k : Key) (ret : Err) (w : World) (tag : List UInt8) (r : HttpRsp) (s : Sink) :
    JobOf env q (afterAttach env k (StreamHandler.attach env.outs env.junk ret q.url w) tag r s).2.2.job := by
  unfold afterAttach
  split
  · rename_i c cid f w' h
    exact startView_job hv hm _ _ (attach_fmt h) _ _ _
  · exact close_job ..
  · trivial

theorem rtmpAttach_job {env : Site.Env} {q : Req} (k : Key) (x : StreamHandler.Join × World) (fails : List Err) : JobOf env q (rtmpAttach k x fails).2.2.job := by
  unfold rtmpAttach bare
  split
  · split <;> trivial
  · trivial
  · trivial

/-- Everyone does what it asked for. -/
def Jobs (env : Site.Env) (rqs : List Req) (s : Sys) : Prop := ∀ (i : Nat) (k : Conn) (q : Req), s.conns[i]? = some k → rqs[i]? = some q → JobOf env q k.job

theorem Jobs.push {env : Site.Env} {rqs : List Req} {s : Sys} (h : Jobs env rqs s) (hl : s.conns.length = rqs.length) {w : World} {k : Conn} {q : Req} (hk : JobOf env q k.job) :
    Jobs env (rqs ++ [q]) ⟨w, s.conns ++ [k]⟩ := by
  intro i k' q' h1 h2
  simp only at h1
  by_cases hi : i < s.conns.length
  · rw [List.getElem?_append_left hi] at h1
    rw [List.getElem?_append_left (by omega)] at h2
    exact h i _ _ h1 h2
  · rw [List.getElem?_append_right (by omega)] at h1
    rw [List.getElem?_append_right (by omega)] at h2
    rw [hl] at h1
    by_cases h0 : i - rqs.length = 0
    · rw [h0] at h1 h2
      cases h1; cases h2
      exact hk
    · rw [List.getElem?_eq_none (by simp; omega)] at h1
      cases h1

theorem Jobs.put {env : Site.Env} {rqs : List Req} {s : Sys} (h : Jobs env rqs s) {w : World} {i : Nat} {k : Conn}
    (hk : ∀ q, rqs[i]? = some q → JobOf env q k.job) : Jobs env rqs ⟨w, s.conns.set i k⟩ := by
  intro j k' q' h1 h2
  simp only [List.getElem?_set] at h1
  split at h1
  · rename_i hij
    subst hij
    split at h1
    · cases h1; exact hk _ h2
    · cases h1
  · exact h j _ _ h1 h2

theorem Jobs.world {env : Site.Env} {rqs : List Req} {s : Sys} (h : Jobs env rqs s) (w : World) : Jobs env rqs ⟨w, s.conns⟩ := h

theorem request_jobs {env : Site.Env} {rqs : List Req} {s : Sys} (h : Jobs env rqs s) (hl : s.conns.length = rqs.length) (q : Req) :
    Jobs env (rqs ++ [q]) (s.request env q).1 := by
  unfold request
  split
  · rename_i hv
    unfold httpRequest
    simp only
    split
    · rename_i hm
      split
      · refine h.push hl ?_
        simp only
        split
        · exact ⟨hv, hm⟩
        · trivial
      · exact h.push hl (close_job ..)
    · rename_i hm
      unfold StreamHandler.play
      split
      · rename_i w hp
        exact h.push hl ⟨hv, hm, rfl⟩
      · rename_i x hx
        refine h.push hl ?_
        split
        · rename_i hc
          exact absurd (by rw [if_pos hc]) (fun e => hx _ e)
        · exact afterAttach_job (env := env) hv hm (StreamHandler.key q.url) Err.SUCCESS s.w q.tag rsp0 { out := [], fails := q.fails }
  · rename_i pub ms cl hv
    unfold rtmpRequest
    simp only
    split
    · rename_i hp
      subst hp
      split
      · refine h.push hl ?_
        unfold bare
        simp only
        split
        · exact ⟨ms, cl, hv⟩
        · trivial
      · exact h.push hl trivial
    · split
      · exact h.push hl trivial
      · refine h.push hl ?_
        exact rtmpAttach_job (env := env) (q := q) (StreamHandler.key q.url) (StreamHandler.play env.outs env.junk q.host q.url s.w) q.fails
  · rename_i hv
    unfold srtRequest
    simp only
    split
    · split <;> exact h.push hl trivial
    · rename_i hm
      split
      · exact h.push hl ⟨hv, hm⟩
      · exact h.push hl trivial

theorem wake_jobs {env : Site.Env} {rqs : List Req} {s : Sys} (h : Jobs env rqs s) (i : Nat) (ret : Err) : Jobs env rqs (s.wake env i ret).1 := by
  unfold wake
  split
  · rename_i u tag own r snk hi
    refine h.put fun q hq => ?_
    obtain ⟨hv, hm, rfl⟩ := h i _ q hi hq
    exact afterAttach_job (env := env) hv hm (StreamHandler.key q.url) ret _ tag r snk
  · rename_i u fails own _ _ hi
    refine h.put fun q hq => ?_
    exact rtmpAttach_job (env := env) (q := q) (StreamHandler.key u) (StreamHandler.attach env.outs env.junk ret u _) fails
  · exact h

theorem run_jobs {env : Site.Env} {rqs : List Req} {s s' : Sys} {l : Log} (h : Jobs env rqs s) (i : Nat) (he : s.step env (.run i) = some (s', l)) : Jobs env rqs s' := by
  simp only [Sys.step] at he
  split at he
  · rename_i cid rd hd r snk hi
    have hjob : ∀ q, rqs[i]? = some q → q.via = .http ∧ q.url.method = ascii "POST" := fun q hq => h i _ q hi hq
    have hend : ∀ e, Jobs env rqs (s.endPub env i cid e r snk).1 := fun e => h.put fun q _ => close_job ..
    unfold runPub at he
    split at he
    · cases hr : readPacket.runOn rd with
      | none => rw [hr] at he; cases he
      | some x =>
        obtain ⟨⟨e, o⟩, rd'⟩ := x
        rw [hr] at he
        cases o with
        | none => simp only [Option.map_some, Option.some.injEq] at he; have := hend e; rw [he] at this; exact this
        | some p => cases he; exact h.put fun q hq => hjob q hq
    · cases hr : readHeader.runOn rd with
      | none => rw [hr] at he; cases he
      | some x =>
        obtain ⟨⟨e, o⟩, rd'⟩ := x
        rw [hr] at he
        cases o with
        | none => simp only [Option.map_some, Option.some.injEq] at he; have := hend e; rw [he] at this; exact this
        | some p => cases he; exact h.put fun q hq => hjob q hq
  · rename_i c mux r snk hi
    unfold runView at he
    split at he
    · cases he; exact h.put fun q _ => close_job ..
    · simp only [Option.map_eq_some_iff] at he
      obtain ⟨⟨e, mux', r', snk'⟩, -, he⟩ := he
      simp only at he
      split at he
      · cases he; exact h.put fun q _ => close_job ..
      · cases he; exact h.put fun q _ => trivial
    · cases he; exact h
  · rename_i c r snk hi
    unfold runNull at he
    split at he
    · cases he; exact h.put fun q _ => close_job ..
    · split at he
      · cases he
      · cases he; exact h
    · cases he; exact h
  · rename_i cid ms cl _ _ hi
    have hjob : ∀ q, rqs[i]? = some q → ∃ ms cl, q.via = .rtmp true ms cl := fun q hq => h i _ q hi hq
    unfold runRtmpPub at he
    simp only [Option.map_eq_some_iff] at he
    obtain ⟨⟨⟨e, o⟩, ms'⟩, -, he⟩ := he
    cases o with
    | none => cases he; exact h.put fun q _ => trivial
    | some p => cases he; exact h.put fun q hq => hjob q hq
  · rename_i c snk _ _ hi
    unfold runRtmpView at he
    split at he
    · cases he; exact h.put fun q _ => trivial
    · split at he
      simp only [Option.some.injEq] at he
      split at he
      · cases he; exact h.put fun q _ => trivial
      · cases he; exact h.put fun q _ => trivial
    · cases he; exact h
  · rename_i cid rd ctx st r snk hi
    have hjob : ∀ q, rqs[i]? = some q → q.via = .srt ∧ q.url.method ≠ ascii "request" := fun q hq => h i _ q hi hq
    unfold runSrtPub at he
    split at he
    · cases he; exact h.put fun q hq => hjob q hq
    · simp only [Option.bind_eq_some_iff] at he
      obtain ⟨⟨e, rd'⟩, -, he⟩ := he
      simp only at he
      split at he
      · cases he; exact h.put fun q _ => trivial
      · simp only [Option.bind_eq_some_iff, Option.map_eq_some_iff] at he
        obtain ⟨⟨d, rd2⟩, -, ⟨e2, ctx2, st2, raw⟩, -, he⟩ := he
        simp only at he
        split at he
        · cases he; exact h.put fun q _ => trivial
        · cases he; exact h.put fun q hq => hjob q hq
  · rename_i c r snk hi
    simp only [Option.some.injEq] at he
    unfold runSrtView at he
    split at he
    · cases he; exact h.put fun q _ => trivial
    · split at he
      split at he
      · cases he; exact h.put fun q _ => trivial
      · cases he; exact h.put fun q _ => trivial
    · cases he; exact h
  · cases he; exact h

theorem step_jobs {env : Site.Env} {rqs : List Req} {s s' : Sys} {l : Log} (h : Jobs env rqs s) (hl : s.conns.length = rqs.length) (op : Op) (he : s.step env op = some (s', l)) :
    Jobs env (rqs ++ requestsOf [op]) s' := by
  cases op with
  | other o =>
    simp only [requestsOf, List.filterMap_cons, List.filterMap_nil, List.append_nil]
    simp only [Sys.step] at he
    split at he <;> (cases he; exact h)
  | request q =>
    simp only [Sys.step, Option.some.injEq] at he
    have := request_jobs h hl q
    rw [he] at this
    exact this
  | wake i ret =>
    simp only [requestsOf, List.filterMap_cons, List.filterMap_nil, List.append_nil]
    simp only [Sys.step, Option.some.injEq] at he
    have := wake_jobs h i ret
    rw [he] at this
    exact this
  | run i =>
    simp only [requestsOf, List.filterMap_cons, List.filterMap_nil, List.append_nil]
    exact run_jobs h i he

theorem Jobs.all {env : Site.Env} (ops : List Op) : ∀ {rqs : List Req} {L : Log} {s : Sys}, SInv env rqs L s → (∀ q ∈ rqs, ReqOk q) →
    (∀ q ∈ requestsOf ops, ReqOk q) → Jobs env rqs s → ∀ {s' : Sys} {l : Log}, Sys.run env s ops = some (s', l) → fitsFlv (L ++ l) →
    Jobs env (rqs ++ requestsOf ops) s' := by
  induction ops with
  | nil =>
    intro rqs L s _ _ _ h s' l he _
    cases he
    simpa [requestsOf] using h
  | cons op ops ih =>
    intro rqs L s h hqs hop hj s' l he hfit
    simp only [Sys.run, Option.bind_eq_bind, Option.bind_eq_some_iff] at he
    obtain ⟨⟨s1, l1⟩, hs, ⟨s2, l2⟩, hr, he⟩ := he
    cases he
    rw [requestsOf_cons] at hop ⊢
    have hfit1 : fitsFlv (L ++ l1) := by
      intro cid p hp
      apply hfit cid p
      rw [← List.append_assoc, publishedTo_append]
      exact List.mem_append_left _ hp
    have h1 := step_inv h hqs op (fun q hq => hop q (List.mem_append_left _ hq)) hs hfit1
    have j1 := step_jobs hj h.len op hs
    have h2 := ih h1 (by
        intro q hq
        rcases List.mem_append.1 hq with hq | hq
        · exact hqs q hq
        · exact hop q (List.mem_append_left _ hq))
      (fun q hq => hop q (List.mem_append_right _ hq)) j1 hr (by rw [List.append_assoc]; exact hfit)
    simpa [List.append_assoc] using h2

theorem jobs_init {env : Site.Env} {ops : List Op} (hop : ∀ q ∈ requestsOf ops, ReqOk q) {s : Sys} {L : Log}
    (he : Sys.run env Sys.init ops = some (s, L)) (hfit : fitsFlv L) : Jobs env (requestsOf ops) s := by
  have := Jobs.all ops (SInv.init env) (by simp) hop (by simp [Jobs, Sys.init]) he (by simpa using hfit)
  simpa using this

/-! ## Publishers over HTTP -/

theorem Progress.header_defined {q : Req} (hm : 15 ≤ q.mem.length) {b : List UInt8} {cl : Err} {rd : SReader HttpSrc} {ps : List AVPkt} (h : Progress q b cl rd false ps) :
    (readHeader.runOn rd).isSome := by
  obtain ⟨hcl, R, pend, hR, hH, h⟩ := h
  have hh := on_readHeader hcl hm pend
  have S := sim_source hR q.mem.length
  split at hh
  · obtain ⟨r', a1, -⟩ := S.sim _ hH hh
    have a1 : readHeader.runOn rd = _ := a1
    rw [a1]; rfl
  · split at hh
    · obtain ⟨r', a1, -⟩ := S.sim _ hH hh
      have a1 : readHeader.runOn rd = _ := a1
      rw [a1]; rfl
    · obtain ⟨r', a1, -⟩ := S.sim _ hH hh
      have a1 : readHeader.runOn rd = _ := a1
      rw [a1]; rfl

theorem Progress.packet_defined {q : Req} (hm : 15 ≤ q.mem.length) {b : List UInt8} {cl : Err} {rd : SReader HttpSrc} {ps : List AVPkt} (h : Progress q b cl rd true ps)
    (hk : ∀ n, (Flv.file q.mem.length cl n b).2.2 = false) : (readPacket.runOn rd).isSome := by
  obtain ⟨hcl, R, pend, hR, hH, h⟩ := h
  simp only [if_true] at h
  obtain ⟨h5, h6⟩ := h
  have hk := hk (ps.length + 1)
  unfold Flv.file at hk
  rw [if_neg (by have := h5.1; omega), if_neg (by simp [h5.2]), h6 1] at hk
  have hp := readPacket_sim (sim_source hR q.mem.length) hH hcl hm
  simp only [Flv.packets] at hk
  revert hp hk
  generalize Flv.firstTag q.mem.length cl pend = x
  obtain ⟨v, rest⟩ := x
  cases v with
  | reject e =>
    rintro - ⟨r', a1⟩
    have a1 : readPacket.runOn rd = _ := a1
    rw [a1]; rfl
  | tooShort es => intro hk; simp at hk
  | accept p =>
    rintro - ⟨r', a1, -⟩
    have a1 : readPacket.runOn rd = _ := a1
    rw [a1]; rfl

/-- The body of a packet made from a tag is the tag's. -/
theorem judge_size {ty ts : Nat} {b : List UInt8} {p : AVPkt} (h : Flv.judge ty ts b = .accept p) : (Flv.body p).length ≤ b.length := by
  unfold Flv.judge at h
  split at h
  · split at h
    · cases h
    · split at h
      · cases h
      · split at h
        · cases h
        · cases h
        · cases h
          simp [Flv.body, beBytes]
  · split at h
    · split at h
      · cases h
      · split at h
        · cases h
        · split at h
          · rename_i f _ _ hcm
            split at h
            · cases h
            · cases h
              have hb : Flv.bits 8 (f.toNat : Int) = f.toNat := by
                have := f.toNat_lt
                unfold Flv.bits; omega
              simp [Flv.body, hb, hcm, beBytes]
          · split at h
            · split at h
              · cases h
              · cases h
                unfold Flv.body
                simp only
                split <;> simp [beBytes]
            · cases h
    · split at h
      · split at h
        · cases h
        · cases h
          simp [Flv.body]
      · cases h

theorem firstTag_small {cap : Nat} {cl : Err} {s rest : List UInt8} {p : AVPkt} (h : Flv.firstTag cap cl s = (.accept p, rest)) : Small p := by
  unfold Flv.firstTag at h
  split at h
  · cases h
  · simp only at h
    split at h
    · cases h
    · split at h
      · cases h
      · have h1 := judge_size (Prod.mk.inj h).1
        have h2 : beVal ((s.drop 5).take 3) < 2 ^ 24 := by
          have := beVal_lt ((s.drop 5).take 3)
          have h3 : ((s.drop 5).take 3).length ≤ 3 := by simp
          exact Nat.lt_of_lt_of_le this (Nat.le_trans (Nat.pow_le_pow_right (n := 256) (by decide) h3) (by decide))
        simp only [List.length_take] at h1
        unfold Small
        omega

theorem Progress.packet_small {q : Req} (hm : 15 ≤ q.mem.length) {b : List UInt8} {cl : Err} {rd rd' : SReader HttpSrc} {ps : List AVPkt} {e : Err} {p : AVPkt}
    (h : Progress q b cl rd true ps) (hr : readPacket.runOn rd = some ((e, some p), rd')) : Small p := by
  obtain ⟨hcl, R, pend, hR, hH, -⟩ := h
  have hp := readPacket_sim (sim_source hR q.mem.length) hH hcl hm
  have hs := fun p rest => firstTag_small (cap := q.mem.length) (cl := cl) (s := pend) (p := p) (rest := rest)
  revert hp hs
  generalize Flv.firstTag q.mem.length cl pend = x
  obtain ⟨v, rest⟩ := x
  cases v with
  | reject e =>
    rintro ⟨r', a1⟩ -
    have a1 : readPacket.runOn rd = _ := a1
    rw [a1] at hr; simp at hr
  | tooShort es =>
    rintro (a1 | ⟨e, r', a1, -⟩) - <;>
    · have a1 : readPacket.runOn rd = _ := a1
      rw [a1] at hr; simp at hr
  | accept p' =>
    rintro ⟨r', a1, -⟩ hs
    have a1 : readPacket.runOn rd = _ := a1
    rw [a1] at hr
    cases hr
    exact hs _ _ rfl

/-! ## Publishers over RTMP -/

theorem first_defined (closed : Err) (ms : List RtmpMsg) (h : ∀ m ∈ ms, Rtmp.judge m ≠ .tooShort) : (Rtmp.first closed ms).isSome := by
  induction ms with
  | nil => rfl
  | cons m ms ih =>
    unfold Rtmp.first
    split
    · exact ih fun m' hm => h m' (by simp [hm])
    · rfl
    · rfl
    · rename_i hj
      exact absurd hj (h m (by simp))

theorem first_mem (closed : Err) (ms : List RtmpMsg) {e : Err} {p : AVPkt} {rest : List RtmpMsg} (h : Rtmp.first closed ms = some ((e, some p), rest)) :
    ∃ m ∈ ms, Rtmp.judge m = .accept p := by
  induction ms with
  | nil => cases h
  | cons m ms ih =>
    unfold Rtmp.first at h
    split at h
    · obtain ⟨m', h1, h2⟩ := ih h
      exact ⟨m', by simp [h1], h2⟩
    · rename_i p' hj
      cases h
      exact ⟨m, by simp, hj⟩
    · cases h
    · cases h

theorem rtmp_size {m : RtmpMsg} {p : AVPkt} (h : Rtmp.judge m = .accept p) : ∃ b, m.body = some b ∧ (Flv.body p).length ≤ b.length := by
  unfold Rtmp.judge at h
  split at h
  · cases h
  · rename_i b hb
    refine ⟨b, hb, ?_⟩
    split at h
    · split at h
      · cases h
      · split at h
        · cases h
        · split at h
          · rename_i f _ _ hcm
            cases h
            have hb : Flv.bits 8 (f.toNat : Int) = f.toNat := by
              have := f.toNat_lt
              unfold Flv.bits; omega
            simp [Flv.body, hb, hcm, beBytes]
          · split at h
            · cases h
              unfold Flv.body
              simp only
              split <;> simp [beBytes]
            · cases h
    · split at h
      · split at h
        · cases h
        · split at h
          · cases h
          · split at h
            · cases h
            · cases h
              simp [Flv.body, beBytes]
      · split at h
        · cases h
          simp [Flv.body]
        · cases h

/-! ## Publishers over SRT -/

theorem srt_defined {s : Sys} {i cid : Nat} {rd : Reader} {ctx : TsCtx} {st : TsCodec} {r : HttpRsp} {snk : Sink} {b : List UInt8} {cl : Err} {n : Nat} {ps raw : List AVPkt}
    (hcl : cl ≠ Err.SUCCESS) (ha : TsDemuxer.AtTs rd cl (b.drop (188 * n))) (hf : SrtFed b n ctx st ps raw)
    (hk : ∀ n, 188 * n ≤ b.length → Ts.feed TsTap.handler TsCtx.create ({}, []) (Ts.chunks n b) ≠ none) : (s.runSrtPub i cid rd ctx st r snk).isSome := by
  unfold runSrtPub
  cases st.pop with
  | some x => rfl
  | none =>
    obtain ⟨e, rd1, hac, h7⟩ := ha.acquire
    simp only [hac, Option.bind_some]
    rcases h7 with ⟨_, rfl⟩ | ⟨h7, rfl, ⟨x, hx⟩, -⟩
    · rw [if_pos hcl]; rfl
    · rw [if_neg (by simp), hx]
      simp only [Option.bind_some, Option.isSome_map]
      rw [List.length_drop] at h7
      rw [TsDemuxer.decodeAll_one _ _ _ _ (by simp; omega)]
      have hk := hk (n + 1) (by omega)
      rw [TsCtx.chunks_succ, TsCtx.feed_then _ _ _ _ _ hf.2] at hk
      have hi := (TsTap.image_before ps raw).decode ctx (st, []) ((b.drop (188 * n)).take 188)
      simp only [List.append_nil] at hi
      cases hd : TsCtx.decode TsTap.handler ctx (st, []) ((b.drop (188 * n)).take 188) with
      | some x => rfl
      | none =>
        rw [hd] at hi
        simp only [Ts.feed, hi] at hk
        exact absurd rfl hk

end Sys
end Sps
