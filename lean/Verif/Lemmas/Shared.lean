import Verif.Spec.Shared
/-!
# Lemmas on packets sent from their own memory
-/
namespace Sps.Shared
open Sps.Spec.Shared FlvMuxer

theorem chunks_spec (chan : Nat) : ∀ (fuel : Nat) (mem : List UInt8) (pos left : Nat), left < fuel → pos + left ≤ mem.length →
    (Librtmp.chunks chan fuel mem pos left).1 = (mem.drop pos).take left ∧
    (Librtmp.chunks chan fuel mem pos left).2.length = mem.length ∧
    ∀ i, (Librtmp.chunks chan fuel mem pos left).2[i]? =
      if pos ≤ i ∧ i + 1 < pos + left ∧ (i + 1 - pos) % 128 = 0 then some (UInt8.ofNat (0xc0 ||| chan)) else mem[i]?
  | 0, _, _, _, h, _ => absurd h (Nat.not_lt_zero _)
  | fuel + 1, mem, pos, left, hf, hl => by
    unfold Librtmp.chunks
    by_cases hn : left - min left Librtmp.CHUNK = 0
    · simp only [if_pos hn]
      simp only [Librtmp.CHUNK] at hn ⊢
      refine ⟨by rw [show min left 128 = left by omega], trivial, fun i => ?_⟩
      rw [if_neg]
      rintro ⟨h1, h2, h3⟩
      omega
    · simp only [if_neg hn]
      simp only [Librtmp.CHUNK] at hn ⊢
      rw [show min left 128 = 128 by omega]
      obtain ⟨h1, h2, h3⟩ := chunks_spec chan fuel (mem.set (pos + 128 - 1) (UInt8.ofNat (0xc0 ||| chan))) (pos + 128) (left - 128)
        (by omega) (by simp only [List.length_set]; omega)
      refine ⟨?_, by rw [h2, List.length_set], fun i => ?_⟩
      · rw [h1]
        rw [List.drop_set_of_lt (by omega)]
        rw [show mem.drop (pos + 128) = (mem.drop pos).drop 128 by rw [List.drop_drop]]
        rw [show left = 128 + (left - 128) by omega, List.take_add]
        simp
      · rw [h3 i]
        by_cases hc : pos + 128 ≤ i ∧ i + 1 < pos + 128 + (left - 128) ∧ (i + 1 - (pos + 128)) % 128 = 0
        · rw [if_pos hc, if_pos]
          obtain ⟨a, b, c⟩ := hc
          exact ⟨by omega, by omega, by omega⟩
        · rw [if_neg hc]
          by_cases hi : i = pos + 127
          · subst hi
            rw [if_pos ⟨by omega, by omega, by omega⟩]
            rw [List.getElem?_set]
            rw [if_pos (by omega), if_pos (by omega)]
          · rw [List.getElem?_set_ne (by omega)]
            rw [if_neg]
            rintro ⟨a, b, c⟩
            apply hc
            exact ⟨by omega, by omega, by omega⟩

theorem header_length (chan ts size type : Nat) : (Librtmp.header chan ts size type).length = if ts ≥ 0xffffff then 16 else 12 := by
  unfold Librtmp.header
  by_cases h : ts ≥ 0xffffff <;> simp [h]

/-- The message of a packet. -/
theorem encode_shape (p : AVPkt) (hp : Sendable p) :
    ∃ t pre, RtmpMuxer.encode HEAD p = (Err.SUCCESS, some ⟨t, low 32 p.dts, some (pre ++ p.payload)⟩) ∧ pre.length = lead p ∧
      ∀ q : AVPkt, { q with payload := [] } = { p with payload := [] } →
        RtmpMuxer.encode HEAD q = (Err.SUCCESS, some ⟨t, low 32 p.dts, some (pre ++ q.payload)⟩) := by
  have key : ∀ q : AVPkt, { q with payload := [] } = { p with payload := [] } → q = { p with payload := q.payload } := by
    intro q h
    cases q; cases p; simp only [AVPkt.mk.injEq] at h ⊢
    simp_all
  by_cases h1 : p.isScript
  · refine ⟨18, [], by simp [RtmpMuxer.encode, h1], by simp [lead, h1], fun q hq => ?_⟩
    rw [key q hq]
    have : AVPkt.isScript { p with payload := q.payload } = true := h1
    simp [RtmpMuxer.encode, this]
  · by_cases h2 : p.isAudio
    · refine ⟨8, [UInt8.ofNat (low 8 p.flags), if p.isAudioHeader then 0 else 1],
        by simp [RtmpMuxer.encode, h1, h2, HEAD], by simp [lead, h1, h2], fun q hq => ?_⟩
      rw [key q hq]
      have e1 : ¬ AVPkt.isScript { p with payload := q.payload } = true := h1
      have e2 : AVPkt.isAudio { p with payload := q.payload } = true := h2
      have e3 : AVPkt.isAudioHeader { p with payload := q.payload } = p.isAudioHeader := rfl
      simp [RtmpMuxer.encode, e1, e2, e3, HEAD]
    · have h3 : p.isVideo := by
        rcases hp with h | h | h
        · exact absurd h h1
        · exact absurd h h2
        · exact h
      by_cases h4 : low 8 p.flags &&& 0xf0 = 0x50
      · refine ⟨9, [UInt8.ofNat (low 8 p.flags)],
          by simp [RtmpMuxer.encode, h1, h2, h3, h4, HEAD], by simp [lead, h1, h2, h3, h4], fun q hq => ?_⟩
        rw [key q hq]
        have e1 : ¬ AVPkt.isScript { p with payload := q.payload } = true := h1
        have e2 : ¬ AVPkt.isAudio { p with payload := q.payload } = true := h2
        have e3 : AVPkt.isVideo { p with payload := q.payload } = true := h3
        simp [RtmpMuxer.encode, e1, e2, e3, HEAD, h4]
      · refine ⟨9, [UInt8.ofNat (low 8 p.flags), if p.isVideoHeader then 0 else 1] ++ RtmpMuxer.ctsBytes p,
          by simp [RtmpMuxer.encode, h1, h2, h3, h4, HEAD], by unfold lead; rw [if_neg h1, if_neg h2, if_pos h3, if_neg h4]; rfl, fun q hq => ?_⟩
        rw [key q hq]
        have e1 : ¬ AVPkt.isScript { p with payload := q.payload } = true := h1
        have e2 : ¬ AVPkt.isAudio { p with payload := q.payload } = true := h2
        have e3 : AVPkt.isVideo { p with payload := q.payload } = true := h3
        have e4 : AVPkt.isVideoHeader { p with payload := q.payload } = p.isVideoHeader := rfl
        have e5 : RtmpMuxer.ctsBytes { p with payload := q.payload } = RtmpMuxer.ctsBytes p := rfl
        simp [RtmpMuxer.encode, e1, e2, e3, e4, e5, HEAD, h4]

/-- The header fits between the start of the allocation and the message. -/
def Fits (p : AVPkt) : Prop := lead p + (if low 32 p.dts ≥ 0xffffff then 16 else 12) ≤ HEAD

theorem mark_eq (p : AVPkt) : UInt8.ofNat (0xc0 ||| channel p) = if p.isVideo then 0xc6 else 0xc4 := by
  unfold channel
  by_cases h : p.isVideo <;> simp [h]

/-- A write to an RTMP player. -/
theorem write_rtmp (s : Shared) (hh : s.head = HEAD) (hl : HEAD ≤ s.mem.length) (hp : Sendable s.info) (hf : Fits s.info) :
    ∃ s', s.write false .rtmp = some (right s.pkt .rtmp, s') ∧ s'.pkt = marked s.pkt ∧ s'.head = HEAD ∧ s'.mem.length = s.mem.length ∧ s'.info = s.info := by
  obtain ⟨t, pre, e1, e2, e3⟩ := encode_shape s.info hp
  have e4 := e3 s.pkt rfl
  have hlead : pre.length ≤ 5 := by
    rw [e2]; unfold lead
    repeat' split
    all_goals omega
  unfold write
  simp only [hh, e4, Option.getD_some]
  generalize hpay : s.pkt.payload = pay
  have hpay' : pay = s.mem.drop HEAD := by rw [← hpay]; unfold pkt; rw [hh]
  have hlen : pay.length = s.mem.length - HEAD := by rw [hpay']; simp
  have hoff : HEAD + pay.length - (pre ++ pay).length = HEAD - pre.length := by
    simp only [List.length_append]; omega
  rw [hoff]
  have hH : HEAD = 20 := rfl
  unfold Librtmp.send
  rw [if_neg (by simp)]
  have hfit : (Librtmp.header (channel s.info) (low 32 s.info.dts) (pre ++ pay).length t).length ≤ HEAD - pre.length := by
    rw [header_length]
    unfold Fits at hf
    rw [← e2] at hf
    omega
  rw [if_pos hfit]
  generalize hhdr : Librtmp.header (channel s.info) (low 32 s.info.dts) (pre ++ pay).length t = hdr at hfit ⊢
  have htk : (s.mem.take (HEAD - pre.length)).length = HEAD - pre.length := by simp; omega
  generalize hA : (s.mem.take (HEAD - pre.length) ++ (pre ++ pay)).take (HEAD - pre.length - hdr.length) ++ hdr = A
  have hAl : A.length = HEAD - pre.length := by
    rw [← hA]; simp only [List.length_append, List.length_take]; omega
  have hdrop : (s.mem.take (HEAD - pre.length) ++ (pre ++ pay)).drop (HEAD - pre.length) = pre ++ pay := by
    rw [List.drop_append, htk, Nat.sub_self, List.drop_eq_nil_of_le (by omega)]; simp
  rw [hdrop]
  obtain ⟨c1, c2, c3⟩ := chunks_spec (channel s.info) ((pre ++ pay).length + 1) (A ++ (pre ++ pay)) (HEAD - pre.length) (pre ++ pay).length
    (by omega) (by simp only [List.length_append]; omega)
  generalize Librtmp.chunks (channel s.info) ((pre ++ pay).length + 1) (A ++ (pre ++ pay)) (HEAD - pre.length) (pre ++ pay).length = C at c1 c2 c3 ⊢
  obtain ⟨sent, mem'⟩ := C
  simp only at c1 c2 c3
  refine ⟨{ s with mem := mem' }, ?_, ?_, hh, ?_, rfl⟩
  · simp only [Option.map_some]
    simp only [c1]
    unfold right
    simp only [e4, hpay]
    rw [← hAl, List.drop_left, List.take_length, hh]
  · simp only [pkt, marked, hh, AVPkt.mk.injEq, true_and, and_true]
    have hl2 : ({ s.info with payload := s.mem.drop HEAD } : AVPkt).payload = s.mem.drop HEAD := rfl
    apply List.ext_getElem?
    intro i
    rw [List.getElem?_drop, c3, List.getElem?_mapIdx]
    have hld : lead ({ s.info with payload := s.mem.drop HEAD } : AVPkt) = lead s.info := rfl
    have hvd : AVPkt.isVideo ({ s.info with payload := s.mem.drop HEAD } : AVPkt) = s.info.isVideo := rfl
    rw [hld, hvd, ← hpay', ← e2, mark_eq]
    have hget : (A ++ (pre ++ pay))[HEAD + i]? = pay[i]? := by
      rw [← List.append_assoc, List.getElem?_append_right (by simp only [List.length_append]; omega)]
      congr 1
      simp only [List.length_append]; omega
    rw [hget]
    by_cases hc : (i + pre.length + 1) % 128 = 0 ∧ i + 1 < pay.length
    · rw [if_pos ⟨by omega, by simp only [List.length_append]; omega, by rw [show HEAD + i + 1 - (HEAD - pre.length) = i + pre.length + 1 by omega]; exact hc.1⟩]
      have : pay[i]? = some pay[i] := List.getElem?_eq_getElem (by omega)
      simp [this, hc]
    · rw [if_neg]
      · cases hg : pay[i]? with
        | none => rfl
        | some b => simp [hc]
      · rintro ⟨a, b, c⟩
        apply hc
        simp only [List.length_append] at b
        exact ⟨by rw [← c]; congr 1; omega, by omega⟩
  · rw [c2]; simp only [List.length_append]; omega

theorem marked_marked (p : AVPkt) : marked (marked p) = marked p := by
  unfold marked
  simp only [AVPkt.mk.injEq, true_and, and_true]
  apply List.ext_getElem?
  intro i
  simp only [List.getElem?_mapIdx, List.length_mapIdx]
  have hl : ∀ l, lead ({ p with payload := l } : AVPkt) = lead p := fun _ => rfl
  have hv : ∀ l, AVPkt.isVideo ({ p with payload := l } : AVPkt) = p.isVideo := fun _ => rfl
  simp only [hl, hv]
  cases p.payload[i]? with
  | none => rfl
  | some b => simp only [Option.map_some]; congr 1; by_cases hc : (i + lead p + 1) % 128 = 0 ∧ i + 1 < p.payload.length <;> simp [hc]

theorem writeAll_marked : ∀ (vs : List Viewer) (s : Shared), s.head = HEAD → HEAD ≤ s.mem.length → Sendable s.info → Fits s.info → marked s.pkt = s.pkt →
    ∃ s', s.writeAll false vs = some (vs.map (right s.pkt), s') ∧ s'.pkt = s.pkt
  | [], s, _, _, _, _, _ => ⟨s, rfl, rfl⟩
  | .flv :: vs, s, h1, h2, h3, h4, h5 => by
    obtain ⟨s', e, e'⟩ := writeAll_marked vs s h1 h2 h3 h4 h5
    exact ⟨s', by simp [writeAll, write, e, right], e'⟩
  | .rtmp :: vs, s, h1, h2, h3, h4, h5 => by
    obtain ⟨s1, a1, a2, a3, a4, a5⟩ := write_rtmp s h1 h2 h3 h4
    obtain ⟨s', e, e'⟩ := writeAll_marked vs s1 a3 (by omega) (a5 ▸ h3) (a5 ▸ h4) (by rw [a2, marked_marked])
    rw [a2, h5] at e e'
    exact ⟨s', by simp [writeAll, a1, e], e'⟩

theorem writeAll_spec : ∀ (vs : List Viewer) (s : Shared), s.head = HEAD → HEAD ≤ s.mem.length → Sendable s.info → Fits s.info →
    ∃ s', s.writeAll false vs = some (inFact s.pkt vs, s') ∧ s'.pkt = if .rtmp ∈ vs then marked s.pkt else s.pkt
  | [], s, _, _, _, _ => ⟨s, rfl, by simp⟩
  | .flv :: vs, s, h1, h2, h3, h4 => by
    obtain ⟨s', e, e'⟩ := writeAll_spec vs s h1 h2 h3 h4
    exact ⟨s', by simp [writeAll, write, e, right, inFact], by simp [e']⟩
  | .rtmp :: vs, s, h1, h2, h3, h4 => by
    obtain ⟨s1, a1, a2, a3, a4, a5⟩ := write_rtmp s h1 h2 h3 h4
    obtain ⟨s', e, e'⟩ := writeAll_marked vs s1 a3 (by omega) (a5 ▸ h3) (a5 ▸ h4) (by rw [a2, marked_marked])
    rw [a2] at e e'
    exact ⟨s', by simp [writeAll, a1, e, inFact], by simp [e']⟩

theorem lead_le (p : AVPkt) : lead p ≤ 5 := by
  unfold lead
  repeat' split
  all_goals omega

/-- A write to an RTMP player, with the switch. -/
theorem write_readonly (s : Shared) (hh : s.head = HEAD) (hl : HEAD ≤ s.mem.length) (hp : Sendable s.info) :
    ∃ s', s.write true .rtmp = some (right s.pkt .rtmp, s') ∧ s'.pkt = s.pkt ∧ s'.head = HEAD ∧ s'.mem.length = s.mem.length ∧ s'.info = s.info ∧
      ∀ i, i < HEAD - lead s.info ∨ HEAD ≤ i → s'.mem[i]? = s.mem[i]? := by
  obtain ⟨t, pre, e1, e2, e3⟩ := encode_shape s.info hp
  have e4 := e3 s.pkt rfl
  have hlead : pre.length ≤ 5 := by rw [e2]; exact lead_le _
  unfold write
  simp only [hh, e4, Option.getD_some]
  generalize hpay : s.pkt.payload = pay
  have hpay' : pay = s.mem.drop HEAD := by rw [← hpay]; unfold pkt; rw [hh]
  have hlen : pay.length = s.mem.length - HEAD := by rw [hpay']; simp
  have hoff : HEAD + pay.length - (pre ++ pay).length = HEAD - pre.length := by
    simp only [List.length_append]; omega
  rw [hoff]
  have hH : HEAD = 20 := rfl
  unfold Librtmp.send
  rw [if_pos rfl]
  have htk : (s.mem.take (HEAD - pre.length)).length = HEAD - pre.length := by simp; omega
  have hdrop : (s.mem.take (HEAD - pre.length) ++ (pre ++ pay)).drop (HEAD - pre.length) = pre ++ pay := by
    rw [List.drop_append, htk, Nat.sub_self, List.drop_eq_nil_of_le (by omega)]; simp
  have hdrop2 : (s.mem.take (HEAD - pre.length) ++ (pre ++ pay)).drop HEAD = pay := by
    rw [← List.append_assoc]
    exact List.drop_left' (by simp only [List.length_append, htk]; omega)
  refine ⟨{ s with mem := s.mem.take (HEAD - pre.length) ++ (pre ++ pay) }, ?_, ?_, hh, ?_, rfl, ?_⟩
  · simp only [Option.map_some, hdrop, List.take_length]
    unfold right
    simp only [e4, hpay, hh]
  · rw [hpay'] at hdrop2
    simp only [pkt, hh, hpay', hdrop2]
  · simp only [List.length_append, htk]
    omega
  · intro i hi
    show (s.mem.take (HEAD - pre.length) ++ (pre ++ pay))[i]? = _
    rw [← e2] at hi
    rcases hi with hi | hi
    · rw [List.getElem?_append_left (by rw [htk]; exact hi), List.getElem?_take, if_pos hi]
    · have h1 := congrArg (fun l => l[i - HEAD]?) hdrop2
      simp only [List.getElem?_drop] at h1
      rw [show HEAD + (i - HEAD) = i by omega] at h1
      rw [h1, hpay', List.getElem?_drop, show HEAD + (i - HEAD) = i by omega]

theorem writeAll_readonly : ∀ (vs : List Viewer) (s : Shared), s.head = HEAD → HEAD ≤ s.mem.length → Sendable s.info →
    ∃ s', s.writeAll true vs = some (vs.map (right s.pkt), s') ∧ s'.pkt = s.pkt
  | [], s, _, _, _ => ⟨s, rfl, rfl⟩
  | .flv :: vs, s, h1, h2, h3 => by
    obtain ⟨s', e, e'⟩ := writeAll_readonly vs s h1 h2 h3
    exact ⟨s', by simp [writeAll, write, e, right], e'⟩
  | .rtmp :: vs, s, h1, h2, h3 => by
    obtain ⟨s1, a1, a2, a3, a4, a5, -⟩ := write_readonly s h1 h2 h3
    obtain ⟨s', e, e'⟩ := writeAll_readonly vs s1 a3 (by omega) (a5 ▸ h3)
    rw [a2] at e e'
    exact ⟨s', by simp [writeAll, a1, e], e'⟩

end Sps.Shared

namespace Sps.Serving
open Sps.Shared Sps.Spec.Shared

/-- The memory is that of packet `p`; each player has been sent the first bytes of what is right, and once an RTMP player is served the sub-header is in its place. -/
structure Inv (p : AVPkt) (pre : List UInt8) (s : Serving) : Prop where
  head : s.pkt.head = HEAD
  info : s.pkt.info = p
  mem : ∃ h, h.length = HEAD ∧ s.pkt.mem = h ++ p.payload ∧ ((∃ g ∈ s.sends, g.viewer = .rtmp) → h.drop (HEAD - pre.length) = pre)
  flv : ∀ g ∈ s.sends, g.viewer = .flv → g.off = HEAD ∧ g.size = p.payload.length ∧ g.sent <+: p.payload
  rtmp : ∀ g ∈ s.sends, g.viewer = .rtmp → g.off = HEAD - pre.length ∧ g.size = (pre ++ p.payload).length ∧ g.sent <+: pre ++ p.payload

theorem prefix_more {l sent : List UInt8} (h : sent <+: l) (n : Nat) : sent ++ (l.drop sent.length).take n <+: l := by
  obtain ⟨r, rfl⟩ := h
  rw [List.drop_left]
  exact List.prefix_append_right_inj sent |>.2 (List.take_prefix _ _)

theorem inv_start {p : AVPkt} {pre : List UInt8} {t : Nat} (hpre : pre.length ≤ 5)
    (henc : RtmpMuxer.encode HEAD p = (Err.SUCCESS, some ⟨t, FlvMuxer.low 32 p.dts, some (pre ++ p.payload)⟩)) {s : Serving} (h : Inv p pre s) (v : Viewer) :
    Inv p pre (s.start v) := by
  obtain ⟨hh, hi, ⟨a, ha, hm, hr⟩, hf, hg⟩ := h
  have hH : HEAD = 20 := rfl
  have hpk : s.pkt.pkt = p := by
    unfold Shared.pkt
    rw [hi, hh, hm, ← ha, List.drop_left]
  cases v with
  | flv =>
    refine ⟨hh, hi, ⟨a, ha, hm, ?_⟩, ?_, ?_⟩
    · rintro ⟨g, hgm, hgv⟩
      rcases List.mem_append.1 hgm with hgm | hgm
      · exact hr ⟨g, hgm, hgv⟩
      · rw [List.mem_singleton.1 hgm] at hgv; cases hgv
    · intro g hgm hgv
      rcases List.mem_append.1 hgm with hgm | hgm
      · exact hf g hgm hgv
      · rw [List.mem_singleton.1 hgm]
        exact ⟨hh, by rw [hpk], List.nil_prefix⟩
    · intro g hgm hgv
      rcases List.mem_append.1 hgm with hgm | hgm
      · exact hg g hgm hgv
      · rw [List.mem_singleton.1 hgm] at hgv; cases hgv
  | rtmp =>
    unfold start
    simp only [hh, hpk, henc, Option.getD_some]
    have hoff : HEAD + p.payload.length - (pre ++ p.payload).length = HEAD - pre.length := by simp only [List.length_append]; omega
    rw [hoff]
    refine ⟨rfl, hi, ⟨a.take (HEAD - pre.length) ++ pre, ?_, ?_, fun _ => ?_⟩, ?_, ?_⟩
    · simp only [List.length_append, List.length_take]; omega
    · show s.pkt.mem.take _ ++ _ = _
      rw [hm, List.take_append_of_le_length (by omega), List.append_assoc]
    · exact List.drop_left' (by simp only [List.length_take]; omega)
    · intro g hgm hgv
      rcases List.mem_append.1 hgm with hgm | hgm
      · exact hf g hgm hgv
      · rw [List.mem_singleton.1 hgm] at hgv; cases hgv
    · intro g hgm hgv
      rcases List.mem_append.1 hgm with hgm | hgm
      · exact hg g hgm hgv
      · rw [List.mem_singleton.1 hgm]
        exact ⟨rfl, rfl, List.nil_prefix⟩

theorem mem_modify {α : Type} (l : List α) (i : Nat) (f : α → α) {x : α} (h : x ∈ l.modify i f) : x ∈ l ∨ ∃ y ∈ l, x = f y := by
  obtain ⟨j, hj, rfl⟩ := List.getElem_of_mem h
  rw [List.getElem_modify]
  rw [List.length_modify] at hj
  split
  · exact .inr ⟨_, List.getElem_mem hj, rfl⟩
  · exact .inl (List.getElem_mem hj)

theorem inv_more {p : AVPkt} {pre : List UInt8} (hpre : pre.length ≤ 5) {s : Serving} (h : Inv p pre s) (i n : Nat) : Inv p pre (s.more i n) := by
  obtain ⟨hh, hi, ⟨a, ha, hm, hr⟩, hf, hg⟩ := h
  have hH : HEAD = 20 := rfl
  have key : ∀ g ∈ (s.more i n).sends, ∃ g0 ∈ s.sends, g.viewer = g0.viewer ∧ g.off = g0.off ∧ g.size = g0.size ∧
      (g.sent = g0.sent ∨ ∃ k, g.sent = g0.sent ++ (s.pkt.mem.drop (g0.off + g0.sent.length)).take k) := by
    intro g hgm
    rcases mem_modify _ _ _ hgm with h | ⟨y, hy, rfl⟩
    · exact ⟨g, h, rfl, rfl, rfl, .inl rfl⟩
    · exact ⟨y, hy, rfl, rfl, rfl, .inr ⟨_, rfl⟩⟩
  refine ⟨hh, hi, ⟨a, ha, hm, ?_⟩, ?_, ?_⟩
  · rintro ⟨g, hgm, hgv⟩
    obtain ⟨g0, h1, h2, -⟩ := key g hgm
    exact hr ⟨g0, h1, by rw [← h2]; exact hgv⟩
  · intro g hgm hgv
    obtain ⟨g0, h1, h2, h3, h4, h5⟩ := key g hgm
    obtain ⟨a1, a2, a3⟩ := hf g0 h1 (by rw [← h2]; exact hgv)
    refine ⟨by rw [h3, a1], by rw [h4, a2], ?_⟩
    rcases h5 with h5 | ⟨k, h5⟩
    · rw [h5]; exact a3
    · rw [h5, a1, hm, ← List.drop_drop, ← ha, List.drop_left]
      exact prefix_more a3 k
  · intro g hgm hgv
    obtain ⟨g0, h1, h2, h3, h4, h5⟩ := key g hgm
    have hv0 : g0.viewer = .rtmp := by rw [← h2]; exact hgv
    obtain ⟨a1, a2, a3⟩ := hg g0 h1 hv0
    refine ⟨by rw [h3, a1], by rw [h4, a2], ?_⟩
    rcases h5 with h5 | ⟨k, h5⟩
    · rw [h5]; exact a3
    · have hd : (a ++ p.payload).drop (HEAD - pre.length) = pre ++ p.payload := by
        rw [List.drop_append_of_le_length (by omega), hr ⟨g0, h1, hv0⟩]
      rw [h5, a1, hm, ← List.drop_drop, hd]
      exact prefix_more a3 k

theorem inv_run {p : AVPkt} {pre : List UInt8} {t : Nat} (hpre : pre.length ≤ 5)
    (henc : RtmpMuxer.encode HEAD p = (Err.SUCCESS, some ⟨t, FlvMuxer.low 32 p.dts, some (pre ++ p.payload)⟩)) (ts : List Turn) :
    ∀ s : Serving, Inv p pre s → Inv p pre (s.run ts) := by
  induction ts with
  | nil => exact fun s h => h
  | cons x ts ih =>
    intro s h
    refine ih (s.step x) ?_
    cases x with
    | start v => exact inv_start hpre henc h v
    | more i n => exact inv_more hpre h i n

end Sps.Serving
