import Verif.Lemmas.Shared
/-!
# C81, C82: one packet, many players

The packet of a publisher is one object in memory that all its players are served from (the caches hand out references, C12, C13). C81: a player gets the packet
as it was published, whoever was served before. C82: sending changes nothing of the packet but the bytes kept free
before the payload. Both rest on the switch `m_pktReadonly` of the librtmp fork; what the code would do without it is at the end.
-/
namespace Sps.Shared
open Sps.Spec.Shared FlvMuxer

/-! ## Examples -/

/-- A key frame of `n` bytes at time `t`. -/
def frame (t : Int) (n : Nat) : AVPkt :=
  { stream := .video, pktType := 1, payload := List.replicate n 1, dts := t, pts := t, flags := 0x17, codec := 7 }

/-- The head area of a new packet. -/
def junk : List UInt8 := List.replicate HEAD 0

theorem create_pkt (p : AVPkt) (j : List UInt8) : (create p j).pkt = p := by unfold create pkt; simp

theorem encode_none {p : AVPkt} (h : ¬ Sendable p) : RtmpMuxer.encode HEAD p = (Err.SUCCESS, none) := by
  unfold Sendable at h
  unfold RtmpMuxer.encode
  simp only [not_or, Bool.not_eq_true] at h
  simp [h.1, h.2.1, h.2.2]

/-- A packet without a message: only HTTP-FLV players are served. -/
theorem plain_run {p : AVPkt} {j : List UInt8} (hj : j.length = HEAD) (hp : ¬ Sendable p) (ts : List Serving.Turn) : ∀ (s : Serving), s.pkt = create p j →
    (∀ g ∈ s.sends, g.viewer = .flv ∧ g.off = HEAD ∧ g.size = p.payload.length ∧ g.sent <+: p.payload) →
    (s.run ts).pkt = create p j ∧ ∀ g ∈ (s.run ts).sends, g.viewer = .flv ∧ g.off = HEAD ∧ g.size = p.payload.length ∧ g.sent <+: p.payload := by
  have hn := encode_none hp
  induction ts with
  | nil => exact fun s h1 h2 => ⟨h1, h2⟩
  | cons x ts ih =>
    intro s h1 h2
    refine ih (s.step x) ?_ ?_
    · cases x with
      | start v =>
        cases v
        · simp only [Serving.step, Serving.start, h1, create_pkt]
          rw [show (create p j).head = HEAD from hj, hn]
          exact h1
        · exact h1
      | more i n => exact h1
    · cases x with
      | start v =>
        cases v
        · simp only [Serving.step, Serving.start, h1, create_pkt]
          rw [show (create p j).head = HEAD from hj, hn]
          exact h2
        · intro g hg
          rcases List.mem_append.1 hg with hg | hg
          · exact h2 g hg
          · rw [List.mem_singleton.1 hg]
            exact ⟨rfl, by rw [h1]; exact hj, by rw [h1, create_pkt], List.nil_prefix⟩
      | more i n =>
        intro g hg
        rcases Serving.mem_modify _ _ _ hg with h | ⟨y, hy, rfl⟩
        · exact h2 g h
        · obtain ⟨b1, b2, b3, b4⟩ := h2 y hy
          refine ⟨b1, b2, b3, ?_⟩
          show y.sent ++ (s.pkt.mem.drop (y.off + y.sent.length)).take _ <+: _
          rw [h1, b2, show (create p j).mem = j ++ p.payload from rfl, ← List.drop_drop, ← hj, List.drop_left]
          exact Serving.prefix_more b4 _

/-! ## C81 -/

/-- **C81**, one after another: a packet reaches every player as it was published, for every packet and every sequence of RTMP and HTTP-FLV players. -/
theorem C81_sequence (p : AVPkt) (j : List UInt8) (hj : j.length = HEAD) (vs : List Viewer) :
    ∃ s', (create p j).writeAll Librtmp.READONLY vs = some (vs.map (right p), s') ∧ s'.pkt = p := by
  by_cases hp : Sendable p
  · obtain ⟨s', e, e'⟩ := writeAll_readonly vs (create p j) hj (by simp [create, hj]) hp
    rw [create_pkt] at e e'
    exact ⟨s', e, e'⟩
  · refine ⟨create p j, ?_, create_pkt p j⟩
    have hn := encode_none hp
    have hh : (create p j).head = HEAD := hj
    induction vs with
    | nil => rfl
    | cons v vs ih =>
      cases v <;> simp [writeAll, write, right, ih, create_pkt, hh, hn]

/-- **C81**, at the same time: players come, and their sockets take more bytes, in any order and in pieces of any size. At every moment each player was sent the first bytes of
what it should get; it is going to get as many as it should; and the packet in memory is the one that was published. -/
theorem C81_interleaved (p : AVPkt) (j : List UInt8) (hj : j.length = HEAD) (ts : List Serving.Turn) {s : Serving} (hs : Serving.run ⟨create p j, []⟩ ts = s) :
    (∀ g ∈ s.sends, g.sent <+: bytes (right p g.viewer) ∧ g.size = (bytes (right p g.viewer)).length) ∧ s.pkt.pkt = p := by
  subst hs
  have hH : HEAD = 20 := rfl
  have hmem0 : ∃ h : List UInt8, h.length = HEAD ∧ (create p j).mem = h ++ p.payload := ⟨j, hj, rfl⟩
  by_cases hp : Sendable p
  · obtain ⟨t, pre, e1, e2, -⟩ := encode_shape p hp
    have hpre : pre.length ≤ 5 := by rw [e2]; exact lead_le p
    have h0 : Serving.Inv p pre ⟨create p j, []⟩ := ⟨hj, rfl, ⟨j, hj, rfl, by rintro ⟨g, h, _⟩; simp at h⟩, by simp, by simp⟩
    obtain ⟨h1, h2, ⟨a, a1, a2, -⟩, h4, h5⟩ := Serving.inv_run hpre e1 ts _ h0
    constructor
    · intro g hg
      cases hv : g.viewer with
      | flv =>
        obtain ⟨-, b, c⟩ := h4 g hg hv
        exact ⟨c, b⟩
      | rtmp =>
        obtain ⟨-, b, c⟩ := h5 g hg hv
        simp only [right, e1, bytes, Option.getD_some]
        exact ⟨c, b⟩
    · unfold Shared.pkt
      rw [h2, h1, a2, ← a1, List.drop_left]
  · obtain ⟨k1, k2⟩ := plain_run hj hp ts ⟨create p j, []⟩ rfl (by simp)
    refine ⟨fun g hg => ?_, by rw [k1, create_pkt]⟩
    obtain ⟨b1, -, b3, b4⟩ := k2 g hg
    rw [b1]
    exact ⟨b4, b3⟩

/-- **C81**, progress: whatever other players do, a socket that takes `n` more bytes gets them, until the player has them all. -/
theorem C81_progress (p : AVPkt) (j : List UInt8) (hj : j.length = HEAD) (ts : List Serving.Turn) {s : Serving} (hs : Serving.run ⟨create p j, []⟩ ts = s)
    {i : Nat} {g : Sending} (hg : s.sends[i]? = some g) (n : Nat) :
    ∃ g', (s.more i n).sends[i]? = some g' ∧ g'.viewer = g.viewer ∧ g'.sent.length = min (g.sent.length + n) (bytes (right p g.viewer)).length := by
  obtain ⟨h1, h2⟩ := C81_interleaved p j hj ts hs
  have hgm : g ∈ s.sends := List.mem_of_getElem? hg
  obtain ⟨h3, h4⟩ := h1 g hgm
  have hget : ∀ n, (s.more i n).sends[i]? =
      some { g with sent := g.sent ++ (s.pkt.mem.drop (g.off + g.sent.length)).take (min n (g.size - g.sent.length)) } := by
    intro n
    unfold Serving.more
    simp [List.getElem?_modify, hg]
  refine ⟨_, hget n, rfl, ?_⟩
  have hle := h3.length_le
  -- the memory reaches to the end of the message
  have hfit : g.off + g.size ≤ s.pkt.mem.length ∨ g.size = g.sent.length := by
    by_cases hp : Sendable p
    · obtain ⟨t, pre, e1, e2, -⟩ := encode_shape p hp
      have hpre : pre.length ≤ 5 := by rw [e2]; exact lead_le p
      have h0 : Serving.Inv p pre ⟨create p j, []⟩ := ⟨hj, rfl, ⟨j, hj, rfl, by rintro ⟨g, h, _⟩; simp at h⟩, by simp, by simp⟩
      obtain ⟨-, -, ⟨a, a1, a2, -⟩, h4', h5'⟩ := hs ▸ Serving.inv_run hpre e1 ts _ h0
      have hH : HEAD = 20 := rfl
      left
      rw [a2, List.length_append, a1]
      cases hv : g.viewer with
      | flv => obtain ⟨c1, c2, -⟩ := h4' g hgm hv; rw [c1, c2]; exact Nat.le_refl _
      | rtmp =>
        obtain ⟨c1, c2, -⟩ := h5' g hgm hv
        rw [c1, c2, List.length_append]
        omega
    · obtain ⟨k1, k2⟩ := hs ▸ plain_run hj hp ts ⟨create p j, []⟩ rfl (by simp)
      obtain ⟨-, b2, b3, -⟩ := k2 g hgm
      left
      rw [k1, b2, b3]
      simp [create, hj]
  simp only [List.length_append, List.length_take, List.length_drop]
  rcases hfit with h | h <;> omega


-- A key frame of 300 bytes, sent to an RTMP and an HTTP-FLV player in turns while another RTMP player comes.
example : junk.length = HEAD ∧ Sendable (frame 40 300) ∧
    ((create (frame 40 300) junk).writeAll Librtmp.READONLY [.flv, .rtmp, .flv, .rtmp]).map (·.1) =
      some ([Viewer.flv, .rtmp, .flv, .rtmp].map (right (frame 40 300))) ∧
    ((Serving.run ⟨create (frame 40 300) junk, []⟩ [.start .rtmp, .start .flv, .more 0 128, .more 1 250, .start .rtmp, .more 0 128, .more 1 250, .more 0 128]).sends.map
      fun g => (g.viewer, g.sent.length, decide (g.sent = (bytes (right (frame 40 300) g.viewer)).take g.sent.length))) =
      [(.rtmp, 305, true), (.flv, 300, true), (.rtmp, 0, true)] := by
  decide +kernel

/-! ## C82 -/

/-- **C82**: writing a packet to a player, over RTMP or HTTP-FLV, stays within the memory of the packet, and changes nothing there but (for RTMP) the bytes right before the payload that its
sub-header takes, at most five of the twenty that are kept free. -/
theorem C82_inside (p : AVPkt) (j : List UInt8) (hj : j.length = HEAD) (v : Viewer) :
    ∃ g s', (create p j).write Librtmp.READONLY v = some (g, s') ∧ s'.mem.length = (create p j).mem.length ∧
      (∀ i, i < HEAD - lead p ∨ HEAD ≤ i → s'.mem[i]? = (create p j).mem[i]?) ∧ lead p ≤ 5 := by
  cases v with
  | flv => exact ⟨_, _, rfl, rfl, fun _ _ => rfl, lead_le p⟩
  | rtmp =>
    by_cases hp : Sendable p
    · obtain ⟨s', e, -, -, e1, -, e2⟩ := write_readonly (create p j) hj (by simp [create, hj]) hp
      exact ⟨_, s', e, e1, e2, lead_le p⟩
    · refine ⟨.nothing Err.SUCCESS, create p j, ?_, rfl, fun _ _ => rfl, lead_le p⟩
      simp [write, create_pkt, show (create p j).head = HEAD from hj, encode_none hp]

-- The frame at 5 h: 15 bytes of the head area stay as they were.
example : Sendable (frame 18000000 10) ∧ 0xffffff ≤ low 32 (frame 18000000 10).dts ∧
    ((create (frame 18000000 10) junk).write Librtmp.READONLY .rtmp).map (fun x => x.2.mem) =
      some (List.replicate 15 0 ++ [0x17, 1, 0, 0, 0] ++ List.replicate 10 1) := by
  decide +kernel

/-! ## Without the switch

What the code would do with a librtmp that does not have the switch, as the comment in `sps_avformat_rtmpenc.cpp:53` says. -/

/-- Without the switch: the players served before and including the first RTMP player get the packet as it was published, whatever its size; and what all later
players get is the packet with the last byte of every full chunk of its message replaced by a chunk header (`marked`), no matter how many RTMP
players there were. -/
theorem C81_without_switch (p : AVPkt) (j : List UInt8) (hj : j.length = HEAD) (hp : Sendable p) (ht : low 32 p.dts < 0xffffff) (vs : List Viewer) :
    ∃ s', (create p j).writeAll false vs = some (inFact p vs, s') ∧ s'.pkt = if .rtmp ∈ vs then marked p else p := by
  have hk := create_pkt p j
  have hf : Fits p := by
    unfold Fits
    rw [if_neg (by omega)]
    have : lead p ≤ 5 := by
      unfold lead
      repeat' split
      all_goals omega
    unfold HEAD
    omega
  obtain ⟨s', e, e'⟩ := writeAll_spec vs (create p j) hj (by simp [create, hj]) hp hf
  rw [hk] at e e'
  exact ⟨s', e, e'⟩

/-- Without the switch C81 would be false of every packet whose message is larger than one chunk, unless the byte at the end of the first chunk happens to be a chunk header:
after one RTMP player, an HTTP-FLV player is sent another payload. -/
theorem C81_without_switch_large (p : AVPkt) (j : List UInt8) (hj : j.length = HEAD) (hp : Sendable p) (ht : low 32 p.dts < 0xffffff)
    (b : UInt8) (hb : p.payload[127 - lead p]? = some b) (hs : lead p + p.payload.length > 128) (hne : b ≠ (if p.isVideo then 0xc6 else 0xc4)) :
    ∃ q s', (create p j).writeAll false [.rtmp, .flv] = some ([right p .rtmp, .tag q], s') ∧ q.payload ≠ p.payload := by
  obtain ⟨s', e, -⟩ := C81_without_switch p j hj hp ht [.rtmp, .flv]
  refine ⟨marked p, s', e, fun h => ?_⟩
  have h1 : (marked p).payload[127 - lead p]? = some b := by rw [h, hb]
  have hl : lead p ≤ 5 := by
    unfold lead
    repeat' split
    all_goals omega
  simp only [marked, List.getElem?_mapIdx, hb, Option.map_some, Option.some.injEq] at h1
  rw [if_pos ⟨by omega, by omega⟩] at h1
  exact hne h1.symm

-- A key frame of 300 bytes does not: it has a chunk header at 122 and 250 after the first RTMP player.
example : Sendable (frame 40 300) ∧ low 32 (frame 40 300).dts < 0xffffff ∧ lead (frame 40 300) + (frame 40 300).payload.length > 128 ∧
    (frame 40 300).payload[127 - lead (frame 40 300)]? = some 1 ∧
    ((create (frame 40 300) junk).writeAll false [.flv, .rtmp, .flv]).map (·.1) =
      some [.tag (frame 40 300), right (frame 40 300) .rtmp,
        .tag { frame 40 300 with payload := List.replicate 122 1 ++ [0xc6] ++ List.replicate 127 1 ++ [0xc6] ++ List.replicate 49 1 }] := by
  decide +kernel

/-- Without the switch: the header librtmp puts before the message stays within the packet exactly if the time of the packet is below `0xffffff` milliseconds, or it is not
a video frame (a script, audio, or a video command). -/
theorem C82_without_switch (p : AVPkt) (j : List UInt8) (hj : j.length = HEAD) (hp : Sendable p) :
    (∃ g s', (create p j).write false .rtmp = some (g, s') ∧ s'.mem.length = (create p j).mem.length) ↔
      low 32 p.dts < 0xffffff ∨ ¬ lead p = 5 := by
  have hk := create_pkt p j
  have hl : lead p ≤ 5 ∧ (lead p ≠ 5 → lead p ≤ 2) := by
    unfold lead
    repeat' split
    all_goals omega
  constructor
  · rintro ⟨g, s', e, -⟩
    by_cases ht : low 32 p.dts < 0xffffff
    · exact Or.inl ht
    · refine Or.inr fun h5 => ?_
      obtain ⟨t, pre, e1, e2, -⟩ := encode_shape p hp
      have hh : (create p j).head = HEAD := hj
      have hi : (create p j).info = p := rfl
      unfold write at e
      simp only [hh, hk, hi, e1, Option.getD_some] at e
      unfold Librtmp.send at e
      rw [if_neg (by simp), if_neg] at e
      · simp at e
      · rw [header_length, if_pos (by omega)]
        simp only [List.length_append, HEAD]
        omega
  · intro h
    have hf : Fits p := by
      unfold Fits HEAD
      split <;> omega
    obtain ⟨s', e, -, -, e', -⟩ := write_rtmp (create p j) hj (by simp [create, hj]) hp hf
    exact ⟨_, s', e, e'⟩

/-- Without the switch: every video frame with a time of 16777215 ms (4 h 40 min) or more makes librtmp write before the allocation of the packet. -/
theorem C82_without_switch_video (p : AVPkt) (j : List UInt8) (hj : j.length = HEAD) (hp : Sendable p) (ht : 0xffffff ≤ low 32 p.dts) (hv : lead p = 5) :
    (create p j).write false .rtmp = none := by
  cases h : (create p j).write false .rtmp with
  | none => rfl
  | some r =>
    obtain ⟨t, pre, e1, e2, -⟩ := encode_shape p hp
    have hk := create_pkt p j
    have hh : (create p j).head = HEAD := hj
    have hi : (create p j).info = p := rfl
    unfold write at h
    simp only [hh, hk, hi, e1, Option.getD_some] at h
    unfold Librtmp.send at h
    rw [if_neg (by simp), if_neg] at h
    · simp at h
    · rw [header_length, if_pos (by omega)]
      simp only [List.length_append, HEAD]
      omega

-- Both sides: the frame at 4 h, and the frame at 5 h.
example : Sendable (frame 14400000 10) ∧ lead (frame 14400000 10) = 5 ∧ low 32 (frame 14400000 10).dts < 0xffffff ∧
    ((create (frame 14400000 10) junk).write false .rtmp).isSome ∧
    Sendable (frame 18000000 10) ∧ 0xffffff ≤ low 32 (frame 18000000 10).dts ∧ (create (frame 18000000 10) junk).write false .rtmp = none := by
  decide +kernel

end Sps.Shared
