import Verif.Lemmas.Decode
import Verif.Props.HttpLive
/-!
# C112: what a player that joins late decodes
-/
namespace Sps.DecodeProps
open Sps.RtmpConn Spec Rtmp Sys StreamProps World Spec.Http Spec.HttpConn Spec.HttpLive Spec.RtmpConn Spec.RtmpMsgs RtmpServe Spec.Server Sps.HttpConn HttpLive Decode

/-- **C112** (the start-up packets). Whatever has been published (`ps`) when a player joins, and whatever is published after that (`qs`): if no configuration has come since the last key frame, then the
player decodes a final part of the video, beginning with that key frame, and a final part of the audio, every frame with the configuration that it has in the stream.

Missing: video command frames, and joins between a new configuration and its key frame (the
negations of C112). -/
theorem C112_startup_partial (ps qs : List AVPkt) (hv : noCommands ps) (h1 : settled videoConfig ps) (h2 : settled audioConfig ps) :
    video (startup ps ++ qs) <:+ video (ps ++ qs) ∧ audio (startup ps ++ qs) <:+ audio (ps ++ qs) ∧ ∀ x ∈ (video (startup ps)).head?, isKey x.1 = true := by
  obtain ⟨a, b⟩ := startup_video hv h1 qs
  exact ⟨a, (startup_decoded (kind_audio ps) h2 qs).1, b⟩

/-- **C112** (HTTP players). A client that requests a stream over HTTP while there is one is sent an FLV file (an initial part of it, or all that there is) of packets from which a decoder gets a final
part of the stream's video and audio, each frame with its own configuration.

Missing: video command frames, and joins between a new configuration and its key frame (the
negations of C112). -/
theorem C112_http_player_partial (env : Site.Env) (hf : Plays env) (site : HttpSite) (hp : ReadsSends site.parsers) (player : Send) (st : Names.Stream) (for_ : player.For st)
    (hm : player.method ≠ ascii "POST") (c : Sps.HttpConn) (bytes : List UInt8) (e : Err) (ha : Arrives c.io (player.head ++ bytes) e) (mem tag : List UInt8) (q : Req)
    (hq : site.arrive mem tag c = .ok (.stream q))
    (A D : List Sys.Op) (s1 s : Sys) (L1 L : Log) (m : Comes env A D q s1 s L1 L) (cid : Nat) (hk : isStream cid (st.host ++ st.path) L1)
    (hv : noCommands (publishedTo cid L1)) (h1 : settled videoConfig (publishedTo cid L1)) (h2 : settled audioConfig (publishedTo cid L1)) :
    ∃ conn n ps, s.conns[(requestsOf A).length]? = some conn ∧ conn.snk.out <+: flvResponse env.reason ps ∧
      ((∃ mux, conn.job = .view n mux) → pendingOf s.w n = [] → conn.snk.out = flvResponse env.reason ps) ∧
      video ps <:+ video (publishedTo cid L) ∧ audio ps <:+ audio (publishedTo cid L) := by
  obtain ⟨conn, n, after, g1, -, g3, g4, g5⟩ := C106_player_partial env hf site hp player st for_ hm c bytes e ha mem tag q hq A D s1 s L1 L m cid hk
  obtain ⟨k1, k2, -⟩ := C112_startup_partial _ after hv h1 h2
  rw [← g3] at k1 k2
  exact ⟨conn, n, _, g1, g4, g5, k1, k2⟩

/-- **C112** (RTMP players). The same for the messages that an RTMP player is sent.

Missing: video command frames, and joins between a new configuration and its key frame (the
negations of C112). -/
theorem C112_rtmp_player_partial (env : Site.Env) (hf : Plays env) (site : RtmpSite) (hp : Names.ReadsUrls site.parser) (player : User) (ok : player.Ok) (hpl : player.publishes = false)
    (cv : RtmpCaller) (mv : List AmfMsg) (callv : Calls cv player mv) (q : Req) (sv : List RtmpReply) (av : site.arrive cv = some (.stream q sv))
    (A D : List Sys.Op) (s1 s : Sys) (L1 L : Log) (m : Comes env A D q s1 s L1 L) (cid : Nat) (hk : isStream cid (player.stream.host ++ player.stream.path) L1)
    (hsup : ∀ p ∈ publishedTo cid L, Supported p)
    (hv : noCommands (publishedTo cid L1)) (h1 : settled videoConfig (publishedTo cid L1)) (h2 : settled audioConfig (publishedTo cid L1)) :
    ∃ conn n sent ps all, s.conns[(requestsOf A).length]? = some conn ∧ plays conn n sent ∧ List.Forall₂ Carries ps sent ∧ ps <+: all ∧ (isPlaying conn → pendingOf s.w n = [] → ps = all) ∧
      video all <:+ video (publishedTo cid L) ∧ audio all <:+ audio (publishedTo cid L) := by
  obtain ⟨conn, n, sent, after, ps, g1, g2, g3, g4, g5, g6⟩ := C106_rtmp_player_partial env hf site hp player ok hpl cv mv callv q sv av A D s1 s L1 L m cid hk hsup
  obtain ⟨k1, k2, -⟩ := C112_startup_partial _ after hv h1 h2
  rw [← g3] at k1 k2
  exact ⟨conn, n, sent, ps, _, g1, g2, g4, g5, g6, k1, k2⟩

/-- A configuration, a key frame and an inter frame of the video; a command frame as the RTMP and FLV readers make of it. -/
def cfg (n : UInt8) : AVPkt := { stream := .video, pktType := 0, payload := [n], dts := 0, pts := 0, flags := 0x17, codec := 7 }
def key (n : Int) : AVPkt := { stream := .video, pktType := 1, payload := [1], dts := n, pts := n, flags := 0x17, codec := 7 }
def inter (n : Int) : AVPkt := { stream := .video, pktType := 1, payload := [2], dts := n, pts := n, flags := 0x27, codec := 7 }
def command : AVPkt := { stream := .video, pktType := 0, payload := [0], dts := 0, pts := 0, flags := 0x57, codec := 7 }

/-- **C112**, negation (command frames). A publisher sends a configuration, a key frame and a command frame; a player that joins then gets the key frame without a configuration. -/
theorem C112_negation_command : ∃ ops : List WOp, let L := (World.init.run ops).2
    ∃ m, Rtmp.judge m = .accept command ∧ publishedTo 0 L = [cfg 1, key 1, command] ∧ (.play [7], .joined 0 0) ∈ L ∧ video (publishedTo 0 L) = [(key 1, some (cfg 1))] ∧ video (received 0 L) = [(key 1, none)] :=
  ⟨[.publish [7], .put 0 (cfg 1), .put 0 (key 1), .put 0 command, .play [7], .dump 0], { type := 9, ts := 0, body := some [0x57, 0] }, by decide⟩

/-- **C112**, negation (a new configuration). The publisher changes the configuration: it has sent the new one, and is about to send the key frame that goes with it. A player that joins in between decodes the
last key frame and what followed it with a configuration that does not belong to them. -/
theorem C112_negation_change : ∃ ops : List WOp, let L := (World.init.run ops).2
    noCommands (publishedTo 0 L) ∧ publishedTo 0 L = [cfg 1, key 1, inter 2, cfg 2, key 3] ∧ (.play [7], .joined 0 0) ∈ L ∧
      video (publishedTo 0 L) = [(key 1, some (cfg 1)), (inter 2, some (cfg 1)), (key 3, some (cfg 2))] ∧
      video (received 0 L) = [(key 1, some (cfg 2)), (inter 2, some (cfg 2)), (key 3, some (cfg 2))] := by
  refine ⟨[.publish [7], .put 0 (cfg 1), .put 0 (key 1), .put 0 (inter 2), .put 0 (cfg 2), .play [7], .put 0 (key 3), .dump 0], ?_⟩
  refine ⟨?_, by decide, by decide, by decide, by decide⟩
  rw [show publishedTo 0 (World.init.run [.publish [7], .put 0 (cfg 1), .put 0 (key 1), .put 0 (inter 2), .put 0 (cfg 2), .play [7], .put 0 (key 3), .dump 0]).2 = [cfg 1, key 1, inter 2, cfg 2, key 3] by decide]
  unfold noCommands
  decide

/-- The hypotheses of C112 are met: two configurations, each with its key frame, audio, and a player that joins behind the second. -/
def aac : AVPkt := { stream := .audio, pktType := 0, payload := [9], dts := 0, pts := 0, flags := 0xaf, codec := 10 }
def tone (n : Int) : AVPkt := { stream := .audio, pktType := 1, payload := [8], dts := n, pts := n, flags := 0xaf, codec := 10 }
def history : List AVPkt := [aac, cfg 1, key 1, tone 1, inter 2, cfg 2, key 3, tone 3, inter 4]

theorem settled_of {config : AVPkt → Bool} {ps : List AVPkt} (h : ∀ i < ps.length, (ps.drop i).head?.map (fun k => isMedia k && isKey k) = some true →
    (ps.drop (i + 1)).all (fun x => !(isMedia x && isKey x)) = true → (ps.drop (i + 1)).all (fun x => !config x) = true) : settled config ps := by
  intro a k b hl h1 h2 h3 x hx
  subst hl
  have := h a.length (by simp) (by simp [h1, h2]) (by
    rw [List.drop_append]
    simp only [Nat.add_sub_cancel_left, List.drop_one, List.tail_cons, List.all_append, Bool.and_eq_true]
    refine ⟨by rw [List.drop_of_length_le (by omega)]; rfl, ?_⟩
    rw [List.all_eq_true]
    intro y hy
    cases hm : isMedia y with
    | false => rfl
    | true => rw [h3 y hy hm]; rfl)
  rw [List.drop_append, List.all_append, Bool.and_eq_true] at this
  simp only [Nat.add_sub_cancel_left, List.drop_one, List.tail_cons] at this
  have := List.all_eq_true.1 this.2 x hx
  simpa using this

example : noCommands history ∧ settled videoConfig history ∧ settled audioConfig history ∧
    video (startup history ++ [inter 5]) = [(key 3, some (cfg 2)), (inter 4, some (cfg 2)), (inter 5, some (cfg 2))] ∧ audio (startup history ++ [tone 5]) = [(tone 3, some aac), (tone 5, some aac)] := by
  refine ⟨?_, settled_of (by decide), settled_of (by decide), by decide, by decide⟩
  unfold noCommands
  decide

end Sps.DecodeProps
