import Verif.Model.Log
/-!
# The log during an RTMP negotiation (`/repo/src/module/rtmp/sps_rtmp_server_handler.cpp:219-275`)

The lines that repeat what the client sent. The other lines of the negotiation print fixed texts, numbers and the names of commands the server knows, and are left out.
-/
namespace Sps
namespace PreRequest

/-- `Play stream …`, `/repo/src/module/rtmp/sps_rtmp_server_handler.cpp:225-226`. `m_bPlaying` of librtmp is 0 in a server: no code here sets it. -/
def playLine (w : LogAt) (params : Text) : Option Text :=
  Log.trace w.time (ascii "sps_rtmp_server_handler.cpp") w.line w.id (ascii "Play stream %s, playing: %d") [.str params, .num 0]

/-- `Publish stream …`, `/repo/src/module/rtmp/sps_rtmp_server_handler.cpp:254-256`. -/
def publishLine (w : LogAt) (params type : Text) : Option Text :=
  Log.trace w.time (ascii "sps_rtmp_server_handler.cpp") w.line w.id (ascii "Publish stream %s, %s, playing %d") [.str params, .str type, .num 0]

/-- `serve` with these lines, `/repo/src/module/rtmp/sps_rtmp_server_handler.cpp:144-203, 206-300`: a line is printed before the answers are sent. `none`: undefined behaviour. -/
def serveLogged (w : LogAt) (closed : Err) (s : PreRequest) : List AmfMsg → Option ((Err × PreRequest × List AmfMsg) × Text)
  | [] => some ((closed, s, []), [])
  | m :: ms => do
    let (e, c) ← RtmpCmd.decode m.type m.amf m.len
    if e ≠ Err.SUCCESS then return ((e, s, ms), [])
    else match c with
      | some (.createStream txn) =>
        let (e, s) := s.send (.result txn 1)
        if e ≠ Err.SUCCESS then return ((e, s, ms), []) else serveLogged w closed s ms
      | some (.play txn st) =>
        let l ← playLine w (47 :: st)
        let (e, s) := { s with streamParams := 47 :: st }.sendAll [.playStart txn, .sampleAccess, .streamBegin]
        if e ≠ Err.SUCCESS then return ((e, s, ms), l) else return ((Err.SUCCESS, { s with playing := true }, ms), l)
      | some (.fcPublish txn _) =>
        let (e, s) := s.send (.result txn 0)
        if e ≠ Err.SUCCESS then return ((e, s, ms), []) else serveLogged w closed s ms
      | some (.releaseStream txn _) =>
        let (e, s) := s.send (.result txn 0)
        if e ≠ Err.SUCCESS then return ((e, s, ms), []) else serveLogged w closed s ms
      | some (.publish txn st type) =>
        let l ← publishLine w (47 :: st) type
        let (e, s) := { s with streamParams := 47 :: st }.sendAll [.publishStart txn, .streamBegin]
        if e ≠ Err.SUCCESS then return ((e, s, ms), l) else return ((Err.SUCCESS, { s with publishing := true }, ms), l)
      | _ => serveLogged w closed s ms

/-- `connect` with these lines, `/repo/src/module/rtmp/sps_rtmp_server_handler.cpp:97-204`. -/
def connectLogged (w : LogAt) (closed : Err) (s : PreRequest) (ms : List AmfMsg) : Option ((Err × PreRequest × List AmfMsg) × Text) := do
  let (e, txn, s, ms) ← waitConnect closed s ms
  if e ≠ Err.SUCCESS then return ((e, s, ms), [])
  else
    let (e, s) := s.sendAll [.ackWindow, .peerBandwidth, .chunkSize, .connectResult txn]
    if e ≠ Err.SUCCESS then return ((e, s, ms), []) else serveLogged w closed s ms

end PreRequest

namespace RtmpSite

/-- `RtmpPrepareHandler::handler`, `/repo/src/module/rtmp/sps_rtmp_server_handler.cpp:50-83`, with the lines of the negotiation (at `w`) and the one about the request (at `w'`). -/
def arriveTalk (site : RtmpSite) (w w' : LogAt) (ip : Text) (port : Int) (c : RtmpCaller) : Option (RtmpArrival × Text) :=
  if c.shake ≠ Err.SUCCESS then site.arriveLogged w' ip port c
  else match PreRequest.connectLogged w c.closed { fails := c.fails } c.talk with
    | none => none
    | some (_, l) => (site.arriveLogged w' ip port c).map fun x => (x.1, l ++ x.2)

end RtmpSite
end Sps
