import Verif.Model.HttpConn
import Verif.Model.RtmpConn
import Verif.Model.SrtLive
/-!
# The log (`/repo/src/log/sps_log.{hpp,cpp}`) and the lines about requests

The other models leave the log out.
-/
namespace Sps

/-- An argument of a log line. -/
inductive LogArg
  | str (s : Text)
  | num (n : Int)
deriving DecidableEq, Repr

/-- What `localtime_r` gives, with the milliseconds, `/repo/src/log/sps_log.cpp:33-43`. -/
structure LogTime where
  year : Nat
  mon : Nat
  day : Nat
  hour : Nat
  min : Nat
  sec : Nat
  ms : Nat
deriving DecidableEq, Repr

namespace Log

/-- What the `printf` functions of the C library make of a format and its arguments, for the conversions `%s`, `%d` and `%%`. `none`: undefined behaviour, a conversion without a
fitting argument. (`%m`, which glibc knows without an argument, is counted as undefined as in ISO C. Other conversions do not occur in the lines modelled here.) -/
def format : Text → List LogArg → Option Text
  | [], _ => some []
  | [b], _ => if b = 37 then none else some [b]
  | b :: c :: r, as =>
    if b = 37 then
      if c = 37 then (format r as).map (37 :: ·)
      else match as with
        | .str s :: as => if c = 115 then (format r as).map (s.takeWhile (· ≠ 0) ++ ·) else none
        | .num n :: as => if c = 100 then (format r as).map (Text.decInt n ++ ·) else none
        | [] => none
    else (format (c :: r) as).map (b :: ·)

/-- `%04d` and the like, for numbers that are not negative. -/
def pad (w n : Nat) : Text := List.replicate (w - (Text.dec n).length) 48 ++ Text.dec n

/-- The time before the message, `/repo/src/log/sps_log.cpp:41-43`. (`tv_usec/1000` is a `long` printed as an `int`.) -/
def stamp (t : LogTime) : Text :=
  ascii "[" ++ pad 4 t.year ++ ascii "-" ++ pad 2 t.mon ++ ascii "-" ++ pad 2 t.day ++ ascii " " ++ pad 2 t.hour ++ ascii ":" ++ pad 2 t.min ++ ascii ":" ++ pad 2 t.sec ++
    ascii "." ++ pad 3 t.ms ++ ascii "] "

/-- `ConsoleLog::printf`, `/repo/src/log/sps_log.cpp:32-50`: what is printed. The time and the message go to a buffer of 4096 bytes, and the buffer is printed as a format (line 49). -/
def printf (t : LogTime) (fmt : Text) (args : List LogArg) : Option Text :=
  match format fmt args with
  | none => none
  | some m => format ((stamp t ++ m).take 4095) []

/-- `sp_trace` and `sp_info`, `/repo/src/log/sps_log.hpp:72-76`, in `line` of `file`, in the coroutine `id`. -/
def trace (t : LogTime) (file : Text) (line : Nat) (id : Int) (msg : Text) (args : List LogArg) : Option Text :=
  printf t (ascii "[%s:%d] [%d] " ++ msg ++ ascii "\r\n") (.str file :: .num line :: .num id :: args)

end Log

/-- Where and when something is logged: the time, the line of the program (a compiler may give any line of the call) and the coroutine. -/
structure LogAt where
  time : LogTime
  line : Nat
  id : Int
deriving DecidableEq, Repr

namespace HttpSite

/-- The line about a request, `/repo/src/module/http/sps_http_phase_handler.cpp:52-55`. The `ip` of a request that was received is empty. -/
def requestLine (w : LogAt) (u : Url) : Option Text :=
  Log.trace w.time (ascii "sps_http_phase_handler.cpp") w.line w.id (ascii "Request %s:%d %s %s %s %s, chunked %d, content-length %d")
    [.str [], .num u.port, .str u.method, .str u.host, .str u.url, .str u.params, .num (if u.isChunked then 1 else 0), .num u.contentLength]

/-- `HttpParsePhaseHandler::handler`, `/repo/src/module/http/sps_http_phase_handler.cpp:37-58`, with its log line: `parse` is the same without. -/
def parseLogged (p : Parsers) (w : LogAt) (c : HttpConn) : Except Phase.Stop ((Int × HttpConn) × Text) :=
  match HttpHead.parse 2048 c.io with
  | none => .error .hang
  | some (.error e, io) => .ok ((e, { c with io := io }), [])
  | some (.ok head, io) =>
    let r := p.req head
    if r.count = 0 then .ok ((Phase.SUCCESS, { c with io := io }), [])
    else
      let u := Names.http p.url r.method r.target r.headers
      match requestLine w u with
      | none => .error .crash
      | some l => .ok ((Phase.CONTINUE, { c with io := io, req := some u }), l)

end HttpSite

namespace RtmpSite

/-- The line about a connection that was negotiated, `/repo/src/module/rtmp/sps_rtmp_server_handler.cpp:78-79`. -/
def requestLine (w : LogAt) (ip : Text) (port : Int) (url : Text) : Option Text :=
  Log.trace w.time (ascii "sps_rtmp_server_handler.cpp") w.line w.id (ascii "Request client %s:%d, %s") [.str ip, .num port, .str url]

/-- `arrive` with this line: `ip` and `port` are those of the client. The lines written during the negotiation are left out. `none`: undefined behaviour. -/
def arriveLogged (site : RtmpSite) (w : LogAt) (ip : Text) (port : Int) (c : RtmpCaller) : Option (RtmpArrival × Text) :=
  if c.shake ≠ Err.SUCCESS then (site.arrive c).map (·, [])
  else match PreRequest.connect c.closed { fails := c.fails } c.talk with
    | none => none
    | some (e, pre, _) =>
      if e ≠ Err.SUCCESS then (site.arrive c).map (·, [])
      else
        let p := RtmpPrepared.prepare RtmpHook.create pre
        match Names.rtmp site.parser p with
        | none => (site.arrive c).map (·, [])
        | some _ => match requestLine w ip port p.url with
          | none => none
          | some l => (site.arrive c).map (·, l)

end RtmpSite

namespace SrtSite

/-- The line about a stream id, `/repo/src/module/srt/sps_srt_server_handler.cpp:100-101`. -/
def requestLine (w : LogAt) (id url mode : Text) : Option Text :=
  Log.trace w.time (ascii "sps_srt_server_handler.cpp") w.line w.id (ascii "success parse srt streamid %s, url %s, mode %s") [.str id, .str url, .str mode]

/-- `arrive` with this line; `none`: undefined behaviour. -/
def arriveLogged (s : SrtSite) (w : LogAt) (id : Text) (io : Io) (fails : List Err) (mem tag : List UInt8) : Option (SrtArrival × Text) :=
  match SrtId.request id, Names.srt s.parser id with
  | some (url, _), some _ => (requestLine w id url (SrtId.last (ascii "m") (SrtId.params [] [] (id.drop 4)))).map (s.arrive id io fails mem tag, ·)
  | _, _ => some (s.arrive id io fails mem tag, [])

end SrtSite
end Sps
