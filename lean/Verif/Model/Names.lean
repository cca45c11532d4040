import Verif.Model.Rtmp
import Verif.Model.Net
import Verif.Model.Serve
/-!
# How requests of the three protocols name a stream

`parser` is `http_parser_parse_url`; `none` is its failure.
-/
namespace Sps
namespace Names

/-- `RequestUrl::from` and `RequestUrl::parse_url`, `/repo/src/io/url/sps_io_url.cpp:39-51`, on an object `u`. `none`: an error, or `substr`
throws. -/
def parseUrl (parser : Text → Option UrlFields) (u : Url) (t : Text) : Option Url := (parser t).bind (Url.parse u t)

/-- `HttpParserContext::parse_request`, `/repo/src/module/http/sps_http_parser.cpp:76-94`, after http_parser has found method, request
target and header fields. The result of `parse_url` is not looked at (line 192): an object that has no host remains. -/
def http (parser : Text → Option UrlFields) (method target : Text) (headers : List Header) : Url :=
  let host := Url.lookup (ascii "Host") headers
  let full := if host ≠ [] then ascii "http://" ++ host ++ target else ascii "http:/" ++ target
  let u : Url := { method := method, headers := headers }
  (parseUrl parser u full).getD u

/-- `RtmpPrepareHandler::handler`, `/repo/src/module/rtmp/sps_rtmp_server_handler.cpp:72-77`, and the extension the stream handler sets,
`/repo/src/module/rtmp/sps_rtmp_stream_handler.cpp:69`. `none`: the connection is refused. -/
def rtmp (parser : Text → Option UrlFields) (p : RtmpPrepared) : Option Url :=
  (parseUrl parser {} p.url).map fun u => { u with ext := ascii "-" }

/-- `get_url_by_streamid`, `/repo/src/module/srt/sps_srt_server_handler.cpp:80-104`. `none`: the connection is refused. -/
def srt (parser : Text → Option UrlFields) (id : Text) : Option Url := do
  let (t, method) ← SrtId.request id
  (parseUrl parser {} t).map fun u => { u with method := method }

end Names
end Sps
