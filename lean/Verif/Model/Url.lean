import Verif.Model.Text
import Verif.Model.Err
/-!
# Model of URLs and headers (`/repo/src/io/url/sps_io_url.cpp`)

`http_parser_parse_url` is not part of the repository: the model starts from the fields it found.
-/
namespace Sps

/-- `RequestHeader` and `RequestParam`, `sps_io_url.hpp:44-51`: key and value. -/
abbrev Header := Text × Text

/-- What `http_parser_parse_url` finds in a URL; `none` is a field that is not there. -/
structure UrlFields where
  schema : Option Text := none
  host : Option Text := none
  port : Option Nat := none
  path : Option Text := none
  query : Option Text := none
deriving DecidableEq, Repr

/-- `RequestUrl`, `sps_io_url.hpp:56-104`, the part that URLs and headers determine. -/
structure Url where
  url : Text := []
  method : Text := []
  schema : Text := []
  port : Int := 80
  host : Text := []
  path : Text := []
  ext : Text := []
  params : Text := []
  pp : List Header := []
  headers : List Header := []
deriving DecidableEq, Repr

namespace Url

/-- The loop over the query, `sps_io_url.cpp:85-109`, on `params.substr(off_pre)`. Each pass takes at least a byte. (`off_pre` is
an `int`: the query is below 2 GiB.) -/
def query : (fuel : Nat) → Text → List Header
  | 0, _ => []
  | fuel + 1, s =>
    match Text.cut 61 s with
    | none => []
    | some (key, r) =>
      match Text.cut 38 r with
      | none => [(key, r)]
      | some (value, r) => (key, value) :: query fuel r

/-- The default ports, `sps_io_url.cpp:57-70`. -/
def defaultPort (schema : Text) : Int :=
  if schema = ascii "http" then 80 else if schema = ascii "https" then 443 else if schema = ascii "rtmp" then 1935 else 0

/-- `RequestUrl::parse_url`, `sps_io_url.cpp:44-134`, on an object `u` as `from` and `parse_request` make it (no fields set
but method and headers), after a successful `http_parser_parse_url` of `url`. `none`: `substr` throws. -/
def parse (u : Url) (url : Text) (f : UrlFields) : Option Url :=
  let schema := f.schema.getD u.schema
  let port := match f.port with | some p => (p : Int) | none => defaultPort schema
  let path := f.path.getD u.path
  let params := f.query.getD u.params
  let r : Url := { u with
    schema := schema, port := port, host := f.host.getD u.host, path := path, params := params,
    pp := u.pp ++ query (params.length + 1) params,
    ext := (Text.afterLast 46 path).getD u.ext,
    method := if u.method = [] then ascii "GET" else u.method,
    url := path ++ (if params = [] then [] else 63 :: params) }
  if schema = ascii "file" then
    if url.length < 8 then none
    else some { r with url := url.drop 8, path := url, params := [], port := -1 }
  else some r

/-- `RequestUrl::get_header`, `sps_io_url.cpp:169-174`, and `get_param`, `185-190`. -/
def lookup (key : Text) : List Header → Text
  | [] => []
  | h :: r => if h.1 = key then h.2 else lookup key r

/-- `RequestUrl::erase_header`, `sps_io_url.cpp:176-183`. -/
def erase (key : Text) : List Header → List Header
  | [] => []
  | h :: r => if h.1 = key then r else h :: erase key r

/-- `RequestUrl::get_header`. -/
def getHeader (u : Url) (key : Text) : Text := lookup key u.headers
/-- `RequestUrl::get_param`. -/
def getParam (u : Url) (key : Text) : Text := lookup key u.pp
/-- `RequestUrl::erase_header`. -/
def eraseHeader (u : Url) (key : Text) : Url := { u with headers := erase key u.headers }
/-- `RequestUrl::is_chunked`, `sps_io_url.cpp:192-194`. -/
def isChunked (u : Url) : Bool := u.getHeader (ascii "Transfer-Encoding") == ascii "chunked"
/-- `RequestUrl::get_content_length`, `sps_io_url.cpp:196-203`. -/
def contentLength (u : Url) : Int :=
  let cl := u.getHeader (ascii "Content-Length")
  if cl = [] then -1 else Text.atoi cl

end Url
end Sps
