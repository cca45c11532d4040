import Verif.Model.Conf
import Verif.Model.Server
/-!
# Model of the start of the program (`/repo/src/main/sps_main_sps.cpp`)
-/
namespace Sps
namespace Main
open Conf (Module)

/-- A file: its bytes, and what the user that runs the program may do with it. -/
structure File where
  bytes : Text
  mayRead : Bool
  mayWrite : Bool

/-- The machine: its files (`none`: there is no such file, or it is a directory), whether `http_parser_parse_url` takes a URL, what `st_init` returns
(0 or -1), and what listening on a port and starting the coroutine of the server return. -/
structure Machine where
  file : Text → Option File
  url : Text → Bool
  co : Int
  listen : Int → Err

/-- What comes of the program: it serves, it ends with an exit status, or its behaviour is undefined (`crash`; an exception that nobody catches is one, too). -/
inductive Outcome
  | serves (sites : Assoc Int Site)
  | ended (status : Nat)
  | crash

/-- The exit status of `return ret` in `main`: the operating system keeps the lowest byte. -/
def status (ret : Int) : Nat := (ret % 256).toNat

/-- `FileURLProtocol::open`, `/repo/src/io/url/sps_io_url_file.cpp:43-63`, with `trunc` and `append` false: `std::fstream::in | std::fstream::out`, which opens a file for
reading and writing and does not make one. -/
def openFile (m : Machine) (name : Text) : Except Err Text :=
  match m.file name with
  | some f => if f.mayRead && f.mayWrite then .ok f.bytes else .error Err.ERROR_FILE_OPEN
  | none => .error Err.ERROR_FILE_OPEN

/-- `init_config`, `/repo/src/main/sps_main_sps.cpp:40-65`, after `UrlProtocol::create`, `/repo/src/io/url/sps_io_url_protocol.cpp:59-72`: a URL is made of the name of the
file and parsed. `RequestUrl::parse_url`, `/repo/src/io/url/sps_io_url.cpp:117`, takes `substr(8)` of it, which throws if it is shorter. `rest` goes on with the module. (`exit` ends
the program with 255, or with 1 when a block has an unknown name, `/repo/src/module/sps_module.cpp:339`; the model has 255 for both. Not modelled: errors while a file that was
opened is read.) -/
def initConfig (m : Machine) (name : Text) (rest : Module → Outcome) : Outcome :=
  let url := ascii "file://" ++ name
  if !m.url url then .ended (status Err.ERROR_URL_PROTOCOL_NOT_EXISTS)
  else if url.length < 8 then .crash
  else match openFile m name with
    | .error e => .ended (status e)
    | .ok file => match Conf.initConf file with
      | .ok root _ => rest root
      | .err e => .ended (status e)
      | .exit => .ended 255
      | .undef => .crash

/-- `main`, `/repo/src/main/sps_main_sps.cpp:72-97`; `args` is `argv`. At the end it sleeps for ever. -/
def main (m : Machine) (args : List Text) : Outcome :=
  match args with
  | _ :: name :: _ => initConfig m name fun root =>
    if m.co ≠ 0 then .ended (status m.co)
    else match Setup.start m.listen root with
      | .ok sites => .serves sites
      | .err e => .ended (status e)
      | .undef => .crash
  | _ => .ended (status (-1))

end Main
end Sps
