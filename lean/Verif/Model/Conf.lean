import Verif.Model.Err
import Verif.Model.Text
/-!
# The configuration: lines, options, modules

The configuration file is read line by line (`FileURLProtocol::read_line`); a line is a directive, the start of a
block, the end of a block, a comment or empty. A block is a module; every kind of module has a table of options and
its own rule about which blocks may be inside it.

Macros `SRT_ENABLED` and `OPENSSL_ENABLED` are taken as defined.
-/
namespace Sps

namespace Text

/-- `ss >> token`, again and again: the words of a line, separated by white space. The accumulator is the word being
read, last character first. -/
def wordsAux : (w : Text) → Text → List Text
  | [], [] => []
  | w@(_ :: _), [] => [w.reverse]
  | [], b :: r => if isSpace b then wordsAux [] r else wordsAux [b] r
  | w@(_ :: _), b :: r => if isSpace b then w.reverse :: wordsAux [] r else wordsAux (b :: w) r

/-- The words of a line. -/
def words (s : Text) : List Text := wordsAux [] s

/-- `getline` again and again: the lines of a file (a last line need not end with LF). The accumulator is the line
being read, last character first. -/
def linesAux : (l : Text) → Text → List Text
  | [], [] => []
  | l@(_ :: _), [] => [l.reverse]
  | l, b :: r => if b = 10 then l.reverse :: linesAux [] r else linesAux (b :: l) r

/-- The lines of a file, `FileURLProtocol::read_line`, `/repo/src/io/url/sps_io_url_file.cpp:96-106`. -/
def lines (s : Text) : List Text := linesAux [] s

/-- `s.c_str()` as the C library sees it: up to the first NUL. -/
def cstr (s : Text) : Text := s.takeWhile (· ≠ 0)

/-- `atoll(s)`: `strtoll` stops at the largest or smallest `long long`. -/
def atoll (s : Text) : Int :=
  let n := number 10 0 (signed s).2
  if (signed s).1 then (if 2 ^ 63 < n then -2 ^ 63 else -(n : Int)) else (if 2 ^ 63 ≤ n then 2 ^ 63 - 1 else (n : Int))

end Text

namespace Conf

/-- A line as `parse` reports it (`LineType`, `cmd`, `arg`), `/repo/src/module/sps_module_opt.hpp:36-47`. For the end of
a block `cmd` and `arg` are ignored by the caller and left out. -/
inductive Line
  | empty
  | comment
  | item (cmd arg : Text)
  | start (cmd arg : Text)
  | close
deriving DecidableEq, Repr

/-- The kind of line a token ends (`switch (last)`), `/repo/src/module/sps_module.cpp:238-255`. -/
inductive Mark | item | start | close
deriving DecidableEq, Repr

/-- Last character of a token, `/repo/src/module/sps_module.cpp:238-255`. -/
def mark (t : Text) : Option Mark :=
  if t.getLast? = some 59 then some .item
  else if t.getLast? = some 123 then some .start
  else if t.getLast? = some 125 then some .close
  else none

/-- The loop over the tokens, `/repo/src/module/sps_module.cpp:222-257`: `args` and the mark found; `none` is
`ERROR_CONFIG_PARSE_INVALID`. -/
def split : (args : List Text) → (found : Option Mark) → List Text → Option (List Text × Option Mark)
  | args, found, [] => some (args, found)
  | args, found, t :: r =>
    match found with
    | some m => if t.head? = some 35 then some (args, some m) else none
    | none => split (args ++ [t]) (mark t) r

/-- Appending an argument, `/repo/src/module/sps_module.cpp:289-295`. -/
def addArg (arg t : Text) : Text := if arg.isEmpty then arg ++ t else arg ++ ([32] ++ t)

/-- `IModule::parse`, `/repo/src/module/sps_module.cpp:214-307`; `none` is `ERROR_CONFIG_PARSE_INVALID`. -/
def parse (line : Text) : Option Line :=
  match split [] none (Text.words line) with
  | none => none
  | some (args, found) =>
    match args with
    | [] => some .empty
    | cmd :: more =>
      if cmd.head? = some 35 then some .comment
      else match found with
        | none => none
        | some m =>
          match more.getLast? with
          | none => if m = .close then some .close else none
          | some last =>
            if cmd = [123] ∨ cmd = [125] then none
            else
              let arg := more.dropLast.foldl addArg []
              match m with
              | .start => some (.start cmd arg)
              | .close => some .close
              | .item =>
                some (.item cmd (if last ≠ [59] then arg ++ (if arg.isEmpty then [] else [32]) ++ last.dropLast else arg))

/-- `ConfigOptionType`, `/repo/src/module/sps_module_opt.hpp:49-61`, without those no option table uses
(`INT64`, `DOUBLE`, `FLOAT`, `CSTRING`). -/
inductive OptType | int | str | u64 | bool | sub
deriving DecidableEq, Repr

/-- `ConfigOption`, `/repo/src/module/sps_module_opt.hpp:64-86`; the offset into the configuration object is the name
(options of the same name have the same offset), the help text is left out. -/
structure Opt where
  name : Text
  type : OptType
  dflt : Text
deriving DecidableEq, Repr

/-- A field of a configuration object. -/
inductive Val
  | int (n : Int)
  | str (s : Text)
  | u64 (n : Nat)
  | bool (b : Bool)
deriving DecidableEq, Repr

/-- `ConfigOption::opt_set`, `/repo/src/module/sps_module_opt.cpp:33-103`: the value stored; `none` is
`ERROR_CONFIG_OPT_TYPE`. For an empty text `memcmp` may read one byte behind the terminator; the first byte differs. -/
def Opt.value (o : Opt) (val : Text) : Option Val :=
  match o.type with
  | .int => some (.int (if 0 < val.length then Text.atoi val else 0))
  | .u64 => some (.u64 ((if 0 < val.length then Text.atoll val else 0) % 2 ^ 64).toNat)
  | .str => some (.str (Text.cstr val))
  | .bool => some (.bool ((val ++ ([0] : Text)).take 2 = ([111, 110] : Text)))
  | .sub => none

/-- The modules, `/repo/src/install/sps_install_modules.cpp:38-55`. -/
inductive Kind | root | http | server | host | globalHost | location | stream | rtmp | upstream | srt
deriving DecidableEq, Repr

namespace Kind

/-- The name in the register: the class name in lower case, `MODULE_FACTORY`, `/repo/src/module/sps_module.hpp:164-180`. -/
def name : Kind → Text
  | root => ascii "root"
  | http => ascii "http"
  | server => ascii "server"
  | host => ascii "host"
  | globalHost => ascii "globalhost"
  | location => ascii "location"
  | stream => ascii "stream"
  | rtmp => ascii "rtmp"
  | upstream => ascii "upstream"
  | srt => ascii "srt"

/-- All of them. -/
def all : List Kind := [root, http, server, host, globalHost, location, stream, rtmp, upstream, srt]

/-- `ModuleFactoryRegister::create`, `/repo/src/module/sps_module.cpp:333-342`: `none` ends the program. -/
def ofName (n : Text) : Option Kind := all.find? fun k => k.name = n

/-- `HOST_OPTIONS`, `/repo/src/module/host/sps_host_module.hpp:36-42`. -/
def hostOptions : List Opt :=
  [⟨ascii "enabled", .bool, ascii "on"⟩, ⟨ascii "pass_proxy", .str, []⟩, ⟨ascii "pass_url", .str, []⟩,
   ⟨ascii "role", .str, ascii "edge"⟩, ⟨ascii "type", .str, ascii "proxy"⟩, ⟨ascii "edge_avformat", .str, ascii "-"⟩]

/-- The option tables. `root`: `/repo/src/module/root/sps_root_module.hpp:43-45`; `http`: `http/sps_http_module.hpp:42-47`;
`server`: `server/sps_server_module.hpp:51-67`; `host`: `host/sps_host_module.hpp:71-76`; `globalhost`:
`host/sps_host_global_module.hpp:39-42`; `location`: `host/sps_host_loc_module.hpp:40-42` (this table has no end mark,
see `init`); `stream`: `stream/sps_stream_module.hpp:41-46`; `rtmp`: `rtmp/sps_rtmp_module.hpp:49-55`; `upstream`:
`upstream/sps_upstream_module.hpp:43-48`; `srt`: `srt/sps_srt_module.hpp:50-61` (all in `/repo/src/module`). -/
def opts : Kind → List Opt
  | root => []
  | http => [⟨ascii "keepalive_timeout", .int, ascii "10"⟩, ⟨ascii "access_log", .str, ascii "access.log"⟩, ⟨ascii "server", .sub, []⟩]
  | server =>
    [⟨ascii "listen_port", .int, ascii "80"⟩, ⟨ascii "server_name", .str, []⟩, ⟨ascii "transport", .str, ascii "tcp"⟩,
     ⟨ascii "transport", .str, ascii "tcp"⟩, ⟨ascii "recv_timeout", .u64, ascii "-1"⟩, ⟨ascii "send_timeout", .u64, ascii "-1"⟩,
     ⟨ascii "reuse_port", .bool, ascii "off"⟩, ⟨ascii "backlog", .int, ascii "1024"⟩, ⟨ascii "host", .sub, []⟩,
     ⟨ascii "ssl_key_file", .str, []⟩, ⟨ascii "ssl_crt_file", .str, []⟩]
  | host => hostOptions ++ [⟨ascii "ssl_key_file", .str, []⟩, ⟨ascii "ssl_crt_file", .str, []⟩]
  | globalHost => [⟨ascii "host", .sub, []⟩]
  | location => hostOptions
  | stream => [⟨ascii "avformat", .str, ascii "-"⟩, ⟨ascii "edge", .bool, ascii "on"⟩, ⟨ascii "pass_proxy", .str, ascii "-"⟩]
  | rtmp => [⟨ascii "keepalive_timeout", .int, ascii "10"⟩, ⟨ascii "access_log", .str, ascii "access.log"⟩, ⟨ascii "server", .sub, []⟩]
  | upstream =>
    [⟨ascii "name", .str, ascii "unknown upstream name"⟩, ⟨ascii "server", .str, ascii "unknown upstream server"⟩,
     ⟨ascii "keepalive", .int, ascii "10"⟩]
  | srt =>
    [⟨ascii "keepalive_timeout", .int, ascii "10"⟩, ⟨ascii "access_log", .str, ascii "access.log"⟩,
     ⟨ascii "srt_tlpktdrop", .int, ascii "0"⟩, ⟨ascii "srt_nakreport", .int, ascii "0"⟩,
     ⟨ascii "srt_transtype", .str, ascii "live"⟩, ⟨ascii "server", .sub, []⟩]

/-- The option a directive names, `/repo/src/module/sps_module.cpp:127-128`. -/
def opt (k : Kind) (n : Text) : Option Opt := k.opts.find? fun o => o.name = n

end Kind

/-- A module (`IModule`, `/repo/src/module/sps_module.hpp:86-128`): its kind, the name behind the block's keyword, its
options (the configuration object, by option name) and the modules inside it in the order of the file. (The program keeps the latter in different places: `subs`,
`http_servers`, `rtmp_servers`, `srt_servers`, `host_modules`, `stream_module`, `upstream_module`.) -/
inductive Module
  | mk (kind : Kind) (name : Text) (conf : Text → Option Val) (inner : List Module)

namespace Module

def kind : Module → Kind | mk k _ _ _ => k
def name : Module → Text | mk _ n _ _ => n
def conf : Module → Text → Option Val | mk _ _ c _ => c
def inner : Module → List Module | mk _ _ _ i => i

end Module

/-- `opt_set` on a configuration object; a failure changes nothing. -/
def store (c : Text → Option Val) (o : Opt) (val : Text) : Text → Option Val :=
  match o.value val with
  | some v => fun n => if n = o.name then some v else c n
  | none => c

/-- `create_conf` and `IModule::set_default`, `/repo/src/module/sps_module.cpp:88,313-331`. -/
def defaults (k : Kind) : Text → Option Val :=
  k.opts.foldl (fun c o => if o.type = .sub then c else store c o o.dflt) fun _ => none

/-- What can come of reading a block: a module and the lines left, an error, the end of the program (`exit`), or
undefined behaviour. -/
inductive Res
  | ok (m : Module) (rest : List Text)
  | err (e : Err)
  | exit
  | undef

/-- `post_sub_module`: the module with the block added. Default: `/repo/src/module/sps_module.cpp:74-77`; `http`:
`http/sps_http_module.cpp:36-51`; `rtmp`: `rtmp/sps_rtmp_module.cpp:37-52`; `srt`: `srt/sps_srt_module.cpp:39-54`;
`server`: `server/sps_server_module.cpp:59-76`; `globalhost`: `host/sps_host_global_module.cpp:34-51`; `host`:
`host/sps_host_module.cpp:43-71` (all in `/repo/src/module`). -/
def postSub (m sub : Module) : Res :=
  let added := Res.ok (.mk m.kind m.name m.conf (m.inner ++ [sub])) []
  match m.kind with
  | .root | .upstream | .stream | .location => added
  | .http | .rtmp | .srt => if sub.kind = .server then added else .exit
  | .server | .globalHost => if sub.kind = .host ∧ sub.name ≠ [] then added else .exit
  | .host => if sub.kind = .stream ∨ sub.kind = .upstream then added else .err Err.ERROR_MODULE_TYPE_NOT_MATCH

/-- The loop of `IModule::init_conf`, `/repo/src/module/sps_module.cpp:106-204`, on the lines still to be read; `fin` is
what `read_line` returns behind the last line (`ERROR_IO_EOF` unless the file cannot be read). Every round takes a line;
`fuel` must be larger than their number. `post_conf` always succeeds: it calls `merge` of the modules inside, which
always succeeds, see `Model/Server`. -/
def loop (fin : Err) : (fuel : Nat) → Module → List Text → Res
  | 0, _, _ => .undef
  | fuel + 1, m, lines =>
    match lines with
    | [] => if fin ≠ Err.ERROR_IO_EOF then .err fin
        else if m.kind = .root then .ok m [] else .err Err.ERROR_CONFIG_PARSE_INVALID
    | l :: ls =>
      match parse l with
      | none => .err Err.ERROR_CONFIG_PARSE_INVALID
      | some .empty => loop fin fuel m ls
      | some .comment => loop fin fuel m ls
      | some .close => if m.kind = .root then .err Err.ERROR_CONFIG_PARSE_INVALID else .ok m ls
      | some (.item name arg) =>
        match m.kind.opt name with
        | none => loop fin fuel m ls
        | some o => if o.type = .sub then .err Err.ERROR_CONFIG_PARSE_INVALID
          else loop fin fuel (.mk m.kind m.name (store m.conf o arg) m.inner) ls
      | some (.start name arg) =>
        match Kind.ofName name with
        | none => .exit
        | some k =>
          -- the table of `location` has no end mark: `set_default` reads behind it
          if k = .location then .undef
          else match loop fin fuel (.mk k arg (defaults k) []) ls with
            | .ok sub rest => match postSub m sub with
              | .ok m _ => loop fin fuel m rest
              | r => r
            | r => r

/-- `init_config`, `/repo/src/main/sps_main_sps.cpp:40-65`: the root module reads the file. -/
def initConf (file : Text) : Res :=
  let lines := Text.lines file
  loop Err.ERROR_IO_EOF (lines.length + 1) (.mk .root [] (defaults .root) []) lines

end Conf
end Sps
