import Verif.Model.Text
/-!
# Registers of formats and protocols

A registered object is a `shared_ptr`: its address and what it matches on (extension or schema).
-/
namespace Sps

/-- A registered object: the address `shared_ptr`s are compared by, and its `ext` or `schema`. -/
structure Reg where
  addr : Nat
  word : Text
deriving DecidableEq, Repr

namespace Registers

/-- `Registers::reg`, `/repo/src/util/sps_util_typedef.hpp:69-71`: a `std::set` of pointers keeps them by address and ignores one it has. -/
def reg (r : Reg) : List Reg → List Reg
  | [] => [r]
  | x :: xs => if r.addr < x.addr then r :: x :: xs else if r.addr = x.addr then x :: xs else x :: reg r xs

/-- `Registers::cancel`, `/repo/src/util/sps_util_typedef.hpp:73-75`. -/
def cancel (r : Reg) (xs : List Reg) : List Reg := xs.filter fun x => x.addr ≠ r.addr

/-- What can happen to a register. -/
inductive Op
  | reg (r : Reg)
  | cancel (r : Reg)
deriving DecidableEq, Repr

def run (xs : List Reg) : List Op → List Reg
  | [] => xs
  | .reg r :: ops => run (reg r xs) ops
  | .cancel r :: ops => run (cancel r xs) ops

end Registers

namespace Format

/-- `IAVInputFormat::match`, `/repo/src/avformat/sps_avformat_dec.cpp:37-41`, and `IAVOutputFormat::match`, `/repo/src/avformat/sps_avformat_enc.cpp:43-47`:
both lengths are those of the registered extension, so that many bytes of the memory at `e` are compared. `junk` is the memory after the
terminating zero. -/
def matches' (ext e junk : Text) : Bool := (e ++ 0 :: junk).take ext.length = ext

/-- `AVDemuxerFactory::create`, `/repo/src/avformat/sps_avformat_dec.cpp:55-64` (with `probe`, lines 51-53, which never finds anything), and
`AVEncoderFactory::create`, `/repo/src/avformat/sps_avformat_enc.cpp:58-67`: the format chosen. -/
def create (fmts : List Reg) (e junk : Text) : Option Reg := fmts.find? fun f => matches' f.word e junk

/-- The input formats without ffmpeg, `/repo/src/install/sps_install_avformat.cpp:46-55`, at any addresses. -/
def inputs (a b c : Nat) : List Reg := [⟨a, ascii "flv"⟩, ⟨b, ascii "-"⟩, ⟨c, ascii "ts"⟩]

/-- The output formats, lines 60-68. -/
def outputs (a b : Nat) : List Reg := [⟨a, ascii "flv"⟩, ⟨b, ascii "-"⟩]

end Format

namespace Protocol

/-- `UrlProtocol::create`, `/repo/src/io/url/sps_io_url_protocol.cpp:44-57`: the protocol chosen. -/
def create (ps : List Reg) (schema : Text) : Option Reg := ps.find? fun p => decide (schema = p.word)

/-- `sps_url_protocols`, `/repo/src/install/sps_install_url_protocols.cpp:34-39`, at any addresses. -/
def installed (a b c : Nat) : List Reg := [⟨a, ascii "http"⟩, ⟨b, ascii "file"⟩, ⟨c, ascii "rtmp"⟩]

end Protocol

/-- Registering a list of objects at start (`init_avformats`, `init_url_protocol`, `/repo/src/install/sps_install.cpp:55-82`). -/
def Registers.install (rs : List Reg) : List Reg := rs.foldl (fun xs r => Registers.reg r xs) []

end Sps
