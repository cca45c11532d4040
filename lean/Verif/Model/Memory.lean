import Verif.Model.Err
import Verif.Model.Num
import Verif.Model.Io
/-!
# Model of `MemoryReaderWriter` (`/repo/src/io/sps_io_memory.{hpp,cpp}`) and of the file line reader
(`/repo/src/io/url/sps_io_url_file.cpp`)

`none` is a `memcpy` outside the buffer.
-/
namespace Sps

/-- `MemoryReaderWriter`, `sps_io_memory.hpp:34-63`. `buf` is the memory; its length is `len` (an `int`). -/
structure MemIo where
  buf : List UInt8
  pos : Nat
  line : Nat
deriving DecidableEq, Repr

namespace MemIo

/-- The constructor, `sps_io_memory.cpp:35-44`. -/
def create (buf : List UInt8) : MemIo := { buf := buf, pos := 0, line := 0 }

/-- `MemoryReaderWriter::read`, `sps_io_memory.cpp:57-72`. `nread` is a `size_t` holding the minimum of two `int`s, so
`nread <= 0` only catches zero. -/
def read (m : MemIo) (size : Nat) : Option (ReadRes × MemIo) :=
  let nread := u64 (min (i32 size) (i32 (sub32 m.buf.length m.pos)))
  if size = 0 then some (.err Err.ERROR_IO_BUFFER_FULL, m)
  else if nread = 0 then some (.err Err.ERROR_IO_EOF, m)
  else if m.pos + nread ≤ m.buf.length then
    some (.ok ((m.buf.drop m.pos).take nread), { m with pos := m.pos + nread })
  else none

/-- `MemoryReaderWriter::read_fully`, `sps_io_memory.cpp:97-112`. `n < size` compares as `size_t`. -/
def readFully (m : MemIo) (size : Nat) : Option (ReadRes × MemIo) :=
  let n := u64 (min (i32 size) (i32 (sub32 m.buf.length m.pos)))
  if n < size ∨ n = 0 then some (.err Err.ERROR_IO_EOF, m)
  else if m.pos + n ≤ m.buf.length then
    some (.ok ((m.buf.drop m.pos).take n), { m with pos := m.pos + n })
  else none

/-- The scan of `read_line`, `sps_io_memory.cpp:81-82`: the position after `while (pos < len && buf[pos++] != '\n')`,
run over the rest of the buffer. -/
def scanLine : List UInt8 → Nat → Nat
  | [], pos => pos
  | b :: bs, pos => if b = 10 then pos + 1 else scanLine bs (pos + 1)

/-- `MemoryReaderWriter::read_line`, `sps_io_memory.cpp:74-91`. -/
def readLine (m : MemIo) : Option (ReadRes × MemIo) :=
  if m.buf.length ≤ m.pos then some (.err Err.ERROR_IO_EOF, m)
  else
    let pos := scanLine (m.buf.drop m.pos) m.pos
    let tlen := if pos < m.buf.length then pos - m.pos - 1 else pos - m.pos
    if m.pos + tlen ≤ m.buf.length then some (.ok ((m.buf.drop m.pos).take tlen), { m with pos := pos, line := m.line + 1 })
    else none

/-- `MemoryReaderWriter::write`, `sps_io_memory.cpp:121-129`. -/
def write (m : MemIo) (d : List UInt8) : Option (Err × MemIo) :=
  if sub32 m.buf.length m.pos < d.length then some (Err.ERROR_MEM_SOCKET_WRITE, m)
  else if m.pos + d.length ≤ m.buf.length then
    some (Err.SUCCESS, { m with buf := m.buf.take m.pos ++ d ++ m.buf.drop (m.pos + d.length) })
  else none

end MemIo

/-- `FileURLProtocol` as a text file, `sps_io_url_file.cpp:76-123`: the bytes not read yet, the stream's `eofbit`
and the line counter. -/
structure FileIo where
  rest : List UInt8
  eof : Bool
  line : Nat
deriving DecidableEq, Repr

namespace FileIo

/-- What `std::getline` takes: the bytes before the next newline, the bytes after it, whether the end was hit. -/
def getline : List UInt8 → List UInt8 × List UInt8 × Bool
  | [] => ([], [], true)
  | b :: bs => if b = 10 then ([], bs, false) else
    let (l, r, e) := getline bs
    (b :: l, r, e)

/-- `FileURLProtocol::read_line`, `sps_io_url_file.cpp:103-113`; `getline` is the C++ library's: it fails when the end
was already hit or when it extracts nothing at the end. -/
def readLine (f : FileIo) : ReadRes × FileIo :=
  if f.eof then (.err Err.ERROR_IO_EOF, f)
  else match f.rest with
    | [] => (.err Err.ERROR_IO_EOF, { f with eof := true })
    | r => let (l, r', e) := getline r
      (.ok l, { rest := r', eof := e, line := f.line + 1 })

end FileIo
end Sps
