import Verif.Model.Num
/-!
# Model of `CharBuffer` (`/repo/src/cache/sps_cache_buffer.{hpp,cpp}`)

`none` is a failed `assert` or an access outside the allocation.
-/
namespace Sps

/-- `CharBuffer`, `sps_cache_buffer.hpp:54-90`: `mem` is the allocation of `head_len + cap_len` bytes. -/
structure CharBuf where
  mem : List UInt8
  len : Nat
  head : Nat
  cap : Nat
deriving DecidableEq, Repr

namespace CharBuf

/-- `CharBuffer(buf, len, head_len)`, `sps_cache_buffer.cpp:39-49`; `junk` is the uninitialised head area. -/
def deepCopy (data junk : List UInt8) : CharBuf :=
  { mem := junk ++ data, len := data.length, head := junk.length, cap := data.length }

/-- `CharBuffer(cap, head_len)`, `sps_cache_buffer.cpp:51-56`; `mem0` is the uninitialised allocation of
`cap + head_len` bytes. -/
def ofCap (mem0 : List UInt8) (head : Nat) : CharBuf :=
  { mem := mem0, len := 0, head := head, cap := mem0.length - head }

/-- `buffer()` up to `size()`, `sps_cache_buffer.hpp:67-68`: what a client sees. -/
def content (b : CharBuf) : List UInt8 := (b.mem.drop b.head).take b.len

/-- `size()`, `sps_cache_buffer.hpp:68`. -/
def size (b : CharBuf) : Nat := b.len

/-- `remain()`, `sps_cache_buffer.hpp:83` (`uint32_t`). -/
def remain (b : CharBuf) : Nat := sub32 b.cap b.len

/-- `append(p, sz)`, `sps_cache_buffer.hpp:72-76`: copies to `pos() = buf + len`, `:82`. -/
def append (b : CharBuf) (d : List UInt8) : Option CharBuf :=
  if d.length ≤ b.remain ∧ b.len + d.length ≤ b.mem.length then
    some { b with mem := b.mem.take b.len ++ d ++ b.mem.drop (b.len + d.length), len := b.len + d.length }
  else none

/-- `skip(sz)`, `sps_cache_buffer.hpp:78-81`. -/
def skip (b : CharBuf) (n : Nat) : Option CharBuf :=
  if n ≤ b.remain then some { b with len := b.len + n } else none

/-- A sequence of appends. -/
def appendAll : CharBuf → List (List UInt8) → Option CharBuf
  | b, [] => some b
  | b, d :: ds => (b.append d).bind fun b' => appendAll b' ds

end CharBuf
end Sps
