import Verif.Spec.Io
import Verif.Model.Url
/-!
# HTTP/1.1 message framing (RFC 7230), as far as the properties need it
-/
namespace Spec
open Sps

/-- A transport on which `s` arrives, in whatever pieces, without an error before its end, and then `cl`. -/
structure Arrives (io : Io) (s : List UInt8) (cl : Err) : Prop where
  ok : ioOk io = true
  noErr : noErr io.evs = true
  stream : streamOf io.evs = s
  closed : io.closed = cl

namespace Http

def CR : UInt8 := 13
def LF : UInt8 := 10
def crlf : List UInt8 := [CR, LF]

/-- The empty line that ends a header, with the end of the line before it. -/
def headEnd : List UInt8 := crlf ++ crlf

/-- A header with these lines (the first is the request or status line). -/
def head (lines : List (List UInt8)) : List UInt8 := lines.flatMap (· ++ crlf) ++ crlf

/-- A line is not empty and contains neither CR nor LF. -/
def lineOk (l : List UInt8) : Prop := l ≠ [] ∧ ∀ b ∈ l, b ≠ CR ∧ b ≠ LF

instance (l : List UInt8) : Decidable (lineOk l) := by unfold lineOk; infer_instance

/-- HEXDIG, either case. -/
def hexDigit (b : UInt8) : Option Nat :=
  (ascii "0123456789abcdef").findIdx? (· == b) <|> (ascii "0123456789ABCDEF").findIdx? (· == b)

/-- The value of hexadecimal digits; `none` if there is another character. -/
def hexValue : (acc : Nat) → List UInt8 → Option Nat
  | acc, [] => some acc
  | acc, b :: r => (hexDigit b).bind fun d => hexValue (16 * acc + d) r

/-- A decimal digit. -/
def decDigit (b : UInt8) : Option Nat := (ascii "0123456789").findIdx? (· == b)

/-- The value of decimal digits; `none` if there is another character. -/
def decValue : (acc : Nat) → List UInt8 → Option Nat
  | acc, [] => some acc
  | acc, b :: r => (decDigit b).bind fun d => decValue (10 * acc + d) r

/-- The line before a chunk: its size in hexadecimal digits, then possibly an extension. -/
def sizeLine (l : List UInt8) (n : Nat) : Prop :=
  ∃ ds ext, l = ds ++ ext ∧ ds ≠ [] ∧ hexValue 0 ds = some n ∧ (ext = [] ∨ ext.head? = some 59) ∧ ∀ b ∈ ext, b ≠ CR ∧ b ≠ LF

/-- A chunk: size line, data. -/
def chunk (c : List UInt8 × List UInt8) : List UInt8 := c.1 ++ crlf ++ c.2 ++ crlf

/-- A body in chunked coding (without trailers): the chunks, then one of size 0 with size line `z`. -/
def coded (cs : List (List UInt8 × List UInt8)) (z : List UInt8) : List UInt8 := cs.flatMap chunk ++ chunk (z, [])

/-- Chunks are not empty and have their size before them, in a line of at most 31 characters. -/
structure codedOk (cs : List (List UInt8 × List UInt8)) (z : List UInt8) : Prop where
  sizes : ∀ c ∈ cs, c.2 ≠ [] ∧ sizeLine c.1 c.2.length ∧ c.1.length ≤ 31 ∧ c.2.length < 2 ^ 64
  last : sizeLine z 0
  short : z.length ≤ 31

/-- What the chunks carry. -/
def content (cs : List (List UInt8 × List UInt8)) : List UInt8 := cs.flatMap (·.2)

/-- `body` arrives as the body of a message whose header says `chunked` or gives the length `cl` (negative: none), in whatever pieces and
chunks; a reader is told `closed` at its end. With chunks or a length anything may follow (`t`, then the connection ends with `e`). -/
inductive BodyArrives : (chunked : Bool) → (cl : Int) → Io → (body : List UInt8) → (closed : Err) → Prop
  | chunks (cl : Int) {io : Io} {cs : List (List UInt8 × List UInt8)} {z t : List UInt8} {e : Err} (ok : codedOk cs z)
      (arr : Arrives io (coded cs z ++ t) e) : BodyArrives true cl io (content cs) Err.ERROR_HTTP_RES_EOF
  | length {io : Io} {body t : List UInt8} {e : Err} (some : body ≠ []) (small : body.length < 2 ^ 31)
      (arr : Arrives io (body ++ t) e) : BodyArrives false body.length io body Err.ERROR_HTTP_RES_EOF
  | close {cl : Int} {io : Io} {body : List UInt8} {e : Err} (none : cl < 0) (arr : Arrives io body e) : BodyArrives false cl io body e

/-- Chunks are not empty and have their size before them (as in `codedOk`, without the last chunk). -/
def chunksOk (cs : List (List UInt8 × List UInt8)) : Prop := ∀ c ∈ cs, c.2 ≠ [] ∧ sizeLine c.1 c.2.length ∧ c.1.length ≤ 31 ∧ c.2.length < 2 ^ 64

/-- The connection ends with `e` in the middle of a body, of which `part` has arrived. -/
inductive BodyCut : (chunked : Bool) → (cl : Int) → Io → (part : List UInt8) → (e : Err) → Prop
  /-- before a chunk, or in the line before it -/
  | line (cl : Int) {io : Io} {cs : List (List UInt8 × List UInt8)} {l p : List UInt8} {n : Nat} {e : Err} (ok : chunksOk cs) (size : sizeLine l n)
      (short : l.length ≤ 31) (pre : p <+: l ++ [CR]) (arr : Arrives io (cs.flatMap chunk ++ p) e) : BodyCut true cl io (content cs) e
  /-- inside the data of a chunk -/
  | data (cl : Int) {io : Io} {cs : List (List UInt8 × List UInt8)} {l d : List UInt8} {n : Nat} {e : Err} (ok : chunksOk cs) (size : sizeLine l n)
      (short : l.length ≤ 31) (small : n < 2 ^ 64) (pre : d.length < n) (arr : Arrives io (cs.flatMap chunk ++ (l ++ crlf ++ d)) e) :
      BodyCut true cl io (content cs ++ d) e
  /-- before the announced length -/
  | length {n : Nat} {io : Io} {part : List UInt8} {e : Err} (small : n < 2 ^ 31) (pre : part.length < n) (arr : Arrives io part e) :
      BodyCut false n io part e

/-- What a client gets as the body of an answer: all of it, or, if it is not in chunks, the part that came before the connection was lost. -/
def BodyComes (chunked : Bool) (cl : Int) (io : Io) (b : List UInt8) (closed : Err) : Prop :=
  BodyArrives chunked cl io b closed ∨ (chunked = false ∧ BodyCut chunked cl io b closed)

/-- A query: `key=value`, joined with `&`. -/
def renderQuery : List Header → List UInt8
  | [] => []
  | [(k, v)] => k ++ ascii "=" ++ v
  | (k, v) :: ps => k ++ ascii "=" ++ v ++ ascii "&" ++ renderQuery ps

/-- A header field as a line. -/
def fieldLine (h : Header) : List UInt8 := h.1 ++ ascii ": " ++ h.2 ++ crlf

/-- The fields that say where the body ends. -/
def isFraming (h : Header) : Bool := h.1 == ascii "Content-Length" || h.1 == ascii "Transfer-Encoding"

end Http
end Spec
