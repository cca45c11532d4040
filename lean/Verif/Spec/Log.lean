import Verif.Spec.HttpConn
import Verif.Model.Log
/-!
# Log lines

What a log line should say.
-/
namespace Spec.Log
open Sps

/-- The parts of a message: fixed text, text given by someone, and numbers. -/
inductive Piece
  | lit (t : Text)
  | text (t : Text)
  | num (n : Int)

/-- Fixed text has no `%`, texts of the C library no byte 0, and numbers are those of the machine. -/
def Piece.Ok : Piece → Prop
  | .lit t => (37 : UInt8) ∉ t
  | .text t => (0 : UInt8) ∉ t
  | .num n => n.natAbs < 2 ^ 64

/-- Decimal digits, without zeros before them. -/
def Digits (n : Nat) (t : Text) : Prop := t ≠ [] ∧ Http.decValue 0 t = some n ∧ (n ≠ 0 → t.head? ≠ some 48)
/-- A number in decimal notation. -/
def Decimal (n : Int) (t : Text) : Prop := (0 ≤ n ∧ Digits n.natAbs t) ∨ (n < 0 ∧ ∃ r, t = 45 :: r ∧ Digits n.natAbs r)

/-- The message: its parts one after the other. -/
inductive Shown : List Piece → Text → Prop
  | nil : Shown [] []
  | lit {t m : Text} {ps : List Piece} : Shown ps m → Shown (.lit t :: ps) (t ++ m)
  | text {t m : Text} {ps : List Piece} : Shown ps m → Shown (.text t :: ps) (t ++ m)
  | num {n : Int} {t m : Text} {ps : List Piece} : Decimal n t → Shown ps m → Shown (.num n :: ps) (t ++ m)

/-- The format and the arguments a program gives for it. -/
def fmt : List Piece → Text
  | [] => []
  | .lit t :: ps => t ++ fmt ps
  | .text _ :: ps => ascii "%s" ++ fmt ps
  | .num _ :: ps => ascii "%d" ++ fmt ps
def args : List Piece → List LogArg
  | [] => []
  | .lit _ :: ps => args ps
  | .text t :: ps => .str t :: args ps
  | .num n :: ps => .num n :: args ps

/-- Every `%` of the first text is followed by another, and the second text has one of each two. -/
inductive Halved : Text → Text → Prop
  | nil : Halved [] []
  | char {b : UInt8} {s t : Text} : b ≠ 37 → Halved s t → Halved (b :: s) (b :: t)
  | pair {s t : Text} : Halved s t → Halved (37 :: 37 :: s) (37 :: t)

/-- A `%` that is not followed by another one, and the first of its kind. -/
def Percent (t : Text) : Prop := ∃ x b y, t = x ++ 37 :: b :: y ∧ (37 : UInt8) ∉ x ∧ b ≠ 37

/-- What should be said about an HTTP request without a body. (The address of the client would be where nothing is.) -/
def httpLine (a : HttpConn.Ask) : List Piece :=
  [.lit (ascii "Request "), .text [], .lit (ascii ":"), .num (((a.port.bind (Http.decValue 0)).getD 80 : Nat) : Int), .lit (ascii " "), .text a.method, .lit (ascii " "), .text a.host,
   .lit (ascii " "), .text a.target, .lit (ascii " "), .text (a.query.getD []), .lit (ascii ", chunked "), .num 0, .lit (ascii ", content-length "), .num (-1), .lit (ascii "\r\n")]

/-- What should be said about an RTMP connection: address and port of the client, and the URL. -/
def rtmpLine (ip : Text) (port : Int) (url : Text) : List Piece :=
  [.lit (ascii "Request client "), .text ip, .lit (ascii ":"), .num port, .lit (ascii ", "), .text url, .lit (ascii "\r\n")]

/-- What should be said about an SRT connection: the stream id, the URL and the mode in it. -/
def srtLine (id url mode : Text) : List Piece :=
  [.lit (ascii "success parse srt streamid "), .text id, .lit (ascii ", url "), .text url, .lit (ascii ", mode "), .text mode, .lit (ascii "\r\n")]

/-- A time of a calendar. -/
def Moment (t : LogTime) : Prop := t.year < 10000 ∧ t.mon < 100 ∧ t.day < 100 ∧ t.hour < 100 ∧ t.min < 100 ∧ t.sec < 100 ∧ t.ms < 1000

/-- A number in a field of digits. -/
def Field (width n : Nat) (t : Text) : Prop := t.length = width ∧ Http.decValue 0 t = some n

/-- `[YYYY-MM-DD hh:mm:ss.mmm] `. -/
def Stamped (t : LogTime) (s : Text) : Prop :=
  ∃ y mo d h mi se ms, Field 4 t.year y ∧ Field 2 t.mon mo ∧ Field 2 t.day d ∧ Field 2 t.hour h ∧ Field 2 t.min mi ∧ Field 2 t.sec se ∧ Field 3 t.ms ms ∧
    s = ascii "[" ++ y ++ ascii "-" ++ mo ++ ascii "-" ++ d ++ ascii " " ++ h ++ ascii ":" ++ mi ++ ascii ":" ++ se ++ ascii "." ++ ms ++ ascii "] "

/-- Lines and coroutines are numbers of the machine. -/
def At (w : LogAt) : Prop := w.line < 2 ^ 32 ∧ w.id.natAbs < 2 ^ 32 ∧ Moment w.time

/-- Before the message: file and line of the program, and coroutine. -/
def origin (file : Text) (w : LogAt) : List Piece :=
  [.lit (ascii "["), .text file, .lit (ascii ":"), .num w.line, .lit (ascii "] ["), .num w.id, .lit (ascii "] ")]

/-- What is printed: the time and the message, if they fit 4095 bytes, otherwise as much. -/
def Prints (t : LogTime) (ps : List Piece) (out : Text) : Prop := ∃ s m, Stamped t s ∧ Shown ps m ∧ out = (s ++ m).take 4095

/-- One line: it ends with a line feed and has no other. -/
def OneLine (l : Text) : Prop := ∃ b, l = b ++ ascii "\r\n" ∧ (10 : UInt8) ∉ b

end Spec.Log
