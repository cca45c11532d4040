import Verif.Model.Conf
import Verif.Spec.Http
/-!
# Configuration files: what a text says

Words and lines are described by relations, without an algorithm. A configuration file is a list of directives and
blocks (`Tree`), one per line, possibly with empty lines and comments.
-/
namespace Spec.Conf
open Sps Sps.Conf

/-- White space: tab, LF, VT, FF, CR, blank. -/
def space (b : UInt8) : Prop := b ∈ ([9, 10, 11, 12, 13, 32] : List UInt8)

/-- `line` consists of the words `ws` with white space between them, and possibly before and behind them. -/
inductive IsWords : Text → List Text → Prop
  | none (sp : Text) : (∀ b ∈ sp, space b) → IsWords sp []
  | word (sp w rest : Text) (ws : List Text) : (∀ b ∈ sp, space b) → w ≠ [] → (∀ b ∈ w, ¬space b) →
      (∀ b, rest.head? = some b → space b) → IsWords rest ws → IsWords (sp ++ w ++ rest) (w :: ws)

/-- `file` consists of the lines `ls`, each but possibly the last followed by LF. -/
inductive IsLines : Text → List Text → Prop
  | none : IsLines [] []
  | last (l : Text) : l ≠ [] → (∀ b ∈ l, b ≠ 10) → IsLines l [l]
  | line (l rest : Text) (ls : List Text) : (∀ b ∈ l, b ≠ 10) → IsLines rest ls → IsLines (l ++ 10 :: rest) (l :: ls)

/-- A word that ends a directive, or begins or ends a block: its last character is one of `;`, `{`, `}`. -/
def final (w : Text) : Prop := ∃ c, w.getLast? = some c ∧ c ∈ ([59, 123, 125] : List UInt8)

/-- A word that begins a comment. -/
def pound (w : Text) : Prop := w.head? = some 35

/-- Nothing, or a comment. -/
def trail (ws : List Text) : Prop := ∀ w, ws.head? = some w → pound w

/-- Words with a blank between them. -/
def join : List Text → Text
  | [] => []
  | [w] => w
  | w :: v :: r => w ++ 32 :: join (v :: r)

/-- What the words of a line say. -/
inductive Says : List Text → Line → Prop
  | empty : Says [] .empty
  /-- a comment; if one of its words is final, then the next one must begin a comment again -/
  | comment (w : Text) (ws : List Text) : pound w → (∀ x ∈ w :: ws, ¬final x) → Says (w :: ws) .comment
  | commentFinal (ws post : List Text) (e : Text) : (∀ w, (ws ++ [e]).head? = some w → pound w) → (∀ x ∈ ws, ¬final x) →
      final e → trail post → Says (ws ++ e :: post) .comment
  /-- `cmd arg … arg;` or `cmd arg … arg ;` -/
  | item (cmd w : Text) (ws post : List Text) : ¬pound cmd → (∀ x ∈ cmd :: ws, ¬final x) → trail post →
      Says (cmd :: (ws ++ (w ++ [59]) :: post)) (.item cmd (join (if w = [] then ws else ws ++ [w])))
  /-- `cmd arg … arg {`; what stands directly before the brace is ignored -/
  | start (cmd w : Text) (ws post : List Text) : ¬pound cmd → (∀ x ∈ cmd :: ws, ¬final x) → trail post →
      Says (cmd :: (ws ++ (w ++ [123]) :: post)) (.start cmd (join ws))
  /-- `}`; everything before it is ignored -/
  | close (w : Text) (ws post : List Text) : (∀ x, (ws ++ [w ++ [125]]).head? = some x → ¬pound x) → (∀ x ∈ ws, ¬final x) →
      trail post → Says (ws ++ (w ++ [125]) :: post) .close

/-- What a line says. -/
def LineSays (l : Text) (x : Line) : Prop := ∃ ws, IsWords l ws ∧ Says ws x

/-- No line begins a block `root`. -/
def noRoot (lines : List Text) : Prop := ∀ l ∈ lines, ∀ a, ¬LineSays l (.start Kind.root.name a)

/-- A directive with its argument, or a block. -/
inductive Tree
  | dir (name arg : Text)
  | block (name arg : Text) (kids : List Tree)

/-- The lines `ls` are the directives and blocks `ts`. -/
inductive Writes : List Text → List Tree → Prop
  | done : Writes [] []
  | skip (l : Text) (ls : List Text) (ts : List Tree) : LineSays l .empty ∨ LineSays l .comment → Writes ls ts → Writes (l :: ls) ts
  | dir (l n a : Text) (ls : List Text) (ts : List Tree) : LineSays l (.item n a) → Writes ls ts → Writes (l :: ls) (.dir n a :: ts)
  | block (l n a c : Text) (is ls : List Text) (ks ts : List Tree) : LineSays l (.start n a) → Writes is ks →
      LineSays c .close → Writes ls ts → Writes (l :: (is ++ c :: ls)) (.block n a ks :: ts)

/-- Which blocks may be inside which. -/
def accepts (outer inner : Kind) (arg : Text) : Prop :=
  match outer with
  | .root | .upstream | .stream => True
  | .http | .rtmp | .srt => inner = .server
  | .server | .globalHost => inner = .host ∧ arg ≠ []
  | .host => inner = .stream ∨ inner = .upstream
  | .location => False

/-- Directives and blocks that may be inside a block of this kind: a directive does not name a block; blocks have a
known name (but not `root` and not `location`) and may be where they are. -/
inductive Legal : Kind → List Tree → Prop
  | nil (k : Kind) : Legal k []
  | dir (k : Kind) (n a : Text) (ts : List Tree) : (∀ o ∈ k.opts, o.name = n → o.type ≠ .sub) → Legal k ts → Legal k (.dir n a :: ts)
  | block (k k' : Kind) (a : Text) (ks ts : List Tree) : k' ≠ .root → k' ≠ .location → accepts k k' a → Legal k' ks →
      Legal k ts → Legal k (.block k'.name a ks :: ts)

/-- The argument of the last directive of this name. -/
def lastArg (n : Text) : List Tree → Option Text
  | [] => none
  | .dir m a :: ts => match lastArg n ts with
    | some b => some b
    | none => if m = n then some a else none
  | .block _ _ _ :: ts => lastArg n ts

/-- The value of an option in a block: that of the last directive naming it, or its default. -/
def value (k : Kind) (ts : List Tree) (n : Text) : Option Val :=
  match k.opts.find? fun o => o.name = n with
  | none => none
  | some o => o.value ((lastArg n ts).getD o.dflt)

mutual
/-- The module a block stands for; a directive stands for none. -/
def inner : Tree → Option Module
  | .dir _ _ => none
  | .block n a ks => (Kind.ofName n).map fun k => .mk k a (value k ks) (inners ks)
termination_by structural t => t
/-- The modules the blocks in a block stand for, in their order. -/
def inners : List Tree → List Module
  | [] => []
  | t :: ts => match inner t with
    | some m => m :: inners ts
    | none => inners ts
termination_by structural ts => ts
end

/-- The module a block stands for. -/
def build (k : Kind) (name : Text) (ts : List Tree) : Module := .mk k name (value k ts) (inners ts)

/-- A word without white space that does not end a directive or a block. -/
def plain (w : Text) : Prop := w ≠ [] ∧ (∀ b ∈ w, ¬space b) ∧ ¬final w

/-- Directives and blocks whose names and arguments consist of plain words. -/
inductive Clean : List Tree → Prop
  | nil : Clean []
  | dir (n : Text) (ws : List Text) (ts : List Tree) : plain n → ¬pound n → (∀ w ∈ ws, plain w) → Clean ts → Clean (.dir n (join ws) :: ts)
  | block (n : Text) (ws : List Text) (ks ts : List Tree) : plain n → ¬pound n → (∀ w ∈ ws, plain w) → Clean ks → Clean ts →
      Clean (.block n (join ws) ks :: ts)

mutual
/-- The usual way to write a directive (`name arg;`) or a block (`name arg {`, its lines, `}`). -/
def render : Tree → List Text
  | .dir n a => [n ++ 32 :: (a ++ [59])]
  | .block n a ks => (n ++ 32 :: (if a = [] then [123] else a ++ [32, 123])) :: (renders ks ++ [[125]])
termination_by structural t => t
def renders : List Tree → List Text
  | [] => []
  | t :: ts => render t ++ renders ts
termination_by structural ts => ts
end

/-- A file with these lines. -/
def fileOf (ls : List Text) : Text := ls.flatMap (· ++ [10])

/-- The meaning of the argument of an option: a decimal number (`-1` for a time: for ever; nothing: 0), `on` or `off`, a text. -/
inductive Means : OptType → Text → Val → Prop
  | int (ds : Text) (n : Nat) : ds ≠ [] → Http.decValue 0 ds = some n → n < 2 ^ 31 → Means .int ds (.int n)
  | intNeg (ds : Text) (n : Nat) : ds ≠ [] → Http.decValue 0 ds = some n → n ≤ 2 ^ 31 → Means .int (45 :: ds) (.int (-n))
  | u64 (ds : Text) (n : Nat) : ds ≠ [] → Http.decValue 0 ds = some n → n < 2 ^ 63 → Means .u64 ds (.u64 n)
  | forever : Means .u64 (ascii "-1") (.u64 (2 ^ 64 - 1))
  | noInt : Means .int [] (.int 0)
  | noU64 : Means .u64 [] (.u64 0)
  | str (s : Text) : (∀ b ∈ s, b ≠ 0) → Means .str s (.str s)
  | on : Means .bool (ascii "on") (.bool true)
  | off : Means .bool (ascii "off") (.bool false)

/-- The options a user can set: in which blocks, their type and their value when they are not set. -/
def documented : List (List Kind × Text × OptType × Val) :=
  [([.http, .rtmp, .srt], ascii "keepalive_timeout", .int, .int 10),
   ([.http, .rtmp, .srt], ascii "access_log", .str, .str (ascii "access.log")),
   ([.srt], ascii "srt_tlpktdrop", .int, .int 0),
   ([.srt], ascii "srt_nakreport", .int, .int 0),
   ([.srt], ascii "srt_transtype", .str, .str (ascii "live")),
   ([.server], ascii "listen_port", .int, .int 80),
   ([.server], ascii "server_name", .str, .str []),
   ([.server], ascii "transport", .str, .str (ascii "tcp")),
   ([.server], ascii "recv_timeout", .u64, .u64 (2 ^ 64 - 1)),
   ([.server], ascii "send_timeout", .u64, .u64 (2 ^ 64 - 1)),
   ([.server], ascii "reuse_port", .bool, .bool false),
   ([.server], ascii "backlog", .int, .int 1024),
   ([.server, .host], ascii "ssl_key_file", .str, .str []),
   ([.server, .host], ascii "ssl_crt_file", .str, .str []),
   ([.host], ascii "enabled", .bool, .bool true),
   ([.host], ascii "pass_proxy", .str, .str []),
   ([.host], ascii "pass_url", .str, .str []),
   ([.host], ascii "role", .str, .str (ascii "edge")),
   ([.host], ascii "type", .str, .str (ascii "proxy")),
   ([.host], ascii "edge_avformat", .str, .str (ascii "-")),
   ([.stream], ascii "avformat", .str, .str (ascii "-")),
   ([.stream], ascii "edge", .bool, .bool true),
   ([.stream], ascii "pass_proxy", .str, .str (ascii "-")),
   ([.upstream], ascii "name", .str, .str (ascii "unknown upstream name")),
   ([.upstream], ascii "server", .str, .str (ascii "unknown upstream server")),
   ([.upstream], ascii "keepalive", .int, .int 10)]

end Spec.Conf
