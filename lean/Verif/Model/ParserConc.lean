import Verif.Model.Visitor
import Verif.Model.NetConc
/-! Concurrent use of parser objects: sql/parser/sqlite/parser_antlr.go, which has no lock.

`ParseString` is a program of single accesses to the fields of the parser object and of calls on the objects of the
ANTLR runtime. Goroutines interleave step by step. An input stream with the lexer, the token stream and the ANTLR
parser made on top of it is one thing, named by a number: it is read once, by one `Parse`. What ANTLR does when two
calls read the same stream, or when `Parse` runs before the error listener was added, is left open: any tree may come
out. Left out: the message of the listener, and the tables that ANTLR shares between its parsers. -/
namespace Verif.PConc
open Verif Verif.Lex Verif.Gram Verif.Query Verif.Parse
open Verif.Net (upd)

/-- An input stream, or what was made on top of it: which one, and the text. parser_antlr.go 64-67. -/
structure Src where
  id : Nat
  text : Str
  deriving DecidableEq

/-- The fields of a parser, and the flag of its error listener. parser_antlr.go 26-33, parser_antlr_error_listener.go 24-28. -/
inductive Field
  | input | lexer | tokens | parser | stmts | done
  deriving DecidableEq

/-- What a field holds. parser_antlr.go 26-33, parser_antlr_error_listener.go 24-28. -/
def Val : Field → Type
  | .input => Src
  | .lexer => Src
  | .tokens => Src
  | .parser => Src
  | .stmts => List Statement
  | .done => Bool

/-- The fields of a parser. parser_antlr.go 26-33. -/
abbrev Mem := (f : Field) → Val f

/-- An assignment. parser_antlr.go 26-33. -/
def Mem.set (m : Mem) (f : Field) (v : Val f) : Mem := fun g => if h : f = g then h ▸ v else m g

/-- A parser object and the ANTLR objects made by its calls: how many streams were made, which of them a listener was
added to, which of them a `Parse` has begun to read (once for each `Parse`). parser_antlr.go 26-33. -/
structure Obj where
  mem : Mem
  made : Nat
  heard : List Nat
  begun : List Nat

/-- Programs: the end with an answer, accesses, and calls on ANTLR: a new stream, `AddErrorListener`, and the begin and
the end of `Parse`, which gives a tree or reports a syntax error (`none`). parser_antlr.go 50-85. -/
inductive Prog
  | ret (r : Res (List Statement))
  | read (f : Field) (k : Val f → Prog)
  | write (f : Field) (v : Val f) (k : Prog)
  | new (q : Str) (k : Src → Prog)
  | listen (o : Src) (k : Prog)
  | start (o : Src) (k : Prog)
  | finish (o : Src) (k : Option Tree → Prog)

/-- After the test of the listener: the visitor, `parser.stmts = stmtList` and `return parser.stmts`. parser_antlr.go 77-84. -/
def visitPart (toUint : Str → Option Nat) (t : Tree) : Prog :=
  match Visit.statements toUint t with
  | .ok l => .write .stmts l (.read .stmts fun l' => .ret (.ok l'))
  | .err => .ret .err
  | .panic => .ret .panic

/-- After `Parse`: `SyntaxError` has set the flag of the listener; the flag is read. parser_antlr.go 72-75,
parser_antlr_error_listener.go 39-49. -/
def checkPart (toUint : Str → Option Nat) : Option Tree → Prog
  | none => .write .done false (.read .done fun _ => .ret .err)
  | some t => .read .done fun (d : Bool) => if d then visitPart toUint t else .ret .err

/-- `ParseString`. parser_antlr.go 50-85. -/
def code (toUint : Str → Option Nat) (q : Str) : Prog :=
  if isEmptyQuery q then .ret .err
  else .new q fun i => .write .input i <|
    .read .input fun i => .write .lexer i <|
    .read .lexer fun l => .write .tokens l <|
    .read .tokens fun s => .write .parser s <|
    .read .parser fun o => .listen o <|
    .read .parser fun _ =>
    .read .parser fun o => .start o <| .finish o <| checkPart toUint

/-- What `Parse` may give: on a stream that only this call reads, and with the listener added, what the grammar says;
otherwise anything. parser_antlr.go 68-70. -/
def Obj.Gives (x : Obj) (o : Src) (out : Option Tree) : Prop := x.begun.count o.id = 1 → o.id ∈ x.heard → out = treeOf o.text

/-- One access or call. parser_antlr.go 50-85. -/
inductive Obj.Does : Obj → Prog → Obj → Prog → Prop
  | read (x : Obj) (f k) : Does x (.read f k) x (k (x.mem f))
  | write (x : Obj) (f v k) : Does x (.write f v k) { x with mem := x.mem.set f v } k
  | new (x : Obj) (q k) : Does x (.new q k) { x with made := x.made + 1 } (k ⟨x.made, q⟩)
  | listen (x : Obj) (o k) : Does x (.listen o k) { x with heard := o.id :: x.heard } k
  | start (x : Obj) (o k) : Does x (.start o k) { x with begun := o.id :: x.begun } k
  | finish (x : Obj) (o k out) (h : x.Gives o out) : Does x (.finish o k) x (k out)

/-- The parsers, and the goroutines: the parser and the query of the call a goroutine is in, and what is left of it.
parser_antlr.go 26-33. -/
structure Conf where
  obj : Nat → Obj
  pc : Nat → Option (Nat × Str × Prog)

/-- What an observer sees: goroutine `t` calls `ParseString(q)` of parser `p`; the call returns. parser_antlr.go 50-85. -/
inductive Event
  | call (t p : Nat) (q : Str)
  | ret (t p : Nat) (q : Str) (r : Res (List Statement))

/-- One step of one goroutine, with the event it shows. parser_antlr.go 50-85. -/
inductive Conf.Step (toUint : Str → Option Nat) : Conf → Option Event → Conf → Prop
  | call (s : Conf) (t p q) (h : s.pc t = none) :
      Step toUint s (some (.call t p q)) { s with pc := upd s.pc t (some (p, q, code toUint q)) }
  | does (s : Conf) (t p q a x b) (h : s.pc t = some (p, q, a)) (hd : (s.obj p).Does a x b) :
      Step toUint s none { obj := upd s.obj p x, pc := upd s.pc t (some (p, q, b)) }
  | ret (s : Conf) (t p q r) (h : s.pc t = some (p, q, .ret r)) :
      Step toUint s (some (.ret t p q r)) { s with pc := upd s.pc t none }

/-- Executions with the events they show. parser_antlr.go 50-85. -/
inductive Conf.Run (toUint : Str → Option Nat) : Conf → List Event → Conf → Prop
  | refl (s) : Run toUint s [] s
  | step {s h s1 e s2} (r : Run toUint s h s1) (st : Step toUint s1 e s2) : Run toUint s (h ++ e.toList) s2

/-- The fields of a new parser; the nil pointers are streams that are never read. parser_antlr.go 36-46,
parser_antlr_error_listener.go 30-37. -/
def Mem.new : Mem
  | .input => (⟨0, []⟩ : Src)
  | .lexer => (⟨0, []⟩ : Src)
  | .tokens => (⟨0, []⟩ : Src)
  | .parser => (⟨0, []⟩ : Src)
  | .stmts => ([] : List Statement)
  | .done => true

/-- A new parser. parser_antlr.go 36-46. -/
def Obj.new : Obj := { mem := Mem.new, made := 0, heard := [], begun := [] }

/-- New parsers, nobody inside. parser_antlr.go 36-46. -/
def Conf.init : Conf := { obj := fun _ => Obj.new, pc := fun _ => none }

end Verif.PConc
