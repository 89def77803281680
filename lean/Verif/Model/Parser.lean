import Verif.Model.Grammar
/-! The parser: all parse trees of a token list in the order in which ANTLR prefers them.

The generated parser (sqlite_parser.go) decides at every alternative, option and loop with ANTLR's ALL(*) look-ahead
(`AdaptivePredict`): it takes the first alternative (for non-greedy loops: leaving the loop first) with which the
rest of the input can still be parsed in full. So for an input with a parse it builds the first parse in the order of
alternatives, and for an input without one it reports a syntax error. `runs` lists all parses in that order. -/
namespace Verif.Gram
open Verif Verif.Lex

/-- Parse trees (antlr.ParserRuleContext): tokens, rules with their children, labelled children. A `seg` is the part
of an `expr` to the right of its left operand and only occurs while an `expr` is put together.
The parser that parser_antlr.go 68-71 runs on the rules of SQLiteParser.g4 37-1122. -/
inductive Tree
  | leaf (t : Token)
  | node (r : Rule) (cs : List Tree)
  | lab (l : Lab) (cs : List Tree)
  | seg (cs : List Tree)

/-- All results for all elements in order; `none` if one of them ran out of fuel.
The parser that parser_antlr.go 68-71 runs on the rules of SQLiteParser.g4 37-1122. -/
def bindAll {α β : Type} : List α → (α → Option (List β)) → Option (List β)
  | [], _ => some []
  | a :: l, f => (f a).bind (fun x => (bindAll l f).map (fun y => x ++ y))

/-- The trees of `expr`: the primary expression, then every suffix makes all before it its left operand
(`PushNewRecursionContext` in sqlite_parser.go, `expr(_p int)`). SQLiteParser.g4 401-442. -/
def addSegs (left : Tree) : List Tree → Tree
  | .seg cs :: r => addSegs (.node .expr (left :: cs)) r
  | _ => left

/-- The children before the first suffix. SQLiteParser.g4 401-442. -/
def beforeSegs : List Tree → List Tree
  | .seg _ :: _ => []
  | t :: r => t :: beforeSegs r
  | [] => []

/-- The first suffix and all after it. SQLiteParser.g4 401-442. -/
def fromSegs : List Tree → List Tree
  | .seg cs :: r => .seg cs :: r
  | _ :: r => fromSegs r
  | [] => []

/-- The tree of an `expr` from its primary expression and suffixes. SQLiteParser.g4 401-442. -/
def foldExpr (l : List Tree) : List Tree := [addSegs (.node .expr (beforeSegs l)) (fromSegs l)]

/-- A result: the trees and the tokens left.
The parser that parser_antlr.go 68-71 runs on the rules of SQLiteParser.g4 37-1122. -/
abbrev PRes := List Tree × List Token

/-- One token. The parser that parser_antlr.go 68-71 runs on the rules of SQLiteParser.g4 37-1122. -/
def one (f : Tok → Bool) : List Token → List PRes
  | [] => []
  | x :: r => if f x.kind then [([.leaf x], r)] else []

/-- All parses of a part of the grammar at the front of the tokens, preferred ones first; `none` means out of
fuel (`runs_total` gives enough fuel).
The parser that parser_antlr.go 68-71 runs on the rules of SQLiteParser.g4 37-1122. -/
def runs : Nat → Elem → List Token → Option (List PRes)
  | 0, _, _ => none
  | n + 1, e, ts => match e with
    | .eps => some [([], ts)]
    | .tok t => some (one (fun k => decide (k = t)) ts)
    | .set f => some (one f ts)
    | .eof => some (if ts.isEmpty then [([], [])] else [])
    | .seq a b => (runs n a ts).bind (fun l =>
        bindAll l (fun p => (runs n b p.2).map (fun m => m.map (fun q => (p.1 ++ q.1, q.2)))))
    | .alt a b => (runs n a ts).bind (fun l => (runs n b ts).map (fun m => l ++ m))
    | .star a => (runs n a ts).bind (fun l =>
        (bindAll l (fun p => (runs n (.star a) p.2).map (fun m => m.map (fun q => (p.1 ++ q.1, q.2))))).map
          (fun m => m ++ [([], ts)]))
    | .nstar a => (runs n a ts).bind (fun l =>
        (bindAll l (fun p => (runs n (.nstar a) p.2).map (fun m => m.map (fun q => (p.1 ++ q.1, q.2))))).map
          (fun m => ([], ts) :: m))
    | .lab l a => (runs n a ts).map (fun m => m.map (fun p => ([.lab l p.1], p.2)))
    | .nt r => (runs n (body r) ts).map (fun m => m.map (fun p => ([.node r p.1], p.2)))
    | .expr p => (runs n (exprBody p) ts).map (fun m => m.map (fun q => (foldExpr q.1, q.2)))
    | .seg a => (runs n a ts).map (fun m => m.map (fun p => ([.seg p.1], p.2)))

/-- Enough fuel for the tokens (`runs_total` in Lemmas/Parser.lean).
The parser that parser_antlr.go 68-71 runs on the rules of SQLiteParser.g4 37-1122. -/
def fuelFor (ts : List Token) : Nat := 400 * (ts.length + 1)

/-- All parses, preferred ones first.
The parser that parser_antlr.go 68-71 runs on the rules of SQLiteParser.g4 37-1122. -/
def parses (e : Elem) (ts : List Token) : List PRes := (runs (fuelFor ts) e ts).getD []

/-- The parse tree of a whole input: the preferred parse of `parse`; `none` is a syntax error.
parser_antlr.go 71-75. -/
def parseTree (ts : List Token) : Option Tree :=
  match parses (.nt .parse) ts with
  | ([t], _) :: _ => some t
  | _ => none

end Verif.Gram
