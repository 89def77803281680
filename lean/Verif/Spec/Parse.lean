import Verif.Spec.Grammar
import Verif.Spec.Lexer
import Verif.Spec.Syntax
/-! What a parsed query should be, apart from the visitor. -/
namespace Verif.Spec
open Verif Verif.Lex Verif.Gram Verif.Query

/-- The kind of SQL statement of an object. -/
def kindOf : Statement → Rule
  | .createDatabase .. => .create_database_stmt
  | .createTable .. => .create_table_stmt
  | .createIndex .. => .create_index_stmt
  | .insert .. => .insert_stmt
  | .select .. => .select_stmt
  | .update .. => .update_stmt
  | .delete .. => .delete_stmt
  | .dropDatabase .. => .drop_database_stmt
  | .dropTable .. => .drop_table_stmt
  | .dropIndex .. => .drop_index_stmt
  | .alterDatabase .. => .alter_database_stmt
  | .alterTable .. => .alter_table_stmt
  | .copy .. => .copy_stmt
  | .commit => .commit_stmt
  | .vacuum .. => .vacuum_stmt
  | .truncate .. => .truncate_stmt
  | .begin => .begin_stmt
  | .rollback => .rollback_stmt
  | .use .. => .use_stmt

/-- The text `q` writes the tokens `toks`, with any layout and comments between them. -/
def Writes (q : Str) (toks : List Token) : Prop := ∃ ts, Tokenised rules q ts ∧ visible ts = toks

/-- The queries that are not rejected at once. -/
def NonEmpty (q : Str) : Prop := q ≠ [] ∧ q ≠ s%";"

/-- The queries of the grammar. -/
def WellFormed (q : Str) : Prop := NonEmpty q ∧ ∃ toks, Writes q toks ∧ Query toks

/-- A literal whose value can be told from its text: a string has quotes, and no further quotes just inside them. -/
def Lit.Plain : Lit → Prop
  | .str s => ∃ v, s = '\'' :: v ++ ['\''] ∧ BareEnds v
  | _ => True

/-- The object of a literal: a string without its quotes, anything else as written. -/
def Lit.value (sp : Spelling) : Lit → Literal
  | .str s => { v := .str s.tail.dropLast, t := .string }
  | l => { v := .str (textOf (l.toks sp)) }

/-- An ordering term with its direction; ascending if none is written. -/
def OrderS.value (o : OrderS) : Order :=
  { column := o.col, order := match o.dir with
      | some .desc => .desc
      | _ => .asc }

/-- The numbers of a LIMIT clause: first the limit, then the offset. -/
def LimitS.numbers : LimitS → Option Str × Option Str
  | .none => (Option.none, Option.none)
  | .only n => (some n, Option.none)
  | .offset n m => (some n, some m)
  | .comma m n => (some n, some m)

/-- The comparison operator of a symbol. -/
def CmpSym.value : CmpSym → CmpOp
  | .eq => .eq | .ne1 => .neq | .ne2 => .neq | .lt => .lt | .le => .le | .gt => .gt | .ge => .ge

/-- The object of a comparison. -/
def CmpS.value (sp : Spelling) (c : CmpS) : Cmp :=
  { op := c.op.value, left := { name := c.col }, right := some (c.lit.value sp) }

/-- The object of a condition. -/
def CondS.value (sp : Spelling) : CondS → Expr
  | .one c => .cmp (c.value sp)
  | .and a b => .and (.cmp (a.value sp)) (.cmp (b.value sp))
  | .or a b => .or (.cmp (a.value sp)) (.cmp (b.value sp))

/-- All literals of a condition are plain. -/
def CondS.Plain : CondS → Prop
  | .one c => c.lit.Plain
  | .and a b | .or a b => a.lit.Plain ∧ b.lit.Plain

/-- The WHERE condition of a statement, if it can have one. -/
def StmtS.cond : StmtS → Option CondS
  | .select s => s.cond
  | .update u => u.cond
  | .delete d => d.cond
  | .insert _ | .ddl _ => none

/-- The condition a statement object reports. -/
def reportedCond : Statement → Option Expr
  | .select s => s.cond
  | .update u => u.cond
  | .delete d => d.cond
  | _ => none

end Verif.Spec
