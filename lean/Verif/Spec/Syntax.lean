import Verif.Model.Visitor
/-! A small SQL syntax of its own: statements as data, and the tokens in which they are written. -/
namespace Verif.Spec
open Verif Verif.Lex

/-- How a query writes its keywords and operators (letter case is free). -/
abbrev Spelling := Tok → Str

/-- A keyword or operator. -/
def kw (sp : Spelling) (k : Tok) : Token := ⟨k, sp k⟩
/-- A name. -/
def ident (a : Str) : Token := ⟨.IDENTIFIER, a⟩

/-- The spelling is one of SQL, as far as the texts matter. -/
structure Spelling.Good (sp : Spelling) : Prop where
  asc : Str.upper (sp .ASC_) = s%"ASC"
  desc : Str.upper (sp .DESC_) = s%"DESC"
  add : sp .PLUS = s%"+"
  sub : sp .MINUS = s%"-"
  mul : sp .STAR = s%"*"
  div : sp .DIV = s%"/"
  mod : sp .MOD = s%"%"
  dot : sp .DOT = s%"."
  opn : sp .OPEN_PAR = s%"("
  cls : sp .CLOSE_PAR = s%")"
  text : Str.upper (sp .TEXT_) = s%"TEXT"
  csv : Str.upper (sp .CSV_) = s%"CSV"
  binary : Str.upper (sp .BINARY_) = s%"BINARY"

/-- The usual spelling: keywords in capital letters. -/
def Spelling.std : Spelling
  | .SELECT_ => s%"SELECT" | .FROM_ => s%"FROM" | .WHERE_ => s%"WHERE" | .GROUP_ => s%"GROUP" | .ORDER_ => s%"ORDER"
  | .BY_ => s%"BY" | .ASC_ => s%"ASC" | .DESC_ => s%"DESC" | .LIMIT_ => s%"LIMIT" | .OFFSET_ => s%"OFFSET"
  | .AND_ => s%"AND" | .OR_ => s%"OR" | .INSERT_ => s%"INSERT" | .INTO_ => s%"INTO" | .VALUES_ => s%"VALUES"
  | .UPDATE_ => s%"UPDATE" | .SET_ => s%"SET" | .DELETE_ => s%"DELETE" | .NULL_ => s%"NULL" | .TRUE_ => s%"TRUE"
  | .FALSE_ => s%"FALSE" | .CURRENT_TIME_ => s%"CURRENT_TIME" | .CURRENT_DATE_ => s%"CURRENT_DATE"
  | .CURRENT_TIMESTAMP_ => s%"CURRENT_TIMESTAMP" | .COMMA => s%"," | .SCOL => s%";" | .OPEN_PAR => s%"("
  | .CLOSE_PAR => s%")" | .STAR => s%"*" | .PLUS => s%"+" | .MINUS => s%"-" | .DIV => s%"/" | .MOD => s%"%"
  | .ASSIGN => s%"=" | .NOT_EQ1 => s%"!=" | .NOT_EQ2 => s%"<>" | .LT => s%"<" | .LT_EQ => s%"<=" | .GT => s%">"
  | .GT_EQ => s%">=" | .DOT => s%"." | .CREATE_ => s%"CREATE" | .DROP_ => s%"DROP" | .ALTER_ => s%"ALTER"
  | .DATABASE_ => s%"DATABASE" | .TABLE_ => s%"TABLE" | .INDEX_ => s%"INDEX" | .PRIMARY_ => s%"PRIMARY" | .KEY_ => s%"KEY"
  | .IF_ => s%"IF" | .NOT_ => s%"NOT" | .EXISTS_ => s%"EXISTS" | .ON_ => s%"ON" | .RENAME_ => s%"RENAME" | .TO_ => s%"TO"
  | .COLUMN_ => s%"COLUMN" | .ADD_ => s%"ADD" | .USE_ => s%"USE" | .COPY_ => s%"COPY" | .TEXT_ => s%"TEXT" | .CSV_ => s%"CSV"
  | .BINARY_ => s%"BINARY" | .TRUNCATE_ => s%"TRUNCATE" | .VACUUM_ => s%"VACUUM" | .BEGIN_ => s%"BEGIN"
  | .COMMIT_ => s%"COMMIT" | .ROLLBACK_ => s%"ROLLBACK" | .UNIQUE_ => s%"UNIQUE" | _ => []

theorem std_good : Spelling.std.Good := ⟨rfl, rfl, rfl, rfl, rfl, rfl, rfl, rfl, rfl, rfl, rfl, rfl, rfl⟩

/-- Lists written with commas. -/
def commas (sp : Spelling) : List (List Token) → List Token
  | [] => []
  | x :: xs => x ++ xs.flatMap (fun y => kw sp .COMMA :: y)

/-- Literals that are words. -/
inductive LitWord | null | true | false | time | date | timestamp
  deriving DecidableEq, Repr

/-- The token of a word. -/
def LitWord.tok : LitWord → Tok
  | .null => .NULL_ | .true => .TRUE_ | .false => .FALSE_
  | .time => .CURRENT_TIME_ | .date => .CURRENT_DATE_ | .timestamp => .CURRENT_TIMESTAMP_

/-- Literals; the text of a string includes its quotes, and words carry their spelling, which is part of the value. -/
inductive Lit
  | num (s : Str)
  | plus (s : Str)
  | minus (s : Str)
  | str (s : Str)
  | blob (s : Str)
  | word (w : LitWord) (s : Str)
  | bind (s : Str)
  deriving DecidableEq, Repr

/-- The tokens of a literal. -/
def Lit.toks (sp : Spelling) : Lit → List Token
  | .num s => [⟨.NUMERIC_LITERAL, s⟩]
  | .plus s => [kw sp .PLUS, ⟨.NUMERIC_LITERAL, s⟩]
  | .minus s => [kw sp .MINUS, ⟨.NUMERIC_LITERAL, s⟩]
  | .str s => [⟨.STRING_LITERAL, s⟩]
  | .blob s => [⟨.BLOB_LITERAL, s⟩]
  | .word w s => [⟨w.tok, s⟩]
  | .bind s => [⟨.BIND_PARAMETER, s⟩]

/-- The text of tokens, without anything between them. -/
def textOf (ts : List Token) : Str := ts.flatMap (·.text)

/-- Comparison operators; there are two ways to write "not equal". -/
inductive CmpSym | eq | ne1 | ne2 | lt | le | gt | ge
  deriving DecidableEq, Repr

/-- The token of a comparison operator. -/
def CmpSym.tok : CmpSym → Tok
  | .eq => .ASSIGN | .ne1 => .NOT_EQ1 | .ne2 => .NOT_EQ2 | .lt => .LT | .le => .LT_EQ | .gt => .GT | .ge => .GT_EQ

/-- A comparison of a column with a literal. -/
structure CmpS where
  col : Str
  op : CmpSym
  lit : Lit
  deriving DecidableEq, Repr

/-- The tokens of a comparison. -/
def CmpS.toks (sp : Spelling) (c : CmpS) : List Token := ident c.col :: kw sp c.op.tok :: c.lit.toks sp

/-- Conditions: one comparison or two. -/
inductive CondS
  | one (c : CmpS)
  | and (a b : CmpS)
  | or (a b : CmpS)
  deriving DecidableEq, Repr

/-- The tokens of a condition. -/
def CondS.toks (sp : Spelling) : CondS → List Token
  | .one c => c.toks sp
  | .and a b => a.toks sp ++ kw sp .AND_ :: b.toks sp
  | .or a b => a.toks sp ++ kw sp .OR_ :: b.toks sp

/-- `WHERE condition`, or nothing. -/
def whereToks (sp : Spelling) : Option CondS → List Token
  | none => []
  | some c => kw sp .WHERE_ :: c.toks sp

/-- A column or a literal. -/
inductive Atom
  | col (a : Str)
  | lit (l : Lit)
  deriving DecidableEq, Repr

/-- The tokens of an atom. -/
def Atom.toks (sp : Spelling) : Atom → List Token
  | .col a => [ident a]
  | .lit l => l.toks sp

/-- The arguments of a function. -/
inductive ArgsS
  | star
  | none
  | list (a : Atom) (as : List Atom)
  deriving DecidableEq, Repr

/-- The tokens of the arguments. -/
def ArgsS.toks (sp : Spelling) : ArgsS → List Token
  | .star => [kw sp .STAR]
  | .none => []
  | .list a as => commas sp ((a :: as).map (Atom.toks sp))

/-- What a SELECT selects. -/
inductive ItemS
  | star
  | atom (a : Atom)
  | fn (f : Str) (args : ArgsS)
  deriving DecidableEq, Repr

/-- The tokens of a selected item. -/
def ItemS.toks (sp : Spelling) : ItemS → List Token
  | .star => [kw sp .STAR]
  | .atom a => a.toks sp
  | .fn f args => ident f :: kw sp .OPEN_PAR :: (args.toks sp ++ [kw sp .CLOSE_PAR])

/-- Directions. -/
inductive Dir | asc | desc
  deriving DecidableEq, Repr

/-- The token of a direction. -/
def Dir.tok : Dir → Tok
  | .asc => .ASC_ | .desc => .DESC_

/-- An ordering term; the direction may be left out. -/
structure OrderS where
  col : Str
  dir : Option Dir
  deriving DecidableEq, Repr

/-- The tokens of an optional direction. -/
def dirToks (sp : Spelling) : Option Dir → List Token
  | none => []
  | some d => [kw sp d.tok]

/-- The tokens of an ordering term. -/
def OrderS.toks (sp : Spelling) (o : OrderS) : List Token := ident o.col :: dirToks sp o.dir

/-- LIMIT clauses. -/
inductive LimitS
  | none
  | only (n : Str)
  | offset (n m : Str)
  | comma (m n : Str)
  deriving DecidableEq, Repr

/-- A number. -/
def number (n : Str) : Token := ⟨.NUMERIC_LITERAL, n⟩

/-- The tokens of a LIMIT clause. -/
def LimitS.toks (sp : Spelling) : LimitS → List Token
  | .none => []
  | .only n => [kw sp .LIMIT_, number n]
  | .offset n m => [kw sp .LIMIT_, number n, kw sp .OFFSET_, number m]
  | .comma m n => [kw sp .LIMIT_, number m, kw sp .COMMA, number n]

/-- The tokens of an ORDER BY clause. -/
def ordersToks (sp : Spelling) : List OrderS → List Token
  | [] => []
  | o :: os => kw sp .ORDER_ :: kw sp .BY_ :: commas sp ((o :: os).map (OrderS.toks sp))

/-- The tokens of a GROUP BY clause. -/
def groupToks (sp : Spelling) : Option Str → List Token
  | none => []
  | some g => [kw sp .GROUP_, kw sp .BY_, ident g]

/-- A table, possibly with the schema it is in. -/
structure TabS where
  schema : Option Str := none
  name : Str
  deriving DecidableEq, Repr

/-- The tokens of a table. -/
def TabS.toks (sp : Spelling) (t : TabS) : List Token :=
  match t.schema with
  | none => [ident t.name]
  | some s => [ident s, kw sp .DOT, ident t.name]

/-- The tokens of a FROM clause. -/
def fromToks (sp : Spelling) : List TabS → List Token
  | [] => []
  | t :: ts => kw sp .FROM_ :: commas sp ((t :: ts).map (TabS.toks sp))

/-- A SELECT statement: a first item, more items, tables, condition, grouping, ordering and limit. -/
structure SelectS where
  item : ItemS
  items : List ItemS
  tables : List TabS
  cond : Option CondS
  group : Option Str
  orders : List OrderS
  limit : LimitS
  deriving DecidableEq, Repr

/-- The tokens of a SELECT. -/
def SelectS.toks (sp : Spelling) (s : SelectS) : List Token :=
  kw sp .SELECT_ :: (commas sp ((s.item :: s.items).map (ItemS.toks sp)) ++ (fromToks sp s.tables ++
    (whereToks sp s.cond ++ (groupToks sp s.group ++ (ordersToks sp s.orders ++ s.limit.toks sp)))))

/-- A parenthesised list. -/
def parens (sp : Spelling) (ts : List Token) : List Token := kw sp .OPEN_PAR :: (ts ++ [kw sp .CLOSE_PAR])

/-- A row of values: a first one and more. -/
structure RowS where
  val : Lit
  vals : List Lit
  deriving DecidableEq, Repr

/-- All values of a row. -/
def RowS.all (r : RowS) : List Lit := r.val :: r.vals

/-- The tokens of a row. -/
def RowS.toks (sp : Spelling) (r : RowS) : List Token := parens sp (commas sp (r.all.map (Lit.toks sp)))

/-- An INSERT statement. -/
structure InsertS where
  table : Str
  col : Str
  cols : List Str
  row : RowS
  rows : List RowS
  deriving DecidableEq, Repr

/-- All columns of an INSERT. -/
def InsertS.names (i : InsertS) : List Str := i.col :: i.cols

/-- The tokens of an INSERT. -/
def InsertS.toks (sp : Spelling) (i : InsertS) : List Token :=
  kw sp .INSERT_ :: kw sp .INTO_ :: ident i.table ::
    (parens sp (commas sp (i.names.map (fun c => [ident c]))) ++
      kw sp .VALUES_ :: commas sp ((i.row :: i.rows).map (RowS.toks sp)))

/-- Arithmetic operators. -/
inductive ArithSym | add | sub | mul | div | mod
  deriving DecidableEq, Repr

/-- The token of an arithmetic operator. -/
def ArithSym.tok : ArithSym → Tok
  | .add => .PLUS | .sub => .MINUS | .mul => .STAR | .div => .DIV | .mod => .MOD

/-- What an assignment assigns. -/
inductive RhsS
  | lit (l : Lit)
  | arith (c : Str) (o : ArithSym) (a : Atom)
  deriving DecidableEq, Repr

/-- The tokens of the right-hand side. -/
def RhsS.toks (sp : Spelling) : RhsS → List Token
  | .lit l => l.toks sp
  | .arith c o a => ident c :: kw sp o.tok :: a.toks sp

/-- An assignment. -/
structure SetS where
  col : Str
  rhs : RhsS
  deriving DecidableEq, Repr

/-- The tokens of an assignment. -/
def SetS.toks (sp : Spelling) (a : SetS) : List Token := ident a.col :: kw sp .ASSIGN :: a.rhs.toks sp

/-- An UPDATE statement. -/
structure UpdateS where
  table : Str
  asg : SetS
  asgs : List SetS
  cond : Option CondS
  deriving DecidableEq, Repr

/-- The tokens of an UPDATE. -/
def UpdateS.toks (sp : Spelling) (u : UpdateS) : List Token :=
  kw sp .UPDATE_ :: ident u.table :: kw sp .SET_ :: (commas sp ((u.asg :: u.asgs).map (SetS.toks sp)) ++ whereToks sp u.cond)

/-- A DELETE statement. -/
structure DeleteS where
  table : Str
  cond : Option CondS
  deriving DecidableEq, Repr

/-- The tokens of a DELETE. -/
def DeleteS.toks (sp : Spelling) (d : DeleteS) : List Token :=
  kw sp .DELETE_ :: kw sp .FROM_ :: ident d.table :: whereToks sp d.cond

/-! ### Definition of data, and the other statements -/

/-- `IF NOT EXISTS`, or nothing. -/
def ineToks (sp : Spelling) (b : Bool) : List Token := if b then [kw sp .IF_, kw sp .NOT_, kw sp .EXISTS_] else []
/-- `IF EXISTS`, or nothing. -/
def ieToks (sp : Spelling) (b : Bool) : List Token := if b then [kw sp .IF_, kw sp .EXISTS_] else []

/-- The kinds of tokens that are words of a type: most are names for the lexer. -/
inductive TypeKind | ident | text | set
  deriving DecidableEq, Repr

/-- The token of a word of a type. -/
def TypeKind.tok : TypeKind → Tok
  | .ident => .IDENTIFIER | .text => .TEXT_ | .set => .SET_

/-- Constraints of a column. -/
inductive ConsS | primaryKey | notNull | unique
  deriving DecidableEq, Repr

/-- The tokens of a constraint. -/
def ConsS.toks (sp : Spelling) : ConsS → List Token
  | .primaryKey => [kw sp .PRIMARY_, kw sp .KEY_]
  | .notNull => [kw sp .NOT_, kw sp .NULL_]
  | .unique => [kw sp .UNIQUE_]

/-- A column definition: a name, a type of one word, possibly a length, and constraints. -/
structure ColS where
  name : Str
  kind : TypeKind
  typ : Str
  len : Option Str
  cons : List ConsS := []
  deriving DecidableEq, Repr

/-- The tokens of a length. -/
def lenToks (sp : Spelling) : Option Str → List Token
  | none => []
  | some n => parens sp [number n]

/-- The tokens of a column definition. -/
def ColS.toks (sp : Spelling) (c : ColS) : List Token :=
  ident c.name :: ⟨c.kind.tok, c.typ⟩ :: (lenToks sp c.len ++ c.cons.flatMap (ConsS.toks sp))

/-- A secondary index of a table, on one column; the word INDEX is in capital letters, as the parser asks for. -/
structure IdxS where
  name : Str
  col : Str
  deriving DecidableEq, Repr

/-- The tokens of a secondary index. -/
def IdxS.toks (sp : Spelling) (i : IdxS) : List Token := ⟨.INDEX_, s%"INDEX"⟩ :: ident i.name :: parens sp [ident i.col]

/-- Names in parentheses: a first one and more. -/
def namesToks (sp : Spelling) (c : Str) (cs : List Str) : List Token := parens sp (commas sp ((c :: cs).map (fun c => [ident c])))

/-- A primary key of a table: a first column and more. -/
structure KeyS where
  col : Str
  cols : List Str
  deriving DecidableEq, Repr

/-- The tokens of a primary key. -/
def KeyS.toks (sp : Spelling) (k : KeyS) : List Token := kw sp .PRIMARY_ :: kw sp .KEY_ :: namesToks sp k.col k.cols

/-- A table: columns, then secondary indexes, then primary keys. -/
structure TableS where
  name : Str
  col : ColS
  cols : List ColS
  idxs : List IdxS
  keys : List KeyS
  deriving DecidableEq, Repr

/-- The tokens of a table. -/
def TableS.toks (sp : Spelling) (t : TableS) : List Token :=
  ident t.name :: parens sp (commas sp ((t.col :: t.cols).map (ColS.toks sp) ++ (t.idxs.map (IdxS.toks sp) ++ t.keys.map (KeyS.toks sp))))

/-- The changes ALTER TABLE makes; the word DROP is carried, as it becomes part of the name. -/
inductive AlterS
  | renameTo (t : Str)
  | renameColumn (a b : Str)
  | addIndex (n c : Str) (cs : List Str)
  | addKey (c : Str) (cs : List Str)
  | addColumn (c : ColS)
  | dropColumn (w c : Str)
  deriving DecidableEq, Repr

/-- The tokens of a change. -/
def AlterS.toks (sp : Spelling) : AlterS → List Token
  | .renameTo t => [kw sp .RENAME_, kw sp .TO_, ident t]
  | .renameColumn a b => [kw sp .RENAME_, kw sp .COLUMN_, ident a, kw sp .TO_, ident b]
  | .addIndex n c cs => kw sp .ADD_ :: kw sp .INDEX_ :: ident n :: namesToks sp c cs
  | .addKey c cs => kw sp .ADD_ :: kw sp .PRIMARY_ :: kw sp .KEY_ :: namesToks sp c cs
  | .addColumn c => kw sp .ADD_ :: c.toks sp
  | .dropColumn w c => [⟨.DROP_, w⟩, ident c]

/-- Formats of COPY. -/
inductive FormatS | text | csv | binary
  deriving DecidableEq, Repr

/-- The token of a format. -/
def FormatS.tok : FormatS → Tok
  | .text => .TEXT_ | .csv => .CSV_ | .binary => .BINARY_

/-- The columns of COPY, or nothing. -/
def copyColsToks (sp : Spelling) : List Str → List Token
  | [] => []
  | c :: cs => namesToks sp c cs

/-- Statements other than SELECT, INSERT, UPDATE and DELETE. -/
inductive DdlS
  | createDatabase (ine : Bool) (n : Str)
  | createTable (ine : Bool) (t : TableS)
  | createIndex (ine : Bool) (n t c : Str) (cs : List Str)
  | dropDatabase (ie : Bool) (n : Str)
  | dropTable (ie : Bool) (t : Str) (ts : List Str)
  | dropIndex (ie : Bool) (i : TabS)
  | alterDatabase (n m : Str)
  | alterTable (t : TabS) (a : AlterS)
  | use (n : Str)
  | copy (t : Str) (cols : List Str) (src : Str) (f : FormatS)
  | truncate (t : Str) (ts : List Str)
  | vacuum (t : Option Str)
  | begin
  | commit
  | rollback
  deriving DecidableEq, Repr

/-- The tokens of these statements. -/
def DdlS.toks (sp : Spelling) : DdlS → List Token
  | .createDatabase b n => kw sp .CREATE_ :: kw sp .DATABASE_ :: (ineToks sp b ++ [ident n])
  | .createTable b t => kw sp .CREATE_ :: kw sp .TABLE_ :: (ineToks sp b ++ t.toks sp)
  | .createIndex b n t c cs => kw sp .CREATE_ :: kw sp .INDEX_ :: (ineToks sp b ++ ident n :: kw sp .ON_ :: ident t :: namesToks sp c cs)
  | .dropDatabase b n => kw sp .DROP_ :: kw sp .DATABASE_ :: (ieToks sp b ++ [ident n])
  | .dropTable b t ts => kw sp .DROP_ :: kw sp .TABLE_ :: (ieToks sp b ++ commas sp ((t :: ts).map (fun c => [ident c])))
  | .dropIndex b i => kw sp .DROP_ :: kw sp .INDEX_ :: (ieToks sp b ++ i.toks sp)
  | .alterDatabase n m => [kw sp .ALTER_, kw sp .DATABASE_, ident n, kw sp .RENAME_, kw sp .TO_, ident m]
  | .alterTable t a => kw sp .ALTER_ :: kw sp .TABLE_ :: (t.toks sp ++ a.toks sp)
  | .use n => [kw sp .USE_, ident n]
  | .copy t cs s f => kw sp .COPY_ :: ident t :: (copyColsToks sp cs ++ [kw sp .FROM_, ident s, kw sp f.tok])
  | .truncate t ts => kw sp .TRUNCATE_ :: kw sp .TABLE_ :: commas sp ((t :: ts).map (fun c => [ident c]))
  | .vacuum none => [kw sp .VACUUM_]
  | .vacuum (some t) => [kw sp .VACUUM_, ident t]
  | .begin => [kw sp .BEGIN_]
  | .commit => [kw sp .COMMIT_]
  | .rollback => [kw sp .ROLLBACK_]

/-- Statements. -/
inductive StmtS
  | select (s : SelectS)
  | insert (i : InsertS)
  | update (u : UpdateS)
  | delete (d : DeleteS)
  | ddl (d : DdlS)
  deriving DecidableEq, Repr

/-- The tokens of a statement. -/
def StmtS.toks (sp : Spelling) : StmtS → List Token
  | .select s => s.toks sp
  | .insert i => i.toks sp
  | .update u => u.toks sp
  | .delete d => d.toks sp
  | .ddl d => d.toks sp

/-- The tokens of statements with `;` between them and `n` times `;` after the last one. -/
def queryToks (sp : Spelling) (s : StmtS) (ss : List StmtS) (n : Nat) : List Token :=
  s.toks sp ++ (ss.flatMap (fun s => kw sp .SCOL :: s.toks sp) ++ List.replicate n (kw sp .SCOL))

end Verif.Spec
