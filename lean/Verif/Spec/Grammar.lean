import Verif.Model.Parser
/-! What the grammar means: which trees it derives for which tokens. -/
namespace Verif.Spec
open Verif Verif.Lex Verif.Gram

/-- `Derives e ts tr rest`: part `e` of the grammar derives the trees `tr` for the tokens at the front of `ts`, with
`rest` left over. -/
inductive Derives : Elem → List Token → List Tree → List Token → Prop
  | eps (ts : List Token) : Derives .eps ts [] ts
  | tok (x : Token) (r : List Token) : Derives (.tok x.kind) (x :: r) [.leaf x] r
  | set (f : Tok → Bool) (x : Token) (r : List Token) (h : f x.kind = true) : Derives (.set f) (x :: r) [.leaf x] r
  | eof : Derives .eof [] [] []
  | seq {a b : Elem} {ts us vs : List Token} {l m : List Tree} (h : Derives a ts l us) (k : Derives b us m vs) :
      Derives (.seq a b) ts (l ++ m) vs
  | altLeft {a b : Elem} {ts us : List Token} {l : List Tree} (h : Derives a ts l us) : Derives (.alt a b) ts l us
  | altRight {a b : Elem} {ts us : List Token} {l : List Tree} (h : Derives b ts l us) : Derives (.alt a b) ts l us
  | starNil (a : Elem) (ts : List Token) : Derives (.star a) ts [] ts
  | starCons {a : Elem} {ts us vs : List Token} {l m : List Tree} (h : Derives a ts l us)
      (k : Derives (.star a) us m vs) : Derives (.star a) ts (l ++ m) vs
  | nstarNil (a : Elem) (ts : List Token) : Derives (.nstar a) ts [] ts
  | nstarCons {a : Elem} {ts us vs : List Token} {l m : List Tree} (h : Derives a ts l us)
      (k : Derives (.nstar a) us m vs) : Derives (.nstar a) ts (l ++ m) vs
  | lab (q : Lab) {a : Elem} {ts us : List Token} {l : List Tree} (h : Derives a ts l us) :
      Derives (.lab q a) ts [.lab q l] us
  | nt (r : Rule) {ts us : List Token} {l : List Tree} (h : Derives (body r) ts l us) :
      Derives (.nt r) ts [.node r l] us
  | expr (p : Nat) {ts us : List Token} {l : List Tree} (h : Derives (exprBody p) ts l us) :
      Derives (.expr p) ts (foldExpr l) us
  | seg {a : Elem} {ts us : List Token} {l : List Tree} (h : Derives a ts l us) : Derives (.seg a) ts [.seg l] us

/-- The tokens are a query of the grammar: the start rule derives a tree for all of them. -/
def Query (ts : List Token) : Prop := ∃ t, Derives (.nt .parse) ts [t] []

/-- The children of a rule include one of rule `q`. -/
def Includes (q : Rule) (cs : List Tree) : Prop := ∃ ds, Tree.node q ds ∈ cs

/-- An indexed column that is an expression instead of a column name. -/
def IndexedExpr (cs : List Tree) : Prop := ∃ ds, Tree.node .indexed_column ds ∈ cs ∧ ¬ Includes .column_name ds

/-- Statements of the grammar that the code after the parser is not prepared for: INSERT without a VALUES clause,
UPDATE that assigns to a list of columns, an index or a primary key on an expression. -/
def Unprepared (r : Rule) (cs : List Tree) : Prop :=
  (r = .insert_stmt ∧ ¬ Includes .values_clause cs) ∨
  (r = .update_stmt ∧ ∃ ds, Tree.node .update_column_set ds ∈ cs ∧ ¬ Includes .column_name ds) ∨
  (r = .create_index_stmt ∧ IndexedExpr cs) ∨
  (r = .create_table_stmt ∧ ∃ ds es, Tree.node .table_constraint ds ∈ cs ∧ Tree.node .primary_key_def es ∈ ds ∧ IndexedExpr es)

/-- The statement of an `sql_stmt`: its last child, after EXPLAIN. -/
def lastStmt (s : List Tree) : List (Rule × List Tree) :=
  match s.getLast? with
  | some (.node r cs) => [(r, cs)]
  | _ => []

/-- The statements of a list of statements. -/
def listStmts (l : List Tree) : List (Rule × List Tree) :=
  l.flatMap (fun c => match c with
    | .node .sql_stmt s => lastStmt s
    | _ => [])

/-- The statements of a query in order: for each the kind and the parts. -/
def queryStmts (t : Tree) : List (Rule × List Tree) :=
  match t with
  | .node .parse ls => ls.flatMap (fun c => match c with
    | .node .sql_stmt_list l => listStmts l
    | _ => [])
  | _ => []

/-- The kinds of statements that have an object in the query package. -/
def Represented : Rule → Bool
  | .create_database_stmt | .create_table_stmt | .create_index_stmt | .drop_database_stmt | .drop_table_stmt
  | .drop_index_stmt | .alter_database_stmt | .alter_table_stmt | .insert_stmt | .update_stmt | .select_stmt
  | .delete_stmt | .commit_stmt | .begin_stmt | .rollback_stmt | .use_stmt | .copy_stmt | .truncate_stmt
  | .vacuum_stmt => true
  | _ => false

end Verif.Spec
