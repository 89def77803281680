import Verif.Model.Helpers
import Verif.Spec.Others
import Verif.Spec.Query
/-! What a written change of a table does to its schema, and scripts of such changes. -/
namespace Verif.Spec
open Verif Verif.Lex Verif.Query

/-- What the tokens of a change of ALTER TABLE do to a schema when the reported statement is applied to it: the schema
afterwards and the answer. -/
inductive Effect (s : Schema) : List Token → Schema → Res Unit → Prop
  | addColumn (w : Token) (c ts : List Token) (d : Def) (x : Column) (hw : w.kind = .ADD_) (hc : Maybe [.COLUMN_] c) (hd : DefTokens ts d)
      (hx : Declared d (some x)) : Effect s (w :: (c ++ ts)) { table := s.table, columns := s.columns ++ [x], indexes := s.indexes } (.ok ())
  | addNothing (w : Token) (c ts : List Token) (d : Def) (hw : w.kind = .ADD_) (hc : Maybe [.COLUMN_] c) (hd : DefTokens ts d)
      (hx : Declared d none) : Effect s (w :: (c ++ ts)) s (.ok ())
  | addIndex (w : Token) (con : List Token) (o : Token) (body : List Token) (c : Token) (cs : List Column) (i : Index) (hw : w.kind = .ADD_)
      (ho : o.kind = .OPEN_PAR) (hc : c.kind = .CLOSE_PAR) (hb : Sep (fun ts c => ∃ n, BareTokens ts n ∧ c = { name := n }) body cs)
      (hi : AddIndexTokens con cs i) :
      Effect s (w :: (con ++ o :: (body ++ [c]))) { table := s.table, columns := s.columns, indexes := s.indexes ++ [i] } (.ok ())
  | rename (w : Token) (r : List Token) (hw : w.kind = .RENAME_) : Effect s (w :: r) s .err
  | dropColumn (w : Token) (c n : List Token) (cols : List Column) (hw : w.kind = .DROP_) (hc : Maybe [.COLUMN_] c) (hn : NameTokens n)
      (hd : RemovedFirst (fun x : Column => ¬ SameName x.name (textOf (w :: (c ++ n)))) s.columns cols) :
      Effect s (w :: (c ++ n)) { table := s.table, columns := cols, indexes := s.indexes } (.ok ())
  | dropNone (w : Token) (c n : List Token) (hw : w.kind = .DROP_) (hc : Maybe [.COLUMN_] c) (hn : NameTokens n)
      (hd : ∀ x, x ∈ s.columns → SameName x.name (textOf (w :: (c ++ n)))) : Effect s (w :: (c ++ n)) s .err

/-- A statement as an ALTER TABLE: it is one, or one can be made of it. -/
def asAlter : Statement → Option AlterTable
  | .alterTable a => some a
  | s => newAlterTableFrom s

/-- A script, as the statements that a query reports: CREATE TABLE gives the schema, ALTER TABLE and what can be made
one is applied to it, up to the first error; other statements leave it as it is. -/
def migrate (s : Schema) : List Statement → Schema × Res Unit
  | [] => (s, .ok ())
  | .createTable s' _ :: l => migrate s' l
  | st :: l =>
    match asAlter st with
    | none => migrate s l
    | some a =>
      match (s.alter a).2 with
      | .ok _ => migrate (s.alter a).1 l
      | .err => ((s.alter a).1, .err)
      | .panic => ((s.alter a).1, .panic)

/-- The column that a statement of a script adds. -/
def addedColumn : Statement → Option Column
  | .alterTable a => a.addColumn
  | _ => none

/-- The index that a statement of a script adds. -/
def addedIndex : Statement → Option Index
  | .alterTable a => a.addIndex
  | .createIndex s _ => s.indexes.head?
  | _ => none

/-- An ALTER TABLE that adds something, or a CREATE INDEX. -/
def Adds (s : Statement) : Prop :=
  (∃ a, s = .alterTable a ∧ (a.addColumn.isSome ∨ a.addIndex.isSome)) ∨ ∃ x b, s = .createIndex x b

/-- A name that begins with DROP, in any letter case. -/
def BeginsDrop (n : Str) : Prop := ∃ a b, n = a ++ b ∧ SameName a s%"DROP"

end Verif.Spec
