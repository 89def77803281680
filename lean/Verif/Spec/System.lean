import Verif.Model.System
import Verif.Spec.Types
/-! Specifications for the information_schema helpers. -/
namespace Verif.Spec
open Verif Verif.Query

/-- The columns of a list of schemas, each with its schema, in order. -/
def columnsOf (schemas : List Schema) : List (Schema × Column) :=
  schemas.flatMap (fun s => s.columns.map (fun c => (s, c)))

/-- A conjunction of equalities between columns and strings, with its (column name, value) pairs from left to
right. -/
inductive Conjunction : Expr → List (Str × Str) → Prop
  | eq {c : Column} {v : Str} {t : LitType} :
      Conjunction (.cmp { op := .eq, left := c, right := some { v := .str v, t := t } }) [(c.name, v)]
  | and {l r : Expr} {x y : List (Str × Str)} : Conjunction l x → Conjunction r y → Conjunction (.and l r) (x ++ y)

/-- The values given for a column name (in any letter case), in order. -/
def valuesFor (name : Str) (ps : List (Str × Str)) : List Str :=
  ps.filterMap (fun p => if SameName p.1 name then some p.2 else none)

/-- The table is information_schema.columns in some letter case: as a schema and a table name, or as a full name. -/
def IsInfoColumns (t : Table) : Prop :=
  SameName t.name s%"information_schema.columns" ∨
    SameName t.schema s%"information_schema" ∧ SameName t.name s%"columns"

/-- Every comparison of an expression has a right-hand side. -/
def Complete : Expr → Prop
  | .cmp c => c.right ≠ none
  | .and l r => Complete l ∧ Complete r
  | .or l r => Complete l ∧ Complete r

end Verif.Spec
