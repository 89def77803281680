import Verif.Spec.DdlSchemas
import Verif.Spec.Ddl
/-! What the texts of tables and of their changes keep. -/
namespace Verif.Spec
open Verif Verif.Query

/-- The column with what its text says: its name, its type, and its length if that is positive. -/
def columnRead (c : Column) : Column :=
  { name := c.name, def_ := c.def_.map (fun d => ({ typ := d.typ, length := if (0 : Int) < d.length then d.length else (-1 : Int) } : ColumnDef)) }

/-- The index with what its text says: a secondary index is on the columns of the table that have the names, a primary
key is named after its columns and does not know their types. -/
def indexRead (cs : List Column) (i : Index) : Index :=
  if i.typ = .secondary then { i with columns := i.columns.map (fun c => (cs.find? (fun d => d.name = c.name)).getD c) }
  else { typ := i.typ, name := Str.join s%"_" (i.columns.map (·.name)), columns := i.columns.map (fun c => { name := c.name, def_ := some { typ := .unknown, length := 0 } }) }

/-- The table with what its text says; the schema is not said. -/
def schemaRead (s : Schema) : Schema :=
  { table := bareTable s.table, columns := s.columns.map columnRead, indexes := s.indexes.map (indexRead (s.columns.map columnRead)) }

/-- A column of which only the name is kept. -/
def bareColumn (c : Column) : Column := { name := c.name }

/-- The change with what its text says: only names are kept of renamed and indexed columns, the name of a primary key
is not said, the word DROP becomes part of the name of a dropped column, and a dropped index is not said. -/
def alterRead (a : AlterTable) : AlterTable :=
  { table := a.table, renameTo := a.renameTo, renameColumnFrom := a.renameColumnFrom.map bareColumn, renameColumnTo := a.renameColumnTo.map bareColumn,
    addColumn := a.addColumn.map columnRead,
    addIndex := a.addIndex.map (fun i => { name := if i.typ = .primary then [] else i.name, typ := i.typ, columns := i.columns.map bareColumn }),
    dropColumn := a.dropColumn.map (fun c => { name := s%"DROP" ++ c.name }), dropIndex := none }

/-- Exactly one change is made, with plain names, besides an index that may be dropped. An added column has a type of one
word and no constraints. -/
inductive OneChange : AlterTable → Prop
  | renameTo {t u : Table} {d : Option Index} : PlainTable t → NamedTable u → OneChange { table := t, renameTo := some u, dropIndex := d }
  | renameColumn {t : Table} {a b : Column} {d : Option Index} : PlainTable t → Name a.name → Name b.name →
      OneChange { table := t, renameColumnFrom := some a, renameColumnTo := some b, dropIndex := d }
  | addColumn {t : Table} {c : Column} {ty : DataType} {l : Int} {d : Option Index} : PlainTable t → Name c.name →
      c.def_ = some { typ := ty, length := l } → PrintableType ty → l < 2 ^ 63 → OneChange { table := t, addColumn := some c, dropIndex := d }
  | addIndex {t : Table} {i : Index} {d : Option Index} : PlainTable t → i.typ = .secondary → Name i.name → i.columns ≠ [] →
      (∀ c ∈ i.columns, Name c.name) → OneChange { table := t, addIndex := some i, dropIndex := d }
  | addKey {t : Table} {i : Index} {d : Option Index} : PlainTable t → i.typ = .primary → i.columns ≠ [] →
      (∀ c ∈ i.columns, Name c.name) → OneChange { table := t, addIndex := some i, dropIndex := d }
  | dropColumn {t : Table} {c : Column} {d : Option Index} : PlainTable t → Name c.name → OneChange { table := t, dropColumn := some c, dropIndex := d }

end Verif.Spec
