import Verif.Spec.Ddl
/-! Tables with and without schemas in the statements other than SELECT. -/
namespace Verif.Spec
open Verif Verif.Query

/-- A table with a plain name, with or without a schema with a plain name. -/
def PlainTable (t : Table) : Prop := Name t.name ∧ (t.schema = [] ∨ Name t.schema)

/-- The table without its schema. -/
def bareTable (t : Table) : Table := { name := t.name }

end Verif.Spec
