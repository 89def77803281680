import Verif.Spec.DdlSchemas
import Verif.Spec.RoundTrip
/-! Tables with schemas in SELECT, INSERT, UPDATE and DELETE. -/
namespace Verif.Spec
open Verif Verif.Query

/-- Schema and name with a dot between, or the name alone if there is no schema. -/
def dotted (t : Table) : Str := if t.schema = [] then t.name else t.schema ++ '.' :: t.name

/-- The table with its schema repeated in its name. -/
def repeated (t : Table) : Table := { schema := t.schema, name := dotted t }

end Verif.Spec
