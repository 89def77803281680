import Verif.Model.RsSchema
import Verif.Spec.Query
/-! What the schemas and options of result sets should do. -/
namespace Verif.Spec
open Verif Verif.Query Verif.Rs

/-- The column of a result set for a selector: the first column of the table of that name, letter case aside, or, for a
function whose type is known, a FLOAT column named by the text of the call. -/
inductive SelectorColumn (s : Query.Schema) : Selector → AnyCol → Prop
  | plain {x : Selector} {c : Column} {i : Nat} (hf : x.function = none) (hc : FirstAt (fun d : Column => SameName d.name x.name) s.columns i c) :
      SelectorColumn s x (.query c)
  | function {x : Selector} {f : Function} (hf : x.function = some f) (hk : f.typ ∈ [.math, .aggregate, .cast, .arith]) :
      SelectorColumn s x (.own { name := x.text, typ := .float, fn := some f })

/-- The parts of a schema. -/
inductive SchemaPart
  | database | table | columns | base
  deriving DecidableEq

/-- The parts that an option sets. -/
def setsPart : SchemaOption → List SchemaPart
  | .database _ => [.database]
  | .table _ => [.table]
  | .columns _ | .selectors _ | .rowObject _ => [.columns]
  | .tableSchema _ => [.table, .base]

/-- The parts that an option needs. -/
def needsPart : SchemaOption → List SchemaPart
  | .selectors _ => [.base]
  | _ => []

/-- Neither option sets what the other sets or needs. -/
def Apart (x y : SchemaOption) : Prop :=
  (∀ p, p ∈ setsPart x → p ∉ setsPart y ∧ p ∉ needsPart y) ∧ ∀ p, p ∈ setsPart y → p ∉ needsPart x

/-- The parts of a result set. -/
inductive RPart
  | rowsAffected | schema | rows | offset | limit | groupBy
  deriving DecidableEq

/-- The part that an option sets. -/
def setsRPart {V F T : Type} : RSetOption V F T → RPart
  | .rowsAffected _ => .rowsAffected
  | .schema _ => .schema
  | .rows _ | .rowsOf _ => .rows
  | .offset _ => .offset
  | .limit _ => .limit
  | .groupBy _ => .groupBy

/-- Rows given as maps need the schema. -/
def needsRSchema {V F T : Type} : RSetOption V F T → Prop
  | .rowsOf (.maps _) => True
  | _ => False

/-- Neither option sets what the other sets or needs. -/
def RApart {V F T : Type} (x y : RSetOption V F T) : Prop :=
  setsRPart x ≠ setsRPart y ∧ (setsRPart x = .schema → ¬ needsRSchema y) ∧ (setsRPart y = .schema → ¬ needsRSchema x)

end Verif.Spec
