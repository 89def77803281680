import Verif.Model.Schema
import Verif.Model.Aggr
import Verif.Spec.Query
import Verif.Spec.Types
/-! ALTER TABLE as a sequence of statements, and the part of a rejected row. -/
namespace Verif.Spec
open Verif Verif.Query

/-- The statements with one clause each that an ALTER TABLE statement stands for, in the order add column, add index,
drop column, drop index, rename. -/
def singleClauses (a : AlterTable) : List AlterTable :=
  a.addColumn.toList.map (fun c => { table := a.table, addColumn := some c }) ++
  a.addIndex.toList.map (fun i => { table := a.table, addIndex := some i }) ++
  a.dropColumn.toList.map (fun c => { table := a.table, dropColumn := some c }) ++
  a.dropIndex.toList.map (fun i => { table := a.table, dropIndex := some i }) ++
  a.renameTo.toList.map (fun t => { table := a.table, renameTo := some t }) ++
  (match a.renameColumnFrom, a.renameColumnTo with
   | some f, some t => [{ table := a.table, renameColumnFrom := some f, renameColumnTo := some t }]
   | _, _ => [])

/-- Statements applied one after the other until one does not succeed: the schema, and whether all succeeded. -/
def alterAll (s : Schema) : List AlterTable → Schema × Bool
  | [] => (s, true)
  | a :: as => if (s.alter a).2 = .ok () then alterAll (s.alter a).1 as else ((s.alter a).1, false)

/-- What a caller asked for by an operator's name has to write: the operator itself, or a text that begins with the
function's name. -/
def FindsExecutor (s : List Char) (name : List Char) (operator : Bool) : Prop :=
  if operator then s = name else StartsWith s name

end Verif.Spec
