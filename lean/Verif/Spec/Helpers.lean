import Verif.Model.Helpers
import Verif.Spec.Query
/-! Small specifications for the helpers of sql/query, sql/fn and the result sets. -/
namespace Verif.Spec
open Verif Verif.Query

/-- The text is the words, or begins with them and a space. -/
def BeginsWith (words text : Str) : Prop := text = words ∨ ∃ rest, text = words ++ ' ' :: rest

/-- The values of the Go integer types (`int` and `uint` have 64 bits). -/
def goRange : GoKind → Option (Int × Int)
  | .int8 => some (-2 ^ 7, 2 ^ 7 - 1) | .uint8 => some (0, 2 ^ 8 - 1)
  | .int16 => some (-2 ^ 15, 2 ^ 15 - 1) | .uint16 => some (0, 2 ^ 16 - 1)
  | .int32 => some (-2 ^ 31, 2 ^ 31 - 1) | .uint32 => some (0, 2 ^ 32 - 1)
  | .int64 | .int => some (-2 ^ 63, 2 ^ 63 - 1) | .uint64 | .uint => some (0, 2 ^ 64 - 1)
  | _ => none

/-- The values of the integer column types (the Go type their values are stored in). -/
def columnRange : DataType → Option (Int × Int)
  | .tinyInt => some (-2 ^ 7, 2 ^ 7 - 1)
  | .smallInt => some (-2 ^ 15, 2 ^ 15 - 1)
  | .int | .integer => some (-2 ^ 31, 2 ^ 31 - 1)
  | .bigInt => some (-2 ^ 63, 2 ^ 63 - 1)
  | _ => none

/-- Every value of the first range is in the second. -/
def Within (a b : Int × Int) : Prop := ∀ v : Int, a.1 ≤ v ∧ v ≤ a.2 → b.1 ≤ v ∧ v ≤ b.2

/-- `safecast.Equal` of two texts says whether they are the same. -/
def TextEqual (eq : Val → Val → Bool) : Prop := ∀ a b : Str, eq (.str a) (.str b) = true ↔ a = b

/-- Scanning succeeds: there are enough values and each converts. -/
def ScanOk {V D : Type} (cast : Option V → D → D × Bool) (vs : List (Option V)) (ds : List D) : Prop :=
  ds.length ≤ vs.length ∧ ∀ (k : Nat) (v : Option V) (d : D), vs[k]? = some v → ds[k]? = some d → (cast v d).2 = true

end Verif.Spec
