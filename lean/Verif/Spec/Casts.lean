import Verif.Spec.Query
import Verif.Model.Schema
/-! What a value becomes under a declared type. -/
namespace Verif.Spec
open Verif Verif.Query

/-- The value that a value is converted to: by the conversion to the integer of the width of the type, to the float of the
width of the type, or to a boolean; a value of any other type stays as it is. -/
inductive Casts (k : Caster) : DataType → Val → Val → Prop
  | tinyInt {v : Val} {i : Int} : k.toInt8 v = some i → Casts k .tinyInt v (.i8 i)
  | smallInt {v : Val} {i : Int} : k.toInt16 v = some i → Casts k .smallInt v (.i16 i)
  | int {v : Val} {i : Int} : k.toInt32 v = some i → Casts k .int v (.i32 i)
  | integer {v : Val} {i : Int} : k.toInt32 v = some i → Casts k .integer v (.i32 i)
  | bigInt {v : Val} {i : Int} : k.toInt64 v = some i → Casts k .bigInt v (.i64 i)
  | float {v : Val} {x : List Char} : k.toFloat32 v = some x → Casts k .float v (.f32 x)
  | double {v : Val} {x : List Char} : k.toFloat64 v = some x → Casts k .double v (.f64 x)
  | boolean {v : Val} {b : Bool} : k.toBool v = some b → Casts k .boolean v (.bool b)
  | other {t : DataType} {v : Val} : ¬ Converted t → Casts k t v v

/-- The literal under a definition: converted by the type, or kept if there is no literal or no definition. -/
inductive LitCasts (k : Caster) : Option ColumnDef → Option Literal → Option Literal → Prop
  | cast {d : ColumnDef} {l : Literal} {v : Val} : Casts k d.typ l.v v → LitCasts k (some d) (some l) (some { l with v := v })
  | noDefinition (l : Option Literal) : LitCasts k none l l
  | noLiteral (d : Option ColumnDef) : LitCasts k d none none

/-- The column that a column becomes under a list of schema columns: it has the definition of the first one of its name
and its literal under this definition; the rest is kept. -/
def Adopts (k : Caster) (sc : List Column) (c c' : Column) : Prop :=
  ∃ j s lit, FirstAt (fun d : Column => SameName d.name c.name) sc j s ∧ LitCasts k s.def_ c.lit lit ∧
    c' = { c with def_ := s.def_, lit := lit }

end Verif.Spec
