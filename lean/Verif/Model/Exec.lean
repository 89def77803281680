import Verif.Model.Res
import Verif.Model.FnNames
/-! Executors of sql/fn: executor_impl.go, executor_func.go, arith.go, arith_func.go, math.go, math_func.go,
string.go, string_func.go, time.go, time_func.go, cast.go, func_impl.go.

`V` is the type of non-nil dynamic values (`Option V` is a Go `any`), `F` is `float64`, `T` is `time.Time`. -/
namespace Verif.Fn
open Verif

/-- What the executors use of float64, package math, safecast, the clock and crypto/rand; any behaviour.
math_func.go 24-265, arith_func.go 22-92, string_func.go 22-61, time_func.go 22-41. -/
structure XEnv (V F T : Type) where
  /-- `safecast.ToFloat64`; `none` is the error. -/
  toFloat : Option V → Option F
  /-- `safecast.ToString`; `none` is the error. -/
  toText : Option V → Option Str
  /-- A Go string as an `any`. -/
  ofText : Str → V
  zero : F
  add : F → F → F
  sub : F → F → F
  mul : F → F → F
  div : F → F → F
  le : F → F → Bool
  lt : F → F → Bool
  eq : F → F → Bool
  /-- `int(x)` of a float64. -/
  trunc : F → Int
  /-- `float64(n)` of an int. -/
  ofInt : Int → F
  abs : F → F
  floor : F → F
  ceil : F → F
  round : F → F
  sqrt : F → F
  log : F → F
  log10 : F → F
  exp : F → F
  pow : F → F → F
  fmod : F → F → F
  sin : F → F
  cos : F → F
  tan : F → F
  pi : F
  /-- The eight bytes `rand.Read` delivers, as a big-endian number; `none` is its error. -/
  random : Option (BitVec 64)
  /-- `time.Now()`. -/
  now : T

/-- A value an executor returns. executor_impl.go 98-117. -/
inductive XVal (V F T : Type) | num (f : F) | int (n : Int) | text (s : Str) | time (t : T) | any (v : Option V)
  deriving DecidableEq, Repr

section
variable {V F T : Type}

/-- The conversion loops of math.go 53-61, string.go 48-56, time.go 48-56: the first failure stops. -/
def castAll {α β : Type} (f : α → Option β) : List α → Option (List β)
  | [] => some []
  | a :: as => match f a with
    | none => none
    | some b => match castAll f as with
      | none => none
      | some bs => some (b :: bs)

/-- A float64 argument list of length one, as checked by the functions of math_func.go. math_func.go 24-222. -/
def one (r : F → Res (XVal V F T)) : List F → Res (XVal V F T)
  | [x] => r x
  | _ => .err

/-- The same for two arguments. math_func.go 149-185. -/
def two (r : F → F → Res (XVal V F T)) : List F → Res (XVal V F T)
  | [x, y] => r x y
  | _ => .err

/-- The same for no argument. math_func.go 229-265. -/
def zeroArgs (r : Res (XVal V F T)) : List F → Res (XVal V F T)
  | [] => r
  | _ => .err

/-- math_func.go 229-248, the body of RAND after the argument check. -/
def randomValue (env : XEnv V F T) : Res (XVal V F T) :=
  match env.random with
  | none => .err
  | some n => .ok (.num (env.div (env.ofInt (n &&& 0x7FFFFFFFFFFFFFFF#64).toNat) (env.ofInt 0x7FFFFFFFFFFFFFFF)))

/-- The `MathFunc` of each math executor: math_func.go 24-262. -/
def mathBody (env : XEnv V F T) : ExecId → List F → Res (XVal V F T)
  | .abs => one (fun x => .ok (.num (env.abs x)))
  | .floor => one (fun x => .ok (.int (env.trunc (env.floor x))))
  | .ceil => one (fun x => .ok (.int (env.trunc (env.ceil x))))
  | .round => one (fun x => .ok (.int (env.trunc (env.round x))))
  | .sqrt => one (fun x => if env.le x env.zero then .err else .ok (.num (env.sqrt x)))
  | .log => one (fun x => if env.le x env.zero then .err else .ok (.num (env.log x)))
  | .log10 => one (fun x => if env.le x env.zero then .err else .ok (.num (env.log10 x)))
  | .exp => one (fun x => .ok (.num (env.exp x)))
  | .power => two (fun b e =>
      if env.lt b env.zero && !env.eq e (env.ofInt (env.trunc e)) then .err else .ok (.num (env.pow b e)))
  | .mod => two (fun a b => if env.eq b env.zero then .err else .ok (.num (env.fmod a b)))
  | .sin => one (fun x => .ok (.num (env.sin x)))
  | .cos => one (fun x => .ok (.num (env.cos x)))
  | .tan => one (fun x => .ok (.num (env.tan x)))
  | .rand => zeroArgs (randomValue env)
  | .pi => zeroArgs (.ok (.num env.pi))
  | _ => fun _ => .err

/-- The operators of arith_func.go 40-92. Go's integer `%` panics when the divisor is zero, and otherwise
truncates toward zero. -/
def arithBody (env : XEnv V F T) : ExecId → F → F → Res (XVal V F T)
  | .opAdd => fun x y => .ok (.num (env.add x y))
  | .opSub => fun x y => .ok (.num (env.sub x y))
  | .opMul => fun x y => .ok (.num (env.mul x y))
  | .opDiv => fun x y => .ok (.num (env.div x y))
  | .opMod => fun x y =>
      if env.trunc y = 0 then .panic
      else .ok (.num (env.ofInt (Int.tmod (env.trunc x) (env.trunc y))))
  | _ => fun _ _ => .err

/-- Go `strings.TrimSpace`, ASCII white space only. string_func.go 57. -/
def trimSpace (s : Str) : Str :=
  let sp := fun c : Char => c == ' ' || c == '\t' || c == '\n' || c == '\r' || c.toNat == 11 || c.toNat == 12
  Str.trimRight sp (Str.trimLeft sp s)

/-- The `StringFunc` of each string executor: string_func.go 22-61. -/
def stringBody : ExecId → List Str → Res (XVal V F T)
  | .upper, [s] => .ok (.text (Str.upper s))
  | .lower, [s] => .ok (.text (Str.lower s))
  | .trim, [s] => .ok (.text (trimSpace s))
  | _, _ => .err

/-- The function each constructor stores: `execute` of arith.go 49-64 (for the operators), of math.go 52-63
with math_func.go, of string.go 47-58 with string_func.go, of time.go 47-58 with time_func.go 22-41. -/
def execBody (env : XEnv V F T) (id : ExecId) (args : List (Option V)) : Res (XVal V F T) :=
  match id.type with
  | .arith => match args with
    | [a, b] => match env.toFloat a with
      | none => .err
      | some x => match env.toFloat b with
        | none => .err
        | some y => arithBody env id x y
    | _ => .err
  | .math => match castAll env.toFloat args with
    | none => .err
    | some fs => mathBody env id fs
  | .string => match castAll env.toText args with
    | none => .err
    | some ss => stringBody id ss
  | .time => match castAll env.toText args with
    | none => .err
    | some _ => .ok (.time env.now)
  | _ => .err

/-- executor_impl.go 28-33. -/
structure Exec (V F T : Type) where
  name : Str
  args : List Str
  type : FnType
  fn : List (Option V) → Res (XVal V F T)

/-- The exported `ExecutorOption`s: executor_impl.go 36-61. -/
inductive ExecOpt (V F T : Type)
  | name (s : Str) | args (l : List Str) | type (t : FnType) | fn (f : List (Option V) → Res (XVal V F T))

/-- Applying one option: executor_impl.go 36-61. -/
def Exec.apply (ex : Exec V F T) : ExecOpt V F T → Exec V F T
  | .name s => { ex with name := s }
  | .args l => { ex with args := l }
  | .type t => { ex with type := t }
  | .fn f => { ex with fn := f }

/-- executor_impl.go 64-77 `NewExecutor`. -/
def newExecutor (opts : List (ExecOpt V F T)) : Exec V F T :=
  opts.foldl Exec.apply { name := [], args := [], type := .unknown, fn := fun _ => .err }

/-- The constructors `NewAbs` … `NewModOperator` (math.go 35-49, arith.go 32-46, string.go 30-44,
time.go 30-44): a base executor, then the caller's options in order. -/
def newExec (env : XEnv V F T) (id : ExecId) (opts : List (ExecOpt V F T)) : Exec V F T :=
  opts.foldl Exec.apply (newExecutor [.name id.name, .type id.type, .fn (execBody env id)])

/-- cast.go 28-47 `NewCastFunctionWith`. -/
def newCast (name : Str) (cast : Option V → Res (XVal V F T)) : Exec V F T :=
  newExecutor [.name name, .type .cast, .fn (fun | [a] => cast a | _ => .err)]

/-- The values `Execute` distinguishes: executor_impl.go 112-125. -/
inductive XInput (V : Type)
  | args (l : List (Option V)) | map (m : GoMap Str (Option V)) | row (r : List (Option V))
  | obj (m : GoMap Str (Option V)) | nil | other (v : V)

/-- executor_impl.go 94-96 `ExecuteArgs`. -/
def Exec.executeArgs (ex : Exec V F T) (args : List (Option V)) : Res (XVal V F T) := ex.fn args

/-- One turn of the loop of executor_impl.go 100-106. -/
def argValue (env : XEnv V F T) (m : GoMap Str (Option V)) (arg : Str) : Option V :=
  match m.get? arg with
  | some v => v
  | none => some (env.ofText arg)

/-- executor_impl.go 98-108 `ExecuteMap`. -/
def Exec.executeMap (env : XEnv V F T) (ex : Exec V F T) (m : GoMap Str (Option V)) : Res (XVal V F T) :=
  ex.executeArgs (ex.args.foldl (fun row arg => row ++ [argValue env m arg]) [])

/-- executor_impl.go 111-126 `Execute`. -/
def Exec.execute (env : XEnv V F T) (ex : Exec V F T) : XInput V → Res (XVal V F T)
  | .args l => ex.executeArgs l
  | .map m => ex.executeMap env m
  | .row r => ex.executeArgs r
  | .obj m => ex.executeMap env m
  | .nil => ex.fn []
  | .other v => ex.fn [some v]

/-- executor_func.go 87-93 `ExecuteFunction`. -/
def executeFunction (env : XEnv V F T) (name : Str) (v : XInput V) : Res (XVal V F T) :=
  match newExecutorForName name with
  | none => .err
  | some id => (newExec env id []).execute env v

/-- arith_func.go 22-37 `NewArithOperatorFor`; `none` is the error. -/
def newArithOperatorFor (ope : Str) : Option ExecId :=
  if ope = s%"+" then some .opAdd else if ope = s%"-" then some .opSub
  else if ope = s%"*" then some .opMul else if ope = s%"/" then some .opDiv
  else if ope = s%"%" then some .opMod else none

/-- func_impl.go 22-28: a function selector. `executor` is the cached executor. -/
structure Func (V F T : Type) where
  type : FnType := .unknown
  name : Str := []
  executor : Option (Exec V F T) := none
  args : List Str := []

/-- `NewFunction(WithFunctionName(name), WithFunctionArguments(args…))`: func_impl.go 34-87. -/
def newFunction (name : Str) (args : List Str) : Func V F T :=
  { type := (newFunctionTypeForName name).getD .unknown, name := Str.upper name, args := args }

/-- func_impl.go 141-153 `Executor`: cached after the first success, else created with the caller's options
followed by the function's own arguments. -/
def Func.getExecutor (env : XEnv V F T) (f : Func V F T) (opts : List (ExecOpt V F T)) :
    Func V F T × Option (Exec V F T) :=
  match f.executor with
  | some ex => (f, some ex)
  | none => match newExecutorForName f.name with
    | none => (f, none)
    | some id =>
      let ex := newExec env id (opts ++ [.args f.args])
      ({ f with executor := some ex, type := ex.type }, some ex)

end
end Verif.Fn
