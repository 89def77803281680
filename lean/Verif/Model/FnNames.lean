import Verif.Model.Str
/-! Function names and the name-based factories of sql/fn. -/
namespace Verif.Fn
open Verif

/-- sql/fn/type.go 20-34: `FunctionType`. -/
inductive FnType
  | unknown | math | aggregate | cast | arith | time | string | session
  deriving DecidableEq, Repr

/-- The executors that sql/fn/executor_func.go 22-84 can create, one per constructor function. -/
inductive ExecId
  | abs | floor | ceil | round | sqrt | log | log10 | exp | power | mod | sin | cos | tan | rand | pi
  | upper | lower | trim
  | currentTimestamp | now
  | opAdd | opSub | opMul | opDiv | opMod
  deriving DecidableEq, Repr

/-- `Name()` of the executor each constructor builds: math_func.go 24-262, string_func.go 22-61,
time_func.go 22-41, arith_func.go 40-92 (constants: names.go 21-57). -/
def ExecId.name : ExecId → Str
  | .abs => s%"ABS" | .floor => s%"FLOOR" | .ceil => s%"CEIL" | .round => s%"ROUND"
  | .sqrt => s%"SQRT" | .log => s%"LOG" | .log10 => s%"LOG10" | .exp => s%"EXP"
  | .power => s%"POWER" | .mod => s%"MOD" | .sin => s%"SIN" | .cos => s%"COS"
  | .tan => s%"TAN" | .rand => s%"RAND" | .pi => s%"PI"
  | .upper => s%"UPPER" | .lower => s%"LOWER" | .trim => s%"TRIM"
  | .currentTimestamp => s%"CURRENT_TIMESTAMP" | .now => s%"NOW"
  | .opAdd => s%"+" | .opSub => s%"-" | .opMul => s%"*" | .opDiv => s%"/" | .opMod => s%"%"

/-- `Type()` of each executor: math.go, string.go, time.go, arith.go (each family's constructor passes
its own `WithExecutorType`). math.go 42, string.go 37, time.go 37, arith.go 39. -/
def ExecId.type : ExecId → FnType
  | .upper | .lower | .trim => .string
  | .currentTimestamp | .now => .time
  | .opAdd | .opSub | .opMul | .opDiv | .opMod => .arith
  | _ => .math

/-- executor_func.go 25-79, the `switch`: prefix cases first, in source order, then the operators. -/
def execCases : List (ExecId × Bool) :=
  [(.abs, true), (.floor, true), (.ceil, true), (.round, true), (.sqrt, true), (.log, true),
   (.log10, true), (.exp, true), (.power, true), (.mod, true), (.sin, true), (.cos, true),
   (.tan, true), (.rand, true), (.pi, true), (.upper, true), (.lower, true), (.trim, true),
   (.currentTimestamp, true), (.now, true),
   (.opAdd, false), (.opSub, false), (.opMul, false), (.opDiv, false), (.opMod, false)]

/-- One `case` of the switch: `strings.HasPrefix(upperName, Name)` or `strings.EqualFold(upperName, ID)`.
executor_func.go 25-79. -/
def execCaseHit (upperName : Str) (c : ExecId × Bool) : Bool :=
  if c.2 then Str.hasPrefix upperName c.1.name else Str.eqFold upperName c.1.name

/-- executor_func.go 22-84 `NewExecutorForName`; `none` is the not-supported error. -/
def newExecutorForName (name : Str) : Option ExecId :=
  (execCases.find? (execCaseHit (Str.upper name))).map (·.1)

/-- The five aggregators. aggr_func.go 41-56. -/
inductive AggrId
  | sum | avg | min | max | count
  deriving DecidableEq, Repr

/-- names.go 45-50. -/
def AggrId.name : AggrId → Str
  | .sum => s%"SUM" | .avg => s%"AVG" | .min => s%"MIN" | .max => s%"MAX" | .count => s%"COUNT"

/-- aggr_func.go 43-54: the prefix cases in source order. -/
def aggrCases : List AggrId := [.sum, .avg, .min, .max, .count]

/-- aggr_func.go 41-56 `NewAggregatorForName`, name resolution only; `none` is the error. -/
def newAggregatorForName (name : Str) : Option AggrId :=
  aggrCases.find? (fun a => Str.hasPrefix (Str.upper name) a.name)

/-- names.go 59-95 `registeredFunctionNames`. -/
def registeredFunctionNames : List Str :=
  [s%"ABS", s%"CEIL", s%"FLOOR", s%"ROUND", s%"SQRT", s%"LOG", s%"LOG10", s%"EXP", s%"POWER",
   s%"MOD", s%"SIN", s%"COS", s%"TAN", s%"RAND", s%"PI",
   s%"UPPER", s%"LOWER", s%"TRIM",
   s%"CURRENT_TIMESTAMP", s%"NOW",
   s%"MAX", s%"MIN", s%"SUM", s%"AVG", s%"COUNT",
   s%"+", s%"-", s%"*", s%"/", s%"%"]

/-- names.go 109-123: the loop body for one registered name. -/
def registeredHit (name fn : Str) : Bool :=
  if fn.length == 1 then name == fn
  else (name.length == fn.length && name == fn) ||
    (Str.hasPrefix name (fn ++ s%"(") || Str.hasSuffix name s%")")

/-- names.go 103-126 `IsRegisteredFunction`. -/
def isRegisteredFunction (name : Str) : Bool :=
  if name.length == 0 then false
  else registeredFunctionNames.any (registeredHit (Str.upper name))

/-- type.go 37-52 `NewFunctionTypeForName`; `none` is the error. -/
def newFunctionTypeForName (name : Str) : Option FnType :=
  if [s%"ABS", s%"FLOOR", s%"CEIL", s%"ROUND", s%"SQRT", s%"LOG", s%"LOG10", s%"EXP", s%"POWER",
      s%"MOD", s%"SIN", s%"COS", s%"TAN", s%"RAND", s%"PI"].elem name then some .math
  else if [s%"SUM", s%"AVG", s%"COUNT", s%"MAX", s%"MIN"].elem name then some .aggregate
  else if [s%"+", s%"-", s%"*", s%"/", s%"%"].elem name then some .arith
  else if [s%"CURRENT_TIMESTAMP", s%"NOW"].elem name then some .time
  else if [s%"UPPER", s%"LOWER", s%"TRIM"].elem name then some .string
  else none

end Verif.Fn
