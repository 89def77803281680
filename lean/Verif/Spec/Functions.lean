import Verif.Model.FnNames
/-! The documented functions. -/
namespace Verif.Spec
open Verif Verif.Fn

/-- The documented functions with their kind. -/
def documented : List (Str × FnType) :=
  [(s%"ABS", .math), (s%"CEIL", .math), (s%"FLOOR", .math), (s%"ROUND", .math), (s%"SQRT", .math), (s%"LOG", .math),
   (s%"LOG10", .math), (s%"EXP", .math), (s%"POWER", .math), (s%"MOD", .math), (s%"SIN", .math), (s%"COS", .math),
   (s%"TAN", .math), (s%"RAND", .math), (s%"PI", .math), (s%"UPPER", .string), (s%"LOWER", .string), (s%"TRIM", .string),
   (s%"CURRENT_TIMESTAMP", .time), (s%"NOW", .time), (s%"MAX", .aggregate), (s%"MIN", .aggregate), (s%"SUM", .aggregate),
   (s%"AVG", .aggregate), (s%"COUNT", .aggregate), (s%"+", .arith), (s%"-", .arith), (s%"*", .arith), (s%"/", .arith),
   (s%"%", .arith)]

end Verif.Spec
