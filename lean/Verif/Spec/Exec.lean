import Verif.Model.Exec
/-! Specifications for executors, written from the function names; only the model's data types are used. -/
namespace Verif.Spec
open Verif Verif.Fn

/-- The documented number of arguments of each math function and arithmetic operator, by name. -/
def argCounts : List (Str × Nat) :=
  [(s%"ABS", 1), (s%"FLOOR", 1), (s%"CEIL", 1), (s%"ROUND", 1), (s%"SQRT", 1), (s%"LOG", 1), (s%"LOG10", 1),
   (s%"EXP", 1), (s%"POWER", 2), (s%"MOD", 2), (s%"SIN", 1), (s%"COS", 1), (s%"TAN", 1), (s%"RAND", 0), (s%"PI", 0),
   (s%"+", 2), (s%"-", 2), (s%"*", 2), (s%"/", 2), (s%"%", 2)]

/-- `vals` are the values an object gives to the argument names `args`: at each position the value stored
under the name, or the name itself when there is none. -/
def ArgsFrom {V : Type} (ofText : Str → V) (m : List (Str × Option V)) (args : List Str) (vals : List (Option V)) : Prop :=
  vals.length = args.length ∧
  ∀ (i : Nat) (a : Str) (v : Option V), args[i]? = some a → vals[i]? = some v →
    ((a, v) ∈ m ∨ ((∀ w, (a, w) ∉ m) ∧ v = some (ofText a)))

/-- Arguments in the domain of a function, over abstract floats (`le0 x` is x ≤ 0, `lt0 x` is x < 0,
`is0 x` is x = 0, `whole x` is "x is an integer"). -/
def InDomain {F : Type} (le0 lt0 is0 whole : F → Bool) (name : Str) (fs : List F) : Prop :=
  ((name = s%"SQRT" ∨ name = s%"LOG" ∨ name = s%"LOG10") → ∀ x ∈ fs, le0 x = false) ∧
  (name = s%"MOD" → ∀ y, fs[1]? = some y → is0 y = false) ∧
  (name = s%"POWER" → ∀ x y, fs[0]? = some x → fs[1]? = some y → lt0 x = true → whole y = true)

section
variable {V F T : Type}

/-- What each function of one number is named for. -/
def unaryMeaning (env : XEnv V F T) : List (Str × (F → XVal V F T)) :=
  [(s%"ABS", fun x => .num (env.abs x)), (s%"FLOOR", fun x => .int (env.trunc (env.floor x))),
   (s%"CEIL", fun x => .int (env.trunc (env.ceil x))), (s%"ROUND", fun x => .int (env.trunc (env.round x))),
   (s%"SQRT", fun x => .num (env.sqrt x)), (s%"LOG", fun x => .num (env.log x)),
   (s%"LOG10", fun x => .num (env.log10 x)), (s%"EXP", fun x => .num (env.exp x)),
   (s%"SIN", fun x => .num (env.sin x)), (s%"COS", fun x => .num (env.cos x)), (s%"TAN", fun x => .num (env.tan x))]

/-- What each function of two numbers and each operator but `%` is named for. -/
def binaryMeaning (env : XEnv V F T) : List (Str × (F → F → XVal V F T)) :=
  [(s%"POWER", fun x y => .num (env.pow x y)), (s%"MOD", fun x y => .num (env.fmod x y)),
   (s%"+", fun x y => .num (env.add x y)), (s%"-", fun x y => .num (env.sub x y)),
   (s%"*", fun x y => .num (env.mul x y)), (s%"/", fun x y => .num (env.div x y))]

/-- `t` is `s` without the white space around it. -/
structure Trimmed (s t : Str) : Prop where
  inside : ∃ a b, s = a ++ t ++ b ∧ (∀ c, c ∈ a ++ b → c ∈ [' ', '\t', '\n', '\r', Char.ofNat 11, Char.ofNat 12])
  first : ∀ c, t.head? = some c → c ∉ [' ', '\t', '\n', '\r', Char.ofNat 11, Char.ofNat 12]
  last : ∀ c, t.getLast? = some c → c ∉ [' ', '\t', '\n', '\r', Char.ofNat 11, Char.ofNat 12]
end

end Verif.Spec
