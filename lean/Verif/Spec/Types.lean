import Verif.Model.Schema
import Verif.Spec.Query
/-! Specifications for data types, selectors and function names. -/
namespace Verif.Spec
open Verif.Query

/-- A text with its spaces left out. -/
def noSpaces : List Char → List Char
  | [] => []
  | c :: s => if c = ' ' then noSpaces s else c :: noSpaces s

/-- The token strings of a type with an optional length. -/
def defTokens (name : List Char) (digits : Option (List Char)) : List (List Char) :=
  match digits with
  | none => [name]
  | some d => [name, ['('], d, [')']]

/-- One or more of the ten digits. -/
def Digits (d : List Char) : Prop := d ≠ [] ∧ ∀ c ∈ d, '0' ≤ c ∧ c ≤ '9'

/-- A decimal integer: digits, with at most one sign before them. -/
def IntText (d : List Char) : Prop :=
  Digits d ∨ ∃ r, Digits r ∧ (d = '-' :: r ∨ d = '+' :: r)

/-- The number that digits write: every digit counts as often as there are numbers with the digits behind it. -/
def numeral : List Char → Nat
  | [] => 0
  | c :: s => (c.toNat - '0'.toNat) * 10 ^ s.length + numeral s

/-- A decimal integer that a 64-bit integer can hold, and its value. -/
inductive IntNumber : List Char → Int → Prop
  | plain (d : List Char) : Digits d → numeral d < 2 ^ 63 → IntNumber d (numeral d)
  | plus (d : List Char) : Digits d → numeral d < 2 ^ 63 → IntNumber ('+' :: d) (numeral d)
  | minus (d : List Char) : Digits d → numeral d ≤ 2 ^ 63 → IntNumber ('-' :: d) (-(numeral d : Int))

/-- The functions among the selectors, in order. -/
inductive FnsOf : List Selector → List Function → Prop
  | nil : FnsOf [] []
  | plain {c ss fs} : c.fn = none → FnsOf ss fs → FnsOf (.col c :: ss) fs
  | calc {c f ss fs} : c.fn = some f → FnsOf ss fs → FnsOf (.col c :: ss) (f :: fs)
  | fn {f ss fs} : FnsOf ss fs → FnsOf (.fn f :: ss) (f :: fs)

/-- The selector is a function, or a column computed by one. -/
def IsFn : Selector → Prop
  | .col c => c.fn ≠ none
  | .fn _ => True

/-- `s` starts with `p`, ignoring case. -/
def StartsWith (s p : List Char) : Prop := SameName (s.take p.length) p

/-- `s` is a call of the function named `f`: the name and a parenthesised text. -/
def CallOf (s f : List Char) : Prop := ∃ n args, s = n ++ '(' :: args ++ [')'] ∧ SameName n f

end Verif.Spec
