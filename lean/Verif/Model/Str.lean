/-
Go strings and the fragment of the Go `strings`, `strconv` and `fmt` packages the code uses.

Simplifications (recorded in DESIGN.md): a Go string is a list of characters (runes);
`strings.ToUpper`, `strings.ToLower` and `strings.EqualFold` are the ASCII case maps.
-/
namespace Verif

/-- A Go string, as a list of characters. Used throughout, for instance strings.go 22-60. -/
abbrev Str := List Char

/-- `s%"abc"` is the literal character list `['a','b','c']` (keeps kernel reduction cheap). -/
syntax:max "s%" str : term
open Lean in
macro_rules
  | `(s% $s:str) => do
    let cs := s.getString.toList.map (fun c => (Syntax.mkCharLit c : TSyntax `term))
    `(([$(cs.toArray),*] : List Char))

namespace Str

/-- ASCII upper-casing of a rune (Go `unicode.ToUpper`, ASCII part). data_type.go 133. -/
def upC (c : Char) : Char :=
  if 97 ≤ c.toNat ∧ c.toNat ≤ 122 then Char.ofNat (c.toNat - 32) else c

/-- ASCII lower-casing of a rune (Go `unicode.ToLower`, ASCII part). string_func.go 43. -/
def loC (c : Char) : Char :=
  if 65 ≤ c.toNat ∧ c.toNat ≤ 90 then Char.ofNat (c.toNat + 32) else c

/-- Go `strings.ToUpper`. data_type.go 133, executor_func.go 23. -/
def upper (s : Str) : Str := s.map upC

/-- Go `strings.ToLower`. string_func.go 43. -/
def lower (s : Str) : Str := s.map loC

/-- Go `strings.EqualFold`: equal rune by rune up to case. table.go 84, 94, 104, columns.go 73, 83. -/
def eqFold (s t : Str) : Bool := upper s == upper t

/-- Go `strings.HasPrefix(s, p)`. executor_func.go 27-67. -/
def hasPrefix (s p : Str) : Bool := p.isPrefixOf s

/-- Go `strings.HasSuffix(s, p)`. names.go 120. -/
def hasSuffix (s p : Str) : Bool := p.reverse.isPrefixOf s.reverse

/-- Go `strings.Index(s, sub)`: position of the first occurrence, `none` for `-1`. bind_impl.go 71, 76. -/
def index (s sub : Str) : Option Nat :=
  if sub.isPrefixOf s then some 0
  else match s with
    | [] => none
    | _ :: s' => (index s' sub).map (· + 1)

/-- Go `strings.Contains(s, sub)`. table.go 72. -/
def hasSub (s sub : Str) : Bool := (index s sub).isSome

/-- Go `strings.Replace(s, old, new, 1)` for non-empty `old`: the first occurrence only. bind_impl.go 72, 77. -/
def replaceFirst (s old new : Str) : Str :=
  match index s old with
  | none => s
  | some n => s.take n ++ new ++ s.drop (n + old.length)

/-- Go `strings.ReplaceAll(s, c, "")` for a one-rune pattern. data_type.go 138. -/
def removeAll (c : Char) (s : Str) : Str := s.filter (· ≠ c)

/-- Go `strings.Join(elems, sep)`. strings.go 22-30. -/
def join (sep : Str) : List Str → Str
  | [] => []
  | [x] => x
  | x :: y :: r => x ++ sep ++ join sep (y :: r)

/-- Go `strings.TrimLeft` with a predicate cutset. strings.go 32-54. -/
def trimLeft (p : Char → Bool) (s : Str) : Str := s.dropWhile p

/-- Go `strings.TrimRight` with a predicate cutset. strings.go 32-54. -/
def trimRight (p : Char → Bool) (s : Str) : Str := (s.reverse.dropWhile p).reverse

/-- Go `strings.Trim(s, cutset)`. strings.go 34, 54. -/
def trim (cutset : Str) (s : Str) : Str :=
  trimRight (fun c => cutset.contains c) (trimLeft (fun c => cutset.contains c) s)

/-- Go `strings.Split(s, sep)` for a one-rune separator: always at least one piece. groupby.go 69. -/
def splitOn (sep : Char) : Str → List Str
  | [] => [[]]
  | c :: s =>
    if c = sep then [] :: splitOn sep s
    else match splitOn sep s with
      | [] => [[c]]
      | p :: ps => (c :: p) :: ps

/-- A decimal digit character. column_def.go 78. -/
def isDigit (c : Char) : Bool := decide (48 ≤ c.toNat) && decide (c.toNat ≤ 57)

/-- The character of a digit value below ten. column_def.go 107. -/
def digitChar (n : Nat) : Char := Char.ofNat (48 + n)

/-- Go `fmt.Sprintf("%d", n)` for an unsigned value. column_def.go 107, limit.go 81, 84. -/
def ofNat (n : Nat) : Str :=
  if _h : n < 10 then [digitChar n] else ofNat (n / 10) ++ [digitChar (n % 10)]
termination_by n

/-- Go `fmt.Sprintf("%d", n)` for a signed value. limit.go 81, 84. -/
def ofInt : Int → Str
  | .ofNat n => ofNat n
  | .negSucc n => '-' :: ofNat (n + 1)

/-- Value of a list of digit characters, most significant first. column_def.go 78. -/
def digitsVal (s : Str) : Nat := s.foldl (fun acc c => acc * 10 + (c.toNat - 48)) 0

/-- Unsigned decimal part of Go `strconv.Atoi`: at least one digit, digits only. column_def.go 78. -/
def toNat? (s : Str) : Option Nat :=
  if s.isEmpty then none else if s.all isDigit then some (digitsVal s) else none

/-- Go `strconv.Atoi` before its range check: optional sign, then digits. column_def.go 78. -/
def signed? (s : Str) : Option Int :=
  match s with
  | '-' :: r => (toNat? r).map (fun n => -(n : Int))
  | '+' :: r => (toNat? r).map (fun n => (n : Int))
  | r => (toNat? r).map (fun n => (n : Int))

/-- Go `strconv.Atoi` on a platform with a 64-bit `int`: a value out of range is an error. column_def.go 78. -/
def atoi (s : Str) : Option Int :=
  (signed? s).bind fun v =>
    if -9223372036854775808 ≤ v ∧ v ≤ 9223372036854775807 then some v else none

end Str
end Verif
