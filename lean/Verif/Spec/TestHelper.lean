import Verif.Model.TestHelper
/-! What the test helpers should guarantee. -/
namespace Verif.Spec.TestHelper
open Verif Verif.Query Verif.TestHelper

/-- The white space of a query text. -/
def blanks : List Char := [' ', '\t', '\n', '\r', Char.ofNat 12]

/-- The text without its white space. -/
def nonBlank (s : Str) : Str := s.filter (fun c => !(blanks.contains c))

/-- Two query texts that differ only in white space, in the case of letters, and in semicolons at the ends. -/
def SameText (q p : Str) : Prop :=
  ∃ x y a b c d, nonBlank q = List.replicate a ';' ++ x ++ List.replicate b ';' ∧
    nonBlank p = List.replicate c ';' ++ y ++ List.replicate d ';' ∧ Str.upper x = Str.upper y

/-- A query of a test file: some text without a semicolon in it, no blank or line end at its ends, and no `#` first. -/
structure FileQuery (q : Str) : Prop where
  some : q ≠ []
  no_semicolon : ';' ∉ q
  first : ∀ c r, q = c :: r → c ≠ ' ' ∧ c ≠ '\n' ∧ c ≠ '#'
  last : ∀ c r, q = r ++ [c] → c ≠ ' ' ∧ c ≠ '\n'

/-- A file of queries, each followed by a semicolon and line ends. -/
def fileOf : List (Str × Nat) → Str
  | [] => []
  | (q, n) :: l => q ++ ';' :: (List.replicate n '\n' ++ fileOf l)

/-- The last value in a list that a choice function gives. -/
def lastOf {α β : Type} (f : α → Option β) (l : List α) : Option β := (l.filterMap f).getLast?

/-- What an argument says about the mode. -/
def modeSet : Opt → Option Mode
  | .config c => some c.mode
  | .mode m => some m
  | _ => none

/-- What an argument says about skipping errors. -/
def skipSet : Opt → Option Bool
  | .config c => some c.skipErrors
  | .skipErrors b => some b
  | _ => none

end Verif.Spec.TestHelper
