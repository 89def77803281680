import Verif.Spec.Lexer
/-! The layout of a query text: white space and comments between its tokens. -/
namespace Verif.Spec
open Verif Verif.Lex

/-- White space: space, vertical tab, tab and the two characters of line ends. -/
def whiteSpace : Str := [' ', Char.ofNat 11, '\t', '\r', '\n']

/-- White space and comments. A block comment ends with the first `*/`, a line comment with the line. -/
inductive Blank : Str → Prop
  | nil : Blank []
  | space {c : Char} {b : Str} : c ∈ whiteSpace → Blank b → Blank (c :: b)
  | block {body b : Str} : ¬ s%"*/" <:+: body → Blank b → Blank (s%"/*" ++ body ++ s%"*/" ++ b)
  | line {body b : Str} : '\n' ∉ body → '\r' ∉ body → Blank b → Blank (s%"--" ++ body ++ '\n' :: b)

/-- The tokens that need no white space around them. -/
def punctuation : List Token := [⟨.OPEN_PAR, s%"("⟩, ⟨.CLOSE_PAR, s%")"⟩, ⟨.COMMA, s%","⟩, ⟨.SCOL, s%";"⟩]

/-- What ends a token: the end of the text, white space, punctuation, or a block comment. -/
def Ends (rest : Str) : Prop :=
  rest = [] ∨ (∃ c r, rest = c :: r ∧ (c ∈ whiteSpace ∨ c ∈ s%"(),;")) ∨ ∃ r, rest = s%"/*" ++ r

/-- Tokens that the lexer finds wherever they stand on their own: words, numbers, strings, quoted names, parameters
and operators (C83 lists them). -/
def Separate (t : Token) : Prop := hidden t.kind = false ∧ ∀ rest, Ends rest → Longest rules t.kind t.text rest

/-- The text is the tokens with white space and comments before, between and after them. -/
inductive Layout : List Token → Str → Prop
  | done {b : Str} : Blank b → Layout [] b
  | lineAtEnd {b body : Str} : Blank b → '\n' ∉ body → '\r' ∉ body → Layout [] (b ++ (s%"--" ++ body))
  | token {b rest : Str} {t : Token} {ts : List Token} : Blank b → Separate t → Ends rest → Layout ts rest →
      Layout (t :: ts) (b ++ (t.text ++ rest))
  | punct {b rest : Str} {t : Token} {ts : List Token} : Blank b → t ∈ punctuation → Layout ts rest →
      Layout (t :: ts) (b ++ (t.text ++ rest))

end Verif.Spec
