import Verif.Model.Lexer
/-! What it means for a lexer rule to match a text, and for a list of tokens to be the tokenisation of a text.
Only the rule tables and the syntax of regular expressions are taken from the model. -/
namespace Verif.Spec
open Verif Verif.Lex

/-- Two characters that differ at most in letter case. -/
def SameLetter (x c : Char) : Prop := Str.upC x = Str.upC c

/-- A character belongs to a set of ranges, up to letter case. -/
def InRanges (rs : List (Char × Char)) (c : Char) : Prop :=
  ∃ r, r ∈ rs ∧ ∃ x, SameLetter x c ∧ r.1.toNat ≤ x.toNat ∧ x.toNat ≤ r.2.toNat

/-- A sequence of pieces, each with a property of the piece and what follows it. -/
inductive Reps (P : Str → Str → Prop) : Str → Str → Prop
  | nil (rest : Str) : Reps P [] rest
  | cons (u v rest : Str) : P u (v ++ rest) → Reps P v rest → Reps P (u ++ v) rest

/-- The expression matches the text `w` when `rest` follows it. -/
def Matches : Re → Str → Str → Prop
  | .empty, _, _ => False
  | .eps, w, _ => w = []
  | .eof, w, rest => w = [] ∧ rest = []
  | .cls neg rs, w, _ => ∃ c, w = [c] ∧ (InRanges rs c ↔ neg = false)
  | .seq a b, w, rest => ∃ u v, w = u ++ v ∧ Matches a u (v ++ rest) ∧ Matches b v rest
  | .alt a b, w, rest => Matches a w rest ∨ Matches b w rest
  | .star a, w, rest => Reps (Matches a) w rest

/-- Some rule matches `w` before `rest`. -/
def SomeRule (rs : List (Tok × Re)) (w rest : Str) : Prop := ∃ p, p ∈ rs ∧ Matches p.2 w rest

/-- `t` is the kind of the first rule that matches `w` before `rest`. -/
def FirstRule (rs : List (Tok × Re)) (t : Tok) (w rest : Str) : Prop :=
  ∃ pre r post, rs = pre ++ (t, r) :: post ∧ Matches r w rest ∧ ∀ p, p ∈ pre → ¬ Matches p.2 w rest

/-- The token `w` of kind `t` at the front of `w ++ rest`: not empty, no longer match by any rule, and `t` is the
first rule that matches. -/
def Longest (rs : List (Tok × Re)) (t : Tok) (w rest : Str) : Prop :=
  w ≠ [] ∧ FirstRule rs t w rest ∧
    ∀ w' rest', w' ++ rest' = w ++ rest → w.length < w'.length → ¬ SomeRule rs w' rest'

/-- The tokenisation of a text. -/
inductive Tokenised (rs : List (Tok × Re)) : Str → List Token → Prop
  | nil : Tokenised rs [] []
  | cons (t : Tok) (w rest : Str) (ts : List Token) :
      Longest rs t w rest → Tokenised rs rest ts → Tokenised rs (w ++ rest) ({ kind := t, text := w } :: ts)

/-- Same text up to letter case. -/
def SameLetters (s s' : Str) : Prop := s.map Str.upC = s'.map Str.upC

/-- Every quote in the text is followed by a second one that belongs to it. -/
inductive QuotesPaired : Str → Prop
  | nil : QuotesPaired []
  | char (c : Char) (v : Str) : c ≠ '\'' → QuotesPaired v → QuotesPaired (c :: v)
  | pair (v : Str) : QuotesPaired v → QuotesPaired ('\'' :: '\'' :: v)

/-- The same for the quote character `q`: every `q` is followed by a second one that belongs to it. -/
inductive Paired (q : Char) : Str → Prop
  | nil : Paired q []
  | char (c : Char) (v : Str) : c ≠ q → Paired q v → Paired q (c :: v)
  | pair (v : Str) : Paired q v → Paired q (q :: q :: v)

/-- The text neither starts nor ends with one of the two quote characters that `UnEscapeString` removes. -/
def BareEnds (v : Str) : Prop :=
  (∀ c r, v = c :: r → c ≠ '\'' ∧ c ≠ '"') ∧ (∀ c r, v = r ++ [c] → c ≠ '\'' ∧ c ≠ '"')

/-- A text without any character that opens a quotation or a comment. -/
def NoQuotation (p : Str) : Prop := ∀ c, c ∈ p → c ∉ ['\'', '"', '`', '[', '/', '-']

/-- The tokens of the pieces `p, p₁, p₂, …` with one string literal token for each value between them. -/
inductive Woven (rs : List (Tok × Re)) : Str → List Str → List Str → List Token → Prop
  | last (p : Str) (ts : List Token) : Tokenised rs p ts → Woven rs p [] [] ts
  | more (p p₁ : Str) (ps : List Str) (s : Str) (ss : List Str) (ts us : List Token) :
      Tokenised rs p ts → Woven rs p₁ ps ss us →
      Woven rs p (p₁ :: ps) (s :: ss) (ts ++ { kind := .STRING_LITERAL, text := '\'' :: s ++ ['\''] } :: us)

end Verif.Spec
