import Verif.Model.Pipeline
import Verif.Spec.Select
import Verif.Spec.Aggr
/-! Selection lists as they are written, and the selectors they stand for. -/
namespace Verif.Spec
open Verif Verif.Lex Verif.Fn

/-- An element of a selection list: the name of a column, or a call. -/
inductive Pick
  | name (n : Str)
  | call (n : Str) (args : List Str)

/-- The tokens of an element: one name, or a name with arguments in parentheses and perhaps an alias. -/
inductive PickTokens : List Token → Pick → Prop
  | name (t : Token) (h : t.kind = .IDENTIFIER) : PickTokens [t] (.name t.text)
  | call (n o : Token) (body : List Token) (c : Token) (rest : List Token) (args : List Str) (hn : n.kind = .IDENTIFIER) (ho : o.kind = .OPEN_PAR)
      (hc : c.kind = .CLOSE_PAR) (hb : Balanced body) (hr : FirstIn [.AS_, .IDENTIFIER, .STRING_LITERAL] rest) (ha : ArgTokens body args)
      (hd : ∀ t r, body = t :: r → t.kind ≠ .DISTINCT_) : PickTokens (n :: o :: (body ++ c :: rest)) (.call n.text args)

/-- The selector of an element: the column, or the function with this name and these arguments. -/
def Pick.sel {V F T : Type} : Pick → Rs.Sel V F T
  | .name n => .col n
  | .call n args => .fn (newFunction n args)

/-- A call of an aggregate function, its name in any letter case, with at least one argument. -/
def Pick.Aggregate (i : Pick) (k : AggrId) (args : List Str) : Prop := ∃ n, i = .call n args ∧ Str.upper n = k.name ∧ args ≠ []

end Verif.Spec
