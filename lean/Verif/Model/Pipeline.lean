import Verif.Model.Helpers
/-! From the selectors of a reported SELECT to the selectors that result sets are made with. In the code both are the same
objects; the model has two types, one for printing and parsing and one with executors. -/
namespace Verif.Rs
open Verif Verif.Fn

variable {V F T : Type}

/-- selector.go 18-29, func_impl.go 22-28: the selector of a statement as one of a result set. The executor is that of a
function that was never asked for one, as the parser reports it (parser_antlr_visitor.go 570-589). -/
def selOf : Query.Selector → Sel V F T
  | .col c => .col c.name
  | .fn f => .fn { type := f.typ, name := f.name, args := f.args }

end Verif.Rs
