import Verif.Model.NetConc
/-! What is said of calls that are made while the manager is being closed. -/
namespace Verif.Spec.NetClose
open Verif Verif.Net

/-- The calls that store a connection. -/
def Adds : Op → Prop
  | .add _ => True
  | .update _ _ => True
  | _ => False

/-- No goroutine is in such a call. -/
def NoAdder (s : Conf) : Prop := ∀ u op, (s.pc u = .called op ∨ ∃ w p, s.pc u = .crit op w p) → ¬ Adds op

/-- No such call is made. -/
def NoAdds (h : List Event) : Prop := ∀ u op, Event.call u op ∈ h → ¬ Adds op

end Verif.Spec.NetClose
