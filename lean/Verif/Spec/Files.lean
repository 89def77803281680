import Verif.Model.Files
/-! What it means for a file to be below a path. -/
namespace Verif.Spec.Files
open Verif Verif.Files

/-- The entries of a directory as a list. -/
def entries : Entries → List (Str × Node)
  | .nil => []
  | .cons name n es => (name, n) :: entries es

/-- Going down from the path `p` with `n` there, one finds `m` at the path `q`. Links are not followed. -/
inductive Below : Str → Node → Str → Node → Prop
  | here (p : Str) (n : Node) : Below p n p n
  | down (p : Str) (es : Entries) (name : Str) (n : Node) (q : Str) (m : Node) (h : (name, n) ∈ entries es)
      (hb : Below (p ++ s%"/" ++ name) n q m) : Below p (.dir es) q m

/-- No directory, and there. -/
def Leaf : Node → Prop
  | .file _ | .link _ | .dangling => True
  | _ => False

/-- A directory, possibly behind links. -/
inductive Directory : Node → Prop
  | dir (es : Entries) : Directory (.dir es)
  | closed : Directory .closed
  | link (t : Node) : Directory t → Directory (.link t)

/-- What can be read there, possibly behind links. -/
inductive Contents : Node → Str → Prop
  | file (c : Str) : Contents (.file (some c)) c
  | link (t : Node) (c : Str) : Contents t c → Contents (.link t) c

/-- The names in a directory are distinct and have no separator in them. -/
def Proper (p : Str) (n : Node) : Prop :=
  ∀ q es, Below p n q (.dir es) → ((entries es).map (·.1)).Nodup ∧ ∀ x ∈ entries es, '/' ∉ x.1

/-- The extension of a path: the part of its last element from the last dot on. -/
def IsExt (path e : Str) : Prop :=
  (∃ pre r, path = pre ++ e ∧ e = '.' :: r ∧ '.' ∉ r ∧ '/' ∉ r) ∨
  (e = [] ∧ ∃ pre l, path = pre ++ l ∧ '.' ∉ l ∧ '/' ∉ l ∧ (pre = [] ∨ pre.getLast? = some '/'))

end Verif.Spec.Files
