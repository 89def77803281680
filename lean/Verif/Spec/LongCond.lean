import Verif.Spec.RoundTrip
/-! Beginnings of conditions that no condition of the grammar has, and the size of conditions. -/
namespace Verif.Spec
open Verif Verif.Query Verif.Lex

/-- The words that join comparisons. -/
inductive JoinWord : Str → Prop
  | and : JoinWord s%"AND"
  | or : JoinWord s%"OR"

/-- Texts that no comparison of a column with a literal starts with: a column is compared with a column, the column is
written with its table, or the literal comes first. -/
inductive NoComparison : Str → Prop
  | columns {a b : Str} {o : CmpOp} : AnyName a → o ≠ .in_ ∧ o ≠ .nin → AnyName b → NoComparison (a ++ ' ' :: (o.toStr ++ ' ' :: b))
  | qualified {t c : Str} {o : CmpOp} : AnyName t → AnyName c → o ≠ .in_ ∧ o ≠ .nin → NoComparison (t ++ '.' :: (c ++ ' ' :: o.toStr))
  | number {n : Str} {o : CmpOp} : NumberText n → o ≠ .in_ ∧ o ≠ .nin → NoComparison (n ++ ' ' :: o.toStr)

/-- Texts with which no condition of the grammar starts. -/
inductive NoCondition : Str → Prop
  | first {b : Str} : NoComparison b → NoCondition b
  | second {a : Cmp} {w b : Str} : PrintableCmp a → JoinWord w → NoComparison b → NoCondition (a.toStr ++ ' ' :: (w ++ ' ' :: b))
  | secondIn {a : Cmp} {w c : Str} : PrintableCmp a → JoinWord w → AnyName c → NoCondition (a.toStr ++ ' ' :: (w ++ ' ' :: (c ++ s%" IN")))
  | third {a b : Cmp} {w v : Str} : PrintableCmp a → JoinWord w → PrintableCmp b → JoinWord v →
      NoCondition (a.toStr ++ ' ' :: (w ++ ' ' :: (b.toStr ++ ' ' :: v)))
  | join {c : Str} : AnyName c → NoCondition (s%"AND " ++ c)

/-- The texts of DELETE, UPDATE and SELECT statements before their condition. -/
inductive BeforeWhere : Str → Prop
  | delete {d : Delete} : PrintableDelete d → d.cond = none → BeforeWhere d.toStr
  | update {u : Update} : PrintableUpdate u → u.cond = none → BeforeWhere u.toStr
  | select {s : Select} : PrintableSelect s → s.cond = none → s.orderBy = [] → s.limit = { limit := 0, offset := 0 } → s.groupBy = [] →
      BeforeWhere s.toStr

/-- The number of comparisons in a condition. -/
def comparisons : Expr → Nat
  | .cmp _ => 1
  | .and l r => comparisons l + comparisons r
  | .or l r => comparisons l + comparisons r

/-- Conditions made of comparisons of columns with literals in any way. -/
inductive PrintableTree : Expr → Prop
  | cmp {c : Cmp} : PrintableCmp c → PrintableTree (.cmp c)
  | and {l r : Expr} : PrintableTree l → PrintableTree r → PrintableTree (.and l r)
  | or {l r : Expr} : PrintableTree l → PrintableTree r → PrintableTree (.or l r)

end Verif.Spec
