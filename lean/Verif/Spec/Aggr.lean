import Verif.Model.Aggr
import Verif.Spec.Query
/-! Specifications for aggregation: what the aggregate of a list of values is. -/
namespace Verif.Spec
open Verif Verif.Fn
variable {V F : Type}

/-- The number a row value stands for: nil is zero, anything else converts. -/
inductive AsNum (E : Env V F) : Option V → F → Prop
  | nil : AsNum E none E.zero
  | val {v f} : E.toFloat v = some f → AsNum E (some v) f

/-- The numbers of a row. -/
abbrev Nums (E : Env V F) : List (Option V) → List F → Prop := Pairwise2 (AsNum E)

/-- Column `j` of a table of numbers. -/
def column (j : Nat) (m : List (List F)) : List F := m.filterMap (fun r => r[j]?)

/-- The sum of a list, from the left. -/
def sumOf (E : Env V F) (vals : List F) : F := vals.foldl E.add E.zero

/-- `x` is a smallest element. -/
def IsMin (E : Env V F) (x : F) (vals : List F) : Prop := x ∈ vals ∧ ∀ y ∈ vals, E.lt y x = false

/-- `x` is a largest element. -/
def IsMax (E : Env V F) (x : F) (vals : List F) : Prop := x ∈ vals ∧ ∀ y ∈ vals, E.lt x y = false

/-- The comparison is a strict linear order (true of floats without NaN). -/
structure Linear (E : Env V F) : Prop where
  irrefl : ∀ a, E.lt a a = false
  trans : ∀ a b c, E.lt a b = true → E.lt b c = true → E.lt a c = true
  total : ∀ a b, E.lt a b = true ∨ a = b ∨ E.lt b a = true

/-- The smaller (larger) of two values, keeping the first on a tie. -/
def smaller (E : Env V F) (a b : F) : F := if E.lt b a then b else a
/-- See `smaller`. -/
def larger (E : Env V F) (a b : F) : F := if E.lt a b then b else a

/-- The aggregate of a list of values. MIN and MAX are taken together with the starting value of the code
(the largest finite number, minus infinity); see C28 for what that means. -/
def aggValue (E : Env V F) : AggrId → List F → Cell V F
  | .sum, vs => .num (sumOf E vs)
  | .avg, [] => .nil
  | .avg, v :: vs => .num (E.div (sumOf E (v :: vs)) (E.ofNat (vs.length + 1)))
  | .min, [] => .nil
  | .min, v :: vs => .num ((v :: vs).foldl (smaller E) E.maxFloat)
  | .max, [] => .nil
  | .max, v :: vs => .num ((v :: vs).foldl (larger E) E.negInf)
  | .count, vs => .num (E.ofNat vs.length)

/-- The aggregator was just constructed or successfully reset. -/
def Started (E : Env V F) (b : Aggr V F) : Prop :=
  (∃ a os, Aggr.reset E a os = (b, true)) ∨ ∃ k os, newAggr E k os = some b

/-- The texts of group values. -/
abbrev Texts (E : Env V F) : List (Option V) → List Str → Prop := Pairwise2 (fun v t => E.toText v = some t)

/-- The rows whose first values are the tuple. -/
def rowsOf [DecidableEq V] (n : Nat) (t : List (Option V)) (rows : List (List (Option V))) : List (List (Option V)) :=
  rows.filter (fun r => decide (r.take n = t))

/-- `out` is the tuple followed by the aggregate of each of the `w` argument columns of the rows. -/
def IsGroupRow (E : Env V F) (k : AggrId) (n w : Nat) (t : List (Option V)) (rs : List (List (Option V)))
    (out : List (Cell V F)) : Prop :=
  ∃ m aggs, Pairwise2 (fun r ns => Nums E (r.drop n) ns) rs m ∧ out = t.map Cell.ofAny ++ aggs ∧
    aggs.length = w ∧ ∀ j, j < w → aggs[j]? = some (aggValue E k (column j m))

/-- Rows with different group values have different texts of them, joined with commas. -/
def KeysApart (E : Env V F) (n : Nat) (rows : List (List (Option V))) : Prop :=
  ∀ r ∈ rows, ∀ s ∈ rows, ∀ ts us, Texts E (r.take n) ts → Texts E (s.take n) us → Str.join s%"," ts = Str.join s%"," us →
    r.take n = s.take n

/-- The text conversion tells the group values apart, and no text has a comma (which matters only with two
or more group columns). -/
structure TextsFaithful (E : Env V F) (n : Nat) (rows : List (List (Option V))) : Prop where
  inj : ∀ r ∈ rows, ∀ s ∈ rows, ∀ v ∈ r.take n, ∀ w ∈ s.take n, ∀ t, E.toText v = some t → E.toText w = some t → v = w
  comma : n = 1 ∨ ∀ r ∈ rows, ∀ v ∈ r.take n, ∀ t, E.toText v = some t → ',' ∉ t

/-- What Go guarantees of map iteration and of `sort.Slice` with any comparison function: both return the
keys in some order, and sorting only compares the keys it is given. -/
structure Lawful (ch : Choice) : Prop where
  enum_perm : ∀ l, (ch.enum l).Perm l
  sort_perm : ∀ f l, (ch.sort f l).Perm l
  sort_local : ∀ f g l, (∀ i ∈ l, ∀ j ∈ l, f i j = g i j) → ch.sort f l = ch.sort g l

/-! ### Ordered finalisation -/

/-- `safecast.Compare` is a total preorder on the values satisfying `P`. -/
structure CmpOrder (E : Env V F) (P : Option V → Prop) : Prop where
  tri : ∀ a b, P a → P b → E.cmp a b = some (-1) ∨ E.cmp a b = some 0 ∨ E.cmp a b = some 1
  symm : ∀ a b c, P a → P b → E.cmp a b = some c → E.cmp b a = some (-c)
  trans : ∀ a b c, P a → P b → P c → E.cmp a b ≠ some 1 → E.cmp b c ≠ some 1 → E.cmp a c ≠ some 1

/-- Tuple order: the first position that differs decides. -/
inductive LexLt (E : Env V F) : List (Option V) → List (Option V) → Prop
  | head {a b as bs} : E.cmp a b = some (-1) → LexLt E (a :: as) (b :: bs)
  | tail {a b as bs} : E.cmp a b = some 0 → LexLt E as bs → LexLt E (a :: as) (b :: bs)

/-- What `sort.Slice` guarantees: with a strict weak order the result is sorted. -/
def SortsWeak (ch : Choice) : Prop := ∀ f l,
  (∀ i ∈ l, ∀ j ∈ l, f i j = true → f j i = false) →
  (∀ i ∈ l, ∀ j ∈ l, ∀ k ∈ l, f i j = false → f j k = false → f i k = false) →
  (ch.sort f l).Pairwise (fun i j => f j i = false)

/-- A stronger contract, which needs a sorter that never compares an element with itself: sorted as soon as
the comparison is a strict total order between different elements. -/
def SortsDistinct (ch : Choice) : Prop := ∀ f l, l.Nodup →
  (∀ i ∈ l, ∀ j ∈ l, i ≠ j → f i j = !f j i) →
  (∀ i ∈ l, ∀ j ∈ l, ∀ k ∈ l, i ≠ j → j ≠ k → i ≠ k → f i j = true → f j k = true → f i k = true) →
  (ch.sort f l).Pairwise (fun i j => f i j = true)

end Verif.Spec
