import Verif.Model.Str
/-! What binding should do, on queries given as texts and placeholders. -/
namespace Verif.Spec

/-- The text `p ? p₁ ? p₂ …`. -/
def marked (p : Str) : List Str → Str
  | [] => p
  | p₁ :: ps => p ++ '?' :: marked p₁ ps

/-- The text with the first placeholders replaced by the given values, the others kept. -/
def filled (p : Str) : List Str → List Str → Str
  | ps, [] => marked p ps
  | [], _ :: _ => p
  | p₁ :: ps, v :: vs => p ++ v ++ filled p₁ ps vs

/-- The text `p $k₁ p₁ $k₂ p₂ …`. -/
def dollars (p : Str) : List (Nat × Str) → Str
  | [] => p
  | (k, p₁) :: r => p ++ '$' :: Str.ofNat k ++ dollars p₁ r

/-- The text with `$k` replaced by the `k`-th value (counted from one), other numbers kept. -/
def dollarsFilled (p : Str) (vs : List Str) : List (Nat × Str) → Str
  | [] => p
  | (k, p₁) :: r =>
    p ++ (if k = 0 then '$' :: Str.ofNat k else (vs[k - 1]?).getD ('$' :: Str.ofNat k)) ++ dollarsFilled p₁ vs r

/-- `d` is in the text, the first time behind `p` and with `r` following. -/
def FirstIs (d q p r : Str) : Prop := q = p ++ d ++ r ∧ ∀ p' r', q = p' ++ d ++ r' → p.length ≤ p'.length

/-- The text that values make of a text when the next one is the `k`-th: each takes the place of the first question mark, or,
if there is none or the text begins with it, of the first `$k`; neither counts at the beginning of the text. -/
inductive FilledIn : Nat → Str → List Str → Str → Prop
  | done (k : Nat) (q : Str) : FilledIn k q [] q
  | mark {k : Nat} {q p r v out : Str} {vs : List Str} (h : FirstIs ['?'] q p r) (hp : p ≠ []) (ht : FilledIn (k + 1) (p ++ v ++ r) vs out) :
      FilledIn k q (v :: vs) out
  | number {k : Nat} {q p r v out : Str} {vs : List Str} (hq : '?' ∉ q ∨ q.head? = some '?') (h : FirstIs ('$' :: Str.ofNat k) q p r)
      (hp : p ≠ []) (ht : FilledIn (k + 1) (p ++ v ++ r) vs out) : FilledIn k q (v :: vs) out

end Verif.Spec
