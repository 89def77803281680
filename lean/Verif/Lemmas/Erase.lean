import Verif.Model.Visitor
/-! The parser looks at the kinds of tokens only: replacing texts of tokens commutes with parsing. -/
namespace Verif.Gram
open Verif Verif.Lex

/-- A token with another text. -/
def retok (tx : Token → Str) (t : Token) : Token := ⟨t.kind, tx t⟩

theorem retok_kind (tx : Token → Str) (t : Token) : (retok tx t).kind = t.kind := rfl

mutual
/-- A tree with other texts of tokens. -/
def Tree.retext (tx : Token → Str) : Tree → Tree
  | .leaf t => .leaf (retok tx t)
  | .node r cs => .node r (retextAll tx cs)
  | .lab l cs => .lab l (retextAll tx cs)
  | .seg cs => .seg (retextAll tx cs)
/-- A list of trees with other texts. -/
def retextAll (tx : Token → Str) : List Tree → List Tree
  | [] => []
  | t :: r => t.retext tx :: retextAll tx r
end

variable {tx : Token → Str}

theorem retextAll_append (a b : List Tree) : retextAll tx (a ++ b) = retextAll tx a ++ retextAll tx b := by
  induction a with
  | nil => simp [retextAll]
  | cons x a ih => simp [retextAll, ih]

theorem retextAll_eq (l : List Tree) : retextAll tx l = l.map (Tree.retext tx) := by
  induction l with
  | nil => simp [retextAll]
  | cons x a ih => simp [retextAll, ih]

/-- A result with other texts. -/
def retextRes (tx : Token → Str) (p : PRes) : PRes := (retextAll tx p.1, p.2.map (retok tx))

theorem bindAll_map {α β γ δ : Type} (g : α → γ) (h : β → δ) (l : List α) (f : α → Option (List β)) (f' : γ → Option (List δ))
    (hf : ∀ a, f' (g a) = (f a).map (List.map h)) : bindAll (l.map g) f' = (bindAll l f).map (List.map h) := by
  induction l with
  | nil => rfl
  | cons a l ih =>
    simp only [List.map_cons, bindAll, hf, ih]
    cases f a with
    | none => rfl
    | some x => cases bindAll l f with
      | none => rfl
      | some y => simp

theorem one_retext (f : Tok → Bool) (ts : List Token) : one f (ts.map (retok tx)) = (one f ts).map (retextRes tx) := by
  cases ts with
  | nil => rfl
  | cons x r =>
    simp only [List.map_cons, one, retok_kind]
    by_cases h : f x.kind = true <;> simp [h, retextRes, retextAll, Tree.retext]

theorem addSegs_retext (l : List Tree) (t : Tree) : addSegs (t.retext tx) (retextAll tx l) = (addSegs t l).retext tx := by
  induction l generalizing t with
  | nil => simp [retextAll, addSegs]
  | cons x l ih =>
    cases x with
    | seg cs =>
      simp only [retextAll, Tree.retext, addSegs]
      rw [← ih]; simp [Tree.retext, retextAll]
    | _ => simp [retextAll, Tree.retext, addSegs]

theorem beforeSegs_retext (l : List Tree) : beforeSegs (retextAll tx l) = retextAll tx (beforeSegs l) := by
  induction l with
  | nil => simp [retextAll, beforeSegs]
  | cons x l ih => cases x <;> simp [retextAll, Tree.retext, beforeSegs, ih]

theorem fromSegs_retext (l : List Tree) : fromSegs (retextAll tx l) = retextAll tx (fromSegs l) := by
  induction l with
  | nil => simp [retextAll, fromSegs]
  | cons x l ih => cases x <;> simp [retextAll, Tree.retext, fromSegs, ih]

theorem foldExpr_retext (l : List Tree) : foldExpr (retextAll tx l) = retextAll tx (foldExpr l) := by
  rw [foldExpr, foldExpr, fromSegs_retext, beforeSegs_retext, retextAll, retextAll, ← addSegs_retext]
  simp [Tree.retext]

theorem map_map_res {f g : PRes → PRes} (h : ∀ p, f ((retextRes tx) p) = (retextRes tx) (g p)) (x : Option (List PRes)) :
    (x.map (List.map (retextRes tx))).map (fun m => m.map f) = (x.map (fun m => m.map g)).map (List.map (retextRes tx)) := by
  cases x with
  | none => rfl
  | some l => simp [List.map_map, Function.comp_def, h]

theorem runs_retext : ∀ n e ts, runs n e (ts.map (retok tx)) = (runs n e ts).map (List.map (retextRes tx)) := by
  intro n
  induction n with
  | zero => intros; rfl
  | succ n ih =>
    have chain : ∀ (b : Elem) (l : List PRes), bindAll (l.map (retextRes tx)) (fun p => (runs n b p.2).map (fun m => m.map (fun q => (p.1 ++ q.1, q.2)))) =
        (bindAll l (fun p => (runs n b p.2).map (fun m => m.map (fun q => (p.1 ++ q.1, q.2))))).map (List.map (retextRes tx)) := by
      intro b l
      refine bindAll_map _ _ _ _ _ (fun p => ?_)
      show (runs n b (p.2.map (retok tx))).map _ = _
      rw [ih]
      exact map_map_res (fun q => by simp [retextRes, retextAll_append]) _
    intro e ts
    cases e with
    | eps => simp [runs, retextRes, retextAll]
    | tok t => simp [runs, one_retext]
    | set f => simp [runs, one_retext]
    | eof => cases ts <;> simp [runs, retextRes, retextAll]
    | seq a b =>
      rw [runs, runs, ih]
      cases runs n a ts with
      | none => rfl
      | some l => exact chain b l
    | alt a b =>
      rw [runs, runs, ih, ih]
      cases runs n a ts with
      | none => rfl
      | some l => cases runs n b ts with
        | none => rfl
        | some m => simp
    | star a =>
      rw [runs, runs, ih]
      cases runs n a ts with
      | none => rfl
      | some l =>
        simp only [Option.map_some, Option.bind_some]
        rw [chain]
        cases bindAll l _ with
        | none => rfl
        | some m => simp [retextRes, retextAll]
    | nstar a =>
      rw [runs, runs, ih]
      cases runs n a ts with
      | none => rfl
      | some l =>
        simp only [Option.map_some, Option.bind_some]
        rw [chain]
        cases bindAll l _ with
        | none => rfl
        | some m => simp [retextRes, retextAll]
    | lab l a => rw [runs, runs, ih]; exact map_map_res (fun p => by simp [retextRes, retextAll, Tree.retext]) _
    | nt r => rw [runs, runs, ih]; exact map_map_res (fun p => by simp [retextRes, retextAll, Tree.retext]) _
    | expr p => rw [runs, runs, ih]; exact map_map_res (fun p => by simp [retextRes, foldExpr_retext]) _
    | seg a => rw [runs, runs, ih]; exact map_map_res (fun p => by simp [retextRes, retextAll, Tree.retext]) _

theorem parseTree_retext (ts : List Token) : parseTree (ts.map (retok tx)) = (parseTree ts).map (Tree.retext tx) := by
  simp only [parseTree, parses]
  rw [show fuelFor (ts.map (retok tx)) = fuelFor ts by simp [fuelFor], runs_retext]
  cases runs (fuelFor ts) (.nt .parse) ts with
  | none => rfl
  | some l =>
    cases l with
    | nil => rfl
    | cons p l =>
      obtain ⟨trs, us⟩ := p
      match trs with
      | [] => rfl
      | [t] => simp [retextRes, retextAll]
      | _ :: _ :: _ => simp [retextRes, retextAll]

/-! ### Parts of trees -/

theorem unlab_retext (l : List Tree) : unlab (retextAll tx l) = retextAll tx (unlab l) := by
  induction l with
  | nil => simp [retextAll, unlab]
  | cons x l ih => cases x <;> simp [retextAll, Tree.retext, unlab, ih, retextAll_append]

theorem kids_retext (t : Tree) : (t.retext tx).kids = t.kids.map (Tree.retext tx) := by
  cases t with
  | node r cs => simp only [Tree.retext, Tree.kids, unlab_retext]; rw [retextAll_eq]
  | _ => rfl

theorem isRule_retext (r : Rule) (t : Tree) : (t.retext tx).isRule r = t.isRule r := by
  cases t <;> simp [Tree.retext, Tree.isRule]

theorem isTok_retext (k : Tok) (t : Tree) : (t.retext tx).isTok k = t.isTok k := by
  cases t <;> simp [Tree.retext, Tree.isTok, retok]

theorem labelled_retext (q : Lab) (l : List Tree) : labelled q (retextAll tx l) = (labelled q l).map (Tree.retext tx) := by
  induction l with
  | nil => simp [retextAll, labelled]
  | cons x l ih =>
    cases x with
    | lab k cs =>
      simp only [retextAll, Tree.retext, labelled]
      rw [ih]
      split <;> simp [retextAll_eq]
    | _ => simp [retextAll, Tree.retext, labelled, ih]

theorem find?_retext (p : Tree → Bool) (hp : ∀ t : Tree, p (t.retext tx) = p t) (l : List Tree) :
    (l.map (Tree.retext tx)).find? p = (l.find? p).map (Tree.retext tx) := by
  rw [List.find?_map]
  congr 1
  congr 1
  funext t
  exact hp t

theorem child_retext (r : Rule) (t : Tree) : (t.retext tx).child r = (t.child r).map (Tree.retext tx) := by
  rw [Tree.child, Tree.child, kids_retext, find?_retext _ (isRule_retext r)]

theorem token_retext (k : Tok) (t : Tree) : (t.retext tx).token k = (t.token k).map (Tree.retext tx) := by
  rw [Tree.token, Tree.token, kids_retext, find?_retext _ (isTok_retext k)]

theorem all_retext (r : Rule) (t : Tree) : (t.retext tx).all r = (t.all r).map (Tree.retext tx) := by
  rw [Tree.all, Tree.all, kids_retext, List.filter_map]
  congr 1
  congr 1
  funext t
  exact isRule_retext r t

theorem labels_retext (q : Lab) (t : Tree) : (t.retext tx).labels q = (t.labels q).map (Tree.retext tx) := by
  cases t with
  | node r cs => exact labelled_retext q cs
  | _ => rfl

theorem label_retext (q : Lab) (t : Tree) : (t.retext tx).label q = (t.label q).map (Tree.retext tx) := by
  rw [Tree.label, Tree.label, labels_retext, List.head?_map]

/-! ### Without texts -/

/-- The kinds of tokens that have one spelling: keywords and operators. -/
def oneSpelling (k : Tok) : Bool := (operators ++ keywords).any (fun p => decide (p.1 = k))

/-- No text, unless the token is a keyword or operator. -/
def bareText (t : Token) : Str := if oneSpelling t.kind then Str.upper t.text else []

/-- A token without its text, unless it is a keyword or operator. -/
abbrev bareTok : Token → Token := retok bareText

/-- A tree without the texts of its tokens. -/
abbrev Tree.erase : Tree → Tree := Tree.retext bareText

theorem parseTree_erase (ts : List Token) : parseTree (ts.map bareTok) = (parseTree ts).map Tree.erase := parseTree_retext ts
theorem child_erase (r : Rule) (t : Tree) : t.erase.child r = (t.child r).map Tree.erase := child_retext r t
theorem token_erase (k : Tok) (t : Tree) : t.erase.token k = (t.token k).map Tree.erase := token_retext k t
theorem all_erase (r : Rule) (t : Tree) : t.erase.all r = (t.all r).map Tree.erase := all_retext r t
theorem labels_erase (q : Lab) (t : Tree) : t.erase.labels q = (t.labels q).map Tree.erase := labels_retext q t
theorem label_erase (q : Lab) (t : Tree) : t.erase.label q = (t.label q).map Tree.erase := label_retext q t

end Verif.Gram
