import Verif.Lemmas.Number
import Verif.Lemmas.SelectWritten
import Verif.Props.Types
import Verif.Spec.Table
/-! CREATE TABLE is what is written. -/
namespace Verif.Lemmas
open Verif Verif.Lex Verif.Gram Verif.Query Verif.Visit Verif.Util Verif.Spec

/-! ### Names -/

theorem quote_iff (c : Char) : (s%"'`()").contains c = true ↔ c ∈ nameQuotes := by
  simp [nameQuotes]

theorem bareName_unescape (x : Str) : BareName x (unEscapeNameString x) := by
  obtain ⟨a, b, h1, h2, h3⟩ := trim_ends s%"'`()" x
  refine ⟨a, b, h1, fun c hc => (quote_iff c).mp (h2 c hc), fun c hc => (quote_iff c).mp (h3 c hc), ?_, ?_⟩
  · intro c r h hc
    have := Str.trim_head s%"'`()" x c r h
    rw [(quote_iff c).mpr hc] at this; cases this
  · intro c r h hc
    have := Str.trim_last s%"'`()" x c r h
    rw [(quote_iff c).mpr hc] at this; cases this

theorem dropWhile_append_all {α : Type} (p : α → Bool) (a b : List α) (h : ∀ x, x ∈ a → p x = true) : (a ++ b).dropWhile p = b.dropWhile p := by
  induction a with
  | nil => rfl
  | cons x a ih => rw [List.cons_append, List.dropWhile_cons, if_pos (h x (by simp)), ih fun y hy => h y (by simp [hy])]

theorem bareName_iff (x n : Str) : BareName x n ↔ n = unEscapeNameString x := by
  constructor
  · rintro ⟨a, b, rfl, ha, hb, hh, hl⟩
    have ha' : ∀ c, c ∈ a → (fun c => (s%"'`()").contains c) c = true := fun c hc => (quote_iff c).mpr (ha c hc)
    have hb' : ∀ c, c ∈ b.reverse → (fun c => (s%"'`()").contains c) c = true := fun c hc => (quote_iff c).mpr (hb c (by simpa using hc))
    rw [unEscapeNameString, Str.trim_eq, List.append_assoc, dropWhile_append_all _ _ _ ha']
    cases n with
    | nil =>
      have : (([] : Str) ++ b).dropWhile (fun c => (s%"'`()").contains c) = [] := by
        rw [List.nil_append]
        have := dropWhile_append_all (fun c => (s%"'`()").contains c) b [] (fun c hc => (quote_iff c).mpr (hb c hc))
        simpa using this
      rw [this]; rfl
    | cons c r =>
      have hc : (s%"'`()").contains c = false := eq_false_of_ne_true fun h => hh c r rfl ((quote_iff c).mp h)
      rw [List.cons_append, List.dropWhile_cons, if_neg (by rw [hc]; decide), ← List.cons_append, List.reverse_append,
        dropWhile_append_all _ _ _ hb']
      have hr := List.dropLast_concat_getLast (l := c :: r) (by simp)
      have hlast : (s%"'`()").contains ((c :: r).getLast (by simp)) = false :=
        eq_false_of_ne_true fun h => hl _ _ hr.symm ((quote_iff _).mp h)
      rw [← hr, List.reverse_append, List.reverse_singleton, List.singleton_append, List.dropWhile_cons, if_neg (by rw [hlast]; decide)]
      simp
  · rintro rfl; exact bareName_unescape x

theorem firstNamed_iff (cols : List Column) (w : Str) (c : Column) : FirstNamed cols w c ↔ lookupColumn cols (unEscapeNameString w) = some c := by
  rw [lookupColumn, List.find?_eq_some_iff_append]
  constructor
  · rintro ⟨n, p, s, hn, rfl, hc, hp⟩
    rw [bareName_iff] at hn; subst hn
    exact ⟨(sameName_iff _ _).mpr hc, p, s, rfl, fun x hx => by simpa using fun h => hp x hx ((sameName_iff _ _).mp h)⟩
  · rintro ⟨hc, p, s, rfl, hp⟩
    exact ⟨_, p, s, bareName_unescape w, rfl, (sameName_iff _ _).mp hc, fun x hx h => by
      have := hp x hx
      rw [(sameName_iff _ _).mpr h] at this; cases this⟩

theorem isKeyword_name {k : Tok} (h : isKeyword k = true) : k ∉ [Tok.OPEN_PAR, .CLOSE_PAR, .COMMA, .DOT, .SCOL, .NUMERIC_LITERAL] := by
  intro hk
  simp only [List.mem_cons, List.not_mem_nil, or_false] at hk
  rcases hk with rfl | rfl | rfl | rfl | rfl | rfl <;> revert h <;> decide

theorem anyName_size : ∀ (n : Nat) {ts us : List Token} {l : List Tree}, Derives (.nt .any_name) ts l us → (leavesAll l).length ≤ n →
    NameTokens (leavesAll l) := by
  intro n
  induction n with
  | zero =>
    intro ts us l h hn
    have := feeds_sound (R := fedRules) (by decide) (by decide) h (by decide)
    exact absurd (List.length_eq_zero_iff.mp (Nat.le_zero.mp hn)) this
  | succ n ih =>
    intro ts us l h hn
    obtain ⟨cs, rfl, hb⟩ := nt_inv h
    rw [leavesAll_one, Tree.leaves] at hn ⊢
    rcases alt_inv hb with h1 | hb
    · obtain ⟨x, rfl, hx⟩ := tok_inv h1
      rw [leavesAll_one, Tree.leaves]
      exact .one x (by rw [hx]; decide)
    rcases alt_inv hb with h1 | hb
    · obtain ⟨ds, rfl, hd⟩ := nt_inv h1
      cases hd with
      | set f x r hx =>
        simp only [leavesAll_one, Tree.leaves]
        exact .one x (isKeyword_name hx)
    rcases alt_inv hb with h1 | hb
    · obtain ⟨x, rfl, hx⟩ := tok_inv h1
      rw [leavesAll_one, Tree.leaves]
      exact .one x (by rw [hx]; decide)
    · obtain ⟨l1, m1, _, rfl, h1, k1⟩ := seq_inv hb
      obtain ⟨l2, l3, _, rfl, h2, h3⟩ := seq_inv k1
      obtain ⟨o, rfl, ho⟩ := tok_inv h1
      obtain ⟨c, rfl, hc⟩ := tok_inv h3
      have e : leavesAll ([Tree.leaf o] ++ (l2 ++ [Tree.leaf c])) = o :: (leavesAll l2 ++ [c]) := by
        simp [leavesAll_append, leavesAll, Tree.leaves]
      rw [e] at hn ⊢
      refine .paren o c _ ho hc (ih h2 ?_)
      simp at hn; omega

theorem anyName_tokens {ts us : List Token} {l : List Tree} (h : Derives (.nt .any_name) ts l us) : NameTokens (leavesAll l) :=
  anyName_size _ h (Nat.le_refl _)

/-- The rules for names. -/
theorem name_tokens {r : Rule} (hr : body r = .nt .any_name) {ts us : List Token} {l : List Tree} (h : Derives (.nt r) ts l us) :
    ∃ cs, l = [.node r cs] ∧ NameTokens (Tree.node r cs).leaves := by
  obtain ⟨cs, rfl, hb⟩ := nt_inv h
  rw [hr] at hb
  exact ⟨cs, rfl, by rw [Tree.leaves]; exact anyName_tokens hb⟩

/-! ### Types -/

theorem number_tokens {ts us : List Token} {l : List Tree} (h : Derives (.nt .signed_number) ts l us) :
    ∃ cs, l = [.node .signed_number cs] ∧ NumTokens (Tree.node .signed_number cs).leaves := by
  obtain ⟨cs, rfl, hb⟩ := nt_inv h
  refine ⟨cs, rfl, ?_⟩
  obtain ⟨l1, l2, _, rfl, h1, h2⟩ := seq_inv hb
  obtain ⟨n, rfl, hn⟩ := tok_inv h2
  rcases opt_inv h1 with rfl | h1
  · have e : (Tree.node .signed_number ([] ++ [Tree.leaf n])).leaves = [n] := by simp [Tree.leaves, leavesAll]
    rw [e]; exact .plain n hn
  · obtain ⟨x, rfl, hx⟩ := oneTok_sound (K := [.PLUS, .MINUS]) h1 (by decide)
    have e : (Tree.node .signed_number ([Tree.leaf x] ++ [Tree.leaf n])).leaves = [x, n] := by simp [Tree.leaves, leavesAll]
    rw [e]; exact .signed x n hx hn

theorem words_tokens {ts us : List Token} {m : List Tree} (h : Derives (.nstar (.nt .«name»)) ts m us) :
    WordTokens (leavesAll m) (((unlab m).filter (Tree.isRule .«name»)).map (·.text)) := by
  generalize he : Elem.nstar (.nt .«name») = e at h
  induction h with
  | nstarNil => exact .nil
  | nstarCons h1 _ _ ih2 =>
    cases he
    obtain ⟨cs, rfl, hn⟩ := name_tokens (r := .«name») rfl h1
    have := WordTokens.cons _ _ _ hn (ih2 rfl)
    rw [leavesAll_append, leavesAll_one]
    simpa [unlab, Tree.isRule, text_leaves] using this
  | _ => cases he

theorem nplus_words {ts us : List Token} {m : List Tree} (h : Derives (.nplus (.nt .«name»)) ts m us) :
    WordTokens (leavesAll m) (((unlab m).filter (Tree.isRule .«name»)).map (·.text)) ∧ (unlab m).filter (Tree.isRule .«name») ≠ [] := by
  obtain ⟨l1, l2, _, rfl, h1, h2⟩ := seq_inv h
  obtain ⟨cs, rfl, hn⟩ := name_tokens (r := .«name») rfl h1
  have := WordTokens.cons _ _ _ hn (words_tokens h2)
  rw [leavesAll_append, leavesAll_one]
  refine ⟨by simpa [unlab, Tree.isRule, text_leaves] using this, by simp [unlab, Tree.isRule]⟩

/-- What the visitor makes of the words and numbers of a type. -/
def joinType (words sizes : List Str) : List Str := words ++ (if sizes = [] then [] else [s%"(", joinWithComma sizes, s%")"])

theorem type_tokens {ts us : List Token} {l : List Tree} (h : Derives (.nt .type_name) ts l us) :
    ∃ cs w s words sizes, l = [.node .type_name cs] ∧ (Tree.node .type_name cs).leaves = w ++ s ∧ WordTokens w words ∧ words ≠ [] ∧
      SizeTokens s sizes ∧ ((Tree.node .type_name cs).all .«name»).map (·.text) = words ∧ typeWords (.node .type_name cs) = joinType words sizes := by
  obtain ⟨cs, rfl, hb⟩ := nt_inv h
  obtain ⟨l1, l2, _, rfl, h1, h2⟩ := seq_inv hb
  obtain ⟨hw, hne⟩ := nplus_words h1
  have hne' : ((unlab l1).filter (Tree.isRule .«name»)).map (·.text) ≠ [] := by simpa using hne
  have ho := leafless_sound (k := .OPEN_PAR) h1 (by decide)
  have hnum : (unlab l1).filter (Tree.isRule .signed_number) = [] := absent_filter h1 (by decide)
  have hnm : (unlab l2).filter (Tree.isRule .«name») = [] := absent_filter h2 (by decide)
  have e1 : (Tree.node .type_name (l1 ++ l2)).all .«name» = (unlab l1).filter (Tree.isRule .«name») := by
    rw [Tree.all, Tree.kids, filter_unlab_append, hnm, List.append_nil]
  have e2 : (Tree.node .type_name (l1 ++ l2)).all .signed_number = (unlab l2).filter (Tree.isRule .signed_number) := by
    rw [Tree.all, Tree.kids, filter_unlab_append, hnum, List.nil_append]
  have e3 : (Tree.node .type_name (l1 ++ l2)).leaves = leavesAll l1 ++ leavesAll l2 := by rw [Tree.leaves, leavesAll_append]
  have tk : ∀ k x, x ∈ unlab l2 → Tree.isTok k x = true → ((Tree.node .type_name (l1 ++ l2)).token k).isSome = true := by
    intro k x hx hk
    rw [Tree.token, Tree.kids, unlab_append, List.find?_isSome]
    exact ⟨x, List.mem_append_right _ hx, hk⟩
  rcases opt_inv h2 with rfl | h2
  · refine ⟨_, _, _, _, [], rfl, e3, hw, hne', .none, by rw [e1], ?_⟩
    have : (Tree.node .type_name (l1 ++ [])).token .OPEN_PAR = none := token_none (by simpa using ho)
    rw [typeWords, e1, this, joinType]
    simp
  rcases alt_inv h2 with h2 | h2
  · obtain ⟨a1, b1, _, rfl, g1, k1⟩ := seq_inv h2
    obtain ⟨a2, a3, _, rfl, g2, g3⟩ := seq_inv k1
    obtain ⟨o, rfl, ho⟩ := tok_inv g1
    obtain ⟨c, rfl, hc⟩ := tok_inv g3
    obtain ⟨ns, rfl, hn⟩ := number_tokens g2
    refine ⟨_, _, _, _, [(Tree.node .signed_number ns).text], rfl, e3, hw, hne', ?_, by rw [e1], ?_⟩
    · have : leavesAll ([Tree.leaf o] ++ ([Tree.node .signed_number ns] ++ [Tree.leaf c])) = o :: ((Tree.node .signed_number ns).leaves ++ [c]) := by
        simp [leavesAll, Tree.leaves]
      rw [this, text_leaves]; exact .one o c _ ho hc hn
    · have t1 := tk .OPEN_PAR (.leaf o) (by simp [unlab]) (by simpa [Tree.isTok] using ho)
      have t2 := tk .CLOSE_PAR (.leaf c) (by simp [unlab]) (by simpa [Tree.isTok] using hc)
      rw [typeWords, e1, e2, t1, t2, joinType]
      simp [unlab, Tree.isRule]
  · obtain ⟨a1, b1, _, rfl, g1, k1⟩ := seq_inv h2
    obtain ⟨a2, b2, _, rfl, g2, k2⟩ := seq_inv k1
    obtain ⟨a3, b3, _, rfl, g3, k3⟩ := seq_inv k2
    obtain ⟨a4, a5, _, rfl, g4, g5⟩ := seq_inv k3
    obtain ⟨o, rfl, ho⟩ := tok_inv g1
    obtain ⟨k, rfl, hk⟩ := tok_inv g3
    obtain ⟨c, rfl, hc⟩ := tok_inv g5
    obtain ⟨ns, rfl, hn⟩ := number_tokens g2
    obtain ⟨ms, rfl, hm⟩ := number_tokens g4
    refine ⟨_, _, _, _, [(Tree.node .signed_number ns).text, (Tree.node .signed_number ms).text], rfl, e3, hw, hne', ?_, by rw [e1], ?_⟩
    · have : leavesAll ([Tree.leaf o] ++ ([Tree.node .signed_number ns] ++ ([Tree.leaf k] ++ ([Tree.node .signed_number ms] ++ [Tree.leaf c])))) =
          o :: ((Tree.node .signed_number ns).leaves ++ k :: ((Tree.node .signed_number ms).leaves ++ [c])) := by
        simp [leavesAll, Tree.leaves]
      rw [this, text_leaves, text_leaves]; exact .two o k c _ _ ho hk hc hn hm
    · have t1 := tk .OPEN_PAR (.leaf o) (by simp [unlab]) (by simpa [Tree.isTok] using ho)
      have t2 := tk .CLOSE_PAR (.leaf c) (by simp [unlab]) (by simpa [Tree.isTok] using hc)
      rw [typeWords, e1, e2, t1, t2, joinType]
      simp [unlab, Tree.isRule]

theorem typed_named {w : Str} {t : DataType} (h : newDataTypeFromString w = some t) : t.toStr ≠ [] := by
  rw [newDataTypeFromString, newDataTypeFromStringIn, Option.map_eq_some_iff] at h
  obtain ⟨e, he, rfl⟩ := h
  have := List.all_eq_true.mp (show dataTypeStrings.all (fun e => decide (e.1.toStr ≠ [])) = true by decide) e (List.mem_of_find?_eq_some he)
  simpa using this

theorem typeWord_iff (w : Str) (t : DataType) : TypeWord w t ↔ newDataTypeFromString w = some t := by
  constructor
  · rintro ⟨h1, h2⟩; exact (Props.C21_data_type_names dataTypeStrings (List.Perm.refl _) t h1 w).mpr h2
  · intro h; exact ⟨typed_named h, (Props.C21_data_type_names dataTypeStrings (List.Perm.refl _) t (typed_named h) w).mp h⟩

theorem toNat_comma {s : Str} (h : ',' ∈ s) : Str.toNat? s = none := by
  unfold Str.toNat?
  split
  · rfl
  · rw [if_neg]
    intro ha
    have := List.all_eq_true.mp ha _ h
    revert this; decide

theorem atoi_comma {s : Str} (h : ',' ∈ s) : Str.atoi s = none := by
  have : Str.signed? s = none := by
    unfold Str.signed?
    split
    · rw [toNat_comma (by simpa using h)]; rfl
    · rw [toNat_comma (by simpa using h)]; rfl
    · rw [toNat_comma h]; rfl
  rw [Str.atoi, this]; rfl

theorem type_plain (w : Str) (ws sizes : List Str) (hs : sizes = [] ∨ ws ≠ []) :
    TypeWritten (w :: ws) sizes ((newDataDefFrom w (-1)).getD unknownDataDef) := by
  cases ht : newDataTypeFromString w with
  | some t => rw [newDataDefFrom, ht]; exact .plain w ws sizes t ((typeWord_iff _ _).mpr ht) hs
  | none => rw [newDataDefFrom, ht]; exact .noType w ws sizes fun t h => by rw [(typeWord_iff _ _).mp h] at ht; cases ht

/-- The type that is made of the words and numbers. -/
theorem type_written {words sizes : List Str} (hne : words ≠ []) (hw : ∀ w, w ∈ words → w ≠ s%"(" ∧ w ≠ s%")")
    (hs : sizes = [] ∨ (∃ n, sizes = [n] ∧ n ≠ s%")") ∨ ∃ n m, sizes = [n, m]) :
    TypeWritten words sizes ((newDataDefFromStrings (joinType words sizes)).getD unknownDataDef) := by
  have hj : ∀ n m : Str, ',' ∈ joinWithComma [n, m] := by intro n m; simp [joinWithComma, Str.join]
  cases words with
  | nil => exact absurd rfl hne
  | cons w ws =>
    cases ws with
    | nil =>
      rcases hs with rfl | ⟨n, rfl, -⟩ | ⟨n, m, rfl⟩
      · exact type_plain w [] [] (Or.inl rfl)
      · have e : newDataDefFromStrings (joinType [w] [n]) = (Str.atoi n).bind (newDataDefFrom w) := by
          simp [joinType, newDataDefFromStrings, joinWithComma, Str.join]
          cases Str.atoi n <;> rfl
        rw [e]
        cases hv : Str.atoi n with
        | none => exact .number w n ((atoi_none_iff n).mp hv)
        | some v =>
          cases ht : newDataTypeFromString w with
          | some t => simp only [Option.bind_some, newDataDefFrom, ht]; exact .sized w n v t ((typeWord_iff _ _).mpr ht) ((atoi_iff n v).mp hv)
          | none => simp only [Option.bind_some, newDataDefFrom, ht]; exact .noType w _ _ fun t h => by rw [(typeWord_iff _ _).mp h] at ht; cases ht
      · have e : newDataDefFromStrings (joinType [w] [n, m]) = none := by
          simp [joinType, newDataDefFromStrings, atoi_comma (hj n m)]
        rw [e]; exact .pair w n m
    | cons w2 ws =>
      have e : newDataDefFromStrings (joinType (w :: w2 :: ws) sizes) = newDataDefFrom w (-1) := by
        have h2 : w2 ≠ s%"(" := (hw w2 (by simp)).1
        cases ws with
        | nil =>
          rcases hs with rfl | ⟨n, rfl, hn⟩ | ⟨n, m, rfl⟩
          · rfl
          · have : joinWithComma [n] = n := by simp [joinWithComma, Str.join]
            simp only [joinType, newDataDefFromStrings, this, List.cons_append, List.nil_append, reduceCtorEq, if_false]
            rw [if_neg (fun h => h.elim (fun h => h2 h) (fun h => hn h))]
          · have : joinWithComma [n, m] ≠ s%")" := by
              intro h; have := hj n m; rw [h] at this; revert this; decide
            simp only [joinType, newDataDefFromStrings, List.cons_append, List.nil_append, reduceCtorEq, if_false]
            rw [if_neg (fun h => h.elim (fun h => h2 h) (fun h => this h))]
        | cons w3 ws =>
          cases ws with
          | nil =>
            by_cases hz : sizes = []
            · subst hz; rfl
            · simp only [joinType, newDataDefFromStrings, List.cons_append, List.nil_append, if_neg hz]
              rw [if_neg (fun h => h.elim (fun h => h2 h) (fun h => by cases h))]
          | cons w4 ws =>
            have h4 : w4 ≠ s%")" := (hw w4 (by simp)).2
            simp only [joinType, newDataDefFromStrings, List.cons_append]
            rw [if_neg (fun h => h.elim (fun h => h2 h) (fun h => h4 h))]
      rw [e]
      exact type_plain w (w2 :: ws) sizes (Or.inr (by simp))

/-! ### Constraints -/

theorem conName_tokens {ts us : List Token} {l : List Tree} (h : Derives (.opt ((.tok .CONSTRAINT_) ⬝ (.nt .«name»))) ts l us) : ConName (leavesAll l) := by
  rcases opt_inv h with rfl | h
  · exact Or.inl rfl
  · obtain ⟨l1, l2, _, rfl, h1, h2⟩ := seq_inv h
    obtain ⟨w, rfl, hw⟩ := tok_inv h1
    obtain ⟨cs, rfl, hn⟩ := name_tokens (r := .«name») rfl h2
    exact Or.inr ⟨w, _, by simp [leavesAll, Tree.leaves], hw, hn⟩

/-- A first token that is not a parenthesis does not matter for the balance. -/
theorem balanced_tail {x : Token} {ts : List Token} (h : walk 0 (x :: ts) = some 0) (h1 : x.kind ≠ .OPEN_PAR) (h2 : x.kind ≠ .CLOSE_PAR) : Balanced ts := by
  rw [walk, if_neg h1, if_neg h2] at h
  exact walk_balanced h

/-- The words that begin a constraint other than PRIMARY KEY. -/
def conToks : List Tok := [.INDEX_, .NOT_, .NULL_, .UNIQUE_, .CHECK_, .DEFAULT_, .COLLATE_, .REFERENCES_, .GENERATED_, .AS_]

theorem constraint_tokens {ts us : List Token} {l : List Tree} (h : Derives (.nt .column_constraint) ts l us) :
    ∃ cs, l = [.node .column_constraint cs] ∧
      ((∃ pre p k tail, (Tree.node .column_constraint cs).leaves = pre ++ p :: k :: tail ∧ ConName pre ∧ p.kind = .PRIMARY_ ∧ k.kind = .KEY_ ∧
          FirstIn [.ASC_, .DESC_, .ON_, .AUTOINCREMENT_] tail ∧ ((Tree.node .column_constraint cs).child .primary_key_constraint).isSome = true) ∨
        ∃ pre x tail, (Tree.node .column_constraint cs).leaves = pre ++ x :: tail ∧ ConName pre ∧ x.kind ∈ conToks ∧ Balanced tail ∧
          ((Tree.node .column_constraint cs).child .primary_key_constraint).isSome = false) := by
  obtain ⟨cs, rfl, hb⟩ := nt_inv h
  refine ⟨cs, rfl, ?_⟩
  obtain ⟨l1, l2, _, rfl, h1, h2⟩ := seq_inv hb
  have hpre := conName_tokens h1
  have hf1 : (unlab l1).filter (Tree.isRule .primary_key_constraint) = [] := absent_filter h1 (by decide)
  have e : (Tree.node .column_constraint (l1 ++ l2)).child .primary_key_constraint = ((unlab l2).filter (Tree.isRule .primary_key_constraint)).head? := by
    rw [child_head, Tree.all, Tree.kids, filter_unlab_append, hf1, List.nil_append]
  have e3 : (Tree.node .column_constraint (l1 ++ l2)).leaves = leavesAll l1 ++ leavesAll l2 := by rw [Tree.leaves, leavesAll_append]
  rw [e, e3]
  rcases alt_inv h2 with h2 | h2
  · left
    obtain ⟨ds, rfl, hd⟩ := nt_inv h2
    obtain ⟨a1, m1, _, rfl, g1, k1⟩ := seq_inv hd
    obtain ⟨a2, m2, _, rfl, g2, k2⟩ := seq_inv k1
    obtain ⟨p, rfl, hp⟩ := tok_inv g1
    obtain ⟨k, rfl, hk⟩ := tok_inv g2
    refine ⟨leavesAll l1, p, k, leavesAll m2, ?_, hpre, hp, hk, begins_sound (R := [.asc_desc, .conflict_clause]) (by decide) (by decide) k2 (by decide), ?_⟩
    · simp [leavesAll, Tree.leaves]
    · simp [unlab, Tree.isRule]
  · right
    have hf2 : (unlab l2).filter (Tree.isRule .primary_key_constraint) = [] := absent_filter h2 (by decide)
    have hK := begins_sound (K := conToks) (R := [.index_constraint, .foreign_key_clause]) (by decide) (by decide) h2 (by decide)
    have hne := eats_sound (R := [.index_constraint, .foreign_key_clause]) (by decide) h2 (by decide)
    have hw := level_sound h2 0 0 (by decide)
    cases hx : leavesAll l2 with
    | nil => exact absurd hx hne
    | cons x tail =>
      have hxk : x.kind ∈ conToks := hK x tail hx
      rw [hx] at hw
      refine ⟨leavesAll l1, x, tail, rfl, hpre, hxk, balanced_tail hw ?_ ?_, by rw [hf2]; rfl⟩ <;> intro h <;> rw [h] at hxk <;> revert hxk <;> decide

theorem constraints_tokens {ts us : List Token} {m : List Tree} (h : Derives (.star (.nt .column_constraint)) ts m us) :
    ConTokens (leavesAll m) (((unlab m).filter (Tree.isRule .column_constraint)).filter (fun k => (k.child .primary_key_constraint).isSome)).length := by
  generalize he : Elem.star (.nt .column_constraint) = e at h
  induction h with
  | starNil => exact .nil
  | @starCons a ts us vs l m h1 _ _ ih2 =>
    cases he
    obtain ⟨cs, rfl, hc⟩ := constraint_tokens h1
    have ih := ih2 rfl
    have e : (unlab ([Tree.node .column_constraint cs] ++ m)).filter (Tree.isRule .column_constraint) =
        .node .column_constraint cs :: (unlab m).filter (Tree.isRule .column_constraint) := by simp [unlab, Tree.isRule]
    rw [leavesAll_append, leavesAll_one, e]
    rcases hc with ⟨pre, p, k, tail, e1, hpre, hp, hk, ht, hs⟩ | ⟨pre, x, tail, e1, hpre, hx, hb, hs⟩
    · rw [e1, List.filter_cons, if_pos hs, List.length_cons]
      simpa using ConTokens.key pre tail _ p k _ hpre hp hk ht ih
    · rw [e1, List.filter_cons, if_neg (by rw [hs]; decide)]
      simpa using ConTokens.other pre tail _ x _ hpre hx hb ih
  | _ => cases he

/-! ### Definitions -/

/-- What is known of a token of a text. -/
def TokenOk (t : Token) : Prop := t.text ≠ [] ∧ (t.text = s%"(" → t.kind = .OPEN_PAR) ∧ (t.text = s%")" → t.kind = .CLOSE_PAR)

theorem textOf_length {ts : List Token} (h : ∀ t, t ∈ ts → TokenOk t) : ts.length ≤ (Spec.textOf ts).length := by
  induction ts with
  | nil => simp
  | cons t ts ih =>
    have := ih fun x hx => h x (by simp [hx])
    have h1 : 0 < t.text.length := List.length_pos_iff.mpr (h t (by simp)).1
    simp only [Spec.textOf, List.flatMap_cons, List.length_cons, List.length_append] at *
    omega

theorem long_text {ts : List Token} (h : ∀ t, t ∈ ts → TokenOk t) (hl : 2 ≤ ts.length) : Spec.textOf ts ≠ s%"(" ∧ Spec.textOf ts ≠ s%")" := by
  have := textOf_length h
  constructor <;> intro e <;> rw [e] at this <;> simp at this <;> omega

theorem name_text {n : List Token} (h : NameTokens n) (hok : ∀ t, t ∈ n → TokenOk t) : Spec.textOf n ≠ s%"(" ∧ Spec.textOf n ≠ s%")" := by
  cases h with
  | one t hk =>
    have e : Spec.textOf [t] = t.text := by simp [Spec.textOf]
    rw [e]
    constructor
    · intro h; exact hk (by rw [(hok t (by simp)).2.1 h]; decide)
    · intro h; exact hk (by rw [(hok t (by simp)).2.2 h]; decide)
  | paren o c m ho hc hn => exact long_text hok (by simp)

theorem words_text {w : List Token} {words : List Str} (h : WordTokens w words) (hok : ∀ t, t ∈ w → TokenOk t) :
    ∀ x, x ∈ words → x ≠ s%"(" ∧ x ≠ s%")" := by
  induction h with
  | nil => intro x hx; cases hx
  | cons n ts ws hn _ ih =>
    intro x hx
    rcases List.mem_cons.mp hx with rfl | hx
    · exact name_text hn fun t ht => hok t (List.mem_append_left _ ht)
    · exact ih (fun t ht => hok t (List.mem_append_right _ ht)) x hx

theorem sizes_text {s : List Token} {sizes : List Str} (h : SizeTokens s sizes) (hok : ∀ t, t ∈ s → TokenOk t) :
    sizes = [] ∨ (∃ n, sizes = [n] ∧ n ≠ s%")") ∨ ∃ n m, sizes = [n, m] := by
  cases h with
  | none => exact Or.inl rfl
  | two => exact Or.inr (Or.inr ⟨_, _, rfl⟩)
  | one o c n ho hc hn =>
    refine Or.inr (Or.inl ⟨_, rfl, ?_⟩)
    have hok' : ∀ t, t ∈ n → TokenOk t := fun t ht => hok t (by simp [ht])
    cases hn with
    | plain n hn =>
      have e : Spec.textOf [n] = n.text := by simp [Spec.textOf]
      rw [e]
      intro h
      have := (hok' n (by simp)).2.2 h
      rw [hn] at this; cases this
    | signed a b => exact (long_text hok' (by simp)).2

theorem primaryScan_found {cs : List Column} {ws : List Str} {i : Str} {c : Column} (h : primaryScan cs ws = some (i, c)) :
    i = [] ∧ ∃ w, w ∈ ws.tail ∧ lookupColumn cs (unEscapeNameString w) = some c := by
  fun_induction primaryScan cs ws with
  | case1 w r c' hc => cases h; exact ⟨rfl, w, by simp, hc⟩
  | case2 w r hc ih =>
    obtain ⟨h1, w', h2, h3⟩ := ih h
    exact ⟨h1, w', List.mem_cons_of_mem _ h2, h3⟩
  | case3 v w r hv ih =>
    obtain ⟨h1, w', h2, h3⟩ := ih h
    exact ⟨h1, w', List.mem_cons_of_mem _ h2, h3⟩
  | case4 => cases h

theorem keyScan_found {cs : List Column} {ws : List Str} {i : Str} {c : Column} (h : keyScan cs ws = some (i, c)) :
    ∃ n w r, ws = n :: w :: r ∧ i = unEscapeNameString n ∧ lookupColumn cs (unEscapeNameString w) = some c := by
  match ws with
  | n :: w :: r =>
    rw [keyScan, Option.map_eq_some_iff] at h
    obtain ⟨x, hx, e⟩ := h
    cases e
    exact ⟨n, w, r, rfl, rfl, hx⟩
  | [] => cases h
  | [_] => cases h

theorem indexScan_found {cs : List Column} {ws : List Str} {i : Str} {c : Column} (h : indexScan cs ws = some (i, c)) :
    (∃ w, w ∈ ws.tail ∧ lookupColumn cs (unEscapeNameString w) = some c) ∧ (i = [] ∨ ∃ n, n ∈ ws.tail ∧ i = unEscapeNameString n) := by
  fun_induction indexScan cs ws with
  | case1 v w r x hx =>
    cases h
    split at hx
    · obtain ⟨h1, y, h2, h3⟩ := primaryScan_found hx
      exact ⟨⟨y, List.mem_cons_of_mem _ h2, h3⟩, Or.inl h1⟩
    · split at hx
      · obtain ⟨n, y, r', e, h2, h3⟩ := keyScan_found hx
        rw [List.tail_cons, e]
        exact ⟨⟨y, by simp, h3⟩, Or.inr ⟨n, by simp, h2⟩⟩
      · cases hx
  | case2 v w r hx ih =>
    obtain ⟨⟨y, h1, h2⟩, h3⟩ := ih h
    exact ⟨⟨y, List.mem_cons_of_mem _ h1, h2⟩, h3.imp id fun ⟨n, h4, h5⟩ => ⟨n, List.mem_cons_of_mem _ h4, h5⟩⟩
  | case3 => cases h

/-- What the second half of the loop adds, in terms of the words. -/
def defKey (cols : List Column) (d : Def) : Option Index :=
  if d.name = s%"PRIMARY" then (indexScan cols (d.name :: d.words)).map (fun x => newPrimaryIndexWith [x.2])
  else if d.name = s%"KEY" ∨ d.name = s%"INDEX" then (indexScan cols (d.name :: d.words)).map (fun x => newSecondaryIndexWith x.1 [x.2])
  else none

theorem defKey_written (cols : List Column) (d : Def) : KeyDef cols d (defKey cols d) := by
  unfold defKey
  by_cases h1 : d.name = s%"PRIMARY"
  · rw [if_pos h1]
    by_cases hf : ∃ w ws c, d.words = s%"KEY" :: w :: ws ∧ FirstNamed cols w c
    · obtain ⟨w, ws, c, hw, hc⟩ := hf
      have e : indexScan cols (d.name :: d.words) = some ([], c) := by
        rw [h1, hw, indexScan, if_pos rfl, primaryScan, if_pos rfl, (firstNamed_iff _ _ _).mp hc]
      rw [e]; exact .primary w ws c h1 hw hc
    · refine .other _ (by simp [h1]) (fun _ w ws c hw hc => hf ⟨w, ws, c, hw, hc⟩) (fun h => absurd h1 h) fun i hi => ?_
      obtain ⟨⟨i', c⟩, hx, rfl⟩ := Option.map_eq_some_iff.mp hi
      obtain ⟨⟨w, hw, hc⟩, -⟩ := indexScan_found hx
      exact ⟨c, w, hw, (firstNamed_iff _ _ _).mpr hc, rfl, Or.inl ⟨rfl, h1⟩⟩
  · rw [if_neg h1]
    by_cases h2 : d.name = s%"KEY" ∨ d.name = s%"INDEX"
    · rw [if_pos h2]
      by_cases hf : ∃ n w ws c, d.words = n :: w :: ws ∧ FirstNamed cols w c
      · obtain ⟨n, w, ws, c, hw, hc⟩ := hf
        have e : indexScan cols (d.name :: d.words) = some (unEscapeNameString n, c) := by
          rw [hw, indexScan, if_neg h1, if_pos h2, keyScan, (firstNamed_iff _ _ _).mp hc]; rfl
        rw [e]; exact .key n w _ ws c (by simpa using h2) hw (bareName_unescape n) hc
      · refine .other _ (by simp only [List.mem_cons, List.not_mem_nil, or_false]; exact Or.inr h2) (fun h => absurd h h1)
          (fun _ n w ws c hw hc => hf ⟨n, w, ws, c, hw, hc⟩) fun i hi => ?_
        obtain ⟨⟨i', c⟩, hx, rfl⟩ := Option.map_eq_some_iff.mp hi
        obtain ⟨⟨w, hw, hc⟩, hn⟩ := indexScan_found hx
        refine ⟨c, w, hw, (firstNamed_iff _ _ _).mpr hc, rfl, Or.inr ⟨rfl, h1, hn.imp id ?_⟩⟩
        rintro ⟨n, hm, rfl⟩
        exact ⟨n, hm, bareName_unescape n⟩
    · rw [if_neg h2]
      exact .no (by simp only [List.mem_cons, List.not_mem_nil, or_false]; exact fun h => h.elim h1 h2)

/-- What the first half of the loop adds, in terms of the words. -/
def colOf (d : Def) : Option Column :=
  if columnKeywords.any (Str.eqFold (unEscapeNameString d.name)) then none
  else if d.words = [] then none
  else some { name := unEscapeNameString d.name, def_ := some ((newDataDefFromStrings (joinType d.words d.sizes)).getD unknownDataDef) }

theorem colOf_written {d : Def} (hw : ∀ w, w ∈ d.words → w ≠ s%"(" ∧ w ≠ s%")")
    (hs : d.sizes = [] ∨ (∃ n, d.sizes = [n] ∧ n ≠ s%")") ∨ ∃ n m, d.sizes = [n, m]) : Declared d (colOf d) := by
  unfold colOf
  split
  · rename_i h
    obtain ⟨k, hk, he⟩ := List.any_eq_true.mp h
    exact .word _ k (bareName_unescape _) hk ((sameName_iff _ _).mp he)
  · rename_i h
    split
    · rename_i he; exact .untyped he
    · rename_i he
      refine .col _ _ (bareName_unescape _) (fun k hk hs => h ?_) (type_written he hw hs)
      exact List.any_eq_true.mpr ⟨k, hk, (sameName_iff _ _).mpr hs⟩

theorem replicate_map {α β : Type} (l : List α) (b : β) : l.map (fun _ => b) = List.replicate l.length b := by
  induction l with
  | nil => rfl
  | cons _ _ ih => rw [List.map_cons, ih, List.length_cons, List.replicate_succ]

/-- A definition is what its tokens say. -/
theorem def_tokens {ts us : List Token} {l : List Tree} (h : Derives (.nt .column_def) ts l us) :
    ∃ cs d, l = [.node .column_def cs] ∧ DefTokens (Tree.node .column_def cs).leaves d ∧
      ((∀ t, t ∈ (Tree.node .column_def cs).leaves → TokenOk t) → Declared d (colOf d)) ∧
      columnWith (.node .column_def cs) = .ok (colOf d) ∧
      ∀ acc : List Column × List Index,
        columnStep (.node .column_def cs) acc =
          .ok (acc.1 ++ (colOf d).toList, acc.2 ++ (colOf d).toList.flatMap (fun c => List.replicate d.keys (primaryOn [c]))) ∧
        indexStep (.node .column_def cs) acc = .ok (acc.1, acc.2 ++ (defKey acc.1 d).toList) := by
  obtain ⟨cs, rfl, hb⟩ := nt_inv h
  obtain ⟨l1, m1, _, rfl, h1, k1⟩ := seq_inv hb
  obtain ⟨l2, l3, _, rfl, h2, h3⟩ := seq_inv k1
  obtain ⟨ns, rfl, hn⟩ := name_tokens (r := .column_name) rfl h1
  have hc := constraints_tokens h3
  have a2 : (unlab l2).filter (Tree.isRule .column_constraint) = [] := absent_filter h2 (by decide)
  have e1 : (Tree.node .column_def ([.node .column_name ns] ++ (l2 ++ l3))).all .column_constraint = (unlab l3).filter (Tree.isRule .column_constraint) := by
    simp [Tree.all, Tree.kids, unlab, unlab_append, Tree.isRule, a2]
  have e2 : Visit.textOf .column_name (.node .column_def ([.node .column_name ns] ++ (l2 ++ l3))) = .ok (Spec.textOf (Tree.node .column_name ns).leaves) := by
    rw [← text_leaves]
    simp [Visit.textOf, Tree.child, Tree.kids, unlab, Tree.isRule, Res.must, Res.bind]
  have a3 : (unlab l3).filter (Tree.isRule .type_name) = [] := absent_filter h3 (by decide)
  have e3 : (Tree.node .column_def ([.node .column_name ns] ++ (l2 ++ l3))).child .type_name = ((unlab l2).filter (Tree.isRule .type_name)).head? := by
    rw [child_head, Tree.all, Tree.kids]
    simp [unlab, unlab_append, Tree.isRule, a3]
  have e4 : (Tree.node .column_def ([.node .column_name ns] ++ (l2 ++ l3))).leaves = (Tree.node .column_name ns).leaves ++ (leavesAll l2 ++ leavesAll l3) := by
    simp [Tree.leaves, leavesAll_append, leavesAll]
  generalize hnk : (((unlab l3).filter (Tree.isRule .column_constraint)).filter (fun k => (k.child .primary_key_constraint).isSome)) = keys at hc
  -- what the words are
  obtain ⟨w, s, words, sizes, e5, hw, hs, hz, e6⟩ : ∃ w s words sizes, leavesAll l2 = w ++ s ∧ WordTokens w words ∧ SizeTokens s sizes ∧
      (words = [] → sizes = []) ∧
      ((unlab l2).filter (Tree.isRule .type_name) = [] ∧ words = [] ∨
        words ≠ [] ∧ ∃ y, (unlab l2).filter (Tree.isRule .type_name) = [y] ∧ (y.all .«name»).map (·.text) = words ∧ typeWords y = joinType words sizes) := by
    rcases opt_inv h2 with rfl | h2
    · exact ⟨[], [], [], [], rfl, .nil, .none, fun _ => rfl, Or.inl ⟨rfl, rfl⟩⟩
    · obtain ⟨ds, w, s, words, sizes, rfl, g1, g2, g3, g4, g5, g6⟩ := type_tokens h2
      exact ⟨w, s, words, sizes, by rw [leavesAll_one, g1], g2, g4, fun h => absurd h g3, Or.inr ⟨g3, _, by simp [unlab, Tree.isRule], g5, g6⟩⟩
  have e7 : columnWith (.node .column_def ([.node .column_name ns] ++ (l2 ++ l3))) =
      .ok (colOf ⟨Spec.textOf (Tree.node .column_name ns).leaves, words, sizes, keys.length⟩) := by
    rw [columnWith, e2, e3, colOf]
    simp only [Res.bind]
    rcases e6 with ⟨e6, e8⟩ | ⟨hne, y, e6, e8, e9⟩
    · rw [e6]
      simp only [List.head?_nil, e8, if_true]
      split <;> rfl
    · rw [e6]
      have : (joinType words sizes).length ≠ 0 := by rw [joinType]; simp [hne]
      simp only [List.head?_cons, e9, if_neg this, if_neg hne]
      split <;> rfl
  refine ⟨_, ⟨Spec.textOf (Tree.node .column_name ns).leaves, words, sizes, keys.length⟩, rfl, ?_, ?_, e7, fun acc => ⟨?_, ?_⟩⟩
  · exact ⟨_, w, s, leavesAll l3, by rw [e4, e5, List.append_assoc], hn, rfl, hw, hs, hz, hc⟩
  · intro hok
    rw [e4, e5] at hok
    exact colOf_written (words_text hw fun t ht => hok t (by simp [ht])) (sizes_text hs fun t ht => hok t (by simp [ht]))
  · rw [columnStep, e7, e1, hnk]
    simp only [Res.bind]
    cases colOf ⟨Spec.textOf (Tree.node .column_name ns).leaves, words, sizes, keys.length⟩ with
    | none => simp
    | some c => simp [replicate_map]; exact Or.inr rfl
  · have e8 : indexDefs (.node .column_def ([.node .column_name ns] ++ (l2 ++ l3))) =
        .ok (unEscapeNameString (Spec.textOf (Tree.node .column_name ns).leaves) :: words) := by
      rw [indexDefs, e2, e3]
      simp only [Res.bind]
      rcases e6 with ⟨e6, e8⟩ | ⟨hne, y, e6, e8, e9⟩
      · rw [e6, e8]; rfl
      · rw [e6]; simp only [List.head?_cons, e8]
    rw [indexStep, e2, e8]
    simp only [Res.bind, defKey]
    by_cases n1 : Spec.textOf (Tree.node .column_name ns).leaves = s%"PRIMARY"
    · have u : unEscapeNameString s%"PRIMARY" = s%"PRIMARY" := by decide +kernel
      rw [if_pos n1, if_pos n1, n1, u]
      cases indexScan acc.1 (s%"PRIMARY" :: words) with
      | none => simp
      | some x => simp
    · rw [if_neg n1, if_neg n1]
      by_cases n2 : Spec.textOf (Tree.node .column_name ns).leaves = s%"KEY" ∨ Spec.textOf (Tree.node .column_name ns).leaves = s%"INDEX"
      · have u : unEscapeNameString (Spec.textOf (Tree.node .column_name ns).leaves) = Spec.textOf (Tree.node .column_name ns).leaves := by
          rcases n2 with n2 | n2 <;> rw [n2] <;> decide +kernel
        rw [if_pos n2, if_pos n2, u]
        cases indexScan acc.1 (Spec.textOf (Tree.node .column_name ns).leaves :: words) with
        | none => simp
        | some x => simp
      · rw [if_neg n2, if_neg n2]; simp

/-! ### Lists of definitions and constraints -/

theorem _root_.Verif.Spec.Sep.append {α : Type} {P : List Token → α → Prop} {a : List Token} {l : List α} (h : Sep P a l) {w : Token} {b : List Token}
    {m : List α} (hw : w.kind = .COMMA) (k : Sep P b m) : Sep P (a ++ w :: b) (l ++ m) := by
  induction h with
  | one ts x hc hp => exact .cons ts w b x m hc hp hw k
  | cons ts v rest x l hc hp hv _ ih =>
    have := Sep.cons ts v _ x _ hc hp hv ih
    simpa using this

theorem sep_nstar {r : Rule} {X : Elem} (hX : Single r X) {ts us : List Token} {m : List Tree} (h : Derives (.nstar (.tok .COMMA ⬝ X)) ts m us) :
    ∀ cs, Part (Tree.node r cs).leaves → (∃ us vs, Derives X us [.node r cs] vs) → Sep (DerivedAs X) (leavesAll (.node r cs :: m)) (.node r cs :: (unlab m).filter (Tree.isRule r)) := by
  generalize he : Elem.nstar (.tok .COMMA ⬝ X) = e at h
  induction h with
  | nstarNil => intro cs hc hd; rw [leavesAll_one]; exact .one _ _ hc ⟨rfl, hd⟩
  | @nstarCons a ts us vs l m h1 _ _ ih2 =>
    cases he
    intro cs hc hd
    obtain ⟨l1, l2, _, rfl, h3, h4⟩ := seq_inv h1
    obtain ⟨w, rfl, hw⟩ := tok_inv h3
    obtain ⟨ds, rfl, hpt⟩ := hX h4
    have ih := ih2 rfl ds hpt ⟨_, _, h4⟩
    have e1 : leavesAll (.node r cs :: ([.leaf w] ++ [.node r ds] ++ m)) = (Tree.node r cs).leaves ++ w :: leavesAll (.node r ds :: m) := by
      simp [leavesAll, Tree.leaves]
    have e2 : (unlab ([.leaf w] ++ [.node r ds] ++ m)).filter (Tree.isRule r) = .node r ds :: (unlab m).filter (Tree.isRule r) := by
      simp [unlab, Tree.isRule]
    rw [e1, e2]
    exact .cons _ _ _ _ _ hc ⟨rfl, hd⟩ hw ih
  | _ => cases he

/-- A list that follows another one, each element behind a comma. -/
theorem sep_more {r : Rule} {X : Elem} (hX : Single r X) {ts us : List Token} {m : List Tree} (h : Derives (.star (.tok .COMMA ⬝ X)) ts m us) :
    leavesAll m = [] ∧ (unlab m).filter (Tree.isRule r) = [] ∨
      ∃ w rest, leavesAll m = w :: rest ∧ w.kind = .COMMA ∧ Sep (DerivedAs X) rest ((unlab m).filter (Tree.isRule r)) := by
  cases h with
  | starNil => exact Or.inl ⟨rfl, rfl⟩
  | @starCons _ _ us _ l m h1 h2 =>
    obtain ⟨l1, l2, _, rfl, h3, h4⟩ := seq_inv h1
    obtain ⟨w, rfl, hw⟩ := tok_inv h3
    obtain ⟨ds, rfl, hpt⟩ := hX h4
    have := sep_star hX h2 ds hpt ⟨_, _, h4⟩
    refine Or.inr ⟨w, leavesAll (.node r ds :: m), by simp [leavesAll, Tree.leaves], hw, ?_⟩
    have e2 : (unlab ([.leaf w] ++ [.node r ds] ++ m)).filter (Tree.isRule r) = .node r ds :: (unlab m).filter (Tree.isRule r) := by
      simp [unlab, Tree.isRule]
    rw [e2]; exact this

theorem defs_built {ts : List Token} {trees : List Tree} (h : Sep (DerivedAs (.nt .column_def)) ts trees) :
    ∃ ds : List Def, Sep DefTokens ts ds ∧ ds ≠ [] ∧ ∀ acc : List Column × List Index, ∃ cols ks, columnDefs acc trees = .ok (cols, acc.2 ++ ks) ∧
      ((∀ t, t ∈ ts → TokenOk t) → Built acc.1 ds cols ks) := by
  have one : ∀ {ts t}, DerivedAs (.nt .column_def) ts t → ∃ d, DefTokens ts d ∧ ((∀ t, t ∈ ts → TokenOk t) → Declared d (colOf d)) ∧
      ∀ acc : List Column × List Index, ((columnStep t acc).bind fun a => indexStep t a) =
        .ok (acc.1 ++ (colOf d).toList, acc.2 ++ ((colOf d).toList.flatMap (fun c => List.replicate d.keys (primaryOn [c])) ++ (defKey (acc.1 ++ (colOf d).toList) d).toList)) := by
    rintro ts t ⟨rfl, us, vs, hd⟩
    obtain ⟨cs, d, e, g1, g2, -, g3⟩ := def_tokens hd
    cases e
    refine ⟨d, g1, g2, fun acc => ?_⟩
    rw [(g3 acc).1]
    simp only [Res.bind]
    rw [(g3 _).2]
    simp
  have step : ∀ acc t r, columnDefs acc (t :: r) = ((columnStep t acc).bind fun a => indexStep t a).bind fun b => columnDefs b r := by
    intro acc t r
    rw [columnDefs]
    cases columnStep t acc <;> rfl
  induction h with
  | one ts t hc hp =>
    obtain ⟨d, g1, g2, g3⟩ := one hp
    refine ⟨[d], .one _ _ hc g1, by simp, fun acc => ⟨_, _, by rw [step, g3]; rfl, fun hok => ?_⟩⟩
    have := Built.cons acc.1 d [] _ _ _ _ (g2 hok) (defKey_written _ d) (.nil _)
    simpa using this
  | cons ts w rest t l hc hp hw _ ih =>
    obtain ⟨d, g1, g2, g3⟩ := one hp
    obtain ⟨ds, k1, -, k3⟩ := ih
    refine ⟨d :: ds, .cons _ _ _ _ _ hc g1 hw k1, by simp, fun acc => ?_⟩
    obtain ⟨cols, ks, e, hb⟩ := k3 (acc.1 ++ (colOf d).toList, acc.2 ++ ((colOf d).toList.flatMap (fun c => List.replicate d.keys (primaryOn [c])) ++ (defKey (acc.1 ++ (colOf d).toList) d).toList))
    refine ⟨cols, _, ?_, fun hok => .cons acc.1 d ds _ _ cols ks (g2 fun t ht => hok t (by simp [ht])) (defKey_written _ d) (hb fun t ht => hok t (by simp [ht]))⟩
    rw [step, g3]
    simp only [Res.bind]
    rw [e]
    simp

theorem keyColumn_tokens {ts : List Token} {t : Tree} (h : DerivedAs (.nt .indexed_column) ts t) : (indexedColumnWith t).Post (KeyColumn ts) := by
  obtain ⟨rfl, us, vs, hd⟩ := h
  obtain ⟨cs, e, hb⟩ := nt_inv hd
  cases e
  obtain ⟨l1, l2, _, rfl, h1, h2⟩ := seq_inv hb
  have htail := begins_sound (K := [.COLLATE_, .ASC_, .DESC_]) (R := [.asc_desc]) (by decide) (by decide) h2 (by decide)
  rcases alt_inv h1 with h1 | h1
  · obtain ⟨ns, rfl, hn⟩ := name_tokens (r := .column_name) rfl h1
    have e2 : Visit.textOf .column_name (.node .indexed_column ([.node .column_name ns] ++ l2)) = .ok (Spec.textOf (Tree.node .column_name ns).leaves) := by
      rw [← text_leaves]
      simp [Visit.textOf, Tree.child, Tree.kids, unlab, Tree.isRule, Res.must, Res.bind]
    rw [indexedColumnWith, e2]
    exact .ok ⟨_, leavesAll l2, _, by simp [Tree.leaves, leavesAll], hn, htail, bareName_unescape _, rfl⟩
  · have a1 := absent_filter (r := .column_name) h1 (by decide)
    have a2 := absent_filter (r := .column_name) h2 (by decide)
    have : Visit.textOf .column_name (.node .indexed_column (l1 ++ l2)) = .panic := by
      rw [Visit.textOf, child_head, Tree.all, Tree.kids, filter_unlab_append, a1, a2]; rfl
    rw [indexedColumnWith, this]
    exact .panic

/-- The key of a primary key constraint. -/
def keyWith (p : Tree) : Res Index := (Res.all indexedColumnWith (p.all .indexed_column)).bind fun cs => .ok (newPrimaryIndexWith cs)

theorem tableCon_tokens {ts : List Token} {t : Tree} (h : DerivedAs (.nt .table_constraint) ts t) :
    t.child .primary_key_def = none ∧ TableCon ts none ∨
      ∃ p, t.child .primary_key_def = some p ∧ (keyWith p).Post fun i => TableCon ts (some i) := by
  obtain ⟨rfl, us, vs, hd⟩ := h
  obtain ⟨cs, e, hb⟩ := nt_inv hd
  cases e
  obtain ⟨l1, l2, _, rfl, h1, h2⟩ := seq_inv hb
  have hpre := conName_tokens h1
  have a1 := absent_filter (r := .primary_key_def) h1 (by decide)
  have el : (Tree.node .table_constraint (l1 ++ l2)).leaves = leavesAll l1 ++ leavesAll l2 := by rw [Tree.leaves, leavesAll_append]
  have hch : (Tree.node .table_constraint (l1 ++ l2)).child .primary_key_def = ((unlab l2).filter (Tree.isRule .primary_key_def)).head? := by
    rw [child_head, Tree.all, Tree.kids, filter_unlab_append, a1]; rfl
  rw [hch, el]
  rcases alt_inv h2 with h2 | h2
  · obtain ⟨ds, rfl, h3⟩ := nt_inv h2
    refine Or.inr ⟨.node .primary_key_def ds, by simp [unlab, Tree.isRule], ?_⟩
    obtain ⟨b1, m1, _, rfl, g1, k1⟩ := seq_inv h3
    obtain ⟨b2, m2, _, rfl, g2, k2⟩ := seq_inv k1
    obtain ⟨b3, m3, _, rfl, g3, k3⟩ := seq_inv k2
    obtain ⟨b4, m4, _, rfl, g4, k4⟩ := seq_inv k3
    obtain ⟨b5, m5, _, rfl, g5, k5⟩ := seq_inv k4
    obtain ⟨b6, b7, _, rfl, g6, g7⟩ := seq_inv k5
    obtain ⟨p, rfl, hp⟩ := tok_inv g1
    obtain ⟨k, rfl, hk⟩ := tok_inv g2
    obtain ⟨o, rfl, ho⟩ := tok_inv g3
    obtain ⟨c, rfl, hc⟩ := tok_inv g6
    have htail := begins_sound (K := [.ON_]) (R := [.conflict_clause]) (by decide) (by decide) g7 (by decide)
    have hsep := sep_inv (single_nt .indexed_column (by decide) (by decide)) g4 g5
    have ea : (Tree.node .primary_key_def ([.leaf p] ++ ([.leaf k] ++ ([.leaf o] ++ (b4 ++ (b5 ++ ([.leaf c] ++ b7))))))).all .indexed_column =
        (unlab (b4 ++ b5)).filter (Tree.isRule .indexed_column) := by
      rw [Tree.all, Tree.kids]
      simp only [filter_unlab_append, absent_filter (r := .indexed_column) g1 (by decide), absent_filter (r := .indexed_column) g2 (by decide),
        absent_filter (r := .indexed_column) g3 (by decide), absent_filter (r := .indexed_column) g6 (by decide),
        absent_filter (r := .indexed_column) g7 (by decide), List.nil_append, List.append_nil]
    rw [keyWith, ea]
    refine (Spec.Sep.all (Q := KeyColumn) (fun ts a ha => keyColumn_tokens ha) hsep).bind fun cs hcs => .ok ?_
    have := TableCon.key (leavesAll l1) p k o (leavesAll (b4 ++ b5)) c (leavesAll b7) cs hpre hp hk ho hc hcs htail
    have e : leavesAll l1 ++ leavesAll [.node .primary_key_def ([.leaf p] ++ ([.leaf k] ++ ([.leaf o] ++ (b4 ++ (b5 ++ ([.leaf c] ++ b7))))))] =
        leavesAll l1 ++ p :: k :: o :: (leavesAll (b4 ++ b5) ++ c :: leavesAll b7) := by simp [Tree.leaves, leavesAll_append, leavesAll]
    rw [e]; exact this
  · have a2 := absent_filter (r := .primary_key_def) h2 (by decide)
    refine Or.inl ⟨by rw [a2]; rfl, ?_⟩
    have h4 := eats_sound (R := [.unique_key_def]) (by decide) h2 (by decide)
    have h3 := begins_sound (K := [.UNIQUE_, .CHECK_, .FOREIGN_]) (R := [.unique_key_def]) (by decide) (by decide) h2 (by decide)
    generalize leavesAll l2 = x at h3 h4
    cases x with
    | nil => exact absurd rfl h4
    | cons t r => exact .other _ _ _ hpre (h3 t r rfl)

theorem tableCons_tokens {ts : List Token} {trees : List Tree} (h : Sep (DerivedAs (.nt .table_constraint)) ts trees) :
    (Res.all keyWith (trees.filterMap (·.child .primary_key_def))).Post fun ks => ∃ os : List (Option Index), Sep TableCon ts os ∧ ks = os.filterMap id := by
  induction h with
  | one ts t hc hp =>
    rcases tableCon_tokens hp with ⟨h1, h2⟩ | ⟨p, h1, h2⟩
    · simp only [List.filterMap_cons, h1, List.filterMap_nil, Res.all]
      exact .ok ⟨[none], .one _ _ hc h2, rfl⟩
    · simp only [List.filterMap_cons, h1, List.filterMap_nil, Res.all]
      exact h2.bind fun i hi => .ok ⟨[some i], .one _ _ hc hi, rfl⟩
  | cons ts w rest t l hc hp hw _ ih =>
    rcases tableCon_tokens hp with ⟨h1, h2⟩ | ⟨p, h1, h2⟩
    · simp only [List.filterMap_cons, h1]
      exact ih.mono fun ks ⟨os, h3, h4⟩ => ⟨none :: os, .cons _ _ _ _ _ hc h2 hw h3, h4⟩
    · simp only [List.filterMap_cons, h1, Res.all]
      exact h2.bind fun i hi => ih.bind fun ks ⟨os, h3, h4⟩ => .ok ⟨some i :: os, .cons _ _ _ _ _ hc hi hw h3, by rw [h4]; rfl⟩

theorem optSchema_tokens {ts us : List Token} {l : List Tree} (h : Derives (.opt ((.nt .schema_name) ⬝ (.tok .DOT))) ts l us) :
    leavesAll l = [] ∨ ∃ n d, leavesAll l = n ++ [d] ∧ NameTokens n ∧ d.kind = .DOT := by
  rcases opt_inv h with rfl | h
  · exact Or.inl rfl
  · obtain ⟨l1, l2, _, rfl, h1, h2⟩ := seq_inv h
    obtain ⟨cs, rfl, hn⟩ := name_tokens (r := .schema_name) rfl h1
    obtain ⟨d, rfl, hd⟩ := tok_inv h2
    exact Or.inr ⟨_, d, by simp [leavesAll, Tree.leaves], hn, hd⟩

theorem ifNotExists_tokens {ts us : List Token} {l : List Tree} (h : Derives (.opt (.nt .if_not_exists)) ts l us) :
    leavesAll l = [] ∧ (unlab l).filter (Tree.isRule .if_not_exists) = [] ∨
      (leavesAll l).map (·.kind) = [.IF_, .NOT_, .EXISTS_] ∧ (unlab l).filter (Tree.isRule .if_not_exists) ≠ [] := by
  rcases opt_inv h with rfl | h
  · exact Or.inl ⟨rfl, rfl⟩
  · obtain ⟨cs, rfl, hb⟩ := nt_inv h
    obtain ⟨l1, m1, _, rfl, h1, k1⟩ := seq_inv hb
    obtain ⟨l2, l3, _, rfl, h2, h3⟩ := seq_inv k1
    obtain ⟨a, rfl, ha⟩ := tok_inv h1
    obtain ⟨b, rfl, hn⟩ := tok_inv h2
    obtain ⟨c, rfl, hc⟩ := tok_inv h3
    exact Or.inr ⟨by simp [leavesAll, Tree.leaves, ha, hn, hc], by simp [unlab, Tree.isRule]⟩

theorem body_tokens {ts us : List Token} {l : List Tree} {pre : List Tree} {r : Rule}
    (h : Derives (((.tok .OPEN_PAR) ⬝ (.nt .column_def) ⬝ (.nstar ((.tok .COMMA) ⬝ (.nt .column_def))) ⬝
      (.star ((.tok .COMMA) ⬝ (.nt .table_constraint))) ⬝ (.tok .CLOSE_PAR) ⬝ (.opt ((.nt .table_options) ∣
      (.nt .mysql_table_options)))) ∣ ((.tok .AS_) ⬝ (.nt .select_stmt))) ts l us)
    (p1 : (unlab pre).filter (Tree.isRule .column_def) = []) (p2 : (unlab pre).filter (Tree.isRule .table_constraint) = []) :
    ((columnDefs ([], []) ((Tree.node r (pre ++ l)).all .column_def)).bind fun a => (tableKeys (Tree.node r (pre ++ l))).bind fun ks => .ok (a.1, a.2 ++ ks)).Post
      fun x => (∀ t, t ∈ leavesAll l → TokenOk t) → BodyWritten (leavesAll l) x.1 x.2 := by
  have q1 : (Tree.node r (pre ++ l)).all .column_def = (unlab l).filter (Tree.isRule .column_def) := by
    rw [Tree.all, Tree.kids, filter_unlab_append, p1]; rfl
  have q2 : tableKeys (Tree.node r (pre ++ l)) = Res.all keyWith (((unlab l).filter (Tree.isRule .table_constraint)).filterMap (·.child .primary_key_def)) := by
    have : (Tree.node r (pre ++ l)).all .table_constraint = (unlab l).filter (Tree.isRule .table_constraint) := by
      rw [Tree.all, Tree.kids, filter_unlab_append, p2]; rfl
    rw [tableKeys, this]; rfl
  rw [q1, q2]
  rcases alt_inv h with h | h
  · obtain ⟨l1, m1, _, rfl, h1, k1⟩ := seq_inv h
    obtain ⟨l2, m2, _, rfl, h2, k2⟩ := seq_inv k1
    obtain ⟨l3, m3, _, rfl, h3, k3⟩ := seq_inv k2
    obtain ⟨l4, m4, _, rfl, h4, k4⟩ := seq_inv k3
    obtain ⟨l5, l6, _, rfl, h5, h6⟩ := seq_inv k4
    obtain ⟨o, rfl, ho⟩ := tok_inv h1
    obtain ⟨c, rfl, hc⟩ := tok_inv h5
    have hopt := begins_sound (K := [.WITHOUT_, .WITH_, .ENGINE_]) (R := [.table_options, .mysql_table_options]) (by decide) (by decide) h6 (by decide)
    obtain ⟨ds, rfl, hp⟩ := single_nt .column_def (by decide) (by decide) h2
    have hcols := sep_nstar (single_nt .column_def (by decide) (by decide)) h3 ds hp ⟨_, _, h2⟩
    have hcons := sep_more (single_nt .table_constraint (by decide) (by decide)) h4
    have e1 : (unlab ([.leaf o] ++ ([.node .column_def ds] ++ (l3 ++ (l4 ++ ([.leaf c] ++ l6)))))).filter (Tree.isRule .column_def) =
        .node .column_def ds :: (unlab l3).filter (Tree.isRule .column_def) := by
      simp only [filter_unlab_append, absent_filter (r := .column_def) h1 (by decide), absent_filter (r := .column_def) h4 (by decide),
        absent_filter (r := .column_def) h5 (by decide), absent_filter (r := .column_def) h6 (by decide), List.nil_append, List.append_nil]
      simp [unlab, Tree.isRule]
    have e2 : (unlab ([.leaf o] ++ ([.node .column_def ds] ++ (l3 ++ (l4 ++ ([.leaf c] ++ l6)))))).filter (Tree.isRule .table_constraint) =
        (unlab l4).filter (Tree.isRule .table_constraint) := by
      simp only [filter_unlab_append, absent_filter (r := .table_constraint) h1 (by decide), absent_filter (r := .table_constraint) h2 (by decide),
        absent_filter (r := .table_constraint) h3 (by decide),
        absent_filter (r := .table_constraint) h5 (by decide), absent_filter (r := .table_constraint) h6 (by decide), List.nil_append, List.append_nil]
    rw [e1, e2]
    obtain ⟨dl, hd, hne, hb⟩ := defs_built hcols
    obtain ⟨cols, ks, e3, hbuilt⟩ := hb ([], [])
    rw [e3]
    simp only [Res.bind, List.nil_append]
    have hdc : Sep ElementTokens (leavesAll (.node .column_def ds :: l3)) (dl.map .column) := Spec.Sep.map (fun ts d h => .column ts d h) hd
    have el : leavesAll ([.leaf o] ++ ([.node .column_def ds] ++ (l3 ++ (l4 ++ ([.leaf c] ++ l6))))) =
        o :: ((leavesAll (.node .column_def ds :: l3) ++ leavesAll l4) ++ c :: leavesAll l6) := by
      simp [leavesAll_append, leavesAll, Tree.leaves]
    rcases hcons with ⟨g1, g2⟩ | ⟨w, rest, g1, g2, g3⟩
    · rw [g2, el, g1]
      refine .ok fun hok => Or.inr ⟨o, _, c, _, ks, dl, [], rfl, ho, hc, ?_, hne, hbuilt fun t ht => hok t (by simp [ht]), by simp, hopt⟩
      simpa using hdc
    · refine (tableCons_tokens g3).bind fun kl ⟨os, g4, g5⟩ => .ok fun hok => ?_
      rw [el, g1] at hok
      rw [el, g1]
      exact Or.inr ⟨o, _, c, _, ks, dl, os, rfl, ho, hc, hdc.append g2 (Spec.Sep.map (fun ts d h => .con ts d h) g4), hne,
        hbuilt fun t ht => hok t (by simp [ht]), by rw [g5], hopt⟩
  · obtain ⟨l1, l2, _, rfl, h1, h2⟩ := seq_inv h
    obtain ⟨a, rfl, ha⟩ := tok_inv h1
    simp only [filter_unlab_append, absent_filter (r := .column_def) h1 (by decide), absent_filter (r := .column_def) h2 (by decide),
      absent_filter (r := .table_constraint) h1 (by decide), absent_filter (r := .table_constraint) h2 (by decide), List.append_nil]
    exact .ok fun _ => Or.inl ⟨a, leavesAll l2, by simp [leavesAll, Tree.leaves], ha, rfl, rfl⟩

theorem createTable_tokens {cs : List Tree} (hs : Sound (.node .create_table_stmt cs)) :
    (Visit.createTable (.node .create_table_stmt cs)).Post fun s =>
      (∀ t, t ∈ (Tree.node .create_table_stmt cs).leaves → TokenOk t) → CreateTableWritten (Tree.node .create_table_stmt cs).leaves s := by
  obtain ⟨ts, us, h⟩ := hs.derives (by decide)
  obtain ⟨l1, m1, _, rfl, h1, k1⟩ := seq_inv h
  obtain ⟨l2, m2, _, rfl, h2, k2⟩ := seq_inv k1
  obtain ⟨l3, m3, _, rfl, h3, k3⟩ := seq_inv k2
  obtain ⟨l4, m4, _, rfl, h4, k4⟩ := seq_inv k3
  obtain ⟨l5, m5, _, rfl, h5, k5⟩ := seq_inv k4
  obtain ⟨l6, l7, _, rfl, h6, h7⟩ := seq_inv k5
  obtain ⟨w, rfl, hw⟩ := tok_inv h1
  obtain ⟨t, rfl, ht⟩ := tok_inv h3
  obtain ⟨tn, rfl, hn⟩ := name_tokens (r := .table_name) rfl h6
  have hqual := optSchema_tokens h5
  have hine := ifNotExists_tokens h4
  have htmp : leavesAll l2 = [] ∨ ∃ x, leavesAll l2 = [x] ∧ x.kind ∈ [Tok.TEMP_, .TEMPORARY_] := by
    rcases opt_inv h2 with rfl | h2
    · exact Or.inl rfl
    · obtain ⟨x, rfl, hx⟩ := oneTok_sound (K := [.TEMP_, .TEMPORARY_]) h2 (by decide)
      exact Or.inr ⟨x, by simp [leavesAll, Tree.leaves], hx⟩
  have eshape : ([.leaf w] ++ (l2 ++ ([.leaf t] ++ (l4 ++ (l5 ++ ([.node .table_name tn] ++ l7)))))) =
      ([.leaf w] ++ (l2 ++ ([.leaf t] ++ (l4 ++ (l5 ++ [.node .table_name tn]))))) ++ l7 := by simp
  have p1 : (unlab ([.leaf w] ++ (l2 ++ ([.leaf t] ++ (l4 ++ (l5 ++ [.node .table_name tn])))))).filter (Tree.isRule .column_def) = [] := by
    simp only [filter_unlab_append, absent_filter (r := .column_def) h1 (by decide), absent_filter (r := .column_def) h2 (by decide), absent_filter (r := .column_def) h3 (by decide),
      absent_filter (r := .column_def) h4 (by decide), absent_filter (r := .column_def) h5 (by decide), absent_filter (r := .column_def) h6 (by decide), List.append_nil]
  have p2 : (unlab ([.leaf w] ++ (l2 ++ ([.leaf t] ++ (l4 ++ (l5 ++ [.node .table_name tn])))))).filter (Tree.isRule .table_constraint) = [] := by
    simp only [filter_unlab_append, absent_filter (r := .table_constraint) h1 (by decide), absent_filter (r := .table_constraint) h2 (by decide), absent_filter (r := .table_constraint) h3 (by decide),
      absent_filter (r := .table_constraint) h4 (by decide), absent_filter (r := .table_constraint) h5 (by decide), absent_filter (r := .table_constraint) h6 (by decide), List.append_nil]
  have hbody := body_tokens (r := .create_table_stmt) h7 p1 p2
  rw [← eshape] at hbody
  have hname : Visit.textOf .table_name (.node .create_table_stmt ([.leaf w] ++ (l2 ++ ([.leaf t] ++ (l4 ++ (l5 ++ ([.node .table_name tn] ++ l7))))))) =
      .ok (Spec.textOf (Tree.node .table_name tn).leaves) := by
    rw [← text_leaves, Visit.textOf, child_head, Tree.all, Tree.kids]
    simp only [filter_unlab_append, absent_filter (r := .table_name) h1 (by decide), absent_filter (r := .table_name) h2 (by decide), absent_filter (r := .table_name) h3 (by decide),
      absent_filter (r := .table_name) h4 (by decide), absent_filter (r := .table_name) h5 (by decide), List.nil_append]
    simp [unlab, Tree.isRule, Res.must, Res.bind]
  have hif : (Tree.node .create_table_stmt ([.leaf w] ++ (l2 ++ ([.leaf t] ++ (l4 ++ (l5 ++ ([.node .table_name tn] ++ l7))))))).child .if_not_exists =
      ((unlab l4).filter (Tree.isRule .if_not_exists)).head? := by
    rw [child_head, Tree.all, Tree.kids]
    simp only [filter_unlab_append, absent_filter (r := .if_not_exists) h1 (by decide), absent_filter (r := .if_not_exists) h2 (by decide), absent_filter (r := .if_not_exists) h3 (by decide),
      absent_filter (r := .if_not_exists) h5 (by decide), absent_filter (r := .if_not_exists) h6 (by decide), absent_filter (r := .if_not_exists) h7 (by decide), List.nil_append, List.append_nil]
  have eown : (Tree.node .create_table_stmt ([.leaf w] ++ (l2 ++ ([.leaf t] ++ (l4 ++ (l5 ++ ([.node .table_name tn] ++ l7))))))).leaves =
      w :: (leavesAll l2 ++ t :: (leavesAll l4 ++ (leavesAll l5 ++ ((Tree.node .table_name tn).leaves ++ leavesAll l7)))) := by
    simp [Tree.leaves, leavesAll_append, leavesAll]
  rw [Visit.createTable, tableSchema, hname, hif, eown]
  intro s hs' hok sch b hsb
  cases hc : columnDefs ([], []) ((Tree.node .create_table_stmt ([.leaf w] ++ (l2 ++ ([.leaf t] ++ (l4 ++ (l5 ++ ([.node .table_name tn] ++ l7))))))).all .column_def) with
  | err => rw [hc] at hs'; cases hs'
  | panic => rw [hc] at hs'; cases hs'
  | ok a =>
    cases hk : tableKeys (Tree.node .create_table_stmt ([.leaf w] ++ (l2 ++ ([.leaf t] ++ (l4 ++ (l5 ++ ([.node .table_name tn] ++ l7))))))) with
    | err => rw [hc] at hs'; simp only [Res.bind] at hs'; rw [hk] at hs'; cases hs'
    | panic => rw [hc] at hs'; simp only [Res.bind] at hs'; rw [hk] at hs'; cases hs'
    | ok ks =>
      rw [hc] at hs' hbody
      simp only [Res.bind] at hs' hbody
      rw [hk] at hs' hbody
      subst hsb
      cases hs'
      have hb := hbody _ rfl fun t ht => hok t (by simp [ht])
      refine ⟨w, leavesAll l2, t, leavesAll l4, leavesAll l5, (Tree.node .table_name tn).leaves, leavesAll l7, rfl, hw, htmp, ht, ?_, hqual, hn, bareName_unescape _, rfl, hb⟩
      rcases hine with ⟨g1, g2⟩ | ⟨g1, g2⟩
      · exact Or.inl ⟨by rw [g2]; rfl, g1⟩
      · refine Or.inr ⟨?_, g1⟩
        cases hx : (unlab l4).filter (Tree.isRule .if_not_exists) with
        | nil => exact absurd hx g2
        | cons x r => rfl

/-! ### The tokens of a query -/

theorem tokenised_ok {q : Str} {ts : List Token} (h : Tokenised rules q ts) : ∀ t, t ∈ ts → TokenOk t := by
  induction h with
  | nil => intro t ht; cases ht
  | cons k w rest ts hl _ ih =>
    intro t ht
    rcases List.mem_cons.mp ht with rfl | ht
    · obtain ⟨h1, h2, -⟩ := hl
      have key : ∀ (c : Char) (k' : Tok), accept true (step c rules) = some k' → accept false (step c rules) = some k' → w = [c] → k = k' := by
        intro c k' e1 e2 hw
        subst hw
        have := (accept_iff _ rest _).mpr ((firstRule_step c rules k [] rest).mpr h2)
        cases rest with
        | nil => exact Option.some.inj (this.symm.trans e1)
        | cons _ _ => exact Option.some.inj (this.symm.trans e2)
      exact ⟨h1, key '(' .OPEN_PAR (by decide +kernel) (by decide +kernel), key ')' .CLOSE_PAR (by decide +kernel) (by decide +kernel)⟩
    · exact ih t ht

theorem writes_ok {q : Str} {toks : List Token} (h : Writes q toks) : ∀ t, t ∈ toks → TokenOk t := by
  obtain ⟨ts, h1, rfl⟩ := h
  intro t ht
  exact tokenised_ok h1 t (List.mem_filter.mp ht).1

theorem pieces_ok {P : List Token → Statement → Prop} {toks : List Token} {l : List Statement}
    (h : Pieces (fun own s => (∀ t, t ∈ own → TokenOk t) → P own s) toks l) (hok : ∀ t, t ∈ toks → TokenOk t) : Pieces P toks l := by
  induction h with
  | nil => exact .nil _
  | cons b o hp hs _ ih => exact .cons b o (hp fun t ht => hok t (by simp [ht])) hs (ih fun t ht => hok t (by simp [ht]))

/-- CREATE TABLE is as written if the tokens are tokens of a query. -/
def TableIfOk (own : List Token) (s : Statement) : Prop := (∀ t, t ∈ own → TokenOk t) → CreateTableWritten own s

theorem handler_createTable (toUint : Str → Option Nat) : Handles toUint TableIfOk :=
  handles_kind .create_table_stmt (fun hm hs => by simp [handlers] at hm; subst hm; exact createTable_tokens hs)
    fun own s h _ sch b hu => by subst hu; exact absurd rfl h

theorem createTable_pieces {toUint : Str → Option Nat} {q : Str} {l : List Statement} (h : Parse.parseQuery toUint q = .ok l) :
    ∃ toks, Writes q toks ∧ Pieces CreateTableWritten toks l := by
  obtain ⟨toks, h1, h2⟩ := parsed_pieces h (handler_createTable toUint)
  exact ⟨toks, h1, pieces_ok h2 (writes_ok h1)⟩

end Verif.Lemmas
