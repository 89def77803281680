import Verif.Lemmas.Provenance
import Verif.Lemmas.FirstWord
import Verif.Lemmas.KeywordText
import Verif.Lemmas.LexSplit
/-! C195: the words a statement begins with decide what it is reported as. -/
namespace Verif.Props
open Verif Verif.Lex Verif.Gram Verif.Query Verif.Parse Verif.Spec Verif.Lemmas

/-- C195: the reported statements are made from disjoint stretches of the query's tokens, in order, and every stretch
begins with the verb of its statement, with nothing before it but a WITH clause of a SELECT, INSERT, UPDATE or DELETE;
for the statements about tables, databases and indexes the kind of object follows. -/
theorem C195_first (toUint : Str → Option Nat) (q : Str) (l : List Statement) (h : parseQuery toUint q = .ok l) :
    ∃ toks, Writes q toks ∧ Pieces SaysVerb toks l := parsed_pieces h (handler_says_verb toUint)

set_option maxRecDepth 10000 in
example : ∃ toks l, Writes s%"WITH x AS (SELECT 1) DELETE FROM t; DROP TABLE u" toks ∧ l.length = 2 ∧ Pieces SaysVerb toks l := by
  have h : ∃ l, parseQuery (fun _ => none) s%"WITH x AS (SELECT 1) DELETE FROM t; DROP TABLE u" = .ok l ∧ l.length = 2 :=
    ⟨[.delete { table := { name := s%"t" }, cond := none }, .dropTable [{ name := s%"u" }] false], by krfl, rfl⟩
  obtain ⟨l, h, hl⟩ := h
  obtain ⟨toks, h1, h2⟩ := C195_first _ _ _ h
  exact ⟨toks, l, h1, hl, h2⟩

theorem verbs_keywords (s : Statement) : ∀ v, v ∈ verbs s → v ∈ keywords := by
  have h : ∀ v, v ∈ [(Tok.CREATE_, s%"CREATE"), (.DROP_, s%"DROP"), (.ALTER_, s%"ALTER"), (.INSERT_, s%"INSERT"), (.REPLACE_, s%"REPLACE"),
    (.SELECT_, s%"SELECT"), (.VALUES_, s%"VALUES"), (.UPDATE_, s%"UPDATE"), (.DELETE_, s%"DELETE"), (.COPY_, s%"COPY"), (.COMMIT_, s%"COMMIT"),
    (.END_, s%"END"), (.VACUUM_, s%"VACUUM"), (.TRUNCATE_, s%"TRUNCATE"), (.BEGIN_, s%"BEGIN"), (.ROLLBACK_, s%"ROLLBACK"), (.USE_, s%"USE")] →
      v ∈ keywords := by decide +kernel
  intro v hv
  refine h v ?_
  cases s <;> simp only [verbs, List.mem_cons, List.not_mem_nil, or_false] at hv ⊢ <;> first | (rcases hv with rfl | rfl <;> simp) | (subst hv; simp)

theorem pieces_stretch {P : List Token → Statement → Prop} {toks : List Token} {l : List Statement} (hp : Pieces P toks l) {s : Statement} (hs : s ∈ l) :
    ∃ own, (∀ t, t ∈ own → t ∈ toks) ∧ P own s := by
  induction hp with
  | nil => cases hs
  | @cons before own rest s' l' hm _ _ ih =>
    rcases List.mem_cons.mp hs with rfl | hs
    · exact ⟨own, fun t h => by simp [h], hm⟩
    · obtain ⟨o, h1, h2⟩ := ih hs
      exact ⟨o, fun t h => by simp [h1 t h], h2⟩

theorem tokenised_part {q : Str} {ts : List Token} (h : Tokenised rules q ts) {t : Token} (ht : t ∈ ts) : ∃ a b, q = a ++ t.text ++ b := by
  induction h with
  | nil => cases ht
  | cons x w rest ts _ _ ih =>
    rcases List.mem_cons.mp ht with rfl | ht
    · exact ⟨[], rest, rfl⟩
    · obtain ⟨a, b, h⟩ := ih ht
      exact ⟨w ++ a, b, by rw [h]; simp⟩

/-- C195: a statement is only reported if its verb stands in the text of the query, in any letter case. -/
theorem C195_letters (toUint : Str → Option Nat) (q : Str) (l : List Statement) (h : parseQuery toUint q = .ok l) (s : Statement) (hs : s ∈ l) :
    ∃ v a w b, v ∈ verbs s ∧ q = a ++ w ++ b ∧ Str.upper w = v.2 := by
  obtain ⟨toks, hw, hp⟩ := C195_first toUint q l h
  obtain ⟨own, ho, wth, x, post, rfl, -, -, hx, -⟩ := pieces_stretch hp hs
  obtain ⟨v, hv, he⟩ := List.mem_map.mp hx
  have hm := ho x (by simp)
  have ht := writes_keyword hw x hm v (verbs_keywords s v hv) he.symm
  obtain ⟨ts, h1, rfl⟩ := hw
  obtain ⟨a, b, hq⟩ := tokenised_part h1 (List.mem_filter.mp hm).1
  exact ⟨v, a, x.text, b, hv, hq, ht⟩

set_option maxRecDepth 10000 in
example : ∃ v a w b, v ∈ verbs (.delete { table := { name := s%"t" }, cond := none }) ∧ s%"delete from t" = a ++ w ++ b ∧ Str.upper w = v.2 :=
  C195_letters (fun _ => none) _ [.delete { table := { name := s%"t" }, cond := none }] (by krfl) _ (by simp)

/-- C195: there are never more statements with a verb than the query's tokens have that verb. A query without the word
DELETE deletes nothing, one with a single DROP drops once. -/
theorem C195_count (toUint : Str → Option Nat) (q : Str) (l : List Statement) (h : parseQuery toUint q = .ok l) :
    ∃ toks, Writes q toks ∧ ∀ s, verbCount (verbs s) l ≤ wordCount (verbs s) toks := by
  obtain ⟨toks, hw, hp⟩ := C195_first toUint q l h
  refine ⟨toks, hw, fun s => ?_⟩
  clear h hw
  induction hp with
  | nil => exact Nat.zero_le _
  | @cons before own rest s' l' hm _ _ ih =>
    obtain ⟨wth, x, post, rfl, -, -, hx, -⟩ := hm
    simp only [verbCount, wordCount, List.filter_append, List.length_append, List.filter_cons] at ih ⊢
    by_cases he : verbs s' = verbs s
    · rw [he] at hx
      simp only [he, hx, decide_true, if_true, List.length_cons]
      omega
    · simp only [he, decide_false, Bool.false_eq_true, if_false]
      omega

set_option maxRecDepth 10000 in
example : ∃ toks, Writes s%"DROP TABLE t; DROP TABLE u" toks ∧ 2 ≤ wordCount (verbs .commit) toks + wordCount (verbs (.dropTable [] false)) toks := by
  have h : parseQuery (fun _ => none) s%"DROP TABLE t; DROP TABLE u" =
      .ok [.dropTable [{ name := s%"t" }] false, .dropTable [{ name := s%"u" }] false] := by krfl
  obtain ⟨toks, hw, hc⟩ := C195_count _ _ _ h
  exact ⟨toks, hw, Nat.le_trans (hc (.dropTable [] false)) (Nat.le_add_left ..)⟩

end Verif.Props
