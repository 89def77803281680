import Verif.Props.Others
import Verif.Lemmas.KeywordText
/-! C138: the name of a dropped column is never the written one. -/
namespace Verif.Props
open Verif Verif.Lex Verif.Gram Verif.Query Verif.Parse Verif.Spec Verif.Lemmas

theorem pieces_with {P Q : List Token → Statement → Prop} {R : Token → Prop} (hPQ : ∀ own s, (∀ t, t ∈ own → R t) → P own s → Q own s)
    {toks : List Token} {l : List Statement} (h : Pieces P toks l) (hR : ∀ t, t ∈ toks → R t) : Pieces Q toks l := by
  induction h with
  | nil => exact .nil _
  | cons b o hp hs _ ih =>
    exact .cons b o (hPQ _ _ (fun t ht => hR t (List.mem_append_left _ (List.mem_append_right _ ht))) hp) hs
      (ih (fun t ht => hR t (List.mem_append_right _ ht)))

/-- An ALTER TABLE that reports a dropped column: its last tokens are the written name, and the reported name is that name with
the words before it in front. -/
def DropReported (own : List Token) (s : Statement) : Prop :=
  ∀ a c, s = .alterTable a → a.dropColumn = some c →
    ∃ front n k, own = front ++ n ∧ NameTokens n ∧ c.name = k ++ textOf n ∧ Str.upper k ∈ [s%"DROP", s%"DROPCOLUMN"] ∧ c.name ≠ textOf n

theorem front_ne {k x m : Str} (h3 : m = k ++ x) (h4 : Str.upper k ∈ [s%"DROP", s%"DROPCOLUMN"]) : m ≠ x := by
  intro he
  have := congrArg List.length (h3.symm.trans he)
  rw [List.length_append] at this
  have hk : k = [] := List.length_eq_zero_iff.mp (by omega)
  subst hk
  simp [Str.upper] at h4

/-- C138 fails for every dropped column: in every accepted query, the column that a reported ALTER TABLE drops has the
written name with DROP or DROPCOLUMN in front of it, in the case in which that was written,
and so never the written name. -/
theorem C138_drop_never_fails (toUint : Str → Option Nat) (q : Str) (l : List Statement) (h : parseQuery toUint q = .ok l) :
    ∃ toks, Writes q toks ∧ Pieces DropReported toks l := by
  obtain ⟨toks, h1, h2⟩ := C138_alter_table_partial toUint q l h
  refine ⟨toks, h1, pieces_with ?_ h2 (fun t ht => writes_keyword h1 t ht)⟩
  intro own s hk hw a c hs hc
  obtain ⟨w, t, p, n, change, sch, x, rfl, -, -, -, -, hch⟩ := hw a hs
  cases hch with
  | rename => cases hc
  | renameColumn => cases hc
  | addColumn => cases hc
  | addIndex => cases hc
  | dropColumn d m n' hd hm hn =>
    cases hc
    have hd' := hk d (by simp) (.DROP_, s%"DROP") (by decide) hd
    rcases hm with rfl | ⟨m, rfl, hm⟩
    · refine ⟨w :: t :: (p ++ (n ++ [d])), n', d.text, by simp, hn, by simp [textOf], ?_, front_ne (k := d.text) (by simp [textOf]) ?_⟩ <;>
        simp [hd']
    · have hm' := hk m (by simp) (.COLUMN_, s%"COLUMN") (by decide) (by simpa using hm)
      refine ⟨w :: t :: (p ++ (n ++ [d, m])), n', d.text ++ m.text, by simp, hn, by simp [textOf], ?_, front_ne (k := d.text ++ m.text) (by simp [textOf]) ?_⟩ <;>
        rw [show Str.upper (d.text ++ m.text) = Str.upper d.text ++ Str.upper m.text from List.map_append .., hd', hm'] <;> decide

set_option maxRecDepth 10000 in
example : parseQuery (fun _ => none) s%"alter table t drop a; ALTER TABLE t Drop COLUMN `b`" =
    .ok [.alterTable { table := { name := s%"t" }, dropColumn := some { name := s%"dropa" } },
      .alterTable { table := { name := s%"t" }, dropColumn := some { name := s%"DropCOLUMN`b`" } }] := by krfl

end Verif.Props
