import Verif.Spec.Migration
import Verif.Lemmas.KeywordText
import Verif.Props.Others
import Verif.Props.Schema
import Verif.Props.Helpers
/-! Reported changes applied to a schema: C173. -/
namespace Verif.Props
open Verif Verif.Lex Verif.Gram Verif.Query Verif.Parse Verif.Spec Verif.Lemmas

private theorem alter_effect {t : Table} {change : List Token} {a : AlterTable} (h : ChangeTokens t change a) (s : Schema) :
    Effect s change (s.alter a).1 (s.alter a).2 := by
  cases h with
  | rename r o n m hr ho hn => exact .rename r _ hr
  | renameColumn r c a o b hr hc ha ho hb => exact .rename r _ hr
  | addColumn w c ts d o hw hc hd ho =>
    cases o with
    | none => exact .addNothing w c ts d hw hc hd ho
    | some x => exact .addColumn w c ts d x hw hc hd ho
  | addIndex w con o body c cs i hw ho hc hb hi => exact .addIndex w con o body c cs i hw ho hc hb hi
  | dropColumn w c n hw hc hn =>
    have h := C13_drop_column_partial s (textOf (w :: (c ++ n)))
    have hcase := dropColumn_cases s (textOf (w :: (c ++ n)))
    rcases hd : s.dropColumn (textOf (w :: (c ++ n))) with ⟨s', b⟩
    rw [hd] at h hcase
    have ha : s.alter { table := t, dropColumn := some { name := textOf (w :: (c ++ n)) } } = if b then (s', .ok ()) else (s', .err) := by
      have e : s.alter { table := t, dropColumn := some { name := textOf (w :: (c ++ n)) } } =
          if (s.dropColumn (textOf (w :: (c ++ n)))).2 then ((s.dropColumn (textOf (w :: (c ++ n)))).1, .ok ())
          else ((s.dropColumn (textOf (w :: (c ++ n)))).1, .err) := rfl
      rw [e, hd]
    rw [ha]
    obtain ⟨h1, h2, h3, h4⟩ := h
    cases b with
    | true =>
      have := h4 rfl
      cases s'
      simp only at h1 h2
      subst h1 h2
      exact .dropColumn w c n _ hw hc hn this
    | false =>
      cases h3 rfl
      rcases hcase with ⟨_, _, _, _, hf⟩ | ⟨hall, _, _⟩
      · cases hf
      · exact .dropNone w c n hw hc hn hall

/-- The tokens of a reported ALTER TABLE, and what the statement does to any schema. -/
def AlterApplied (own : List Token) (st : Statement) : Prop :=
  ∀ a, st = .alterTable a → ∃ w t q n change, own = w :: t :: (q ++ (n ++ change)) ∧ w.kind = .ALTER_ ∧ t.kind = .TABLE_ ∧ (∃ x, SchemaTokens q x) ∧
    NameTokens n ∧ ∀ s : Schema, Effect s change (s.alter a).1 (s.alter a).2

/-- C173, without the part that fails: for every accepted query and every schema, applying a reported ALTER TABLE does
exactly this: a written ADD of a column appends the declared column, or nothing where the definition declares none; ADD
of an index appends the written index; RENAME changes nothing and is an error; DROP of a column removes the first column
that is not named by the text of the whole clause, and is an error when there is none. What is missing: renaming, and
that the dropped column is the written one. -/
theorem C173_effect_partial (toUint : Str → Option Nat) (q : Str) (l : List Statement) (h : parseQuery toUint q = .ok l) :
    ∃ toks, Writes q toks ∧ Pieces AlterApplied toks l := by
  obtain ⟨toks, h1, h2⟩ := C138_alter_table_partial toUint q l h
  refine ⟨toks, h1, pieces_weaken (fun own st hw a hs => ?_) h2⟩
  obtain ⟨w, t, q, n, change, sch, x, ho, hw, ht, hq, hn, hc⟩ := hw a hs
  exact ⟨w, t, q, n, change, ho, hw, ht, ⟨_, hq⟩, hn.1, alter_effect hc⟩

private theorem pieces_mem {P : List Token → Statement → Prop} {toks : List Token} {l : List Statement} (h : Pieces P toks l) {s : Statement} (hs : s ∈ l) :
    ∃ own, (∀ t, t ∈ own → t ∈ toks) ∧ P own s := by
  induction h with
  | nil => cases hs
  | cons before own hp _ _ ih =>
    rcases List.mem_cons.mp hs with rfl | hs
    · exact ⟨own, fun t ht => by simp [ht], hp⟩
    · obtain ⟨o, h1, h2⟩ := ih hs
      exact ⟨o, fun t ht => by simp [h1 t ht], h2⟩

private theorem reported_change {toUint : Str → Option Nat} {q : Str} {l : List Statement} (h : parseQuery toUint q = .ok l) {a : AlterTable}
    (ha : .alterTable a ∈ l) : ∃ toks change t, Writes q toks ∧ (∀ x, x ∈ change → x ∈ toks) ∧ ChangeTokens t change a := by
  obtain ⟨toks, h1, h2⟩ := C138_alter_table_partial toUint q l h
  obtain ⟨own, h3, h4⟩ := pieces_mem h2 ha
  obtain ⟨w, t, q, n, change, sch, x, ho, hw, ht, hq, hn, hc⟩ := h4 a rfl
  exact ⟨toks, change, _, h1, fun x hx => h3 x (by simp [ho, hx]), hc⟩

private theorem migrate_adds : ∀ (l : List Statement) (s : Schema),
    (∀ st, st ∈ l → (∃ a t change, st = .alterTable a ∧ (a.addColumn.isSome ∨ a.addIndex.isSome) ∧ ChangeTokens t change a) ∨
      ∃ x b i, st = .createIndex x b ∧ x.indexes = [i]) →
    migrate s l = ({ s with columns := s.columns ++ l.filterMap addedColumn, indexes := s.indexes ++ l.filterMap addedIndex }, .ok ()) := by
  intro l
  induction l with
  | nil => intro s _; simp [migrate]
  | cons st l ih =>
    intro s h
    have hl := fun s => ih s fun x hx => h x (by simp [hx])
    rcases h st (by simp) with ⟨a, t, change, rfl, ha, hc⟩ | ⟨x, b, i, rfl, hi⟩
    · cases hc with
      | rename r o n m hr ho hn => simp at ha
      | renameColumn r c a o b hr hc ha' ho hb => simp at ha
      | dropColumn w c n hw hc hn => simp at ha
      | addColumn w c ts d o hw hc hd ho =>
        cases o with
        | none => simp at ha
        | some x =>
          show migrate (s.addColumn x) l = _
          rw [hl]
          simp [List.filterMap_cons, addedColumn, addedIndex, Schema.addColumn]
      | addIndex w con o body c cs i hw ho hc hb hi =>
        show migrate (s.addIndex i) l = _
        rw [hl]
        simp [List.filterMap_cons, addedColumn, addedIndex, Schema.addIndex]
    · obtain ⟨t, cs, is⟩ := x
      cases hi
      show migrate (s.addIndex i) l = _
      rw [hl]
      simp [List.filterMap_cons, addedColumn, addedIndex, Schema.addIndex]

private theorem reported_adds {toUint : Str → Option Nat} {q : Str} {l : List Statement} (h : parseQuery toUint q = .ok l) {st : Statement} (hm : st ∈ l)
    (ha : Adds st) : (∃ a t change, st = .alterTable a ∧ (a.addColumn.isSome ∨ a.addIndex.isSome) ∧ ChangeTokens t change a) ∨
      ∃ x b i, st = .createIndex x b ∧ x.indexes = [i] := by
  rcases ha with ⟨a, rfl, hs⟩ | ⟨x, b, rfl⟩
  · obtain ⟨_, change, t, _, _, hc⟩ := reported_change h hm
    exact .inl ⟨a, t, change, rfl, hs, hc⟩
  · obtain ⟨i, _, hi, _⟩ := C109_parsed toUint q l h x b hm x
    exact .inr ⟨x, b, i, rfl, hi⟩

/-- C173 for scripts that add: when every statement of an accepted query is an ALTER TABLE that adds a column or an
index, or a CREATE INDEX, applying them one after the other to any schema succeeds, keeps what is there, and appends the added columns and
the added indexes in the order in which they are written. -/
theorem C173_adds (toUint : Str → Option Nat) (q : Str) (l : List Statement) (h : parseQuery toUint q = .ok l) (ha : ∀ st, st ∈ l → Adds st) (s : Schema) :
    migrate s l = ({ table := s.table, columns := s.columns ++ l.filterMap addedColumn, indexes := s.indexes ++ l.filterMap addedIndex }, .ok ()) := by
  exact migrate_adds l s fun st hst => reported_adds h hst (ha st hst)

/-- C173 for a script that creates a table and then adds to it: whatever schema there was, the schema afterwards is the
written one with the added columns and indexes behind it. -/
theorem C173_create (toUint : Str → Option Nat) (q : Str) (s₀ : Schema) (b : Bool) (l : List Statement) (h : parseQuery toUint q = .ok (.createTable s₀ b :: l))
    (ha : ∀ st, st ∈ l → Adds st) (s : Schema) :
    migrate s (.createTable s₀ b :: l) =
      ({ table := s₀.table, columns := s₀.columns ++ l.filterMap addedColumn, indexes := s₀.indexes ++ l.filterMap addedIndex }, .ok ()) := by
  rw [migrate]
  exact migrate_adds l s₀ fun st hst => reported_adds h (List.mem_cons_of_mem _ hst) (ha st hst)

set_option maxRecDepth 10000 in
/-- A table and an added column. -/
example : parseQuery (fun _ => none) s%"CREATE TABLE t (a INT); ALTER TABLE t ADD b TEXT" =
    .ok [.createTable { table := { name := s%"t" }, columns := [{ name := s%"a", def_ := some { typ := .int, length := -1 } }], indexes := [] } false,
      .alterTable { table := { name := s%"t" }, addColumn := some { name := s%"b", def_ := some { typ := .text, length := -1 } } }] := by krfl

/-- What two additions report. -/
def twoAdds : List Statement :=
  [.alterTable { table := { name := s%"t" }, addColumn := some { name := s%"c", def_ := some { typ := .int, length := -1 } } },
    .createIndex { table := { name := s%"t" }, columns := [], indexes := [{ name := s%"i", typ := .secondary, columns := [{ name := s%"c" }] }] } false]

set_option maxRecDepth 10000 in
/-- Two additions, one with a quoted name. -/
example : parseQuery (fun _ => none) s%"ALTER TABLE t ADD COLUMN `c` INT; CREATE INDEX i ON t (c)" = .ok twoAdds ∧ ∀ st, st ∈ twoAdds → Adds st :=
  ⟨by krfl, by simp [Adds, twoAdds]⟩

/-- C173 fails for every renaming: applying it to any schema is an error and changes nothing. -/
theorem C173_rename_fails (toUint : Str → Option Nat) (q : Str) (l : List Statement) (h : parseQuery toUint q = .ok l) (a : AlterTable) (ha : .alterTable a ∈ l)
    (hr : a.renameTo.isSome ∨ a.renameColumnTo.isSome) (s : Schema) : s.alter a = (s, .err) := by
  obtain ⟨_, change, t, _, _, hc⟩ := reported_change h ha
  cases hc with
  | rename r o n m hr ho hn => rfl
  | renameColumn r c a o b hr hc ha' ho hb => rfl
  | addColumn => simp at hr
  | addIndex => simp at hr
  | dropColumn => simp at hr

set_option maxRecDepth 10000 in
example : parseQuery (fun _ => none) s%"ALTER TABLE t RENAME COLUMN a TO b" =
    .ok [.alterTable { table := { name := s%"t" }, renameColumnFrom := some { name := s%"a" }, renameColumnTo := some { name := s%"b" } }] := by krfl

/-- C173 fails for every dropped column: whichever column is written behind DROP, applying the reported statement to a
schema whose first column is not named `DROP…` removes that first column. -/
theorem C173_drop_column_fails (toUint : Str → Option Nat) (q : Str) (l : List Statement) (h : parseQuery toUint q = .ok l) (a : AlterTable)
    (ha : .alterTable a ∈ l) (hd : a.dropColumn.isSome) (s : Schema) (c : Column) (cs : List Column) (hs : s.columns = c :: cs) (hc : ¬ BeginsDrop c.name) :
    s.alter a = ({ table := s.table, columns := cs, indexes := s.indexes }, .ok ()) := by
  obtain ⟨toks, change, t, hw, hm, hch⟩ := reported_change h ha
  cases hch with
  | rename => simp at hd
  | renameColumn => simp at hd
  | addColumn => simp at hd
  | addIndex => simp at hd
  | dropColumn w k n hk hmb hn =>
    have hup : Str.upper w.text = s%"DROP" := writes_keyword hw w (hm w (by simp)) (.DROP_, s%"DROP") (by decide +kernel) hk
    have hno : ¬ SameName c.name (textOf (w :: (k ++ n))) := by
      intro hsame
      have hsame := (Str.eqFold_iff _ _).mp ((sameName_iff _ _).mpr hsame)
      have hlen : w.text.length = 4 := by have := congrArg List.length hup; simpa [Str.upper] using this
      have hsame : Str.upper c.name = s%"DROP" ++ Str.upper (textOf (k ++ n)) := by
        rw [hsame, ← hup]; simp [textOf, Str.upper]
      refine hc ⟨c.name.take 4, c.name.drop 4, (List.take_append_drop 4 _).symm, (sameName_iff _ _).mp ((Str.eqFold_iff _ _).mpr ?_)⟩
      have := congrArg (List.take 4) hsame
      rw [show Str.upper s%"DROP" = s%"DROP" from by decide +kernel]
      simpa [Str.upper, List.map_take] using this
    have hal : s.alter { table := t, dropColumn := some { name := textOf (w :: (k ++ n)) } } =
        if (s.dropColumn (textOf (w :: (k ++ n)))).2 then ((s.dropColumn (textOf (w :: (k ++ n)))).1, .ok ()) else ((s.dropColumn (textOf (w :: (k ++ n)))).1, .err) := rfl
    rw [hal]
    have : (!Str.eqFold c.name (textOf (w :: (k ++ n)))) = true := by
      cases he : Str.eqFold c.name (textOf (w :: (k ++ n))) with
      | false => rfl
      | true => exact absurd ((sameName_iff _ _).mp he) hno
    have hdr : s.dropColumn (textOf (w :: (k ++ n))) = ({ table := s.table, columns := cs, indexes := s.indexes }, true) := by
      simp only [Schema.dropColumn, hs, List.findIdx?_cons, this, if_true]
      simp
    rw [hdr]
    rfl

set_option maxRecDepth 10000 in
/-- The dropped column is `b`, and `a` is gone. -/
example : parseQuery (fun _ => none) s%"ALTER TABLE t DROP COLUMN b" = .ok [.alterTable { table := { name := s%"t" }, dropColumn := some { name := s%"DROPCOLUMNb" } }] ∧
    (newSchemaWith s%"t" [{ name := s%"a" }, { name := s%"b" }]).alter { table := { name := s%"t" }, dropColumn := some { name := s%"DROPCOLUMNb" } } =
      (newSchemaWith s%"t" [{ name := s%"b" }], .ok ()) := ⟨by krfl, by decide +kernel⟩

end Verif.Props
