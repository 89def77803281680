import Verif.Props.Ignored
import Verif.Lemmas.ReadBack
import Verif.Lemmas.Aliases
/-! C189: aliases. -/
namespace Verif.Props
open Verif Verif.Lex Verif.Gram Verif.Spec Verif.Query Verif.Parse

variable {sp : Spelling}

/-- The text of an alias is not empty. -/
theorem alias_text {q : Str} {toks : List Token} (h : Writes q toks) (x : AliasS) (hx : ident x.name ∈ toks) : Spec.textOf (x.toks sp) ≠ [] := by
  obtain ⟨ts, h1, rfl⟩ := h
  obtain ⟨ts', -, -, h2, -, h3⟩ := C67_lexing q
  rw [← h3 ts h1] at h2
  have h4 : x.name ≠ [] := h2 _ (List.mem_filter.mp hx).1
  simp [Spec.textOf, AliasS.toks, ident, h4]

theorem mem_commas {l : List (List Token)} {x : List Token} {t : Token} (hx : x ∈ l) (ht : t ∈ x) : t ∈ commas sp l := by
  induction l with
  | nil => cases hx
  | cons y ys ih =>
    cases ys with
    | nil =>
      rw [List.mem_singleton] at hx
      subst hx; simpa [commas] using ht
    | cons z zs =>
      rw [commas]
      rcases List.mem_cons.mp hx with rfl | hx
      · exact List.mem_append.mpr (.inl ht)
      · exact List.mem_append.mpr (.inr (List.mem_cons.mpr (.inr (ih hx))))

/-- C189 is false of the code for SELECT. In any layout, with any other clauses and whatever statements follow, a SELECT
whose tables and columns have aliases is accepted, and the name that it reports for each table and for each selected
column is the written name with the alias, and the word AS if it is there, run into it. So no table and no column with an
alias is reported under its written name. -/
theorem C189_select_fails (toUint : Str → Option Nat) (hg : sp.Good) (q : Str) (s : SelectS) (p : PickS) (ps : List PickS) (t : NamedS) (ts : List NamedS)
    (ss : List StmtS) (n : Nat)
    (h : Writes q (s.toksFrom sp p ps t ts ++ (ss.flatMap (fun s => kw sp .SCOL :: s.toks sp) ++ List.replicate n (kw sp .SCOL)))) :
    ∃ (v : Select) (vs : List Statement), parseQuery toUint q = .ok (.select v :: vs) ∧ vs.length = ss.length ∧
      v.tables.map (·.name) = (t :: ts).map (fun t => Spec.textOf (t.toks sp)) ∧ v.selectors.length = ps.length + 1 ∧
      (∀ (j : Nat) a x, (p :: ps)[j]? = some (.atom a x) → v.selectors[j]? = some (.col { name := Spec.textOf (a.toks sp) ++ Spec.textOf (x.toks sp) })) ∧
      (∀ (j : Nat) (x : NamedS), (t :: ts)[j]? = some x → x.also ≠ none → v.tables[j]?.map (·.name) ≠ some (Spec.textOf (x.table.toks sp))) ∧
      (∀ (j : Nat) a x, (p :: ps)[j]? = some (.atom a x) → v.selectors[j]? ≠ some (.col { name := Spec.textOf (a.toks sp) })) := by
  have hsel : ∀ (j : Nat) a x, (p :: ps)[j]? = some (PickS.atom a x) →
      ((p :: ps).map (pickV sp))[j]? = some (.col { name := Spec.textOf (a.toks sp) ++ Spec.textOf (x.toks sp) }) := by
    intro j a x hj
    rw [List.getElem?_map, hj]
    simp [pickV, Spec.textOf]
  obtain ⟨l, h1, h2⟩ := writes_lex.mp h
  refine ⟨_, _, parse_select_named toUint hg h1 s p ps t ts ss n h2, by simp, ?_, by simp, hsel, ?_, ?_⟩
  · simp [namedV]
  · intro j x hj hx
    have hm : x ∈ t :: ts := List.mem_of_getElem? hj
    obtain ⟨x, al⟩ := x
    cases al with
    | none => exact absurd rfl hx
    | some al =>
      have ha : Spec.textOf (al.toks sp) ≠ [] := by
        refine alias_text h al ?_
        have h5 : ident al.name ∈ NamedS.toks sp ⟨x, some al⟩ := by simp [NamedS.toks, AliasS.toks]
        have := mem_commas (sp := sp) (List.mem_map.mpr ⟨_, hm, rfl⟩) h5
        simp only [SelectS.toksFrom, List.mem_append, List.mem_cons]
        exact .inl (.inr (.inr (.inr (.inl this))))
      show ((t :: ts).map (namedV sp))[j]?.map (·.name) ≠ _
      rw [List.getElem?_map, hj]
      intro he
      simp only [Option.map_some, Option.some.injEq, namedV] at he
      rw [show NamedS.toks sp ⟨x, some al⟩ = x.toks sp ++ al.toks sp by simp [NamedS.toks], Spec.textOf, List.flatMap_append] at he
      exact ha (List.append_right_eq_self.mp he)
  · intro j a x hj he
    have hm : PickS.atom a x ∈ p :: ps := List.mem_of_getElem? hj
    have ha : Spec.textOf (x.toks sp) ≠ [] := by
      refine alias_text h x ?_
      have h5 : ident x.name ∈ PickS.toks sp (.atom a x) := by simp [PickS.toks, PickS.also, AliasS.toks]
      have := mem_commas (sp := sp) (List.mem_map.mpr ⟨_, hm, rfl⟩) h5
      simp only [SelectS.toksFrom, List.mem_append, List.mem_cons]
      exact .inl (.inr (.inl this))
    have h6 := (hsel j a x hj).symm.trans he
    simp only [Option.some.injEq, Selector.col.injEq, Column.mk.injEq, and_true] at h6
    exact ha (List.append_right_eq_self.mp h6)

/-- C189 is false of the code for SELECT also in this way: two SELECTs from tables whose schemas and texts are the same are
reported in the same way, wherever the names end and the aliases begin. -/
theorem C189_confused_fails (toUint : Str → Option Nat) (hg : sp.Good) (q q' : Str) (s : SelectS) (p : PickS) (ps : List PickS) (t t' : NamedS)
    (ts ts' : List NamedS) (ss : List StmtS) (n : Nat)
    (h : Writes q (s.toksFrom sp p ps t ts ++ (ss.flatMap (fun s => kw sp .SCOL :: s.toks sp) ++ List.replicate n (kw sp .SCOL))))
    (h' : Writes q' (s.toksFrom sp p ps t' ts' ++ (ss.flatMap (fun s => kw sp .SCOL :: s.toks sp) ++ List.replicate n (kw sp .SCOL))))
    (he : (t :: ts).map (fun t => (t.table.schema, Spec.textOf (t.toks sp))) = (t' :: ts').map (fun t => (t.table.schema, Spec.textOf (t.toks sp)))) :
    parseQuery toUint q = parseQuery toUint q' ∧ ∃ vs, parseQuery toUint q = .ok vs := by
  obtain ⟨l, h1, h2⟩ := writes_lex.mp h
  obtain ⟨l', h1', h2'⟩ := writes_lex.mp h'
  have e : (t :: ts).map (namedV sp) = (t' :: ts').map (namedV sp) := by
    have h0 : (namedV sp : NamedS → Table) = (fun y : Option Str × Str => { name := y.2, schema := y.1.getD [] }) ∘
        (fun t : NamedS => (t.table.schema, Spec.textOf (t.toks sp))) := rfl
    rw [h0, ← List.map_map, he, List.map_map]
  refine ⟨?_, _, parse_select_named toUint hg h1 s p ps t ts ss n h2⟩
  rw [parse_select_named toUint hg h1 s p ps t ts ss n h2, parse_select_named toUint hg h1' s p ps t' ts' ss n h2', e]

/-- C189 for function calls: a SELECT with aliases for the calls of functions is reported exactly as without these aliases. -/
theorem C189_functions (toUint : Str → Option Nat) (hg : sp.Good) (q q' : Str) (s : SelectS) (p : PickS) (ps : List PickS) (t : NamedS) (ts : List NamedS)
    (ss : List StmtS) (n : Nat)
    (h : Writes q (s.toksFrom sp p ps t ts ++ (ss.flatMap (fun s => kw sp .SCOL :: s.toks sp) ++ List.replicate n (kw sp .SCOL))))
    (h' : Writes q' (s.toksFrom sp p.bareFn (ps.map PickS.bareFn) t ts ++
      (ss.flatMap (fun s => kw sp .SCOL :: s.toks sp) ++ List.replicate n (kw sp .SCOL)))) :
    parseQuery toUint q = parseQuery toUint q' ∧ ∃ vs, parseQuery toUint q = .ok vs := by
  obtain ⟨l, h1, h2⟩ := writes_lex.mp h
  obtain ⟨l', h1', h2'⟩ := writes_lex.mp h'
  have hb : ∀ p : PickS, pickV sp p.bareFn = pickV sp p := by intro p; cases p <;> rfl
  refine ⟨?_, _, parse_select_named toUint hg h1 s p ps t ts ss n h2⟩
  rw [parse_select_named toUint hg h1 s p ps t ts ss n h2, parse_select_named toUint hg h1' s _ _ t ts ss n h2']
  simp [hb]

/-- C189 for tables and columns without aliases: their reported names are the written ones, whatever aliases the others have. -/
theorem C189_bare_partial (toUint : Str → Option Nat) (hg : sp.Good) (q : Str) (s : SelectS) (p : PickS) (ps : List PickS) (t : NamedS) (ts : List NamedS)
    (ss : List StmtS) (n : Nat)
    (h : Writes q (s.toksFrom sp p ps t ts ++ (ss.flatMap (fun s => kw sp .SCOL :: s.toks sp) ++ List.replicate n (kw sp .SCOL)))) :
    ∃ (v : Select) (vs : List Statement), parseQuery toUint q = .ok (.select v :: vs) ∧ v.tables.length = ts.length + 1 ∧ v.selectors.length = ps.length + 1 ∧
      (∀ (j : Nat) (x : NamedS), (t :: ts)[j]? = some x → x.also = none →
        v.tables[j]? = some { schema := x.table.schema.getD [], name := Spec.textOf (x.table.toks sp) }) ∧
      (∀ (j : Nat) a, (p :: ps)[j]? = some (.plain (.atom a)) → v.selectors[j]? = some (.col { name := Spec.textOf (a.toks sp) })) := by
  obtain ⟨l, h1, h2⟩ := writes_lex.mp h
  refine ⟨_, _, parse_select_named toUint hg h1 s p ps t ts ss n h2, by simp, by simp, ?_, ?_⟩
  · intro j x hj hx
    show ((t :: ts).map (namedV sp))[j]? = _
    rw [List.getElem?_map, hj]
    obtain ⟨x, al⟩ := x
    subst hx
    simp [namedV, NamedS.toks]
  · intro j a hj
    show ((p :: ps).map (pickV sp))[j]? = _
    rw [List.getElem?_map, hj]
    rfl

/-- C189 is false of the code for UPDATE: a table with an alias is reported under its name with AS and the alias run into
it, which is not its name. -/
theorem C189_update_fails (toUint : Str → Option Nat) (hg : sp.Good) (q : Str) (u : UpdateS) (x : Str) (ss : List StmtS) (n : Nat)
    (h : Writes q (u.toksAs sp x ++ (ss.flatMap (fun s => kw sp .SCOL :: s.toks sp) ++ List.replicate n (kw sp .SCOL)))) :
    ∃ v vs, parseQuery toUint q = .ok (.update v :: vs) ∧ vs.length = ss.length ∧ v.table = { name := u.table ++ sp .AS_ ++ x } ∧ v.table.name ≠ u.table := by
  obtain ⟨l, h1, h2⟩ := writes_lex.mp h
  refine ⟨_, _, parse_update_as toUint hg h1 x u ss n h2, by simp, rfl, ?_⟩
  have ha := alias_text (sp := sp) h ⟨true, x⟩ (by simp [UpdateS.toksAs])
  intro he
  have h5 : u.table ++ Spec.textOf (AliasS.toks sp ⟨true, x⟩) = u.table := by
    have he' : u.table ++ sp .AS_ ++ x = u.table := he
    simpa [Spec.textOf, AliasS.toks, kw, ident] using he'
  exact ha (List.append_right_eq_self.mp h5)

/-- C189 is false of the code for DELETE: a table with an alias is reported under its name with AS and the alias run into
it, which is not its name. -/
theorem C189_delete_fails (toUint : Str → Option Nat) (hg : sp.Good) (q : Str) (d : DeleteS) (x : Str) (ss : List StmtS) (n : Nat)
    (h : Writes q (d.toksAs sp x ++ (ss.flatMap (fun s => kw sp .SCOL :: s.toks sp) ++ List.replicate n (kw sp .SCOL)))) :
    ∃ v vs, parseQuery toUint q = .ok (.delete v :: vs) ∧ vs.length = ss.length ∧ v.table = { name := d.table ++ sp .AS_ ++ x } ∧ v.table.name ≠ d.table := by
  obtain ⟨l, h1, h2⟩ := writes_lex.mp h
  refine ⟨_, _, parse_delete_as toUint hg h1 x d ss n h2, by simp, rfl, ?_⟩
  have ha := alias_text (sp := sp) h ⟨true, x⟩ (by simp [DeleteS.toksAs])
  intro he
  have h5 : d.table ++ Spec.textOf (AliasS.toks sp ⟨true, x⟩) = d.table := by
    have he' : d.table ++ sp .AS_ ++ x = d.table := he
    simpa [Spec.textOf, AliasS.toks, kw, ident] using he'
  exact ha (List.append_right_eq_self.mp h5)

/-- C189 for INSERT: a query that begins with an INSERT into a table with an alias is reported exactly as without the
alias. -/
theorem C189_insert (toUint : Str → Option Nat) (hg : sp.Good) (q q' : Str) (i : InsertS) (x : Str) (ss : List StmtS) (n : Nat)
    (h : Writes q (i.toksAs sp x ++ (ss.flatMap (fun s => kw sp .SCOL :: s.toks sp) ++ List.replicate n (kw sp .SCOL))))
    (h' : Writes q' (queryToks sp (.insert i) ss n)) :
    parseQuery toUint q = parseQuery toUint q' ∧ ∃ vs, parseQuery toUint q = .ok vs ∧ vs.length = ss.length + 1 := by
  obtain ⟨l, h1, h2⟩ := writes_lex.mp h
  have hp := parse_insert_as toUint hg h1 x i ss n h2
  exact ⟨by rw [hp, parse_writes toUint hg _ _ _ h'], _, hp, by simp⟩

/-- The words of the examples. -/
def aliasSp : Spelling
  | .AS_ => s%"AS"
  | t => Spelling.std t

theorem aliasSp_good : aliasSp.Good := ⟨rfl, rfl, rfl, rfl, rfl, rfl, rfl, rfl, rfl, rfl, rfl, rfl, rfl⟩

set_option maxRecDepth 10000 in
example : ∃ v vs, parseQuery (fun _ => none) s%"SELECT a AS x, count(*) n FROM s.t AS y, u z WHERE a = 1" = .ok (.select v :: vs) ∧
    v.tables.map (·.name) = [s%"s.tASy", s%"uz"] ∧ v.selectors[0]? = some (.col { name := s%"aASx" }) := by
  obtain ⟨v, vs, h1, -, h2, -, h3, -⟩ := C189_select_fails (sp := aliasSp) (fun _ => none) aliasSp_good s%"SELECT a AS x, count(*) n FROM s.t AS y, u z WHERE a = 1"
    ⟨.star, [], [], some (.one ⟨s%"a", .eq, .num s%"1"⟩), none, [], .none⟩
    (.atom (.col s%"a") ⟨true, s%"x"⟩) [.fn s%"count" .star ⟨false, s%"n"⟩] ⟨⟨some s%"s", s%"t"⟩, some ⟨true, s%"y"⟩⟩ [⟨⟨none, s%"u"⟩, some ⟨false, s%"z"⟩⟩] [] 0
    (writes_of (by decide +kernel))
  exact ⟨v, vs, h1, h2, h3 0 _ _ rfl⟩
set_option maxRecDepth 10000 in
example : parseQuery (fun _ => none) s%"SELECT * FROM ab c;" = parseQuery (fun _ => none) s%"SELECT * FROM a bc;" :=
  (C189_confused_fails (sp := aliasSp) (fun _ => none) aliasSp_good _ _ ⟨.star, [], [], none, none, [], .none⟩ (.plain .star) []
    ⟨⟨none, s%"ab"⟩, some ⟨false, s%"c"⟩⟩ ⟨⟨none, s%"a"⟩, some ⟨false, s%"bc"⟩⟩ [] [] [] 1
    (writes_of (by decide +kernel)) (writes_of (by decide +kernel)) (by decide +kernel)).1
set_option maxRecDepth 10000 in
example : parseQuery (fun _ => none) s%"SELECT a b, max(a) AS m FROM t" = parseQuery (fun _ => none) s%"SELECT a b, max(a) FROM t" :=
  (C189_functions (sp := aliasSp) (fun _ => none) aliasSp_good _ _ ⟨.star, [], [], none, none, [], .none⟩ (.atom (.col s%"a") ⟨false, s%"b"⟩)
    [.fn s%"max" (.list (.col s%"a") []) ⟨true, s%"m"⟩] ⟨⟨none, s%"t"⟩, none⟩ [] [] 0
    (writes_of (by decide +kernel)) (writes_of (by decide +kernel))).1
set_option maxRecDepth 10000 in
example : ∃ v vs, parseQuery (fun _ => none) s%"SELECT a, b x FROM t y, s.u" = .ok (.select v :: vs) ∧
    v.tables[1]? = some { schema := s%"s", name := s%"s.u" } ∧ v.selectors[0]? = some (.col { name := s%"a" }) := by
  obtain ⟨v, vs, h1, -, -, h2, h3⟩ := C189_bare_partial (sp := aliasSp) (fun _ => none) aliasSp_good s%"SELECT a, b x FROM t y, s.u"
    ⟨.star, [], [], none, none, [], .none⟩
    (.plain (.atom (.col s%"a"))) [.atom (.col s%"b") ⟨false, s%"x"⟩] ⟨⟨none, s%"t"⟩, some ⟨false, s%"y"⟩⟩ [⟨⟨some s%"s", s%"u"⟩, none⟩] [] 0
    (writes_of (by decide +kernel))
  exact ⟨v, vs, h1, h2 1 _ rfl rfl, h3 0 _ rfl⟩
set_option maxRecDepth 10000 in
example : ∃ v vs, parseQuery (fun _ => none) s%"UPDATE t AS x SET a = 1 WHERE b = 2" = .ok (.update v :: vs) ∧ v.table = { name := s%"tASx" } := by
  obtain ⟨v, vs, h1, -, h2, -⟩ := C189_update_fails (sp := aliasSp) (fun _ => none) aliasSp_good s%"UPDATE t AS x SET a = 1 WHERE b = 2"
    ⟨s%"t", ⟨s%"a", .lit (.num s%"1")⟩, [], some (.one ⟨s%"b", .eq, .num s%"2"⟩)⟩ s%"x" [] 0 (writes_of (by decide +kernel))
  exact ⟨v, vs, h1, h2⟩
set_option maxRecDepth 10000 in
example : ∃ v vs, parseQuery (fun _ => none) s%"DELETE FROM t AS x WHERE b = 2" = .ok (.delete v :: vs) ∧ v.table = { name := s%"tASx" } := by
  obtain ⟨v, vs, h1, -, h2, -⟩ := C189_delete_fails (sp := aliasSp) (fun _ => none) aliasSp_good s%"DELETE FROM t AS x WHERE b = 2"
    ⟨s%"t", some (.one ⟨s%"b", .eq, .num s%"2"⟩)⟩ s%"x" [] 0 (writes_of (by decide +kernel))
  exact ⟨v, vs, h1, h2⟩
set_option maxRecDepth 10000 in
example : parseQuery (fun _ => none) s%"INSERT INTO t AS x (a) VALUES (1)" = parseQuery (fun _ => none) s%"INSERT INTO t (a) VALUES (1)" :=
  (C189_insert (sp := aliasSp) (fun _ => none) aliasSp_good _ _ ⟨s%"t", s%"a", [], ⟨.num s%"1", []⟩, []⟩ s%"x" [] 0
    (writes_of (by decide +kernel)) (writes_of (by decide +kernel))).1

end Verif.Props
