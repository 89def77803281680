import Verif.Props.TableText
/-! C106: changes whose texts are syntax errors. -/
namespace Verif.Gram
open Verif Verif.Lex Verif.Spec Verif.Visit Verif.Query Verif.Parse

variable {β : Type} {k : List Token → Option β} {sp : Spelling}

/-- No parse of the part leaves a rest that can be continued. -/
theorem No.rests {e : Elem} {ts us : List Token} (h : (runs 60 e ts).map (fun l => l.map Prod.snd) = some [us]) (hk : k us = none) (hp : Proper e := by proper) : No e k ts := by
  rw [Option.map_eq_some_iff] at h
  obtain ⟨l, h1, h2⟩ := h
  apply No.all
  rw [parses_of_runs hp h1]
  intro p hm
  have : p.2 ∈ l.map Prod.snd := List.mem_map_of_mem hm
  rw [h2, List.mem_singleton] at this
  rw [this, hk]

theorem rename_more_no (t : TabS) (u : Str) (r : List Token) {x : Tok} (hx : x = .RENAME_ ∨ x = .ADD_ ∨ x = .DOT) (hq : Quiet k) :
    No (.nt .sql_stmt) k (kw sp .ALTER_ :: kw sp .TABLE_ :: (t.toks sp ++ kw sp .RENAME_ :: kw sp .TO_ :: ident u :: kw sp x :: r)) := by
  obtain ⟨_ | s, n⟩ := t <;> simp only [TabS.toks, List.cons_append, List.nil_append] <;> rcases hx with rfl | rfl | rfl
  · exact No.rests (us := kw sp .RENAME_ :: r) (by krfl) (hq .RENAME_ (by krfl) _ _ rfl)
  · exact No.rests (us := kw sp .ADD_ :: r) (by krfl) (hq .ADD_ (by krfl) _ _ rfl)
  · exact No.rests (us := kw sp .DOT :: r) (by krfl) (hq .DOT (by krfl) _ _ rfl)
  · exact No.rests (us := kw sp .RENAME_ :: r) (by krfl) (hq .RENAME_ (by krfl) _ _ rfl)
  · exact No.rests (us := kw sp .ADD_ :: r) (by krfl) (hq .ADD_ (by krfl) _ _ rfl)
  · exact No.rests (us := kw sp .DOT :: r) (by krfl) (hq .DOT (by krfl) _ _ rfl)

theorem rename_column_more_no (t : TabS) (a b : Str) (r : List Token) {x : Tok} (hx : x = .RENAME_ ∨ x = .ADD_) (hq : Quiet k) :
    No (.nt .sql_stmt) k (kw sp .ALTER_ :: kw sp .TABLE_ :: (t.toks sp ++ kw sp .RENAME_ :: kw sp .COLUMN_ :: ident a :: kw sp .TO_ :: ident b :: kw sp x :: r)) := by
  obtain ⟨_ | s, n⟩ := t <;> simp only [TabS.toks, List.cons_append, List.nil_append] <;> rcases hx with rfl | rfl
  · exact No.rests (us := kw sp .RENAME_ :: r) (by krfl) (hq .RENAME_ (by krfl) _ _ rfl)
  · exact No.rests (us := kw sp .ADD_ :: r) (by krfl) (hq .ADD_ (by krfl) _ _ rfl)
  · exact No.rests (us := kw sp .RENAME_ :: r) (by krfl) (hq .RENAME_ (by krfl) _ _ rfl)
  · exact No.rests (us := kw sp .ADD_ :: r) (by krfl) (hq .ADD_ (by krfl) _ _ rfl)

theorem alter_nothing_no (t : TabS) : parseTree (kw sp .ALTER_ :: kw sp .TABLE_ :: t.toks sp) = none := by
  obtain ⟨_ | s, n⟩ := t <;> simp only [TabS.toks, List.cons_append, List.nil_append] <;> krfl

theorem rename_drop_no (t : TabS) (u c : Str) : parseTree (kw sp .ALTER_ :: kw sp .TABLE_ :: (t.toks sp ++ [kw sp .RENAME_, kw sp .TO_, ident u, kw sp .DROP_, ident c])) = none := by
  obtain ⟨_ | s, n⟩ := t <;> simp only [TabS.toks, List.cons_append, List.nil_append] <;> krfl

theorem rename_column_drop_no (t : TabS) (a b c : Str) : parseTree (kw sp .ALTER_ :: kw sp .TABLE_ :: (t.toks sp ++ [kw sp .RENAME_, kw sp .COLUMN_, ident a, kw sp .TO_, ident b, kw sp .DROP_, ident c])) = none := by
  obtain ⟨_ | s, n⟩ := t <;> simp only [TabS.toks, List.cons_append, List.nil_append] <;> krfl

end Verif.Gram

namespace Verif.Props
open Verif Verif.Lex Verif.Gram Verif.Spec Verif.Query Verif.Parse

theorem join_more (A M : List Str) (hA : A ≠ []) : ∃ r, Util.joinWithSpace (A ++ M) = Util.joinWithSpace A ++ r ∧ sepStart r = true := by
  by_cases hM : M = []
  · exact ⟨[], by simp [hM], rfl⟩
  · exact ⟨' ' :: Util.joinWithSpace M, by rw [Util.joinWithSpace, Str.join_append _ _ _ hA hM]; simp [Util.joinWithSpace], rfl⟩

/-- A text that begins with parts that cannot be continued. -/
theorem refused_more (toUint : Str → Option Nat) {A : List Str} {tl : List Token} (hA : A ≠ []) (h : Writing.Parts A tl) (M : List Str)
    (hs : Heads startToks tl) (hn : tl ≠ [])
    (hno : ∀ (r : List Token) {γ : Type} {k : List Token → Option γ}, Quiet k → No (.nt .sql_stmt) k (tl ++ r)) :
    parseQuery toUint (Util.joinWithSpace (A ++ M)) = .err := by
  obtain ⟨r, hr, hsep⟩ := join_more A M hA
  obtain ⟨ts, hts⟩ := lx_any r
  have := Writing.spaces h r ts hsep hts
  rw [hr]
  refine parse_none toUint this (query_no ?_ (by simp [hn]) (fun hq => hno ts hq))
  cases tl with
  | nil => exact absurd rfl hn
  | cons x l => exact fun y l' e => hs y l (by rw [List.cons_append] at e; rw [(List.cons.inj e).1])

theorem refused_whole (toUint : Str → Option Nat) {A : List Str} {tl : List Token} (h : Writing.Parts A tl) (hno : parseTree tl = none) :
    parseQuery toUint (Util.joinWithSpace A) = .err := by
  have := Writing.spaces h [] [] rfl Lx.nil
  rw [List.append_nil, List.append_nil] at this
  exact parse_none toUint this hno

/-- The words of a new name of the table. -/
def renameWords : Option Table → List Str
  | some t => [s%"RENAME", s%"TO", t.fullTableName]
  | none => []
/-- The words of a new name of a column. -/
def columnWords : Option Column → Option Column → List Str
  | some f, some t => [s%"RENAME", s%"COLUMN", f.name, s%"TO", t.name]
  | _, _ => []
/-- The words of an added index. -/
def indexWords : Option Index → List Str
  | some i => [s%"ADD", i.definitionString]
  | none => []
/-- The words of a dropped column. -/
def dropWords : Option Column → List Str
  | some c => [s%"DROP", c.name]
  | none => []

theorem columnWords_none {f t : Option Column} (h : ¬ (f ≠ none ∧ t ≠ none)) : columnWords f t = [] := by
  cases f with
  | none => rfl
  | some f => cases t with
    | none => rfl
    | some t => exact absurd ⟨by simp, by simp⟩ h

/-- The text of the changes behind the names of the table. -/
theorem alter_text {a : AlterTable} {q : Str} (hq : a.toStr = .ok q) : ∃ mid, (a.addColumn = none → mid = []) ∧ (a.addColumn ≠ none → ∃ m, mid = s%"ADD" :: m) ∧
    q = Util.joinWithSpace ([s%"ALTER", s%"TABLE", a.table.fullTableName] ++ (renameWords a.renameTo ++ (columnWords a.renameColumnFrom a.renameColumnTo ++
      (mid ++ (indexWords a.addIndex ++ dropWords a.dropColumn))))) := by
  obtain ⟨t, rt, cf, ct, ac, ai, dc, di⟩ := a
  cases ac with
  | none =>
    refine ⟨[], fun _ => rfl, fun h => absurd rfl h, ?_⟩
    simp only [AlterTable.toStr, Res.ok.injEq] at hq
    rw [← hq]
    simp only [List.append_assoc, List.nil_append]
    cases rt <;> cases cf <;> cases ct <;> cases ai <;> cases dc <;> rfl
  | some c =>
    obtain ⟨n, df, lit, f, as⟩ := c
    cases df with
    | none => simp [AlterTable.toStr, addColumnClause] at hq
    | some d =>
      refine ⟨s%"ADD" :: ((if d.consts ≠ 0 then [Constraint.toStr d.consts] else []) ++ [Column.definitionString ⟨n, some d, lit, f, as⟩]),
        fun h => by simp at h, fun _ => ⟨_, rfl⟩, ?_⟩
      · simp only [AlterTable.toStr, addColumnClause, Res.ok.injEq] at hq
        rw [← hq]
        simp only [List.append_assoc, List.cons_append, List.nil_append]
        cases rt <;> cases cf <;> cases ct <;> cases ai <;> cases dc <;> rfl

/-- C106 fails for all these statements, with plain names: without a change that has a text, for example when only an index
is dropped; when the table gets a name with a schema, whatever else is changed; and when a table or a column is renamed
and there is another change behind it. If the statement has a text, it is a syntax error. -/
theorem C106_refused_fails (toUint : Str → Option Nat) (a : AlterTable) (h : PlainTable a.table) (q : Str) (hq : a.toStr = .ok q) :
    (a.renameTo = none ∧ (a.renameColumnFrom = none ∨ a.renameColumnTo = none) ∧ a.addColumn = none ∧ a.addIndex = none ∧ a.dropColumn = none →
      parseQuery toUint q = .err) ∧
    (∀ u, a.renameTo = some u → PlainTable u → u.schema ≠ [] ∨ (a.renameColumnFrom ≠ none ∧ a.renameColumnTo ≠ none) ∨ a.addColumn ≠ none ∨
      a.addIndex ≠ none ∨ (∃ c, a.dropColumn = some c ∧ Name c.name) → parseQuery toUint q = .err) ∧
    (∀ f t, a.renameTo = none → a.renameColumnFrom = some f → a.renameColumnTo = some t → Name f.name → Name t.name → a.addColumn ≠ none ∨
      a.addIndex ≠ none ∨ (∃ c, a.dropColumn = some c ∧ Name c.name) → parseQuery toUint q = .err) := by
  obtain ⟨mid, hm0, hm1, rfl⟩ := alter_text hq
  obtain ⟨T, rt, cf, ct, ac, ai, dc, di⟩ := a
  simp only at h hm0 hm1 ⊢
  clear hq
  have kA := Writing.keyword .ALTER_ (by decide +kernel)
  have kT := Writing.keyword .TABLE_ (by decide +kernel)
  have kR := Writing.keyword .RENAME_ (by decide +kernel)
  have kC := Writing.keyword .COLUMN_ (by decide +kernel)
  have kTo := Writing.keyword .TO_ (by decide +kernel)
  have kAdd := Writing.keyword .ADD_ (by decide +kernel)
  have kD := Writing.keyword .DROP_ (by decide +kernel)
  have hT := tabOf_writing h
  refine ⟨?_, ?_, ?_⟩
  · rintro ⟨rfl, hc, hac, rfl, rfl⟩
    rw [hm0 hac]
    have e : columnWords cf ct = [] := columnWords_none (fun hn => hc.elim hn.1 hn.2)
    rw [e]
    have hp := Writing.Parts.cons kA (.cons kT (.cons hT .nil))
    exact refused_whole toUint hp (by simpa using alter_nothing_no (sp := .std) (tabOf T))
  · rintro u rfl hu hx
    have hU := tabOf_writing hu
    by_cases hs : u.schema = []
    · rw [show (tabOf u).toks .std = [ident u.name] by simp [tabOf, TabS.toks, hs]] at hU
      have hp := Writing.Parts.cons kA (.cons kT (.cons hT (.cons kR (.cons kTo (.cons hU .nil)))))
      have more : ∀ (X : Str) (x : Tok) (M : List Str), Writing X [kw .std x] → (x = .RENAME_ ∨ x = .ADD_) →
          parseQuery toUint (Util.joinWithSpace ([s%"ALTER", s%"TABLE", T.fullTableName] ++ ([s%"RENAME", s%"TO", u.fullTableName] ++ (X :: M)))) = .err := by
        intro X x M hX hxx
        have := refused_more toUint (by simp) (Writing.Parts.append hp (.cons hX .nil)) M (Heads.kw (sp := .std)) (by simp)
          (fun r _ k hq => by
            have := rename_more_no (sp := .std) (tabOf T) u.name r (x := x) (hxx.elim .inl (fun h => .inr (.inl h))) hq
            simpa using this)
        simpa [Spelling.std] using this
      by_cases hc : cf ≠ none ∧ ct ≠ none
      · obtain ⟨f, rfl⟩ := Option.ne_none_iff_exists'.mp hc.1
        obtain ⟨t, rfl⟩ := Option.ne_none_iff_exists'.mp hc.2
        exact more s%"RENAME" .RENAME_ _ kR (.inl rfl)
      · have e : columnWords cf ct = [] := columnWords_none hc
        rw [e]
        by_cases hac : ac = none
        · rw [hm0 hac]
          cases ai with
          | some i => exact more s%"ADD" .ADD_ _ kAdd (.inr rfl)
          | none =>
            have : ∃ c, dc = some c ∧ Name c.name := by
              rcases hx with hx | hx | hx | hx | hx
              · exact absurd hs hx
              · exact absurd hx hc
              · exact absurd hac hx
              · exact absurd rfl hx
              · exact hx
            obtain ⟨c, rfl, hn⟩ := this
            have := refused_whole toUint (Writing.Parts.append hp (.cons kD (.cons (Writing.name hn) .nil))) (by simpa using rename_drop_no (sp := .std) (tabOf T) u.name c.name)
            exact this
        · obtain ⟨m, rfl⟩ := hm1 hac
          exact more s%"ADD" .ADD_ _ kAdd (.inr rfl)
    · rw [show (tabOf u).toks .std = [ident u.schema, kw .std .DOT, ident u.name] by simp [tabOf, TabS.toks, hs]] at hU
      have hp := Writing.Parts.cons kA (.cons kT (.cons hT (.cons kR (.cons kTo (.cons hU .nil)))))
      have := refused_more toUint (by simp) hp (columnWords cf ct ++ (mid ++ (indexWords ai ++ dropWords dc))) (Heads.kw (sp := .std)) (by simp)
        (fun r _ k hq => by
          have := rename_more_no (sp := .std) (tabOf T) u.schema (ident u.name :: r) (x := .DOT) (.inr (.inr rfl)) hq
          simpa using this)
      exact this
  · rintro f t rfl rfl rfl hf ht hx
    have hp := Writing.Parts.cons kA (.cons kT (.cons hT (.cons kR (.cons kC (.cons (Writing.name hf) (.cons kTo (.cons (Writing.name ht) .nil)))))))
    have more : ∀ M : List Str,
        parseQuery toUint (Util.joinWithSpace ([s%"ALTER", s%"TABLE", T.fullTableName] ++ ([] ++ ([s%"RENAME", s%"COLUMN", f.name, s%"TO", t.name] ++ (s%"ADD" :: M))))) = .err := by
      intro M
      have := refused_more toUint (by simp) (Writing.Parts.append hp (.cons kAdd .nil)) M (Heads.kw (sp := .std)) (by simp)
        (fun r _ k hq => by
          have := rename_column_more_no (sp := .std) (tabOf T) f.name t.name r (x := .ADD_) (.inr rfl) hq
          simpa using this)
      simpa [Spelling.std] using this
    by_cases hac : ac = none
    · rw [hm0 hac]
      cases ai with
      | some i => exact more _
      | none =>
        have : ∃ c, dc = some c ∧ Name c.name := by
          rcases hx with hx | hx | hx
          · exact absurd hac hx
          · exact absurd rfl hx
          · exact hx
        obtain ⟨c, rfl, hn⟩ := this
        have := refused_whole toUint (Writing.Parts.append hp (.cons kD (.cons (Writing.name hn) .nil))) (by simpa using rename_column_drop_no (sp := .std) (tabOf T) f.name t.name c.name)
        exact this
    · obtain ⟨m, rfl⟩ := hm1 hac
      exact more (m ++ (indexWords ai ++ dropWords dc))

/-- A table of the examples. -/
theorem plain_t : PlainTable { name := s%"t" } := ⟨name_of (by decide +kernel), .inl rfl⟩

example : ∃ q, AlterTable.toStr { table := { name := s%"t" }, dropIndex := some (newSecondaryIndexWith s%"i" []) } = .ok q ∧ ∀ toUint, parseQuery toUint q = .err := by
  refine ⟨_, rfl, fun toUint => ?_⟩
  exact (C106_refused_fails toUint { table := { name := s%"t" }, dropIndex := some (newSecondaryIndexWith s%"i" []) } plain_t _ rfl).1 ⟨rfl, .inl rfl, rfl, rfl, rfl⟩
example : ∃ q, AlterTable.toStr { table := { name := s%"t" }, renameTo := some { name := s%"t" }, addColumn := some (col s%"a") } = .ok q ∧ ∀ toUint, parseQuery toUint q = .err := by
  refine ⟨_, rfl, fun toUint => ?_⟩
  exact (C106_refused_fails toUint { table := { name := s%"t" }, renameTo := some { name := s%"t" }, addColumn := some (col s%"a") } plain_t _ rfl).2.1 _ rfl plain_t (.inr (.inr (.inl (by simp))))
example : ∃ q, AlterTable.toStr { table := { name := s%"t" }, renameColumnFrom := some { name := s%"t" }, renameColumnTo := some { name := s%"t" }, dropColumn := some { name := s%"t" } } = .ok q ∧
    ∀ toUint, parseQuery toUint q = .err := by
  refine ⟨_, rfl, fun toUint => ?_⟩
  exact (C106_refused_fails toUint { table := { name := s%"t" }, renameColumnFrom := some { name := s%"t" }, renameColumnTo := some { name := s%"t" }, dropColumn := some { name := s%"t" } } plain_t _ rfl).2.2
    _ _ rfl rfl rfl plain_t.1 plain_t.1 (.inr (.inr ⟨_, rfl, plain_t.1⟩))

end Verif.Props
