import Verif.Lemmas.ReadBack
import Verif.Props.RoundTrip
import Verif.Props.Where
import Verif.Props.Dml
import Verif.Props.SelectWritten
import Verif.Props.Others
/-! Reading back what was reported: C171, C172. -/
namespace Verif.Props
open Verif Verif.Lex Verif.Gram Verif.Parse Verif.Spec Verif.Query

private theorem stmt_printable {toUint : Str → Option Nat} (hb : ∀ s n, toUint s = some n → n < 2 ^ 64) {q : Str} {l : List Statement}
    (h : parseQuery toUint q = .ok l) {s : Statement} (hs : s ∈ l) (hp : PlainStatement s) : ∃ x, s.toStr = .ok x ∧ Reread x s := by
  have sub : ∀ {P : List Token → Statement → Prop}, (∃ toks, Writes q toks ∧ Pieces P toks l) → ∃ own, (∀ t ∈ own, Lexed t) ∧ P own s := by
    rintro P ⟨toks, h1, h2⟩
    obtain ⟨own, h3, h4⟩ := pieces_mem h2 s hs
    exact ⟨own, fun t ht => writes_lexed h1 t (h3 t ht), h4⟩
  obtain ⟨wo, wl, hw⟩ := sub (C130_where toUint q l h)
  obtain ⟨oo, -, ho⟩ := sub (C137_others_partial toUint q l h)
  have ddl : PrintableDdl s → ∃ x, s.toStr = .ok x ∧ Reread x s := by
    intro hd
    obtain ⟨x, hx, -⟩ := Writing.ddl hd
    exact ⟨x, hx, .ddl hd hx⟩
  cases s with
  | select s =>
    obtain ⟨own, -, hx⟩ := sub (C135_select_partial toUint q l h)
    obtain ⟨h1, h2⟩ := select_printable hb wl hx hw hp
    have := Reread.select h1
    rw [h2] at this
    exact ⟨_, rfl, this⟩
  | insert i =>
    obtain ⟨own, hl, hx⟩ := sub (C133_insert_partial toUint q l h)
    obtain ⟨h1, h2⟩ := insert_printable hl hx hp
    have := Reread.insert h1
    rw [h2] at this
    exact ⟨_, rfl, this⟩
  | update u =>
    obtain ⟨own, hl, hx⟩ := sub (C132_update_partial toUint q l h)
    obtain ⟨h1, h2⟩ := update_printable hl wl hx hw hp
    have := Reread.update h1
    rw [h2] at this
    exact ⟨_, rfl, this⟩
  | delete d =>
    obtain ⟨own, -, hx⟩ := sub (C134_delete toUint q l h)
    obtain ⟨h1, h2⟩ := delete_printable wl hx hw hp
    have := Reread.delete h1
    rw [h2] at this
    exact ⟨_, rfl, this⟩
  | createTable s b => exact ⟨_, rfl, .createTable b hp⟩
  | createDatabase n b => exact ddl (.createDatabase b hp)
  | dropDatabase n b => exact ddl (.dropDatabase b hp)
  | alterDatabase n m => exact ddl (.alterDatabase hp.1 hp.2)
  | use n => exact ddl (.use hp)
  | dropIndex a i b => exact ddl (.dropIndex b hp.1 hp.2)
  | begin => exact ddl .begin
  | commit => exact ddl .commit
  | rollback => exact ddl .rollback
  | createIndex s b =>
    cases ho with
    | elsewhere _ _ he => cases he
    | createIndex w u k ine q' n on t o body c tail i x cs _ _ _ _ _ _ hn _ ht _ hb' =>
      have hi := hp.2 _ (List.mem_singleton_self _)
      refine ddl (.createIndex b hp.1 hi.1 hb'.ne_nil fun c hc => ?_)
      obtain ⟨us, -, a, b, m, -, -, -, rfl⟩ := hb'.mem_sub c hc
      exact ⟨_, hi.2 _ hc, rfl⟩
  | dropTable ts b =>
    cases ho with
    | elsewhere _ _ he => cases he
    | dropTable w t ie q' body cas _ _ _ _ _ _ hb' =>
      refine ddl (.dropTable b hb'.ne_nil fun t ht => ?_)
      obtain ⟨us, -, n, -, rfl⟩ := hb'.mem_sub t ht
      exact ⟨n, hp _ ht, rfl⟩
  | truncate ts =>
    cases ho with
    | elsewhere _ _ he => cases he
    | truncate w t body _ _ _ hb' =>
      refine ddl (.truncate hb'.ne_nil fun t ht => ?_)
      obtain ⟨us, -, n, -, rfl⟩ := hb'.mem_sub t ht
      exact ⟨n, hp _ ht, rfl⟩
  | vacuum t =>
    cases ho with
    | elsewhere _ _ he => cases he
    | vacuumAll => exact ddl .vacuum
    | vacuum w a n tail x => exact ddl (.vacuumTable ⟨x, hp _ rfl, rfl⟩)
  | copy c =>
    cases ho with
    | elsewhere _ _ he => cases he
    | copy w t cols f s' wth fmt _ _ _ htn hts hc =>
      refine ddl (.copy ⟨c.table.name, hp.1, ?_⟩ (fun x hx => ?_) hp.2.2)
      · cases ht : c.table
        rw [ht] at hts
        simp only at hts
        rw [hts]
      · rcases hc with ⟨-, h0⟩ | ⟨o, body, cl, -, -, -, hb'⟩
        · rw [h0] at hx; cases hx
        · obtain ⟨us, -, n, -, -, rfl⟩ := hb'.mem_sub x hx
          exact ⟨n, hp.2.1 _ hx, rfl⟩
  | alterTable a =>
    have alt : PrintableAlter a → ∃ x, a.toStr = .ok x ∧ Reread x (.alterTable a) := by
      intro hd
      obtain ⟨x, hx, -⟩ := Writing.alter hd
      exact ⟨x, hx, .alter hd hx⟩
    cases ho with
    | elsewhere _ _ he => cases he
    | alterTable w t q' n change sch x _ _ _ _ _ hc =>
      cases hc with
      | rename r o n m hr ho hn => exact alt (.renameTo hp.table ⟨m, hp.renameTo _ rfl, rfl⟩)
      | renameColumn r c a o b => exact alt (.renameColumn hp.table ⟨_, hp.renameFrom _ rfl, rfl⟩ ⟨_, hp.renameColumn _ rfl, rfl⟩)
      | addColumn w c ts d o =>
        cases o with
        | none => exact absurd rfl hp.some_change
        | some c => exact alt (.addColumn hp.table (hp.addColumn _ rfl))
      | addIndex w con o body c cs i hw ho hc hb' hi =>
        obtain ⟨h1, h2, h3⟩ := hp.addIndex _ rfl
        have hcs : ∀ c ∈ cs, ∃ n, c = { name := n } := by
          intro c hc
          obtain ⟨us, -, n, -, rfl⟩ := hb'.mem_sub c hc
          exact ⟨n, rfl⟩
        cases hi with
        | index pre i n m =>
          refine alt (.addIndex hp.table h2 hb'.ne_nil fun c hc => ?_)
          obtain ⟨n, rfl⟩ := hcs c hc
          exact ⟨n, h3 _ hc, rfl⟩
        | primary => cases h1
        | other => cases h1
      | dropColumn w c n => exact absurd hp.dropColumn (by simp)

/-- C171 for statements with plain names, or with quoted ones if they concern rows: for every accepted query, the texts of
its statements with `;` between them are read as exactly these statements. Names are plain if they need no quotes; a quoted name keeps
its quotes. Further conditions are those of
`PlainStatement`, that is an OFFSET has a LIMIT, GROUP BY stands alone, calls have the type of the name in capital
letters, assignments have a value, rows have the same columns, and tables no keys on single columns. No condition is put
on values and operators: those that are reported can always be read back. What is missing: the other statements, see
`C171_fails` and `C171_name_fails`. -/
theorem C171_readback_partial (toUint : Str → Option Nat) (hu : ReadsNumbers toUint) (hb : ∀ s n, toUint s = some n → n < 2 ^ 64)
    (q : Str) (l : List Statement) (h : parseQuery toUint q = .ok l) (hne : l ≠ []) (hp : ∀ s ∈ l, PlainStatement s) :
    ∃ texts, l.map Statement.toStr = texts.map .ok ∧ parseQuery toUint (Str.join s%";" texts) = .ok l := by
  have key : ∀ m : List Statement, (∀ s ∈ m, ∃ x, s.toStr = .ok x ∧ Reread x s) →
      ∃ ps : List (Str × Statement), ps.map (·.2) = m ∧ m.map Statement.toStr = (ps.map (·.1)).map .ok ∧ ∀ p ∈ ps, Reread p.1 p.2 := by
    intro m
    induction m with
    | nil => exact fun _ => ⟨[], rfl, rfl, by simp⟩
    | cons s m ih =>
      intro hm
      obtain ⟨x, h1, h2⟩ := hm s (by simp)
      obtain ⟨ps, e1, e2, e3⟩ := ih fun s hs => hm s (by simp [hs])
      exact ⟨(x, s) :: ps, by simp [e1], by simp [h1, e2], List.forall_mem_cons.mpr ⟨h2, e3⟩⟩
  obtain ⟨ps, e1, e2, e3⟩ := key l fun s hs => stmt_printable hb h hs (hp s hs)
  cases ps with
  | nil => exact absurd e1.symm hne
  | cons p ps =>
    refine ⟨_, e2, ?_⟩
    rw [C88_script_partial toUint hu p ps e3, e1]

/-- C171 for one statement: its text is read as exactly this statement. -/
theorem C171_one_partial (toUint : Str → Option Nat) (hu : ReadsNumbers toUint) (hb : ∀ s n, toUint s = some n → n < 2 ^ 64)
    (q : Str) (l : List Statement) (h : parseQuery toUint q = .ok l) (s : Statement) (hs : s ∈ l) (hp : PlainStatement s) :
    ∃ x, s.toStr = .ok x ∧ parseQuery toUint x = .ok [s] := by
  obtain ⟨x, h1, h2⟩ := stmt_printable hb h hs hp
  exact ⟨x, h1, C88_script_partial toUint hu (x, s) [] (by simpa using h2)⟩

/-- A conversion of decimal texts that is right and stays below 2^64. -/
example : ReadsNumbers (fun s => (Str.toNat? s).bind (fun n => if n < 2 ^ 64 then some n else none)) ∧
    ∀ s n, (Str.toNat? s).bind (fun n => if n < 2 ^ 64 then some n else none) = some n → n < 2 ^ 64 := by
  constructor
  · intro n hn
    simp [Str.toNat?_ofNat, hn]
  · intro s n h
    obtain ⟨m, -, h⟩ := Option.bind_eq_some_iff.mp h
    split at h
    · cases h; assumption
    · cases h

/-- Statements of several kinds. -/
def sampleStatements : List Statement :=
  [.select { selectors := [.col { name := s%"\"a\"" }, .fn (Function.named s%"COUNT" [s%"*"])], tables := [{ name := s%"`my t`" }], cond := some (.or (.cmp { op := .neq, left := { name := s%"[a b]" }, right := some { v := .str s%"it''s", t := .string } }) (.cmp { op := .eq, left := { name := s%"b" }, right := some { v := .str s%":p" } })) },
   .insert { table := { name := s%"t" }, values := [[{ name := s%"a", lit := some { v := .str s%".5" } }, { name := s%"b", lit := some { v := .str s%"x'0F'" } }], [{ name := s%"a", lit := some { v := .str s%"?" } }, { name := s%"b", lit := some { v := .str s%"NULL" } }]] },
   .update { table := { name := s%"t" }, columns := [{ name := s%"a", fn := some (arithFunction .opMod [s%"b", s%"2"]), args := [s%"b", s%"2"] }, { name := s%"c", lit := some { v := .str s%"-1e3" } }], cond := none },
   .dropTable [{ name := s%"t" }, { name := s%"u" }] true]

set_option maxRecDepth 10000 in
/-- Queries of which these are reported, and all of them have such names. -/
example : parseQuery (fun _ => none) s%"select \"a\", COUNT(*) from `my t` where [a b] <> 'it''s' or b = :p; insert into t (a, b) values (.5, x'0F'), (?, NULL)" = .ok (sampleStatements.take 2) ∧
    parseQuery (fun _ => none) s%"update t set a = b % 2, c = -1e3; drop table if exists t, u" = .ok (sampleStatements.drop 2) ∧
    ∀ s ∈ sampleStatements, PlainStatement s := by
  refine ⟨by krfl, by krfl, ?_⟩
  intro s hs
  have nm : ∀ x ∈ [s%"a", s%"b", s%"c", s%"t", s%"u", s%"COUNT"], Name x := by
    intro x hx
    have : ∀ x ∈ [s%"a", s%"b", s%"c", s%"t", s%"u", s%"COUNT"], isWord x = true ∧ wordKind x = .IDENTIFIER := by decide +kernel
    exact name_of (this x hx)
  simp only [sampleStatements, List.mem_cons, List.not_mem_nil, or_false] at hs
  rcases hs with rfl | rfl | rfl | rfl
  · refine ⟨?_, by simp, ?_, ?_, by simp, fun _ => rfl, Or.inl rfl⟩
    · intro x hx
      simp only [List.mem_cons, List.not_mem_nil, or_false] at hx
      rcases hx with rfl | rfl
      · exact .column (Or.inl (.inr (.double (v := s%"a") (.of_not_mem (by decide)))))
      · exact .count (f := s%"COUNT") (nm _ (by decide)) (by decide)
    · intro x hx
      cases List.mem_singleton.mp hx
      exact .bare (.inr (.back (v := s%"my t") (.of_not_mem (by decide))))
    · intro e he
      cases he
      exact ⟨.inr (.bracket (v := s%"a b") (by decide)), .inl (nm _ (by decide))⟩
  · refine ⟨kept (nm _ (by decide)), ?_, ?_⟩
    · intro r hr c hc
      simp only [List.mem_cons, List.not_mem_nil, or_false] at hr
      rcases hr with rfl | rfl <;> simp only [List.mem_cons, List.not_mem_nil, or_false] at hc <;> rcases hc with rfl | rfl <;> exact .inl (nm _ (by decide))
    · intro r rs e
      cases e
      exact ⟨by simp, by simp⟩
  · refine ⟨.inl (nm _ (by decide)), ?_, fun e he => by cases he⟩
    intro c hc
    simp only [List.mem_cons, List.not_mem_nil, or_false] at hc
    rcases hc with rfl | rfl
    · exact ⟨.inl (nm _ (by decide)), fun _ => ⟨s%"b", s%"2", rfl, .inl (nm _ (by decide)), Or.inr (.number (show NumberText s%"2" from (by decide +kernel : Str.ofNat 2 = s%"2") ▸ Writing.ofNat_number 2))⟩⟩
    · exact ⟨.inl (nm _ (by decide)), fun h => by cases h⟩
  · intro x hx
    simp only [List.mem_cons, List.not_mem_nil, or_false] at hx
    rcases hx with rfl | rfl <;> exact nm _ (by decide)

/-- The statement is reported for the first text, and not for its own text. -/
def NotReadBack (q : Str) (s : Statement) : Prop :=
  (∀ toUint, parseQuery toUint q = .ok [s]) ∧ ∃ x, s.toStr = .ok x ∧ ∀ toUint, parseQuery toUint x ≠ .ok [s]

set_option maxRecDepth 10000 in
/-- C171 fails: the text of a statement that the parser reported need not be read as that statement. A function named in
small letters gets another type, a lost value makes the text wrong, a key on a column loses the type of the column, and
the name of a dropped column grows. -/
theorem C171_fails :
    NotReadBack s%"SELECT max(a) FROM t" (.select { selectors := [.fn { typ := .unknown, name := s%"MAX", args := [s%"a"] }], tables := [{ name := s%"t" }], cond := none }) ∧
    NotReadBack s%"UPDATE t SET a = (1)" (.update { table := { name := s%"t" }, columns := [{ name := s%"a" }], cond := none }) ∧
    NotReadBack s%"CREATE TABLE t (a INT PRIMARY KEY)" (.createTable { table := { name := s%"t" }, columns := [{ name := s%"a", def_ := some { typ := .int, length := -1 } }], indexes := [primaryOn [{ name := s%"a", def_ := some { typ := .int, length := -1 } }]] } false) ∧
    NotReadBack s%"ALTER TABLE t DROP COLUMN a" (.alterTable { table := { name := s%"t" }, dropColumn := some { name := s%"DROPCOLUMNa" } }) := by
  refine ⟨⟨fun _ => by krfl, s%"SELECT MAX(a) FROM t", by krfl, fun u => ?_⟩, ⟨fun _ => by krfl, s%"UPDATE t SET a = ", by krfl, fun u => ?_⟩, ⟨fun _ => by krfl, s%"CREATE TABLE  t (a INT, PRIMARY KEY (a))", by krfl, fun u => ?_⟩, ⟨fun _ => by krfl, s%"ALTER TABLE t DROP DROPCOLUMNa", by krfl, fun u => ?_⟩⟩
  · have : parseQuery u s%"SELECT MAX(a) FROM t" = .ok [.select { selectors := [.fn { typ := .aggregate, name := s%"MAX", args := [s%"a"] }], tables := [{ name := s%"t" }], cond := none }] := by krfl
    exact fun h => absurd (this.symm.trans h) (by decide)
  · have : parseQuery u s%"UPDATE t SET a = " = .err := by krfl
    exact fun h => absurd (this.symm.trans h) (by decide)
  · have : parseQuery u s%"CREATE TABLE  t (a INT, PRIMARY KEY (a))" = .ok [.createTable { table := { name := s%"t" }, columns := [{ name := s%"a", def_ := some { typ := .int, length := -1 } }], indexes := [primaryOn [{ name := s%"a", def_ := some { typ := .unknown, length := 0 } }]] } false] := by krfl
    exact fun h => absurd (this.symm.trans h) (by decide)
  · have : parseQuery u s%"ALTER TABLE t DROP DROPCOLUMNa" = .ok [.alterTable { table := { name := s%"t" }, dropColumn := some { name := s%"DROPDROPCOLUMNa" } }] := by krfl
    exact fun h => absurd (this.symm.trans h) (by decide)

set_option maxRecDepth 10000 in
/-- C171 fails for quoted names that lose their quotes: INSERT and DROP TABLE report the name without its backquotes, and
their text has it without them. -/
theorem C171_name_fails :
    NotReadBack s%"INSERT INTO `my t` (a) VALUES (1)" (.insert { table := { name := s%"my t" }, values := [[{ name := s%"a", lit := some { v := .str s%"1" } }]] }) ∧
    NotReadBack s%"DROP TABLE `my t`" (.dropTable [{ name := s%"my t" }] false) := by
  refine ⟨⟨fun _ => by krfl, s%"INSERT INTO my t (a) VALUES (1)", by krfl, fun u => ?_⟩, ⟨fun _ => by krfl, s%"DROP TABLE my t", by krfl, fun u => ?_⟩⟩
  · have : parseQuery u s%"INSERT INTO my t (a) VALUES (1)" = .err := by krfl
    exact fun h => absurd (this.symm.trans h) (by decide)
  · have : parseQuery u s%"DROP TABLE my t" = .err := by krfl
    exact fun h => absurd (this.symm.trans h) (by decide)

/-! ### C172 -/

/-- C172, what holds instead: for every accepted query, every value in a condition, a row or an assignment is reported as
a text, which for a parameter is the parameter as it is written (`C130_where`, `C132_update_partial`,
`C133_insert_partial`); never is one reported as a bind parameter. What is missing: parameters that can be told from
other values, see `C172_fails`. -/
theorem C172_texts_partial (toUint : Str → Option Nat) (q : Str) (l : List Statement) (h : parseQuery toUint q = .ok l) (s : Statement) (hs : s ∈ l) :
    ∀ v ∈ stmtLits s, ∃ x, v.v = .str x := by
  have sub : ∀ {P : List Token → Statement → Prop}, (∃ toks, Writes q toks ∧ Pieces P toks l) → ∃ own, P own s := by
    rintro P ⟨toks, h1, h2⟩
    obtain ⟨own, -, h4⟩ := pieces_mem h2 s hs
    exact ⟨own, h4⟩
  intro v hv
  rcases List.mem_append.mp hv with hv | hv
  · obtain ⟨own, hw⟩ := sub (C130_where toUint q l h)
    cases hc : condOf s with
    | none => rw [hc] at hv; cases hv
    | some e =>
      rw [hc] at hv
      obtain ⟨b, w, c, a, rfl, -, -, ht, -⟩ := hw e hc
      exact condTokens_text ht v hv
  · cases s with
    | insert i =>
      obtain ⟨own, hw⟩ := sub (C133_insert_partial toUint q l h)
      obtain ⟨r, hr, hv⟩ := List.mem_flatMap.mp hv
      obtain ⟨c, hc, hv⟩ := List.mem_flatMap.mp hv
      exact insert_text hw r hr c hc v hv
    | update u =>
      obtain ⟨own, hw⟩ := sub (C132_update_partial toUint q l h)
      obtain ⟨c, hc, hv⟩ := List.mem_flatMap.mp hv
      exact update_text hw c hc v hv
    | _ => cases hv

/-- An UPDATE with three values. -/
def sampleUpdate : Statement :=
  .update { table := { name := s%"t" }, columns := [{ name := s%"a", lit := some { v := .str s%"?" } }, { name := s%"b", lit := some { v := .str s%"x", t := .string } }], cond := some (.cmp { op := .eq, left := { name := s%"c" }, right := some { v := .str s%"$1" } }) }

set_option maxRecDepth 10000 in
/-- A query that reports it. -/
example : parseQuery (fun _ => none) s%"UPDATE t SET a = ?, b = 'x' WHERE c = $1" = .ok [sampleUpdate] ∧
    (stmtLits sampleUpdate).map (·.v) = [.str s%"$1", .str s%"?", .str s%"x"] := ⟨by krfl, by decide⟩

set_option maxRecDepth 10000 in
/-- C172 fails: a parameter is reported as an untyped text, in the same way as a number; no bind parameter is made of it. -/
theorem C172_fails (toUint : Str → Option Nat) :
    parseQuery toUint s%"INSERT INTO t (a, b) VALUES (?, 1)" =
      .ok [.insert { table := { name := s%"t" }, values := [[{ name := s%"a", lit := some { v := .str s%"?" } }, { name := s%"b", lit := some { v := .str s%"1" } }]] }] ∧
    parseQuery toUint s%"UPDATE t SET a = $1" = .ok [.update { table := { name := s%"t" }, columns := [{ name := s%"a", lit := some { v := .str s%"$1" } }], cond := none }] :=
  ⟨by krfl, by krfl⟩

end Verif.Props
