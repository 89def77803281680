import Verif.Spec.RoundTrip
import Verif.Spec.Util
/-! Statements other than SELECT, INSERT, UPDATE and DELETE whose text can be read back. -/
namespace Verif.Spec
open Verif Verif.Lex Verif.Gram Verif.Query

/-- A column of which only the name is given. -/
def NamedColumn (c : Column) : Prop := ∃ n, Name n ∧ c = { name := n }

/-- A table of which only the name is given. -/
def NamedTable (t : Table) : Prop := ∃ n, Name n ∧ t = { name := n }

/-- Types that have a text, which is one word that the grammar takes as a name. -/
def PrintableType (t : DataType) : Prop := t ≠ .unknown ∧ t ≠ .name ∧ t ≠ .binary ∧ t ≠ .doublePrecision

/-- A column with a type and possibly a length (−1 stands for none), without constraints. -/
def PrintableColumn (c : Column) : Prop :=
  ∃ n t l, c = { name := n, def_ := some { typ := t, length := l } } ∧ Name n ∧ PrintableType t ∧ (l = -1 ∨ (0 < l ∧ l < 2 ^ 63))

/-- A secondary index on one column, the first one of that name in the table. -/
def PrintableSecondary (cs : List Column) (i : Index) : Prop :=
  ∃ n c pre post, i = { name := n, typ := .secondary, columns := [c] } ∧ Name n ∧ cs = pre ++ c :: post ∧
    ∀ d ∈ pre, Str.upper d.name ≠ Str.upper c.name

/-- A primary key on named columns without a type, named after the columns. -/
def PrintablePrimary (i : Index) : Prop :=
  ∃ ns, ns ≠ [] ∧ (∀ n ∈ ns, Name n) ∧ i = { name := Str.join s%"_" ns, typ := .primary, columns := ns.map (fun n => { name := n, def_ := some { typ := .unknown, length := 0 } }) }

/-- Tables whose definition can be read back: columns, then secondary indexes, then primary keys. -/
structure PrintableSchema (s : Schema) : Prop where
  table : NamedTable s.table
  some_column : s.columns ≠ []
  columns : ∀ c ∈ s.columns, PrintableColumn c
  indexes : ∃ secs prims, s.indexes = secs ++ prims ∧ (∀ i ∈ secs, PrintableSecondary s.columns i) ∧ ∀ i ∈ prims, PrintablePrimary i

/-- The table of an ALTER TABLE, possibly with its schema. -/
def AlterTarget (t : Table) : Prop := Name t.name ∧ (t.schema = [] ∨ Name t.schema)

/-- One change of a table that can be read back. -/
inductive PrintableAlter : AlterTable → Prop
  | renameTo {t u : Table} : AlterTarget t → NamedTable u → PrintableAlter { table := t, renameTo := some u }
  | renameColumn {t : Table} {a b : Column} : AlterTarget t → NamedColumn a → NamedColumn b →
      PrintableAlter { table := t, renameColumnFrom := some a, renameColumnTo := some b }
  | addColumn {t : Table} {c : Column} : AlterTarget t → PrintableColumn c → PrintableAlter { table := t, addColumn := some c }
  | addIndex {t : Table} {n : Str} {cs : List Column} : AlterTarget t → Name n → cs ≠ [] → (∀ c ∈ cs, NamedColumn c) →
      PrintableAlter { table := t, addIndex := some { name := n, typ := .secondary, columns := cs } }

/-- The other statements. -/
inductive PrintableDdl : Statement → Prop
  | createDatabase {n : Str} (b : Bool) : Name n → PrintableDdl (.createDatabase n b)
  | dropDatabase {n : Str} (b : Bool) : Name n → PrintableDdl (.dropDatabase n b)
  | alterDatabase {n m : Str} : Name n → Name m → PrintableDdl (.alterDatabase n m)
  | use {n : Str} : Name n → PrintableDdl (.use n)
  | createIndex {t i : Str} {cs : List Column} (b : Bool) : Name t → Name i → cs ≠ [] → (∀ c ∈ cs, NamedColumn c) →
      PrintableDdl (.createIndex { table := { name := t }, indexes := [{ name := i, typ := .secondary, columns := cs }] } b)
  | dropTable {ts : List Table} (b : Bool) : ts ≠ [] → (∀ t ∈ ts, NamedTable t) → PrintableDdl (.dropTable ts b)
  | dropIndex {s i : Str} (b : Bool) : s = [] ∨ Name s → Name i → PrintableDdl (.dropIndex s i b)
  | truncate {ts : List Table} : ts ≠ [] → (∀ t ∈ ts, NamedTable t) → PrintableDdl (.truncate ts)
  | copy {t : Table} {cs : List Column} {s : Str} {f : CopyFormat} : NamedTable t → (∀ c ∈ cs, NamedColumn c) → Name s →
      PrintableDdl (.copy { table := t, columns := cs, source := s, format := f })
  | vacuum : PrintableDdl (.vacuum none)
  | vacuumTable {t : Table} : NamedTable t → PrintableDdl (.vacuum (some t))
  | begin : PrintableDdl .begin
  | commit : PrintableDdl .commit
  | rollback : PrintableDdl .rollback

/-! ### What statements report -/

/-- A name as written without its backquotes. -/
def plainName : Str → Str
  | '`' :: r => r.dropLast
  | n => n

/-- A name without quotes, or one in backquotes that does not start or end with a quote or a parenthesis. -/
def GoodName (n : Str) : Prop :=
  Name n ∨ ∃ m, n = '`' :: m ++ ['`'] ∧ ¬ TouchesEnds (fun c => c = '\'' ∨ c = '`' ∨ c = '(' ∨ c = ')') m

/-- Two lists of the same length whose elements are related one by one. -/
inductive Each {α β : Type} (R : α → β → Prop) : List α → List β → Prop
  | nil : Each R [] []
  | cons {a : α} {b : β} {as : List α} {bs : List β} : R a b → Each R as bs → Each R (a :: as) (b :: bs)

/-- The words that start something else than a column. -/
def clauseWords : List Str := [s%"PRIMARY", s%"KEY", s%"UNIQUE", s%"INDEX", s%"CONSTRAINT"]

/-- A column definition with a name the parser takes off the quotes of, a known type, and a number as length, if any. -/
def WrittenColumn (c : ColS) : Prop := GoodName c.name ∧ Str.upper (plainName c.name) ∉ clauseWords ∧
  (∃ ty : DataType, ty.toStr ≠ [] ∧ ty.toStr = Str.upper c.typ) ∧ ∀ l, c.len = some l → ∃ n : Nat, n < 2 ^ 63 ∧ l = Str.ofNat n

/-- A table written with names the parser takes off the quotes of, known types, and indexes on its columns. -/
structure WellWritten (t : TableS) : Prop where
  name : GoodName t.name
  columns : ∀ c ∈ t.col :: t.cols, WrittenColumn c
  indexes : ∀ i ∈ t.idxs, GoodName i.name ∧ GoodName i.col ∧ ∃ c ∈ t.col :: t.cols, Str.upper (plainName c.name) = Str.upper (plainName i.col)
  keys : ∀ k ∈ t.keys, ∀ c ∈ k.col :: k.cols, GoodName c

/-- The column has the written name, the type of the written name, and the written length. -/
def ReportsColumn (c : ColS) (x : Column) : Prop :=
  ∃ d, x = { name := plainName c.name, def_ := some d } ∧ d.typ.toStr = Str.upper c.typ ∧ d.typ.toStr ≠ [] ∧
    (c.len = none → d.length = -1) ∧ ∀ n, c.len = some (Str.ofNat n) → d.length = n

/-- The index has the written name, and its column is a column of the table. -/
def ReportsIndex (cs : List Column) (i : IdxS) (x : Index) : Prop :=
  ∃ c ∈ cs, Str.upper c.name = Str.upper (plainName i.col) ∧ x = { name := plainName i.name, typ := .secondary, columns := [c] }

/-- The index is a primary key of the written columns. -/
def ReportsKey (k : KeyS) (x : Index) : Prop :=
  x.typ = .primary ∧ x.columns.map (·.name) = (k.col :: k.cols).map plainName

/-- The schema has the columns and indexes of a written table; the columns with a PRIMARY KEY constraint have keys. -/
structure ReportsTable (t : TableS) (s : Schema) : Prop where
  table : s.table = { name := plainName t.name }
  columns : Each ReportsColumn (t.col :: t.cols) s.columns
  indexes : ∃ ks ss ps, s.indexes = ks ++ (ss ++ ps) ∧
    Each (fun x i => i = { name := x.name, typ := .primary, columns := [x] })
      (((t.col :: t.cols).zip s.columns).flatMap (fun p => List.replicate (p.1.cons.count .primaryKey) p.2)) ks ∧
    Each (ReportsIndex s.columns) t.idxs ss ∧ Each ReportsKey t.keys ps

/-- A table or column of which the name is written, without the backquotes. -/
def writtenTable (n : Str) : Table := { name := plainName n }
def writtenColumn (n : Str) : Column := { name := plainName n }

/-- What the statements say, apart from CREATE TABLE and ALTER TABLE. Names in backquotes are allowed where the parser
takes the backquotes off. -/
inductive Says : DdlS → Statement → Prop
  | createDatabase {b : Bool} {n : Str} : Name n → Says (.createDatabase b n) (.createDatabase n b)
  | dropDatabase {b : Bool} {n : Str} : Name n → Says (.dropDatabase b n) (.dropDatabase n b)
  | alterDatabase {n m : Str} : Name n → Name m → Says (.alterDatabase n m) (.alterDatabase n m)
  | use {n : Str} : Name n → Says (.use n) (.use n)
  | createIndex {b : Bool} {n t c : Str} {cs : List Str} : GoodName n → GoodName t → (∀ x ∈ c :: cs, GoodName x) →
      Says (.createIndex b n t c cs) (.createIndex { table := writtenTable t, indexes := [{ name := plainName n, typ := .secondary, columns := (c :: cs).map writtenColumn }] } b)
  | dropTable {b : Bool} {t : Str} {ts : List Str} : (∀ x ∈ t :: ts, GoodName x) → Says (.dropTable b t ts) (.dropTable ((t :: ts).map writtenTable) b)
  | dropIndex {b : Bool} {n : Str} : GoodName n → Says (.dropIndex b ⟨none, n⟩) (.dropIndex [] (plainName n) b)
  | dropIndexOf {b : Bool} {s n : Str} : GoodName s → GoodName n → Says (.dropIndex b ⟨some s, n⟩) (.dropIndex (plainName s) (plainName n) b)
  | truncate {t : Str} {ts : List Str} : (∀ x ∈ t :: ts, Name x) → Says (.truncate t ts) (.truncate ((t :: ts).map (fun n => { name := n })))
  | copy {t s : Str} {cs : List Str} {f : FormatS} {g : CopyFormat} : Name t → (∀ x ∈ cs, Name x) → Name s → (f, g) ∈ [(.text, .text), (.csv, .csv), (.binary, .binary)] →
      Says (.copy t cs s f) (.copy { table := { name := t }, columns := cs.map (fun n => { name := n }), source := s, format := g })
  | vacuum : Says (.vacuum none) (.vacuum none)
  | vacuumTable {t : Str} : Name t → Says (.vacuum (some t)) (.vacuum (some { name := t }))
  | begin : Says .begin .begin
  | commit : Says .commit .commit
  | rollback : Says .rollback .rollback

/-- The changes of ALTER TABLE, apart from DROP, with names in backquotes where the parser takes the backquotes off. -/
def WrittenAlter : AlterS → Prop
  | .renameTo u => GoodName u
  | .renameColumn a b => Name a ∧ Name b
  | .addIndex n c cs => GoodName n ∧ ∀ x ∈ c :: cs, GoodName x
  | .addKey c cs => ∀ x ∈ c :: cs, GoodName x
  | .addColumn c => WrittenColumn c
  | .dropColumn _ _ => False

/-- What the changes say. -/
inductive SaysAlter (t : Table) : AlterS → AlterTable → Prop
  | renameTo {u : Str} : SaysAlter t (.renameTo u) { table := t, renameTo := some (writtenTable u) }
  | renameColumn {a b : Str} : SaysAlter t (.renameColumn a b) { table := t, renameColumnFrom := some { name := a }, renameColumnTo := some { name := b } }
  | addIndex {n c : Str} {cs : List Str} : SaysAlter t (.addIndex n c cs)
      { table := t, addIndex := some { name := plainName n, typ := .secondary, columns := (c :: cs).map writtenColumn } }
  | addKey {c : Str} {cs : List Str} {n : Str} : SaysAlter t (.addKey c cs)
      { table := t, addIndex := some { name := n, typ := .primary, columns := (c :: cs).map writtenColumn } }
  | addColumn {c : ColS} {x : Column} : ReportsColumn c x → SaysAlter t (.addColumn c) { table := t, addColumn := some x }

/-- The table of ALTER TABLE. -/
inductive SaysTarget : TabS → Table → Prop
  | plain {n : Str} : Name n → SaysTarget ⟨none, n⟩ { name := n }
  | ofSchema {s n : Str} : GoodName s → Name n → SaysTarget ⟨some s, n⟩ { schema := plainName s, name := n }

end Verif.Spec
