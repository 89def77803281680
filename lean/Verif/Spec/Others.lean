import Verif.Spec.Table
/-! The other statements as they are written, token by token. -/
namespace Verif.Spec
open Verif Verif.Lex Verif.Query

/-- IF NOT EXISTS, or nothing. -/
def IfNotExists (ts : List Token) (b : Bool) : Prop := b = false ∧ ts = [] ∨ b = true ∧ ts.map (·.kind) = [.IF_, .NOT_, .EXISTS_]

/-- IF EXISTS, or nothing. -/
def IfExists (ts : List Token) (b : Bool) : Prop := b = false ∧ ts = [] ∨ b = true ∧ ts.map (·.kind) = [.IF_, .EXISTS_]

/-- A schema name and a dot, or nothing; `s` is the name without quotes, or empty. -/
def SchemaTokens (ts : List Token) (s : Str) : Prop := ts = [] ∧ s = [] ∨ ∃ n d, ts = n ++ [d] ∧ NameTokens n ∧ d.kind = .DOT ∧ BareName (textOf n) s

/-- A name that is reported without its quotes. -/
def BareTokens (ts : List Token) (n : Str) : Prop := NameTokens ts ∧ BareName (textOf ts) n

/-- A name that is reported as it is written. -/
def RawTokens (ts : List Token) (n : Str) : Prop := NameTokens ts ∧ n = textOf ts

/-- One token of one of the kinds, or nothing. -/
def Maybe (ks : List Tok) (ts : List Token) : Prop := ts = [] ∨ ∃ t, ts = [t] ∧ t.kind ∈ ks

/-- A column of an index. -/
def IndexColumn (ts : List Token) (c : Column) : Prop :=
  ∃ n tail m, ts = n ++ tail ∧ BareTokens n m ∧ FirstIn [.COLLATE_, .ASC_, .DESC_] tail ∧ c = { name := m }

/-- `n` is `x` without the quotation marks around it. -/
def Unquoted (x n : Str) : Prop :=
  ∃ a b, x = a ++ n ++ b ∧ (∀ c, c ∈ a → c ∈ ['\'', '"']) ∧ (∀ c, c ∈ b → c ∈ ['\'', '"']) ∧
    (∀ c r, n = c :: r → c ∉ ['\'', '"']) ∧ ∀ c r, n = r ++ [c] → c ∉ ['\'', '"']

/-- The columns of COPY, or nothing. -/
def CopyColumns (ts : List Token) (cs : List Column) : Prop :=
  ts = [] ∧ cs = [] ∨ ∃ o body c, ts = o :: (body ++ [c]) ∧ o.kind = .OPEN_PAR ∧ c.kind = .CLOSE_PAR ∧
    Sep (fun ts c => ∃ n, NameTokens ts ∧ Unquoted (textOf ts) n ∧ c = { name := n }) body cs

/-- The format of COPY; without one it is text. -/
inductive FormatTokens : List Token → CopyFormat → Prop
  | none : FormatTokens [] .text
  | text (f : List Token) (t : Token) (hf : Maybe [.FORMAT_] f) (ht : t.kind = .TEXT_) : FormatTokens (f ++ [t]) .text
  | csv (f : List Token) (t : Token) (hf : Maybe [.FORMAT_] f) (ht : t.kind = .CSV_) : FormatTokens (f ++ [t]) .csv
  | binary (f : List Token) (t : Token) (hf : Maybe [.FORMAT_] f) (ht : t.kind = .BINARY_) : FormatTokens (f ++ [t]) .binary

/-- The index that ADD adds: INDEX with its name, PRIMARY KEY without one, or another constraint. -/
inductive AddIndexTokens : List Token → List Column → Index → Prop
  | index (pre : List Token) (i : Token) (n : List Token) (m : Str) (cs : List Column) (hpre : ConName pre) (hi : i.kind = .INDEX_) (hn : BareTokens n m) :
      AddIndexTokens (pre ++ i :: n) cs { name := m, typ := .secondary, columns := cs }
  | primary (pre : List Token) (p k : Token) (tail : List Token) (cs : List Column) (hpre : ConName pre) (hp : p.kind = .PRIMARY_) (hk : k.kind = .KEY_)
      (ht : FirstIn [.ASC_, .DESC_, .ON_, .AUTOINCREMENT_] tail) : AddIndexTokens (pre ++ p :: k :: tail) cs { name := [], typ := .primary, columns := cs }
  | other (pre : List Token) (x : Token) (tail : List Token) (cs : List Column) (hpre : ConName pre)
      (hx : x.kind ∈ [.NOT_, .NULL_, .UNIQUE_, .CHECK_, .DEFAULT_, .COLLATE_, .REFERENCES_, .GENERATED_, .AS_]) :
      AddIndexTokens (pre ++ x :: tail) cs { name := [], typ := .unknown, columns := cs }

/-- The change of an ALTER TABLE. A dropped column is reported by the text of the whole clause. -/
inductive ChangeTokens (t : Table) : List Token → AlterTable → Prop
  | rename (r o : Token) (n : List Token) (m : Str) (hr : r.kind = .RENAME_) (ho : o.kind = .TO_) (hn : BareTokens n m) :
      ChangeTokens t (r :: o :: n) { table := t, renameTo := some { name := m } }
  | renameColumn (r : Token) (c a : List Token) (o : Token) (b : List Token) (hr : r.kind = .RENAME_) (hc : Maybe [.COLUMN_] c) (ha : NameTokens a)
      (ho : o.kind = .TO_) (hb : NameTokens b) :
      ChangeTokens t (r :: (c ++ (a ++ o :: b))) { table := t, renameColumnFrom := some { name := textOf a }, renameColumnTo := some { name := textOf b } }
  | addColumn (w : Token) (c ts : List Token) (d : Def) (o : Option Column) (hw : w.kind = .ADD_) (hc : Maybe [.COLUMN_] c) (hd : DefTokens ts d)
      (ho : Declared d o) : ChangeTokens t (w :: (c ++ ts)) { table := t, addColumn := o }
  | addIndex (w : Token) (con : List Token) (o : Token) (body : List Token) (c : Token) (cs : List Column) (i : Index) (hw : w.kind = .ADD_)
      (ho : o.kind = .OPEN_PAR) (hc : c.kind = .CLOSE_PAR) (hb : Sep (fun ts c => ∃ n, BareTokens ts n ∧ c = { name := n }) body cs)
      (hi : AddIndexTokens con cs i) : ChangeTokens t (w :: (con ++ o :: (body ++ [c]))) { table := t, addIndex := some i }
  | dropColumn (w : Token) (c n : List Token) (hw : w.kind = .DROP_) (hc : Maybe [.COLUMN_] c) (hn : NameTokens n) :
      ChangeTokens t (w :: (c ++ n)) { table := t, dropColumn := some { name := textOf (w :: (c ++ n)) } }

/-- The statements with properties of their own. -/
inductive Elsewhere : Statement → Prop
  | createTable (s : Schema) (b : Bool) : Elsewhere (.createTable s b)
  | insert (i : Insert) : Elsewhere (.insert i)
  | select (s : Select) : Elsewhere (.select s)
  | update (u : Update) : Elsewhere (.update u)
  | delete (d : Delete) : Elsewhere (.delete d)

/-- A statement that says what the tokens say. -/
inductive Written : List Token → Statement → Prop
  | elsewhere (own : List Token) (s : Statement) (h : Elsewhere s) : Written own s
  | createDatabase (w d : Token) (ine n : List Token) (x : Str) (b : Bool) (hw : w.kind = .CREATE_) (hd : d.kind = .DATABASE_) (hi : IfNotExists ine b)
      (hn : RawTokens n x) : Written (w :: d :: (ine ++ n)) (.createDatabase x b)
  | dropDatabase (w d : Token) (ie n : List Token) (x : Str) (b : Bool) (hw : w.kind = .DROP_) (hd : d.kind = .DATABASE_) (hi : IfExists ie b)
      (hn : RawTokens n x) : Written (w :: d :: (ie ++ n)) (.dropDatabase x b)
  | createIndex (w : Token) (u : List Token) (k : Token) (ine q n : List Token) (on : Token) (t : List Token) (o : Token) (body : List Token) (c : Token)
      (tail : List Token) (i x : Str) (cs : List Column) (b : Bool) (hw : w.kind = .CREATE_) (hu : Maybe [.UNIQUE_] u) (hk : k.kind = .INDEX_)
      (hi : IfNotExists ine b) (hq : ∃ s, SchemaTokens q s) (hn : BareTokens n i) (hon : on.kind = .ON_) (ht : BareTokens t x) (ho : o.kind = .OPEN_PAR)
      (hb : Sep IndexColumn body cs) (hc : c.kind = .CLOSE_PAR) (htail : FirstIn [.WHERE_] tail) :
      Written (w :: (u ++ k :: (ine ++ (q ++ (n ++ on :: (t ++ o :: (body ++ c :: tail)))))))
        (.createIndex { table := { name := x }, columns := [], indexes := [{ name := i, typ := .secondary, columns := cs }] } b)
  | dropTable (w t : Token) (ie q body cas : List Token) (ts : List Table) (b : Bool) (hw : w.kind = .DROP_) (ht : t.kind = .TABLE_) (hi : IfExists ie b)
      (hq : ∃ s, SchemaTokens q s) (hb : Sep (fun ts a => ∃ n, BareTokens ts n ∧ a = { name := n }) body ts) (hc : Maybe [.CASCADE_] cas) :
      Written (w :: t :: (ie ++ (q ++ (body ++ cas)))) (.dropTable ts b)
  | dropIndex (w t : Token) (ie q n : List Token) (s i : Str) (b : Bool) (hw : w.kind = .DROP_) (ht : t.kind = .INDEX_) (hi : IfExists ie b)
      (hq : SchemaTokens q s) (hn : BareTokens n i) : Written (w :: t :: (ie ++ (q ++ n))) (.dropIndex s i b)
  | alterDatabase (w d : Token) (q n : List Token) (r o : Token) (m : List Token) (x y : Str) (hw : w.kind = .ALTER_) (hd : d.kind = .DATABASE_)
      (hq : ∃ s, SchemaTokens q s) (hn : RawTokens n x) (hr : r.kind = .RENAME_) (ho : o.kind = .TO_) (hm : RawTokens m y) :
      Written (w :: d :: (q ++ (n ++ r :: o :: m))) (.alterDatabase x y)
  | alterTable (w t : Token) (q n change : List Token) (s x : Str) (a : AlterTable) (hw : w.kind = .ALTER_) (ht : t.kind = .TABLE_) (hq : SchemaTokens q s)
      (hn : RawTokens n x) (hc : ChangeTokens { schema := s, name := x } change a) : Written (w :: t :: (q ++ (n ++ change))) (.alterTable a)
  | use (w : Token) (n : List Token) (x : Str) (hw : w.kind = .USE_) (hn : RawTokens n x) : Written (w :: n) (.use x)
  | truncate (w : Token) (t body : List Token) (ts : List Table) (hw : w.kind = .TRUNCATE_) (ht : Maybe [.TABLE_] t)
      (hb : Sep (fun ts a => ∃ n, RawTokens ts n ∧ a = { name := n }) body ts) : Written (w :: (t ++ body)) (.truncate ts)
  | vacuumAll (w : Token) (a tail : List Token) (hw : w.kind = .VACUUM_) (ha : Maybe [.ANALYZE_] a) (ht : FirstIn [.INTO_] tail) :
      Written (w :: (a ++ tail)) (.vacuum none)
  | vacuum (w : Token) (a n tail : List Token) (x : Str) (hw : w.kind = .VACUUM_) (ha : Maybe [.ANALYZE_] a) (hn : RawTokens n x) (ht : FirstIn [.INTO_] tail) :
      Written (w :: (a ++ (n ++ tail))) (.vacuum (some { name := x }))
  | copy (w : Token) (t cols : List Token) (f : Token) (s wth fmt : List Token) (c : Copy) (hw : w.kind = .COPY_) (ht : t ≠ []) (htn : Unquoted (textOf t) c.table.name)
      (hts : c.table.schema = []) (hc : CopyColumns cols c.columns) (hf : f.kind = .FROM_) (hs : NameTokens s) (hsn : Unquoted (textOf s) c.source)
      (hwth : Maybe [.WITH_] wth) (hfmt : FormatTokens fmt c.format) : Written (w :: (t ++ (cols ++ f :: (s ++ (wth ++ fmt))))) (.copy c)
  | begin (w : Token) (rest : List Token) (hw : w.kind = .BEGIN_) (hr : FirstIn [.DEFERRED_, .IMMEDIATE_, .EXCLUSIVE_, .TRANSACTION_] rest) : Written (w :: rest) .begin
  | commit (w : Token) (rest : List Token) (hw : w.kind ∈ [.COMMIT_, .END_]) (hr : Maybe [.TRANSACTION_] rest) : Written (w :: rest) .commit
  | rollback (w : Token) (rest : List Token) (hw : w.kind = .ROLLBACK_) (hr : FirstIn [.TRANSACTION_, .TO_] rest) : Written (w :: rest) .rollback

end Verif.Spec
