import Verif.Spec.Dml
import Verif.Spec.Types
/-! CREATE TABLE as it is written: definitions of columns and keys as tokens. -/
namespace Verif.Spec
open Verif Verif.Lex Verif.Query

/-- The characters that are taken off the ends of a name. -/
def nameQuotes : List Char := ['\'', '`', '(', ')']

/-- `n` is `x` without the quotes and parentheses around it. -/
def BareName (x n : Str) : Prop :=
  ∃ a b, x = a ++ n ++ b ∧ (∀ c, c ∈ a → c ∈ nameQuotes) ∧ (∀ c, c ∈ b → c ∈ nameQuotes) ∧
    (∀ c r, n = c :: r → c ∉ nameQuotes) ∧ ∀ c r, n = r ++ [c] → c ∉ nameQuotes

/-- The tokens of a name: one token, or a name in parentheses. -/
inductive NameTokens : List Token → Prop
  | one (t : Token) (h : t.kind ∉ [.OPEN_PAR, .CLOSE_PAR, .COMMA, .DOT, .SCOL, .NUMERIC_LITERAL]) : NameTokens [t]
  | paren (o c : Token) (n : List Token) (ho : o.kind = .OPEN_PAR) (hc : c.kind = .CLOSE_PAR) (hn : NameTokens n) : NameTokens (o :: (n ++ [c]))

/-- Names, one after the other. -/
inductive WordTokens : List Token → List Str → Prop
  | nil : WordTokens [] []
  | cons (n ts : List Token) (ws : List Str) (hn : NameTokens n) (h : WordTokens ts ws) : WordTokens (n ++ ts) (textOf n :: ws)

/-- A number, with or without a sign. -/
inductive NumTokens : List Token → Prop
  | plain (n : Token) (hn : n.kind = .NUMERIC_LITERAL) : NumTokens [n]
  | signed (s n : Token) (hs : s.kind ∈ [.PLUS, .MINUS]) (hn : n.kind = .NUMERIC_LITERAL) : NumTokens [s, n]

/-- The numbers in parentheses behind the name of a type. -/
inductive SizeTokens : List Token → List Str → Prop
  | none : SizeTokens [] []
  | one (o c : Token) (n : List Token) (ho : o.kind = .OPEN_PAR) (hc : c.kind = .CLOSE_PAR) (hn : NumTokens n) :
      SizeTokens (o :: (n ++ [c])) [textOf n]
  | two (o k c : Token) (n m : List Token) (ho : o.kind = .OPEN_PAR) (hk : k.kind = .COMMA) (hc : c.kind = .CLOSE_PAR) (hn : NumTokens n)
      (hm : NumTokens m) : SizeTokens (o :: (n ++ k :: (m ++ [c]))) [textOf n, textOf m]

/-- The name of a constraint, or nothing. -/
def ConName (ts : List Token) : Prop := ts = [] ∨ ∃ w n, ts = w :: n ∧ w.kind = .CONSTRAINT_ ∧ NameTokens n

/-- The constraints of a column, and how many of them are PRIMARY KEY. -/
inductive ConTokens : List Token → Nat → Prop
  | nil : ConTokens [] 0
  | key (pre tail more : List Token) (p k : Token) (n : Nat) (hpre : ConName pre) (hp : p.kind = .PRIMARY_) (hk : k.kind = .KEY_)
      (ht : FirstIn [.ASC_, .DESC_, .ON_, .AUTOINCREMENT_] tail) (hm : ConTokens more n) :
      ConTokens (pre ++ p :: k :: (tail ++ more)) (n + 1)
  | other (pre tail more : List Token) (x : Token) (n : Nat) (hpre : ConName pre)
      (hx : x.kind ∈ [.INDEX_, .NOT_, .NULL_, .UNIQUE_, .CHECK_, .DEFAULT_, .COLLATE_, .REFERENCES_, .GENERATED_, .AS_])
      (hb : Balanced tail) (hm : ConTokens more n) : ConTokens (pre ++ x :: (tail ++ more)) n

/-- The definition of a column as it is written. -/
structure Def where
  /-- The text of the name. -/
  name : Str
  /-- The words of the type. -/
  words : List Str
  /-- The numbers of the type. -/
  sizes : List Str
  /-- The number of PRIMARY KEY constraints. -/
  keys : Nat

/-- The tokens of a definition: a name, a type, constraints. -/
def DefTokens (ts : List Token) (d : Def) : Prop :=
  ∃ n w s c, ts = n ++ (w ++ (s ++ c)) ∧ NameTokens n ∧ d.name = textOf n ∧ WordTokens w d.words ∧ SizeTokens s d.sizes ∧
    (d.words = [] → d.sizes = []) ∧ ConTokens c d.keys

/-- The word is a name of the type. -/
def TypeWord (w : Str) (t : DataType) : Prop := t.toStr ≠ [] ∧ (SameName w t.toStr ∨ SameName w (noSpaces t.toStr))

/-- The type of a column: named by the first word; a length is taken only from one number behind one word. -/
inductive TypeWritten : List Str → List Str → ColumnDef → Prop
  | plain (w : Str) (ws sizes : List Str) (t : DataType) (h : TypeWord w t) (hs : sizes = [] ∨ ws ≠ []) :
      TypeWritten (w :: ws) sizes { typ := t, length := -1 }
  | sized (w n : Str) (v : Int) (t : DataType) (h : TypeWord w t) (hv : IntNumber n v) : TypeWritten [w] [n] { typ := t, length := v }
  | pair (w n m : Str) : TypeWritten [w] [n, m] { typ := .unknown, length := 0 }
  | number (w n : Str) (hv : ∀ v, ¬ IntNumber n v) : TypeWritten [w] [n] { typ := .unknown, length := 0 }
  | noType (w : Str) (ws sizes : List Str) (h : ∀ t, ¬ TypeWord w t) : TypeWritten (w :: ws) sizes { typ := .unknown, length := 0 }

/-- The type and length in a list of tokens: the first one names the type; with at least three behind it, the third is the
length if there is an opening parenthesis before it, or a closing one behind it. -/
inductive DefWritten : List Str → ColumnDef → Prop
  | short (w : Str) (rest : List Str) (t : DataType) (h : TypeWord w t) (hl : rest.length < 3) : DefWritten (w :: rest) { typ := t, length := -1 }
  | plain (w a n b : Str) (rest : List Str) (t : DataType) (h : TypeWord w t) (ha : a ≠ s%"(") (hb : b ≠ s%")") :
      DefWritten (w :: a :: n :: b :: rest) { typ := t, length := -1 }
  | sized (w a n b : Str) (rest : List Str) (t : DataType) (v : Int) (h : TypeWord w t) (hp : a = s%"(" ∨ b = s%")") (hv : IntNumber n v) :
      DefWritten (w :: a :: n :: b :: rest) { typ := t, length := v }

/-- The words that begin a constraint or a key. -/
def reserved : List Str := [s%"PRIMARY", s%"KEY", s%"UNIQUE", s%"INDEX", s%"CONSTRAINT"]

/-- The column that a definition declares. Without a type, and with one of the words that begin a constraint as its
name, it declares none. -/
inductive Declared (d : Def) : Option Column → Prop
  | untyped (h : d.words = []) : Declared d none
  | word (n k : Str) (hn : BareName d.name n) (hk : k ∈ reserved) (h : SameName n k) : Declared d none
  | col (n : Str) (t : ColumnDef) (hn : BareName d.name n) (hk : ∀ k, k ∈ reserved → ¬ SameName n k) (ht : TypeWritten d.words d.sizes t) :
      Declared d (some { name := n, def_ := some t })

/-- The first column with the name. -/
def FirstNamed (cols : List Column) (w : Str) (c : Column) : Prop :=
  ∃ n p s, BareName w n ∧ cols = p ++ c :: s ∧ SameName c.name n ∧ ∀ x, x ∈ p → ¬ SameName x.name n

/-- The primary key on some columns. -/
def primaryOn (cs : List Column) : Index := { name := Str.join s%"_" (cs.map (·.name)), typ := .primary, columns := cs }

/-- The key that is written like a definition: `PRIMARY KEY (c)`, `KEY i (c)` or `INDEX i (c)`, with the columns
declared so far. Other definitions that begin with one of these words can be a key on a column that they name. -/
inductive KeyDef (cols : List Column) (d : Def) : Option Index → Prop
  | no (h : d.name ∉ [s%"PRIMARY", s%"KEY", s%"INDEX"]) : KeyDef cols d none
  | primary (w : Str) (ws : List Str) (c : Column) (h : d.name = s%"PRIMARY") (hw : d.words = s%"KEY" :: w :: ws) (hc : FirstNamed cols w c) :
      KeyDef cols d (some (primaryOn [c]))
  | key (n w i : Str) (ws : List Str) (c : Column) (h : d.name ∈ [s%"KEY", s%"INDEX"]) (hw : d.words = n :: w :: ws) (hi : BareName n i)
      (hc : FirstNamed cols w c) : KeyDef cols d (some { name := i, typ := .secondary, columns := [c] })
  | other (o : Option Index) (h : d.name ∈ [s%"PRIMARY", s%"KEY", s%"INDEX"])
      (h1 : d.name = s%"PRIMARY" → ∀ w ws c, d.words = s%"KEY" :: w :: ws → ¬ FirstNamed cols w c)
      (h2 : d.name ≠ s%"PRIMARY" → ∀ n w ws c, d.words = n :: w :: ws → ¬ FirstNamed cols w c)
      (ho : ∀ i, o = some i → ∃ c w, w ∈ d.words ∧ FirstNamed cols w c ∧ i.columns = [c] ∧
        (i = primaryOn [c] ∧ d.name = s%"PRIMARY" ∨
          i.typ = .secondary ∧ d.name ≠ s%"PRIMARY" ∧ (i.name = [] ∨ ∃ n, n ∈ d.words ∧ BareName n i.name))) : KeyDef cols d o

/-- The columns and keys of a list of definitions, given the columns so far. -/
inductive Built : List Column → List Def → List Column → List Index → Prop
  | nil (cols : List Column) : Built cols [] cols []
  | cons (cols : List Column) (d : Def) (ds : List Def) (o : Option Column) (k : Option Index) (all : List Column) (is : List Index)
      (ho : Declared d o) (hk : KeyDef (cols ++ o.toList) d k) (h : Built (cols ++ o.toList) ds all is) :
      Built cols (d :: ds) all (o.toList.flatMap (fun c => List.replicate d.keys (primaryOn [c])) ++ k.toList ++ is)

/-- A column of a key: its name, with no type. -/
def KeyColumn (ts : List Token) (c : Column) : Prop :=
  ∃ n tail m, ts = n ++ tail ∧ NameTokens n ∧ FirstIn [.COLLATE_, .ASC_, .DESC_] tail ∧ BareName (textOf n) m ∧
    c = { name := m, def_ := some { typ := .unknown, length := 0 } }

/-- A constraint of the table: PRIMARY KEY with its columns, or another one, which is not reported. -/
inductive TableCon : List Token → Option Index → Prop
  | key (pre : List Token) (p k o : Token) (body : List Token) (c : Token) (tail : List Token) (cs : List Column) (hpre : ConName pre)
      (hp : p.kind = .PRIMARY_) (hk : k.kind = .KEY_) (ho : o.kind = .OPEN_PAR) (hc : c.kind = .CLOSE_PAR) (hb : Sep KeyColumn body cs)
      (ht : FirstIn [.ON_] tail) : TableCon (pre ++ p :: k :: o :: (body ++ c :: tail)) (some (primaryOn cs))
  | other (pre : List Token) (x : Token) (rest : List Token) (hpre : ConName pre) (hx : x.kind ∈ [.UNIQUE_, .CHECK_, .FOREIGN_]) :
      TableCon (pre ++ x :: rest) none

/-- An element of CREATE TABLE. -/
inductive Element
  /-- A definition. -/
  | column (d : Def)
  /-- A constraint of the table. -/
  | con (o : Option Index)

/-- The tokens of an element. -/
inductive ElementTokens : List Token → Element → Prop
  | column (ts : List Token) (d : Def) (h : DefTokens ts d) : ElementTokens ts (.column d)
  | con (ts : List Token) (o : Option Index) (h : TableCon ts o) : ElementTokens ts (.con o)

/-- The columns and keys are those of the elements between the parentheses; CREATE TABLE … AS has none. -/
def BodyWritten (rest : List Token) (cols : List Column) (is : List Index) : Prop :=
  (∃ a sel, rest = a :: sel ∧ a.kind = .AS_ ∧ cols = [] ∧ is = []) ∨
  ∃ o body c opts ks, ∃ ds : List Def, ∃ os : List (Option Index), rest = o :: (body ++ c :: opts) ∧ o.kind = .OPEN_PAR ∧ c.kind = .CLOSE_PAR ∧
    Sep ElementTokens body (ds.map .column ++ os.map .con) ∧ ds ≠ [] ∧ Built [] ds cols ks ∧ is = ks ++ os.filterMap id ∧
    FirstIn [.WITHOUT_, .WITH_, .ENGINE_] opts

/-- A CREATE TABLE has the table written, the columns and keys written, and says whether IF NOT EXISTS is written. -/
def CreateTableWritten (own : List Token) (s : Statement) : Prop :=
  ∀ sch b, s = .createTable sch b → ∃ w tmp t ine qual name rest, own = w :: (tmp ++ t :: (ine ++ (qual ++ (name ++ rest)))) ∧
    w.kind = .CREATE_ ∧ (tmp = [] ∨ ∃ x, tmp = [x] ∧ x.kind ∈ [.TEMP_, .TEMPORARY_]) ∧ t.kind = .TABLE_ ∧
    (b = false ∧ ine = [] ∨ b = true ∧ ine.map (·.kind) = [.IF_, .NOT_, .EXISTS_]) ∧
    (qual = [] ∨ ∃ n d, qual = n ++ [d] ∧ NameTokens n ∧ d.kind = .DOT) ∧ NameTokens name ∧ BareName (textOf name) sch.table.name ∧
    sch.table.schema = [] ∧ BodyWritten rest sch.columns sch.indexes

end Verif.Spec
