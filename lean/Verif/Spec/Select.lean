import Verif.Spec.Dml
import Verif.Spec.Query
import Verif.Spec.Functions
/-! SELECT as it is written: result columns, tables, grouping, ordering and limit as tokens. -/
namespace Verif.Spec
open Verif Verif.Lex Verif.Query

/-- The tokens between the parentheses of a function call. -/
inductive ArgTokens : List Token → List Str → Prop
  | none : ArgTokens [] []
  | star (t : Token) (h : t.kind = .STAR) : ArgTokens [t] [t.text]
  | list (d ts : List Token) (args : List Str) (hd : d = [] ∨ ∃ t, d = [t] ∧ t.kind = .DISTINCT_) (h : Sep (fun ts a => a = textOf ts) ts args) :
      ArgTokens (d ++ ts) args

/-- The type of a function: that of the documented function with exactly this name, in upper case. -/
def TypeNamed (w : Str) (t : Fn.FnType) : Prop := (w, t) ∈ documented ∨ t = .unknown ∧ ∀ t', (w, t') ∉ documented

/-- The tokens of the name of a function: one token, or tokens in parentheses. -/
def CallName (n : List Token) : Prop :=
  (∃ t, n = [t]) ∨ ∃ o r c, n = o :: (r ++ [c]) ∧ o.kind = .OPEN_PAR ∧ c.kind = .CLOSE_PAR

/-- A name, parentheses, and then nothing or an alias. -/
def PlainCall (ts : List Token) : Prop :=
  ∃ n o body c rest, ts = n :: o :: (body ++ c :: rest) ∧ n.kind = .IDENTIFIER ∧ o.kind = .OPEN_PAR ∧ c.kind = .CLOSE_PAR ∧ Balanced body ∧
    FirstIn [.AS_, .IDENTIFIER, .STRING_LITERAL] rest

/-- The tokens of a result column: a function call, perhaps with FILTER, OVER or an alias behind it, or anything that is
not plainly a call, which becomes a column that is named by all of its text. -/
inductive SelTokens : List Token → Selector → Prop
  | col (ts : List Token) (h : ¬ PlainCall ts) : SelTokens ts (.col { name := textOf ts })
  | call (n : List Token) (o : Token) (body : List Token) (c : Token) (rest : List Token) (f : Function) (hn : CallName n) (ho : o.kind = .OPEN_PAR)
      (hc : c.kind = .CLOSE_PAR) (hb : Balanced body) (hr : FirstIn [.FILTER_, .OVER_, .AS_, .IDENTIFIER, .STRING_LITERAL] rest)
      (ha : ArgTokens body f.args) (hf : f.name = Str.upper (textOf n)) (ht : TypeNamed (textOf n) f.typ) (he : f.executor = none)
      (hg : f.aggregator = none) : SelTokens (n ++ o :: (body ++ c :: rest)) (.fn f)

/-- The tokens of an element of FROM: a table, with the schema written before a point, or something with parentheses that
is not reported. -/
inductive FromTokens : List Token → Option Table → Prop
  | table (ts : List Token) : FromTokens ts (some { name := textOf ts })
  | schema (s : List Token) (d : Token) (r : List Token) (hd : d.kind = .DOT) (hs : s ≠ []) (hr : r ≠ []) :
      FromTokens (s ++ d :: r) (some { schema := textOf s, name := textOf (s ++ d :: r) })
  | other (ts : List Token) (h : ∃ t, t ∈ ts ∧ t.kind = .OPEN_PAR) : FromTokens ts none

/-- JOIN, or ON or USING of a join, that is not in parentheses. -/
def JoinTokens (ts : List Token) : Prop :=
  ∃ a t b, ts = a ++ t :: b ∧ Balanced a ∧ t.kind ∈ [Tok.JOIN_, .ON_, .USING_]

/-- The FROM clause: no tables if there is none, if it is empty or if it is a join. -/
def FromWritten (ts : List Token) (tables : List Table) : Prop :=
  (ts = [] ∧ tables = []) ∨ ∃ f r, ts = f :: r ∧ f.kind = .FROM_ ∧
    ((r = [] ∧ tables = []) ∨ (JoinTokens r ∧ tables = []) ∨ ∃ items, Sep FromTokens r items ∧ tables = items.filterMap id)

/-- The GROUP BY clause: the first expression. -/
def GroupWritten (ts : List Token) (g : Str) : Prop :=
  (ts = [] ∧ g = []) ∨ ∃ w b e rest, ts = w :: b :: (e ++ rest) ∧ w.kind = .GROUP_ ∧ b.kind = .BY_ ∧ Part e ∧ g = textOf e ∧
    FirstIn [.COMMA, .HAVING_] rest

/-- What is written before ORDER BY and LIMIT: VALUES, which is not reported, or SELECT with its clauses. -/
def CoreWritten (ts : List Token) (x : Select) : Prop :=
  ((∃ t r, ts = t :: r ∧ t.kind = .VALUES_) ∧ x.selectors = [] ∧ x.tables = [] ∧ x.groupBy = []) ∨
  ∃ w d cols frm whr grp win, ts = w :: (d ++ (cols ++ (frm ++ (whr ++ (grp ++ win))))) ∧ w.kind = .SELECT_ ∧
    (d = [] ∨ ∃ t, d = [t] ∧ t.kind ∈ [Tok.DISTINCT_, .ALL_]) ∧ Sep SelTokens cols x.selectors ∧ FromWritten frm x.tables ∧
    FirstIn [.WHERE_] whr ∧ GroupWritten grp x.groupBy ∧ FirstIn [.WINDOW_] win

/-- The tokens of an ordering term: an expression, and ASC or DESC; without them the term is not reported. -/
inductive TermTokens : List Token → Option Order → Prop
  | asc (e coll : List Token) (d : Token) (nulls : List Token) (he : Part e) (hc : FirstIn [.COLLATE_] coll) (hd : d.kind ∈ [Tok.ASC_, .DESC_])
      (ht : SameName d.text s%"ASC") (hn : FirstIn [.NULLS_] nulls) : TermTokens (e ++ (coll ++ d :: nulls)) (some { column := textOf e, order := .asc })
  | desc (e coll : List Token) (d : Token) (nulls : List Token) (he : Part e) (hc : FirstIn [.COLLATE_] coll) (hd : d.kind ∈ [Tok.ASC_, .DESC_])
      (ht : SameName d.text s%"DESC") (hn : FirstIn [.NULLS_] nulls) : TermTokens (e ++ (coll ++ d :: nulls)) (some { column := textOf e, order := .desc })
  | lost (e coll d nulls : List Token) (he : Part e) (hc : FirstIn [.COLLATE_] coll)
      (hd : d = [] ∨ ∃ t, d = [t] ∧ ¬ SameName t.text s%"ASC" ∧ ¬ SameName t.text s%"DESC") (hn : FirstIn [.NULLS_] nulls) :
      TermTokens (e ++ (coll ++ (d ++ nulls))) none

/-- The ORDER BY clause. -/
def OrderWritten (ts : List Token) (os : List Order) : Prop :=
  (ts = [] ∧ os = []) ∨ ∃ w b r items, ts = w :: b :: r ∧ w.kind = .ORDER_ ∧ b.kind = .BY_ ∧ Sep TermTokens r items ∧ os = items.filterMap id

/-- The LIMIT clause: the first number is the limit and the second, after OFFSET or a comma, the offset; what is not a
number is zero. -/
def LimitWritten (toUint : Str → Option Nat) (ts : List Token) (l : Limit) : Prop :=
  (ts = [] ∧ l = { offset := 0, limit := 0 }) ∨
  (∃ w a, ts = w :: a ∧ w.kind = .LIMIT_ ∧ Part a ∧ l = { offset := 0, limit := (toUint (textOf a)).getD 0 }) ∨
  ∃ w a c b, ts = w :: (a ++ c :: b) ∧ w.kind = .LIMIT_ ∧ c.kind ∈ [Tok.OFFSET_, .COMMA] ∧ Part a ∧ Part b ∧
    l = { offset := (toUint (textOf b)).getD 0, limit := (toUint (textOf a)).getD 0 }

/-- A SELECT is what is written. -/
def SelectWritten (toUint : Str → Option Nat) (own : List Token) (s : Statement) : Prop :=
  ∀ x, s = .select x → ∃ wth core comp ord lim, own = wth ++ (core ++ (comp ++ (ord ++ lim))) ∧ WithTokens wth ∧ Balanced core ∧ CoreWritten core x ∧
    FirstIn [.UNION_, .INTERSECT_, .EXCEPT_] comp ∧ OrderWritten ord x.orderBy ∧ LimitWritten toUint lim x.limit

end Verif.Spec
