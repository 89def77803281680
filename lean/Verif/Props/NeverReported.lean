import Verif.Props.ReadBack
import Verif.Props.Prepared
/-! C179: strings that no query reports. -/
namespace Verif.Props
open Verif Verif.Lex Verif.Gram Verif.Query Verif.Parse Verif.Spec

/-- The literal is compared with in the condition. -/
inductive InCond : Expr → Literal → Prop
  | cmp {c : Cmp} {l : Literal} : c.right = some l → InCond (.cmp c) l
  | andLeft {a b : Expr} {l : Literal} : InCond a l → InCond (.and a b) l
  | andRight {a b : Expr} {l : Literal} : InCond b l → InCond (.and a b) l
  | orLeft {a b : Expr} {l : Literal} : InCond a l → InCond (.or a b) l
  | orRight {a b : Expr} {l : Literal} : InCond b l → InCond (.or a b) l

/-- The literal is a value of the statement: in its condition, in a row or in an assignment. -/
inductive ValueOf : Statement → Literal → Prop
  | cond {s : Statement} {e : Expr} {l : Literal} : condOf s = some e → InCond e l → ValueOf s l
  | row {i : Insert} {r : List Column} {c : Column} {l : Literal} : r ∈ i.values → c ∈ r → c.lit = some l → ValueOf (.insert i) l
  | set {u : Update} {c : Column} {l : Literal} : c ∈ u.columns → c.lit = some l → ValueOf (.update u) l

theorem cmp_lit {ts : List Token} {c : Cmp} {l : Literal} (h : ∀ t ∈ ts, Lexed t) (hc : CmpTokens ts c) (hl : InCond (.cmp c) l) : PrintableLit l := by
  obtain ⟨n, o, v, op, lit, rfl, -, -, -, -, ht, rfl⟩ := hc
  cases hl with
  | cmp hr =>
    cases hr
    exact (litTokens_printable (fun t ht => h t (by simp [ht])) ht).1

theorem cond_lit {ts : List Token} {e : Expr} {l : Literal} (h : ∀ t ∈ ts, Lexed t) (hc : CondTokens ts e) (hl : InCond e l) : PrintableLit l := by
  cases hc with
  | one _ c hc => exact cmp_lit h hc hl
  | and a b w x y hw ha hb =>
    cases hl with
    | andLeft hl => exact cmp_lit (fun t ht => h t (by simp [ht])) ha hl
    | andRight hl => exact cmp_lit (fun t ht => h t (by simp [ht])) hb hl
  | or a b w x y hw ha hb =>
    cases hl with
    | orLeft hl => exact cmp_lit (fun t ht => h t (by simp [ht])) ha hl
    | orRight hl => exact cmp_lit (fun t ht => h t (by simp [ht])) hb hl

/-- C179: every value of every reported statement is a text the printer and the parser agree on; for a string, its quotes
come in pairs and it neither begins nor ends with a quote character. -/
theorem C179_values (toUint : Str → Option Nat) (q : Str) (ss : List Statement) (h : parseQuery toUint q = .ok ss) (s : Statement) (hs : s ∈ ss)
    (l : Literal) (hl : ValueOf s l) : PrintableLit l := by
  have sub : ∀ {P : List Token → Statement → Prop}, (∃ toks, Writes q toks ∧ Pieces P toks ss) → ∃ own, (∀ t ∈ own, Lexed t) ∧ P own s := by
    rintro P ⟨toks, h1, h2⟩
    obtain ⟨own, h3, h4⟩ := pieces_mem h2 s hs
    exact ⟨own, fun t ht => writes_lexed h1 t (h3 t ht), h4⟩
  cases hl with
  | cond he hi =>
    obtain ⟨own, ho, hw⟩ := sub (C130_where toUint q ss h)
    obtain ⟨b, w, c, a, rfl, -, -, ht, -⟩ := hw _ he
    exact cond_lit (fun t ht => ho t (by simp [ht])) ht hi
  | @row i r c l hr hc he =>
    obtain ⟨own, ho, hw⟩ := sub (C133_insert_partial toUint q ss h)
    obtain ⟨wth, kw, into, sch, tbl, als, ns, w, rows, tail, names, rfl, -, -, -, -, -, -, hsch, -, -, -, hrows, -⟩ := hw i rfl
    obtain ⟨us, hus, o, body, cl, items, rfl, -, -, hit, rfl⟩ := hrows.mem_sub r hr
    have hbody : ∀ t ∈ body, Lexed t := fun t ht => ho t (by have := hus t (by simp [ht]); simp [this])
    obtain ⟨n, l', rfl, hm⟩ := pairUp_mem c hc
    cases he
    rcases hm with hm | ⟨m, hm⟩
    · obtain ⟨vs, hvs, ht⟩ := hit.mem_sub _ hm
      cases ht with
      | lit _ ht => exact (litTokens_printable (fun t ht => hbody t (hvs t ht)) ht).1
    · obtain ⟨vs, hvs, ht⟩ := hit.mem_sub _ hm
      cases ht with
      | named op _ _ ht =>
        obtain ⟨a, o, b, op', lit, rfl, -, -, -, -, ht, he⟩ := ht
        cases he
        exact (litTokens_printable (fun t ht => hbody t (hvs t (by simp [ht]))) ht).1
  | @set u c l hc he =>
    obtain ⟨own, ho, hw⟩ := sub (C132_update_partial toUint q ss h)
    obtain ⟨wth, w, alt, tbl, st, body, tail, rfl, -, -, -, -, ht, -, hb, -⟩ := hw u rfl
    obtain ⟨us, hus, hset⟩ := hb.mem_sub c hc
    cases hset with
    | lit n o v l' _ hn hno hlt =>
      cases he
      exact (litTokens_printable (fun t ht => ho t (by have := hus t (by simp [ht]); simp [this])) hlt).1
    | arith => cases he
    | lost => cases he

/-- C179 fails for every string with a quote that is not doubled, and for every string that begins or ends with a quote character:
a statement with such a value is never reported, for no query text, so for none that binding gives. -/
theorem C179_never_fails (toUint : Str → Option Nat) (t : Statement) (v : Str) (hv : ¬ (QuotesPaired v ∧ BareEnds v))
    (ht : ValueOf t { v := .str v, t := .string }) (text : Str) (ss : List Statement) (h : parseQuery toUint text = .ok ss) : t ∉ ss :=
  fun hs => hv (C179_values toUint text ss h t hs _ ht)

example : ValueOf (.delete { table := { name := s%"t" }, cond := some (isString s%"a" s%"O'Brien") }) { v := .str s%"O'Brien", t := .string } ∧
    ¬ (QuotesPaired s%"O'Brien" ∧ BareEnds s%"O'Brien") := by
  refine ⟨.cond rfl (.cmp rfl), fun h => ?_⟩
  cases h.1 with
  | char _ _ _ h => cases h with | char _ _ hc _ => exact hc rfl

end Verif.Props
