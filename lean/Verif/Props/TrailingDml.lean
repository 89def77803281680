import Verif.Lemmas.MoreDml
import Verif.Props.TrailingTable
import Verif.Props.SelectRefused
/-! C188: names after SELECT, INSERT, UPDATE and DELETE statements. -/
namespace Verif.Spec
open Verif Verif.Query

/-- The SELECT has a condition, an ordering or a limit. -/
def HasClause (s : Select) : Prop := s.cond ≠ none ∨ s.orderBy ≠ [] ∨ s.limit ≠ { offset := 0, limit := 0 }

/-- Statements after which a name cannot stand. -/
inductive EndsHere : Statement → Prop
  | ddl {s : Statement} (h : PrintableDdl s) (hv : s ≠ .vacuum none) : EndsHere s
  | createTable {s : Schema} (b : Bool) (h : PrintableSchema (schemaRead s)) : EndsHere (.createTable s b)
  | rename {a : AlterTable} (h : PrintableAlter a) (hr : a.addColumn = none ∧ a.addIndex = none) : EndsHere (.alterTable a)
  | insert {i : Insert} (h : PrintableInsert i) : EndsHere (.insert i)
  | update {u : Update} (h : PrintableUpdate u) : EndsHere (.update u)
  | delete {d : Delete} (h : PrintableDelete d) : EndsHere (.delete d)
  | select {s : Select} (h : SelectParts s) (hf : ClausesFit s) (hg : s.groupBy = []) (hc : HasClause s) : EndsHere (.select s)
  | grouped {s : Select} (h : SelectParts s) (hg : s.groupBy ≠ []) (ho : s.orderBy = []) (hl : s.limit = { offset := 0, limit := 0 }) :
      EndsHere (.select s)

end Verif.Spec

namespace Verif.Props
open Verif Verif.Lex Verif.Gram Verif.Spec Verif.Query Verif.Parse

/-- C188 for INSERT statements. -/
theorem C188_insert (toUint : Str → Option Nat) (i : Insert) (h : PrintableInsert i) (n rest : Str) (hn : AnyName n)
    (hb : rest = [] ∨ ∃ r, rest = ' ' :: r) : parseQuery toUint (i.toStr ++ ' ' :: (n ++ rest)) = .err := by
  obtain ⟨I, hI, -⟩ := Writing.insert h
  obtain ⟨ts, hr⟩ := lx_any rest
  have hs : sepStart rest = true := by rcases hb with rfl | ⟨r, rfl⟩ <;> rfl
  have hl := hI _ _ rfl (Lx.space (Writing.anyName hn _ _ hs hr))
  refine parse_none toUint hl (query_no (Heads.kw (t := .INSERT_)) (by simp) (fun hq => ?_))
  simpa using insert_word_no (sp := .std) (rest := ts) I n hq

/-- C188 for DELETE statements, with a condition or without. -/
theorem C188_delete (toUint : Str → Option Nat) (d : Delete) (h : PrintableDelete d) (n rest : Str) (hn : AnyName n)
    (hb : rest = [] ∨ ∃ r, rest = ' ' :: r) : parseQuery toUint (d.toStr ++ ' ' :: (n ++ rest)) = .err := by
  obtain ⟨D, hD, -⟩ := Writing.delete h
  obtain ⟨ts, hr⟩ := lx_any rest
  have hs : sepStart rest = true := by rcases hb with rfl | ⟨r, rfl⟩ <;> rfl
  have hl := hD _ _ rfl (Lx.space (Writing.anyName hn _ _ hs hr))
  refine parse_none toUint hl (query_no (Heads.kw (t := .DELETE_)) (by simp) (fun hq => ?_))
  obtain ⟨t, c⟩ := D
  cases c with
  | none => simpa [DeleteS.toks, whereToks] using delete_word_no (sp := .std) (rest := ts) t n hq
  | some c =>
    have := delete_no (sp := .std) t (BadCond.word (sp := .std) (rest := ts) c n) hq
    simpa [DeleteS.toks, whereToks] using this

/-- C188 for UPDATE statements, with a condition or without. -/
theorem C188_update (toUint : Str → Option Nat) (u : Update) (h : PrintableUpdate u) (n rest : Str) (hn : AnyName n)
    (hb : rest = [] ∨ ∃ r, rest = ' ' :: r) : parseQuery toUint (u.toStr ++ ' ' :: (n ++ rest)) = .err := by
  obtain ⟨U, hU, -⟩ := Writing.update h
  obtain ⟨ts, hr⟩ := lx_any rest
  have hs : sepStart rest = true := by rcases hb with rfl | ⟨r, rfl⟩ <;> rfl
  have hl := hU _ _ rfl (Lx.space (Writing.anyName hn _ _ hs hr))
  refine parse_none toUint hl (query_no (Heads.kw (t := .UPDATE_)) (by simp) (fun hq => ?_))
  obtain ⟨t, a, as, c⟩ := U
  rw [UpdateS.toks, commas_map]
  cases c with
  | none => simpa [whereToks] using update_word_no (sp := .std) (rest := ts) t a as n hq
  | some c =>
    have := update_no (sp := .std) t a as (BadCond.word (sp := .std) (rest := ts) c n) hq
    simpa [whereToks] using this

/-- C188 for SELECT statements with a condition, an ordering or a limit. -/
theorem C188_select_partial (toUint : Str → Option Nat) (s : Select) (h : SelectParts s) (hf : ClausesFit s) (hg : s.groupBy = [])
    (hc : HasClause s) (n rest : Str) (hn : AnyName n) (hb : rest = [] ∨ ∃ r, rest = ' ' :: r) :
    parseQuery toUint (s.toStr ++ ' ' :: (n ++ rest)) = .err := by
  obtain ⟨i, is, T, c, hp, hcn⟩ := head_parts h
  obtain ⟨ts, hr⟩ := lx_any rest
  have hs : sepStart rest = true := by rcases hb with rfl | ⟨r, rfl⟩ <;> rfl
  have ht : Writing.Parts (tailWords s) (clauses s) := (order_parts h.orders).append ((limit_parts s.limit).append (group_parts h.group))
  have hw := Writing.spaces (hp.append ht) _ _ rfl (Lx.space (Writing.anyName hn _ _ hs hr))
  rw [← select_words] at hw
  obtain ⟨xs, e1, e2⟩ := order_toks hf.directions
  obtain ⟨l, e3, e4⟩ := limit_toks hf.offset
  have hcl : clauses s = ordersToks .std xs ++ l.toks .std := by rw [clauses, e1, e3, byToks, if_pos hg, List.append_nil]
  rw [hcl] at hw
  refine parse_none toUint hw (query_no (Heads.kw (t := .SELECT_)) (by simp) (fun hq => ?_))
  by_cases hx : xs ≠ [] ∨ l ≠ .none
  · have := select_tail_no (sp := .std) i is T c (BadTail.word (sp := .std) (rest := ts) xs l hx n) hq
    simpa using this
  · have hx1 : xs = [] := Classical.byContradiction fun h' => hx (.inl h')
    have hx2 : l = .none := Classical.byContradiction fun h' => hx (.inr h')
    cases c with
    | none =>
      rcases hc with h1 | h1 | h1
      · exact absurd (hcn rfl) h1
      · exact absurd (e2 hx1) h1
      · exact absurd (e4 hx2) h1
    | some c =>
      subst hx1; subst hx2
      have := select_no (sp := .std) i is T (BadCond.word (sp := .std) (rest := ts) c n) hq
      simpa [whereToks, ordersToks, LimitS.toks] using this

/-- C188 for SELECT statements with GROUP BY, which is printed last, without an ordering and a limit. -/
theorem C188_grouped (toUint : Str → Option Nat) (s : Select) (h : SelectParts s) (hg : s.groupBy ≠ []) (ho : s.orderBy = [])
    (hl : s.limit = { offset := 0, limit := 0 }) (n rest : Str) (hn : AnyName n) (hb : rest = [] ∨ ∃ r, rest = ' ' :: r) :
    parseQuery toUint (s.toStr ++ ' ' :: (n ++ rest)) = .err := by
  obtain ⟨i, is, T, c, hp, -⟩ := head_parts h
  obtain ⟨ts, hr⟩ := lx_any rest
  have hs : sepStart rest = true := by rcases hb with rfl | ⟨r, rfl⟩ <;> rfl
  have ht : Writing.Parts (tailWords s) (clauses s) := (order_parts h.orders).append ((limit_parts s.limit).append (group_parts h.group))
  have hw := Writing.spaces (hp.append ht) _ _ rfl (Lx.space (Writing.anyName hn _ _ hs hr))
  rw [← select_words] at hw
  have hcl : clauses s = [kw .std .GROUP_, kw .std .BY_, ident s.groupBy] := by
    rw [clauses, ho, hl, byToks, if_neg hg]
    rfl
  rw [hcl] at hw
  refine parse_none toUint hw (query_no (Heads.kw (t := .SELECT_)) (by simp) (fun hq => ?_))
  simpa using select_group_no (sp := .std) (rest := ts) i is T c s.groupBy n hq

/-- C188 for all statements together: a name after the text of a statement is a syntax error, whatever comes after the
name. -/
theorem C188_name_partial (toUint : Str → Option Nat) (s : Statement) (h : EndsHere s) (n rest : Str) (hn : AnyName n)
    (hb : rest = [] ∨ ∃ r, rest = ' ' :: r) : ∃ q, s.toStr = .ok q ∧ parseQuery toUint (q ++ ' ' :: (n ++ rest)) = .err := by
  cases h with
  | ddl h hv => exact C188_word_partial toUint s h hv n rest hn hb
  | createTable b h =>
    obtain ⟨ts, hr⟩ := lx_any rest
    have hs : sepStart rest = true := by rcases hb with rfl | ⟨r, rfl⟩ <;> rfl
    exact ⟨_, rfl, C188_table toUint _ b h _ (ident n) ts (Writing.anyName hn _ _ hs hr) (by rw [show (ident n).kind = .IDENTIFIER from rfl]; decide)
      (by rw [show (ident n).kind = .IDENTIFIER from rfl]; simp [goesOn])⟩
  | rename h hr' =>
    obtain ⟨ts, hr⟩ := lx_any rest
    have hs : sepStart rest = true := by rcases hb with rfl | ⟨r, rfl⟩ <;> rfl
    exact C188_rename toUint _ h hr' _ (ident n) ts (Writing.anyName hn _ _ hs hr) (by rw [show (ident n).kind = .IDENTIFIER from rfl]; decide)
  | insert h => exact ⟨_, rfl, C188_insert toUint _ h n rest hn hb⟩
  | update h => exact ⟨_, rfl, C188_update toUint _ h n rest hn hb⟩
  | delete h => exact ⟨_, rfl, C188_delete toUint _ h n rest hn hb⟩
  | select h hf hg hc => exact ⟨_, rfl, C188_select_partial toUint _ h hf hg hc n rest hn hb⟩
  | grouped h hg ho hl => exact ⟨_, rfl, C188_grouped toUint _ h hg ho hl n rest hn hb⟩

example (toUint : Str → Option Nat) : parseQuery toUint s%"DELETE FROM t WHERE a = 1 LIMTI 3" = .err := by
  have h : PrintableDelete { table := { name := s%"t" }, cond := some (cmpOne s%"a") } := by
    refine ⟨⟨s%"t", any_of (by decide +kernel), rfl⟩, ?_⟩
    intro e he
    injection he with he
    subst he
    exact .one ⟨rfl, any_of (by decide +kernel), by decide, _, rfl, printable_i64 1⟩
  have := C188_delete toUint _ h s%"LIMTI" s%" 3" (any_of (by decide +kernel)) (.inr ⟨_, rfl⟩)
  rwa [show _ ++ _ = s%"DELETE FROM t WHERE a = 1 LIMTI 3" by decide +kernel] at this
example (toUint : Str → Option Nat) : parseQuery toUint s%"SELECT a FROM t WHERE a = 1 LIMIT 4 OFSET 3" = .err := by
  have h : SelectParts { selectMisfit with orderBy := [], limit := ⟨0, 4⟩, groupBy := [] } :=
    ⟨selectMisfit_parts.selectors, selectMisfit_parts.some_table, selectMisfit_parts.tables, selectMisfit_parts.cond, by simp, by decide, .inl rfl⟩
  have := C188_select_partial toUint _ h ⟨by simp, by simp, .inl rfl⟩ rfl (.inl nofun) s%"OFSET" s%" 3" (any_of (by decide +kernel)) (.inr ⟨_, rfl⟩)
  rwa [show _ ++ _ = s%"SELECT a FROM t WHERE a = 1 LIMIT 4 OFSET 3" by decide +kernel] at this
example (toUint : Str → Option Nat) : parseQuery toUint s%"SELECT a FROM t WHERE a = 1 GROUP BY g HAIVNG 3" = .err := by
  have h : SelectParts { selectMisfit with orderBy := [], limit := ⟨0, 0⟩, groupBy := s%"g" } :=
    ⟨selectMisfit_parts.selectors, selectMisfit_parts.some_table, selectMisfit_parts.tables, selectMisfit_parts.cond, by simp, by decide, .inr (any_of (by decide +kernel))⟩
  have := C188_grouped toUint _ h nofun rfl rfl s%"HAIVNG" s%" 3" (any_of (by decide +kernel)) (.inr ⟨_, rfl⟩)
  rwa [show _ ++ _ = s%"SELECT a FROM t WHERE a = 1 GROUP BY g HAIVNG 3" by decide +kernel] at this
example (toUint : Str → Option Nat) : parseQuery toUint s%"INSERT INTO t (a) VALUES (1) u" = .err := by
  have h : PrintableInsert { table := { name := s%"t" }, values := [[{ name := s%"a", lit := some { v := .i64 1 } }]] } := by
    refine ⟨⟨s%"t", kept_of (by decide +kernel), rfl⟩, ⟨_, [], rfl, by simp, by simp⟩, ?_⟩
    intro r hr c hc
    rw [List.mem_singleton] at hr
    subst hr
    rw [List.mem_singleton] at hc
    subst hc
    exact ⟨rfl, any_of (by decide +kernel), _, rfl, printable_i64 1⟩
  have := C188_insert toUint _ h s%"u" [] (any_of (by decide +kernel)) (.inl rfl)
  rwa [show _ ++ _ = s%"INSERT INTO t (a) VALUES (1) u" by decide +kernel] at this
example (toUint : Str → Option Nat) : parseQuery toUint s%"UPDATE t SET a = 1 WEHRE a = 2" = .err := by
  have h : PrintableUpdate { table := { name := s%"t" }, columns := [{ name := s%"a", lit := some { v := .i64 1 } }], cond := none } := by
    refine ⟨⟨s%"t", any_of (by decide +kernel), rfl⟩, by simp, ?_, nofun⟩
    intro c hc
    rw [List.mem_singleton] at hc
    subst hc
    exact .lit ⟨rfl, any_of (by decide +kernel), _, rfl, printable_i64 1⟩
  have := C188_update toUint _ h s%"WEHRE" s%" a = 2" (any_of (by decide +kernel)) (.inr ⟨_, rfl⟩)
  rwa [show _ ++ _ = s%"UPDATE t SET a = 1 WEHRE a = 2" by decide +kernel] at this

end Verif.Props
