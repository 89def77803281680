import Verif.Lemmas.BlankVisit
import Verif.Props.Lexer
import Verif.Props.Parser
import Verif.Props.Layout
import Verif.Props.Prepared
/-! C181, C182: names and values do not decide how a query is read. -/
namespace Verif.Props
open Verif Verif.Lex Verif.Gram Verif.Query Verif.Parse Verif.Bind Verif.Spec Verif.Lemmas

theorem parse_of_writes (u : Str → Option Nat) {q : Str} {toks : List Token} (h : Writes q toks) (hn : NonEmpty q) :
    parseQuery u q = (match parseTree toks with
      | none => .err
      | some t => Visit.statements u t) := by
  obtain ⟨ts, h1, h2⟩ := writes_lex.mp h
  have he : isEmptyQuery q = false := by
    have h1 := hn.1
    have h2 := hn.2
    simp [isEmptyQuery, h1, h2]
  rw [parseQuery, Parser.parseString, he, treeOf, h1, Option.bind_some, h2]
  cases parseTree toks <;> rfl

theorem shape_core (u u' : Str → Option Nat) {q q' : Str} {toks toks' : List Token} (h : Writes q toks) (h' : Writes q' toks')
    (hk : toks.map (·.kind) = toks'.map (·.kind))
    (e : parseQuery u q = match parseTree toks with
      | none => .err
      | some t => Visit.statements u t)
    (e' : parseQuery u' q' = match parseTree toks' with
      | none => .err
      | some t => Visit.statements u' t) : outcome (parseQuery u q) = outcome (parseQuery u' q') := by
  rw [e, e']
  have e1 := parseTree_erase toks
  rw [bareTok_eq h h' hk, parseTree_erase] at e1
  cases h1 : parseTree toks <;> cases h2 : parseTree toks' <;> rw [h1, h2] at e1 <;>
    simp only [Option.map_some, Option.map_none, Option.some.injEq, reduceCtorEq] at e1
  rename_i t t'
  have a := statements_like u u t (parse_sound h1).1
  have b := statements_like u u' t' (parse_sound h2).1
  rw [outcome_eq, outcome_eq]
  rw [e1] at b
  exact Eq.trans (Eq.symm a) b

/-- C181: two queries with the same kinds of tokens in the same order, so that they differ in names, values, spaces,
comments and letter case only, have the same outcome up to names and values: both are errors, both panic, or both
report as many statements of the same kinds with the same clauses, items, operators, directions, and kinds of values. -/
theorem C181_shape (u u' : Str → Option Nat) (q q' : Str) (toks toks' : List Token) (h : Writes q toks) (h' : Writes q' toks')
    (hn : toks ≠ []) (hk : toks.map (·.kind) = toks'.map (·.kind)) :
    outcome (parseQuery u q) = outcome (parseQuery u' q') := by
  have hn' : toks' ≠ [] := by
    rintro rfl
    cases toks with
    | nil => exact hn rfl
    | cons => cases hk
  have lx : ∀ {q : Str} {toks : List Token}, Writes q toks → Lx q toks := by
    intro q toks h
    obtain ⟨ts, h1, h2⟩ := writes_lex.mp h
    unfold Lx
    rw [h1, Option.map_some, h2]
  exact shape_core u u' h h' hk (parse_lx u (lx h) hn) (parse_lx u' (lx h') hn')

set_option maxRecDepth 10000 in
example : ∃ toks toks', Writes s%"SELECT a, MAX(b) FROM t WHERE a < 1 ORDER BY a DESC" toks ∧
    Writes s%"select name,count ( \"x y\") from users where id<27.5 order by `k` desc -- c" toks' ∧
    toks ≠ [] ∧ toks.map (·.kind) = toks'.map (·.kind) := by
  refine ⟨_, _, writes_lex.mpr ⟨_, rfl, rfl⟩, writes_lex.mpr ⟨_, rfl, rfl⟩, ?_⟩
  decide +kernel

set_option maxRecDepth 10000 in
example : outcome (parseQuery (fun _ => none) s%"UPDATE t SET a = a + 1 WHERE b >= 'x' OR c = 2") =
    .ok [.update {
      table := { name := [] }
      columns := [{ name := [], args := [[], []], fn := some { typ := .arith, name := s%"+", executor := some ⟨s%"+", .arith, [[], []]⟩ } }]
      cond := some (.or (.cmp { op := .ge, left := { name := [] }, right := some { v := .str [], t := .string } })
        (.cmp { op := .eq, left := { name := [] }, right := some { v := .str [] } })) }] := by krfl

theorem semicolon {q : Str} (h : SameLetters q s%";") : q = s%";" := by
  unfold SameLetters at h
  cases q with
  | nil => cases h
  | cons c q => cases q with
    | nil =>
      simp only [List.map_cons, List.map_nil, List.cons.injEq, and_true] at h
      rw [upC_fix ';' (by decide) (by decide) c h]
    | cons d q => simp at h

theorem visible_kinds (a : List Token) : ∀ b : List Token, b.map (·.kind) = a.map (·.kind) → (visible a).map (·.kind) = (visible b).map (·.kind) := by
  induction a with
  | nil => intro b hb; cases b with
    | nil => rfl
    | cons => cases hb
  | cons x a ih => intro b hb; cases b with
    | nil => cases hb
    | cons y b =>
      simp only [List.map_cons, List.cons.injEq] at hb
      have := ih b hb.2
      simp only [visible, List.filter_cons, hb.1] at this ⊢
      split
      · simp [hb.1, this]
      · exact this

/-- C181 for letter case: changing the case of letters, wherever they stand, does not change the outcome of a query up
to names and values. -/
theorem C181_recased (u u' : Str → Option Nat) (q q' : Str) (h : SameLetters q q') :
    outcome (parseQuery u q) = outcome (parseQuery u' q') := by
  by_cases hn : NonEmpty q
  · have hn' : NonEmpty q' := by
      refine ⟨?_, ?_⟩
      · rintro rfl
        exact hn.1 (by simpa [SameLetters] using h)
      · rintro rfl
        refine hn.2 ?_
        exact semicolon h
    obtain ⟨ts, ts', h1, h2, h3, -, -⟩ := C68_recasing q q' h
    have w := writes_lex.mpr ⟨ts, h1, rfl⟩
    have w' := writes_lex.mpr ⟨ts', h2, rfl⟩
    refine shape_core u u' w w' ?_ (parse_of_writes u w hn) (parse_of_writes u' w' hn')
    exact visible_kinds _ _ h3
  · have : q = [] ∨ q = s%";" := by
      by_cases h1 : q = []
      · exact Or.inl h1
      · by_cases h2 : q = s%";"
        · exact Or.inr h2
        · exact absurd ⟨h1, h2⟩ hn
    have hq : q' = q := by
      unfold SameLetters at h
      rcases this with rfl | rfl
      · simpa using h.symm
      · exact semicolon (Eq.symm h)
    subst hq
    have e : isEmptyQuery q' = true := by rcases this with rfl | rfl <;> rfl
    simp [parseQuery, Parser.parseString, e, outcome]

example : SameLetters s%"SELECT a FROM Users" s%"sELECT A from uSERS" := by unfold SameLetters; decide +kernel

/-- C181 for tokens that are written down: whatever names and values take the places of others, and whatever white space
and comments stand between them. -/
theorem C181_written (u u' : Str → Option Nat) (q q' : Str) (ts ts' : List Token) (h : Layout ts q) (h' : Layout ts' q')
    (hne : ts ≠ []) (hk : ts.map (·.kind) = ts'.map (·.kind)) :
    outcome (parseQuery u q) = outcome (parseQuery u' q') := by
  have w : ∀ {q : Str} {ts : List Token}, Layout ts q → Writes q ts := by
    intro q ts h
    have := lx_layout h
    unfold Lx at this
    cases hx : lex q with
    | none => rw [hx] at this; cases this
    | some l => rw [hx] at this; exact writes_lex.mpr ⟨l, hx, by simpa using this⟩
  exact C181_shape u u' q q' ts ts' (w h) (w h') hne hk

theorem woven_kinds {p : Str} {ps vs vs' : List Str} {ts ts' : List Token} (h : Woven rules p ps vs ts) (h' : Woven rules p ps vs' ts') :
    ts.map (·.kind) = ts'.map (·.kind) := by
  induction h generalizing vs' ts' with
  | last p ts ht =>
    cases h' with
    | last _ _ ht' =>
      have a := (lex_iff _ _).mpr ht
      rw [(lex_iff _ _).mpr ht', Option.some.injEq] at a
      rw [a]
  | more p p₁ ps s ss ts us ht hw ih =>
    cases h' with
    | more _ _ _ s' ss' ts' us' ht' hw' =>
      have a := (lex_iff _ _).mpr ht
      rw [(lex_iff _ _).mpr ht', Option.some.injEq] at a
      simp [a, ih hw']

/-- C182, with the conditions the code needs: the strings that are bound to the placeholders of a query do not decide how
it is read, as long as quotes only occur doubled in them. Whatever the strings are, both bound queries are errors, both panic, or both report the
same up to names and values. Missing: strings with single quotes, see `C182_injection_fails` and `C182_script_fails`, strings with
question marks other than the last, and placeholders inside quotations. -/
theorem C182_bound_partial {T F V : Type} (u u' : Str → Option Nat) (B : BEnv T F V) (p : Str) (ps vs vs' : List Str)
    (hlen : vs.length = ps.length) (hlen' : vs'.length = ps.length) (hne : p ≠ []) (hq : '?' ∉ p) (hqs : ∀ x, x ∈ ps → '?' ∉ x)
    (hp : ∀ x, x ∈ (p :: ps).dropLast → NoQuotation x ∧ ∀ u c, x = u ++ [c] → Str.upC c ≠ 'X')
    (hps : ∀ x, x ∈ ps.dropLast → x ≠ []) (hl : ∀ x, ps.getLast? = some x → quoteEnd x = true) (h1 : ps ≠ [])
    (hv : ∀ v, v ∈ vs ++ vs' → QuotesPaired v) (hm : ∀ v, v ∈ vs.dropLast ++ vs'.dropLast → '?' ∉ v) :
    ∃ q q', bindText B (marked p ps) (vs.map .str) = some q ∧ bindText B (marked p ps) (vs'.map .str) = some q' ∧
      outcome (parseQuery u q) = outcome (parseQuery u' q') := by
  obtain ⟨ts, e2, e3⟩ := lex_filled p ps vs hlen hp hps hl (fun v hm => hv v (List.mem_append_left _ hm))
  obtain ⟨ts', e2', e3'⟩ := lex_filled p ps vs' hlen' hp hps hl (fun v hm => hv v (List.mem_append_right _ hm))
  have hb : ∀ ws : List Str, ws.length = ps.length → (∀ v, v ∈ ws.dropLast → '?' ∉ v) →
      bindText B (marked p ps) (ws.map .str) = some (filled p ps (ws.map (fun v => '\'' :: v ++ ['\'']))) := by
    intro ws hl hw
    refine (C50_bind_partial B (fun s => some s) p ps (ws.map .str) (ws.map (fun v => '\'' :: v ++ ['\''])) hne hq hqs
      (by simp [Param.text]) ?_ (by simp [hl])).1
    intro x hx
    rw [← List.map_dropLast] at hx
    obtain ⟨v, hm, rfl⟩ := List.mem_map.mp hx
    have := hw v hm
    simpa using this
  have e1 := hb vs hlen (fun v h => hm v (List.mem_append_left _ h))
  have e1' := hb vs' hlen' (fun v h => hm v (List.mem_append_right _ h))
  refine ⟨_, _, e1, e1', ?_⟩
  refine C181_shape u u' _ _ _ _ (writes_lex.mpr ⟨ts, e2, rfl⟩) (writes_lex.mpr ⟨ts', e2', rfl⟩) ?_ (visible_kinds _ _ (woven_kinds e3' e3))
  cases e3 with
  | last => exact absurd rfl h1
  | more p p₁ ps s ss ts us _ _ => simp [visible, hidden]


set_option maxRecDepth 10000 in
example : (s%"DELETE FROM t WHERE a = " ≠ [] ∧ '?' ∉ s%"DELETE FROM t WHERE a = " ∧ NoQuotation s%"DELETE FROM t WHERE a = " ∧
      quoteEnd s%" OR b = 2" = true ∧ QuotesPaired s%"; DROP TABLE t --" ∧ QuotesPaired s%"it''s") ∧
    bindText bEnv (marked s%"DELETE FROM t WHERE a = " [s%" OR b = 2"]) [.str s%"; DROP TABLE t --"] = some s%"DELETE FROM t WHERE a = '; DROP TABLE t --' OR b = 2" ∧
    outcome (parseQuery (fun _ => none) s%"DELETE FROM t WHERE a = '; DROP TABLE t --' OR b = 2") =
      .ok [.delete { table := { name := [] }, cond := some (.or (.cmp { op := .eq, left := { name := [] }, right := some { v := .str [], t := .string } })
        (.cmp { op := .eq, left := { name := [] }, right := some { v := .str [] } })) }] := by
  refine ⟨⟨by simp, by decide, by unfold NoQuotation; decide, by decide, ?_, ?_⟩, by decide +kernel, by krfl⟩ <;>
    rw [← doubled_iff] <;> decide +kernel

/-- C182 fails for strings with quotes, whatever the names are, as long as they have no question mark: with some strings the condition has one comparison, with
others it has two. -/
theorem C182_injection_fails {T F V : Type} (u : Str → Option Nat) (B : BEnv T F V) {t a b : Str} (ht : AnyName t ∧ '?' ∉ t)
    (ha : AnyName a ∧ '?' ∉ a) (hb : AnyName b) {x y : Str} (hx : '\'' ∉ x ∧ '"' ∉ x) (hy : '\'' ∉ y ∧ '"' ∉ y) :
    ∃ text, bindText B (s%"DELETE FROM " ++ t ++ s%" WHERE " ++ a ++ s%" = ?") [.str (x ++ s%"' OR " ++ b ++ s%" = '" ++ y)] = some text ∧
      outcome (parseQuery u text) = .ok [.delete { table := { name := [] }, cond := some (.or (blankExpr (isString a x)) (blankExpr (isString b y))) }] := by
  obtain ⟨text, h1, h2⟩ := C179_injection_fails u B ht ha hb hx hy
  exact ⟨text, h1, by rw [h2]; rfl⟩

end Verif.Props
