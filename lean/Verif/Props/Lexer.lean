import Verif.Lemmas.LexSplit
import Verif.Model.Query
import Verif.Props.Bind
/-! C07, C52, C67, C68: the lexer, printed string literals and bound strings. -/
namespace Verif.Props
open Verif Verif.Lex Verif.Spec Verif.Query Verif.Bind

/-- C67: every text has tokens. They are not empty, their texts in order are the text, and they are the only
list in which every token is the longest match of any rule and of the first such rule. -/
theorem C67_lexing (inp : Str) : ∃ ts, lex inp = some ts ∧ (ts.map (·.text)).flatten = inp ∧
    (∀ t, t ∈ ts → t.text ≠ []) ∧ Tokenised rules inp ts ∧ ∀ ts', Tokenised rules inp ts' → ts' = ts := by
  obtain ⟨ts, h1, h2⟩ := lex_spec inp
  refine ⟨ts, h1, ?_, ?_, h2, fun ts' h => tokenised_unique inp ts' ts h h2⟩
  · clear h1
    induction h2 with
    | nil => rfl
    | cons t w rest ts _ _ ih => simp [ih]
  · clear h1
    induction h2 with
    | nil => simp
    | cons t w rest ts hl _ ih =>
      intro x hx
      rcases List.mem_cons.mp hx with h | h
      · subst h; exact hl.1
      · exact ih x h

example : lex s%"a<=-1--x" = some [⟨.IDENTIFIER, s%"a"⟩, ⟨.LT_EQ, s%"<="⟩, ⟨.MINUS, s%"-"⟩,
    ⟨.NUMERIC_LITERAL, s%"1"⟩, ⟨.SINGLE_LINE_COMMENT, s%"--x"⟩] := by decide +kernel
example : lex s%"'a" = some [⟨.UNEXPECTED_CHAR, s%"'"⟩, ⟨.IDENTIFIER, s%"a"⟩] := by decide +kernel

/-- C68: two texts that differ only in letter case have the same tokens up to letter case: as many, of the same
kinds, and of the same lengths. -/
theorem C68_recasing (s s' : Str) (h : SameLetters s s') : ∃ ts ts', lex s = some ts ∧ lex s' = some ts' ∧
    ts'.map (·.kind) = ts.map (·.kind) ∧ ts'.map (·.text.length) = ts.map (·.text.length) ∧
    ts'.map (fun t => t.text.map Str.upC) = ts.map (fun t => t.text.map Str.upC) := by
  obtain ⟨ts, h1, h2⟩ := lex_spec s
  obtain ⟨ts', g1, g2, g3⟩ := tokenised_case rules s ts h2 s' h
  refine ⟨ts, ts', h1, (lex_iff _ _).mpr g1, g2, ?_, g3⟩
  have := congrArg (List.map List.length) g3
  simpa [Function.comp_def, Str.upper] using this

example : SameLetters s%"select A from t" s%"SELECT a From T" ∧
    (lex s%"SELECT a From T").map (·.map (·.kind)) =
      some [.SELECT_, .SPACES, .IDENTIFIER, .SPACES, .FROM_, .SPACES, .IDENTIFIER] :=
  ⟨show List.map _ _ = List.map _ _ by decide, by decide +kernel⟩

/-- A word is one token whatever stands after it, as long as that is neither a word character nor a quote: the
keyword with these letters if there is one, otherwise an identifier. -/
theorem C68_words (w rest : Str) (ts : List Token) (hw : isWord w = true) (hr : wordEnd rest = true) (h : lex rest = some ts) :
    lex (w ++ rest) = some ({ kind := wordKind w, text := w } :: ts) :=
  lex_cons _ _ _ _ (longest_word w rest hw hr) h

example : isWord s%"oRdEr" = true ∧ wordEnd s%" BY x" = true ∧ wordKind s%"oRdEr" = .ORDER_ ∧ wordKind s%"x_1" = .IDENTIFIER := by
  decide +kernel

theorem bareEnds_iff (v : Str) : Util.unEscapeString (Util.escapeString v) = v ↔ BareEnds v := by
  have hw : Util.unEscapeString (Util.escapeString v) = Str.trim s%"'\"" v := by
    unfold Util.unEscapeString Util.escapeString
    exact Str.trim_wrap s%"'\"" v '\'' '\'' (by decide) (by decide)
  rw [hw]
  have hc : ∀ c, (s%"'\"").contains c = false ↔ c ≠ '\'' ∧ c ≠ '"' := by
    intro c
    rw [← Bool.not_eq_true, List.contains_iff_mem]
    simp
  unfold BareEnds
  constructor
  · intro h
    exact ⟨fun c r he => (hc c).mp (Str.trim_head _ v c r (h.trans he)),
      fun c r he => (hc c).mp (Str.trim_last _ v c r (h.trans he))⟩
  · rintro ⟨h1, h2⟩
    exact Str.trim_eq_self_of _ v (fun c r he => (hc c).mpr (h1 c r he)) (fun r c he => (hc c).mpr (h2 c r he))

/-- C07, exactly: the text printed for the string value `v` is one string literal token with the value `v`
(what newLiteralValueWith makes of the token text) if and only if every quote in `v` is doubled and `v` neither
starts nor ends with a quote character. -/
theorem C07_string_literal_iff (v : Str) :
    (∃ t, lex (Literal.valueString (some { v := .str v, t := .string })) = some [t] ∧ t.kind = .STRING_LITERAL ∧
      Util.unEscapeString t.text = v) ↔ QuotesPaired v ∧ BareEnds v := by
  have hp : Literal.valueString (some { v := .str v, t := .string }) = '\'' :: v ++ ['\''] := by
    simp [Literal.valueString, Val.print, Util.escapeString]
  have he : Util.escapeString v = '\'' :: v ++ ['\''] := by simp [Util.escapeString]
  rw [hp]
  constructor
  · rintro ⟨t, h1, h2, h3⟩
    have htext : t.text = '\'' :: v ++ ['\''] := by
      obtain ⟨ts, g1, g2, _⟩ := C67_lexing ('\'' :: v ++ ['\''])
      rw [h1] at g1
      injection g1 with g1
      subst g1
      simpa using g2
    have ht : t = { kind := .STRING_LITERAL, text := '\'' :: v ++ ['\''] } := by
      cases t; simp only at h2 htext; rw [h2, htext]
    rw [ht] at h1
    refine ⟨(doubled_iff v).mp ((string_token_iff v).mp h1), (bareEnds_iff v).mp ?_⟩
    rw [he, ← htext]
    exact h3
  · rintro ⟨h1, h2⟩
    refine ⟨_, (string_token_iff v).mpr ((doubled_iff v).mpr h1), rfl, ?_⟩
    have := (bareEnds_iff v).mpr h2
    rw [he] at this
    exact this

example : QuotesPaired s%"a''b" ∧ BareEnds s%"a''b" :=
  ⟨.char _ _ (by decide) (.pair _ (.char _ _ (by decide) .nil)), by
    constructor
    · intro c r h; injection h with h _; subst h; decide
    · intro c r h
      have := congrArg List.getLast? h
      simp at this
      subst this; decide⟩

/-- C07, with the condition the code needs: a value without single quotes that neither starts nor ends with a
double quote. Missing: values with quotes, which are printed unescaped (`C07_fails`); `C07_string_literal_iff` is
the exact condition. -/
theorem C07_string_literal_partial (v : Str) (h : '\'' ∉ v) (hb : BareEnds v) :
    ∃ t, lex (Literal.valueString (some { v := .str v, t := .string })) = some [t] ∧ t.kind = .STRING_LITERAL ∧
      Util.unEscapeString t.text = v :=
  (C07_string_literal_iff v).mpr ⟨(doubled_iff v).mp (doubled_of_no_quote v h), hb⟩

example : '\'' ∉ s%"a \"b\" c" ∧ lex (Literal.valueString (some { v := .str s%"a \"b\" c", t := .string })) =
    some [⟨.STRING_LITERAL, s%"'a \"b\" c'"⟩] := by decide +kernel

/-- C07, negation: `it's` is printed as three tokens, and `"x"` loses its double quotes. -/
theorem C07_fails :
    (lex (Literal.valueString (some { v := .str s%"it's", t := .string }))).map (·.map (·.kind)) =
      some [.STRING_LITERAL, .IDENTIFIER, .UNEXPECTED_CHAR] ∧
    Util.unEscapeString (Literal.valueString (some { v := .str s%"\"x\"", t := .string })) = s%"x" := by
  decide +kernel

theorem lex_filled (p : Str) (ps vs : List Str) (hlen : vs.length = ps.length)
    (hp : ∀ x, x ∈ (p :: ps).dropLast → NoQuotation x ∧ ∀ u c, x = u ++ [c] → Str.upC c ≠ 'X')
    (hps : ∀ x, x ∈ ps.dropLast → x ≠ []) (hl : ∀ x, ps.getLast? = some x → quoteEnd x = true)
    (hv : ∀ v, v ∈ vs → QuotesPaired v) :
    ∃ ts, lex (filled p ps (vs.map (fun v => '\'' :: v ++ ['\'']))) = some ts ∧ Woven rules p ps vs ts := by
  induction ps generalizing p vs with
  | nil =>
    cases vs with
    | nil =>
      obtain ⟨ts, h1, h2⟩ := lex_spec p
      exact ⟨ts, h1, .last p ts h2⟩
    | cons => cases hlen
  | cons p₁ ps ih =>
    cases vs with
    | nil => cases hlen
    | cons v vs =>
      obtain ⟨us, g1, g2⟩ := ih p₁ vs (by simpa using hlen)
        (fun x hx => hp x (by simpa using Or.inr hx))
        (fun x hx => hps x (by cases ps with | nil => cases hx | cons => simpa using Or.inr hx))
        (fun x hx => hl x (by cases ps with | nil => cases hx | cons => simpa using hx))
        (fun x hx => hv x (List.mem_cons_of_mem _ hx))
      obtain ⟨ts, h1, h2⟩ := lex_spec p
      refine ⟨_, ?_, .more p p₁ ps v vs ts us h2 g2⟩
      have hpp := hp p (by simp)
      refine lex_string_after p v _ ts us hpp.1 hpp.2 ((doubled_iff v).mpr (hv v (List.mem_cons_self ..))) ?_ h1 g1
      -- what follows the literal does not start with a quote
      cases ps with
      | nil =>
        cases vs with
        | nil => exact hl p₁ rfl
        | cons => simp at hlen
      | cons p₂ ps =>
        cases vs with
        | nil => simp at hlen
        | cons v₂ vs =>
          have hne := hps p₁ (by simp)
          cases p₁ with
          | nil => exact (hne rfl).elim
          | cons c p₁ =>
            have := (hp (c :: p₁) (by simp)).1 c (List.mem_cons_self ..)
            simp at this
            show (c != '\'') = true
            simpa using this.1

/-- C52, with the conditions the code needs: in a query whose text up to the last placeholder contains no
quotation and no comment, whose placeholders do not touch each other and do not follow an `x`, with values free
of quotes and question marks, the tokens of the bound query are the tokens of the pieces of the query with
exactly one string literal token per value between them, and each of these has the value that was bound.
Missing: values with quotes, which are inserted as they are, and placeholders inside quotations (`C52_fails`). -/
theorem C52_bound_strings_partial {T F V : Type} (B : BEnv T F V) (p : Str) (ps vs : List Str)
    (hlen : vs.length = ps.length) (hne : p ≠ []) (hq : '?' ∉ p) (hqs : ∀ x, x ∈ ps → '?' ∉ x)
    (hp : ∀ x, x ∈ (p :: ps).dropLast → NoQuotation x ∧ ∀ u c, x = u ++ [c] → Str.upC c ≠ 'X')
    (hps : ∀ x, x ∈ ps.dropLast → x ≠ []) (hl : ∀ x, ps.getLast? = some x → quoteEnd x = true)
    (hv : ∀ v, v ∈ vs → '\'' ∉ v ∧ '?' ∉ v ∧ BareEnds v) :
    ∃ q ts, bindText B (marked p ps) (vs.map .str) = some q ∧ lex q = some ts ∧ Woven rules p ps vs ts ∧
      ∀ v, v ∈ vs → Util.unEscapeString ('\'' :: v ++ ['\'']) = v := by
  have hb := (C50_bind_partial B (fun s => some s) p ps (vs.map .str) (vs.map (fun v => '\'' :: v ++ ['\''])) hne hq hqs
    (by simp [Param.text]) ?_ (by simp [hlen])).1
  · obtain ⟨ts, h1, h2⟩ := lex_filled p ps vs hlen hp hps hl (fun v h => (doubled_iff v).mp (doubled_of_no_quote v (hv v h).1))
    refine ⟨_, ts, hb, h1, h2, ?_⟩
    intro v hm
    have := (bareEnds_iff v).mpr (hv v hm).2.2
    simpa [Util.escapeString] using this
  · intro x hx
    have hx := List.dropLast_subset _ hx
    obtain ⟨v, hm, rfl⟩ := List.mem_map.mp hx
    have := (hv v hm).2.1
    simpa using this

example : bindText bEnv (marked s%"a = " [s%" AND b = ", s%" -- 'x'"]) [.str s%"p", .str s%"q r"] =
      some s%"a = 'p' AND b = 'q r' -- 'x'" ∧
    (lex s%"a = 'p' AND b = 'q r' -- 'x'").map (fun ts => (ts.filter (fun t => !(t.kind == .SPACES))).map (·.kind)) =
      some [.IDENTIFIER, .ASSIGN, .STRING_LITERAL, .AND_, .IDENTIFIER, .ASSIGN, .STRING_LITERAL, .SINGLE_LINE_COMMENT] := by
  decide +kernel

/-- C52, negation: a bound string with a quote ends the literal early and the rest of it is read as SQL. -/
theorem C52_fails : bindText bEnv s%"a = ?" [.str s%"' OR 'b"] = some s%"a = '' OR 'b'" ∧
    (lex s%"a = '' OR 'b'").map (fun ts => (ts.filter (fun t => !(t.kind == .SPACES))).map (·.kind)) =
      some [.IDENTIFIER, .ASSIGN, .STRING_LITERAL, .OR_, .STRING_LITERAL] := by decide +kernel

end Verif.Props
