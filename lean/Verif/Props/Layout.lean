import Verif.Lemmas.LexBlank
import Verif.Lemmas.Writing
/-! C83: white space and comments. -/
namespace Verif.Props
open Verif Verif.Lex Verif.Spec Verif.Query Verif.Parse Verif.Gram

theorem lx_hidden {t : Tok} {w rest : Str} {ts : List Token} (h : Longest rules t w rest) (hh : hidden t = true)
    (hr : Lx rest ts) : Lx (w ++ rest) ts := by
  unfold Lx at *
  cases hl : lex rest with
  | none => rw [hl] at hr; cases hr
  | some l =>
    rw [hl, Option.map_some, Option.some.injEq] at hr
    rw [lex_cons t w rest l h hl, Option.map_some, Option.some.injEq, ← hr]
    simp [visible, hh]

theorem lx_blank {b rest : Str} {ts : List Token} (hb : Blank b) (hr : Lx rest ts) : Lx (b ++ rest) ts := by
  induction hb with
  | nil => exact hr
  | @space c b hc _ ih =>
    have := lx_hidden (longest_white hc (b ++ rest)) rfl ih
    simpa using this
  | @block body b hn _ ih =>
    rw [List.append_assoc]
    exact lx_hidden (longest_block body _ hn) rfl ih
  | @line body b h h' _ ih =>
    have := lx_hidden (longest_line body _ h h') rfl ih
    simpa using this

theorem lx_layout {ts : List Token} {q : Str} (h : Layout ts q) : Lx q ts := by
  induction h with
  | done hb => simpa using lx_blank hb Lx.nil
  | lineAtEnd hb h h' =>
    refine lx_blank hb ?_
    simpa using lx_hidden (longest_lineEnd _ h h') rfl Lx.nil
  | token hb ht he _ ih => exact lx_blank hb (Lx.cons (ht.2 _ he) ht.1 ih)
  | punct hb ht _ ih =>
    refine lx_blank hb (Lx.cons (longest_punct ht _) ?_ ih)
    revert ht
    exact fun ht => (show ∀ t ∈ punctuation, hidden t.kind = false by decide) _ ht

theorem parse_lx (toUint : Str → Option Nat) {q : Str} {ts : List Token} (h : Lx q ts) (hne : ts ≠ []) :
    parseQuery toUint q = match parseTree ts with
      | none => .err
      | some t => Visit.statements toUint t := by
  have ht : treeOf q = parseTree ts := by
    unfold Lx at h
    unfold treeOf
    cases hl : lex q with
    | none => rw [hl] at h; cases h
    | some l =>
      rw [hl, Option.map_some, Option.some.injEq] at h
      rw [Option.bind_some, h]
  unfold parseQuery Parser.parseString
  by_cases he : isEmptyQuery q
  · rw [if_pos he]
    simp only [isEmptyQuery, Bool.or_eq_true, beq_iff_eq, List.length_eq_zero_iff] at he
    rcases he with rfl | rfl
    · exfalso
      have : ([] : List Token) = ts := by simpa [Lx, lex, lexFuel, visible] using h
      exact hne this.symm
    · have : ts = [⟨.SCOL, s%";"⟩] := by
        have e : (lex s%";").map visible = some [⟨.SCOL, s%";"⟩] := by decide +kernel
        unfold Lx at h
        rw [e] at h
        exact (Option.some.inj h).symm
      subst this
      have e : parseTree [⟨.SCOL, s%";"⟩] = none := by decide +kernel
      rw [e]
  · rw [if_neg he, ht]
    cases parseTree ts <;> rfl

/-- C83: a query gives the same result, whatever white space and comments stand before, between and after its tokens;
there has to be some between two tokens unless one of them is a parenthesis, a comma or a semicolon. A block comment
ends with the first `*/`, a line comment with its line. -/
theorem C83_blanks (toUint : Str → Option Nat) (ts : List Token) (hne : ts ≠ []) (q q' : Str) (h : Layout ts q) (h' : Layout ts q') :
    parseQuery toUint q = parseQuery toUint q' := by
  rw [parse_lx toUint (lx_layout h) hne, parse_lx toUint (lx_layout h') hne]

/-- The comments of C83: whatever follows, a block comment is one token that ends with the first `*/`, and a line
comment is one token that ends with its line. -/
theorem C83_comments (body rest : Str) (ts : List Token) (h : lex rest = some ts) :
    (¬ s%"*/" <:+: body → lex (s%"/*" ++ body ++ s%"*/" ++ rest) = some (⟨.MULTILINE_COMMENT, s%"/*" ++ body ++ s%"*/"⟩ :: ts)) ∧
    ('\n' ∉ body → '\r' ∉ body → lex (s%"--" ++ body ++ s%"\n" ++ rest) = some (⟨.SINGLE_LINE_COMMENT, s%"--" ++ body ++ s%"\n"⟩ :: ts)) :=
  ⟨fun hb => lex_cons _ _ _ _ (longest_block body rest hb) h, fun h1 h2 => lex_cons _ _ _ _ (longest_line body rest h1 h2) h⟩

example : ¬ s%"*/" <:+: s%" a * /* ' ** " ∧ lex s%"/* a * /* ' ** */b*/" =
    some [⟨.MULTILINE_COMMENT, s%"/* a * /* ' ** */"⟩, ⟨.IDENTIFIER, s%"b"⟩, ⟨.STAR, s%"*"⟩, ⟨.DIV, s%"/"⟩] := by decide +kernel

/-- What ends a token. -/
def endChars : Str := whiteSpace ++ s%"(),;/"

theorem ends_char {rest : Str} (h : Ends rest) : rest = [] ∨ ∃ c r, rest = c :: r ∧ c ∈ endChars := by
  rcases h with rfl | ⟨c, r, rfl, h⟩ | ⟨r, rfl⟩
  · exact Or.inl rfl
  · refine Or.inr ⟨c, r, rfl, ?_⟩
    rcases h with h | h
    · exact List.mem_append_left _ h
    · have : ∀ c ∈ s%"(),;", c ∈ endChars := by decide
      exact this c h
  · exact Or.inr ⟨'/', '*' :: r, rfl, by decide⟩

theorem end_of (P : Str → Bool) (h0 : P [] = true) (h1 : ∀ c ∈ endChars, P [c] = true) (h2 : ∀ c r, P (c :: r) = P [c])
    {rest : Str} (h : Ends rest) : P rest = true := by
  rcases ends_char h with rfl | ⟨c, r, rfl, hc⟩
  · exact h0
  · rw [h2]; exact h1 c hc

theorem separate_op {t : Tok} {w : Str} (hh : hidden t = false) (hw : w ≠ [])
    (ha : accept false (steps w rules) = some t ∧ accept true (steps w rules) = some t)
    (hs : ∀ c ∈ endChars, step c (steps w rules) = []) : Separate ⟨t, w⟩ := by
  refine ⟨hh, fun rest he => longest_of_accept t w rest hw ?_ ?_⟩
  · rcases ends_char he with rfl | ⟨c, r, rfl, _⟩
    · exact ha.2
    · exact ha.1
  · rcases ends_char he with rfl | ⟨c, r, rfl, hc⟩
    · trivial
    · exact hs c hc

/-- The tokens of C83: words (keywords and names), numbers, strings, names in double quotes and backquotes, `?`, `$` and
named parameters, blobs, and operators. -/
theorem C83_tokens :
    (∀ w, isWord w = true → Separate ⟨wordKind w, w⟩) ∧
    (∀ n, Name n → Separate ⟨.IDENTIFIER, n⟩) ∧
    (∀ x, NumberText x → Separate ⟨.NUMERIC_LITERAL, x⟩) ∧
    (∀ v, QuotesPaired v → Separate ⟨.STRING_LITERAL, '\'' :: v ++ ['\'']⟩) ∧
    (∀ v, Paired '"' v → Separate ⟨.IDENTIFIER, '"' :: v ++ ['"']⟩) ∧
    (∀ v, Paired '`' v → Separate ⟨.IDENTIFIER, '`' :: v ++ ['`']⟩) ∧
    (∀ c x, c = '?' ∨ c = '$' → (∀ d ∈ x, Digit d) → Separate ⟨.BIND_PARAMETER, c :: x⟩) ∧
    (∀ c x, c = ':' ∨ c = '$' → Matches identifier x [] → Separate ⟨.BIND_PARAMETER, c :: x⟩) ∧
    (∀ c v, c = 'x' ∨ c = 'X' → Paired '\'' v → Separate ⟨.BLOB_LITERAL, c :: '\'' :: v ++ ['\'']⟩) ∧
    (∀ o ∈ operators, Separate ⟨o.1, o.2⟩) := by
  have hword : ∀ w, isWord w = true → Separate ⟨wordKind w, w⟩ := fun w hw =>
    ⟨Writing.wordKind_visible w, fun rest he => longest_word w rest hw
      (end_of wordEnd rfl (by decide) (fun _ _ => rfl) he)⟩
  refine ⟨hword, fun n hn => ?_, ?_, ?_, ?_, ?_, ?_, ?_, ?_, ?_⟩
  · have := hword n (Writing.isWord_of hn)
    rwa [Writing.kind_of hn] at this
  · intro x hm
    exact ⟨rfl, fun rest he => longest_numeric (matches_noEof _ (by decide +kernel) _ _ _ hm)
      (end_of numberEnd rfl (by decide +kernel) (fun _ _ => rfl) he)⟩
  · intro v hv
    exact ⟨rfl, fun rest he => longest_string v rest ((doubled_iff v).mpr hv) (end_of quoteEnd rfl (by decide) (fun _ _ => rfl) he)⟩
  · intro v hv
    refine ⟨rfl, fun rest he => longest_quoted '"' (upC_fix '"' (by decide) (by decide)) .IDENTIFIER step_doublequote v rest hv ?_⟩
    rintro c r rfl rfl
    rcases ends_char he with h | ⟨c, r, h, hc⟩
    · cases h
    · injection h with h _
      subst h
      revert hc; decide
  · intro v hv
    refine ⟨rfl, fun rest he => longest_quoted '`' (upC_fix '`' (by decide) (by decide)) .IDENTIFIER step_backquote v rest hv ?_⟩
    rintro c r rfl rfl
    rcases ends_char he with h | ⟨c, r, h, hc⟩
    · cases h
    · injection h with h _
      subst h
      revert hc; decide
  · intro c x hc hx
    by_cases hx' : x = []
    · subst hx'
      rcases hc with rfl | rfl
      · exact separate_op rfl (by simp) (by decide +kernel) (by decide +kernel)
      · exact separate_op rfl (by simp) (by decide +kernel) (by decide +kernel)
    · have : steps (c :: x) rules = [(.BIND_PARAMETER, .star digit)] := by
        rw [steps_cons]
        refine Writing.bind_steps x _ hx ?_ hx'
        rcases hc with rfl | rfl <;> decide +kernel
      refine separate_op rfl (by simp) ?_ ?_
      · rw [this]; decide +kernel
      · rw [this]; decide +kernel
  · intro c x hc hx
    exact ⟨rfl, fun rest he => longest_named hc (matches_noEof _ (by decide +kernel) _ _ _ hx)
      (end_of valueEnd rfl (by decide +kernel) (fun _ _ => rfl) he)⟩
  · intro c v hc hv
    exact ⟨rfl, fun rest he => longest_blob hc hv (end_of valueEnd rfl (by decide +kernel) (fun _ _ => rfl) he)⟩
  · have h : ∀ o ∈ operators, hidden o.1 = false ∧ o.2 ≠ [] ∧ (accept false (steps o.2 rules) = some o.1 ∧ accept true (steps o.2 rules) = some o.1) ∧
        ∀ c ∈ endChars, step c (steps o.2 rules) = [] := by decide +kernel
    intro o ho
    obtain ⟨h1, h2, h3, h4⟩ := h o ho
    exact separate_op h1 h2 h3 h4

example : Layout [⟨.USE_, s%"use"⟩, ⟨.IDENTIFIER, s%"`my db`"⟩, ⟨.SCOL, s%";"⟩] s%"use/* which? */\t`my db`; -- done" := by
  have hu : Separate ⟨.USE_, s%"use"⟩ := C83_tokens.1 s%"use" (by decide +kernel)
  have hn : Separate ⟨.IDENTIFIER, s%"`my db`"⟩ := C83_tokens.2.2.2.2.2.1 s%"my db" (Paired.of_not_mem (by decide))
  exact .token .nil hu (Or.inr (Or.inr ⟨s%" which? */\t`my db`; -- done", rfl⟩))
    (.token (b := s%"/* which? */\t") (.block (body := s%" which? ") (by decide) (.space (by decide) .nil)) hn
      (Or.inr (Or.inl ⟨';', s%" -- done", rfl, by decide⟩))
      (.punct .nil (by decide) (.lineAtEnd (b := s%" ") (body := s%" done") (.space (by decide) .nil) (by decide) (by decide))))

end Verif.Props
