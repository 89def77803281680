import Verif.Lemmas.LexText
/-! Letter case, and the tokens of two texts put together. -/
namespace Verif.Lex
open Verif Verif.Spec

/-! ### Letter case -/

theorem matches_case (r : Re) (w w' rest rest' : Str) (h : Str.upper w = Str.upper w')
    (he : rest.isEmpty = rest'.isEmpty) : Matches r w rest ↔ Matches r w' rest' := by
  induction w generalizing r w' with
  | nil =>
    cases w' with
    | nil => rw [← nullable_iff, ← nullable_iff, he]
    | cons => simp [Str.upper] at h
  | cons c w ih =>
    cases w' with
    | nil => simp [Str.upper] at h
    | cons c' w' =>
      rw [Str.upper_cons, Str.upper_cons] at h
      injection h with h1 h2
      rw [← matches_d, ← matches_d, ih _ _ h2, ← d_upC r c, h1, d_upC]

theorem firstRule_case (rs : List (Tok × Re)) (t : Tok) (w w' rest rest' : Str) (h : Str.upper w = Str.upper w')
    (he : rest.isEmpty = rest'.isEmpty) (hf : FirstRule rs t w rest) : FirstRule rs t w' rest' := by
  obtain ⟨pre, r, post, h1, h2, h3⟩ := hf
  exact ⟨pre, r, post, h1, (matches_case r w w' rest rest' h he).mp h2,
    fun p hp hm => h3 p hp ((matches_case p.2 w w' rest rest' h he).mpr hm)⟩

theorem upper_split (a b s : Str) (h : Str.upper (a ++ b) = Str.upper s) :
    ∃ a' b', s = a' ++ b' ∧ Str.upper a = Str.upper a' ∧ Str.upper b = Str.upper b' := by
  refine ⟨s.take a.length, s.drop a.length, (List.take_append_drop _ _).symm, ?_, ?_⟩
  · have := congrArg (List.take a.length) h
    simp only [Str.upper, List.map_append, ← List.map_take] at this ⊢
    rw [← this, List.take_left' (by simp)]
  · have := congrArg (List.drop a.length) h
    simp only [Str.upper, List.map_append, ← List.map_drop] at this ⊢
    rw [← this, List.drop_left' (by simp)]

theorem isEmpty_upper (a b : Str) (h : Str.upper a = Str.upper b) : a.isEmpty = b.isEmpty := by
  cases a <;> cases b <;> simp [Str.upper] at h ⊢

theorem longest_case (rs : List (Tok × Re)) (t : Tok) (w w' rest rest' : Str) (h : Str.upper w = Str.upper w')
    (hr : Str.upper rest = Str.upper rest') (hl : Longest rs t w rest) : Longest rs t w' rest' := by
  obtain ⟨h1, h2, h3⟩ := hl
  refine ⟨?_, firstRule_case rs t w w' rest rest' h (isEmpty_upper _ _ hr) h2, ?_⟩
  · intro hn
    have := isEmpty_upper _ _ h
    rw [hn] at this
    cases w with
    | nil => exact h1 rfl
    | cons => cases this
  · intro x y he hlen hs
    have hu : Str.upper (x ++ y) = Str.upper (w ++ rest) := by
      rw [he, Str.upper_append, Str.upper_append, h, hr]
    obtain ⟨a, b, hab, ha, hb⟩ := upper_split x y _ hu
    refine h3 a b hab.symm ?_ ?_
    · have e1 := congrArg List.length ha
      have e2 := congrArg List.length h
      rw [Str.upper_length, Str.upper_length] at e1 e2
      omega
    · obtain ⟨p, hp, hm⟩ := hs
      exact ⟨p, hp, (matches_case p.2 x a y b ha (isEmpty_upper _ _ hb)).mp hm⟩

theorem tokenised_case (rs : List (Tok × Re)) (inp : Str) (ts : List Token) (h : Tokenised rs inp ts) :
    ∀ inp', Str.upper inp = Str.upper inp' → ∃ ts', Tokenised rs inp' ts' ∧ ts'.map (·.kind) = ts.map (·.kind)
      ∧ ts'.map (fun t => Str.upper t.text) = ts.map (fun t => Str.upper t.text) := by
  induction h with
  | nil =>
    intro inp' hu
    have := isEmpty_upper _ _ hu
    cases inp' with
    | nil => exact ⟨[], .nil, rfl, rfl⟩
    | cons => cases this
  | cons t w rest ts hl _ ih =>
    intro inp' hu
    obtain ⟨w', rest', rfl, h1, h2⟩ := upper_split w rest inp' hu
    obtain ⟨ts', g1, g2, g3⟩ := ih rest' h2
    refine ⟨{ kind := t, text := w' } :: ts', .cons t w' rest' ts' (longest_case rs t w w' rest rest' h1 h2 hl) g1, ?_, ?_⟩
    · rw [List.map_cons, List.map_cons, g2]
    · rw [List.map_cons, List.map_cons, g3, h1]

/-! ### Two texts -/

/-- No condition on the end of the input. -/
def noEof : Re → Bool
  | .eof => false
  | .empty | .eps | .cls _ _ => true
  | .seq a b | .alt a b => noEof a && noEof b
  | .star a => noEof a

theorem matches_noEof (r : Re) (h : noEof r = true) (w rest rest' : Str) (hm : Matches r w rest) : Matches r w rest' := by
  induction r generalizing w rest rest' with
  | empty => exact hm
  | eps => exact hm
  | eof => cases h
  | cls => exact hm
  | seq a b iha ihb =>
    rw [noEof, Bool.and_eq_true] at h
    obtain ⟨u, v, hw, hu, hv⟩ := hm
    exact ⟨u, v, hw, iha h.1 _ _ _ hu, ihb h.2 _ _ _ hv⟩
  | alt a b iha ihb =>
    rw [noEof, Bool.and_eq_true] at h
    exact hm.elim (fun hm => Or.inl (iha h.1 _ _ _ hm)) (fun hm => Or.inr (ihb h.2 _ _ _ hm))
  | star a iha =>
    rw [matches_star] at *
    induction hm with
    | nil => exact .nil _
    | cons u v rest hu _ ih => exact .cons u v rest' (iha h _ _ _ hu) ih

theorem rules_noEof : ∀ p, p ∈ rules → noEof p.2 = true ∨ p = (.SINGLE_LINE_COMMENT, singleLineComment) := by
  have : rules.all (fun p => noEof p.2 || p == (.SINGLE_LINE_COMMENT, singleLineComment)) = true := by decide +kernel
  intro p hp
  simpa using List.all_eq_true.mp this p hp

theorem not_matches_head (r : Re) (c : Char) (h : (r.d c).isNone = true) (w rest : Str) : ¬ Matches r (c :: w) rest :=
  fun hm => not_matches_of_isNone _ h w rest ((matches_d r c w rest).mpr hm)

/-- Without a minus sign no rule looks at the end of the input. -/
theorem matches_rest (p : Tok × Re) (hp : p ∈ rules) (w rest rest' : Str) (hw : '-' ∉ w) (hm : Matches p.2 w rest) :
    Matches p.2 w rest' := by
  rcases rules_noEof p hp with h | h
  · exact matches_noEof p.2 h w rest rest' hm
  · exfalso
    subst h
    cases w with
    | nil =>
      obtain ⟨u, v, h1, h2, _⟩ := (matches_seq _ _ _ _).mp hm
      have : u = [] := (List.append_eq_nil_iff.mp h1.symm).1
      subst this
      rw [matches_lit] at h2
      cases h2
    | cons c w =>
      have h := matches_seq_lits_head _ _ _ _ _ _ hm
      apply hw
      have hc : c = '-' := by
        apply Str.char_ext
        have h1 := Str.upC_toNat c
        rw [h] at h1
        have e : (Str.upC '-').toNat = 45 := rfl
        have e' : ('-' : Char).toNat = 45 := rfl
        rw [e] at h1
        rw [e']
        split at h1 <;> omega
      rw [hc]
      exact List.mem_cons_self ..

/-- The tokens of two texts are those of the first and those of the second, if no rule matches across. -/
theorem tokenised_append (p q : Str) (a b : List Token) (ha : Tokenised rules p a) (hb : Tokenised rules q b)
    (hm : '-' ∉ p)
    (hx : ∀ p0 u v r, p = p0 ++ u → u ≠ [] → v ≠ [] → q = v ++ r → ¬ SomeRule rules (u ++ v) r) :
    Tokenised rules (p ++ q) (a ++ b) := by
  induction ha with
  | nil => exact hb
  | cons t w rest ts hl _ ih =>
    rw [List.append_assoc, List.cons_append]
    refine .cons t w (rest ++ q) (ts ++ b) ?_ (ih (fun h => hm (List.mem_append_right _ h)) ?_)
    · have hw : '-' ∉ w := fun h => hm (List.mem_append_left _ h)
      obtain ⟨h1, ⟨pre, r, post, e1, e2, e3⟩, h3⟩ := hl
      refine ⟨h1, ⟨pre, r, post, e1, ?_, ?_⟩, ?_⟩
      · exact matches_rest (t, r) (by rw [e1]; simp) w _ _ hw e2
      · intro p hp hm'
        refine e3 p hp (matches_rest p (by rw [e1]; exact List.mem_append_left _ hp) w _ _ hw hm')
      · intro w' rest' he hlen hs
        obtain ⟨x, rfl⟩ : w <+: w' := by
          have : w <+: w' ++ rest' := he ▸ List.prefix_append _ _
          exact List.prefix_of_prefix_length_le this (List.prefix_append _ _) (Nat.le_of_lt hlen)
        rw [List.append_assoc, List.append_cancel_left_eq] at he
        -- the longer match ends inside `rest` or inside `q`
        rcases List.append_eq_append_iff.mp he with ⟨y, hy1, hy2⟩ | ⟨y, hy1, hy2⟩
        · -- rest = x ++ y
          refine h3 (w ++ x) y (by rw [List.append_assoc, ← hy1]) hlen ?_
          obtain ⟨p, hp, hm'⟩ := hs
          refine ⟨p, hp, matches_rest p hp _ _ _ ?_ hm'⟩
          intro hmem
          apply hm
          rw [hy1]
          rcases List.mem_append.mp hmem with h | h
          · exact List.mem_append_left _ h
          · exact List.mem_append_right _ (List.mem_append_left _ h)
        · -- x = rest ++ y
          cases y with
          | nil =>
            rw [List.append_nil] at hy1
            subst hy1
            refine h3 (w ++ x) [] (by simp) hlen ?_
            obtain ⟨p, hp, hm'⟩ := hs
            exact ⟨p, hp, matches_rest p hp _ _ _ hm hm'⟩
          | cons y0 y =>
            refine hx [] (w ++ rest) (y0 :: y) rest' rfl (by simp [h1]) (by simp) hy2 ?_
            rw [hy1] at hs
            simpa using hs
    · intro p0 u v r hp hu hv hq
      exact hx (w ++ p0) u v r (by rw [hp, List.append_assoc]) hu hv hq

/-! ### A quote after a text without quotations -/

theorem upC_eq_self (q : Char) (hq : q.toNat < 65 ∨ 122 < q.toNat ∨ (90 < q.toNat ∧ q.toNat < 97)) (c : Char)
    (h : Str.upC c = Str.upC q) : c = q := by
  apply Str.char_ext
  have h1 := Str.upC_toNat c
  have h2 := Str.upC_toNat q
  rw [h] at h1
  rw [h1] at h2
  split at h2 <;> split at h2 <;> omega

theorem quoted_shape (q : Char) (hq : q.toNat < 65 ∨ 122 < q.toNat ∨ (90 < q.toNat ∧ q.toNat < 97)) (w rest : Str)
    (h : Matches (quoted q) w rest) : ∃ v, w = q :: v := by
  unfold quoted at h
  obtain ⟨u, v, rfl, hu, _⟩ := (matches_seq _ _ _ _).mp h
  rw [matches_lit, upper_single] at hu
  obtain ⟨c, rfl, hc⟩ := hu
  exact ⟨v, by rw [upC_eq_self q hq c hc]; rfl⟩

/-- Characters that may stand before the quote: the first one of a quotation is none of them. -/
def noQuotationChar (c : Char) : Bool := !(['\'', '"', '`', '[', '/', '-'].contains c)

theorem identifier_cross (u v rest : Str) (hu : ∀ c, c ∈ u → noQuotationChar c = true)
    (h : Matches identifier (u ++ '\'' :: v) rest) : False := by
  unfold identifier at h
  rw [matches_alt, matches_alt, matches_alt] at h
  have head : ∀ q x, u ++ '\'' :: v = q :: x → noQuotationChar q = false → q ≠ '\'' → False := by
    intro q x he hq hne
    cases u with
    | nil => injection he with he _; exact hne he.symm
    | cons c u =>
      injection he with he _
      have := hu c (List.mem_cons_self ..)
      rw [he, hq] at this
      cases this
  rcases h with h | h | h | h
  · obtain ⟨x, hx⟩ := quoted_shape '"' (by decide) _ _ h
    exact head _ _ hx (by decide) (by decide)
  · obtain ⟨x, hx⟩ := quoted_shape '`' (by decide) _ _ h
    exact head _ _ hx (by decide) (by decide)
  · obtain ⟨a, b, he, ha, _⟩ := (matches_seq _ _ _ _).mp h
    rw [matches_lit, upper_single] at ha
    obtain ⟨c, rfl, hc⟩ := ha
    rw [upC_eq_self '[' (by decide) c hc] at he
    exact head _ _ he (by decide) (by decide)
  · have := isWord_all _ ((matches_word _ _).mp h)
    rw [List.all_append, List.all_cons, show isWordChar '\'' = false from by decide] at this
    simp at this

theorem rules_quote : ∀ p, p ∈ rules → (∃ rs, alphabet p.2 = some rs ∧ inSet rs '\'' = false)
    ∨ p ∈ [(.IDENTIFIER, identifier), (.SYSTEM_VARIABLE, systemVariable), (.USER_VARIABLE, userVariable),
           (.BIND_PARAMETER, bindParameter), (.STRING_LITERAL, stringLiteral), (.BLOB_LITERAL, blobLiteral),
           (.SINGLE_LINE_COMMENT, singleLineComment), (.MULTILINE_COMMENT, multilineComment),
           (.UNEXPECTED_CHAR, unexpectedChar)] := by
  have : rules.all (fun p => ((alphabet p.2).any (fun rs => !inSet rs '\'')) ||
      [(.IDENTIFIER, identifier), (.SYSTEM_VARIABLE, systemVariable), (.USER_VARIABLE, userVariable),
           (.BIND_PARAMETER, bindParameter), (.STRING_LITERAL, stringLiteral), (.BLOB_LITERAL, blobLiteral),
           (.SINGLE_LINE_COMMENT, singleLineComment), (.MULTILINE_COMMENT, multilineComment),
           (.UNEXPECTED_CHAR, unexpectedChar)].contains p) = true := by decide +kernel
  intro p hp
  have := List.all_eq_true.mp this p hp
  rw [Bool.or_eq_true] at this
  rcases this with h | h
  · left
    cases ha : alphabet p.2 with
    | none => rw [ha] at h; cases h
    | some rs => rw [ha] at h; exact ⟨rs, rfl, by simpa using h⟩
  · right
    exact List.contains_iff_mem.mp h

theorem seq_lit_cross (x : Char) (r : Re) (u v rest : Str)
    (hx : Str.upC '\'' ≠ Str.upC x)
    (h : Matches (.seq (Re.lit [x]) r) (u ++ '\'' :: v) rest) :
    ∃ c u', u = c :: u' ∧ Str.upC c = Str.upC x ∧ Matches r (u' ++ '\'' :: v) rest := by
  obtain ⟨a, b, he, ha, hb⟩ := (matches_seq _ _ _ _).mp h
  rw [matches_lit, upper_single] at ha
  obtain ⟨c, rfl, hc⟩ := ha
  cases u with
  | nil => injection he with he _; rw [← he] at hc; exact (hx hc).elim
  | cons c' u' =>
    injection he with h1 h2
    subst h1
    exact ⟨c', u', rfl, hc, by rw [List.append_eq] at h2; rw [h2]; exact hb⟩

/-- No rule matches across the border of a text without quotations and a quote, except for the `x` of a blob. -/
theorem no_cross (u v rest : Str) (hu : ∀ c, c ∈ u → noQuotationChar c = true) (hne : u ≠ [])
    (hx : ∀ u' c, u = u' ++ [c] → Str.upC c ≠ 'X') : ¬ SomeRule rules (u ++ '\'' :: v) rest := by
  rintro ⟨p, hp, hm⟩
  have headNot : ∀ (xs : Str) (x : Char) (r : Re), p.2 = .seq (Re.lit (x :: xs)) r →
      (x.toNat < 65 ∨ 122 < x.toNat ∨ (90 < x.toNat ∧ x.toNat < 97)) → noQuotationChar x = false → False := by
    intro xs x r he hq hn
    rw [he] at hm
    cases u with
    | nil => exact hne rfl
    | cons c u =>
      have h1 := matches_seq_lits_head _ _ _ _ _ _ hm
      have := hu c (List.mem_cons_self ..)
      rw [upC_eq_self x hq c h1, hn] at this
      cases this
  rcases rules_quote p hp with ⟨rs, ha, hq⟩ | h
  · have := List.all_eq_true.mp (matches_alphabet p.2 rs ha _ _ hm) '\'' (by simp)
    rw [hq] at this
    cases this
  · simp only [List.mem_cons, List.not_mem_nil, or_false] at h
    rcases h with h | h | h | h | h | h | h | h | h <;> subst h
    · exact identifier_cross u v rest hu hm
    · obtain ⟨c, u1, rfl, _, h1⟩ := seq_lit_cross _ _ _ _ _ (by decide) hm
      obtain ⟨c', u2, rfl, _, h2⟩ := seq_lit_cross _ _ _ _ _ (by decide) h1
      exact identifier_cross u2 v rest (fun x hx => hu x (List.mem_cons_of_mem _ (List.mem_cons_of_mem _ hx))) h2
    · obtain ⟨c, u1, rfl, _, h1⟩ := seq_lit_cross _ _ _ _ _ (by decide) hm
      exact identifier_cross u1 v rest (fun x hx => hu x (List.mem_cons_of_mem _ hx)) h1
    · rcases (matches_alt _ _ _ _).mp hm with hm | hm
      · have ha : alphabet (.seq (.cls false [('?', '?'), ('$', '$')]) (.star digit)) =
            some [('?', '?'), ('$', '$'), ('0', '9')] := by decide
        have := List.all_eq_true.mp (matches_alphabet _ _ ha _ _ hm) '\'' (by simp)
        rw [show inSet [('?', '?'), ('$', '$'), ('0', '9')] '\'' = false from by decide] at this
        cases this
      · obtain ⟨a, b, he, ha, hb⟩ := (matches_seq _ _ _ _).mp hm
        obtain ⟨c, rfl, hc⟩ := (matches_cls _ _ _ _).mp ha
        cases u with
        | nil => exact hne rfl
        | cons c' u' =>
          injection he with h1 h2
          have h2 : u' ++ '\'' :: v = b := h2
          rw [← h2] at hb
          exact identifier_cross u' v rest (fun x hx => hu x (List.mem_cons_of_mem _ hx)) hb
    · exact headNot [] '\'' _ rfl (by decide) (by decide)
    · obtain ⟨c, u1, rfl, hc, h1⟩ := seq_lit_cross _ _ _ _ _ (by decide) hm
      have hc : Str.upC c = 'X' := hc
      cases u1 with
      | nil => exact hx [] c rfl hc
      | cons c' u2 =>
        have := quoted_head _ _ _ _ h1
        have h2 := hu c' (by simp)
        rw [upC_eq_quote c' this] at h2
        cases h2
    · exact headNot ['-'] '-' _ rfl (by decide) (by decide)
    · exact headNot ['*'] '/' _ rfl (by decide) (by decide)
    · obtain ⟨c, hc, _⟩ := (matches_cls _ _ _ _).mp hm
      cases u with
      | nil => exact hne rfl
      | cons c' u' =>
        injection hc with _ hc
        simp at hc

theorem noQuotation_iff (p : Str) : NoQuotation p ↔ ∀ c, c ∈ p → noQuotationChar c = true := by
  unfold NoQuotation noQuotationChar
  constructor
  · intro h c hc
    rw [Bool.not_eq_true', ← Bool.not_eq_true, List.contains_iff_mem]
    exact h c hc
  · intro h c hc
    have := h c hc
    rw [Bool.not_eq_true', ← Bool.not_eq_true, List.contains_iff_mem] at this
    exact this

/-- A string literal after a text without quotations. -/
theorem lex_string_after (p s q : Str) (a b : List Token) (hp : NoQuotation p)
    (hx : ∀ u c, p = u ++ [c] → Str.upC c ≠ 'X') (hs : doubled s = true) (hq : quoteEnd q = true)
    (ha : lex p = some a) (hb : lex q = some b) :
    lex (p ++ ('\'' :: s ++ ['\'']) ++ q) =
      some (a ++ { kind := .STRING_LITERAL, text := '\'' :: s ++ ['\''] } :: b) := by
  have hp' := (noQuotation_iff p).mp hp
  rw [lex_iff] at *
  rw [List.append_assoc]
  refine tokenised_append p _ a _ ha (.cons _ _ _ _ (longest_string s q hs hq) hb) ?_ ?_
  · intro h
    have := hp' _ h
    cases this
  · intro p0 u v r hpu hu hv hq'
    obtain ⟨v', rfl⟩ : ∃ v', v = '\'' :: v' := by
      cases v with
      | nil => exact (hv rfl).elim
      | cons c v' =>
        have : c = '\'' := by
          have := congrArg List.head? hq'
          simpa using this.symm
        exact ⟨v', by rw [this]⟩
    refine no_cross u v' r (fun c hc => hp' c ?_) hu ?_
    · rw [hpu]; exact List.mem_append_right _ hc
    · intro u' c huc
      exact hx (p0 ++ u') c (by rw [hpu, huc, List.append_assoc])

theorem doubled_iff (v : Str) : doubled v = true ↔ QuotesPaired v := by
  constructor
  · intro h
    induction v using doubled.induct with
    | case1 => exact .nil
    | case2 c => exact .char c [] (by simpa [doubled] using h) .nil
    | case3 c' cs ih =>
      rw [doubled, if_pos rfl, Bool.and_eq_true, beq_iff_eq] at h
      obtain ⟨rfl, h⟩ := h
      exact .pair cs (ih h)
    | case4 c c' cs hc ih =>
      rw [doubled, if_neg hc] at h
      exact .char c _ hc (ih h)
  · intro h
    induction h with
    | nil => rfl
    | char c v hc _ ih =>
      cases v with
      | nil => simpa [doubled] using hc
      | cons => rw [doubled, if_neg hc]; exact ih
    | pair v _ ih => rw [doubled, if_pos rfl, ih]; rfl

theorem doubled_of_no_quote (v : Str) (h : '\'' ∉ v) : doubled v = true := by
  induction v using doubled.induct with
  | case1 => rfl
  | case2 c => simp [doubled]; intro e; exact h (by simp [e])
  | case3 c' cs ih => exact (h (by simp)).elim
  | case4 c c' cs hc ih =>
    rw [doubled, if_neg hc]
    exact ih (fun e => h (List.mem_cons_of_mem _ e))

end Verif.Lex
