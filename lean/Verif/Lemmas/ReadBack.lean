import Verif.Lemmas.Dml
import Verif.Lemmas.SelectWritten
import Verif.Lemmas.Others
import Verif.Lemmas.Writing
import Verif.Spec.ReadBack
/-! What the parser reports can be printed. -/
namespace Verif.Lex
open Verif Verif.Spec Verif.Query Verif.Lex.Re

/-- A token that the lexer gives. -/
def Lexed (t : Token) : Prop := ∃ rest, Longest rules t.kind t.text rest

theorem tokenised_lexed {q : Str} {ts : List Token} (h : Tokenised rules q ts) : ∀ t, t ∈ ts → Lexed t := by
  induction h with
  | nil => intro t ht; cases ht
  | cons k w rest ts hl _ ih =>
    intro t ht
    rcases List.mem_cons.mp ht with rfl | ht
    · exact ⟨rest, hl⟩
    · exact ih t ht

theorem writes_lexed {q : Str} {toks : List Token} (h : Writes q toks) : ∀ t, t ∈ toks → Lexed t := by
  obtain ⟨ts, h1, rfl⟩ := h
  intro t ht
  exact tokenised_lexed h1 t (List.mem_filter.mp ht).1

/-- The only rule of a kind matches the text of its tokens. -/
theorem lexed_matches {k : Tok} {r : Re} {t : Token} (hr : ∀ p, p ∈ rules → p.1 = k → p.2 = r) (h : Lexed t) (hk : t.kind = k) :
    ∃ rest, Matches r t.text rest := by
  obtain ⟨rest, -, ⟨pre, r', post, e, hm, -⟩, -⟩ := h
  have := hr (t.kind, r') (by rw [e]; simp) hk
  simp only at this
  exact ⟨rest, this ▸ hm⟩

theorem lexed_word {k : Tok} {x : Str} {t : Token} (hr : ∀ p, p ∈ rules → p.1 = k → p.2 = Re.lit x) (h : Lexed t) (hk : t.kind = k) :
    Str.upper t.text = Str.upper x := by
  obtain ⟨rest, hm⟩ := lexed_matches hr h hk
  exact (matches_lit x t.text rest).mp hm

theorem lexed_char {k : Tok} {c : Char} {t : Token} (hr : ∀ p, p ∈ rules → p.1 = k → p.2 = Re.lit [c]) (hu : ∀ d, Str.upC d = Str.upC c → d = c)
    (h : Lexed t) (hk : t.kind = k) : t.text = [c] := by
  have := lexed_word hr h hk
  cases ht : t.text with
  | nil => rw [ht] at this; simp [Str.upper] at this
  | cons d r =>
    rw [ht] at this
    simp only [Str.upper, List.map_cons, List.map_nil, List.cons.injEq, List.map_eq_nil_iff] at this
    rw [hu d this.1, this.2]

theorem lexed_number {t : Token} (h : Lexed t) (hk : t.kind = .NUMERIC_LITERAL) : NumberText t.text := by
  obtain ⟨rest, hm⟩ := lexed_matches (r := numeric) (by decide +kernel) h hk
  exact matches_noEof _ (by decide) _ _ _ hm

theorem lexed_blob {t : Token} (h : Lexed t) (hk : t.kind = .BLOB_LITERAL) : LitText t.text := by
  obtain ⟨rest, hm⟩ := lexed_matches (r := blobLiteral) (by decide +kernel) h hk
  obtain ⟨u, v, he, hu, hv⟩ := hm
  obtain ⟨b, rfl, hb⟩ := (quoted_iff '\'' (upC_fix '\'' (by decide) (by decide)) _ _).mp hv
  have hx : u = ['x'] ∨ u = ['X'] := by
    have := (matches_lit _ _ _).mp hu
    cases u with
    | nil => simp [Str.upper] at this
    | cons c r =>
      simp only [Str.upper, List.map_cons, List.map_nil, List.cons.injEq, List.map_eq_nil_iff] at this
      obtain ⟨h1, rfl⟩ := this
      have h1 : SameLetter c 'X' := h1
      rw [sameLetter_iff] at h1
      rcases h1 with rfl | rfl | rfl
      · exact Or.inr rfl
      · exact Or.inr rfl
      · exact Or.inl rfl
  rw [he]
  rcases hx with rfl | rfl
  · exact .blob (Or.inl rfl) hb
  · exact .blob (Or.inr rfl) hb

theorem in_one {a c : Char} (hu : ∀ d, Str.upC d = Str.upC a → d = a) (h : ∃ x, SameLetter x c ∧ a.toNat ≤ x.toNat ∧ x.toNat ≤ a.toNat) : c = a := by
  obtain ⟨x, hx, h1, h2⟩ := h
  have : x = a := Char.toNat_inj.mp (Nat.le_antisymm h2 h1)
  subst this
  exact hu c hx.symm

theorem in_digit {c : Char} (hc : inSet [('0', '9')] c = true) : Digit c := by
  rw [inSet_iff] at hc
  obtain ⟨r, hr, x, hx, h1, h2⟩ := hc
  rw [List.mem_singleton] at hr
  subst hr
  have e1 : '0'.toNat = 48 := rfl
  have e2 : '9'.toNat = 57 := rfl
  simp only [e1, e2] at h1 h2
  have hm := mem_of_interval digits10 48 57 (by decide) x h1 h2
  have : c = x := by
    have hall : ∀ x ∈ digits10, x.toNat < 65 ∨ 122 < x.toNat ∨ (90 < x.toNat ∧ x.toNat < 97) := by decide
    exact upC_eq_self x (hall x hm) c hx.symm
  subst this
  exact ⟨h1, h2⟩

theorem lexed_bind {t : Token} (h : Lexed t) (hk : t.kind = .BIND_PARAMETER) : LitText t.text := by
  obtain ⟨rest, hm⟩ := lexed_matches (r := bindParameter) (by decide +kernel) h hk
  have one : ∀ (rs : List (Char × Char)) u r, Matches (.cls false rs) u r → ∃ c, u = [c] ∧ inSet rs c = true := by
    rintro rs u r ⟨c, rfl, hc⟩
    exact ⟨c, rfl, by rw [inSet_iff]; exact hc.mpr rfl⟩
  rcases (matches_alt _ _ _ _).mp hm with ⟨u, v, he, hu, hv⟩ | ⟨u, v, he, hu, hv⟩
  · obtain ⟨c, rfl, hc⟩ := one _ _ _ hu
    rw [he]
    have hc' : c = '?' ∨ c = '$' := by
      rw [inSet_iff] at hc
      obtain ⟨r, hr, hx⟩ := hc
      simp only [List.mem_cons, List.not_mem_nil, or_false] at hr
      rcases hr with rfl | rfl
      · exact Or.inl (in_one (upC_fix _ (by decide) (by decide)) hx)
      · exact Or.inr (in_one (upC_fix _ (by decide) (by decide)) hx)
    refine .bind hc' ?_
    have hv : Reps (Matches digit) v rest := hv
    rw [digit, reps_cls, List.all_eq_true] at hv
    intro d hd
    have := hv d hd
    rw [Bool.bne_false] at this
    exact in_digit this
  · obtain ⟨c, rfl, hc⟩ := one _ _ _ hu
    rw [he]
    have hc' : c = ':' ∨ c = '@' ∨ c = '$' := by
      rw [inSet_iff] at hc
      obtain ⟨r, hr, hx⟩ := hc
      simp only [List.mem_cons, List.not_mem_nil, or_false] at hr
      rcases hr with rfl | rfl | rfl
      · exact Or.inl (in_one (upC_fix _ (by decide) (by decide)) hx)
      · exact Or.inr (Or.inl (in_one (upC_fix _ (by decide) (by decide)) hx))
      · exact Or.inr (Or.inr (in_one (upC_fix _ (by decide) (by decide)) hx))
    have hv := matches_noEof _ (by decide) _ _ [] hv
    rcases hc' with rfl | rfl | rfl
    · exact .named (Or.inl rfl) hv
    · obtain ⟨rest', -, hf, -⟩ := h
      rw [hk, he] at hf
      have hs : step '@' rules = [(.AT, .eps), (.SYSTEM_VARIABLE, .seq (Re.lit ['@']) identifier), (.USER_VARIABLE, identifier), (.BIND_PARAMETER, identifier),
        (.UNEXPECTED_CHAR, .eps)] := by decide +kernel
      have hf := (firstRule_step '@' rules _ v rest').mpr hf
      rw [hs, firstRule_cons, firstRule_cons, firstRule_cons] at hf
      rcases hf with ⟨hf, -⟩ | ⟨-, ⟨hf, -⟩ | ⟨-, ⟨hf, -⟩ | ⟨hf, -⟩⟩⟩
      · cases hf
      · cases hf
      · cases hf
      · exact absurd (matches_noEof _ (by decide) _ _ rest' hv) hf
    · exact .named (Or.inr rfl) hv

theorem lexed_plain {ts : List Token} (h : ∀ t ∈ ts, Lexed t) (hp : PlainValue ts) : LitText (textOf ts) := by
  rcases hp with ⟨t, rfl, hk⟩ | ⟨s, t, rfl, hs, ht⟩
  · have hl := h t (by simp)
    have e : textOf [t] = t.text := by simp [textOf]
    rw [e]
    simp only [List.mem_cons, List.not_mem_nil, or_false] at hk
    rcases hk with hk | hk | hk | hk | hk | hk | hk | hk | hk
    · exact .number (lexed_number hl hk)
    · exact lexed_blob hl hk
    · exact .word .null (lexed_word (x := s%"NULL") (by decide +kernel) hl hk)
    · exact .word .true (lexed_word (x := s%"TRUE") (by decide +kernel) hl hk)
    · exact .word .false (lexed_word (x := s%"FALSE") (by decide +kernel) hl hk)
    · exact .word .time (lexed_word (x := s%"CURRENT_TIME") (by decide +kernel) hl hk)
    · exact .word .date (lexed_word (x := s%"CURRENT_DATE") (by decide +kernel) hl hk)
    · exact .word .timestamp (lexed_word (x := s%"CURRENT_TIMESTAMP") (by decide +kernel) hl hk)
    · exact lexed_bind hl hk
  · have e : textOf [s, t] = s.text ++ t.text := by simp [textOf]
    have hn := lexed_number (h t (by simp)) ht
    have hl := h s (by simp)
    rw [e]
    simp only [List.mem_cons, List.not_mem_nil, or_false] at hs
    rcases hs with hs | hs
    · rw [lexed_char (c := '+') (by decide +kernel) (upC_fix '+' (by decide) (by decide)) hl hs]
      exact .plus hn
    · rw [lexed_char (c := '-') (by decide +kernel) (upC_fix '-' (by decide) (by decide)) hl hs]
      exact .minus hn

theorem paired_split {q c : Char} {y : Str} (hc : c ≠ q) : ∀ {z x : Str}, Paired q z → z = x ++ c :: y → Paired q x ∧ Paired q (c :: y) := by
  intro z x h
  induction h generalizing x with
  | nil => intro e; simp at e
  | char d v hd hv ih =>
    intro e
    cases x with
    | nil =>
      cases e
      exact ⟨.nil, .char _ _ hc hv⟩
    | cons a x =>
      cases e
      exact ⟨.char _ _ hd (ih rfl).1, (ih rfl).2⟩
  | pair v hv ih =>
    intro e
    cases x with
    | nil => cases e; exact absurd rfl hc
    | cons a x =>
      cases x with
      | nil => cases e; exact absurd rfl hc
      | cons b x =>
        cases e
        exact ⟨.pair _ (ih rfl).1, (ih rfl).2⟩

theorem paired_append {q : Char} {x y : Str} (hx : Paired q x) (hy : Paired q y) : Paired q (x ++ y) := by
  induction hx with
  | nil => exact hy
  | char c v hc _ ih => exact .char _ _ hc ih
  | pair v _ ih => exact .pair _ ih

theorem paired_quotes {v : Str} (h : Paired '\'' v) : QuotesPaired v := by
  induction h with
  | nil => exact .nil
  | char c v hc _ ih => exact .char _ _ hc ih
  | pair v _ ih => exact .pair _ ih

/-- What is left of a string without its quotes still has its quotes in pairs. -/
theorem paired_inner {a v b body : Str} (ha : ∀ c, c ∈ a → c = '\'' ∨ c = '"') (hv : BareEnds v) (hb : Paired '\'' body)
    (he : a ++ v ++ b = '\'' :: body ++ ['\'']) : QuotesPaired v := by
  cases hx : v with
  | nil => exact .nil
  | cons c r =>
    subst hx
    have hc := hv.1 c r rfl
    cases a with
    | nil =>
      simp only [List.nil_append, List.cons_append, List.cons.injEq] at he
      exact absurd he.1 hc.1
    | cons a0 a =>
      have he' : a ++ (c :: r) ++ b = body ++ ['\''] := by
        simp only [List.cons_append, List.cons.injEq] at he
        exact he.2
      obtain ⟨w, l, hl⟩ : ∃ w l, c :: r = w ++ [l] := by
        rcases List.eq_nil_or_concat (c :: r) with h | ⟨w, l, h⟩
        · cases h
        · exact ⟨w, l, by simpa using h⟩
      have hl' := hv.2 l w hl
      rcases List.eq_nil_or_concat b with rfl | ⟨b', q, hq⟩
      · rw [hl, List.append_nil, ← List.append_assoc] at he'
        have := (List.append_inj' he' rfl).2
        cases this
        exact absurd rfl hl'.1
      · rw [hq, List.concat_eq_append, ← List.append_assoc] at he'
        have hbody := (List.append_inj' he' rfl).1
        have h1 := (paired_split hc.1 hb (x := a) (y := r ++ b') (by rw [← hbody]; simp)).2
        have h2 := paired_split hl'.1 h1 (x := w) (y := b') (by
          rw [← List.cons_append, hl]; simp)
        rw [hl]
        have h3 : Paired '\'' [l] := .char _ _ hl'.1 .nil
        exact paired_quotes (paired_append h2.1 h3)

/-- A reported literal can be printed, and its value is a text. -/
theorem litTokens_printable {ts : List Token} {l : Literal} (h : ∀ t ∈ ts, Lexed t) (hl : LitTokens ts l) : PrintableLit l ∧ litAsText l = l := by
  cases hl with
  | str t a v b hk ht ha hb hv =>
    obtain ⟨rest, hm⟩ := lexed_matches (r := stringLiteral) (by decide +kernel) (h t (by simp)) hk
    obtain ⟨body, hb', hp⟩ := (quoted_iff '\'' (upC_fix '\'' (by decide) (by decide)) _ _).mp hm
    exact ⟨⟨paired_inner ha hv hp (ht.symm.trans hb'), hv⟩, rfl⟩
  | other _ hp => exact ⟨lexed_plain h hp, rfl⟩

theorem cmpTokens_printable {ts : List Token} {c : Cmp} (h : ∀ t ∈ ts, Lexed t) (hc : CmpTokens ts c) (hn : AnyName c.left.name) :
    PrintableCmp c ∧ cmpAsText c = c := by
  obtain ⟨n, o, l, op, lit, rfl, -, -, -, hop, hl, rfl⟩ := hc
  obtain ⟨h1, h2⟩ := litTokens_printable (fun t ht => h t (by simp [ht])) hl
  refine ⟨⟨rfl, hn, ?_, lit, rfl, h1⟩, ?_⟩
  · revert hop
    generalize o.kind = k
    intro hop
    cases hop <;> exact ⟨nofun, nofun⟩
  · simp [cmpAsText, h2]

theorem condTokens_printable {ts : List Token} {e : Expr} (h : ∀ t ∈ ts, Lexed t) (hc : CondTokens ts e) (hn : PlainExpr e) :
    PrintableExpr e ∧ exprAsText e = e := by
  cases hc with
  | one _ c hc =>
    obtain ⟨h1, h2⟩ := cmpTokens_printable h hc hn
    exact ⟨.one h1, by simp [exprAsText, h2]⟩
  | and a b w x y hw ha hb =>
    obtain ⟨h1, h2⟩ := cmpTokens_printable (fun t ht => h t (by simp [ht])) ha hn.1
    obtain ⟨h3, h4⟩ := cmpTokens_printable (fun t ht => h t (by simp [ht])) hb hn.2
    exact ⟨.and h1 h3, by simp [exprAsText, h2, h4]⟩
  | or a b w x y hw ha hb =>
    obtain ⟨h1, h2⟩ := cmpTokens_printable (fun t ht => h t (by simp [ht])) ha hn.1
    obtain ⟨h3, h4⟩ := cmpTokens_printable (fun t ht => h t (by simp [ht])) hb hn.2
    exact ⟨.or h1 h3, by simp [exprAsText, h2, h4]⟩

theorem where_printable {own : List Token} {s : Statement} (h : ∀ t ∈ own, Lexed t) (hw : WhereWritten own s) (hn : PlainCond (condOf s)) :
    PrintableCond (condOf s) ∧ (condOf s).map exprAsText = condOf s := by
  cases hc : condOf s with
  | none => exact ⟨fun e he => (by cases he), rfl⟩
  | some e =>
    obtain ⟨b, w, c, a, rfl, -, -, ht, -⟩ := hw e hc
    obtain ⟨h1, h2⟩ := condTokens_printable (fun t ht => h t (by simp [ht])) ht (hn e hc)
    exact ⟨fun e' he => (by cases he; exact h1), by simp [h2]⟩

/-! ### Statements -/

theorem pieces_mem {P : List Token → Statement → Prop} {toks : List Token} {l : List Statement} (h : Pieces P toks l) :
    ∀ s, s ∈ l → ∃ own, (∀ t, t ∈ own → t ∈ toks) ∧ P own s := by
  induction h with
  | nil => intro s hs; cases hs
  | cons b o hp hs _ ih =>
    intro s hm
    rcases List.mem_cons.mp hm with rfl | hm
    · exact ⟨o, fun t ht => by simp [ht], hp⟩
    · obtain ⟨own, h1, h2⟩ := ih s hm
      exact ⟨own, fun t ht => by simp [h1 t ht], h2⟩

theorem _root_.Verif.Spec.Sep.mem_sub {α : Type} {P : List Token → α → Prop} {ts : List Token} {l : List α} (h : Sep P ts l) :
    ∀ a, a ∈ l → ∃ us, (∀ t, t ∈ us → t ∈ ts) ∧ P us a := by
  induction h with
  | one ts a _ hp => intro b hb; rw [List.mem_singleton.mp hb]; exact ⟨ts, fun _ h => h, hp⟩
  | cons ts w rest a l _ hp _ _ ih =>
    intro b hb
    rcases List.mem_cons.mp hb with rfl | hb
    · exact ⟨ts, fun t ht => by simp [ht], hp⟩
    · obtain ⟨us, h1, h2⟩ := ih b hb
      exact ⟨us, fun t ht => by simp [h1 t ht], h2⟩

theorem _root_.Verif.Spec.Sep.ne_nil {α : Type} {P : List Token → α → Prop} {ts : List Token} {l : List α} (h : Sep P ts l) : l ≠ [] := by
  cases h <;> simp

theorem select_printable {toUint : Str → Option Nat} {own own' : List Token} {x : Select} (hu : ∀ s n, toUint s = some n → n < 2 ^ 64)
    (hl : ∀ t ∈ own', Lexed t) (hs : SelectWritten toUint own (.select x)) (hw : WhereWritten own' (.select x)) (hp : PlainSelect x) :
    PrintableSelect x ∧ selectAsText x = x := by
  obtain ⟨wth, core, comp, ord, lim, -, -, -, hcore, -, hord, hlim⟩ := hs x rfl
  obtain ⟨hc1, hc2⟩ := where_printable hl hw hp.cond
  have hg : ∀ s : Str, (toUint s).getD 0 < 2 ^ 64 := by
    intro s
    cases h : toUint s with
    | none => simp
    | some n => exact hu s n h
  refine ⟨⟨?_, hp.selectors, hp.some_table, hp.tables, hc1, ?_, ?_, hp.offset, hp.group⟩, ?_⟩
  · rcases hcore with ⟨-, -, h, -⟩ | ⟨w, d, cols, frm, whr, grp, win, -, -, -, h, -⟩
    · exact absurd h hp.some_table
    · exact h.ne_nil
  · intro o ho
    refine ⟨hp.orders o ho, ?_⟩
    rcases hord with ⟨-, h⟩ | ⟨w, b, r, items, -, -, -, h, he⟩
    · rw [h] at ho; cases ho
    · rw [he, List.mem_filterMap] at ho
      obtain ⟨i, hi, rfl⟩ := ho
      obtain ⟨us, -, ht⟩ := h.mem_sub _ hi
      cases ht <;> simp
  · rcases hlim with ⟨-, h⟩ | ⟨w, a, -, -, -, h⟩ | ⟨w, a, c, b, -, -, -, -, -, h⟩ <;> rw [h]
    · exact ⟨by decide, by decide⟩
    · exact ⟨hg _, by simp⟩
    · exact ⟨hg _, hg _⟩
  · have : x.cond.map exprAsText = x.cond := hc2
    simp [selectAsText, this]

theorem pairUp_mem {names : List Str} {items : List Item} : ∀ c, c ∈ pairUp names items →
    ∃ n l, c = { name := n, lit := some l } ∧ (Item.value l ∈ items ∨ ∃ m, Item.named m l ∈ items) := by
  induction items generalizing names with
  | nil => intro c hc; cases names <;> cases hc
  | cons i r ih =>
    intro c hc
    have up : (∃ n l, c = { name := n, lit := some l } ∧ (Item.value l ∈ r ∨ ∃ m, Item.named m l ∈ r)) →
        ∃ n l, c = { name := n, lit := some l } ∧ (Item.value l ∈ i :: r ∨ ∃ m, Item.named m l ∈ i :: r) := by
      rintro ⟨n, l, h1, h2 | ⟨m, h2⟩⟩
      · exact ⟨n, l, h1, Or.inl (List.mem_cons_of_mem _ h2)⟩
      · exact ⟨n, l, h1, Or.inr ⟨m, List.mem_cons_of_mem _ h2⟩⟩
    cases i with
    | other => cases names <;> exact up (ih c hc)
    | named m l =>
      have hc : c ∈ ({ name := m, lit := some l } : Column) :: pairUp names r := by cases names <;> exact hc
      rcases List.mem_cons.mp hc with rfl | hc
      · exact ⟨m, l, rfl, Or.inr ⟨m, by simp⟩⟩
      · exact up (ih c hc)
    | value l =>
      cases names with
      | nil => exact up (ih c hc)
      | cons n ns =>
        rcases List.mem_cons.mp hc with rfl | hc
        · exact ⟨n, l, rfl, Or.inl (by simp)⟩
        · exact up (ih c hc)

theorem insert_printable {own : List Token} {i : Insert} (hl : ∀ t ∈ own, Lexed t) (hi : InsertWritten own (.insert i)) (hp : PlainInsert i) :
    PrintableInsert i ∧ insertAsText i = i := by
  obtain ⟨wth, kw, into, sch, tbl, als, ns, w, rows, tail, names, rfl, -, -, -, -, -, -, hsch, -, -, -, hrows, -⟩ := hi i rfl
  have hv : ∀ r ∈ i.values, ∀ c ∈ r, PrintableValue c ∧ columnAsText c = c := by
    intro r hr c hc
    obtain ⟨us, hus, o, body, cl, items, rfl, -, -, hit, rfl⟩ := hrows.mem_sub r hr
    have hbody : ∀ t ∈ body, Lexed t := fun t ht => hl t (by have := hus t (by simp [ht]); simp [this])
    obtain ⟨n, l, rfl, hm⟩ := pairUp_mem c hc
    have hlit : PrintableLit l ∧ litAsText l = l := by
      rcases hm with hm | ⟨m, hm⟩
      · obtain ⟨vs, hvs, ht⟩ := hit.mem_sub _ hm
        cases ht with
        | lit _ ht => exact litTokens_printable (fun t ht => hbody t (hvs t ht)) ht
      · obtain ⟨vs, hvs, ht⟩ := hit.mem_sub _ hm
        cases ht with
        | named op _ _ ht =>
          obtain ⟨a, o, b, op', lit, rfl, -, -, -, -, ht, he⟩ := ht
          cases he
          exact litTokens_printable (fun t ht => hbody t (hvs t (by simp [ht]))) ht
    exact ⟨⟨rfl, hp.names _ hr _ hc, l, rfl, hlit.1⟩, by simp [columnAsText, hlit.2]⟩
  refine ⟨⟨⟨i.table.name, hp.table, ?_⟩, ?_, fun r hr c hc => (hv r hr c hc).1⟩, ?_⟩
  · cases ht : i.table
    rw [ht] at hsch
    simp only at hsch
    rw [hsch]
  · cases hvs : i.values with
    | nil => exact absurd hvs hrows.ne_nil
    | cons r rs => exact ⟨r, rs, rfl, hp.row r rs hvs⟩
  · have : i.values.map (·.map columnAsText) = i.values := by
      rw [List.map_congr_left (g := id) fun r hr => ?_, List.map_id]
      rw [List.map_congr_left (g := id) fun c hc => (hv r hr c hc).2, List.map_id, id]
    simp [insertAsText, this]

theorem update_printable {own own' : List Token} {u : Update} (hl : ∀ t ∈ own, Lexed t) (hl' : ∀ t ∈ own', Lexed t) (hs : UpdateWritten own (.update u))
    (hw : WhereWritten own' (.update u)) (hp : PlainUpdate u) : PrintableUpdate u ∧ updateAsText u = u := by
  obtain ⟨wth, w, alt, tbl, st, body, tail, rfl, -, -, -, -, ht, -, hb, -⟩ := hs u rfl
  obtain ⟨hc1, hc2⟩ := where_printable hl' hw hp.cond
  have hv : ∀ c ∈ u.columns, PrintableSet c ∧ columnAsText c = c := by
    intro c hc
    have hpc := hp.columns c hc
    obtain ⟨us, hus, hset⟩ := hb.mem_sub c hc
    cases hset with
    | lit n o v l ho hn hno hlt =>
      obtain ⟨h1, h2⟩ := litTokens_printable (fun t ht => hl t (by have := hus t (by simp [ht]); simp [this])) hlt
      exact ⟨.lit ⟨rfl, hpc.name, l, rfl, h1⟩, by simp [columnAsText, h2]⟩
    | arith n o x p y ho hn hno hk ht =>
      obtain ⟨a, b, he, ha, hb⟩ := hpc.value rfl
      simp only [List.cons.injEq, and_true] at he
      obtain ⟨rfl, rfl⟩ := he
      simp only [List.mem_cons, List.not_mem_nil, or_false] at ht
      refine ⟨?_, rfl⟩
      rcases ht with ht | ht | ht | ht | ht <;> rw [ht]
      · exact .arith (e := .opAdd) hpc.name ha hb (by simp)
      · exact .arith (e := .opSub) hpc.name ha hb (by simp)
      · exact .arith (e := .opMul) hpc.name ha hb (by simp)
      · exact .arith (e := .opDiv) hpc.name ha hb (by simp)
      · exact .arith (e := .opMod) hpc.name ha hb (by simp)
    | lost n o v ho hn hno hnv =>
      obtain ⟨a, b, he, -⟩ := hpc.value rfl
      cases he
  refine ⟨⟨⟨u.table.name, hp.table, by rw [ht]⟩, hb.ne_nil, fun c hc => (hv c hc).1, hc1⟩, ?_⟩
  have h1 : u.columns.map columnAsText = u.columns := by
    rw [List.map_congr_left (g := id) fun c hc => (hv c hc).2, List.map_id]
  have h2 : u.cond.map exprAsText = u.cond := hc2
  simp [updateAsText, h1, h2]

theorem delete_printable {own own' : List Token} {d : Delete} (hl' : ∀ t ∈ own', Lexed t) (hs : DeleteWritten own (.delete d))
    (hw : WhereWritten own' (.delete d)) (hp : PlainDelete d) : PrintableDelete d ∧ deleteAsText d = d := by
  obtain ⟨wth, w, f, tbl, tail, -, -, -, -, -, ht, -⟩ := hs d rfl
  obtain ⟨hc1, hc2⟩ := where_printable hl' hw hp.cond
  have h2 : d.cond.map exprAsText = d.cond := hc2
  exact ⟨⟨⟨d.table.name, hp.table, by rw [ht]⟩, hc1⟩, by simp [deleteAsText, h2]⟩

/-! ### Values -/

theorem litTokens_text {ts : List Token} {l : Literal} (h : LitTokens ts l) : ∃ x, l.v = .str x := by
  cases h <;> exact ⟨_, rfl⟩

theorem condTokens_text {ts : List Token} {e : Expr} (h : CondTokens ts e) : ∀ l ∈ exprLits e, ∃ x, l.v = .str x := by
  have cmp : ∀ {ts : List Token} {c : Cmp}, CmpTokens ts c → ∀ l ∈ c.right.toList, ∃ x, l.v = .str x := by
    rintro ts c ⟨n, o, l, op, lit, -, -, -, -, -, hl, rfl⟩ l' hl'
    cases List.mem_singleton.mp hl'
    exact litTokens_text hl
  cases h with
  | one _ c hc => exact cmp hc
  | and a b w x y hw ha hb => exact fun l hl => (List.mem_append.mp hl).elim (cmp ha l) (cmp hb l)
  | or a b w x y hw ha hb => exact fun l hl => (List.mem_append.mp hl).elim (cmp ha l) (cmp hb l)

theorem insert_text {own : List Token} {i : Insert} (hi : InsertWritten own (.insert i)) : ∀ r ∈ i.values, ∀ c ∈ r, ∀ l ∈ c.lit.toList, ∃ x, l.v = .str x := by
  obtain ⟨wth, kw, into, sch, tbl, als, ns, w, rows, tail, names, rfl, -, -, -, -, -, -, -, -, -, -, hrows, -⟩ := hi i rfl
  intro r hr c hc l' hl'
  obtain ⟨us, -, o, body, cl, items, rfl, -, -, hit, rfl⟩ := hrows.mem_sub r hr
  obtain ⟨n, l, rfl, hm⟩ := pairUp_mem c hc
  cases List.mem_singleton.mp hl'
  rcases hm with hm | ⟨m, hm⟩
  · obtain ⟨vs, -, ht⟩ := hit.mem_sub _ hm
    cases ht with
    | lit _ ht => exact litTokens_text ht
  · obtain ⟨vs, -, ht⟩ := hit.mem_sub _ hm
    cases ht with
    | named op _ _ ht =>
      obtain ⟨a, o, b, op', lit, rfl, -, -, -, -, ht, he⟩ := ht
      cases he
      exact litTokens_text ht

theorem update_text {own : List Token} {u : Update} (hs : UpdateWritten own (.update u)) : ∀ c ∈ u.columns, ∀ l ∈ c.lit.toList, ∃ x, l.v = .str x := by
  obtain ⟨wth, w, alt, tbl, st, body, tail, rfl, -, -, -, -, ht, -, hb, -⟩ := hs u rfl
  intro c hc l hl
  obtain ⟨us, hus, hset⟩ := hb.mem_sub c hc
  cases hset with
  | lit n o v l' ho hn hno hlt => cases List.mem_singleton.mp hl; exact litTokens_text hlt
  | arith => cases hl
  | lost => cases hl

end Verif.Lex
