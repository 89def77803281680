import Verif.Lemmas.LexLit
import Verif.Props.Lexer
import Verif.Lemmas.VisitQuery
import Verif.Spec.RoundTrip
/-! Tokens of printed texts. -/
namespace Verif.Lex
open Verif Verif.Spec Verif.Query Verif.Props Verif.Gram

/-- Characters that end any token before them. -/
def seps : Str := s%" ,();"

/-- What may follow a piece of text. -/
def sepStart : Str → Bool
  | [] => true
  | c :: _ => seps.contains c

/-- The visible tokens of a text. -/
def Lx (s : Str) (ts : List Token) : Prop := (lex s).map visible = some ts

/-- The text `a` writes the tokens `ta`, whatever separated text follows. -/
def Writing (a : Str) (ta : List Token) : Prop :=
  ∀ rest ts, sepStart rest = true → Lx rest ts → Lx (a ++ rest) (ta ++ ts)

theorem Lx.nil : Lx [] [] := rfl

theorem Lx.cons {t : Tok} {w rest : Str} {ts : List Token} (h : Longest rules t w rest) (hh : hidden t = false)
    (hr : Lx rest ts) : Lx (w ++ rest) (⟨t, w⟩ :: ts) := by
  unfold Lx at *
  cases hl : lex rest with
  | none => rw [hl] at hr; cases hr
  | some l =>
    rw [hl, Option.map_some, Option.some.injEq] at hr
    rw [lex_cons t w rest l h hl, Option.map_some, Option.some.injEq]
    simp [visible, hh, ← hr]

theorem Lx.space {rest : Str} {ts : List Token} (hr : Lx rest ts) : Lx (' ' :: rest) ts := by
  unfold Lx at *
  cases hl : lex rest with
  | none => rw [hl] at hr; cases hr
  | some l =>
    rw [hl, Option.map_some, Option.some.injEq] at hr
    have := lex_cons .SPACES [' '] rest l (longest_space rest) hl
    rw [List.singleton_append] at this
    rw [this, Option.map_some, Option.some.injEq, ← hr]
    rfl

theorem Lx.writes {q : Str} {ts : List Token} (h : Lx q ts) : Writes q ts := by
  unfold Lx at h
  cases hl : lex q with
  | none => rw [hl] at h; cases h
  | some l =>
    rw [hl, Option.map_some, Option.some.injEq] at h
    exact ⟨l, (lex_iff _ _).mp hl, h⟩

namespace Writing

theorem writes {q : Str} {ts : List Token} (h : Writing q ts) : Writes q ts := by
  have := h [] [] rfl .nil
  rw [List.append_nil, List.append_nil] at this
  exact this.writes

theorem nil : Writing [] [] := fun _ _ _ h => h

/-- One token. -/
theorem tok {t : Tok} {w : Str} (hh : hidden t = false) (h : ∀ rest, sepStart rest = true → Longest rules t w rest) :
    Writing w [⟨t, w⟩] := fun rest _ hs hr => Lx.cons (h rest hs) hh hr

theorem space {a b : Str} {ta tb : List Token} (ha : Writing a ta) (hb : Writing b tb) :
    Writing (a ++ ' ' :: b) (ta ++ tb) := by
  intro rest ts hs hr
  rw [List.append_assoc, List.append_assoc]
  exact ha _ _ rfl (Lx.space (hb rest ts hs hr))

theorem comma {a b : Str} {ta tb : List Token} (ha : Writing a ta) (hb : Writing b tb) :
    Writing (a ++ ',' :: ' ' :: b) (ta ++ kw .std .COMMA :: tb) := by
  intro rest ts hs hr
  rw [List.append_assoc, List.append_assoc]
  exact ha _ _ rfl (Lx.cons (longest_comma _) rfl (Lx.space (hb rest ts hs hr)))

theorem parens {a : Str} {ta : List Token} (ha : Writing a ta) : Writing ('(' :: (a ++ [')'])) (Spec.parens .std ta) := by
  intro rest ts hs hr
  have h1 : Lx (')' :: rest) (kw .std .CLOSE_PAR :: ts) := Lx.cons (longest_close _) rfl hr
  have h2 := Lx.cons (longest_open (a ++ ')' :: rest)) rfl (ha _ _ rfl h1)
  simpa [Spec.parens, kw, Spelling.std] using h2

/-- A name and a parenthesised list. -/
theorem call {f a : Str} {tf ta : List Token} (hf : Writing f tf) (ha : Writing a ta) :
    Writing (f ++ '(' :: (a ++ [')'])) (tf ++ Spec.parens .std ta) := by
  intro rest ts hs hr
  rw [List.append_assoc, List.append_assoc]
  exact hf _ _ rfl (parens ha rest ts hs hr)

/-- Texts separated by spaces. -/
inductive Parts : List Str → List Token → Prop
  | nil : Parts [] []
  | cons {a : Str} {l : List Str} {ta tl : List Token} : Writing a ta → Parts l tl → Parts (a :: l) (ta ++ tl)

theorem Parts.append {l m : List Str} {tl tm : List Token} (hl : Parts l tl) (hm : Parts m tm) : Parts (l ++ m) (tl ++ tm) := by
  induction hl with
  | nil => exact hm
  | cons ha _ ih => rw [List.cons_append, List.append_assoc]; exact .cons ha ih

theorem Parts.one {a : Str} {ta : List Token} (h : Writing a ta) : Parts [a] ta := by
  have := Parts.cons h .nil
  rwa [List.append_nil] at this

theorem spaces {l : List Str} {tl : List Token} (h : Parts l tl) : Writing (Util.joinWithSpace l) tl := by
  induction h with
  | nil => exact nil
  | @cons a l ta tl ha hl ih =>
    cases hl with
    | nil => rw [List.append_nil]; exact ha
    | cons hb hm => 
      have := space ha ih
      simpa [Util.joinWithSpace, Str.join] using this

theorem commas {α : Type} (xs : List α) (f : α → Str) (g : α → List Token) (h : ∀ x ∈ xs, Writing (f x) (g x)) :
    Writing (Util.joinWithComma (xs.map f)) (Spec.commas .std (xs.map g)) := by
  induction xs with
  | nil => exact nil
  | cons x xs ih =>
    cases xs with
    | nil =>
      have := h x (by simp)
      simpa [Util.joinWithComma, Str.join, Spec.commas] using this
    | cons y ys =>
      have := comma (h x (by simp)) (ih (fun z hz => h z (List.mem_cons_of_mem _ hz)))
      simpa [Util.joinWithComma, Str.join, Spec.commas] using this

/-- Operators. -/
theorem op {t : Tok} {w : Str} (hh : hidden t = false) (hw : w ≠ [])
    (ha : accept false (steps w rules) = some t ∧ accept true (steps w rules) = some t)
    (hs : ∀ c ∈ seps, step c (steps w rules) = []) : Writing w [⟨t, w⟩] := by
  refine tok hh (fun rest hr => longest_of_accept t w rest hw ?_ ?_)
  · cases rest with
    | nil => exact ha.2
    | cons => exact ha.1
  · cases rest with
    | nil => trivial
    | cons c r => exact hs c (by simpa [sepStart] using hr)

theorem sep_wordEnd {rest : Str} (h : sepStart rest = true) : wordEnd rest = true := by
  cases rest with
  | nil => rfl
  | cons c r =>
    have : ∀ c ∈ seps, wordEnd [c] = true := by decide
    exact this c (by simpa [sepStart] using h)

theorem sep_numberEnd {rest : Str} (h : sepStart rest = true) : numberEnd rest = true := by
  cases rest with
  | nil => rfl
  | cons c r =>
    have : ∀ c ∈ seps, numberEnd [c] = true := by decide +kernel
    exact this c (by simpa [sepStart] using h)

theorem sep_quoteEnd {rest : Str} (h : sepStart rest = true) : quoteEnd rest = true := by
  cases rest with
  | nil => rfl
  | cons c r =>
    have : ∀ c ∈ seps, quoteEnd [c] = true := by decide
    exact this c (by simpa [sepStart] using h)

theorem wordKind_visible (w : Str) : hidden (wordKind w) = false := by
  unfold wordKind
  split
  · rename_i k hk
    have h1 := List.mem_of_find?_eq_some hk
    have : ∀ k ∈ keywords, hidden k.1 = false := by decide +kernel
    exact this k h1
  · rfl

theorem word {w : Str} (hw : isWord w = true) : Writing w [⟨wordKind w, w⟩] :=
  tok (wordKind_visible w) (fun rest hr => longest_word w rest hw (sep_wordEnd hr))

/-- A keyword in capital letters. -/
theorem keyword (t : Tok) (hw : isWord (Spelling.std t) = true ∧ wordKind (Spelling.std t) = t) :
    Writing (Spelling.std t) [kw .std t] := by
  have := word hw.1
  rwa [hw.2] at this

theorem isWord_of {n : Str} (h : Name n) : isWord n = true := by
  obtain ⟨c, r, rfl, hc⟩ := h.start
  simp only [isWord, Bool.and_eq_true, isWordStart, isWordChar, List.all_eq_true]
  exact ⟨(inSet_iff _ _).mpr hc, fun x hx => (inSet_iff _ _).mpr (h.chars x (by simp [hx]))⟩

theorem kind_of {n : Str} (h : Name n) : wordKind n = .IDENTIFIER := by
  unfold wordKind
  rw [List.find?_eq_none.mpr]
  intro k hk
  have := h.free k hk
  simpa using fun he => this he.symm

theorem name {n : Str} (h : Name n) : Writing n [ident n] := by
  have := word (isWord_of h)
  rwa [kind_of h] at this

theorem step_bracket : step '[' rules =
    [(.IDENTIFIER, .seq (.star (.cls true [(']', ']')])) (Re.lit [']'])), (.UNEXPECTED_CHAR, .eps)] := by decide +kernel

theorem longest_bracket (v rest : Str) (hv : ']' ∉ v) : Longest rules .IDENTIFIER ('[' :: v ++ [']']) rest := by
  have hb : ∀ w r, Matches (.seq (.star (.cls true [(']', ']')])) (Re.lit [']'])) w r ↔ ∃ v, w = v ++ [']'] ∧ ']' ∉ v := by
    intro w r
    have h := bracket_iff ('[' :: w) r
    rw [matches_seq] at h
    constructor
    · intro hm
      obtain ⟨v, he, hv⟩ := h.mp ⟨['['], w, rfl, (matches_q '[' (upC_fix '[' (by decide) (by decide)) _ _).mpr rfl, hm⟩
      exact ⟨v, by simpa using he, hv⟩
    · rintro ⟨v, rfl, hv⟩
      obtain ⟨a, b, he, ha, hb⟩ := h.mpr ⟨v, rfl, hv⟩
      rw [(matches_q '[' (upC_fix '[' (by decide) (by decide)) _ _).mp ha] at he
      have : v ++ [']'] = b := by simpa using he
      rw [this]
      exact hb
  refine longest_via (p := ['[']) (v := v ++ [']']) (by simp) (show steps ['['] rules = _ from step_bracket) ?_ ?_
  · rw [firstRule_cons]
    exact Or.inl ⟨rfl, (hb _ _).mpr ⟨v, rfl, hv⟩⟩
  · rintro c y rest' he ⟨p, hp, hm⟩
    simp only [List.mem_cons, List.not_mem_nil, or_false] at hp
    rcases hp with hp | hp <;> subst hp
    · obtain ⟨b, hb1, hb2⟩ := (hb _ _).mp hm
      obtain ⟨z, l, hz⟩ : ∃ z l, c :: y = z ++ [l] := by
        rcases List.eq_nil_or_concat (c :: y) with h | ⟨z, l, h⟩
        · cases h
        · exact ⟨z, l, by simpa using h⟩
      rw [hz] at hb1
      have : (v ++ ']' :: z) ++ [l] = b ++ [']'] := by simpa using hb1
      exact hb2 ((List.append_inj' this rfl).1 ▸ by simp)
    · have := (matches_eps _ _).mp hm
      simp at this

/-- A name between quotes is one token. -/
theorem longest_quotedName {n rest : Str} (h : QuotedName n) (hr : ∀ c r, rest = c :: r → c ≠ '"' ∧ c ≠ '`') :
    Longest rules .IDENTIFIER n rest := by
  cases h with
  | double hv => exact longest_quoted '"' (upC_fix '"' (by decide) (by decide)) .IDENTIFIER step_doublequote _ rest hv (fun c r e => (hr c r e).1)
  | back hv => exact longest_quoted '`' (upC_fix '`' (by decide) (by decide)) .IDENTIFIER step_backquote _ rest hv (fun c r e => (hr c r e).2)
  | bracket hv => exact longest_bracket _ rest hv

theorem anyName {n : Str} (h : AnyName n) : Writing n [ident n] := by
  rcases h with h | h
  · exact name h
  · refine tok rfl (fun rest hr => longest_quotedName h ?_)
    rintro c r rfl
    have : ∀ c ∈ seps, c ≠ '"' ∧ c ≠ '`' := by decide
    exact this c (by simpa [sepStart] using hr)

theorem digit_of {c : Char} (h : Digit c) : isDigit c = true := by
  unfold Digit at h
  have e1 : '0'.toNat = 48 := rfl
  have e2 : '9'.toNat = 57 := rfl
  simp only [isDigit, Bool.and_eq_true, decide_eq_true_eq]
  omega

theorem longest_numberText {x rest : Str} (h : NumberText x) (hr : sepStart rest = true) : Longest rules .NUMERIC_LITERAL x rest := by
  exact longest_numeric (matches_noEof _ (by decide +kernel) _ _ _ h) (sep_numberEnd hr)

theorem num {x : Str} (h : NumberText x) : Writing x [number x] := tok rfl (fun _ hr => longest_numberText h hr)

theorem signed {t : Tok} {c : Char} {x : Str} (h : NumberText x) (hh : hidden t = false) (ha : accept false (steps [c] rules) = some t)
    (hd : ∀ d ∈ '.' :: digits10, step d (steps [c] rules) = []) : Writing (c :: x) [⟨t, [c]⟩, number x] := by
  intro rest ts hs hr
  have h1 := num h rest ts hs hr
  obtain ⟨d, r, rfl, hd'⟩ := matches_numeric_head h
  refine Lx.cons (longest_before t [c] d (r ++ rest) (by simp) ha (hd d ?_)) hh h1
  rcases hd' with hd' | ⟨rfl, -⟩
  · exact List.mem_cons_of_mem _ (digit_mem d hd')
  · exact List.mem_cons_self ..

theorem sep_valueEnd {rest : Str} (h : sepStart rest = true) : valueEnd rest = true := by
  cases rest with
  | nil => rfl
  | cons c r =>
    have : ∀ c ∈ seps, valueEnd [c] = true := by decide
    exact this c (by simpa [sepStart] using h)

theorem named {c : Char} {x : Str} (hc : c = ':' ∨ c = '$') (h : Matches identifier x []) : Writing (c :: x) [⟨.BIND_PARAMETER, c :: x⟩] :=
  tok rfl (fun _ hr => longest_named hc (matches_noEof _ (by decide +kernel) _ _ _ h) (sep_valueEnd hr))

theorem blob {c : Char} {v : Str} (hc : c = 'x' ∨ c = 'X') (h : Paired '\'' v) :
    Writing (c :: '\'' :: v ++ ['\'']) [⟨.BLOB_LITERAL, c :: '\'' :: v ++ ['\'']⟩] :=
  tok rfl (fun _ hr => longest_blob hc h (sep_valueEnd hr))

theorem bind_steps (x : Str) (act : List (Tok × Re)) (hx : ∀ d ∈ x, Digit d)
    (hact : ∀ d ∈ digits10, step d act = [(.BIND_PARAMETER, .star digit)]) (hx' : x ≠ []) :
    steps x act = [(.BIND_PARAMETER, .star digit)] := by
  induction x generalizing act with
  | nil => exact absurd rfl hx'
  | cons d x ih =>
    rw [steps_cons, hact d (digit_mem d (digit_of (hx d (by simp))))]
    cases x with
    | nil => rfl
    | cons e x => exact ih _ (fun y hy => hx y (List.mem_cons_of_mem _ hy)) (by decide +kernel) (by simp)

theorem bind {c : Char} {x : Str} (hc : c = '?' ∨ c = '$') (hx : ∀ d ∈ x, Digit d) :
    Writing (c :: x) [⟨.BIND_PARAMETER, c :: x⟩] := by
  by_cases hx' : x = []
  · subst hx'
    rcases hc with rfl | rfl
    · exact op rfl (by simp) (by decide +kernel) (by decide +kernel)
    · exact op rfl (by simp) (by decide +kernel) (by decide +kernel)
  · have : steps (c :: x) rules = [(.BIND_PARAMETER, .star digit)] := by
      rw [steps_cons]
      refine bind_steps x _ hx ?_ hx'
      rcases hc with rfl | rfl <;> decide +kernel
    refine op rfl (by simp) ?_ ?_
    · rw [this]; decide +kernel
    · rw [this]; decide +kernel

theorem str {v : Str} (h : QuotesPaired v) : Writing ('\'' :: v ++ ['\'']) [⟨.STRING_LITERAL, '\'' :: v ++ ['\'']⟩] :=
  tok rfl (fun rest hr => longest_string v rest ((doubled_iff v).mpr h) (sep_quoteEnd hr))

theorem ofNat_number (n : Nat) : NumberText (Str.ofNat n) := by
  have hd := Str.ofNat_digits n
  have hD : ∀ c, Str.isDigit c = true → Digit c := by
    intro c hc
    simp only [Str.isDigit, Bool.and_eq_true, decide_eq_true_eq] at hc
    exact hc
  cases h : Str.ofNat n with
  | nil => exact absurd h (Str.ofNat_ne_nil n)
  | cons c r =>
    rw [h] at hd
    refine matches_digits c r [] ?_
    rw [List.all_eq_true]
    exact fun x hx => digit_of (hD x (hd x hx))

/-! ### Parts of statements -/

/-- Choosing a value for every element of a list. -/
theorem choice {α β : Type} [Inhabited β] {xs : List α} {R : α → β → Prop} (h : ∀ x ∈ xs, ∃ y, R x y) :
    ∃ f : α → β, ∀ x ∈ xs, R x (f x) := by
  classical
  refine ⟨fun x => if hx : x ∈ xs then Classical.choose (h x hx) else default, fun x hx => ?_⟩
  simp only [hx, dif_pos]
  exact Classical.choose_spec (h x hx)

instance : Inhabited Lit := ⟨.num []⟩
instance : Inhabited Atom := ⟨.lit default⟩
instance : Inhabited ItemS := ⟨.star⟩
instance : Inhabited TabS := ⟨{ name := [] }⟩
instance : Inhabited OrderS := ⟨⟨[], none⟩⟩
instance : Inhabited SetS := ⟨⟨[], .lit default⟩⟩

theorem litText {x : Str} (h : LitText x) : ∃ l : Lit, (∀ s, l ≠ .str s) ∧ Writing x (l.toks .std) ∧
    Spec.textOf (l.toks .std) = x := by
  cases h with
  | number h => exact ⟨.num x, by simp, num h, by simp [Spec.textOf, Lit.toks]⟩
  | @plus y h =>
    refine ⟨.plus y, by simp, ?_, by simp [Spec.textOf, Lit.toks, kw, Spelling.std]⟩
    exact signed h rfl (by decide +kernel) (by decide +kernel)
  | @minus y h =>
    refine ⟨.minus y, by simp, ?_, by simp [Spec.textOf, Lit.toks, kw, Spelling.std]⟩
    exact signed h rfl (by decide +kernel) (by decide +kernel)
  | word w h =>
    refine ⟨.word w x, by simp, ?_, by simp [Spec.textOf, Lit.toks]⟩
    have hk : wordKind x = w.tok := by
      rw [wordKind, h]
      cases w <;> decide +kernel
    have hu : Str.upper (Spelling.std w.tok) = Str.upper x := by
      rw [h]; cases w <;> decide
    have hw : isWord x = true := by
      rw [← matches_word x []]
      refine (matches_case _ (Spelling.std w.tok) x [] [] hu rfl).mp ((matches_word _ _).mpr ?_)
      cases w <;> decide
    have := word hw
    rwa [hk] at this
  | bind hc hx => exact ⟨.bind _, by simp, bind hc hx, by simp [Spec.textOf, Lit.toks]⟩
  | named hc hx => exact ⟨.bind _, by simp, named hc hx, by simp [Spec.textOf, Lit.toks]⟩
  | blob hc hx => exact ⟨.blob _, by simp, blob hc hx, by simp [Spec.textOf, Lit.toks]⟩

theorem lit {l : Literal} (h : PrintableLit l) : ∃ s : Lit, Writing (Literal.valueString (some l)) (s.toks .std) ∧
    Gram.litV .std s = litAsText l := by
  obtain ⟨v, t⟩ := l
  cases t with
  | unknown =>
    obtain ⟨s, hs, hw, ht⟩ := litText (show LitText v.print from h)
    refine ⟨s, hw, ?_⟩
    cases s with
    | str s => exact absurd rfl (hs s)
    | _ => simp only [Gram.litV, ht, litAsText]
  | string =>
    obtain ⟨hq, hb⟩ := (show QuotesPaired v.print ∧ BareEnds v.print from h)
    refine ⟨.str ('\'' :: v.print ++ ['\'']), str hq, ?_⟩
    have := (bareEnds_iff v.print).mpr hb
    simp only [Gram.litV, litAsText]
    exact congrArg (fun x => ({ v := .str x, t := .string } : Literal)) this

theorem atom {x : Str} (h : AtomText x) : ∃ a : Atom, Writing x (a.toks .std) ∧ Spec.textOf (a.toks .std) = x := by
  rcases h with h | h
  · exact ⟨.col x, anyName h, by simp [Spec.textOf, Atom.toks, ident]⟩
  · obtain ⟨l, _, hw, ht⟩ := litText h
    exact ⟨.lit l, hw, ht⟩

theorem cmpOp {o : CmpOp} (h : o ≠ .in_ ∧ o ≠ .nin) : ∃ s : CmpSym, Writing o.toStr [kw .std s.tok] ∧ Gram.opV s = o := by
  cases o with
  | eq => exact ⟨.eq, op rfl (by decide) (by decide +kernel) (by decide +kernel), rfl⟩
  | neq => exact ⟨.ne1, op rfl (by decide) (by decide +kernel) (by decide +kernel), rfl⟩
  | lt => exact ⟨.lt, op rfl (by decide) (by decide +kernel) (by decide +kernel), rfl⟩
  | gt => exact ⟨.gt, op rfl (by decide) (by decide +kernel) (by decide +kernel), rfl⟩
  | le => exact ⟨.le, op rfl (by decide) (by decide +kernel) (by decide +kernel), rfl⟩
  | ge => exact ⟨.ge, op rfl (by decide) (by decide +kernel) (by decide +kernel), rfl⟩
  | in_ => exact absurd rfl h.1
  | nin => exact absurd rfl h.2

theorem cmp {c : Cmp} (h : PrintableCmp c) : ∃ s : CmpS, Writing c.toStr (s.toks .std) ∧ Gram.cmpV .std s = cmpAsText c := by
  obtain ⟨l, hr, hl⟩ := h.right
  obtain ⟨ls, hlw, hlv⟩ := lit hl
  obtain ⟨o, how, hov⟩ := cmpOp h.op
  refine ⟨⟨c.left.name, o, ls⟩, ?_, ?_⟩
  · have := space (anyName h.name) (space how hlw)
    rw [Cmp.toStr, hr]
    simpa [CmpS.toks, Column.toStr] using this
  · simp only [Gram.cmpV, cmpAsText, hov, hlv, hr, Option.map_some, ← h.column]

theorem keywords_and : Writing s%"AND" [kw .std .AND_] := keyword .AND_ (by decide +kernel)
theorem keywords_or : Writing s%"OR" [kw .std .OR_] := keyword .OR_ (by decide +kernel)

theorem expr {e : Expr} (h : PrintableExpr e) : ∃ s : CondS, Writing e.toStr (s.toks .std) ∧ Gram.condV .std s = exprAsText e := by
  cases h with
  | one h =>
    obtain ⟨s, hw, hv⟩ := cmp h
    exact ⟨.one s, hw, by simp only [Gram.condV, hv, exprAsText]⟩
  | and ha hb =>
    obtain ⟨a, haw, hav⟩ := cmp ha
    obtain ⟨b, hbw, hbv⟩ := cmp hb
    refine ⟨.and a b, ?_, by simp only [Gram.condV, hav, hbv, exprAsText]⟩
    have := space haw (space keywords_and hbw)
    simpa [CondS.toks, Expr.toStr] using this
  | or ha hb =>
    obtain ⟨a, haw, hav⟩ := cmp ha
    obtain ⟨b, hbw, hbv⟩ := cmp hb
    refine ⟨.or a b, ?_, by simp only [Gram.condV, hav, hbv, exprAsText]⟩
    have := space haw (space keywords_or hbw)
    simpa [CondS.toks, Expr.toStr] using this

/-- The WHERE part of the printers. -/
def whereParts (c : Condition) : List Str := if Condition.hasConditions c then [s%"WHERE", Condition.toStr c] else []

theorem cond {c : Condition} (h : PrintableCond c) : ∃ s : Option CondS, Parts (whereParts c) (whereToks .std s) ∧
    s.map (Gram.condV .std) = c.map exprAsText := by
  cases c with
  | none => exact ⟨none, .nil, rfl⟩
  | some e =>
    obtain ⟨s, hw, hv⟩ := expr (h e rfl)
    refine ⟨some s, ?_, by simp [hv]⟩
    exact .cons (keyword .WHERE_ (by decide +kernel)) (.one hw)

theorem selector {x : Selector} (h : PrintableSelector x) : ∃ s : ItemS, Writing x.text (s.toks .std) ∧ Gram.itemV .std s = x := by
  have hstar : Writing s%"*" [kw .std .STAR] := tok rfl (fun rest _ => longest_star rest)
  have hcall : ∀ (f : Str) (args : List Str) (ta : List Token), Name f → Str.upper f = f → Writing (Util.joinWithComma args) ta →
      Writing (Selector.text (.fn (Function.named f args))) (ident f :: Spec.parens .std ta) := by
    intro f args ta hf hu ha
    have := call (name hf) ha
    simpa [Selector.text, Function.toStr, Function.named, hu] using this
  cases h with
  | star => exact ⟨.star, hstar, rfl⟩
  | column h =>
    obtain ⟨a, hw, ht⟩ := atom h
    exact ⟨.atom a, hw, by simp only [Gram.itemV, ht]⟩
  | count hf hu => exact ⟨.fn _ .star, hcall _ _ _ hf hu hstar, by simp [Gram.itemV, Gram.argsV, Spelling.std]⟩
  | @fn f args hf hu ha =>
    obtain ⟨g, hg⟩ := choice (fun a ha' => atom (ha a ha'))
    cases args with
    | nil => exact ⟨.fn f .none, hcall _ _ _ hf hu nil, by simp [Gram.itemV, Gram.argsV]⟩
    | cons a as =>
      refine ⟨.fn f (.list (g a) (as.map g)), ?_, ?_⟩
      · have := commas (a :: as) id (fun x => (g x).toks .std) (fun x hx => (hg x hx).1)
        rw [List.map_id] at this
        have := hcall _ _ _ hf hu this
        simpa [ItemS.toks, ArgsS.toks, Function.comp_def, Spec.parens] using this
      · have : (a :: as).map (fun x => Spec.textOf ((g x).toks .std)) = a :: as := by
          conv => rhs; rw [← List.map_id (a :: as)]
          exact List.map_congr_left (fun x hx => (hg x hx).2)
        simp only [Gram.itemV, Gram.argsV, ← List.map_cons, List.map_map, Function.comp_def]
        rw [this]

theorem name_not {n : Str} (h : Name n) (x : Char) (hx : isWordChar x = false) : x ∉ n := by
  intro hm
  have := (inSet_iff _ _).mpr (h.chars x hm)
  rw [show inSet [('A', 'Z'), ('_', '_'), ('0', '9')] x = isWordChar x from rfl, hx] at this
  cases this

theorem name_no_dot {n : Str} (h : Name n) : Str.hasSub n s%"." = false := by
  rw [← Bool.not_eq_true, Str.hasSub_single]
  exact name_not h '.' (by decide)

theorem name_ne {n : Str} (h : Name n) : n ≠ [] := by
  obtain ⟨c, r, rfl, _⟩ := h.start
  simp

theorem fullTableName_bare {n : Str} (h : Name n) : ({ name := n } : Table).fullTableName = n := by
  have : 0 < n.length := List.length_pos_iff.mpr (name_ne h)
  simp [Table.fullTableName, this, name_no_dot h]

theorem anyName_ne {n : Str} (h : AnyName n) : n ≠ [] := by
  rcases h with h | h
  · exact name_ne h
  · cases h <;> simp

theorem fullTableName_any {n : Str} (h : AnyName n) : ({ name := n } : Table).fullTableName = n := by
  have : 0 < n.length := List.length_pos_iff.mpr (anyName_ne h)
  simp [Table.fullTableName, this]

/-- The name before a text that does not go on with it. -/
theorem longest_anyName {n : Str} (h : AnyName n) (c : Char) (rest : Str) (hw : wordEnd [c] = true) (hq : c ≠ '"' ∧ c ≠ '`') :
    Longest rules .IDENTIFIER n (c :: rest) := by
  rcases h with h | h
  · have := longest_word n (c :: rest) (isWord_of h) hw
    rwa [kind_of h] at this
  · refine longest_quotedName h ?_
    rintro d r ⟨⟩
    exact hq

theorem longest_dotName {n : Str} (h : AnyName n) (rest : Str) : Longest rules .DOT ['.'] (n ++ rest) := by
  rcases h with h | h
  · obtain ⟨c, r, rfl, hc⟩ := h.start
    exact longest_dot c (r ++ rest) ((inSet_iff _ _).mpr hc)
  · have : ∀ c ∈ s%"\"`[", Longest rules .DOT ['.'] (c :: (n ++ rest).tail) := fun c hc =>
      longest_before _ _ _ _ (by simp) (by decide +kernel) ((by decide +kernel : ∀ c ∈ s%"\"`[", step c (steps ['.'] rules) = []) c hc)
    cases h with
    | double => exact this '"' (by decide)
    | back => exact this '`' (by decide)
    | bracket => exact this '[' (by decide)

theorem dotted {s n : Str} (hs : AnyName s) (hn : AnyName n) : Writing (s ++ '.' :: n) [ident s, kw .std .DOT, ident n] := by
  intro rest ts hsep hr
  have h2 := Lx.cons (longest_dotName hn rest) rfl (anyName hn rest ts hsep hr)
  have h3 := Lx.cons (longest_anyName hs '.' (n ++ rest) rfl (by decide)) rfl h2
  simpa [ident, kw, Spelling.std] using h3

theorem table {t : Table} (h : PrintableTable t) : ∃ s : TabS, Writing t.fullTableName (s.toks .std) ∧ Gram.tabV .std s = t := by
  cases h with
  | @bare n h =>
    refine ⟨{ name := n }, ?_, by simp [Gram.tabV, TabS.toks, Spec.textOf, ident]⟩
    rw [fullTableName_any h]
    exact anyName h
  | @full s n hs hn =>
    refine ⟨{ schema := some s, name := n }, ?_, by simp [Gram.tabV, TabS.toks, Spec.textOf, ident, kw, Spelling.std]⟩
    have h1 : Str.hasSub (s ++ '.' :: n) s%"." = true := (Str.hasSub_single _ _).mpr (by simp)
    have h2 : ({ schema := s, name := s ++ '.' :: n } : Table).fullTableName = s ++ '.' :: n := by
      have h3 : 0 < (s ++ '.' :: n).length := by simp; omega
      simp only [Table.fullTableName, h3, h1]
      rfl
    rw [h2]
    exact dotted hs hn

theorem order {o : Order} (h : AnyName o.column ∧ o.order ≠ .none) : ∃ s : OrderS, Writing o.toStr (s.toks .std) ∧ Gram.orderV s = some o := by
  obtain ⟨c, d⟩ := o
  obtain ⟨hc, hd⟩ := h
  cases d with
  | none => exact absurd rfl hd
  | asc => exact ⟨⟨c, some .asc⟩, spaces (.cons (anyName hc) (.one (keyword .ASC_ (by decide +kernel)))), rfl⟩
  | desc => exact ⟨⟨c, some .desc⟩, spaces (.cons (anyName hc) (.one (keyword .DESC_ (by decide +kernel)))), rfl⟩

/-! ### Statements -/

theorem limit {l : Limit} {toUint : Str → Option Nat} (hu : ∀ n, n < 2 ^ 64 → toUint (Str.ofNat n) = some n)
    (h : l.limit < 2 ^ 64 ∧ l.offset < 2 ^ 64) (h0 : l.limit = 0 → l.offset = 0) :
    ∃ s : LimitS, Parts (if 0 < l.toStr.length then [l.toStr] else []) (s.toks .std) ∧ limitV toUint s = l := by
  obtain ⟨o, n⟩ := l
  simp only at h h0
  by_cases hn : n = 0
  · subst hn
    have := h0 rfl
    subst this
    exact ⟨.none, .nil, rfl⟩
  · have hn' : 0 < n := by omega
    by_cases ho : o = 0
    · subst ho
      have e : Limit.toStr ⟨0, n⟩ = Util.joinWithSpace [s%"LIMIT", Str.ofNat n] := by
        simp [Limit.toStr, hn']
      refine ⟨.only (Str.ofNat n), ?_, by simp [limitV, hu n h.1]⟩
      rw [if_pos (by rw [e]; simp [Util.joinWithSpace, Str.join]), e]
      exact .one (spaces (.cons (keyword .LIMIT_ (by decide +kernel)) (.one (num (ofNat_number n)))))
    · have ho' : 0 < o := by omega
      have e : Limit.toStr ⟨o, n⟩ = Util.joinWithSpace [s%"LIMIT", Str.ofNat n, s%"OFFSET", Str.ofNat o] := by
        simp [Limit.toStr, hn', ho']
      refine ⟨.offset (Str.ofNat n) (Str.ofNat o), ?_, by simp [limitV, hu n h.1, hu o h.2]⟩
      rw [if_pos (by rw [e]; simp [Util.joinWithSpace, Str.join]), e]
      exact .one (spaces (.cons (keyword .LIMIT_ (by decide +kernel)) (.cons (num (ofNat_number n))
        (.cons (keyword .OFFSET_ (by decide +kernel)) (.one (num (ofNat_number o)))))))

theorem group {g : Str} (h : g = [] ∨ AnyName g) : ∃ s : Option Str,
    Parts (if 0 < (groupByString g).length then [groupByString g] else []) (groupToks .std s) ∧ s.getD [] = g := by
  rcases h with rfl | h
  · exact ⟨none, .nil, rfl⟩
  · refine ⟨some g, ?_, rfl⟩
    have hl : g.length ≠ 0 := by simpa using anyName_ne h
    have e : groupByString g = Util.joinWithSpace [s%"GROUP", s%"BY", g] := by
      rw [groupByString, if_neg hl]
      simp [Util.joinWithSpace, Str.join]
    rw [if_pos (by rw [e]; simp [Util.joinWithSpace, Str.join]), e]
    exact .one (spaces (.cons (keyword .GROUP_ (by decide +kernel)) (.cons (keyword .BY_ (by decide +kernel)) (.one (anyName h)))))

theorem orders {os : List Order} (h : ∀ o ∈ os, AnyName o.column ∧ o.order ≠ .none) : ∃ s : List OrderS,
    Parts (if 0 < (orderByString os).length then [orderByString os] else []) (ordersToks .std s) ∧ s.filterMap orderV = os := by
  cases os with
  | nil => exact ⟨[], .nil, rfl⟩
  | cons o os =>
    obtain ⟨f, hf⟩ := choice (fun x hx => order (h x hx))
    have hm : ∀ (l : List Order), (∀ x ∈ l, orderV (f x) = some x) → (l.map f).filterMap orderV = l := by
      intro l hl
      induction l with
      | nil => rfl
      | cons x l ih =>
        rw [List.map_cons, List.filterMap_cons, hl x (by simp)]
        simp only [ih (fun y hy => hl y (List.mem_cons_of_mem _ hy))]
    refine ⟨(o :: os).map f, ?_, hm _ (fun x hx => (hf x hx).2)⟩
    have e : orderByString (o :: os) = Util.joinWithSpace [s%"ORDER", s%"BY", Util.joinWithComma ((o :: os).map (·.toStr))] := by
      simp [orderByString, Util.joinWithSpace, Str.join]
    rw [if_pos (by rw [e]; simp [Util.joinWithSpace, Str.join]), e]
    have hc := commas (o :: os) (·.toStr) (fun x => (f x).toks .std) (fun x hx => (hf x hx).1)
    have := Parts.one (spaces (.cons (keyword .ORDER_ (by decide +kernel)) (.cons (keyword .BY_ (by decide +kernel)) (.one hc))))
    simpa [ordersToks, Function.comp_def, Spelling.std] using this

theorem select {s : Select} {toUint : Str → Option Nat} (hu : ∀ n, n < 2 ^ 64 → toUint (Str.ofNat n) = some n)
    (h : PrintableSelect s) : ∃ S : SelectS, Writing s.toStr (S.toks .std) ∧ selectV toUint .std S = selectAsText s := by
  obtain ⟨c, hcp, hcv⟩ := cond h.cond
  obtain ⟨l, hlp, hlv⟩ := limit hu h.limit h.offset
  obtain ⟨os, hop, hov⟩ := orders h.orders
  obtain ⟨g, hgp, hgv⟩ := group (g := s.groupBy) (h.group.imp id And.left)
  obtain ⟨f, hf⟩ := choice (fun x hx => selector (h.selectors x hx))
  obtain ⟨k, hk⟩ := choice (fun x hx => table (h.tables x hx))
  cases hs : s.selectors with
  | nil => exact absurd hs h.selected
  | cons x xs =>
    rw [hs] at hf
    refine ⟨⟨f x, xs.map f, s.tables.map k, c, g, os, l⟩, ?_, ?_⟩
    · have h1 := commas (x :: xs) Selector.text (fun x => (f x).toks .std) (fun y hy => (hf y hy).1)
      have h2 := commas s.tables Table.fullTableName (fun x => (k x).toks .std) (fun y hy => (hk y hy).1)
      have h3 : fromToks .std (s.tables.map k) = kw .std .FROM_ :: Spec.commas .std (s.tables.map (fun x => (k x).toks .std)) := by
        cases ht : s.tables with
        | nil => exact absurd ht h.some_table
        | cons t ts => simp [fromToks, Function.comp_def]
      have e : s.toStr = Util.joinWithSpace ([s%"SELECT", Util.joinWithComma ((x :: xs).map Selector.text), s%"FROM",
          Util.joinWithComma (s.tables.map Table.fullTableName)] ++ (whereParts s.cond ++
          ((if 0 < (orderByString s.orderBy).length then [orderByString s.orderBy] else []) ++
          ((if 0 < s.limit.toStr.length then [s.limit.toStr] else []) ++
          (if 0 < (groupByString s.groupBy).length then [groupByString s.groupBy] else []))))) := by
        rw [Select.toStr, hs]
        simp [whereParts, selectorsString, tablesString]
      rw [e]
      have hp : ordersToks .std os ++ (l.toks .std ++ groupToks .std g) = groupToks .std g ++ (ordersToks .std os ++ l.toks .std) := by
        rcases h.group with hg | ⟨_, ho, hl⟩
        · rw [hg] at hgv
          cases g with
          | none => simp [groupToks]
          | some g =>
            have : g = [] := hgv
            subst this
            exfalso
            rw [hg] at hgp
            cases hgp
        · rw [ho] at hop
          rw [hl] at hlp
          cases hlp' : l.toks .std with
          | cons a b => rw [hlp'] at hlp; cases hlp
          | nil =>
            cases hop' : ordersToks .std os with
            | cons a b => rw [hop'] at hop; cases hop
            | nil => simp
      have := spaces (Parts.append (.cons (keyword .SELECT_ (by decide +kernel)) (.cons h1 (.cons (keyword .FROM_ (by decide +kernel)) (.one h2))))
        (hcp.append (hop.append (hlp.append hgp))))
      rw [hp] at this
      simpa [SelectS.toks, h3, Function.comp_def, Spelling.std] using this
    · have h1 : (f x :: xs.map f).map (itemV .std) = s.selectors := by
        rw [hs, ← List.map_cons, List.map_map]
        conv => rhs; rw [← List.map_id (x :: xs)]
        exact List.map_congr_left (fun y hy => (hf y hy).2)
      have h2 : (s.tables.map k).map (tabV .std) = s.tables := by
        rw [List.map_map]
        conv => rhs; rw [← List.map_id s.tables]
        exact List.map_congr_left (fun y hy => (hk y hy).2)
      simp only [selectV, h1, h2, hcv, hov, hlv, hgv, selectAsText]

theorem unEscape_name {n : Str} (h : Name n) : Util.unEscapeNameString n = n := by
  have hc : ∀ a ∈ n, (s%"'`()").contains a = false := by
    intro a ha
    rw [← Bool.not_eq_true, List.contains_iff_mem]
    intro hm
    have : ∀ x ∈ s%"'`()", isWordChar x = false := by decide
    exact name_not h a (this a hm) ha
  exact Str.trim_eq_self_of _ n (fun a r he => hc a (by simp [he])) (fun r a he => hc a (by simp [he]))

theorem unEscape_kept {n : Str} (h : KeptName n) : Util.unEscapeNameString n = n := by
  obtain ⟨h | h, hb⟩ := h
  · exact unEscape_name h
  · cases h with
    | @double v _ =>
      refine Str.trim_eq_self_of _ _ ?_ ?_
      · rintro a r ⟨⟩; decide
      · intro r a he
        have : ('"' :: v) ++ ['"'] = r ++ [a] := he
        cases (List.append_inj' this rfl).2; decide
    | back => exact absurd rfl hb
    | @bracket v _ =>
      refine Str.trim_eq_self_of _ _ ?_ ?_
      · rintro a r ⟨⟩; decide
      · intro r a he
        have : ('[' :: v) ++ [']'] = r ++ [a] := he
        cases (List.append_inj' this rfl).2; decide

theorem delete {d : Delete} (h : PrintableDelete d) : ∃ D : DeleteS, Writing d.toStr (D.toks .std) ∧ deleteV .std D = deleteAsText d := by
  obtain ⟨n, hn, ht⟩ := h.table
  obtain ⟨c, hcp, hcv⟩ := cond h.cond
  refine ⟨⟨n, c⟩, ?_, by simp [deleteV, deleteAsText, hcv, ht]⟩
  have := spaces (Parts.append (.cons (keyword .DELETE_ (by decide +kernel)) (.cons (keyword .FROM_ (by decide +kernel)) (.one (anyName hn)))) hcp)
  rw [Delete.toStr, ht, fullTableName_any hn]
  simpa [DeleteS.toks, Spelling.std, whereParts] using this

theorem set {c : Column} (h : PrintableSet c) : ∃ s : SetS, Writing c.setString (s.toks .std) ∧ setV .std s = columnAsText c := by
  have hass : Writing s%"=" [kw .std .ASSIGN] := op rfl (by decide) (by decide +kernel) (by decide +kernel)
  cases h with
  | lit h =>
    obtain ⟨l, hl, hp⟩ := h.value
    obtain ⟨s, hw, hv⟩ := lit hp
    refine ⟨⟨c.name, .lit s⟩, ?_, ?_⟩
    · have e : c.setString = c.name ++ ' ' :: (s%"=" ++ ' ' :: Literal.valueString (some l)) := by
        have hf : c.fn = none := by rw [h.plain]
        simp [Column.setString, Column.updatorString, hf, hl]
      rw [e]
      have := space (anyName h.name) (space hass hw)
      simpa [SetS.toks, RhsS.toks] using this
    · conv => rhs; rw [h.plain, hl]
      simp [setV, columnAsText, hv]
  | @arith n c x e hn hc hx he =>
    obtain ⟨a, haw, hat⟩ := atom hx
    have ho : ∃ o : ArithSym, Writing e.name [kw .std o.tok] ∧ arithV o = e := by
      simp only [List.mem_cons, List.not_mem_nil, or_false] at he
      rcases he with rfl | rfl | rfl | rfl | rfl
      · exact ⟨.add, op rfl (by decide) (by decide +kernel) (by decide +kernel), rfl⟩
      · exact ⟨.sub, op rfl (by decide) (by decide +kernel) (by decide +kernel), rfl⟩
      · exact ⟨.mul, op rfl (by decide) (by decide +kernel) (by decide +kernel), rfl⟩
      · exact ⟨.div, op rfl (by decide) (by decide +kernel) (by decide +kernel), rfl⟩
      · exact ⟨.mod, op rfl (by decide) (by decide +kernel) (by decide +kernel), rfl⟩
    obtain ⟨o, how, hov⟩ := ho
    refine ⟨⟨n, .arith c o a⟩, ?_, ?_⟩
    · have := space (anyName hn) (space hass (space (anyName hc) (space how haw)))
      simpa [SetS.toks, RhsS.toks, Column.setString, Column.updatorString, arithFunction, Function.getExecutor, weaveArgs, Str.join] using this
    · simp [setV, columnAsText, hat, hov, arithFunction]

theorem update {u : Update} (h : PrintableUpdate u) : ∃ U : UpdateS, Writing u.toStr (U.toks .std) ∧ updateV .std U = updateAsText u := by
  obtain ⟨n, hn, ht⟩ := h.table
  obtain ⟨c, hcp, hcv⟩ := cond h.cond
  obtain ⟨f, hf⟩ := choice (fun x hx => set (h.columns x hx))
  cases hs : u.columns with
  | nil => exact absurd hs h.assigned
  | cons x xs =>
    rw [hs] at hf
    refine ⟨⟨n, f x, xs.map f, c⟩, ?_, ?_⟩
    · have h1 := commas (x :: xs) Column.setString (fun x => (f x).toks .std) (fun y hy => (hf y hy).1)
      have := spaces (Parts.append (.cons (keyword .UPDATE_ (by decide +kernel)) (.cons (anyName hn) (.cons (keyword .SET_ (by decide +kernel)) (.one h1)))) hcp)
      rw [Update.toStr, ht, fullTableName_any hn, hs]
      simpa [UpdateS.toks, Function.comp_def, Spelling.std, whereParts, Function.comp_def] using this
    · have h1 : (f x :: xs.map f).map (setV .std) = u.columns.map columnAsText := by
        rw [hs, ← List.map_cons, List.map_map]
        exact List.map_congr_left (fun y hy => (hf y hy).2)
      simp only [updateV, h1, hcv, updateAsText, ht]

/-- The row of values of a list of columns. -/
def rowOf (g : Column → Lit) : List Column → RowS
  | [] => ⟨default, []⟩
  | c :: cs => ⟨g c, cs.map g⟩

theorem rowOf_all (g : Column → Lit) {r : List Column} (h : r ≠ []) : (rowOf g r).all = r.map g := by
  cases r with
  | nil => exact absurd rfl h
  | cons c cs => rfl

theorem insert {i : Insert} (h : PrintableInsert i) : ∃ I : InsertS, Writing i.toStr (I.toks .std) ∧ insertV .std I = insertAsText i := by
  obtain ⟨n, hn, ht⟩ := h.table
  obtain ⟨r, rs, hv, hr, hnames⟩ := h.row
  have hval : ∀ c ∈ i.values.flatten, ∃ s : Lit, Writing (Literal.valueString c.lit) (s.toks .std) ∧
      ({ name := c.name, lit := some (litV .std s) } : Column) = columnAsText c := by
    intro c hc
    obtain ⟨r', hr', hc⟩ := List.mem_flatten.mp hc
    have hp := h.values r' hr' c hc
    obtain ⟨l, hl, hpl⟩ := hp.value
    obtain ⟨s, hw, hs⟩ := lit hpl
    refine ⟨s, by rw [hl]; exact hw, ?_⟩
    rw [hs]
    conv => rhs; rw [hp.plain, hl]
    rfl
  obtain ⟨g, hg⟩ := choice hval
  have hne : ∀ r' ∈ i.values, r' ≠ [] ∧ r'.map (·.name) = r.map (·.name) := by
    intro r' hr'
    rw [hv] at hr'
    rcases List.mem_cons.mp hr' with rfl | hm
    · exact ⟨hr, rfl⟩
    · have := hnames r' hm
      refine ⟨?_, this⟩
      intro he
      rw [he] at this
      exact hr (List.map_eq_nil_iff.mp this.symm)
  cases r with
  | nil => exact absurd rfl hr
  | cons c cs =>
    refine ⟨⟨n, c.name, cs.map (·.name), rowOf g (c :: cs), rs.map (rowOf g)⟩, ?_, ?_⟩
    · have h1 := parens (commas (c :: cs) (·.name) (fun c => [ident c.name])
        (fun x hx => anyName (h.values (c :: cs) (by simp [hv]) x hx).name))
      have h2 := commas i.values (fun r => '(' :: (columnsValueString r ++ [')'])) (fun r => (rowOf g r).toks .std) (fun r' hr' => by
        have := parens (commas r' (fun c => Literal.valueString c.lit) (fun c => (g c).toks .std)
          (fun x hx => (hg x (List.mem_flatten.mpr ⟨r', hr', hx⟩)).1))
        rw [RowS.toks, rowOf_all g (hne r' hr').1, List.map_map]
        exact this)
      have := spaces (.cons (keyword .INSERT_ (by decide +kernel)) (.cons (keyword .INTO_ (by decide +kernel)) (.cons (anyName hn.1)
        (.cons h1 (.cons (keyword .VALUES_ (by decide +kernel)) (.one h2))))))
      rw [Insert.toStr, ht, fullTableName_any hn.1]
      simp only [hv, List.map_cons] at this
      simpa [InsertS.toks, InsertS.names, Function.comp_def, Spelling.std, Insert.columns, hv, columnsNameString] using this
    · have h1 : ∀ r' ∈ i.values, rowV .std (c.name :: cs.map (·.name)) (rowOf g r') = r'.map columnAsText := by
        intro r' hr'
        obtain ⟨hr1, hr2⟩ := hne r' hr'
        rw [rowV, rowOf_all g hr1, ← List.map_cons, ← hr2, List.zipWith_map, List.zipWith_self]
        exact List.map_congr_left (fun x hx => (hg x (List.mem_flatten.mpr ⟨r', hr', hx⟩)).2)
      have h2 : (rowOf g (c :: cs) :: rs.map (rowOf g)).map (rowV .std (c.name :: cs.map (·.name))) = i.values.map (·.map columnAsText) := by
        rw [hv, ← List.map_cons (f := rowOf g), List.map_map]
        exact List.map_congr_left (fun r' hr' => h1 r' (by rw [hv]; exact hr'))
      simp only [insertV, InsertS.names, h2, insertAsText, unEscape_kept hn, ht]

end Writing
end Verif.Lex
