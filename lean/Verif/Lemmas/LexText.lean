import Verif.Lemmas.Lexer
/-! Tokens of the texts the code prints: words, numbers, string literals, operators and spaces. -/
namespace Verif.Lex
open Verif Verif.Spec

/-! ### Rules -/

theorem matches_seq (a b : Re) (w rest : Str) :
    Matches (.seq a b) w rest ↔ ∃ u v, w = u ++ v ∧ Matches a u (v ++ rest) ∧ Matches b v rest := Iff.rfl
theorem matches_alt (a b : Re) (w rest : Str) :
    Matches (.alt a b) w rest ↔ Matches a w rest ∨ Matches b w rest := Iff.rfl
theorem matches_star (a : Re) (w rest : Str) : Matches (.star a) w rest ↔ Reps (Matches a) w rest := Iff.rfl
theorem matches_eps (w rest : Str) : Matches .eps w rest ↔ w = [] := Iff.rfl

theorem inRanges_single (x c : Char) : InRanges [(x, x)] c ↔ SameLetter x c := by
  unfold InRanges
  constructor
  · rintro ⟨r, hr, y, hy, h1, h2⟩
    rw [List.mem_singleton] at hr
    subst hr
    have : y = x := Str.char_ext (by simp only at h1 h2; omega)
    subst this
    exact hy
  · intro h
    exact ⟨(x, x), List.mem_singleton.mpr rfl, x, h, Nat.le_refl _, Nat.le_refl _⟩

/-- A literal matches its text in any letter case. -/
theorem matches_lit (k w rest : Str) : Matches (Re.lit k) w rest ↔ Str.upper w = Str.upper k := by
  induction k generalizing w rest with
  | nil => simp [Re.lit, Matches, Str.upper]
  | cons c k ih =>
    have one : Matches (.cls false [(c, c)]) w rest ↔ Str.upper w = [Str.upC c] := by
      simp only [Matches, iff_true, inRanges_single, SameLetter]
      constructor
      · rintro ⟨x, hw, h⟩; subst hw; simp [Str.upper, h]
      · intro h
        cases w with
        | nil => simp [Str.upper] at h
        | cons a w' =>
          rw [Str.upper_cons] at h
          injection h with h1 h2
          have : w' = [] := by simpa [Str.upper] using h2
          subst this
          exact ⟨a, rfl, h1.symm⟩
    cases k with
    | nil => exact one
    | cons c' k' =>
      have : Re.lit (c :: c' :: k') = .seq (.cls false [(c, c)]) (Re.lit (c' :: k')) := rfl
      rw [this]
      simp only [Matches, iff_true, inRanges_single, SameLetter]
      constructor
      · rintro ⟨u, v, hw, ⟨x, hu, hx⟩, hv⟩
        subst hw; subst hu
        rw [ih] at hv
        rw [List.singleton_append, Str.upper_cons, Str.upper_cons, hv, hx]
      · intro h
        cases w with
        | nil => simp [Str.upper] at h
        | cons a w' =>
          rw [Str.upper_cons, Str.upper_cons] at h
          injection h with h1 h2
          exact ⟨[a], w', rfl, ⟨a, rfl, h1.symm⟩, (ih w' rest).mpr h2⟩

/-! ### One token -/

/-- The rules alive after a text. -/
def steps (w : Str) (act : List (Tok × Re)) : List (Tok × Re) := w.foldl (fun a c => step c a) act

@[simp] theorem steps_nil (act : List (Tok × Re)) : steps [] act = act := rfl
@[simp] theorem steps_cons (c : Char) (w : Str) (act : List (Tok × Re)) : steps (c :: w) act = steps w (step c act) := rfl
theorem steps_append (u v : Str) (act : List (Tok × Re)) : steps (u ++ v) act = steps v (steps u act) := by
  simp [steps, List.foldl_append]

theorem firstRule_steps (w : Str) (act : List (Tok × Re)) (t : Tok) (v rest : Str) :
    FirstRule (steps w act) t v rest ↔ FirstRule act t (w ++ v) rest := by
  induction w generalizing act with
  | nil => rfl
  | cons c w ih => rw [steps_cons, ih, firstRule_step]; rfl

theorem someRule_steps (w : Str) (act : List (Tok × Re)) (v rest : Str) :
    SomeRule (steps w act) v rest ↔ SomeRule act (w ++ v) rest := by
  induction w generalizing act with
  | nil => rfl
  | cons c w ih => rw [steps_cons, ih, someRule_step]; rfl

/-- Nothing more can match. -/
def Stops (act : List (Tok × Re)) : Str → Prop
  | [] => True
  | c :: _ => step c act = []

theorem noMatch_of_stops (act : List (Tok × Re)) (rest : Str) (h : Stops act rest) : NoMatch act rest := by
  cases rest with
  | nil => intro m h1 h2; simp at h2; omega
  | cons c cs => exact noMatch_of_step_nil c cs act (by rw [show step c act = [] from h]; rfl)

theorem longest_of (t : Tok) (w rest : Str) (hw : w ≠ []) (hf : FirstRule rules t w rest)
    (hn : NoMatch (steps w rules) rest) : Longest rules t w rest := by
  refine ⟨hw, hf, ?_⟩
  intro w' rest' he hl hs
  have hp : w <+: w' := by
    have : w <+: w' ++ rest' := he ▸ List.prefix_append w rest
    exact List.prefix_of_prefix_length_le this (List.prefix_append _ _) (Nat.le_of_lt hl)
  obtain ⟨v, rfl⟩ := hp
  rw [List.append_assoc, List.append_cancel_left_eq] at he
  subst he
  rw [← someRule_steps] at hs
  refine hn v.length ?_ (by simp) (by simpa using hs)
  simp at hl
  exact hl

theorem longest_of_accept (t : Tok) (w rest : Str) (hw : w ≠ []) (ha : accept rest.isEmpty (steps w rules) = some t)
    (hs : Stops (steps w rules) rest) : Longest rules t w rest :=
  longest_of t w rest hw (by
    have := (firstRule_steps w rules t [] rest).mp ((accept_iff _ _ _).mp ha)
    simpa using this) (noMatch_of_stops _ _ hs)

theorem lex_cons (t : Tok) (w rest : Str) (ts : List Token) (h : Longest rules t w rest) (hr : lex rest = some ts) :
    lex (w ++ rest) = some ({ kind := t, text := w } :: ts) :=
  (lex_iff _ _).mpr (.cons t w rest ts h ((lex_iff _ _).mp hr))

theorem lex_nil : lex [] = some [] := rfl

/-! ### Words -/

/-- The first character of a word. -/
def isWordStart (c : Char) : Bool := inSet [('A', 'Z'), ('_', '_')] c
/-- A character of a word. -/
def isWordChar (c : Char) : Bool := inSet [('A', 'Z'), ('_', '_'), ('0', '9')] c

theorem inSet_word (c : Char) : inSet [('A', 'Z'), ('_', '_')] c = isWordStart c := rfl

/-- An unquoted name. -/
def isWord : Str → Bool
  | [] => false
  | c :: cs => isWordStart c && cs.all isWordChar

/-- The kind of a word: a keyword, or an identifier. -/
def wordKind (w : Str) : Tok :=
  match keywords.find? (fun k => k.2 == Str.upper w) with
  | some k => k.1
  | none => .IDENTIFIER

theorem wordStart_wordChar (c : Char) (h : isWordStart c = true) : isWordChar c = true := by
  unfold isWordStart at h
  unfold isWordChar
  rw [inSet_iff] at *
  obtain ⟨r, hr, h⟩ := h
  exact ⟨r, by simp only [List.mem_cons, List.not_mem_nil, or_false] at hr ⊢; rcases hr with h | h <;> simp [h], h⟩

theorem keywords_upper : ∀ k, k ∈ keywords → Str.upper k.2 = k.2 ∧ k.2.all isWordChar = true := by
  have : keywords.all (fun k => (Str.upper k.2 == k.2) && k.2.all isWordChar) = true := by decide +kernel
  intro k hk
  have := List.all_eq_true.mp this k hk
  simpa using this

theorem operators_head : ∀ o, o ∈ operators → ∃ c cs, o.2 = c :: cs ∧ isWordStart (Str.upC c) = false := by
  have : operators.all (fun o => match o.2 with | [] => false | c :: _ => !isWordStart (Str.upC c)) = true := by
    decide +kernel
  intro o ho
  have := List.all_eq_true.mp this o ho
  cases h : o.2 with
  | nil => rw [h] at this; cases this
  | cons c cs => rw [h] at this; exact ⟨c, cs, rfl, by simpa using this⟩

theorem inSet_upC (rs : List (Char × Char)) (c x : Char) (h : Str.upC c = Str.upC x) : inSet rs c = inSet rs x := by
  rw [Bool.eq_iff_iff, inSet_iff, inSet_iff]
  unfold InRanges SameLetter
  rw [h]

theorem isWordChar_upC (c : Char) : isWordChar (Str.upC c) = isWordChar c := inSet_upC _ _ _ (by simp)
theorem isWordStart_upC (c : Char) : isWordStart (Str.upC c) = isWordStart c := inSet_upC _ _ _ (by simp)

theorem all_wordChar_upper (w : Str) : (Str.upper w).all isWordChar = w.all isWordChar := by
  induction w with
  | nil => rfl
  | cons c w ih => rw [Str.upper_cons, List.all_cons, List.all_cons, ih, isWordChar_upC]

theorem reps_cls (neg : Bool) (rs : List (Char × Char)) (w rest : Str) :
    Reps (Matches (.cls neg rs)) w rest ↔ w.all (fun c => inSet rs c != neg) = true := by
  induction w with
  | nil => simp [Reps.nil]
  | cons c w ih =>
    rw [reps_cons, List.all_cons, Bool.and_eq_true, ← ih, cls_iff]
    simp only [Matches]
    constructor
    · rintro ⟨u, v, hw, ⟨c', hc, h⟩, hr⟩
      injection hc with h1 h2
      subst h1; subst h2
      rw [List.nil_append] at hw; subst hw
      exact ⟨h, hr⟩
    · rintro ⟨h, hr⟩
      exact ⟨[], w, rfl, ⟨c, rfl, h⟩, hr⟩

theorem matches_cls (neg : Bool) (rs : List (Char × Char)) (w rest : Str) :
    Matches (.cls neg rs) w rest ↔ ∃ c, w = [c] ∧ (inSet rs c != neg) = true := by
  simp only [Matches]
  constructor
  · rintro ⟨c, h, h'⟩; exact ⟨c, h, (cls_iff neg rs c).mpr h'⟩
  · rintro ⟨c, h, h'⟩; exact ⟨c, h, (cls_iff neg rs c).mp h'⟩

theorem matches_word (w rest : Str) : Matches word w rest ↔ isWord w = true := by
  unfold word
  rw [matches_seq]
  constructor
  · rintro ⟨u, v, hw, hu, hv⟩
    obtain ⟨c, hc, hm⟩ := (matches_cls false _ u (v ++ rest)).mp hu
    rw [matches_star, reps_cls] at hv
    subst hc; subst hw
    simp only [List.singleton_append, isWord, Bool.and_eq_true]
    refine ⟨by simpa [isWordStart] using hm, ?_⟩
    simpa [isWordChar] using hv
  · intro h
    cases w with
    | nil => cases h
    | cons c cs =>
      simp only [isWord, Bool.and_eq_true] at h
      refine ⟨[c], cs, rfl, ?_, ?_⟩
      · exact (matches_cls false _ _ _).mpr ⟨c, rfl, by simpa [isWordStart] using h.1⟩
      · rw [matches_star, reps_cls]
        simpa [isWordChar] using h.2

theorem matches_seq_lit_head (x : Char) (r : Re) (c : Char) (w rest : Str)
    (h : Matches (.seq (Re.lit [x]) r) (c :: w) rest) : Str.upC c = Str.upC x := by
  simp only [Matches] at h
  obtain ⟨u, v, hw, hu, _⟩ := h
  rw [matches_lit] at hu
  cases u with
  | nil => simp [Str.upper] at hu
  | cons a u =>
    injection hw with h1 h2
    subst h1
    rw [Str.upper_cons, Str.upper_cons] at hu
    injection hu

theorem matches_seq_cls_head (neg : Bool) (rs : List (Char × Char)) (r : Re) (c : Char) (w rest : Str)
    (h : Matches (.seq (.cls neg rs) r) (c :: w) rest) : (inSet rs c != neg) = true := by
  simp only [Matches] at h
  obtain ⟨u, v, hw, hu, _⟩ := h
  obtain ⟨x, hx, hm⟩ := (matches_cls neg rs u (v ++ rest)).mp hu
  subst hx
  injection hw with h1 h2
  subst h1
  exact hm

theorem quoted_head (q c : Char) (w rest : Str) (h : Matches (quoted q) (c :: w) rest) : Str.upC c = Str.upC q :=
  matches_seq_lit_head q _ c w rest h

theorem wordStart_ne (c q : Char) (hc : isWordStart c = true) (hq : isWordStart q = false) (h : Str.upC c = Str.upC q) : False := by
  rw [← isWordStart_upC, h, isWordStart_upC, hq] at hc
  cases hc

theorem identifier_wordStart (c : Char) (w rest : Str) (hc : isWordStart c = true)
    (h : Matches identifier (c :: w) rest) : isWord (c :: w) = true := by
  unfold identifier at h
  rw [matches_alt, matches_alt, matches_alt] at h
  rcases h with h | h | h | h
  · exact (wordStart_ne c _ hc (by decide) (quoted_head _ _ _ _ h)).elim
  · exact (wordStart_ne c _ hc (by decide) (quoted_head _ _ _ _ h)).elim
  · exact (wordStart_ne c _ hc (by decide) (matches_seq_lit_head _ _ _ _ _ h)).elim
  · exact (matches_word _ _).mp h

/-- A literal of several characters starts with the first of them. -/
theorem matches_lit_head (x : Char) (xs : Str) (c : Char) (w rest : Str)
    (h : Matches (Re.lit (x :: xs)) (c :: w) rest) : Str.upC c = Str.upC x := by
  rw [matches_lit, Str.upper_cons, Str.upper_cons] at h
  injection h

theorem matches_seq_lits_head (x : Char) (xs : Str) (r : Re) (c : Char) (w rest : Str)
    (h : Matches (.seq (Re.lit (x :: xs)) r) (c :: w) rest) : Str.upC c = Str.upC x := by
  rw [matches_seq] at h
  obtain ⟨u, v, hw, hu, _⟩ := h
  cases u with
  | nil => rw [matches_lit] at hu; simp [Str.upper] at hu
  | cons a u =>
    injection hw with h1 h2
    subst h1
    exact matches_lit_head x xs c u _ hu

/-- The rules do not distinguish the case of letters. -/
theorem d_upC (r : Re) (c : Char) : r.d (Str.upC c) = r.d c := by
  induction r with
  | empty | eps | eof => rfl
  | cls neg rs => simp only [Re.d, inSet_upC rs (Str.upC c) c (by simp)]
  | seq a b iha ihb => simp only [Re.d, iha, ihb]
  | alt a b iha ihb => simp only [Re.d, iha, ihb]
  | star a iha => simp only [Re.d, iha]

theorem step_upC (c : Char) (act : List (Tok × Re)) : step (Str.upC c) act = step c act := by
  unfold step
  simp only [d_upC]

/-- The capital letters and the underscore. -/
def wordStarts : Str := s%"ABCDEFGHIJKLMNOPQRSTUVWXYZ_"

theorem mem_of_toNat (l : Str) (c : Char) (h : c.toNat ∈ l.map Char.toNat) : c ∈ l := by
  obtain ⟨x, hx, he⟩ := List.mem_map.mp h
  rw [← Str.char_ext he]
  exact hx

theorem mem_of_interval (l : Str) (lo hi : Nat) (hl : ∀ n, n < hi + 1 → lo ≤ n → n ∈ l.map Char.toNat) (c : Char)
    (h1 : lo ≤ c.toNat) (h2 : c.toNat ≤ hi) : c ∈ l :=
  mem_of_toNat l c (hl _ (by omega) h1)

theorem wordStart_mem (c : Char) (h : isWordStart c = true) : Str.upC c ∈ wordStarts := by
  unfold isWordStart at h
  rw [inSet_iff] at h
  obtain ⟨r, hr, y, hy, h1, h2⟩ := h
  unfold SameLetter at hy
  rw [← hy]
  simp only [List.mem_cons, List.not_mem_nil, or_false] at hr
  have hyn : Str.upC y = y := by
    unfold Str.upC
    rw [if_neg]
    rcases hr with h | h <;> subst h
    · have e4 : y.toNat ≤ 90 := h2
      omega
    · have e5 : y.toNat ≤ 95 := h2
      omega
  rw [hyn]
  rcases hr with h | h <;> subst h
  · exact mem_of_interval wordStarts 65 90 (by decide) y h1 h2
  · exact mem_of_interval wordStarts 95 95 (by decide) y h1 h2

/-- What holds of every rule derivative for the capital letters and the underscore holds for all word starts. -/
theorem wordStart_d (P : Re → Bool) (r : Re) (h : wordStarts.all (fun x => P (r.d x)) = true) (c : Char)
    (hc : isWordStart c = true) : P (r.d c) = true := by
  rw [← d_upC]
  exact List.all_eq_true.mp h _ (wordStart_mem c hc)

theorem not_matches_wordStart (r : Re) (h : wordStarts.all (fun x => (r.d x).isNone) = true) (c : Char) (w rest : Str)
    (hc : isWordStart c = true) (hm : Matches r (c :: w) rest) : False :=
  not_matches_of_isNone _ (wordStart_d Re.isNone r h c hc) w rest ((matches_d r c w rest).mpr hm)

theorem upC_eq_quote (q : Char) (h : Str.upC q = Str.upC '\'') : q = '\'' := by
  apply Str.char_ext
  have h1 := Str.upC_toNat q
  rw [h] at h1
  have e : (Str.upC '\'').toNat = 39 := rfl
  have e' : ('\'' : Char).toNat = 39 := rfl
  rw [e] at h1
  rw [e']
  split at h1 <;> omega

/-- The rules that can match a text starting like a word. -/
theorem rule_word (p : Tok × Re) (c : Char) (u rest : Str) (hp : p ∈ rules) (hc : isWordStart c = true)
    (h : Matches p.2 (c :: u) rest) :
    (∃ k, k ∈ keywords ∧ p = (k.1, Re.lit k.2) ∧ Str.upper (c :: u) = k.2)
      ∨ (p = (.IDENTIFIER, identifier) ∧ isWord (c :: u) = true)
      ∨ (p = (.BLOB_LITERAL, blobLiteral) ∧ Str.upC c = 'X' ∧ ∃ v, u = '\'' :: v)
      ∨ (p = (.UNEXPECTED_CHAR, unexpectedChar) ∧ u = []) := by
  unfold rules at hp
  rcases List.mem_append.mp hp with hp | hp
  · rcases List.mem_append.mp hp with hp | hp
    · exfalso
      obtain ⟨o, ho, rfl⟩ := List.mem_map.mp hp
      obtain ⟨x, xs, he, hx⟩ := operators_head o ho
      simp only [he] at h
      refine wordStart_ne c x hc ?_ (matches_lit_head _ _ _ _ _ h)
      rwa [isWordStart_upC] at hx
    · obtain ⟨k, hk, rfl⟩ := List.mem_map.mp hp
      refine Or.inl ⟨k, hk, rfl, ?_⟩
      rw [(matches_lit _ _ _).mp h, (keywords_upper k hk).1]
  · refine Or.inr ?_
    simp only [otherRules, List.mem_cons, List.not_mem_nil, or_false] at hp
    rcases hp with hp | hp | hp | hp | hp | hp | hp | hp | hp | hp | hp <;> subst hp
    · exact Or.inl ⟨rfl, identifier_wordStart c u rest hc h⟩
    · exact (not_matches_wordStart _ (by decide +kernel) c u rest hc h).elim
    · exact (not_matches_wordStart _ (by decide +kernel) c u rest hc h).elim
    · exact (not_matches_wordStart _ (by decide +kernel) c u rest hc h).elim
    · exact (not_matches_wordStart _ (by decide +kernel) c u rest hc h).elim
    · exact (not_matches_wordStart _ (by decide +kernel) c u rest hc h).elim
    · refine Or.inr (Or.inl ⟨rfl, ?_, ?_⟩)
      · have := matches_seq_lit_head _ _ _ _ _ h
        rw [this]; decide
      · rw [show (Tok.BLOB_LITERAL, blobLiteral).2 = .seq (Re.lit ['X']) stringLiteral from rfl, matches_seq] at h
        obtain ⟨a, b, hw, ha, hb⟩ := h
        rw [matches_lit] at ha
        cases a with
        | nil => simp [Str.upper] at ha
        | cons a0 a =>
          rw [Str.upper_cons, Str.upper_cons] at ha
          injection ha with ha1 ha2
          have : a = [] := by simpa [Str.upper] using ha2
          subst this
          injection hw with hw1 hw2
          have hw2 : u = b := hw2
          subst hw2
          unfold stringLiteral at hb
          cases u with
          | nil =>
            unfold quoted at hb
            rw [matches_seq] at hb
            obtain ⟨a, b, hw, ha, hb⟩ := hb
            rw [matches_lit] at ha
            cases a with
            | nil => simp [Str.upper] at ha
            | cons => cases hw
          | cons q v =>
            have := quoted_head _ _ _ _ hb
            refine ⟨v, ?_⟩
            rw [upC_eq_quote q this]
    · exact (not_matches_wordStart _ (by decide +kernel) c u rest hc h).elim
    · exact (not_matches_wordStart _ (by decide +kernel) c u rest hc h).elim
    · exact (not_matches_wordStart _ (by decide +kernel) c u rest hc h).elim
    · obtain ⟨x, hx, _⟩ := (matches_cls _ _ _ _).mp h
      injection hx with _ hx
      exact Or.inr (Or.inr ⟨rfl, hx⟩)


/-- What may follow a word: the end, or a character that is neither part of words nor a quote. -/
def wordEnd : Str → Bool
  | [] => true
  | c :: _ => !isWordChar c && c != '\''

theorem isWord_all (w : Str) (h : isWord w = true) : w.all isWordChar = true := by
  cases w with
  | nil => cases h
  | cons c cs =>
    simp only [isWord, Bool.and_eq_true] at h
    rw [List.all_cons, wordStart_wordChar c h.1, h.2]
    rfl

theorem firstRule_append_left (a b : List (Tok × Re)) (t : Tok) (w rest : Str) (h : FirstRule a t w rest) :
    FirstRule (a ++ b) t w rest := by
  induction a with
  | nil => exact (firstRule_nil t w rest h).elim
  | cons p a ih =>
    rw [List.cons_append]
    rw [firstRule_cons] at h ⊢
    rcases h with h | ⟨h1, h2⟩
    · exact Or.inl h
    · exact Or.inr ⟨h1, ih h2⟩

theorem firstRule_append_right (a b : List (Tok × Re)) (t : Tok) (w rest : Str)
    (hn : ∀ p, p ∈ a → ¬ Matches p.2 w rest) (h : FirstRule b t w rest) : FirstRule (a ++ b) t w rest := by
  induction a with
  | nil => exact h
  | cons p a ih =>
    rw [List.cons_append, firstRule_cons]
    exact Or.inr ⟨hn p (List.mem_cons_self ..), ih (fun q hq => hn q (List.mem_cons_of_mem _ hq))⟩

theorem firstRule_keywords (ks : List (Tok × Str)) (w rest : Str) (hu : ∀ k, k ∈ ks → Str.upper k.2 = k.2) :
    match ks.find? (fun k => k.2 == Str.upper w) with
    | some k => FirstRule (ks.map (fun k => (k.1, Re.lit k.2))) k.1 w rest
    | none => ∀ p, p ∈ ks.map (fun k => (k.1, Re.lit k.2)) → ¬ Matches p.2 w rest := by
  induction ks with
  | nil => simp
  | cons k ks ih =>
    have ih := ih (fun k hk => hu k (List.mem_cons_of_mem _ hk))
    have hk := hu k (List.mem_cons_self ..)
    rw [List.find?_cons]
    by_cases he : k.2 = Str.upper w
    · rw [show (k.2 == Str.upper w) = true from by simpa using he]
      simp only [List.map_cons]
      rw [firstRule_cons]
      refine Or.inl ⟨rfl, ?_⟩
      show Matches (Re.lit k.2) w rest
      rw [matches_lit, hk, he]
    · rw [show (k.2 == Str.upper w) = false from by simpa using he]
      have hno : ¬ Matches (Re.lit k.2) w rest := by
        rw [matches_lit, hk]
        exact fun h => he h.symm
      simp only
      split at ih
      · simp only [List.map_cons]
        rw [firstRule_cons]
        exact Or.inr ⟨hno, ih⟩
      · intro p hp
        rw [List.map_cons, List.mem_cons] at hp
        rcases hp with hp | hp
        · subst hp; exact hno
        · exact ih p hp

/-- A word followed by something else is one token: a keyword in any letter case, or an identifier. -/
theorem longest_word (w rest : Str) (hw : isWord w = true) (hr : wordEnd rest = true) :
    Longest rules (wordKind w) w rest := by
  obtain ⟨c, u, rfl⟩ : ∃ c u, w = c :: u := by
    cases w with
    | nil => cases hw
    | cons c u => exact ⟨c, u, rfl⟩
  have hc : isWordStart c = true := by
    simp only [isWord, Bool.and_eq_true] at hw; exact hw.1
  refine ⟨List.cons_ne_nil _ _, ?_, ?_⟩
  · have hops : ∀ p, p ∈ operators.map (fun o => (o.1, Re.lit o.2)) → ¬ Matches p.2 (c :: u) rest := by
      intro p hp h
      obtain ⟨o, ho, rfl⟩ := List.mem_map.mp hp
      obtain ⟨x, xs, he, hx⟩ := operators_head o ho
      simp only [he] at h
      refine wordStart_ne c x hc ?_ (matches_lit_head _ _ _ _ _ h)
      rwa [isWordStart_upC] at hx
    have hk := firstRule_keywords keywords (c :: u) rest (fun k hk => (keywords_upper k hk).1)
    unfold rules
    rw [List.append_assoc]
    apply firstRule_append_right _ _ _ _ _ hops
    unfold wordKind
    split at hk
    · exact firstRule_append_left _ _ _ _ _ hk
    · apply firstRule_append_right _ _ _ _ _ hk
      unfold otherRules
      rw [firstRule_cons]
      refine Or.inl ⟨rfl, ?_⟩
      show Matches identifier (c :: u) rest
      unfold identifier
      rw [matches_alt, matches_alt, matches_alt]
      exact Or.inr (Or.inr (Or.inr ((matches_word _ _).mpr hw)))
  · intro w' rest' he hl hs
    obtain ⟨v, rfl⟩ : (c :: u) <+: w' := by
      have : (c :: u) <+: w' ++ rest' := he ▸ List.prefix_append _ rest
      exact List.prefix_of_prefix_length_le this (List.prefix_append _ _) (Nat.le_of_lt hl)
    rw [List.append_assoc, List.append_cancel_left_eq] at he
    subst he
    cases v with
    | nil => simp at hl
    | cons r0 v =>
      have hr0 : isWordChar r0 = false ∧ r0 ≠ '\'' := by
        simp only [List.cons_append, wordEnd, Bool.and_eq_true, Bool.not_eq_true'] at hr
        exact ⟨hr.1, by simpa using hr.2⟩
      have hbad : ((c :: u) ++ r0 :: v).all isWordChar = true → False := by
        intro h
        simp [hr0.1] at h
      obtain ⟨p, hp, hm⟩ := hs
      rcases rule_word p c (u ++ r0 :: v) rest' hp hc hm with ⟨k, hk, _, h⟩ | ⟨_, h⟩ | ⟨_, _, x, h⟩ | ⟨_, h⟩
      · apply hbad
        rw [← all_wordChar_upper, List.cons_append, h]
        exact (keywords_upper k hk).2
      · exact hbad (isWord_all _ h)
      · cases u with
        | nil =>
          injection h with h _
          exact hr0.2 h
        | cons q u =>
          injection h with h _
          subst h
          have := isWord_all _ hw
          rw [List.all_cons, List.all_cons] at this
          have e : isWordChar '\'' = false := by decide
          rw [e] at this
          simp at this
      · simp at h

/-! ### String literals -/

theorem step_quote : step '\'' rules =
    [(.STRING_LITERAL, .seq (.star (.alt (.cls true [('\'', '\'')]) (Re.lit ['\'', '\'']))) (Re.lit ['\''])),
     (.UNEXPECTED_CHAR, .eps)] := by decide +kernel

theorem inSet_quote (c : Char) : inSet [('\'', '\'')] c = (c == '\'') := by
  rw [Bool.eq_iff_iff, inSet_iff, inRanges_single, beq_iff_eq]
  constructor
  · intro h; exact upC_eq_quote c h.symm
  · intro h; subst h; rfl

theorem upper_single (w : Str) (x : Char) : Str.upper w = Str.upper [x] ↔ ∃ c, w = [c] ∧ Str.upC c = Str.upC x := by
  cases w with
  | nil => simp [Str.upper]
  | cons c w =>
    rw [Str.upper_cons, Str.upper_cons]
    constructor
    · intro h
      injection h with h1 h2
      have : w = [] := by simpa [Str.upper] using h2
      subst this
      exact ⟨c, rfl, h1⟩
    · rintro ⟨c', h, h'⟩
      injection h with h1 h2
      subst h1; subst h2
      rw [h']

theorem matches_quote (w rest : Str) : Matches (Re.lit ['\'']) w rest ↔ w = ['\''] := by
  rw [matches_lit, upper_single]
  constructor
  · rintro ⟨c, rfl, h⟩; rw [upC_eq_quote c h]
  · rintro rfl; exact ⟨_, rfl, rfl⟩

theorem matches_quotes (w rest : Str) : Matches (Re.lit ['\'', '\'']) w rest ↔ w = ['\'', '\''] := by
  show Matches (.seq (Re.lit ['\'']) (Re.lit ['\''])) w rest ↔ _
  rw [matches_seq]
  constructor
  · rintro ⟨u, v, rfl, hu, hv⟩
    rw [(matches_quote _ _).mp hu, (matches_quote _ _).mp hv]; rfl
  · rintro rfl
    exact ⟨['\''], ['\''], rfl, (matches_quote _ _).mpr rfl, (matches_quote _ _).mpr rfl⟩

/-- Every quote is doubled. -/
def doubled : Str → Bool
  | [] => true
  | [c] => c != '\''
  | c :: c' :: cs => if c = '\'' then c' == '\'' && doubled cs else doubled (c' :: cs)

theorem reps_body (v rest : Str) :
    Reps (Matches (.alt (.cls true [('\'', '\'')]) (Re.lit ['\'', '\'']))) v rest ↔ doubled v = true := by
  constructor
  · intro h
    induction h with
    | nil => rfl
    | cons u v rest hu _ ih =>
      rw [matches_alt, matches_cls, matches_quotes] at hu
      rcases hu with ⟨c, rfl, hc⟩ | rfl
      · rw [inSet_quote] at hc
        have hc : c ≠ '\'' := by simpa using hc
        cases v with
        | nil => simpa [doubled] using hc
        | cons => rw [List.singleton_append, doubled, if_neg hc]; exact ih
      · show doubled ('\'' :: '\'' :: v) = true
        rw [doubled, if_pos rfl, ih]; rfl
  · intro h
    induction v using doubled.induct with
    | case1 => exact .nil _
    | case2 c =>
      have hc : c ≠ '\'' := by simpa [doubled] using h
      refine .cons [c] [] rest ?_ (.nil _)
      rw [matches_alt, matches_cls]
      exact Or.inl ⟨c, rfl, by rw [inSet_quote]; simpa using hc⟩
    | case3 c' cs ih =>
      rw [doubled, if_pos rfl, Bool.and_eq_true, beq_iff_eq] at h
      obtain ⟨rfl, h⟩ := h
      refine .cons ['\'', '\''] cs rest ?_ (ih h)
      rw [matches_alt, matches_quotes]
      exact Or.inr rfl
    | case4 c c' cs hc ih =>
      rw [doubled, if_neg hc] at h
      refine .cons [c] (c' :: cs) rest ?_ (ih h)
      rw [matches_alt, matches_cls]
      exact Or.inl ⟨c, rfl, by rw [inSet_quote]; simpa using hc⟩

theorem doubled_cancel (v y : Str) (hv : doubled v = true) : doubled (v ++ y) = doubled y := by
  induction v using doubled.induct with
  | case1 => rfl
  | case2 c =>
    have hc : c ≠ '\'' := by simpa [doubled] using hv
    cases y with
    | nil => simpa [doubled] using hc
    | cons => rw [List.singleton_append, doubled, if_neg hc]
  | case3 c' cs ih =>
    rw [doubled, if_pos rfl, Bool.and_eq_true, beq_iff_eq] at hv
    obtain ⟨rfl, h⟩ := hv
    rw [List.cons_append, List.cons_append, doubled, if_pos rfl, ih h]; rfl
  | case4 c c' cs hc ih =>
    rw [doubled, if_neg hc] at hv
    rw [List.cons_append, List.cons_append, doubled, if_neg hc]
    exact ih hv

/-- What a string literal matches after its opening quote. -/
theorem matches_body (w rest : Str) :
    Matches (.seq (.star (.alt (.cls true [('\'', '\'')]) (Re.lit ['\'', '\'']))) (Re.lit ['\''])) w rest ↔
      ∃ b, w = b ++ ['\''] ∧ doubled b = true := by
  rw [matches_seq]
  constructor
  · rintro ⟨u, v, rfl, hu, hv⟩
    rw [(matches_quote _ _).mp hv]
    exact ⟨u, rfl, (reps_body _ _).mp hu⟩
  · rintro ⟨b, rfl, h⟩
    exact ⟨b, ['\''], rfl, (reps_body _ _).mpr h, (matches_quote _ _).mpr rfl⟩

/-- What may follow a string literal. -/
def quoteEnd : Str → Bool
  | [] => true
  | c :: _ => c != '\''

/-- A text between quotes with every inner quote doubled is one token. -/
theorem longest_string (v rest : Str) (hv : doubled v = true) (hr : quoteEnd rest = true) :
    Longest rules .STRING_LITERAL ('\'' :: v ++ ['\'']) rest := by
  refine ⟨by simp, ?_, ?_⟩
  · rw [List.cons_append, ← firstRule_step, step_quote, firstRule_cons]
    exact Or.inl ⟨rfl, (matches_body _ _).mpr ⟨v, rfl, hv⟩⟩
  · intro w' rest' he hl hs
    obtain ⟨x, rfl⟩ : ('\'' :: v ++ ['\'']) <+: w' := by
      have : ('\'' :: v ++ ['\'']) <+: w' ++ rest' := he ▸ List.prefix_append _ rest
      exact List.prefix_of_prefix_length_le this (List.prefix_append _ _) (Nat.le_of_lt hl)
    rw [List.append_assoc, List.append_cancel_left_eq] at he
    subst he
    rw [List.append_assoc, List.cons_append, ← someRule_step, step_quote] at hs
    obtain ⟨p, hp, hm⟩ := hs
    simp only [List.mem_cons, List.not_mem_nil, or_false] at hp
    rcases hp with hp | hp <;> subst hp
    · obtain ⟨b, hb, hd⟩ := (matches_body _ _).mp hm
      cases x with
      | nil => simp at hl
      | cons r0 x =>
        have hr0 : r0 ≠ '\'' := by simpa [quoteEnd] using hr
        -- the body is `v`, a quote, and then something that is not a quote
        have : ∃ y, b = v ++ '\'' :: y ∧ (y = [] ∨ ∃ y', y = r0 :: y') := by
          have hl : v ++ '\'' :: r0 :: x = b ++ ['\''] := by simpa using hb
          rcases List.eq_nil_or_concat x with hx | ⟨x', l, hx⟩
          · subst hx
            have : (v ++ ['\'']) ++ [r0] = b ++ ['\''] := by simpa using hl
            obtain ⟨h1, h2⟩ := List.append_inj' this rfl
            exact ⟨[], h1.symm, Or.inl rfl⟩
          · subst hx
            have : (v ++ '\'' :: r0 :: x') ++ [l] = b ++ ['\''] := by simpa using hl
            obtain ⟨h1, h2⟩ := List.append_inj' this rfl
            exact ⟨r0 :: x', h1.symm, Or.inr ⟨x', rfl⟩⟩
        obtain ⟨y, rfl, hy⟩ := this
        rw [doubled_cancel v _ hv] at hd
        rcases hy with rfl | ⟨y', rfl⟩
        · simp [doubled] at hd
        · rw [doubled, if_pos rfl, Bool.and_eq_true, beq_iff_eq] at hd
          exact hr0 hd.1
    · have := (matches_eps _ _).mp hm
      simp at this

/-- A text between quotes is one string literal exactly if every inner quote is doubled. -/
theorem string_token_iff (v : Str) :
    lex ('\'' :: v ++ ['\'']) = some [{ kind := .STRING_LITERAL, text := '\'' :: v ++ ['\''] }] ↔ doubled v = true := by
  constructor
  · intro h
    have h := (lex_iff _ _).mp h
    have : FirstRule rules .STRING_LITERAL ('\'' :: v ++ ['\'']) [] := by
      generalize hw : '\'' :: v ++ ['\''] = w at h
      generalize hts : [({ kind := .STRING_LITERAL, text := w } : Token)] = ts at h
      cases h with
      | nil => cases hts
      | cons t u rest ts hl ht =>
        injection hts with h1 h2
        injection h1 with h3 h4
        subst h3
        have : rest = [] := by
          have := congrArg List.length h4
          simp at this
          exact this
        subst this
        rw [List.append_nil] at h4 ⊢
        exact hl.2.1
    rw [List.cons_append, ← firstRule_step, step_quote] at this
    rw [firstRule_cons] at this
    rcases this with ⟨_, h⟩ | ⟨_, h⟩
    · obtain ⟨b, hb, hd⟩ := (matches_body _ _).mp h
      rw [(List.append_inj' hb rfl).1]
      exact hd
    · rw [firstRule_cons] at h
      rcases h with ⟨h, _⟩ | ⟨_, h⟩
      · cases h
      · exact (firstRule_nil _ _ _ h).elim
  · intro h
    have := lex_cons _ _ [] [] (longest_string v [] h rfl) lex_nil
    simpa using this

/-! ### Numbers -/

/-- The sets of an expression without complemented sets; `none` if there is one. -/
def alphabet : Re → Option (List (Char × Char))
  | .empty | .eps | .eof => some []
  | .cls neg rs => if neg then none else some rs
  | .seq a b | .alt a b => (alphabet a).bind (fun x => (alphabet b).map (fun y => x ++ y))
  | .star a => alphabet a

theorem inSet_append (a b : List (Char × Char)) (c : Char) : inSet (a ++ b) c = (inSet a c || inSet b c) := by
  unfold inSet
  rw [List.any_append]

/-- The characters of a matched text are in the sets of the expression. -/
theorem matches_alphabet (r : Re) (rs : List (Char × Char)) (h : alphabet r = some rs) (w rest : Str)
    (hm : Matches r w rest) : w.all (inSet rs) = true := by
  induction r generalizing rs w rest with
  | empty => exact hm.elim
  | eps => rw [(matches_eps _ _).mp hm]; rfl
  | eof => rw [hm.1]; rfl
  | cls neg rs' =>
    cases neg with
    | true => cases h
    | false =>
      injection h with h
      subst h
      obtain ⟨c, rfl, hc⟩ := (matches_cls _ _ _ _).mp hm
      simpa using hc
  | seq a b iha ihb =>
    simp only [alphabet, Option.bind_eq_some_iff, Option.map_eq_some_iff] at h
    obtain ⟨x, hx, y, hy, rfl⟩ := h
    obtain ⟨u, v, rfl, hu, hv⟩ := (matches_seq _ _ _ _).mp hm
    have h1 := iha x hx _ _ hu
    have h2 := ihb y hy _ _ hv
    rw [List.all_eq_true] at h1 h2 ⊢
    intro c hc
    rw [inSet_append]
    rcases List.mem_append.mp hc with hc | hc
    · rw [h1 c hc]; rfl
    · rw [h2 c hc, Bool.or_true]
  | alt a b iha ihb =>
    simp only [alphabet, Option.bind_eq_some_iff, Option.map_eq_some_iff] at h
    obtain ⟨x, hx, y, hy, rfl⟩ := h
    rw [List.all_eq_true]
    intro c hc
    rw [inSet_append]
    rcases (matches_alt _ _ _ _).mp hm with hm | hm
    · rw [List.all_eq_true.mp (iha x hx _ _ hm) c hc]; rfl
    · rw [List.all_eq_true.mp (ihb y hy _ _ hm) c hc, Bool.or_true]
  | star a iha =>
    rw [matches_star] at hm
    induction hm with
    | nil => rfl
    | cons u v rest hu _ ih => rw [List.all_append, iha rs h _ _ hu, ih]; rfl

def digits10 : Str := s%"0123456789"

/-- A decimal digit. -/
def isDigit (c : Char) : Bool := 48 ≤ c.toNat && c.toNat ≤ 57

theorem digit_mem (c : Char) (h : isDigit c = true) : c ∈ digits10 := by
  unfold isDigit at h
  rw [Bool.and_eq_true, decide_eq_true_eq, decide_eq_true_eq] at h
  exact mem_of_interval digits10 48 57 (by decide) c h.1 h.2

theorem step_digit (c : Char) (h : isDigit c = true) :
    (step c rules).map (·.1) = [.NUMERIC_LITERAL, .UNEXPECTED_CHAR] ∧ (Tok.UNEXPECTED_CHAR, Re.eps) ∈ step c rules
      ∧ ∃ r, step c rules = [(.NUMERIC_LITERAL, r), (.UNEXPECTED_CHAR, .eps)] ∧ r = numeric.d c := by
  have : ∀ x, x ∈ digits10 → step x rules = [(.NUMERIC_LITERAL, numeric.d x), (.UNEXPECTED_CHAR, .eps)] := by
    decide +kernel
  rw [this c (digit_mem c h)]
  exact ⟨rfl, by simp, _, rfl, rfl⟩

/-- What may follow a number. -/
def numberEnd : Str → Bool
  | [] => true
  | c :: _ => !inSet ((alphabet numeric).getD []) c

theorem longest_number (c : Char) (w rest : Str) (hc : isDigit c = true) (hm : Matches numeric (c :: w) rest)
    (hr : numberEnd rest = true) : Longest rules .NUMERIC_LITERAL (c :: w) rest := by
  obtain ⟨_, _, r, hs, rfl⟩ := step_digit c hc
  refine ⟨by simp, ?_, ?_⟩
  · rw [← firstRule_step, hs, firstRule_cons]
    exact Or.inl ⟨rfl, (matches_d _ _ _ _).mpr hm⟩
  · intro w' rest' he hl hs'
    obtain ⟨x, rfl⟩ : (c :: w) <+: w' := by
      have : (c :: w) <+: w' ++ rest' := he ▸ List.prefix_append _ rest
      exact List.prefix_of_prefix_length_le this (List.prefix_append _ _) (Nat.le_of_lt hl)
    rw [List.append_assoc, List.append_cancel_left_eq] at he
    subst he
    rw [List.cons_append, ← someRule_step, hs] at hs'
    obtain ⟨p, hp, hm'⟩ := hs'
    simp only [List.mem_cons, List.not_mem_nil, or_false] at hp
    cases x with
    | nil => simp at hl
    | cons r0 x =>
      rcases hp with hp | hp <;> subst hp
      · have hm' := (matches_d _ _ _ _).mp hm'
        have ha : alphabet numeric = some ((alphabet numeric).getD []) := by decide +kernel
        have := matches_alphabet numeric _ ha _ _ hm'
        rw [List.all_eq_true] at this
        have := this r0 (by simp)
        simp only [List.cons_append, numberEnd, this] at hr
        cases hr
      · have := (matches_eps _ _).mp hm'
        simp at this

/-- Decimal digits. -/
theorem matches_digits (c : Char) (w rest : Str) (h : (c :: w).all isDigit = true) : Matches numeric (c :: w) rest := by
  have hd : ∀ x, isDigit x = true → inSet [('0', '9')] x = true := by
    intro x hx
    have : ∀ x, x ∈ digits10 → inSet [('0', '9')] x = true := by decide
    exact this x (digit_mem x hx)
  rw [List.all_cons, Bool.and_eq_true] at h
  unfold numeric
  rw [matches_alt, matches_seq]
  refine Or.inl ⟨c :: w, [], (List.append_nil _).symm, ?_, ?_⟩
  · rw [matches_alt, matches_seq]
    refine Or.inl ⟨c :: w, [], (List.append_nil _).symm, ?_, Or.inr rfl⟩
    show Matches (.seq digit (.star digit)) _ _
    rw [matches_seq]
    refine ⟨[c], w, rfl, ?_, ?_⟩
    · unfold digit
      rw [matches_cls]
      exact ⟨c, rfl, by simpa using hd c h.1⟩
    · unfold digit
      rw [matches_star, reps_cls, List.all_eq_true]
      intro x hx
      simpa using hd x (List.all_eq_true.mp h.2 x hx)
  · exact Or.inr rfl

/-! ### Operators and spaces -/

/-- After these characters nothing can follow in the same token. -/
theorem longest_single (t : Tok) (c : Char) (rest : Str) (h : step c rules = [(t, .eps), (.UNEXPECTED_CHAR, .eps)]) :
    Longest rules t [c] rest := by
  refine longest_of_accept t [c] rest (by simp) ?_ ?_
  · rw [steps_cons, steps_nil, h]; rfl
  · rw [steps_cons, steps_nil, h]
    cases rest <;> simp [Stops, step, Re.d, Re.isNone]

theorem longest_space (rest : Str) : Longest rules .SPACES [' '] rest := longest_single _ _ _ (by decide +kernel)
theorem longest_comma (rest : Str) : Longest rules .COMMA [','] rest := longest_single _ _ _ (by decide +kernel)
theorem longest_open (rest : Str) : Longest rules .OPEN_PAR ['('] rest := longest_single _ _ _ (by decide +kernel)
theorem longest_close (rest : Str) : Longest rules .CLOSE_PAR [')'] rest := longest_single _ _ _ (by decide +kernel)
theorem longest_semicolon (rest : Str) : Longest rules .SCOL [';'] rest := longest_single _ _ _ (by decide +kernel)
theorem longest_star (rest : Str) : Longest rules .STAR ['*'] rest := longest_single _ _ _ (by decide +kernel)

/-- A text and the character after it. -/
theorem longest_before (t : Tok) (w : Str) (c : Char) (rest : Str) (hw : w ≠ [])
    (ha : accept false (steps w rules) = some t) (hs : step c (steps w rules) = []) :
    Longest rules t w (c :: rest) := longest_of_accept t w (c :: rest) hw ha hs

theorem longest_dot (c : Char) (rest : Str) (hc : isWordStart c = true) : Longest rules .DOT ['.'] (c :: rest) := by
  refine longest_before _ _ _ _ (by simp) (by decide +kernel) ?_
  rw [← step_upC]
  have : ∀ x, x ∈ wordStarts → step x (steps ['.'] rules) = [] := by decide +kernel
  exact this _ (wordStart_mem c hc)

end Verif.Lex
