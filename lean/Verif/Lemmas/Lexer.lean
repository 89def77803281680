import Verif.Spec.Lexer
import Verif.Lemmas.Str
/-! The lexer's derivatives agree with the meaning of the rules; the scan finds the longest match. -/
namespace Verif.Lex
open Verif Verif.Spec

theorem sameLetter_iff (x c : Char) : SameLetter x c ↔ x = c ∨ x = Str.upC c ∨ x = Str.loC c := by
  unfold SameLetter
  constructor
  · intro h
    have h' := congrArg Char.toNat h
    have hx := Str.upC_toNat x
    have hc := Str.upC_toNat c
    have lc := Str.loC_toNat c
    by_cases hxr : 97 ≤ x.toNat ∧ x.toNat ≤ 122
    · rw [if_pos hxr] at hx
      by_cases hcr : 97 ≤ c.toNat ∧ c.toNat ≤ 122
      · rw [if_pos hcr] at hc
        left; apply Str.char_ext; omega
      · rw [if_neg hcr] at hc
        right; right; apply Str.char_ext
        rw [if_pos (by omega)] at lc
        omega
    · rw [if_neg hxr] at hx
      right; left; apply Str.char_ext; omega
  · rintro (h | h | h) <;> subst h <;> simp

theorem inRange_iff (c : Char) (r : Char × Char) : inRange c r = true ↔ r.1.toNat ≤ c.toNat ∧ c.toNat ≤ r.2.toNat := by
  simp [inRange]

theorem inSet_iff (rs : List (Char × Char)) (c : Char) : inSet rs c = true ↔ InRanges rs c := by
  unfold inSet InRanges
  rw [List.any_eq_true]
  constructor
  · rintro ⟨r, hr, h⟩
    simp only [Bool.or_eq_true, inRange_iff] at h
    refine ⟨r, hr, ?_⟩
    rcases h with (h | h) | h
    · exact ⟨c, rfl, h⟩
    · exact ⟨Str.upC c, by simp [SameLetter], h⟩
    · exact ⟨Str.loC c, by simp [SameLetter], h⟩
  · rintro ⟨r, hr, x, hx, h⟩
    refine ⟨r, hr, ?_⟩
    simp only [Bool.or_eq_true, inRange_iff]
    rcases (sameLetter_iff x c).mp hx with h' | h' | h' <;> subst h'
    · exact Or.inl (Or.inl h)
    · exact Or.inl (Or.inr h)
    · exact Or.inr h

/-- The test of a set character. -/
theorem cls_iff (neg : Bool) (rs : List (Char × Char)) (c : Char) :
    (inSet rs c != neg) = true ↔ (InRanges rs c ↔ neg = false) := by
  rw [← inSet_iff]
  cases neg <;> cases inSet rs c <;> simp

/-! ### Matching -/

theorem matches_mkSeq (a b : Re) (w rest : Str) : Matches (Re.mkSeq a b) w rest ↔ Matches (.seq a b) w rest := by
  cases a with
  | empty => simp [Re.mkSeq, Matches]
  | eps =>
    simp only [Re.mkSeq, Matches]
    constructor
    · intro h; exact ⟨[], w, rfl, rfl, h⟩
    · rintro ⟨u, v, hw, hu, h⟩; subst hu; subst hw; exact h
  | _ => rfl

theorem matches_mkAlt (a b : Re) (w rest : Str) : Matches (Re.mkAlt a b) w rest ↔ Matches (.alt a b) w rest := by
  cases a <;> cases b <;> simp [Re.mkAlt, Matches]

theorem reps_nil_of (P : Str → Str → Prop) (rest : Str) : Reps P [] rest := .nil rest

/-- A repetition of a non-empty text starts with a non-empty piece. -/
theorem reps_cons (P : Str → Str → Prop) (c : Char) (w rest : Str) :
    Reps P (c :: w) rest ↔ ∃ u v, w = u ++ v ∧ P (c :: u) (v ++ rest) ∧ Reps P v rest := by
  constructor
  · intro h
    have key : ∀ x rest, Reps P x rest → ∀ c w, x = c :: w →
        ∃ u v, w = u ++ v ∧ P (c :: u) (v ++ rest) ∧ Reps P v rest := by
      intro x rest hx
      induction hx with
      | nil => intro c w h; cases h
      | cons u v rest hu hv ih =>
        intro c w h
        cases u with
        | nil => exact ih c w h
        | cons a u' =>
          injection h with h1 h2
          subst h1
          exact ⟨u', v, h2.symm, hu, hv⟩
    exact key _ _ h c w rfl
  · rintro ⟨u, v, hw, hu, hv⟩
    subst hw
    exact Reps.cons (c :: u) v rest hu hv

theorem nullable_iff (r : Re) (rest : Str) : r.nullable rest.isEmpty = true ↔ Matches r [] rest := by
  induction r with
  | empty => simp [Re.nullable, Matches]
  | eps => simp [Re.nullable, Matches]
  | eof => simp [Re.nullable, Matches]
  | cls => simp [Re.nullable, Matches]
  | seq a b iha ihb =>
    simp only [Re.nullable, Matches, Bool.and_eq_true, iha, ihb]
    constructor
    · rintro ⟨ha, hb⟩; exact ⟨[], [], rfl, ha, hb⟩
    · rintro ⟨u, v, h, ha, hb⟩
      have hu : u = [] := (List.append_eq_nil_iff.mp h.symm).1
      have hv : v = [] := (List.append_eq_nil_iff.mp h.symm).2
      subst hu; subst hv; exact ⟨ha, hb⟩
  | alt a b iha ihb => simp only [Re.nullable, Matches, Bool.or_eq_true, iha, ihb]
  | star a => simp only [Re.nullable, Matches, true_iff]; exact Reps.nil rest

/-- What is left after a character: the derivative is sound and complete. -/
theorem matches_d (r : Re) (c : Char) (w rest : Str) : Matches (r.d c) w rest ↔ Matches r (c :: w) rest := by
  induction r generalizing w rest with
  | empty => simp [Re.d, Matches]
  | eps => simp [Re.d, Matches]
  | eof => simp [Re.d, Matches]
  | cls neg rs =>
    simp only [Re.d]
    by_cases h : (inSet rs c != neg) = true
    · rw [if_pos h]
      have := (cls_iff neg rs c).mp h
      simp only [Matches]
      constructor
      · intro hw; subst hw; exact ⟨c, rfl, this⟩
      · rintro ⟨c', hw, _⟩; injection hw
    · rw [if_neg h]
      simp only [Matches, false_iff]
      rintro ⟨c', hw, h'⟩
      injection hw with h1 h2
      subst h1
      exact h ((cls_iff neg rs c).mpr h')
  | seq a b iha ihb =>
    have one : Matches (Re.mkSeq (a.d c) b) w rest ↔
        ∃ u v, w = u ++ v ∧ Matches a (c :: u) (v ++ rest) ∧ Matches b v rest := by
      rw [matches_mkSeq]; simp only [Matches, iha]
    have two : Matches (.seq a b) (c :: w) rest ↔
        (∃ u v, w = u ++ v ∧ Matches a (c :: u) (v ++ rest) ∧ Matches b v rest) ∨
        (Matches a [] (c :: w ++ rest) ∧ Matches b (c :: w) rest) := by
      simp only [Matches]
      constructor
      · rintro ⟨u, v, hw, hu, hv⟩
        cases u with
        | nil => right; simp only [List.nil_append] at hw; rw [hw]; exact ⟨hu, hv⟩
        | cons x u' =>
          injection hw with h1 h2
          subst h1
          exact Or.inl ⟨u', v, h2, hu, hv⟩
      · rintro (⟨u, v, hw, hu, hv⟩ | ⟨hu, hv⟩)
        · exact ⟨c :: u, v, by rw [hw]; rfl, hu, hv⟩
        · exact ⟨[], c :: w, rfl, hu, hv⟩
    have three : a.nullable false = true ↔ Matches a [] (c :: w ++ rest) := nullable_iff a (c :: w ++ rest)
    simp only [Re.d]
    by_cases hn : a.nullable false = true
    · rw [if_pos hn, matches_mkAlt, two]
      show Matches _ _ _ ∨ Matches _ _ _ ↔ _
      rw [one, ihb]
      constructor
      · rintro (h | h)
        · exact Or.inl h
        · exact Or.inr ⟨three.mp hn, h⟩
      · rintro (h | h)
        · exact Or.inl h
        · exact Or.inr h.2
    · rw [if_neg hn, one, two]
      constructor
      · exact Or.inl
      · rintro (h | h)
        · exact h
        · exact absurd (three.mpr h.1) hn
  | alt a b iha ihb => simp only [Re.d, matches_mkAlt, Matches, iha, ihb]
  | star a iha =>
    simp only [Re.d, matches_mkSeq]
    simp only [Matches, iha]
    rw [reps_cons]

theorem not_matches_of_isNone (r : Re) (h : r.isNone = true) (w rest : Str) : ¬ Matches r w rest := by
  cases r <;> simp_all [Re.isNone, Matches]

/-! ### Side by side -/

/-- The rules alive after a character match exactly what the rules match with that character in front. -/
theorem someRule_step (c : Char) (act : List (Tok × Re)) (w rest : Str) :
    SomeRule (step c act) w rest ↔ SomeRule act (c :: w) rest := by
  unfold SomeRule step
  constructor
  · rintro ⟨p, hp, hm⟩
    rw [List.mem_filterMap] at hp
    obtain ⟨q, hq, hqp⟩ := hp
    simp only at hqp
    split at hqp
    · cases hqp
    · injection hqp with hqp
      subst hqp
      exact ⟨q, hq, (matches_d _ _ _ _).mp hm⟩
  · rintro ⟨q, hq, hm⟩
    have hd := (matches_d q.2 c w rest).mpr hm
    refine ⟨(q.1, q.2.d c), ?_, hd⟩
    rw [List.mem_filterMap]
    refine ⟨q, hq, ?_⟩
    simp only
    split
    · rename_i hn; exact absurd hd (not_matches_of_isNone _ hn _ _)
    · rfl

theorem firstRule_cons (p : Tok × Re) (rs : List (Tok × Re)) (t : Tok) (w rest : Str) :
    FirstRule (p :: rs) t w rest ↔
      (p.1 = t ∧ Matches p.2 w rest) ∨ (¬ Matches p.2 w rest ∧ FirstRule rs t w rest) := by
  unfold FirstRule
  constructor
  · rintro ⟨pre, r, post, he, hm, hn⟩
    cases pre with
    | nil =>
      injection he with h1 h2
      subst h1
      exact Or.inl ⟨rfl, hm⟩
    | cons q pre =>
      injection he with h1 h2
      subst h1
      exact Or.inr ⟨hn _ (List.mem_cons_self ..), pre, r, post, h2, hm,
        fun x hx => hn x (List.mem_cons_of_mem _ hx)⟩
  · rintro (⟨h1, h2⟩ | ⟨h1, pre, r, post, he, hm, hn⟩)
    · refine ⟨[], p.2, rs, ?_, h2, fun _ h => nomatch h⟩
      rw [← h1]; rfl
    · refine ⟨p :: pre, r, post, by rw [he]; rfl, hm, ?_⟩
      intro x hx
      rcases List.mem_cons.mp hx with h | h
      · subst h; exact h1
      · exact hn x h

theorem firstRule_nil (t : Tok) (w rest : Str) : ¬ FirstRule [] t w rest := by
  rintro ⟨pre, r, post, he, _⟩
  cases pre <;> cases he

theorem firstRule_step (c : Char) (act : List (Tok × Re)) (t : Tok) (w rest : Str) :
    FirstRule (step c act) t w rest ↔ FirstRule act t (c :: w) rest := by
  induction act with
  | nil => simp [step, firstRule_nil]
  | cons p act ih =>
    rw [firstRule_cons, ← matches_d]
    unfold step
    rw [List.filterMap_cons]
    simp only
    split
    · rename_i hb
      split at hb
      · rename_i hn
        have := not_matches_of_isNone _ hn w rest
        rw [show (List.filterMap _ act) = step c act from rfl, ih]
        simp [this]
      · cases hb
    · rename_i q hb
      split at hb
      · cases hb
      · injection hb with hb
        subst hb
        rw [firstRule_cons, show (List.filterMap _ act) = step c act from rfl, ih]

theorem firstRule_some (rs : List (Tok × Re)) (w rest : Str) :
    SomeRule rs w rest ↔ ∃ t, FirstRule rs t w rest := by
  constructor
  · rintro ⟨p, hp, hm⟩
    induction rs with
    | nil => cases hp
    | cons q rs ih =>
      by_cases hq : Matches q.2 w rest
      · exact ⟨q.1, (firstRule_cons _ _ _ _ _).mpr (Or.inl ⟨rfl, hq⟩)⟩
      · rcases List.mem_cons.mp hp with h | h
        · subst h; exact absurd hm hq
        · obtain ⟨t, ht⟩ := ih h
          exact ⟨t, (firstRule_cons _ _ _ _ _).mpr (Or.inr ⟨hq, ht⟩)⟩
  · rintro ⟨t, pre, r, post, he, hm, _⟩
    exact ⟨(t, r), by rw [he]; simp, hm⟩

theorem firstRule_unique (rs : List (Tok × Re)) (t t' : Tok) (w rest : Str)
    (h : FirstRule rs t w rest) (h' : FirstRule rs t' w rest) : t = t' := by
  induction rs with
  | nil => exact absurd h (firstRule_nil _ _ _)
  | cons p rs ih =>
    rw [firstRule_cons] at h h'
    rcases h with ⟨h1, h2⟩ | ⟨h1, h2⟩ <;> rcases h' with ⟨h3, h4⟩ | ⟨h3, h4⟩
    · rw [← h1, ← h3]
    · exact absurd h2 h3
    · exact absurd h4 h1
    · exact ih h2 h4

/-- The accepting rule. -/
theorem accept_iff (act : List (Tok × Re)) (rest : Str) (t : Tok) :
    accept rest.isEmpty act = some t ↔ FirstRule act t [] rest := by
  induction act with
  | nil => simp [accept, firstRule_nil]
  | cons p act ih =>
    rw [firstRule_cons, ← nullable_iff]
    unfold accept
    rw [List.find?_cons]
    by_cases h : p.2.nullable rest.isEmpty = true
    · simp [h]
    · simp only [h]
      simp only [Bool.not_eq_true] at h
      simp only [false_or, not_false_eq_true, true_and, Bool.false_eq_true, and_false]
      exact ih

theorem accept_none_iff (act : List (Tok × Re)) (rest : Str) :
    accept rest.isEmpty act = none ↔ ¬ SomeRule act [] rest := by
  rw [firstRule_some]
  cases h : accept rest.isEmpty act with
  | some t => simp only [reduceCtorEq, false_iff]; exact fun hn => hn ⟨t, (accept_iff _ _ _).mp h⟩
  | none =>
    simp only [true_iff]
    rintro ⟨t, ht⟩
    rw [(accept_iff _ _ _).mpr ht] at h
    cases h

/-! ### The scan -/

/-- A match of `k` more characters of the input, no longer one, `t` being the first rule. -/
def BestFor (act : List (Tok × Re)) (inp : Str) (t : Tok) (k : Nat) : Prop :=
  0 < k ∧ k ≤ inp.length ∧ FirstRule act t (inp.take k) (inp.drop k) ∧
    ∀ m, k < m → m ≤ inp.length → ¬ SomeRule act (inp.take m) (inp.drop m)

/-- No match of a positive number of characters. -/
def NoMatch (act : List (Tok × Re)) (inp : Str) : Prop :=
  ∀ m, 0 < m → m ≤ inp.length → ¬ SomeRule act (inp.take m) (inp.drop m)

theorem noMatch_of_step_nil (c : Char) (cs : Str) (act : List (Tok × Re)) (h : (step c act).isEmpty = true) :
    NoMatch act (c :: cs) := by
  intro m hm hl hs
  cases m with
  | zero => omega
  | succ m =>
    simp only [List.take_succ_cons, List.drop_succ_cons] at hs
    rw [← someRule_step] at hs
    obtain ⟨p, hp, _⟩ := hs
    rw [List.isEmpty_iff.mp h] at hp
    cases hp

theorem noMatch_cons (c : Char) (cs : Str) (act : List (Tok × Re)) :
    NoMatch act (c :: cs) ↔ ¬ SomeRule (step c act) [] cs ∧ NoMatch (step c act) cs := by
  constructor
  · intro h
    refine ⟨?_, ?_⟩
    · rw [someRule_step]; exact h 1 (by omega) (by simp)
    · intro m hm hl
      rw [someRule_step]
      exact h (m + 1) (by omega) (by simpa using hl)
  · rintro ⟨h0, h⟩ m hm hl hs
    cases m with
    | zero => omega
    | succ m =>
      simp only [List.take_succ_cons, List.drop_succ_cons] at hs
      rw [← someRule_step] at hs
      cases m with
      | zero => exact h0 (by simpa using hs)
      | succ m => exact h (m + 1) (by omega) (by simpa using hl) hs

theorem bestFor_succ (c : Char) (cs : Str) (act : List (Tok × Re)) (t : Tok) (k : Nat) (hk : 0 < k) :
    BestFor act (c :: cs) t (k + 1) ↔ BestFor (step c act) cs t k := by
  unfold BestFor
  constructor
  · rintro ⟨_, hl, hf, hm⟩
    refine ⟨hk, by simpa using hl, (firstRule_step ..).mpr hf, ?_⟩
    intro m h1 h2 hs
    exact hm (m + 1) (by omega) (by simpa using h2) ((someRule_step ..).mp hs)
  · rintro ⟨_, hl, hf, hm⟩
    refine ⟨by omega, by simpa using hl, (firstRule_step ..).mp hf, ?_⟩
    intro m h1 h2 hs
    cases m with
    | zero => omega
    | succ m => exact hm m (by omega) (by simpa using h2) ((someRule_step ..).mpr hs)

theorem bestFor_one (c : Char) (cs : Str) (act : List (Tok × Re)) (t : Tok)
    (hf : FirstRule (step c act) t [] cs) (hn : NoMatch (step c act) cs) : BestFor act (c :: cs) t 1 := by
  refine ⟨by omega, by simp, (firstRule_step ..).mp hf, ?_⟩
  intro m h1 h2 hs
  cases m with
  | zero => omega
  | succ m => exact hn m (by omega) (by simpa using h2) ((someRule_step ..).mpr hs)

/-- The scan gives the longest match if there is one, and otherwise the best so far. -/
theorem scan_spec (inp : Str) (act : List (Tok × Re)) (n : Nat) (best : Option (Tok × Nat)) :
    (∃ t k, BestFor act inp t k ∧ scan act inp n best = some (t, n + k)) ∨
    (NoMatch act inp ∧ scan act inp n best = best) := by
  induction inp generalizing act n best with
  | nil => right; exact ⟨fun m h1 h2 => by simp at h2; omega, rfl⟩
  | cons c cs ih =>
    simp only [scan]
    by_cases he : (step c act).isEmpty = true
    · rw [if_pos he]; right; exact ⟨noMatch_of_step_nil c cs act he, rfl⟩
    · rw [if_neg he]
      rcases ih (step c act) (n + 1) (better best (n + 1) (accept cs.isEmpty (step c act))) with ⟨t, k, hb, hs⟩ | ⟨hn, hs⟩
      · left
        refine ⟨t, k + 1, (bestFor_succ c cs act t k hb.1).mpr hb, ?_⟩
        rw [hs, show n + 1 + k = n + (k + 1) by omega]
      · rw [hs]
        cases ha : accept cs.isEmpty (step c act) with
        | some t =>
          left
          exact ⟨t, 1, bestFor_one c cs act t ((accept_iff ..).mp ha) hn, rfl⟩
        | none => right; exact ⟨(noMatch_cons c cs act).mpr ⟨(accept_none_iff ..).mp ha, hn⟩, rfl⟩

theorem bestFor_iff_longest (act : List (Tok × Re)) (inp : Str) (t : Tok) (k : Nat) (hk : k ≤ inp.length) :
    BestFor act inp t k ↔ Longest act t (inp.take k) (inp.drop k) := by
  unfold BestFor Longest
  constructor
  · rintro ⟨h0, _, hf, hm⟩
    refine ⟨?_, hf, ?_⟩
    · intro h
      have := congrArg List.length h
      rw [List.length_take, List.length_nil] at this
      omega
    · intro w' rest' he hl hs
      rw [List.take_append_drop] at he
      have h1 : inp.take w'.length = w' := by rw [← he]; simp
      have h2 : inp.drop w'.length = rest' := by rw [← he]; simp
      rw [← h1, ← h2] at hs
      refine hm w'.length ?_ ?_ (by simpa using hs)
      · rw [List.length_take] at hl; omega
      · rw [← he]; simp
  · rintro ⟨h0, hf, hm⟩
    refine ⟨?_, hk, hf, ?_⟩
    · rcases Nat.eq_zero_or_pos k with h | h
      · subst h; simp at h0
      · exact h
    · intro m h1 h2 hs
      refine hm (inp.take m) (inp.drop m) (by simp) ?_ hs
      rw [List.length_take, List.length_take]; omega

/-- Any one character is a token. -/
theorem someRule_char (c : Char) (cs : Str) : SomeRule rules [c] cs := by
  refine ⟨(.UNEXPECTED_CHAR, unexpectedChar), ?_, ?_⟩
  · exact List.mem_append_right _ (by unfold otherRules; repeat (first | exact List.Mem.head _ | apply List.Mem.tail))
  · exact ⟨c, rfl, by simp [InRanges]⟩

/-- The next token of a non-empty input. -/
theorem next_spec (c : Char) (cs : Str) :
    ∃ t k, next (c :: cs) = some (t, k) ∧ BestFor rules (c :: cs) t k := by
  rcases scan_spec (c :: cs) rules 0 none with ⟨t, k, hb, hs⟩ | ⟨hn, _⟩
  · exact ⟨t, k, by unfold next; rw [hs]; simp, hb⟩
  · exact absurd (someRule_char c cs) (hn 1 (by omega) (by simp))

theorem bestFor_unique (act : List (Tok × Re)) (inp : Str) (t t' : Tok) (k k' : Nat)
    (h : BestFor act inp t k) (h' : BestFor act inp t' k') : t = t' ∧ k = k' := by
  have hk : k = k' := by
    rcases Nat.lt_trichotomy k k' with hl | he | hl
    · exact absurd ((firstRule_some _ _ _).mpr ⟨t', h'.2.2.1⟩) (h.2.2.2 k' hl h'.2.1)
    · exact he
    · exact absurd ((firstRule_some _ _ _).mpr ⟨t, h.2.2.1⟩) (h'.2.2.2 k hl h.2.1)
  subst hk
  exact ⟨firstRule_unique _ _ _ _ _ h.2.2.1 h'.2.2.1, rfl⟩

theorem next_iff (inp : Str) (t : Tok) (k : Nat) (hne : inp ≠ []) :
    next inp = some (t, k) ↔ BestFor rules inp t k := by
  cases inp with
  | nil => exact absurd rfl hne
  | cons c cs =>
    obtain ⟨t', k', hn, hb⟩ := next_spec c cs
    constructor
    · intro h
      rw [hn] at h
      injection h with h; injection h with h1 h2
      subst h1; subst h2; exact hb
    · intro h
      obtain ⟨h1, h2⟩ := bestFor_unique _ _ _ _ _ _ h hb
      subst h1; subst h2; exact hn

/-! ### The token list -/

theorem lexFuel_spec (inp : Str) (fuel : Nat) (hf : inp.length ≤ fuel) :
    ∃ ts, lexFuel fuel inp = some ts ∧ Tokenised rules inp ts := by
  induction fuel generalizing inp with
  | zero =>
    have : inp = [] := List.length_eq_zero_iff.mp (by omega)
    subst this
    exact ⟨[], rfl, .nil⟩
  | succ fuel ih =>
    cases inp with
    | nil => exact ⟨[], rfl, .nil⟩
    | cons c cs =>
      obtain ⟨t, k, hn, hb⟩ := next_spec c cs
      have hl : ((c :: cs).drop k).length ≤ fuel := by
        rw [List.length_drop, List.length_cons]; rw [List.length_cons] at hf; have := hb.1; omega
      obtain ⟨ts, h1, h2⟩ := ih _ hl
      refine ⟨{ kind := t, text := (c :: cs).take k } :: ts, ?_, ?_⟩
      · rw [lexFuel, hn]
        show (lexFuel fuel ((c :: cs).drop k)).map _ = _
        rw [h1]; rfl
      · have := Tokenised.cons t ((c :: cs).take k) ((c :: cs).drop k) ts
          ((bestFor_iff_longest _ _ _ _ hb.2.1).mp hb) h2
        rwa [List.take_append_drop] at this

theorem lex_spec (inp : Str) : ∃ ts, lex inp = some ts ∧ Tokenised rules inp ts :=
  lexFuel_spec inp _ (Nat.le_refl _)

theorem longest_to_best (act : List (Tok × Re)) (t : Tok) (w rest : Str) (h : Longest act t w rest) :
    BestFor act (w ++ rest) t w.length := by
  rw [bestFor_iff_longest _ _ _ _ (by simp)]
  simpa using h

theorem tokenised_unique (inp : Str) (ts ts' : List Token) (h : Tokenised rules inp ts) (h' : Tokenised rules inp ts') :
    ts = ts' := by
  induction h generalizing ts' with
  | nil =>
    generalize hx : ([] : Str) = x at h'
    cases h' with
    | nil => rfl
    | cons t w rest ts hl _ => exact absurd (List.append_eq_nil_iff.mp hx.symm).1 hl.1
  | cons t w rest ts hl _ ih =>
    generalize hx : w ++ rest = x at h'
    cases h' with
    | nil => exact absurd (List.append_eq_nil_iff.mp hx).1 hl.1
    | cons t' w' rest' ts' hl' hr' =>
      have hb := longest_to_best _ _ _ _ hl
      have hb' := longest_to_best _ _ _ _ hl'
      rw [hx] at hb
      obtain ⟨h1, h2⟩ := bestFor_unique _ _ _ _ _ _ hb hb'
      obtain ⟨h3, h4⟩ := List.append_inj hx h2
      subst h1; subst h3; subst h4
      rw [ih _ hr']

theorem lex_iff (inp : Str) (ts : List Token) : lex inp = some ts ↔ Tokenised rules inp ts := by
  obtain ⟨ts', h1, h2⟩ := lex_spec inp
  constructor
  · intro h
    rw [h1] at h; injection h with h; subst h; exact h2
  · intro h
    rw [tokenised_unique _ _ _ h h2]; exact h1

end Verif.Lex
