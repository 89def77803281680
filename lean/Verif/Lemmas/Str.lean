import Verif.Model.Str
/- Helper lemmas about the string model. -/
namespace Verif.Str

theorem toNat_ofNat {n : Nat} (h : n < 55296) : (Char.ofNat n).toNat = n := by
  have hv : n.isValidChar := Or.inl h
  simp [Char.ofNat, hv, Char.toNat, Char.ofNatAux]
  
theorem char_ext {a b : Char} (h : a.toNat = b.toNat) : a = b := by
  apply Char.ext
  apply UInt32.toNat_inj.mp
  exact h

theorem upC_toNat (c : Char) :
    (upC c).toNat = if 97 ≤ c.toNat ∧ c.toNat ≤ 122 then c.toNat - 32 else c.toNat := by
  unfold upC
  split
  · next h => rw [toNat_ofNat (by omega)]
  · rfl

theorem loC_toNat (c : Char) :
    (loC c).toNat = if 65 ≤ c.toNat ∧ c.toNat ≤ 90 then c.toNat + 32 else c.toNat := by
  unfold loC
  split
  · next h => rw [toNat_ofNat (by omega)]
  · rfl

@[simp] theorem upC_upC (c : Char) : upC (upC c) = upC c := by
  apply char_ext
  rw [upC_toNat, upC_toNat]
  repeat' split
  all_goals omega

@[simp] theorem upC_loC (c : Char) : upC (loC c) = upC c := by
  apply char_ext
  rw [upC_toNat, upC_toNat, loC_toNat]
  repeat' split
  all_goals omega

@[simp] theorem upper_nil : upper [] = [] := rfl
@[simp] theorem upper_cons (c : Char) (s : Str) : upper (c :: s) = upC c :: upper s := rfl
@[simp] theorem upper_append (s t : Str) : upper (s ++ t) = upper s ++ upper t := by
  simp [upper]
@[simp] theorem upper_length (s : Str) : (upper s).length = s.length := by simp [upper]
@[simp] theorem upper_upper (s : Str) : upper (upper s) = upper s := by
  induction s with
  | nil => rfl
  | cons c s ih => simp [ih]
@[simp] theorem upper_lower (s : Str) : upper (lower s) = upper s := by
  induction s with
  | nil => rfl
  | cons c s ih =>
    have : lower (c :: s) = loC c :: lower s := rfl
    rw [this]; simp [ih]

theorem eqFold_iff (s t : Str) : eqFold s t = true ↔ upper s = upper t := by
  simp [eqFold]
theorem eqFold_refl (s : Str) : eqFold s s = true := by simp [eqFold]
theorem eqFold_comm (s t : Str) : eqFold s t = eqFold t s := by
  rw [Bool.eq_iff_iff, eqFold_iff, eqFold_iff]; exact eq_comm
theorem eqFold_trans {s t u : Str} (h : eqFold s t = true) (h' : eqFold t u = true) :
    eqFold s u = true := by
  rw [eqFold_iff] at *; exact h.trans h'

/-! ### prefix, index, contains -/

theorem hasPrefix_iff (s p : Str) : hasPrefix s p = true ↔ ∃ r, s = p ++ r := by
  unfold hasPrefix
  rw [List.isPrefixOf_iff_prefix]
  constructor
  · rintro ⟨r, h⟩; exact ⟨r, h.symm⟩
  · rintro ⟨r, h⟩; exact ⟨r, h.symm⟩

theorem hasSuffix_iff (s p : Str) : hasSuffix s p = true ↔ ∃ r, s = r ++ p := by
  unfold hasSuffix
  rw [List.isPrefixOf_iff_prefix]
  constructor
  · rintro ⟨r, h⟩
    refine ⟨r.reverse, ?_⟩
    have := congrArg List.reverse h
    simpa using this.symm
  · rintro ⟨r, h⟩; exact ⟨r.reverse, by simp [h]⟩

theorem index_some {s sub : Str} {n : Nat} (h : index s sub = some n) :
    ∃ pre post, s = pre ++ sub ++ post ∧ pre.length = n := by
  induction s generalizing n with
  | nil =>
    unfold index at h
    split at h
    · next hp =>
      rw [List.isPrefixOf_iff_prefix] at hp
      obtain ⟨r, hr⟩ := hp
      simp at h
      exact ⟨[], r, by simpa using hr.symm, by simp [h]⟩
    · simp at h
  | cons c s ih =>
    unfold index at h
    split at h
    · next hp =>
      rw [List.isPrefixOf_iff_prefix] at hp
      obtain ⟨r, hr⟩ := hp
      simp at h
      exact ⟨[], r, by simpa using hr.symm, by simp [h]⟩
    · simp only [Option.map_eq_some_iff] at h
      obtain ⟨m, hm, rfl⟩ := h
      obtain ⟨pre, post, hs, hl⟩ := ih hm
      exact ⟨c :: pre, post, by simp [hs], by simp [hl]⟩

theorem index_none {s sub : Str} (h : index s sub = none) (pre post : Str) :
    s ≠ pre ++ sub ++ post := by
  induction s generalizing pre with
  | nil =>
    unfold index at h
    split at h
    · simp at h
    · next hp =>
      intro hc
      have hc' := hc.symm
      simp only [List.append_eq_nil_iff] at hc'
      obtain ⟨⟨h1, h2⟩, h3⟩ := hc'
      subst h2
      simp at hp
  | cons c s ih =>
    unfold index at h
    split at h
    · simp at h
    · next hp =>
      rw [Option.map_eq_none_iff] at h
      intro hc
      cases pre with
      | nil =>
        apply hp
        rw [List.isPrefixOf_iff_prefix]
        exact ⟨post, by simpa using hc.symm⟩
      | cons d pre =>
        simp only [List.cons_append, List.cons.injEq] at hc
        exact ih h pre hc.2

theorem hasSub_iff (s sub : Str) : hasSub s sub = true ↔ ∃ pre post, s = pre ++ sub ++ post := by
  unfold hasSub
  cases h : index s sub with
  | none =>
    simp only [Option.isSome_none, Bool.false_eq_true, false_iff]
    rintro ⟨pre, post, hs⟩
    exact index_none h pre post hs
  | some n =>
    simp only [Option.isSome_some, true_iff]
    obtain ⟨pre, post, hs, _⟩ := index_some h
    exact ⟨pre, post, hs⟩

theorem hasSub_single (s : Str) (c : Char) : hasSub s [c] = true ↔ c ∈ s := by
  rw [hasSub_iff]
  constructor
  · rintro ⟨pre, post, rfl⟩; simp
  · intro h
    obtain ⟨pre, post, hs⟩ := List.append_of_mem h
    exact ⟨pre, post, by simp [hs]⟩

/-- The first occurrence of a one-character pattern. -/
theorem index_single_append (pre post : Str) (c : Char) (h : c ∉ pre) :
    index (pre ++ c :: post) [c] = some pre.length := by
  induction pre with
  | nil => unfold index; simp
  | cons d pre ih =>
    simp only [List.mem_cons, not_or] at h
    unfold index
    simp only [List.cons_append, List.isPrefixOf_cons_cons, List.isPrefixOf_nil_left, Bool.and_true, beq_iff_eq]
    rw [if_neg h.1, ih h.2]
    simp

theorem index_single_none (s : Str) (c : Char) (h : c ∉ s) : index s [c] = none := by
  cases hi : index s [c] with
  | none => rfl
  | some n =>
    obtain ⟨pre, post, hs, _⟩ := index_some hi
    exact absurd (by rw [hs]; simp) h

/-! ### trimming -/

theorem trim_eq (cut s : Str) :
    trim cut s = ((s.dropWhile (fun c => cut.contains c)).reverse.dropWhile (fun c => cut.contains c)).reverse := rfl

theorem dropWhile_idem {α : Type} (p : α → Bool) (l : List α) :
    (l.dropWhile p).dropWhile p = l.dropWhile p := by
  induction l with
  | nil => rfl
  | cons a l ih =>
    by_cases h : p a
    · simp [h, ih]
    · simp [h]

theorem dropWhile_of_head {α : Type} (p : α → Bool) (l : List α)
    (h : ∀ a r, l = a :: r → p a = false) : l.dropWhile p = l := by
  cases l with
  | nil => rfl
  | cons a l => simp [h a l rfl]

theorem of_mem_takeWhile {α : Type} (p : α → Bool) (l : List α) (x : α) (h : x ∈ l.takeWhile p) :
    p x = true := by
  induction l with
  | nil => simp at h
  | cons b l ih =>
    by_cases hb : p b
    · rw [List.takeWhile_cons, if_pos hb] at h
      rcases List.mem_cons.mp h with rfl | h
      · exact hb
      · exact ih h
    · rw [List.takeWhile_cons, if_neg hb] at h
      simp at h

theorem head_dropWhile {α : Type} (p : α → Bool) (l : List α) (a : α) (r : List α)
    (h : l.dropWhile p = a :: r) : p a = false := by
  induction l with
  | nil => simp at h
  | cons b l ih =>
    by_cases hb : p b
    · rw [List.dropWhile_cons, if_pos hb] at h; exact ih h
    · rw [List.dropWhile_cons, if_neg hb] at h
      simp at h
      rw [← h.1]; simpa using hb

/-- Trimming leaves a string alone exactly when neither end is in the cutset. -/
theorem trim_eq_self_of (cut s : Str)
    (h1 : ∀ a r, s = a :: r → cut.contains a = false)
    (h2 : ∀ r a, s = r ++ [a] → cut.contains a = false) : trim cut s = s := by
  rw [trim_eq, dropWhile_of_head _ s h1]
  rw [dropWhile_of_head _ s.reverse]
  · simp
  · intro a r h
    apply h2 r.reverse a
    have := congrArg List.reverse h
    simpa using this

theorem trim_head (cut s : Str) (a : Char) (r : Str) (h : trim cut s = a :: r) :
    cut.contains a = false := by
  rw [trim_eq] at h
  generalize hl : s.dropWhile (fun c => cut.contains c) = l at h
  have hp : (l.reverse.dropWhile (fun c => cut.contains c)).reverse <+: l := by
    have := List.dropWhile_suffix (fun c => cut.contains c) (l := l.reverse)
    have := List.reverse_prefix.mpr this
    simpa using this
  rw [h] at hp
  obtain ⟨t, ht⟩ := hp
  have : l = a :: (r ++ t) := by rw [← ht]; rfl
  rw [this] at hl
  exact head_dropWhile (fun c => cut.contains c) s a _ hl

theorem trim_last (cut s : Str) (a : Char) (r : Str) (h : trim cut s = r ++ [a]) :
    cut.contains a = false := by
  rw [trim_eq] at h
  have h' := congrArg List.reverse h
  simp only [List.reverse_reverse, List.reverse_append, List.reverse_cons, List.reverse_nil,
    List.nil_append, List.singleton_append] at h'
  exact head_dropWhile (fun c => cut.contains c) _ a _ h'

theorem trim_idem (cut s : Str) : trim cut (trim cut s) = trim cut s :=
  trim_eq_self_of cut _ (fun a r h => trim_head cut s a r h) (fun r a h => trim_last cut s a r h)

/-- Wrapping in one cutset character on each side does not change the trimmed text. -/
theorem trim_wrap (cut s : Str) (a b : Char) (ha : cut.contains a = true) (hb : cut.contains b = true) :
    trim cut ([a] ++ s ++ [b]) = trim cut s := by
  rw [trim_eq, trim_eq]
  have h1 : ([a] ++ s ++ [b]).dropWhile (fun c => cut.contains c)
      = (s ++ [b]).dropWhile (fun c => cut.contains c) := by
    simp only [List.cons_append, List.nil_append]
    rw [List.dropWhile_cons, if_pos ha]
  rw [h1]
  by_cases hs : ∀ x ∈ s, cut.contains x = true
  · have e1 : (s ++ [b]).dropWhile (fun c => cut.contains c) = [] := by
      rw [List.dropWhile_append_of_pos hs, List.dropWhile_cons, if_pos hb]; rfl
    have e2 : s.dropWhile (fun c => cut.contains c) = [] := by
      have := List.dropWhile_append_of_pos (p := fun c => cut.contains c) (l₂ := []) hs
      simpa using this
    rw [e1, e2]
  · have e1 : (s ++ [b]).dropWhile (fun c => cut.contains c)
        = s.dropWhile (fun c => cut.contains c) ++ [b] := by
      rw [List.dropWhile_append]
      have : (s.dropWhile (fun c => cut.contains c)).isEmpty = false := by
        cases hd : s.dropWhile (fun c => cut.contains c) with
        | nil =>
          exfalso; apply hs
          intro x hx
          have := List.takeWhile_append_dropWhile (p := fun c => cut.contains c) (l := s)
          rw [hd, List.append_nil] at this
          rw [← this] at hx
          exact of_mem_takeWhile (fun c => cut.contains c) s x hx
        | cons _ _ => rfl
      rw [this]; simp
    rw [e1]
    simp only [List.reverse_append, List.reverse_cons, List.reverse_nil, List.nil_append,
      List.singleton_append]
    rw [List.dropWhile_cons, if_pos hb]

/-! ### decimal numbers -/

theorem digitChar_toNat {n : Nat} (h : n < 10) : (digitChar n).toNat = 48 + n := by
  unfold digitChar; exact toNat_ofNat (by omega)

theorem isDigit_digitChar {n : Nat} (h : n < 10) : isDigit (digitChar n) = true := by
  simp [isDigit, digitChar_toNat h]; omega

theorem ofNat_ne_nil (n : Nat) : ofNat n ≠ [] := by
  unfold ofNat; split <;> simp

theorem ofNat_digits (n : Nat) : ∀ c ∈ ofNat n, isDigit c = true := by
  induction n using Nat.strongRecOn with
  | _ n ih =>
    unfold ofNat
    split
    · next h => intro c hc; simp at hc; rw [hc]; exact isDigit_digitChar h
    · next h =>
      intro c hc
      simp only [List.mem_append, List.mem_singleton] at hc
      rcases hc with hc | hc
      · exact ih (n / 10) (by omega) c hc
      · rw [hc]; exact isDigit_digitChar (by omega)

theorem digitsVal_append_single (s : Str) (c : Char) :
    digitsVal (s ++ [c]) = digitsVal s * 10 + (c.toNat - 48) := by
  simp [digitsVal, List.foldl_append]

theorem digitsVal_ofNat (n : Nat) : digitsVal (ofNat n) = n := by
  induction n using Nat.strongRecOn with
  | _ n ih =>
    unfold ofNat
    split
    · next h => simp [digitsVal, digitChar_toNat h]
    · next h =>
      rw [digitsVal_append_single, ih (n / 10) (by omega), digitChar_toNat (by omega)]
      omega

theorem toNat?_ofNat (n : Nat) : toNat? (ofNat n) = some n := by
  unfold toNat?
  rw [if_neg (by simp [ofNat_ne_nil]), if_pos (by simpa [List.all_eq_true] using ofNat_digits n),
    digitsVal_ofNat]

theorem ofNat_inj {m n : Nat} (h : ofNat m = ofNat n) : m = n := by
  have := digitsVal_ofNat m
  rw [h, digitsVal_ofNat] at this
  exact this.symm

theorem ofNat_head_digit (n : Nat) (c : Char) (r : Str) (h : ofNat n = c :: r) : isDigit c = true :=
  ofNat_digits n c (by rw [h]; simp)

theorem signed?_ofNat (n : Nat) : signed? (ofNat n) = some (n : Int) := by
  unfold signed?
  split
  · next r h =>
    have := ofNat_head_digit n _ _ h
    exact absurd this (by decide)
  · next r h =>
    have := ofNat_head_digit n _ _ h
    exact absurd this (by decide)
  · next h => rw [toNat?_ofNat]; rfl

theorem atoi_ofNat (n : Nat) (h : n < 2 ^ 63) : atoi (ofNat n) = some (n : Int) := by
  simp only [atoi, signed?_ofNat, Option.bind_some]
  rw [if_pos (by omega)]

theorem atoi_ofNat_big (n : Nat) (h : 2 ^ 63 ≤ n) : atoi (ofNat n) = none := by
  simp only [atoi, signed?_ofNat, Option.bind_some]
  rw [if_neg (by omega)]

theorem toNat?_isSome {s : Str} (h : toNat? s ≠ none) : s ≠ [] ∧ ∀ c ∈ s, isDigit c = true := by
  unfold toNat? at h
  split at h
  · exact absurd rfl h
  · next he =>
    split at h
    · next ha => exact ⟨fun e => he (by simp [e]), by simpa [List.all_eq_true] using ha⟩
    · exact absurd rfl h

/-! ### joining -/

@[simp] theorem join_nil (sep : Str) : join sep [] = [] := rfl
@[simp] theorem join_single (sep x : Str) : join sep [x] = x := rfl
theorem join_cons_cons (sep x y : Str) (r : List Str) :
    join sep (x :: y :: r) = x ++ sep ++ join sep (y :: r) := rfl

theorem join_cons (sep x : Str) (r : List Str) (h : r ≠ []) :
    join sep (x :: r) = x ++ sep ++ join sep r := by
  cases r with
  | nil => exact absurd rfl h
  | cons y r => rfl

/-- Splitting a join on a separator character that no element contains. -/
theorem splitOn_of_not_mem (sep : Char) (x : Str) (h : sep ∉ x) : splitOn sep x = [x] := by
  induction x with
  | nil => rfl
  | cons c x ih =>
    simp only [List.mem_cons, not_or] at h
    unfold splitOn
    rw [if_neg (fun e => h.1 e.symm), ih h.2]

theorem splitOn_append (sep : Char) (x rest : Str) (h : sep ∉ x) :
    splitOn sep (x ++ sep :: rest) = x :: splitOn sep rest := by
  induction x with
  | nil => simp [splitOn]
  | cons c x ih =>
    simp only [List.mem_cons, not_or] at h
    simp only [List.cons_append]
    rw [splitOn, if_neg (fun e => h.1 e.symm), ih h.2]

theorem splitOn_join (sep : Char) (xs : List Str) (hne : xs ≠ []) (h : ∀ x ∈ xs, sep ∉ x) :
    splitOn sep (join [sep] xs) = xs := by
  induction xs with
  | nil => exact absurd rfl hne
  | cons x r ih =>
    cases r with
    | nil => rw [join_single]; exact splitOn_of_not_mem sep x (h x (by simp))
    | cons y r =>
      rw [join_cons_cons]
      have : x ++ [sep] ++ join [sep] (y :: r) = x ++ sep :: join [sep] (y :: r) := by simp
      rw [this, splitOn_append sep x _ (h x (by simp)), ih (by simp) (fun z hz => h z (by simp [hz]))]

end Verif.Str
