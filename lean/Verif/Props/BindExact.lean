import Verif.Props.Bind
import Verif.Lemmas.BindExact
/-! C50, C51, C53: exact forms. -/
namespace Verif.Props
open Verif Verif.Bind Verif.Spec Verif.Lemmas
variable {T F V : Type}

theorem bindLoop_iff (B : BEnv T F V) (params : List (Param T F V)) (n : Nat) (q out : Str) :
    bindLoop B q n params = some out ↔ ∃ vs : List Str, params.map (Param.text B) = vs.map some ∧ FilledIn (n + 1) q vs out := by
  induction params generalizing n q with
  | nil =>
    constructor
    · intro h; cases h; exact ⟨[], rfl, .done _ _⟩
    · rintro ⟨vs, h1, h2⟩
      cases vs with
      | nil => cases h2; rfl
      | cons v vs => simp at h1
  | cons x params ih =>
    constructor
    · intro h
      unfold bindLoop at h
      split at h
      · cases h
      · rename_i v hv
        split at h
        · cases h
        · rename_i q' hq
          obtain ⟨vs, h1, h2⟩ := (ih _ _).mp h
          refine ⟨v :: vs, by simp [hv, h1], ?_⟩
          rcases (bindOne_iff _ _ _ _).mp hq with ⟨p, r, h3, h4, rfl⟩ | ⟨h0, p, r, h3, h4, rfl⟩
          · exact .mark h3 h4 h2
          · exact .number h0 h3 h4 h2
    · rintro ⟨vs, h1, h2⟩
      cases vs with
      | nil => simp at h1
      | cons v vs =>
        simp only [List.map_cons, List.cons.injEq] at h1
        unfold bindLoop
        rw [h1.1]
        cases h2 with
        | mark h hp ht =>
          rename_i p r
          have := (bindOne_iff q n v _).mpr (Or.inl ⟨p, r, h, hp, rfl⟩)
          simp only [this]
          exact (ih _ _).mpr ⟨vs, h1.2, ht⟩
        | number hq h hp ht =>
          rename_i p r
          have := (bindOne_iff q n v _).mpr (Or.inr ⟨hq, p, r, h, hp, rfl⟩)
          simp only [this]
          exact (ih _ _).mpr ⟨vs, h1.2, ht⟩

/-- C50, C51 and C53, exactly: what binding makes of any text with any parameters, and when it succeeds. Each parameter in
turn takes the place of the first question mark in the text as it is then, values bound before it included, or else of the
first `$k`. -/
theorem C50_exact (B : BEnv T F V) (q out : Str) (params : List (Param T F V)) :
    bindText B q params = some out ↔ ∃ vs : List Str, params.map (Param.text B) = vs.map some ∧ FilledIn 1 q vs out :=
  bindLoop_iff B params 0 q out

/-- C50 is false of the code for every value with a question mark that is not the last: the value after it is written
into it, and the placeholder meant for that value stays. -/
theorem C50_value_fails (B : BEnv T F V) (p r a b w : Str) (x y : Param T F V) (hne : p ≠ []) (hp : '?' ∉ p) (ha : '?' ∉ a)
    (hx : x.text B = some (a ++ '?' :: b)) (hy : y.text B = some w) :
    bindText B (p ++ '?' :: r) [x, y] = some (p ++ a ++ w ++ b ++ r) := by
  refine (C50_exact B _ _ _).mpr ⟨[a ++ '?' :: b, w], by simp [hx, hy], .mark (firstIs_mark hp) hne ?_⟩
  have e : p ++ (a ++ '?' :: b) ++ r = (p ++ a) ++ '?' :: (b ++ r) := by simp
  rw [e]
  refine .mark (firstIs_mark (by simp [hp, ha])) (by simp [hne]) ?_
  have e' : p ++ a ++ w ++ (b ++ r) = p ++ a ++ w ++ b ++ r := by simp
  rw [e']
  exact .done _ _

/-- C51 is false of the code for every query that begins with a placeholder and has no numbered ones: binding fails, however
many placeholders it has. -/
theorem C51_start_fails (B : BEnv T F V) (q : Str) (h : '$' ∉ q) (x : Param T F V) (params : List (Param T F V)) :
    bindText B ('?' :: q) (x :: params) = none := by
  cases hb : bindText B ('?' :: q) (x :: params) with
  | none => rfl
  | some out =>
    obtain ⟨vs, h1, h2⟩ := (C50_exact B _ _ _).mp hb
    cases vs with
    | nil => simp at h1
    | cons v vs =>
      cases h2 with
      | mark h hp ht => exact absurd ⟨_, _, h, hp⟩ ((no_first_mark _).mpr (Or.inr rfl))
      | number hq hf hp ht =>
        rename_i p r
        have e := hf.1
        have : '$' ∈ '?' :: q := by rw [e]; simp
        simp only [List.mem_cons] at this
        rcases this with h' | h'
        · cases h'
        · exact absurd h' h

/-- C53 is false of the code for every placeholder `$1` behind one that begins with the same digit, `$10` or `$1` itself: the
value of `$1` is written into the first, whose other digits stay behind it, and `$1` stays. -/
theorem C53_digits_fails (B : BEnv T F V) (p d m r v : Str) (x : Param T F V) (hne : p ≠ []) (hp : '$' ∉ p)
    (hq : '?' ∉ p ++ '$' :: (Str.ofNat 1 ++ d) ++ m ++ '$' :: Str.ofNat 1 ++ r) (hx : x.text B = some v) :
    bindText B (p ++ '$' :: (Str.ofNat 1 ++ d) ++ m ++ '$' :: Str.ofNat 1 ++ r) [x] = some (p ++ v ++ d ++ m ++ '$' :: Str.ofNat 1 ++ r) := by
  refine (C50_exact B _ _ _).mpr ⟨[v], by simp [hx], ?_⟩
  have e : p ++ '$' :: (Str.ofNat 1 ++ d) ++ m ++ '$' :: Str.ofNat 1 ++ r = p ++ '$' :: Str.ofNat 1 ++ (d ++ m ++ '$' :: Str.ofNat 1 ++ r) := by simp
  rw [e] at hq ⊢
  refine .number (Or.inl hq) (firstIs_number hp) hne ?_
  have e' : p ++ v ++ (d ++ m ++ '$' :: Str.ofNat 1 ++ r) = p ++ v ++ d ++ m ++ '$' :: Str.ofNat 1 ++ r := by simp
  rw [e']
  exact .done _ _

/-- A statement with both kinds of placeholders: the question mark goes first. -/
example : FilledIn 1 s%"a = $2 AND b = ?" [s%"7", s%"8"] s%"a = 8 AND b = 7" := by
  have h1 : FirstIs ['?'] s%"a = $2 AND b = ?" s%"a = $2 AND b = " [] := firstIs_mark (p := s%"a = $2 AND b = ") (by decide)
  have h2 : FirstIs ('$' :: Str.ofNat 2) s%"a = $2 AND b = 7" s%"a = " s%" AND b = 7" := by
    have := firstIs_number (p := s%"a = ") (r := s%" AND b = 7") (d := Str.ofNat 2) (by decide)
    have e : Str.ofNat 2 = ['2'] := by decide +kernel
    rw [e] at this ⊢
    exact this
  exact .mark h1 (by decide) (.number (p := s%"a = ") (Or.inl (by decide)) h2 (by decide) (.done _ _))

example : bindText bEnv s%"a = $10 AND b = $1" [.float 7] = some s%"a = 70 AND b = $1" ∧ (Param.text bEnv (.str s%"x?y")) = some (s%"'x" ++ '?' :: s%"y'") := by
  decide +kernel

end Verif.Props
