import Verif.Props.TestHelper
import Verif.Spec.FileQueries
/-! C128: the queries of a test file, exactly. -/
namespace Verif.Props
open Verif Verif.TestHelper Verif.Spec.TestHelper

theorem dropWhile_char (c : Char) (x : Str) : ∃ a, x = List.replicate a c ++ x.dropWhile (fun d => (List.contains [c] d)) := by
  induction x with
  | nil => exact ⟨0, rfl⟩
  | cons d x ih =>
    by_cases h : d = c
    · subst h
      obtain ⟨a, ha⟩ := ih
      refine ⟨a + 1, ?_⟩
      rw [List.dropWhile_cons, if_pos (by simp), List.replicate_succ, List.cons_append, ← ha]
    · exact ⟨0, by rw [List.dropWhile_cons, if_neg (by simpa using h)]; rfl⟩

theorem trim_char (c : Char) (x : Str) : ∃ a b, x = List.replicate a c ++ (Str.trim [c] x ++ List.replicate b c) ∧ NotAtEnds c (Str.trim [c] x) := by
  obtain ⟨a, ha⟩ := dropWhile_char c x
  obtain ⟨b, hb⟩ := dropWhile_char c (x.dropWhile (fun d => (List.contains [c] d))).reverse
  refine ⟨a, b, ?_, ?_, ?_⟩
  · have h := congrArg List.reverse hb
    rw [List.reverse_reverse, List.reverse_append, List.reverse_replicate] at h
    conv => lhs; rw [ha, h]
    rfl
  · intro r h
    have := Str.trim_head [c] x c r h
    simp at this
  · intro r h
    have := Str.trim_last [c] x c r h
    simp at this

theorem trimQuery_cut {p : Str} (h : ';' ∉ p) : CutTo p (trimQuery p) := by
  have h1 : Str.trim s%";" p = p := Str.trim_eq_self_of _ _ (fun a r e => by
      have : a ≠ ';' := fun ha => h (by simp [e, ha])
      simpa using this) (fun r a e => by
      have : a ≠ ';' := fun ha => h (by simp [e, ha])
      simpa using this)
  obtain ⟨a, d, e1, n1⟩ := trim_char '\n' p
  obtain ⟨b, c, e2, n2⟩ := trim_char ' ' (Str.trim ['\n'] p)
  rw [trimQuery, h1]
  rw [e2] at e1 n1
  exact ⟨a, b, c, d, e1, n1, n2⟩

theorem splitOn_pieces (sep : Char) (x : Str) : Str.join [sep] (Str.splitOn sep x) = x ∧ (∀ p ∈ Str.splitOn sep x, sep ∉ p) ∧ Str.splitOn sep x ≠ [] := by
  induction x with
  | nil => exact ⟨rfl, by simp [Str.splitOn], by simp [Str.splitOn]⟩
  | cons c x ih =>
    obtain ⟨h1, h2, h3⟩ := ih
    rw [Str.splitOn]
    by_cases hc : c = sep
    · subst hc
      rw [if_pos rfl]
      refine ⟨?_, ?_, by simp⟩
      · cases hs : Str.splitOn c x with
        | nil => exact absurd hs h3
        | cons p ps => rw [hs] at h1; simp [Str.join, h1]
      · intro p hp
        rcases List.mem_cons.mp hp with rfl | hp
        · simp
        · exact h2 p hp
    · rw [if_neg hc]
      cases hs : Str.splitOn sep x with
      | nil => exact absurd hs h3
      | cons p ps =>
        rw [hs] at h1 h2
        refine ⟨?_, ?_, by simp⟩
        · cases ps with
          | nil => simp only [Str.join] at h1 ⊢; rw [h1]
          | cons p' ps => simp only [Str.join, List.cons_append] at h1 ⊢; rw [h1]
        · intro q hq
          rcases List.mem_cons.mp hq with rfl | hq
          · intro hm
            rcases List.mem_cons.mp hm with rfl | hm
            · exact hc rfl
            · exact h2 p (by simp) hm
          · exact h2 q (by simp [hq])

/-- C128, exactly, for every file: the file is texts without semicolons with semicolons between them, and the queries
that are tested are these texts, each without the line ends and then the spaces at its ends, in their order and without
those that are then empty or begin with `#`. -/
theorem C128_exact (file : Str) : ∃ ps : List Str, file = Str.join s%";" ps ∧ (∀ p ∈ ps, ';' ∉ p) ∧ QueriesFrom ps (queriesOf file) := by
  obtain ⟨h1, h2, -⟩ := splitOn_pieces ';' file
  refine ⟨_, h1.symm, h2, ?_⟩
  rw [queriesOf]
  generalize Str.splitOn ';' file = ps at h2
  induction ps with
  | nil => exact .nil
  | cons p ps ih =>
    have hc := trimQuery_cut (h2 p (by simp))
    have ih := ih (fun q hq => h2 q (List.mem_cons_of_mem _ hq))
    rw [List.map_cons]
    cases ht : trimQuery p with
    | nil =>
      rw [List.filter_cons_of_neg (by simp)]
      exact .empty (ht ▸ hc) ih
    | cons c r =>
      by_cases h : c = '#'
      · subst h
        rw [List.filter_cons_of_neg (by simp [Str.hasPrefix, List.isPrefixOf])]
        exact .comment (ht ▸ hc) ih
      · rw [List.filter_cons_of_pos (by simp [Str.hasPrefix, List.isPrefixOf, Ne.symm h])]
        exact .query (ht ▸ hc) h ih

/-- C128 fails for every query after a comment: if the text between two semicolons begins with `#`, perhaps after line ends
and then spaces, nothing of it is tested, whatever lines follow the comment. -/
theorem C128_comment_fails (a b : Nat) (x rest : Str) (h : ';' ∉ x) :
    queriesOf (List.replicate a '\n' ++ (List.replicate b ' ' ++ ('#' :: x ++ ';' :: rest))) = queriesOf rest := by
  have hp : ';' ∉ List.replicate a '\n' ++ (List.replicate b ' ' ++ '#' :: x) := by
    intro hm
    rcases List.mem_append.mp hm with hm | hm
    · exact absurd (List.eq_of_mem_replicate hm) (by decide)
    · rcases List.mem_append.mp hm with hm | hm
      · exact absurd (List.eq_of_mem_replicate hm) (by decide)
      · rcases List.mem_cons.mp hm with hm | hm
        · exact absurd hm (by decide)
        · exact h hm
  have e : List.replicate a '\n' ++ (List.replicate b ' ' ++ ('#' :: x ++ ';' :: rest)) =
      (List.replicate a '\n' ++ (List.replicate b ' ' ++ '#' :: x)) ++ ';' :: rest := by simp
  rw [e, queriesOf, Str.splitOn_append _ _ _ hp, List.map_cons]
  obtain ⟨r, hr⟩ : ∃ r, trimQuery (List.replicate a '\n' ++ (List.replicate b ' ' ++ '#' :: x)) = '#' :: r := by
    obtain ⟨a', b', c', d', e1, n1, n2⟩ := trimQuery_cut hp
    generalize trimQuery (List.replicate a '\n' ++ (List.replicate b ' ' ++ '#' :: x)) = q at e1 n1 n2
    have skip : ∀ (c : Char) (y : Str) (m n : Nat) (z : Str), (∀ r, y ≠ c :: r) → y ≠ [] → (∀ r, z ≠ c :: r) →
        List.replicate m c ++ y = List.replicate n c ++ z → y = z := by
      intro c y m
      induction m with
      | zero =>
        intro n z hy hy' hz e
        cases n with
        | zero => simpa using e
        | succ n => exact absurd (by simpa [List.replicate_succ] using e) (hy (List.replicate n c ++ z))
      | succ m ih =>
        intro n z hy hy' hz e
        cases n with
        | zero => exact absurd (by simpa [List.replicate_succ] using e.symm) (hz (List.replicate m c ++ y))
        | succ n =>
          rw [List.replicate_succ, List.replicate_succ, List.cons_append, List.cons_append] at e
          exact ih n z hy hy' hz (List.cons.inj e).2
    have y1 : ∀ r, List.replicate b ' ' ++ '#' :: x ≠ '\n' :: r := by
      intro r hr
      cases b with
      | zero => exact absurd (List.cons.inj hr).1 (by decide)
      | succ b => rw [List.replicate_succ] at hr; exact absurd (List.cons.inj hr).1 (by decide)
    have z1 : ∀ r, List.replicate b' ' ' ++ (q ++ List.replicate c' ' ') ++ List.replicate d' '\n' ≠ '\n' :: r := by
      intro r hr
      cases hm : List.replicate b' ' ' ++ (q ++ List.replicate c' ' ') with
      | nil =>
        have : ∀ ch ∈ List.replicate a '\n' ++ (List.replicate b ' ' ++ '#' :: x), ch = '\n' := by
          rw [e1, hm]
          intro ch hch
          rcases List.mem_append.mp hch with hch | hch
          · exact List.eq_of_mem_replicate hch
          · exact List.eq_of_mem_replicate (by simpa using hch)
        exact absurd (this '#' (by simp)) (by decide)
      | cons ch m =>
        rw [hm] at hr
        have : ch = '\n' := (List.cons.inj hr).1
        subst this
        exact n1.1 m hm
    have e2 := skip '\n' _ a a' _ y1 (by simp) z1 e1
    have y2 : ∀ r, '#' :: x ≠ ' ' :: r := fun r hr => absurd (List.cons.inj hr).1 (by decide)
    have z2 : ∀ r, q ++ List.replicate c' ' ' ++ List.replicate d' '\n' ≠ ' ' :: r := by
      intro r hr
      cases hq : q with
      | nil =>
        have : ∀ ch ∈ List.replicate b ' ' ++ '#' :: x, ch = ' ' ∨ ch = '\n' := by
          rw [e2, hq]
          intro ch hch
          simp only [List.mem_append, List.nil_append] at hch
          rcases hch with (hch | hch) | hch
          · exact .inl (List.eq_of_mem_replicate hch)
          · exact .inl (List.eq_of_mem_replicate hch)
          · exact .inr (List.eq_of_mem_replicate hch)
        exact absurd (this '#' (by simp)) (by decide)
      | cons ch m =>
        rw [hq] at hr
        have : ch = ' ' := (List.cons.inj hr).1
        subst this
        exact n2.1 m hq
    have e3 := skip ' ' _ b b' _ y2 (by simp) z2 (by rw [e2]; simp)
    cases q with
    | nil =>
      have : ∀ ch ∈ '#' :: x, ch = ' ' ∨ ch = '\n' := by
        rw [e3]
        intro ch hch
        simp only [List.mem_append, List.nil_append] at hch
        rcases hch with hch | hch
        · exact .inl (List.eq_of_mem_replicate hch)
        · exact .inr (List.eq_of_mem_replicate hch)
      exact absurd (this '#' (by simp)) (by decide)
    | cons ch q => exact ⟨q, by rw [show ch = '#' from (List.cons.inj e3).1.symm]⟩
  rw [hr, List.filter_cons_of_neg (by simp [Str.hasPrefix, List.isPrefixOf])]
  rfl

example : ';' ∉ s%" all rows\nSELECT a FROM t" := by decide
example : CutTo s%"\n  SELECT a " s%"SELECT a" := by
  have := trimQuery_cut (p := s%"\n  SELECT a ") (by decide)
  have e : trimQuery s%"\n  SELECT a " = s%"SELECT a" := by decide
  rwa [e] at this

end Verif.Props
