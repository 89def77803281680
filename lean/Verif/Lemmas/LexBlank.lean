import Verif.Lemmas.LexQuoted
import Verif.Spec.Layout
/-! White space and comments. -/
namespace Verif.Lex
open Verif Verif.Spec

/-- What is left of a block comment after its start. -/
def block0 : Re :=
  .seq (.star (.alt (.cls true [('*', '*')]) (.seq (.plus (.lit ['*'])) (.cls true [('*', '*'), ('/', '/')])))) (.seq (.plus (.lit ['*'])) (.lit ['/']))

/-- What is left after a star in a block comment. -/
def block1 : Re := block0.d '*'

/-- What is left of a line comment after its start. -/
def line0 : Re :=
  .seq (.star (.cls true [('\r', '\r'), ('\n', '\n')])) (.alt (.seq (.opt (.lit ['\r'])) (.lit ['\n'])) .eof)

theorem steps_block : steps s%"/*" rules = [(.MULTILINE_COMMENT, block0)] := by decide +kernel
theorem steps_line : steps s%"--" rules = [(.SINGLE_LINE_COMMENT, line0)] := by decide +kernel

theorem upC_star (c : Char) (h : Str.upC c = Str.upC '*') : c = '*' := upC_fix '*' (by decide) (by decide) c h
theorem upC_slash (c : Char) (h : Str.upC c = Str.upC '/') : c = '/' := upC_fix '/' (by decide) (by decide) c h
theorem upC_cr (c : Char) (h : Str.upC c = Str.upC '\r') : c = '\r' := upC_fix '\r' (by decide) (by decide) c h
theorem upC_nl (c : Char) (h : Str.upC c = Str.upC '\n') : c = '\n' := upC_fix '\n' (by decide) (by decide) c h

theorem inSet_two (a b : Char) (rs : List (Char × Char)) (c : Char) : inSet ((a, b) :: rs) c = (inSet [(a, b)] c || inSet rs c) :=
  inSet_append [(a, b)] rs c

theorem block0_other {c : Char} (h : c ≠ '*') : step c [(.MULTILINE_COMMENT, block0)] = [(.MULTILINE_COMMENT, block0)] := by
  have h1 : inSet [('*', '*')] c = false := by rw [inSet_q '*' upC_star]; simpa using h
  have : block0.d c = block0 := by
    simp [block0, Re.d, Re.plus, Re.lit, h1, Re.nullable, Re.mkAlt, Re.mkSeq]
  simp only [step, List.filterMap_cons, this, List.filterMap_nil]
  rfl

theorem block0_star : step '*' [(.MULTILINE_COMMENT, block0)] = [(.MULTILINE_COMMENT, block1)] := by decide +kernel
theorem block1_star : step '*' [(.MULTILINE_COMMENT, block1)] = [(.MULTILINE_COMMENT, block1)] := by decide +kernel
theorem block1_slash : step '/' [(.MULTILINE_COMMENT, block1)] = [(.MULTILINE_COMMENT, .eps)] := by decide +kernel

theorem block1_eq : block1 = .alt (.seq (.seq (.seq (.star (.cls false [('*', '*')])) (.cls true [('*', '*'), ('/', '/')]))
    (.star (.alt (.cls true [('*', '*')]) (.seq (.plus (.lit ['*'])) (.cls true [('*', '*'), ('/', '/')])))))
    (.seq (.plus (.lit ['*'])) (.lit ['/']))) (.seq (.star (.cls false [('*', '*')])) (.cls false [('/', '/')])) := by decide +kernel

theorem block1_other {c : Char} (h : c ≠ '*') (h' : c ≠ '/') : step c [(.MULTILINE_COMMENT, block1)] = [(.MULTILINE_COMMENT, block0)] := by
  have h1 : inSet [('*', '*')] c = false := by rw [inSet_q '*' upC_star]; simpa using h
  have h2 : inSet [('/', '/')] c = false := by rw [inSet_q '/' upC_slash]; simpa using h'
  have h3 : inSet [('*', '*'), ('/', '/')] c = false := by rw [inSet_two, h1, h2]; rfl
  have : block1.d c = block0 := by
    rw [block1_eq]
    simp [block0, Re.d, Re.plus, Re.lit, h1, h2, h3, Re.nullable, Re.mkAlt, Re.mkSeq]
  simp only [step, List.filterMap_cons, this, List.filterMap_nil]
  rfl

/-- Inside a block comment without its end. -/
theorem steps_body (body : Str) (h : ¬ s%"*/" <:+: body) :
    (steps body [(.MULTILINE_COMMENT, block0)] = [(.MULTILINE_COMMENT, block0)] ∨ steps body [(.MULTILINE_COMMENT, block0)] = [(.MULTILINE_COMMENT, block1)]) ∧
    ((∀ r, body ≠ '/' :: r) → steps body [(.MULTILINE_COMMENT, block1)] = [(.MULTILINE_COMMENT, block0)] ∨ steps body [(.MULTILINE_COMMENT, block1)] = [(.MULTILINE_COMMENT, block1)]) := by
  induction body with
  | nil => exact ⟨Or.inl rfl, fun _ => Or.inr rfl⟩
  | cons c body ih =>
    have ih := ih (fun hi => h (hi.trans (List.suffix_cons c body).isInfix))
    by_cases hc : c = '*'
    · subst hc
      have hn : ∀ r, body ≠ '/' :: r := by
        rintro r rfl
        exact h ⟨[], r, rfl⟩
      rw [steps_cons, steps_cons, block0_star, block1_star]
      exact ⟨ih.2 hn, fun _ => ih.2 hn⟩
    · rw [steps_cons, steps_cons, block0_other hc]
      refine ⟨ih.1, fun hs => ?_⟩
      rw [block1_other hc (fun e => hs body (by rw [e]))]
      exact ih.1

/-- A block comment is one token, whatever follows. -/
theorem longest_block (body rest : Str) (h : ¬ s%"*/" <:+: body) :
    Longest rules .MULTILINE_COMMENT (s%"/*" ++ body ++ s%"*/") rest := by
  have hs : steps (s%"/*" ++ body ++ s%"*/") rules = [(.MULTILINE_COMMENT, .eps)] := by
    rw [steps_append, steps_append, steps_block]
    rcases (steps_body body h).1 with e | e
    · rw [e]; decide +kernel
    · rw [e]; decide +kernel
  refine longest_of_accept _ _ _ (by simp) ?_ ?_
  · rw [hs]; rfl
  · rw [hs]
    cases rest <;> simp [Stops, step, Re.d, Re.isNone]

theorem line0_other {c : Char} (h : c ≠ '\n') (h' : c ≠ '\r') : step c [(.SINGLE_LINE_COMMENT, line0)] = [(.SINGLE_LINE_COMMENT, line0)] := by
  have h1 : inSet [('\n', '\n')] c = false := by rw [inSet_q '\n' upC_nl]; simpa using h
  have h2 : inSet [('\r', '\r')] c = false := by rw [inSet_q '\r' upC_cr]; simpa using h'
  have h3 : inSet [('\r', '\r'), ('\n', '\n')] c = false := by rw [inSet_two, h1, h2]; rfl
  have : line0.d c = line0 := by
    simp [line0, Re.d, Re.opt, Re.lit, h1, h2, h3, Re.nullable, Re.mkAlt, Re.mkSeq]
  simp only [step, List.filterMap_cons, this, List.filterMap_nil]
  rfl

theorem steps_lineBody (body : Str) (h : '\n' ∉ body) (h' : '\r' ∉ body) :
    steps body [(.SINGLE_LINE_COMMENT, line0)] = [(.SINGLE_LINE_COMMENT, line0)] := by
  induction body with
  | nil => rfl
  | cons c body ih =>
    simp only [List.mem_cons, not_or] at h h'
    rw [steps_cons, line0_other (Ne.symm h.1) (Ne.symm h'.1), ih h.2 h'.2]

/-- A line comment with the end of its line is one token. -/
theorem longest_line (body rest : Str) (h : '\n' ∉ body) (h' : '\r' ∉ body) :
    Longest rules .SINGLE_LINE_COMMENT (s%"--" ++ body ++ s%"\n") rest := by
  have hs : steps (s%"--" ++ body ++ s%"\n") rules = [(.SINGLE_LINE_COMMENT, .eps)] := by
    rw [steps_append, steps_append, steps_line, steps_lineBody body h h']
    decide +kernel
  refine longest_of_accept _ _ _ (by simp) ?_ ?_
  · rw [hs]; rfl
  · rw [hs]
    cases rest <;> simp [Stops, step, Re.d, Re.isNone]

/-- A line comment at the end of the text. -/
theorem longest_lineEnd (body : Str) (h : '\n' ∉ body) (h' : '\r' ∉ body) :
    Longest rules .SINGLE_LINE_COMMENT (s%"--" ++ body) [] := by
  have hs : steps (s%"--" ++ body) rules = [(.SINGLE_LINE_COMMENT, line0)] := by
    rw [steps_append, steps_line, steps_lineBody body h h']
  refine longest_of_accept _ _ _ (by simp) ?_ trivial
  rw [hs]; decide +kernel

theorem longest_white {c : Char} (h : c ∈ whiteSpace) (rest : Str) : Longest rules .SPACES [c] rest := by
  refine longest_single _ _ _ ?_
  revert c
  decide +kernel

theorem longest_punct {t : Token} (h : t ∈ punctuation) (rest : Str) : Longest rules t.kind t.text rest := by
  simp only [punctuation, List.mem_cons, List.not_mem_nil, or_false] at h
  rcases h with rfl | rfl | rfl | rfl
  · exact longest_open rest
  · exact longest_close rest
  · exact longest_comma rest
  · exact longest_semicolon rest

end Verif.Lex
