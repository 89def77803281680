import Verif.Model.Util
import Verif.Spec.Util
import Verif.Lemmas.Str
/- Properties C01–C03: the stack and the quoting helpers. -/
namespace Verif.Props
open Verif Verif.Util Verif.Spec

/-- Reading a specification operation as a call on the code. -/
def toCall {α : Type} : LifoOp α → Stack.Op α
  | .push x => .push x | .pop => .pop | .peek => .peek | .size => .size

/-- Reading a code result as a specification observation. -/
def toObs {α : Type} : Stack.Out α → LifoOut α
  | .unit => .unit | .obj o => .obj o | .num n => .num n

private theorem step_refines {α : Type} (s : Stack α) (o : LifoOp α) :
    (s.step (toCall o)).1.objects.reverse = (lifoStep s.objects.reverse o).1 ∧
    toObs (s.step (toCall o)).2 = (lifoStep s.objects.reverse o).2 := by
  obtain ⟨l⟩ := s
  rcases List.eq_nil_or_concat l with rfl | ⟨r, a, rfl⟩
  · cases o <;> simp [toCall, Stack.step, Stack.push, Stack.pop, Stack.peek, Stack.size, lifoStep, toObs]
  · cases o <;> simp [toCall, Stack.step, Stack.push, Stack.pop, Stack.peek, Stack.size, lifoStep, toObs]

private theorem run_refines {α : Type} (s : Stack α) (os : List (LifoOp α)) :
    (s.run (os.map toCall)).2.map toObs = lifoRun s.objects.reverse os := by
  induction os generalizing s with
  | nil => rfl
  | cons o os ih =>
    have h := step_refines s o
    simp only [List.map_cons, Stack.run, lifoRun]
    rw [h.2, ← h.1, ih]

/-- C01: every history of calls on a new stack returns what the abstract LIFO list returns. -/
theorem C01_stack_lifo {α : Type} (os : List (LifoOp α)) :
    ((Stack.new : Stack α).run (os.map toCall)).2.map toObs = lifoRun [] os := by
  simpa [Stack.new] using run_refines (Stack.new : Stack α) os

example : ((Stack.new : Stack Nat).run ([LifoOp.push 1, .push 2, .pop, .peek, .pop, .pop, .size].map toCall)).2
    = [.unit, .unit, .obj (some 2), .obj (some 1), .obj (some 1), .obj none, .num 0] := by decide

/-- C02, full statement of the round trip: it holds exactly when the value neither starts nor ends
with a quote character. -/
theorem C02_escape_roundtrip_iff (s : Str) :
    unEscapeString (escapeString s) = s ↔ ¬ TouchesEnds (fun c => c = '\'' ∨ c = '"') s := by
  have hw : unEscapeString (escapeString s) = Str.trim s%"'\"" s :=
    Str.trim_wrap _ s '\'' '\'' (by decide) (by decide)
  have hc : ∀ c, (s%"'\"").contains c = true ↔ (c = '\'' ∨ c = '"') := by
    intro c; simp
  rw [hw]
  constructor
  · intro h ht
    rcases ht with ⟨c, r, hs, hb⟩ | ⟨r, c, hs, hb⟩
    · have := Str.trim_head _ s c r (h.trans hs)
      rw [(hc c).mpr hb] at this; cases this
    · have := Str.trim_last _ s c r (h.trans hs)
      rw [(hc c).mpr hb] at this; cases this
  · intro h
    apply Str.trim_eq_self_of
    · intro a r hs
      rw [Bool.eq_false_iff]; intro hb
      exact h (Or.inl ⟨a, r, hs, (hc a).mp hb⟩)
    · intro r a hs
      rw [Bool.eq_false_iff]; intro hb
      exact h (Or.inr ⟨r, a, hs, (hc a).mp hb⟩)

/-- C02 as stated is false: a value that ends with a quote loses it. -/
theorem C02_escape_roundtrip_fails : ∃ s, unEscapeString (escapeString s) ≠ s :=
  ⟨s%"it'", by decide⟩

/-- C02, the part that holds: values that do not start or end with a quote come back unchanged.
Missing: values starting or ending with a quote, for which the claim is false. -/
theorem C02_escape_roundtrip_partial (s : Str)
    (h : ¬ TouchesEnds (fun c => c = '\'' ∨ c = '"') s) : unEscapeString (escapeString s) = s :=
  (C02_escape_roundtrip_iff s).mpr h

example : ¬ TouchesEnds (fun c => c = '\'' ∨ c = '"') s%"it's" := by
  rintro (⟨c, r, h, hb⟩ | ⟨r, c, h, hb⟩)
  · simp at h; rcases hb with rfl | rfl <;> simp at h
  · have := congrArg List.getLast? h
    simp at this
    rcases hb with rfl | rfl <;> simp at this

/-- C03: the identifier round trip holds exactly when the identifier neither starts nor ends with
one of the four stripped characters. -/
theorem C03_name_roundtrip_iff (s : Str) :
    unEscapeNameString (escapeNameString s) = s ↔
      ¬ TouchesEnds (fun c => c = '\'' ∨ c = '`' ∨ c = '(' ∨ c = ')') s := by
  have hw : unEscapeNameString (escapeNameString s) = Str.trim s%"'`()" s :=
    Str.trim_wrap _ s '`' '`' (by decide) (by decide)
  have hc : ∀ c, (s%"'`()").contains c = true ↔ (c = '\'' ∨ c = '`' ∨ c = '(' ∨ c = ')') := by
    intro c; simp
  rw [hw]
  constructor
  · intro h ht
    rcases ht with ⟨c, r, hs, hb⟩ | ⟨r, c, hs, hb⟩
    · have := Str.trim_head _ s c r (h.trans hs)
      rw [(hc c).mpr hb] at this; cases this
    · have := Str.trim_last _ s c r (h.trans hs)
      rw [(hc c).mpr hb] at this; cases this
  · intro h
    apply Str.trim_eq_self_of
    · intro a r hs
      rw [Bool.eq_false_iff]; intro hb
      exact h (Or.inl ⟨a, r, hs, (hc a).mp hb⟩)
    · intro r a hs
      rw [Bool.eq_false_iff]; intro hb
      exact h (Or.inr ⟨r, a, hs, (hc a).mp hb⟩)

/-- C03, the second half: stripping twice is stripping once, for every string. -/
theorem C03_unescape_idempotent (s : Str) :
    unEscapeNameString (unEscapeNameString s) = unEscapeNameString s := Str.trim_idem _ s

/-- C03 as stated is false for identifiers ending in a stripped character (a call such as `f()`). -/
theorem C03_name_roundtrip_fails : ∃ s, unEscapeNameString (escapeNameString s) ≠ s :=
  ⟨s%"f()", by decide⟩

/-- C03, the part of the round trip that holds: ordinary identifiers. -/
theorem C03_name_roundtrip_partial (s : Str)
    (h : ∀ c ∈ s, c ≠ '\'' ∧ c ≠ '`' ∧ c ≠ '(' ∧ c ≠ ')') :
    unEscapeNameString (escapeNameString s) = s := by
  rw [C03_name_roundtrip_iff]
  rintro (⟨c, r, hs, hb⟩ | ⟨r, c, hs, hb⟩)
  · have := h c (by simp [hs]); grind
  · have := h c (by simp [hs]); grind

example : ∀ c ∈ s%"user_id", c ≠ '\'' ∧ c ≠ '`' ∧ c ≠ '(' ∧ c ≠ ')' := by decide

end Verif.Props
