import Verif.Props.Exec
import Verif.Model.Bind
import Verif.Spec.Functions
/-! C90–C92, C97: what the functions compute, and which names are known. -/
namespace Verif.Props
open Verif Verif.Fn Verif.Spec Verif.Lemmas
variable {V F T : Type}

/-- The arguments lie in the function's domain (SQRT is taken to be defined for positive numbers only, see C73). -/
def Defined (env : XEnv V F T) (name : Str) (fs : List F) : Prop :=
  InDomain (fun x => env.le x env.zero) (fun x => env.lt x env.zero) (fun x => env.eq x env.zero)
    (fun x => env.eq x (env.ofInt (env.trunc x))) name fs

theorem executor_of_upper {name u : Str} {id : ExecId} (h : Str.upper name = u)
    (hf : (execCases.find? (execCaseHit u)).map (·.1) = some id) : newExecutorForName name = some id := by
  unfold newExecutorForName; rw [h]; exact hf

/-- C90, negation: LOG10 computes the natural logarithm, for every arithmetic and every positive argument. -/
theorem C90_fails (env : XEnv V F T) (a : Option V) (x : F) (h : env.toFloat a = some x)
    (hx : env.le x env.zero = false) : executeFunction env s%"LOG10" (.args [a]) = .ok (.num (env.log x)) := by
  have : newExecutorForName s%"LOG10" = some .log := by decide
  simp only [executeFunction, this]
  show execBody env .log [a] = _
  simp [execBody, ExecId.type, castAll, h, mathBody, one, hx]

example : xEnv.toFloat (some 5) = some 5 ∧ xEnv.le 5 xEnv.zero = false := by decide

/-- C90 for functions of one number other than LOG10: called in any letter case on one convertible argument in
the domain they return what they are named for, outside the domain an error. Missing: LOG10, see `C90_fails`. -/
theorem C90_unary_partial (env : XEnv V F T) (name : Str) (f : F → XVal V F T)
    (hf : (Str.upper name, f) ∈ unaryMeaning env) (hl : Str.upper name ≠ s%"LOG10") (a : Option V) (x : F)
    (hx : env.toFloat a = some x) :
    (Defined env (Str.upper name) [x] → executeFunction env name (.args [a]) = .ok (f x)) ∧
    (¬ Defined env (Str.upper name) [x] → executeFunction env name (.args [a]) = .err) := by
  generalize hu : Str.upper name = u at hf hl
  simp only [unaryMeaning, List.mem_cons, Prod.mk.injEq, List.not_mem_nil, or_false] at hf
  have key : ∀ id : ExecId, (execCases.find? (execCaseHit u)).map (·.1) = some id → id.type = .math →
      executeFunction env name (.args [a]) = mathBody env id [x] := by
    intro id h1 h2
    simp only [executeFunction, executor_of_upper hu h1]
    show execBody env id [a] = _
    simp [execBody, h2, castAll, hx]
  rcases hf with ⟨rfl, rfl⟩ | ⟨rfl, rfl⟩ | ⟨rfl, rfl⟩ | ⟨rfl, rfl⟩ | ⟨rfl, rfl⟩ | ⟨rfl, rfl⟩ | ⟨rfl, rfl⟩ |
    ⟨rfl, rfl⟩ | ⟨rfl, rfl⟩ | ⟨rfl, rfl⟩ | ⟨rfl, rfl⟩
  all_goals first
    | exact absurd rfl hl
    | (rw [key _ rfl rfl]
       simp only [mathBody, one, Defined, InDomain, List.mem_singleton, forall_eq]
       simp)

example : (Str.upper s%"floor", fun x => XVal.int (xEnv.trunc (xEnv.floor x))) ∈ unaryMeaning xEnv ∧
    Str.upper s%"floor" ≠ s%"LOG10" := by
  constructor
  · have : Str.upper s%"floor" = s%"FLOOR" := by decide
    rw [this]; simp [unaryMeaning]
  · decide
example : Defined xEnv s%"LOG" [5] ∧ ¬ Defined xEnv s%"LOG" [-5] := by
  constructor
  · exact ⟨by intro _ x hx; simp at hx; subst hx; decide, fun h => absurd h (by decide), fun h => absurd h (by decide)⟩
  · intro h; exact absurd (h.1 (by decide) (-5) (by simp)) (by decide)

/-- C90 for functions of two numbers and the operators + - * /: the operands are used in order, and arguments
outside the domain (a zero divisor of MOD, a fractional power of a negative number) are an error. -/
theorem C90_binary (env : XEnv V F T) (name : Str) (f : F → F → XVal V F T)
    (hf : (Str.upper name, f) ∈ binaryMeaning env) (a b : Option V) (x y : F) (hx : env.toFloat a = some x)
    (hy : env.toFloat b = some y) :
    (Defined env (Str.upper name) [x, y] → executeFunction env name (.args [a, b]) = .ok (f x y)) ∧
    (¬ Defined env (Str.upper name) [x, y] → executeFunction env name (.args [a, b]) = .err) := by
  generalize hu : Str.upper name = u at hf
  simp only [binaryMeaning, List.mem_cons, Prod.mk.injEq, List.not_mem_nil, or_false] at hf
  have key : ∀ id : ExecId, (execCases.find? (execCaseHit u)).map (·.1) = some id →
      executeFunction env name (.args [a, b]) = execBody env id [a, b] := by
    intro id h1
    simp only [executeFunction, executor_of_upper hu h1]
    rfl
  rcases hf with ⟨rfl, rfl⟩ | ⟨rfl, rfl⟩ | ⟨rfl, rfl⟩ | ⟨rfl, rfl⟩ | ⟨rfl, rfl⟩ | ⟨rfl, rfl⟩
  all_goals
    rw [key _ rfl]
    simp only [execBody, ExecId.type, castAll, hx, hy, mathBody, arithBody, two, Defined, InDomain]
    simp

example : (Str.upper s%"mod", fun x y => XVal.num (xEnv.fmod x y)) ∈ binaryMeaning xEnv := by
  have : Str.upper s%"mod" = s%"MOD" := by decide
  rw [this]; simp [binaryMeaning]
example : Defined xEnv s%"MOD" [7, 2] ∧ ¬ Defined xEnv s%"MOD" [7, 0] ∧
    executeFunction xEnv s%"mod" (.args [some 7, some 2]) = .ok (.num 1) ∧
    executeFunction xEnv s%"-" (.args [some 7, some 2]) = .ok (.num 5) := by
  refine ⟨⟨fun h => absurd h (by decide), by intro _ y hy; simp at hy; subst hy; decide, fun h => absurd h (by decide)⟩, ?_, by decide, by decide⟩
  intro h; exact absurd (h.2.1 rfl 0 rfl) (by decide)

/-- C90 for `%`: the remainder, truncated toward zero, of the numbers cut to integers. -/
theorem C90_remainder (env : XEnv V F T) (a b : Option V) (x y : F) (hx : env.toFloat a = some x)
    (hy : env.toFloat b = some y) (hz : env.trunc y ≠ 0) :
    ∃ r : Int, executeFunction env s%"%" (.args [a, b]) = .ok (.num (env.ofInt r)) ∧
      (∃ q : Int, env.trunc x = q * env.trunc y + r) ∧ r.natAbs < (env.trunc y).natAbs ∧
      (0 ≤ env.trunc x → 0 ≤ r) ∧ (env.trunc x ≤ 0 → r ≤ 0) := by
  refine ⟨Int.tmod (env.trunc x) (env.trunc y), ?_, ⟨Int.tdiv (env.trunc x) (env.trunc y), ?_⟩, ?_, ?_, ?_⟩
  · have : newExecutorForName s%"%" = some .opMod := by decide
    simp only [executeFunction, this]
    show execBody env .opMod [a, b] = _
    simp [execBody, ExecId.type, hx, hy, arithBody, hz]
  · rw [Int.mul_comm]; exact (Int.mul_tdiv_add_tmod _ _).symm
  · rw [Int.natAbs_tmod]; exact Nat.mod_lt _ (by omega)
  · intro h; exact Int.tmod_nonneg _ h
  · intro h
    have := Int.tmod_nonneg (env.trunc y) (a := - env.trunc x) (by omega)
    rw [Int.neg_tmod] at this; omega

example : xEnv.toFloat (some (-7)) = some (-7) ∧ xEnv.trunc 2 ≠ 0 ∧
    executeFunction xEnv s%"%" (.args [some (-7), some 2]) = .ok (.num (-1)) := by decide

/-- C90 for PI and the clock functions. -/
theorem C90_constants (env : XEnv V F T) :
    executeFunction env s%"PI" .nil = .ok (.num env.pi) ∧ executeFunction env s%"NOW" .nil = .ok (.time env.now) ∧
    executeFunction env s%"CURRENT_TIMESTAMP" .nil = .ok (.time env.now) := by
  have h1 : newExecutorForName s%"PI" = some .pi := by decide
  have h2 : newExecutorForName s%"NOW" = some .now := by decide
  have h3 : newExecutorForName s%"CURRENT_TIMESTAMP" = some .currentTimestamp := by decide
  simp only [executeFunction, h1, h2, h3]
  exact ⟨rfl, rfl, rfl⟩

/-- C91: an operator symbol gives an executor of exactly that name, and only the five symbols are known. -/
theorem C91_operator (s : Str) :
    (∀ id, newArithOperatorFor s = some id → id.name = s ∧ id.type = .arith) ∧
    ((newArithOperatorFor s).isSome ↔ s ∈ [s%"+", s%"-", s%"*", s%"/", s%"%"]) := by
  unfold newArithOperatorFor
  by_cases h1 : s = s%"+"
  · subst h1; simp [ExecId.name, ExecId.type]
  · by_cases h2 : s = s%"-"
    · subst h2; simp [ExecId.name, ExecId.type]
    · by_cases h3 : s = s%"*"
      · subst h3; simp [ExecId.name, ExecId.type]
      · by_cases h4 : s = s%"/"
        · subst h4; simp [ExecId.name, ExecId.type]
        · by_cases h5 : s = s%"%"
          · subst h5; simp [ExecId.name, ExecId.type]
          · simp [h1, h2, h3, h4, h5]

/-- C91: the executor for a symbol computes what executing the function of that name computes. -/
theorem C91_same (env : XEnv V F T) (s : Str) (id : ExecId) (h : newArithOperatorFor s = some id) (v : XInput V) :
    (newExec env id []).execute env v = executeFunction env s v := by
  have hs := (C91_operator s).1 id h
  have : newExecutorForName s = some id := by
    rw [← hs.1]
    have ht := hs.2
    revert ht
    cases id <;> simp only [ExecId.type] <;> intro ht <;> first | decide | cases ht
  simp only [executeFunction, this]

example : newArithOperatorFor s%"-" = some .opSub := by decide

/-- The characters `TRIM` removes. -/
theorem isSpace_iff (c : Char) :
    (c == ' ' || c == '\t' || c == '\n' || c == '\r' || c.toNat == 11 || c.toNat == 12) = true ↔
      c ∈ [' ', '\t', '\n', '\r', Char.ofNat 11, Char.ofNat 12] := by
  have e : ∀ n (h : n < 128), (c.toNat == n) = true ↔ c = Char.ofNat n := by
    intro n hn
    rw [beq_iff_eq]
    constructor
    · rintro rfl; exact (Char.ofNat_toNat c).symm
    · rintro rfl
      revert n; decide
  simp only [Bool.or_eq_true, beq_iff_eq, List.mem_cons, List.not_mem_nil, or_false]
  have h1 := e 11 (by decide)
  have h2 := e 12 (by decide)
  simp only [beq_iff_eq] at h1 h2
  rw [h1, h2]
  grind

theorem dropWhile_split {α : Type} (p : α → Bool) (l : List α) :
    ∃ a, l = a ++ l.dropWhile p ∧ (∀ c, c ∈ a → p c = true) ∧ ∀ c, (l.dropWhile p).head? = some c → p c = false := by
  induction l with
  | nil => exact ⟨[], by simp⟩
  | cons x l ih =>
    by_cases h : p x = true
    · obtain ⟨a, h1, h2, h3⟩ := ih
      refine ⟨x :: a, ?_, ?_, ?_⟩
      · rw [List.dropWhile_cons_of_pos h, List.cons_append, ← h1]
      · intro c hc; rcases List.mem_cons.mp hc with rfl | hc
        · exact h
        · exact h2 c hc
      · rw [List.dropWhile_cons_of_pos h]; exact h3
    · refine ⟨[], ?_, by simp, ?_⟩
      · rw [List.dropWhile_cons_of_neg h, List.nil_append]
      · rw [List.dropWhile_cons_of_neg h]; intro c hc; simp at hc; subst hc; simpa using h

theorem trimSpace_trimmed (s : Str) : Trimmed s (trimSpace s) := by
  unfold trimSpace Str.trimRight Str.trimLeft
  simp only
  generalize hp : (fun c : Char => c == ' ' || c == '\t' || c == '\n' || c == '\r' || c.toNat == 11 || c.toNat == 12) = p
  have hsp : ∀ c, p c = true ↔ c ∈ [' ', '\t', '\n', '\r', Char.ofNat 11, Char.ofNat 12] := by
    subst hp; exact isSpace_iff
  obtain ⟨a, h1, h2, h3⟩ := dropWhile_split p s
  obtain ⟨b, k1, k2, k3⟩ := dropWhile_split p (s.dropWhile p).reverse
  have k1' := congrArg List.reverse k1
  rw [List.reverse_reverse, List.reverse_append] at k1'
  refine ⟨⟨a, b.reverse, ?_, ?_⟩, ?_, ?_⟩
  · rw [List.append_assoc, ← k1', ← h1]
  · intro c hc
    rw [← hsp]
    rcases List.mem_append.mp hc with hc | hc
    · exact h2 c hc
    · exact k2 c (List.mem_reverse.mp hc)
  · intro c hc hcm
    have := h3 c (by
      rw [k1']
      cases hl : (List.dropWhile p (List.dropWhile p s).reverse).reverse with
      | nil => rw [hl] at hc; cases hc
      | cons y l => rw [hl] at hc; exact hc)
    rw [(hsp c).mpr hcm] at this; cases this
  · intro c hc hcm
    rw [List.getLast?_reverse] at hc
    have := k3 c hc
    rw [(hsp c).mpr hcm] at this; cases this

/-- A text has only one form without surrounding white space, unless it consists of white space. -/
theorem trimmed_unique {s t t' : Str} (h : Trimmed s t) (h' : Trimmed s t') : t = t' := by
  obtain ⟨⟨a, b, hs, hab⟩, hf, hl⟩ := h
  obtain ⟨⟨a', b', hs', hab'⟩, hf', hl'⟩ := h'
  generalize [' ', '\t', '\n', '\r', Char.ofNat 11, Char.ofNat 12] = sp at *
  have pre : ∀ (a a' u u' : Str), a ++ u = a' ++ u' → (∀ c ∈ a, c ∈ sp) → (∀ c ∈ a', c ∈ sp) →
      (∀ c, u.head? = some c → c ∉ sp) → (∀ c, u'.head? = some c → c ∉ sp) → u = u' := by
    intro a
    induction a with
    | nil =>
      intro a' u u' he _ h2 h3 _
      cases a' with
      | nil => simpa using he
      | cons x a' =>
        simp at he; subst he
        exact absurd (h2 x (by simp)) (h3 x (by simp))
    | cons x a ih =>
      intro a' u u' he h1 h2 h3 h4
      cases a' with
      | nil => simp at he; subst he; exact absurd (h1 x (by simp)) (h4 x (by simp))
      | cons y a' =>
        simp at he
        exact ih a' u u' he.2 (fun c hc => h1 c (by simp [hc])) (fun c hc => h2 c (by simp [hc])) h3 h4
  have emp : ∀ (a t b : Str), (∀ c ∈ a ++ t ++ b, c ∈ sp) → (∀ c, t.head? = some c → c ∉ sp) → t = [] := by
    intro a t b h1 h2
    cases t with
    | nil => rfl
    | cons x t => exact absurd (h1 x (by simp)) (h2 x rfl)
  by_cases hall : ∀ c ∈ s, c ∈ sp
  · rw [emp a t b (by rw [← hs]; exact hall) hf, emp a' t' b' (by rw [← hs']; exact hall) hf']
  · have hne : ∀ (a t b : Str), s = a ++ t ++ b → (∀ c ∈ a ++ b, c ∈ sp) → t ≠ [] := by
      rintro a t b h1 h2 rfl
      apply hall; rw [h1]; simpa using h2
    have n1 := hne a t b hs hab
    have n2 := hne a' t' b' hs' hab'
    have hd : ∀ (t b : Str), t ≠ [] → (t ++ b).head? = t.head? := by
      intro t b h; cases t with
      | nil => exact absurd rfl h
      | cons x t => rfl
    have e1 : t ++ b = t' ++ b' := by
      apply pre a a'
      · rw [← List.append_assoc, ← hs, hs', List.append_assoc]
      · intro c hc; exact hab c (List.mem_append_left _ hc)
      · intro c hc; exact hab' c (List.mem_append_left _ hc)
      · rw [hd t b n1]; exact hf
      · rw [hd t' b' n2]; exact hf'
    have e2 := congrArg List.reverse e1
    rw [List.reverse_append, List.reverse_append] at e2
    have := pre b.reverse b'.reverse t.reverse t'.reverse e2
      (fun c hc => hab c (List.mem_append_right _ (List.mem_reverse.mp hc)))
      (fun c hc => hab' c (List.mem_append_right _ (List.mem_reverse.mp hc)))
      (by rw [List.head?_reverse]; exact hl) (by rw [List.head?_reverse]; exact hl')
    exact List.reverse_inj.mp this

/-- C92: UPPER, LOWER and TRIM take exactly one argument; TRIM returns the text without the white space around
it, UPPER and LOWER change every character and keep the length. -/
theorem C92_string (env : XEnv V F T) (a : Option V) (s : Str) (h : env.toText a = some s) :
    (∀ t, Trimmed s t → executeFunction env s%"TRIM" (.args [a]) = .ok (.text t)) ∧
    executeFunction env s%"UPPER" (.args [a]) = .ok (.text (s.map Str.upC)) ∧
    executeFunction env s%"LOWER" (.args [a]) = .ok (.text (s.map Str.loC)) := by
  have h1 : newExecutorForName s%"TRIM" = some .trim := by decide
  have h2 : newExecutorForName s%"UPPER" = some .upper := by decide
  have h3 : newExecutorForName s%"LOWER" = some .lower := by decide
  have hb : ∀ id : ExecId, id.type = .string → (newExec env id []).execute env (.args [a]) = stringBody id [s] := by
    intro id ht
    show execBody env id [a] = _
    simp [execBody, ht, castAll, h]
  simp only [executeFunction, h1, h2, h3]
  refine ⟨fun t ht => ?_, ?_, ?_⟩
  · rw [hb _ rfl, trimmed_unique ht (trimSpace_trimmed s)]; rfl
  · rw [hb _ rfl]; rfl
  · rw [hb _ rfl]; rfl

/-- C92: every text has such a trimmed form, so the value of TRIM is determined. -/
theorem C92_trimmed_exists (s : Str) : ∃ t, Trimmed s t := ⟨_, trimSpace_trimmed s⟩

/-- C92: with no or more than one argument they return an error. -/
theorem C92_arg_count (env : XEnv V F T) (name : Str) (h : Str.upper name ∈ [s%"TRIM", s%"UPPER", s%"LOWER"])
    (args : List (Option V)) (hn : args.length ≠ 1) : executeFunction env name (.args args) = .err := by
  have key : ∀ id : ExecId, id.type = .string → execBody env id args = .err := by
    intro id ht
    simp only [execBody, ht]
    split
    · rfl
    · next ss hs =>
      have hl : ss.length ≠ 1 := by rw [castAll_length hs]; exact hn
      rcases ss with _ | ⟨x, _ | ⟨y, ss⟩⟩
      · cases id <;> rfl
      · simp at hl
      · cases id <;> rfl
  simp only [List.mem_cons, List.not_mem_nil, or_false] at h
  rcases h with h | h | h
  · simp only [executeFunction, executor_of_upper (id := .trim) h (by decide)]; exact key .trim rfl
  · simp only [executeFunction, executor_of_upper (id := .upper) h (by decide)]; exact key .upper rfl
  · simp only [executeFunction, executor_of_upper (id := .lower) h (by decide)]; exact key .lower rfl

example : Str.upper s%"trim" ∈ [s%"TRIM", s%"UPPER", s%"LOWER"] ∧ ([some 1, some 2] : List (Option Int)).length ≠ 1 := by decide
example : Trimmed s%" \ta b \n" s%"a b" :=
  ⟨⟨s%" \t", s%" \n", by decide, by decide⟩, by decide, by decide⟩

/-- C97: every documented function is registered, its type is looked up under its name, it can be created as an
executor (or aggregator, for the aggregates) of that same type; and no other name has a type. -/
theorem C97_known (name : Str) :
    (∀ t, (name, t) ∈ documented → isRegisteredFunction name = true ∧ newFunctionTypeForName name = some t ∧
      (if t = .aggregate then ∃ k, newAggregatorForName name = some k ∧ k.name = name
       else ∃ id, newExecutorForName name = some id ∧ id.type = t)) ∧
    (∀ t, newFunctionTypeForName name = some t → (name, t) ∈ documented) := by
  constructor
  · intro t h
    simp only [documented, List.mem_cons, Prod.mk.injEq, List.not_mem_nil, or_false] at h
    rcases h with ⟨rfl, rfl⟩ | ⟨rfl, rfl⟩ | ⟨rfl, rfl⟩ | ⟨rfl, rfl⟩ | ⟨rfl, rfl⟩ | ⟨rfl, rfl⟩ | ⟨rfl, rfl⟩ | ⟨rfl, rfl⟩ |
      ⟨rfl, rfl⟩ | ⟨rfl, rfl⟩ | ⟨rfl, rfl⟩ | ⟨rfl, rfl⟩ | ⟨rfl, rfl⟩ | ⟨rfl, rfl⟩ | ⟨rfl, rfl⟩ | ⟨rfl, rfl⟩ | ⟨rfl, rfl⟩ |
      ⟨rfl, rfl⟩ | ⟨rfl, rfl⟩ | ⟨rfl, rfl⟩ | ⟨rfl, rfl⟩ | ⟨rfl, rfl⟩ | ⟨rfl, rfl⟩ | ⟨rfl, rfl⟩ | ⟨rfl, rfl⟩ | ⟨rfl, rfl⟩ |
      ⟨rfl, rfl⟩ | ⟨rfl, rfl⟩ | ⟨rfl, rfl⟩ | ⟨rfl, rfl⟩
    all_goals
      refine ⟨by decide, by decide, ?_⟩
      simp only [reduceCtorEq, if_true, if_false]
      first
        | exact ⟨.max, by decide⟩ | exact ⟨.min, by decide⟩ | exact ⟨.sum, by decide⟩ | exact ⟨.avg, by decide⟩
        | exact ⟨.count, by decide⟩
        | exact ⟨_, rfl, rfl⟩
  · intro t h
    unfold newFunctionTypeForName at h
    simp only [List.elem_eq_mem, decide_eq_true_eq, List.mem_cons, List.not_mem_nil, or_false] at h
    simp only [documented, List.mem_cons, Prod.mk.injEq, List.not_mem_nil, or_false]
    split at h
    · cases h; simp only [reduceCtorEq, and_true, and_false, or_false, false_or]; grind
    · split at h
      · cases h; simp only [reduceCtorEq, and_true, and_false, or_false, false_or]; grind
      · split at h
        · cases h; simp only [reduceCtorEq, and_true, and_false, or_false, false_or]; grind
        · split at h
          · cases h; simp only [reduceCtorEq, and_true, and_false, or_false, false_or]; grind
          · split at h
            · cases h; simp only [reduceCtorEq, and_true, and_false, or_false, false_or]; grind
            · cases h

/-- C97, negation of the same for other letter cases: `sum` is accepted by the aggregator and executor lookups
and counts as registered, but has no type, so a selector `sum(x)` does not count as an aggregate. -/
theorem C97_case_fails : isRegisteredFunction s%"sum" = true ∧ newAggregatorForName s%"sum" = some .sum ∧
    newFunctionTypeForName s%"sum" = none ∧ (newFunction (V := V) (F := F) (T := T) s%"sum" [s%"x"]).type = .unknown := by
  refine ⟨by decide, by decide, by decide, ?_⟩
  have : newFunctionTypeForName s%"sum" = none := by decide
  simp only [newFunction, this]; rfl

example : (s%"MIN", FnType.aggregate) ∈ documented := by decide

end Verif.Props
