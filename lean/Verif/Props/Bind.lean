import Verif.Lemmas.Bind
/-! C50, C51, C53: binding parameters to a query. -/
namespace Verif.Props
open Verif Verif.Bind Verif.Spec Verif.Lemmas
variable {T F V : Type}

/-- An example environment: times are numbers of nanoseconds, the other values are numbers. -/
def bEnv : BEnv Nat Nat (Option Nat) where
  nanos t := t % 1000
  seconds t := Str.ofNat (t / 1000)
  micros t := Str.ofNat t
  float := Str.ofNat
  other v := v.map Str.ofNat

/-- C50, with the conditions the code needs: the query does not begin with a placeholder and only the last
value may contain a question mark. Then the first placeholders are replaced in order by the texts of the
parameters and nothing else changes, and the parser sees exactly that text. Missing: queries starting with a
placeholder and values containing `?` (`C50_fails`). -/
theorem C50_bind_partial {α : Type} (B : BEnv T F V) (parse : Str → Option α) (p : Str) (ps : List Str)
    (params : List (Param T F V)) (vs : List Str)
    (hne : p ≠ []) (hp : '?' ∉ p) (hps : ∀ x ∈ ps, '?' ∉ x) (ht : params.map (Param.text B) = vs.map some)
    (hv : ∀ v ∈ vs.dropLast, '?' ∉ v) (hl : vs.length ≤ ps.length) :
    bindText B (marked p ps) params = some (filled p ps vs) ∧
      statements B parse (marked p ps) params = parse (filled p ps vs) := by
  have h := bindLoop_marked B ps params vs [] p 0 (by simpa using hne) (by simp) hp hps ht hv hl
  simp only [List.nil_append] at h
  exact ⟨h, by simp [statements, bindText, h]⟩

example : bindText bEnv s%"a = ? AND b = ? AND c = ?" [.str s%"x", .float 12] = some s%"a = 'x' AND b = 12 AND c = ?" := by
  decide +kernel
example : (s%"a = " ≠ [] ∧ ([.str s%"x", .other (some 12)] : List (Param Nat Nat (Option Nat))).map (Param.text bEnv) =
    [s%"'x'", s%"12"].map some) := by decide +kernel

/-- C50, negation: a value containing a question mark is itself taken for a placeholder by the next
parameter, and a placeholder at the very start of the query is not seen. -/
theorem C50_fails :
    bindText bEnv s%"a = ? AND b = ?" [.str s%"x?", .float 1] = some s%"a = 'x1' AND b = ?" ∧
    bindText bEnv s%"? = ?" [.float 1, .float 2] = none := by decide +kernel

/-- C51, with the conditions the code needs: for a query with `?` placeholders only, not beginning with one,
and values without `?` and `$`, binding succeeds exactly when there are at least as many placeholders as
parameters. Missing: the cases of `C51_fails`. -/
theorem C51_error_iff_partial (B : BEnv T F V) (p : Str) (ps : List Str) (params : List (Param T F V)) (vs : List Str)
    (hne : p ≠ []) (hp : '?' ∉ p ∧ '$' ∉ p) (hps : ∀ x ∈ ps, '?' ∉ x ∧ '$' ∉ x)
    (ht : params.map (Param.text B) = vs.map some) (hv : ∀ v ∈ vs.dropLast, '?' ∉ v ∧ '$' ∉ v) :
    bindText B (marked p ps) params = none ↔ (marked p ps).count '?' < params.length := by
  have hc : ∀ (ps : List Str) (p : Str), '?' ∉ p → (∀ x ∈ ps, '?' ∉ x) → (marked p ps).count '?' = ps.length := by
    intro ps
    induction ps with
    | nil => intro p hp _; simpa [marked, List.count_eq_zero] using hp
    | cons p₁ ps ih =>
      intro p hp h
      simp [marked, List.count_append, List.count_eq_zero.mpr hp, ih p₁ (h p₁ (by simp)) (fun x hx => h x (by simp [hx]))]
  have hlen : params.length = vs.length := by
    have := congrArg List.length ht; simpa using this
  rw [hc ps p hp.1 (fun x hx => (hps x hx).1), hlen]
  constructor
  · intro h
    rcases Nat.lt_or_ge ps.length vs.length with h1 | h1
    · exact h1
    · have := bindLoop_marked B ps params vs [] p 0 (by simpa using hne) (by simp) hp.1 (fun x hx => (hps x hx).1) ht
        (fun v hx => (hv v hx).1) h1
      simp only [List.nil_append] at this
      rw [bindText, this] at h; cases h
  · intro h
    have := bindLoop_too_many B ps params vs [] p 0 (by simpa using hne) (by simp) hp hps ht hv h
    simpa [bindText] using this

/-- C51: a parameter whose text cannot be made is an error whatever the query is. -/
theorem C51_no_text (B : BEnv T F V) (q : Str) (params : List (Param T F V)) (x : Param T F V) (hx : x ∈ params)
    (ht : x.text B = none) : bindText B q params = none := by
  obtain ⟨pre, post, rfl⟩ := List.append_of_mem hx
  simp only [bindText, bindLoop_append]
  cases bindLoop B q 0 pre with
  | none => rfl
  | some q' => simp [bindLoop, ht]

/-- C51, negation: a query with as many placeholders as parameters is refused when it begins with one, and a
query with fewer is accepted when a value contains a question mark. -/
theorem C51_fails :
    (bindText bEnv s%"? = a" [.float 1] = none ∧ (s%"? = a").count '?' = 1) ∧
    bindText bEnv s%"a = ?" [.str s%"?", .float 1] = some s%"a = '1'" := by decide +kernel

/-- C53, with the conditions the code needs: numbers are at least one and not repeated, no placeholder stands
before one whose digits it extends (`$10` before `$1`), pieces and values contain neither `?` nor `$`, and the
query does not begin with a placeholder. Then `$k` is replaced by the `k`-th value for every `k` up to the
number of parameters, and the other placeholders stay. Missing: the cases of `C53_fails`. -/
theorem C53_numbered_partial {α : Type} (B : BEnv T F V) (parse : Str → Option α) (p : Str) (r : List (Nat × Str))
    (params : List (Param T F V)) (vs : List Str)
    (hne : p ≠ []) (hp : '?' ∉ p ∧ '$' ∉ p) (hr : ∀ e ∈ r, '?' ∉ e.2 ∧ '$' ∉ e.2)
    (ht : params.map (Param.text B) = vs.map some) (hv : ∀ v ∈ vs, '?' ∉ v ∧ '$' ∉ v)
    (hpos : ∀ e ∈ r, 0 < e.1) (hnd : (r.map (·.1)).Nodup)
    (hcl : r.Pairwise (fun a b => b.1 < a.1 → ¬ Str.ofNat b.1 <+: Str.ofNat a.1))
    (hall : ∀ k, 1 ≤ k → k ≤ vs.length → k ∈ r.map (·.1)) :
    bindText B (dollars p r) params = some (dollarsFilled p vs r) ∧
      statements B parse (dollars p r) params = parse (dollarsFilled p vs r) := by
  have h := bindLoop_dollars B p r params vs [] hne hp hr ht (by simpa using hv) hpos hnd hcl (by simpa using hall)
  have h0 : bound ([] ++ vs) ([] : List Str).length = fun _ => none := by
    funext k; simp [bound]; omega
  rw [h0, dol_none, List.nil_append, dol_bound] at h
  simp only [List.length_nil] at h
  exact ⟨h, by simp [statements, bindText, h]⟩

/-- C53 for the two usual shapes: placeholders in increasing order (any number of them), or numbers below
ten in any order. -/
theorem C53_usual_partial (B : BEnv T F V) (p : Str) (r : List (Nat × Str)) (params : List (Param T F V)) (vs : List Str)
    (hne : p ≠ []) (hp : '?' ∉ p ∧ '$' ∉ p) (hr : ∀ e ∈ r, '?' ∉ e.2 ∧ '$' ∉ e.2)
    (ht : params.map (Param.text B) = vs.map some) (hv : ∀ v ∈ vs, '?' ∉ v ∧ '$' ∉ v) (hpos : ∀ e ∈ r, 0 < e.1)
    (hshape : (r.map (·.1)).Pairwise (· < ·) ∨ ((r.map (·.1)).Nodup ∧ ∀ e ∈ r, e.1 < 10))
    (hall : ∀ k, 1 ≤ k → k ≤ vs.length → k ∈ r.map (·.1)) :
    bindText B (dollars p r) params = some (dollarsFilled p vs r) := by
  refine (C53_numbered_partial B (fun x => some x) p r params vs hne hp hr ht hv hpos ?_ ?_ hall).1
  · rcases hshape with h | h
    · exact h.imp (fun h => by omega)
    · exact h.1
  · rcases hshape with h | h
    · refine (List.pairwise_map.mp h).imp ?_
      intro a b hab hba; omega
    · have hn := h.1
      refine (List.pairwise_map.mp hn).imp_of_mem ?_
      intro a b ha hb hab hlt hpre
      have h1 : (Str.ofNat b.1).length = 1 := by rw [Str.ofNat, dif_pos (h.2 b hb)]; rfl
      have h2 : (Str.ofNat a.1).length = 1 := by rw [Str.ofNat, dif_pos (h.2 a ha)]; rfl
      have := List.IsPrefix.eq_of_length hpre (by omega)
      exact hab (Str.ofNat_inj this).symm

/-- C51 for numbered placeholders: under the same conditions, and when no placeholder extends the digits of a
missing one, binding fails exactly when some number up to the number of parameters has no placeholder. -/
theorem C51_numbered_iff_partial (B : BEnv T F V) (p : Str) (r : List (Nat × Str)) (params : List (Param T F V)) (vs : List Str)
    (hne : p ≠ []) (hp : '?' ∉ p ∧ '$' ∉ p) (hr : ∀ e ∈ r, '?' ∉ e.2 ∧ '$' ∉ e.2)
    (ht : params.map (Param.text B) = vs.map some) (hv : ∀ v ∈ vs, '?' ∉ v ∧ '$' ∉ v)
    (hpos : ∀ e ∈ r, 0 < e.1) (hnd : (r.map (·.1)).Nodup)
    (hcl : ∀ k, 1 ≤ k → ∀ e ∈ r, k < e.1 → ¬ Str.ofNat k <+: Str.ofNat e.1) :
    bindText B (dollars p r) params = none ↔ ∃ k, 1 ≤ k ∧ k ≤ params.length ∧ k ∉ r.map (·.1) := by
  have hlen : params.length = vs.length := by
    have := congrArg List.length ht; simpa using this
  have hclear : Clear r := by
    refine List.Pairwise.imp_of_mem ?_ (List.pairwise_map.mp hnd)
    intro a b ha hb _ hlt
    exact hcl b.1 (hpos b hb) a ha hlt
  constructor
  · intro h
    refine Classical.byContradiction fun hno => ?_
    have hall : ∀ k, 1 ≤ k → k ≤ vs.length → k ∈ r.map (·.1) := by
      intro k h1 h2
      exact Classical.byContradiction fun hk => hno ⟨k, h1, by omega, hk⟩
    rw [(C53_numbered_partial B (fun x => some x) p r params vs hne hp hr ht hv hpos hnd hclear hall).1] at h
    cases h
  · rintro ⟨k, h1, h2, h3⟩
    -- the least missing number
    have hleast : ∃ m, 1 ≤ m ∧ m ≤ params.length ∧ m ∉ r.map (·.1) ∧ ∀ i, 1 ≤ i → i < m → i ∈ r.map (·.1) := by
      induction k using Nat.strongRecOn with
      | _ k ih =>
        by_cases h : ∃ i, 1 ≤ i ∧ i < k ∧ i ∉ r.map (·.1)
        · obtain ⟨i, hi1, hi2, hi3⟩ := h
          exact ih i hi2 hi1 (by omega) hi3
        · refine ⟨k, h1, h2, h3, fun i hi1 hi2 => Classical.byContradiction fun hi => h ⟨i, hi1, hi2, hi⟩⟩
    obtain ⟨m, hm1, hm2, hm3, hm4⟩ := hleast
    have hsplit : params = params.take (m - 1) ++ params.drop (m - 1) := (List.take_append_drop _ _).symm
    have htk : (params.take (m - 1)).map (Param.text B) = (vs.take (m - 1)).map some := by
      rw [List.map_take, ht, List.map_take]
    have hvk : ∀ v ∈ vs.take (m - 1), '?' ∉ v ∧ '$' ∉ v := fun v h => hv v (List.mem_of_mem_take h)
    have hlk : (vs.take (m - 1)).length = m - 1 := by rw [List.length_take]; omega
    have hfirst := (C53_numbered_partial B (fun x => some x) p r (params.take (m - 1)) (vs.take (m - 1)) hne hp hr htk hvk
      hpos hnd hclear (fun i h1 h2 => hm4 i h1 (by omega))).1
    rw [hsplit, bindText, bindLoop_append]
    rw [bindText] at hfirst
    rw [hfirst]
    simp only [Option.bind_some]
    have hpl : (params.take (m - 1)).length = m - 1 := by rw [List.length_take]; omega
    rw [hpl, List.drop_eq_getElem_cons (by omega)]
    simp only [bindLoop]
    cases hx : (params[m - 1]'(by omega)).text B with
    | none => rfl
    | some s =>
      simp only []
      have := bindOne_missing (bound (vs.take (m - 1)) (m - 1)) p r (m - 1) s hp hr ?_ hpos ?_ ?_
      · have hd := dol_bound p (vs.take (m - 1)) r
        rw [hlk] at hd
        rw [hd] at this
        rw [Nat.zero_add, this]
      · intro k w hk
        unfold bound at hk
        split at hk
        · exact hvk w (List.mem_of_getElem? hk)
        · cases hk
      · intro e he hlt
        have := hpos e he
        unfold bound
        rw [if_pos ⟨by omega, by omega⟩, List.getElem?_eq_getElem (by omega)]
        rfl
      · intro e he hpre
        rw [show m - 1 + 1 = m by omega] at hpre
        rcases Nat.lt_trichotomy m e.1 with h | h | h
        · exact hcl m hm1 e he h hpre
        · exact hm3 (h ▸ List.mem_map.mpr ⟨e, he, rfl⟩)
        · by_cases heq : Str.ofNat m = Str.ofNat e.1
          · have := Str.ofNat_inj heq; omega
          · have := prefix_lt hm1 hpre heq; omega

example : bindText bEnv s%"a = $2 AND b = $1" [.str s%"x", .float 12] = some s%"a = 12 AND b = 'x'" := by decide +kernel
example : dollars s%"a = " [(2, s%" AND b = "), (1, [])] = s%"a = $2 AND b = $1" := by decide +kernel
example : ([(2, s%" AND b = "), (1, [])] : List (Nat × Str)).Pairwise (fun a b => b.1 < a.1 → ¬ Str.ofNat b.1 <+: Str.ofNat a.1) := by
  decide +kernel

/-- C53, negation: `$10` standing before `$1` is damaged, and a repeated placeholder is replaced only once. -/
theorem C53_fails :
    bindText bEnv s%"a = $10 AND b = $1" [.float 7] = some s%"a = 70 AND b = $1" ∧
    bindText bEnv s%"a = $1 OR b = $1" [.float 7] = some s%"a = 7 OR b = $1" := by decide +kernel

end Verif.Props
