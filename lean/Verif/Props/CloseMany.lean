import Verif.Props.NetConc
/-! C76: exactly how often overlapping calls of `Close` can close the network connection. -/
namespace Verif.Props
open Verif Verif.Net

/-- Executions in which only the goroutines `0, …, n - 1` ever call `Close`: all others stay idle. -/
inductive ClosersRun (n : Nat) : CC → CC → Prop
  | refl (s) : ClosersRun n s s
  | step {s s1 s2} (r : ClosersRun n s s1) (st : CC.Step s1 s2) (h : ∀ t, n ≤ t → s2.pc t = .idle) : ClosersRun n s s2

/-- These are executions. -/
theorem closersRun_run {n : Nat} {s s' : CC} (r : ClosersRun n s s') : CC.Run s s' := by
  induction r with
  | refl => exact .refl _
  | step _ st _ ih => exact .step ih st

theorem countP_upd (d : Nat → Bool) (t n : Nat) (hd : d t = false) (ht : t < n) :
    (List.range n).countP (fun u => if u = t then true else d u) = (List.range n).countP d + 1 := by
  induction n with
  | zero => omega
  | succ n ih =>
    rw [List.range_succ, List.countP_append, List.countP_append]
    by_cases h : t = n
    · subst h
      have : (List.range t).countP (fun u => if u = t then true else d u) = (List.range t).countP d := by
        apply List.countP_congr
        intro x hx
        have : x ≠ t := by have := List.mem_range.mp hx; omega
        simp [this]
      rw [this]; simp [hd]
    · have := ih (by omega)
      have hn : n ≠ t := fun e => h e.symm
      rw [this]
      simp [hn]
      omega

/-- C76, as far as it holds when calls overlap: among `n` goroutines the network connection is closed successfully at most
`n` times, however often each of them calls `Close` and in whatever interleaving.
Missing: at most once in all, see `C76_many_fails`. -/
theorem C76_bound_partial (n : Nat) {s : CC} (r : ClosersRun n CC.init s) : s.netOk ≤ n := by
  have key : ∃ d : Nat → Bool, s.netOk = (List.range n).countP d ∧ (∀ t, n ≤ t → s.pc t = .idle) ∧
      ∀ t, d t = true → s.pc t = .netDone true ∨ (s.closed = true ∧ s.pc t ≠ .open_) := by
    induction r with
    | refl => exact ⟨fun _ => false, by simp [CC.init], fun _ _ => rfl, by simp⟩
    | step r st hn ih =>
      obtain ⟨d, h1, h2, h3⟩ := ih
      cases st with
      | enter t h =>
        refine ⟨d, h1, hn, fun u hu => ?_⟩
        by_cases e : u = t
        · subst e
          rcases h3 u hu with h' | h'
          · rw [h] at h'; cases h'
          · exact .inr ⟨h'.1, by simp [upd]⟩
        · simpa [upd, e] using h3 u hu
      | skip t h hc =>
        refine ⟨d, h1, hn, fun u hu => ?_⟩
        by_cases e : u = t
        · subst e; exact .inr ⟨hc, by simp [upd]⟩
        · simpa [upd, e] using h3 u hu
      | check t h hc =>
        refine ⟨d, h1, hn, fun u hu => ?_⟩
        by_cases e : u = t
        · subst e
          rcases h3 u hu with h' | h'
          · rw [h] at h'; cases h'
          · rw [hc] at h'; cases h'.1
        · simpa [upd, e] using h3 u hu
      | net t ok h =>
        have hd : d t = false := by
          cases hd : d t with
          | false => rfl
          | true =>
            rcases h3 t hd with h' | h'
            · rw [h] at h'; cases h'
            · exact absurd h h'.2
        have ht : t < n := by
          rcases Nat.lt_or_ge t n with h' | h'
          · exact h'
          · have := h2 t h'; rw [h] at this; cases this
        cases ok with
        | false =>
          refine ⟨d, by simpa using h1, hn, fun u hu => ?_⟩
          have e : u ≠ t := fun e => by rw [e, hd] at hu; cases hu
          simpa [upd, e] using h3 u hu
        | true =>
          refine ⟨fun u => if u = t then true else d u, ?_, hn, fun u hu => ?_⟩
          · rw [countP_upd d t n hd ht, ← h1]; rfl
          · by_cases e : u = t
            · subst e; exact .inl (by simp [upd])
            · simp only [e, if_false] at hu
              simpa [upd, e] using h3 u hu
      | failed t h =>
        refine ⟨d, h1, hn, fun u hu => ?_⟩
        by_cases e : u = t
        · subst e
          rcases h3 u hu with h' | h'
          · rw [h] at h'; cases h'
          · exact .inr ⟨h'.1, by simp [upd]⟩
        · simpa [upd, e] using h3 u hu
      | mark t h =>
        refine ⟨d, h1, hn, fun u hu => ?_⟩
        by_cases e : u = t
        · subst e; exact .inr ⟨rfl, by simp [upd]⟩
        · rcases h3 u hu with h' | h'
          · exact .inl (by simpa [upd, e] using h')
          · exact .inr ⟨rfl, by simpa [upd, e] using h'.2⟩
      | ret t ok h =>
        refine ⟨d, h1, hn, fun u hu => ?_⟩
        by_cases e : u = t
        · subst e
          rcases h3 u hu with h' | h'
          · rw [h] at h'; cases h'
          · exact .inr ⟨h'.1, by simp [upd]⟩
        · simpa [upd, e] using h3 u hu
  obtain ⟨d, h1, _⟩ := key
  rw [h1]
  simpa using List.countP_le_length (p := d) (l := List.range n)

/-- All `k` goroutines have looked at the flag. -/
theorem all_open (n k : Nat) (hk : k ≤ n) : ∃ s, ClosersRun n CC.init s ∧ s.closed = false ∧ s.netOk = 0 ∧
    ∀ t, s.pc t = if t < k then .open_ else .idle := by
  induction k with
  | zero => exact ⟨CC.init, .refl _, rfl, rfl, fun _ => rfl⟩
  | succ k ih =>
    obtain ⟨s, r, h1, h2, h3⟩ := ih (by omega)
    have hi : s.pc k = .idle := by simp [h3]
    refine ⟨{ s with pc := upd (upd s.pc k .entered) k .open_ },
      .step (.step r (.enter s k hi) ?_) (.check { s with pc := upd s.pc k .entered } k (by simp [upd]) h1) ?_, h1, h2, fun t => ?_⟩
    · intro t ht
      have : t ≠ k := by omega
      have h' : ¬ t < k := by omega
      simp [upd, this, h3, h']
    · intro t ht
      have : t ≠ k := by omega
      have h' : ¬ t < k := by omega
      simp [upd, this, h3, h']
    · by_cases e : t = k
      · subst e; simp [upd]
      · have : (t < k + 1) ↔ t < k := by omega
        simp [upd, e, h3, this]

/-- C76 is false of the code for any number of goroutines: `n` goroutines that all look at the flag before one of them has set
it close the network connection `n` times, which with `C76_bound_partial` is the most there can be. -/
theorem C76_many_fails (n : Nat) : ∃ s, ClosersRun n CC.init s ∧ s.netOk = n := by
  have key : ∀ k, k ≤ n → ∃ s, ClosersRun n CC.init s ∧ s.netOk = k ∧
      ∀ t, s.pc t = if t < k then .netDone true else if t < n then .open_ else .idle := by
    intro k
    induction k with
    | zero =>
      intro _
      obtain ⟨s, r, _, h2, h3⟩ := all_open n n (Nat.le_refl _)
      exact ⟨s, r, h2, fun t => by simp [h3]⟩
    | succ k ih =>
      intro hk
      obtain ⟨s, r, h2, h3⟩ := ih (by omega)
      have hi : s.pc k = .open_ := by
        have : k < n := by omega
        simp [h3, this]
      refine ⟨_, .step r (.net s k true hi) ?_, by simp [h2], fun t => ?_⟩
      · intro t ht
        have h' : t ≠ k := by omega
        have h'' : ¬ t < k := by omega
        have h4 : ¬ t < n := by omega
        simp [upd, h', h3, h'', h4]
      · by_cases e : t = k
        · subst e; simp [upd]
        · have : (t < k + 1) ↔ t < k := by omega
          simp [upd, e, h3, this]
  obtain ⟨s, r, h, _⟩ := key n (Nat.le_refl _)
  exact ⟨s, r, h⟩

example : ∃ s, CC.Run CC.init s ∧ s.netOk = 1000 := by
  obtain ⟨s, r, h⟩ := C76_many_fails 1000
  exact ⟨s, closersRun_run r, h⟩

example : ∃ s, ClosersRun 2 CC.init s ∧ s.netOk = 2 ∧ s.netOk ≤ 2 := by
  obtain ⟨s, r, h⟩ := C76_many_fails 2
  exact ⟨s, r, h, C76_bound_partial 2 r⟩

end Verif.Props
