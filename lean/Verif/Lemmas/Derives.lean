import Verif.Lemmas.Parser
import Verif.Spec.Grammar
/-! The parser finds exactly the trees the grammar derives. -/
namespace Verif.Gram
open Verif Verif.Lex Verif.Spec

theorem one_derives {f : Tok → Bool} {ts : List Token} {p : PRes} (h : p ∈ one f ts) :
    ∃ x r, ts = x :: r ∧ f x.kind = true ∧ p = ([.leaf x], r) := by
  cases ts with
  | nil => simp [one] at h
  | cons x r =>
    simp only [one] at h
    split at h
    · rename_i hf
      exact ⟨x, r, rfl, hf, List.mem_singleton.mp h⟩
    · simp at h

theorem runs_derives : ∀ n e ts l, runs n e ts = some l → ∀ p ∈ l, Derives e ts p.1 p.2 := by
  intro n
  induction n with
  | zero => intro e ts l h; simp [runs] at h
  | succ n ih =>
    intro e ts l h p hp
    cases e with
    | eps =>
      simp only [runs, Option.some.injEq] at h
      rw [← h, List.mem_singleton] at hp
      rw [hp]; exact .eps ts
    | tok t =>
      simp only [runs, Option.some.injEq] at h
      rw [← h] at hp
      obtain ⟨x, r, rfl, hx, rfl⟩ := one_derives hp
      obtain rfl := of_decide_eq_true hx
      exact .tok x r
    | set f =>
      simp only [runs, Option.some.injEq] at h
      rw [← h] at hp
      obtain ⟨x, r, rfl, hx, rfl⟩ := one_derives hp
      exact .set f x r hx
    | eof =>
      simp only [runs, Option.some.injEq] at h
      rw [← h] at hp
      split at hp
      · rename_i he
        rw [List.mem_singleton] at hp; rw [hp]
        rw [List.isEmpty_iff] at he
        rw [he]; exact .eof
      · simp at hp
    | seq a b =>
      rw [runs] at h
      obtain ⟨x, hx, h⟩ := Option.bind_eq_some_iff.mp h
      obtain ⟨q, hq, y, hy, hpy⟩ := bindAll_mem h p hp
      obtain ⟨z, hz, rfl⟩ := Option.map_eq_some_iff.mp hy
      obtain ⟨w, hw, rfl⟩ := List.mem_map.mp hpy
      exact .seq (ih a ts x hx q hq) (ih b q.2 z hz w hw)
    | alt a b =>
      rw [runs] at h
      obtain ⟨x, hx, h⟩ := Option.bind_eq_some_iff.mp h
      obtain ⟨y, hy, rfl⟩ := Option.map_eq_some_iff.mp h
      rcases List.mem_append.mp hp with hp | hp
      · exact .altLeft (ih a ts x hx p hp)
      · exact .altRight (ih b ts y hy p hp)
    | star a =>
      rw [runs] at h
      obtain ⟨x, hx, h⟩ := Option.bind_eq_some_iff.mp h
      obtain ⟨y, hy, rfl⟩ := Option.map_eq_some_iff.mp h
      rcases List.mem_append.mp hp with hp | hp
      · obtain ⟨q, hq, u, hu, hpu⟩ := bindAll_mem hy p hp
        obtain ⟨z, hz, rfl⟩ := Option.map_eq_some_iff.mp hu
        obtain ⟨w, hw, rfl⟩ := List.mem_map.mp hpu
        exact .starCons (ih a ts x hx q hq) (ih (.star a) q.2 z hz w hw)
      · rw [List.mem_singleton] at hp; rw [hp]; exact .starNil a ts
    | nstar a =>
      rw [runs] at h
      obtain ⟨x, hx, h⟩ := Option.bind_eq_some_iff.mp h
      obtain ⟨y, hy, rfl⟩ := Option.map_eq_some_iff.mp h
      rcases List.mem_cons.mp hp with hp | hp
      · rw [hp]; exact .nstarNil a ts
      · obtain ⟨q, hq, u, hu, hpu⟩ := bindAll_mem hy p hp
        obtain ⟨z, hz, rfl⟩ := Option.map_eq_some_iff.mp hu
        obtain ⟨w, hw, rfl⟩ := List.mem_map.mp hpu
        exact .nstarCons (ih a ts x hx q hq) (ih (.nstar a) q.2 z hz w hw)
    | lab k a =>
      rw [runs] at h
      obtain ⟨x, hx, rfl⟩ := Option.map_eq_some_iff.mp h
      obtain ⟨w, hw, rfl⟩ := List.mem_map.mp hp
      exact .lab k (ih a ts x hx w hw)
    | nt r =>
      rw [runs] at h
      obtain ⟨x, hx, rfl⟩ := Option.map_eq_some_iff.mp h
      obtain ⟨w, hw, rfl⟩ := List.mem_map.mp hp
      exact .nt r (ih (body r) ts x hx w hw)
    | expr k =>
      rw [runs] at h
      obtain ⟨x, hx, rfl⟩ := Option.map_eq_some_iff.mp h
      obtain ⟨w, hw, rfl⟩ := List.mem_map.mp hp
      exact .expr k (ih (exprBody k) ts x hx w hw)
    | seg a =>
      rw [runs] at h
      obtain ⟨x, hx, rfl⟩ := Option.map_eq_some_iff.mp h
      obtain ⟨w, hw, rfl⟩ := List.mem_map.mp hp
      exact .seg (ih a ts x hx w hw)

theorem mem_after {l : List PRes} {f : List Token → List PRes} {x y : List Tree} {us vs : List Token}
    (h : (x, us) ∈ l) (k : (y, vs) ∈ f us) : (x ++ y, vs) ∈ after l f :=
  List.mem_flatMap.mpr ⟨(x, us), h, List.mem_map.mpr ⟨(y, vs), k, rfl⟩⟩

theorem derives_parses {e : Elem} {ts us : List Token} {l : List Tree} (h : Derives e ts l us) :
    Proper e → (l, us) ∈ parses e ts := by
  induction h with
  | eps ts => intro _; rw [parses_eps]; simp
  | tok x r => intro _; rw [parses_tok]; simp [one]
  | set f x r h => intro _; rw [parses_set]; simp [one, h]
  | eof => intro _; rw [parses_eof]; simp
  | seq h k ih ik =>
    intro hp
    rw [parses_seq hp]
    exact mem_after (ih (proper_seq hp).1) (ik (proper_seq hp).2)
  | altLeft h ih => intro hp; rw [parses_alt hp]; exact List.mem_append_left _ (ih (proper_alt hp).1)
  | altRight h ih => intro hp; rw [parses_alt hp]; exact List.mem_append_right _ (ih (proper_alt hp).2)
  | starNil a ts => intro hp; rw [parses_star hp]; simp
  | starCons h k ih ik =>
    intro hp
    rw [parses_star hp]
    exact List.mem_append_left _ (mem_after (ih (proper_star hp)) (ik hp))
  | nstarNil a ts => intro hp; rw [parses_nstar hp]; simp
  | nstarCons h k ih ik =>
    intro hp
    rw [parses_nstar hp]
    exact List.mem_cons_of_mem _ (mem_after (ih (proper_nstar hp)) (ik hp))
  | lab q h ih =>
    intro hp; rw [parses_lab hp]
    exact List.mem_map.mpr ⟨_, ih (proper_lab hp), rfl⟩
  | nt r h ih =>
    intro _; rw [parses_nt]
    exact List.mem_map.mpr ⟨_, ih (proper_body r), rfl⟩
  | expr p h ih =>
    intro _; rw [parses_expr]
    exact List.mem_map.mpr ⟨_, ih (proper_exprBody p), rfl⟩
  | seg h ih =>
    intro hp; rw [parses_seg hp]
    exact List.mem_map.mpr ⟨_, ih (proper_seg hp), rfl⟩

/-- The parser finds exactly the trees the grammar derives. -/
theorem mem_parses {e : Elem} (he : Proper e) {ts us : List Token} {l : List Tree} :
    (l, us) ∈ parses e ts ↔ Derives e ts l us :=
  ⟨fun h => runs_derives _ e ts _ (runs_parses e he ts) _ h, fun h => derives_parses h he⟩

theorem proper_nt (r : Rule) : Proper (.nt r) := ⟨rfl, by simp [height]⟩

/-- The start rule uses all tokens. -/
theorem derives_parse_rest {ts us : List Token} {l : List Tree} (h : Derives (.nt .parse) ts l us) :
    us = [] ∧ ∃ t, l = [t] := by
  cases h with
  | nt r h =>
    refine ⟨?_, _, rfl⟩
    have h' : Derives (.star (.nt .sql_stmt_list) ⬝ .eof) ts _ us := h
    cases h' with
    | seq _ k => cases k; rfl

theorem parseTree_derives {ts : List Token} {t : Tree} (h : parseTree ts = some t) :
    Derives (.nt .parse) ts [t] [] := by
  rw [parseTree] at h
  split at h
  · rename_i x us l heq
    have hm : ([x], us) ∈ parses (.nt .parse) ts := by rw [heq]; simp
    have hd := (mem_parses (proper_nt _)).mp hm
    obtain ⟨rfl, -⟩ := derives_parse_rest hd
    rw [← Option.some.inj h]; exact hd
  · simp at h

theorem parseTree_isSome {ts : List Token} : (∃ t, parseTree ts = some t) ↔ Query ts := by
  constructor
  · rintro ⟨t, h⟩; exact ⟨t, parseTree_derives h⟩
  · rintro ⟨t, h⟩
    have hm := (mem_parses (proper_nt _)).mpr h
    rw [parseTree]
    cases hl : parses (.nt .parse) ts with
    | nil => rw [hl] at hm; simp at hm
    | cons p l =>
      have hp : p ∈ parses (.nt .parse) ts := by rw [hl]; simp
      obtain ⟨-, x, hx⟩ := derives_parse_rest ((mem_parses (proper_nt _)).mp (show (p.1, p.2) ∈ _ from hp))
      obtain ⟨a, b⟩ := p
      obtain rfl : a = [x] := hx
      exact ⟨x, rfl⟩

end Verif.Gram
