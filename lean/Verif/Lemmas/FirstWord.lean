import Verif.Spec.FirstWord
import Verif.Lemmas.Dml
import Verif.Lemmas.LexText
/-! Every statement is made from tokens that begin with its verb. -/
namespace Verif.Lemmas
open Verif Verif.Lex Verif.Gram Verif.Query Verif.Visit Verif.Util Verif.Spec

theorem first_cons {K : List Tok} {ts : List Token} (h : FirstIn K ts) (hn : ts ≠ []) : ∃ x post, ts = x :: post ∧ x.kind ∈ K := by
  cases ts with
  | nil => exact absurd rfl hn
  | cons x post => exact ⟨x, post, rfl, h x post rfl⟩

theorem with_nil : WithTokens [] := ⟨.nil _, walk_balanced rfl⟩

/-- A verb and no object. -/
theorem says_verb {own : List Token} {s : Statement} (K : List Tok) (h : FirstIn K own) (hn : own ≠ [])
    (hv : (verbs s).map (·.1) = K) (ho : objectWord s = none) : SaysVerb own s := by
  obtain ⟨x, post, rfl, hx⟩ := first_cons h hn
  exact ⟨[], x, post, rfl, with_nil, fun h => absurd rfl h, hv ▸ hx, fun o ms h => by rw [ho] at h; cases h⟩

/-- A WITH clause, a verb and no object. -/
theorem says_with {wth own : List Token} {s : Statement} (K : List Tok) (hw : WithTokens wth) (h : FirstIn K own) (hn : own ≠ [])
    (hm : mayHaveWith s = true) (hv : (verbs s).map (·.1) = K) (ho : objectWord s = none) : SaysVerb (wth ++ own) s := by
  obtain ⟨x, post, rfl, hx⟩ := first_cons h hn
  exact ⟨wth, x, post, rfl, hw, fun _ => hm, hv ▸ hx, fun o ms h => by rw [ho] at h; cases h⟩

/-- A verb and an object. -/
theorem says_object {x y : Token} {mid post : List Token} {s : Statement} {o : Tok} {ms : List Tok}
    (hv : x.kind ∈ (verbs s).map (·.1)) (ho : objectWord s = some (o, ms)) (hy : y.kind = o) (hl : mid.length ≤ 1)
    (hm : ∀ t, t ∈ mid → t.kind ∈ ms) : SaysVerb (x :: (mid ++ y :: post)) s :=
  ⟨[], x, _, rfl, with_nil, fun h => absurd rfl h, hv, fun o' ms' h => by
    rw [ho] at h; cases h
    exact ⟨mid, y, post, rfl, hy, hl, hm⟩⟩

/-- Rules of the form verb, object, rest. -/
theorem two_words {k o : Tok} {e : Elem} {ts us : List Token} {l : List Tree} (h : Derives (.seq (.tok k) (.seq (.tok o) e)) ts l us) :
    ∃ x y post, leavesAll l = x :: ([] ++ y :: post) ∧ x.kind = k ∧ y.kind = o := by
  obtain ⟨l1, m1, _, rfl, h1, k1⟩ := seq_inv h
  obtain ⟨l2, m2, _, rfl, h2, k2⟩ := seq_inv k1
  obtain ⟨x, rfl, hx⟩ := tok_inv h1
  obtain ⟨y, rfl, hy⟩ := tok_inv h2
  exact ⟨x, y, leavesAll m2, by simp [leavesAll, Tree.leaves], hx, hy⟩

/-- Rules of the form verb, an optional word, object, rest. -/
theorem three_words {k o : Tok} {ms : List Tok} {a e : Elem} {ts us : List Token} {l : List Tree} (ha : oneTok ms a = true)
    (h : Derives (.seq (.tok k) (.seq (.opt a) (.seq (.tok o) e))) ts l us) :
    ∃ x mid y post, leavesAll l = x :: (mid ++ y :: post) ∧ x.kind = k ∧ y.kind = o ∧ mid.length ≤ 1 ∧ ∀ t, t ∈ mid → t.kind ∈ ms := by
  obtain ⟨l1, m1, _, rfl, h1, k1⟩ := seq_inv h
  obtain ⟨l2, m2, _, rfl, h2, k2⟩ := seq_inv k1
  obtain ⟨l3, m3, _, rfl, h3, k3⟩ := seq_inv k2
  obtain ⟨x, rfl, hx⟩ := tok_inv h1
  obtain ⟨y, rfl, hy⟩ := tok_inv h3
  rcases opt_inv h2 with rfl | h2
  · exact ⟨x, [], y, leavesAll m3, by simp [leavesAll, Tree.leaves], hx, hy, by simp, fun t h => by cases h⟩
  · obtain ⟨z, rfl, hz⟩ := oneTok_sound h2 ha
    exact ⟨x, [z], y, leavesAll m3, by simp [leavesAll, Tree.leaves], hx, hy, by simp, fun t h => by
      rw [List.mem_singleton] at h; subst h; exact hz⟩

theorem handler_says_verb (toUint : Str → Option Nat) : Handles toUint SaysVerb := by
  intro r f hm cs hs s hf
  have hk := handlers_gives toUint hm _ s hf
  have hr : r ≠ .expr := by
    rintro rfl
    simp [handlers] at hm
  obtain ⟨ts, us, hd⟩ := hs.derives hr
  clear hm hf hs
  rw [Tree.leaves]
  subst hk
  cases s with
  | createDatabase =>
    obtain ⟨x, y, post, e, hx, hy⟩ := two_words hd
    rw [e]; exact says_object (by simp [verbs, hx]) rfl hy (by simp) (fun t h => by cases h)
  | dropDatabase =>
    obtain ⟨x, y, post, e, hx, hy⟩ := two_words hd
    rw [e]; exact says_object (by simp [verbs, hx]) rfl hy (by simp) (fun t h => by cases h)
  | dropTable =>
    obtain ⟨x, y, post, e, hx, hy⟩ := two_words hd
    rw [e]; exact says_object (by simp [verbs, hx]) rfl hy (by simp) (fun t h => by cases h)
  | dropIndex =>
    obtain ⟨x, y, post, e, hx, hy⟩ := two_words hd
    rw [e]; exact says_object (by simp [verbs, hx]) rfl hy (by simp) (fun t h => by cases h)
  | alterDatabase =>
    obtain ⟨x, y, post, e, hx, hy⟩ := two_words hd
    rw [e]; exact says_object (by simp [verbs, hx]) rfl hy (by simp) (fun t h => by cases h)
  | alterTable =>
    obtain ⟨x, y, post, e, hx, hy⟩ := two_words hd
    rw [e]; exact says_object (by simp [verbs, hx]) rfl hy (by simp) (fun t h => by cases h)
  | createTable =>
    obtain ⟨x, mid, y, post, e, hx, hy, hl, hm⟩ := three_words (ms := [.TEMP_, .TEMPORARY_]) (by decide) hd
    rw [e]; exact says_object (by simp [verbs, hx]) rfl hy hl hm
  | createIndex =>
    obtain ⟨x, mid, y, post, e, hx, hy, hl, hm⟩ := three_words (ms := [.UNIQUE_]) (by decide) hd
    rw [e]; exact says_object (by simp [verbs, hx]) rfl hy hl hm
  | insert =>
    obtain ⟨l1, m1, _, rfl, h1, k1⟩ := seq_inv hd
    rw [leavesAll_append]
    exact says_with [.INSERT_, .REPLACE_] (with_tokens h1 (by decide) (by decide))
      (begins_sound (R := []) (by decide) (by decide) k1 (by decide)) (eats_sound (R := []) (by decide) k1 (by decide)) rfl rfl rfl
  | update =>
    obtain ⟨l1, m1, _, rfl, h1, k1⟩ := seq_inv hd
    rw [leavesAll_append]
    exact says_with [.UPDATE_] (with_tokens h1 (by decide) (by decide))
      (begins_sound (R := []) (by decide) (by decide) k1 (by decide)) (eats_sound (R := []) (by decide) k1 (by decide)) rfl rfl rfl
  | delete =>
    obtain ⟨l1, m1, _, rfl, h1, k1⟩ := seq_inv hd
    rw [leavesAll_append]
    exact says_with [.DELETE_] (with_tokens h1 (by decide) (by decide))
      (begins_sound (R := []) (by decide) (by decide) k1 (by decide)) (eats_sound (R := []) (by decide) k1 (by decide)) rfl rfl rfl
  | select =>
    obtain ⟨l1, m1, _, rfl, h1, k1⟩ := seq_inv hd
    rw [leavesAll_append]
    refine says_with [.SELECT_, .VALUES_] ⟨begins_sound (K := [.WITH_]) (R := [.common_table_stmt]) (by decide) (by decide) h1 (by decide),
        walk_balanced (level_sound h1 0 0 (by decide))⟩
      (begins_sound (R := [.select_core, .values_clause]) (by decide) (by decide) k1 (by decide)) (eats_sound (R := [.select_core, .values_clause]) (by decide) k1 (by decide)) rfl rfl rfl
  | commit =>
    exact says_verb [.COMMIT_, .END_] (begins_sound (R := []) (by decide) (by decide) hd (by decide)) (eats_sound (R := []) (by decide) hd (by decide)) rfl rfl
  | copy =>
    have hd : Derives (body .copy_stmt) ts cs us := hd
    exact says_verb [.COPY_] (begins_sound (R := []) (by decide) (by decide) hd (by decide)) (eats_sound (R := []) (by decide) hd (by decide)) rfl rfl
  | vacuum =>
    have hd : Derives (body .vacuum_stmt) ts cs us := hd
    exact says_verb [.VACUUM_] (begins_sound (R := []) (by decide) (by decide) hd (by decide)) (eats_sound (R := []) (by decide) hd (by decide)) rfl rfl
  | truncate =>
    have hd : Derives (body .truncate_stmt) ts cs us := hd
    exact says_verb [.TRUNCATE_] (begins_sound (R := []) (by decide) (by decide) hd (by decide)) (eats_sound (R := []) (by decide) hd (by decide)) rfl rfl
  | begin =>
    exact says_verb [.BEGIN_] (begins_sound (R := []) (by decide) (by decide) hd (by decide)) (eats_sound (R := []) (by decide) hd (by decide)) rfl rfl
  | rollback =>
    exact says_verb [.ROLLBACK_] (begins_sound (R := []) (by decide) (by decide) hd (by decide)) (eats_sound (R := []) (by decide) hd (by decide)) rfl rfl
  | use =>
    have hd : Derives (body .use_stmt) ts cs us := hd
    exact says_verb [.USE_] (begins_sound (R := []) (by decide) (by decide) hd (by decide)) (eats_sound (R := []) (by decide) hd (by decide)) rfl rfl

end Verif.Lemmas
