import Verif.Lemmas.Shape
import Verif.Spec.Dml
/-! Tokens outside of parentheses, and the parts of lists with commas. -/
namespace Verif.Gram
open Verif Verif.Lex Verif.Spec

/-- No token of the kinds `K` at depth 0 when the depth is `d` before. -/
def Clear (K : List Tok) (d : Nat) (ts : List Token) : Prop :=
  ∀ p t s, ts = p ++ t :: s → walk d p = some 0 → t.kind ∉ K

theorem Clear.nil (K : List Tok) (d : Nat) : Clear K d [] := by
  intro p t s h; cases p <;> cases h

theorem Clear.one {K : List Tok} {d : Nat} {x : Token} (h : d = 0 → x.kind ∉ K) : Clear K d [x] := by
  intro p t s hp hw
  cases p with
  | nil => cases hp; cases hw; exact h rfl
  | cons y p => cases p <;> cases hp

theorem Clear.append {K : List Tok} {d m : Nat} {a b : List Token} (ha : Clear K d a) (hw : walk d a = some m) (hb : Clear K m b) :
    Clear K d (a ++ b) := by
  intro p t s hp h0
  rcases List.append_eq_append_iff.mp hp with ⟨c, rfl, hc⟩ | ⟨c, rfl, hc⟩
  · refine hb c t s hc ?_
    rw [walk_append, hw] at h0
    exact h0
  · cases c with
    | nil =>
      rw [List.append_nil] at hw
      rw [hw] at h0
      cases h0
      exact hb [] t s hc.symm rfl
    | cons x c =>
      cases hc
      exact ha p t c rfl h0

theorem Clear.deep {K : List Tok} {d : Nat} (hd : d ≠ 0) {a : List Token} {m : Nat} (h : walk 0 a = some m) : Clear K d a := by
  rintro p t s rfl h0
  rw [walk_append] at h
  cases hp : walk 0 p with
  | none => rw [hp] at h; cases h
  | some k =>
    have := walk_shift d 0 k p hp
    rw [Nat.zero_add, h0] at this
    exfalso
    have e : 0 = k + d := Option.some.inj this
    omega

/-- No token of the kinds `K` outside of parentheses in the part, given that there is none in the rules `Q` and in expressions. -/
def top (K : List Tok) (Q : List Rule) : Elem → Nat → Bool
  | .tok t, d => d != 0 || !K.contains t
  | .set f, d => d != 0 || K.all (fun k => !f k)
  | .seq a b, d => top K Q a d && ((level a d).map (top K Q b)).getD false
  | .alt a b, d => top K Q a d && top K Q b d
  | .star a, d | .nstar a, d | .lab _ a, d | .seg a, d => top K Q a d
  | .nt r, d => d != 0 || Q.contains r
  | .eps, _ | .eof, _ | .expr _, _ => true

theorem top_suffix {K : List Tok} {Q : List Rule} (l : List (Nat × Elem)) (h : ∀ s, s ∈ l → top K Q s.2 0 = true) :
    top K Q (l.foldr (fun s e => .seg s.2 ∣ e) (.set (fun _ => false))) 0 = true := by
  induction l with
  | nil => simp [top]
  | cons s l ih =>
    simp only [List.foldr_cons, top, Bool.and_eq_true]
    exact ⟨h s (List.mem_cons_self ..), ih fun x hx => h x (List.mem_cons_of_mem _ hx)⟩

theorem top_sound {K : List Tok} {Q : List Rule} (hQ : Q.all (fun r => top K Q (body r) 0) = true) (hp : top K Q primary 0 = true)
    (hs : suffixes.all (fun s => top K Q s.2 0) = true) {e : Elem} {ts us : List Token} {l : List Tree} (h : Derives e ts l us) :
    ∀ d d', level e d = some d' → top K Q e d = true → Clear K d (leavesAll l) := by
  induction h with
  | eps | eof | starNil | nstarNil => intro d d' h _; rw [leavesAll]; exact .nil K d
  | tok x r =>
    intro d d' _ ht
    rw [leavesAll_one, Tree.leaves]
    exact .one fun hd => by subst hd; simpa [top] using ht
  | set f x r hf =>
    intro d d' _ ht
    rw [leavesAll_one, Tree.leaves]
    refine .one fun hd hk => ?_
    subst hd
    simp only [top, bne_self_eq_false, Bool.false_or, List.all_eq_true] at ht
    have := ht _ hk
    rw [hf] at this; cases this
  | seq h1 _ ih1 ih2 =>
    intro d d' hl ht
    rw [level] at hl
    obtain ⟨m, g1, g2⟩ := Option.bind_eq_some_iff.mp hl
    simp only [top, g1, Option.map_some, Option.getD_some, Bool.and_eq_true] at ht
    rw [leavesAll_append]
    exact (ih1 _ _ g1 ht.1).append (level_sound h1 _ _ g1) (ih2 _ _ g2 ht.2)
  | altLeft _ ih =>
    intro d d' hl ht
    simp only [top, Bool.and_eq_true] at ht
    rw [level] at hl
    split at hl
    · exact ih _ _ hl ht.1
    · cases hl
  | altRight _ ih =>
    intro d d' hl ht
    simp only [top, Bool.and_eq_true] at ht
    rw [level] at hl
    split at hl
    · rename_i he; exact ih _ _ (he ▸ hl) ht.2
    · cases hl
  | starCons h1 _ ih1 ih2 | nstarCons h1 _ ih1 ih2 =>
    intro d d' hl ht
    have hl' := hl
    rw [level] at hl
    split at hl
    · rename_i he
      rw [leavesAll_append]
      exact (ih1 _ _ he ht).append (level_sound h1 _ _ he) (ih2 _ _ hl' ht)
    · cases hl
  | lab q _ ih | seg _ ih => intro d d' hl ht; rw [leavesAll_one, Tree.leaves]; exact ih _ _ hl ht
  | nt r h ih =>
    intro d d' hl ht
    rw [leavesAll_one, Tree.leaves]
    by_cases hd : d = 0
    · subst hd
      have hr : r ∈ Q := by simpa [top] using ht
      exact ih 0 0 (level_body r) (List.all_eq_true.mp hQ r hr)
    · exact .deep hd (level_sound h 0 0 (level_body r))
  | expr p h ih =>
    intro d d' hl ht
    rw [exprBody_leaves h]
    by_cases hd : d = 0
    · subst hd
      refine ih 0 0 (level_expr p) ?_
      have h1 : level primary 0 = some 0 := by rfl
      simp only [exprBody, top, hp, h1, Option.map_some, Option.getD_some, Bool.true_and]
      exact top_suffix _ fun s hx => List.all_eq_true.mp hs s (List.mem_filter.mp hx).1
    · exact .deep hd (level_sound h 0 0 (level_expr p))

theorem walk_prefix {d m : Nat} {p s : List Token} (h : walk d (p ++ s) = some m) : ∃ k, walk d p = some k := by
  rw [walk_append] at h
  cases hp : walk d p with
  | none => rw [hp] at h; cases h
  | some k => exact ⟨k, rfl⟩

theorem clear_enclosed {k : Tok} {ts : List Token} (hw : walk 0 ts = some 0) (h : Clear [k] 0 ts) : Enclosed k ts := by
  rintro p t s rfl hk
  obtain ⟨m, hm⟩ := walk_prefix hw
  have := walk_count 0 m p hm
  cases m with
  | zero => exact absurd (by simp [hk]) (h p t s rfl hm)
  | succ m => omega

/-- The rules without commas outside of parentheses. -/
def commaRules : List Rule := [.literal_value, .arithmetic_expr, .bind_param, .system_var, .user_var, .schema_name, .table_name, .column_name,
  .unary_operator, .comparison_expr, .and_expr, .or_expr, .«function», .raise_function, .any_name, .keyword, .signed_number, .string_literal,
  .function_name, .filter_clause, .over_clause, .window_name, .collation_name, .table_function_name, .value_row, .update_column_set, .column_name_list,
  .result_column, .column_alias, .«from», .from_table, .from_function, .from_select, .from_table_or_subquery, .table_alias, .index_name,
  .ordering_term, .asc_desc, .column_def, .type_name, .«name», .column_constraint, .primary_key_constraint, .index_constraint, .conflict_clause,
  .foreign_key_clause, .foreign_table, .table_constraint, .primary_key_def, .unique_key_def, .indexed_column]

/-- A part with at least one token and no comma outside of parentheses. -/
theorem part_of {R : List Rule} (hR : R.all (fun r => feeds R (body r)) = true) (hp : feeds R primary = true) {e : Elem} {ts us : List Token}
    {l : List Tree} (h : Derives e ts l us) (hf : feeds R e = true) (hl : level e 0 = some 0) (ht : top [.COMMA] commaRules e 0 = true) :
    Part (leavesAll l) := by
  have hw := level_sound h 0 0 hl
  exact ⟨feeds_sound hR hp h hf, walk_balanced hw, clear_enclosed hw (top_sound (Q := commaRules) (by decide) (by decide) (by decide) h 0 0 hl ht)⟩

/-- Whether a list of tokens is a part, by walking through it. -/
def clearB (k : Tok) : Nat → List Token → Bool
  | _, [] => true
  | d, t :: r => (d != 0 || t.kind != k) &&
    (if t.kind = .OPEN_PAR then clearB k (d + 1) r
     else if t.kind = .CLOSE_PAR then (if d = 0 then false else clearB k (d - 1) r)
     else clearB k d r)

theorem clearB_sound {k : Tok} {d : Nat} {ts : List Token} (h : clearB k d ts = true) : Clear [k] d ts := by
  induction ts generalizing d with
  | nil => exact .nil _ d
  | cons t r ih =>
    rw [clearB, Bool.and_eq_true, Bool.or_eq_true] at h
    have h0 : Clear [k] d [t] := .one fun hd hk => by
      rcases h.1 with h | h
      · rw [hd] at h; cases h
      · rw [List.mem_singleton.mp hk] at h; simp at h
    have h2 := h.2
    have : t :: r = [t] ++ r := rfl
    rw [this]
    split at h2
    · rename_i ho; exact h0.append (by rw [walk, if_pos ho, walk]) (ih h2)
    · rename_i ho
      split at h2
      · rename_i hc
        split at h2
        · cases h2
        · rename_i hd; exact h0.append (by rw [walk, if_neg ho, if_pos hc, if_neg hd, walk]) (ih h2)
      · rename_i hc; exact h0.append (by rw [walk, if_neg ho, if_neg hc, walk]) (ih h2)

theorem clear_part {ts : List Token} (hw : walk 0 ts = some 0) (h : (!ts.isEmpty && clearB .COMMA 0 ts) = true) : Part ts := by
  rw [Bool.and_eq_true] at h
  refine ⟨?_, walk_balanced hw, clear_enclosed hw (clearB_sound h.2)⟩
  rintro rfl; cases h.1

end Verif.Gram

namespace Verif.Lemmas
open Verif Verif.Lex Verif.Gram Verif.Spec

theorem _root_.Verif.Spec.Sep.mono {α : Type} {P Q : List Token → α → Prop} (h : ∀ ts a, P ts a → Q ts a) {ts : List Token} {l : List α} (hs : Sep P ts l) :
    Sep Q ts l := by
  induction hs with
  | one ts a hc hp => exact .one ts a hc (h _ _ hp)
  | cons ts w rest a l hc hp hw _ ih => exact .cons ts w rest a l hc (h _ _ hp) hw ih

theorem _root_.Verif.Spec.Sep.map {α β : Type} {P : List Token → α → Prop} {Q : List Token → β → Prop} {f : α → β} (h : ∀ ts a, P ts a → Q ts (f a))
    {ts : List Token} {l : List α} (hs : Sep P ts l) : Sep Q ts (l.map f) := by
  induction hs with
  | one ts a hc hp => exact .one ts _ hc (h _ _ hp)
  | cons ts w rest a l hc hp hw _ ih => exact .cons ts w rest _ _ hc (h _ _ hp) hw ih

theorem _root_.Verif.Spec.Sep.all {α β : Type} {P : List Token → α → Prop} {Q : List Token → β → Prop} {f : α → Res β}
    (h : ∀ ts a, P ts a → (f a).Post (Q ts)) {ts : List Token} {l : List α} (hs : Sep P ts l) : (Res.all f l).Post (Sep Q ts) := by
  induction hs with
  | one ts a hc hp => exact (h _ _ hp).bind fun b hb => .ok (.one ts b hc hb)
  | cons ts w rest a l hc hp hw _ ih => exact (h _ _ hp).bind fun b hb => ih.bind fun bs hbs => .ok (.cons ts w rest b bs hc hb hw hbs)

theorem part_unique {a b : List Token} {w v : Token} {r s : List Token} (ha : Part a) (hb : Part b) (hw : w.kind = .COMMA) (hv : v.kind = .COMMA)
    (h : a ++ w :: r = b ++ v :: s) : a = b ∧ r = s := by
  have key : ∀ {a c : List Token} {w v : Token} {r s : List Token}, Part a → Part (a ++ c) → w.kind = .COMMA → w :: r = c ++ v :: s → c = [] := by
    intro a c w v r s ha hb hw h
    cases c with
    | nil => rfl
    | cons x c =>
      cases h
      have := hb.2.2 a w c rfl hw
      have := ha.2.1.1
      omega
  rcases List.append_eq_append_iff.mp h with ⟨c, rfl, hc⟩ | ⟨c, rfl, hc⟩
  · have := key ha hb hw hc
    subst this
    cases hc
    exact ⟨by simp, rfl⟩
  · have := key hb ha hv hc
    subst this
    cases hc
    exact ⟨by simp, rfl⟩

theorem part_no_comma {a b : List Token} {w : Token} {r : List Token} (ha : Part a) (hb : Part b) (hw : w.kind = .COMMA) : b ≠ a ++ w :: r := by
  rintro rfl
  have := hb.2.2 a w r rfl hw
  have := ha.2.1.1
  omega

/-- Tokens have at most one division into parts. -/
theorem _root_.Verif.Spec.Sep.unique {α β : Type} {P : List Token → α → Prop} {Q : List Token → β → Prop} {ts : List Token} {l : List α} {m : List β}
    (h : Sep P ts l) (k : Sep Q ts m) : l.length = m.length ∧ Sep (fun ts p => P ts p.1 ∧ Q ts p.2) ts (l.zip m) := by
  induction h generalizing m with
  | one ts a hc hp =>
    cases k with
    | one _ b _ hq => exact ⟨rfl, .one _ _ hc ⟨hp, hq⟩⟩
    | cons ts' w rest b m hc' hq hw hr => exact absurd rfl (part_no_comma hc' hc hw)
  | cons ts w rest a l hc hp hw hr ih =>
    generalize hts : ts ++ w :: rest = u at k
    cases k with
    | one _ b hc' hq => exact absurd hts.symm (part_no_comma hc hc' hw)
    | cons ts' w' rest' b m hc' hq hw' hr' =>
      obtain ⟨rfl, rfl⟩ := part_unique hc hc' hw hw' hts
      have hww : w = w' := by
        have := List.append_cancel_left hts
        cases this; rfl
      subst hww
      obtain ⟨h1, h2⟩ := ih hr'
      exact ⟨by simp [h1], .cons _ w _ _ _ hc ⟨hp, hq⟩ hw h2⟩

theorem _root_.Verif.Spec.Sep.mem {α : Type} {P : List Token → α → Prop} {ts : List Token} {l : List α} (h : Sep P ts l) : ∀ a, a ∈ l → ∃ us, P us a := by
  induction h with
  | one ts a _ hp => intro b hb; rw [List.mem_singleton.mp hb]; exact ⟨ts, hp⟩
  | cons ts w rest a l _ hp _ _ ih =>
    intro b hb
    rcases List.mem_cons.mp hb with rfl | hb
    · exact ⟨ts, hp⟩
    · exact ih b hb

theorem zip_eq_map {α β : Type} {f : β → α} {l : List α} {m : List β} (hl : l.length = m.length) (h : ∀ p, p ∈ l.zip m → p.1 = f p.2) : l = m.map f := by
  induction l generalizing m with
  | nil => cases m with
    | nil => rfl
    | cons => cases hl
  | cons a l ih => cases m with
    | nil => cases hl
    | cons b m =>
      rw [List.map_cons, ← h (a, b) (by simp), ← ih (by simpa using hl) fun p hp => h p (by simp [hp])]

theorem item_number {b : Token} {it : Item} (h : ItemTokens [b] it) (hk : b.kind ∈ [Tok.NUMERIC_LITERAL, .BLOB_LITERAL, .BIND_PARAMETER]) :
    it = .value { v := .str b.text } := by
  cases h with
  | lit _ h =>
    cases h with
    | str t a v c hs => rw [hs] at hk; exact absurd hk (by decide)
    | other _ h => simp [textOf]
  | named op n l h =>
    obtain ⟨n, o, l, op, lit, he, hn, -, -, -, hl, -⟩ := h
    exfalso
    cases n with
    | nil => exact hn rfl
    | cons x n => cases n <;> cases he
  | other h => exact absurd hk (h b rfl)

end Verif.Lemmas
