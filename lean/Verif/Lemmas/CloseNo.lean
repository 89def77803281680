import Verif.Lemmas.Shape
import Verif.Lemmas.Prefer
import Verif.Lemmas.MoreNo
/-! A closing parenthesis ends the same part in all readings of a query. -/
namespace Verif.Gram
open Verif Verif.Lex Verif.Spec

variable {β : Type} {k : List Token → Option β} {sp : Spelling} {x : Token} {r : List Token}

theorem walk_some (a : List Token) : ∀ d, (∀ p s, a = p ++ s → countKind .CLOSE_PAR p ≤ d + countKind .OPEN_PAR p) → ∃ d', walk d a = some d' := by
  induction a with
  | nil => exact fun d _ => ⟨d, rfl⟩
  | cons t a ih =>
    intro d h
    have e1 : ∀ k p, countKind k (t :: p) = (if t.kind = k then 1 else 0) + countKind k p := by
      intro k p; simp only [countKind, List.filter_cons]; split <;> simp_all; omega
    rw [walk]
    split
    · rename_i hk
      refine ih _ (fun p s e => ?_)
      have := h (t :: p) s (by rw [e]; rfl)
      rw [e1, e1, if_pos hk, if_neg (by rw [hk]; decide)] at this
      omega
    · rename_i hk
      split
      · rename_i hc
        have h1 := h [t] a rfl
        rw [e1, e1, if_pos hc, if_neg hk] at h1
        simp only [countKind, List.filter_nil, List.length_nil] at h1
        rw [if_neg (by omega)]
        refine ih _ (fun p s e => ?_)
        have := h (t :: p) s (by rw [e]; rfl)
        rw [e1, e1, if_neg hk, if_pos hc] at this
        omega
      · rename_i hc
        refine ih _ (fun p s e => ?_)
        have := h (t :: p) s (by rw [e]; rfl)
        rw [e1, e1, if_neg hk, if_neg hc] at this
        omega

theorem balanced_walk {a : List Token} (h : Balanced a) : walk 0 a = some 0 := by
  obtain ⟨d, hd⟩ := walk_some a 0 (fun p s e => by have := h.2 p s e; omega)
  have := walk_count 0 d a hd
  have h1 := h.1
  rw [hd]
  congr
  omega

theorem close_unique {a b u v : List Token} {c e : Token} (ha : walk 0 a = some 0) (hb : walk 0 b = some 0) (hc : c.kind = .CLOSE_PAR)
    (he : e.kind = .CLOSE_PAR) (h : a ++ c :: u = b ++ e :: v) : u = v := by
  have key : ∀ {a b : List Token} {c : Token}, c.kind = .CLOSE_PAR → walk 0 a = some 0 → walk 0 (a ++ c :: b) = none := by
    intro a b c hc ha
    rw [walk_append, ha]
    simp [walk, hc]
  rcases List.append_eq_append_iff.mp h with ⟨x, h1, h2⟩ | ⟨x, h1, h2⟩
  · cases x with
    | nil => injection h2
    | cons y x =>
      injection h2 with h2 h3
      subst h2
      rw [h1, key hc ha] at hb
      cases hb
  · cases x with
    | nil => injection h2 with _ h2; exact h2.symm
    | cons y x =>
      injection h2 with h2 h3
      subst h2
      rw [h1, key he hb] at ha
      cases ha

/-- Three parts, a closing parenthesis and a rest are not parsed if the rest is not parsed after the matching parenthesis. -/
theorem close_no {a b c e : Elem} {body us : List Token} (ha : level a 0 = some 0) (hb : level b 0 = some 0) (hc : level c 0 = some 0)
    (hw : walk 0 body = some 0) (hn : No e k us) (hp : Proper (a ⬝ b ⬝ c ⬝ .tok .CLOSE_PAR ⬝ e) := by proper)
    (he : Proper e := by proper) : No (a ⬝ b ⬝ c ⬝ .tok .CLOSE_PAR ⬝ e) k (body ++ kw sp .CLOSE_PAR :: us) := by
  rw [No]
  cases hr : best (a ⬝ b ⬝ c ⬝ .tok .CLOSE_PAR ⬝ e) k (body ++ kw sp .CLOSE_PAR :: us) with
  | none => rfl
  | some y =>
    obtain ⟨y, v⟩ := y
    obtain ⟨vs, hk, hm, -⟩ := best_only hr
    have hd := (mem_parses hp).mp hm
    obtain ⟨l1, m1, u1, -, d1, hd⟩ := seq_inv hd
    obtain ⟨l2, m2, u2, -, d2, hd⟩ := seq_inv hd
    obtain ⟨l3, m3, u3, -, d3, hd⟩ := seq_inv hd
    obtain ⟨l4, m4, u4, -, d4, d5⟩ := seq_inv hd
    obtain ⟨z, rfl, hz⟩ := tok_inv d4
    have e4 := derives_leaves d4
    have e1 : body ++ kw sp .CLOSE_PAR :: us = (leavesAll l1 ++ (leavesAll l2 ++ leavesAll l3)) ++ z :: u4 := by
      rw [derives_leaves d1, derives_leaves d2, derives_leaves d3, e4]
      simp [leavesAll, Tree.leaves]
    have hw' : walk 0 (leavesAll l1 ++ (leavesAll l2 ++ leavesAll l3)) = some 0 := by
      rw [walk_append, level_sound d1 0 0 ha, Option.bind_some, walk_append, level_sound d2 0 0 hb, Option.bind_some, level_sound d3 0 0 hc]
    have := close_unique hw hw' rfl hz e1
    subst this
    have hm' := (mem_parses he).mpr d5
    rw [No, best, List.findSome?_eq_none_iff] at hn
    have := hn _ hm'
    simp [hk] at this

/-- A CREATE TABLE with whatever in its parentheses that is followed by a token with which it does not go on. -/
theorem create_table_more (b : Bool) (n : Str) {body : List Token} (hw : walk 0 body = some 0) (h1 : x.kind ≠ .WITHOUT_) (h2 : x.kind ≠ .WITH_)
    (h3 : x.kind ≠ .ENGINE_) (hk : k (x :: r) = none) :
    No (.nt .sql_stmt) k (kw sp .CREATE_ :: kw sp .TABLE_ :: (ineToks sp b ++ (ident n :: kw sp .OPEN_PAR :: (body ++ kw sp .CLOSE_PAR :: x :: r)))) := by
  refine No.nt (No.seq (No.optOff (S := [.CREATE_]) Heads.kw ?_))
  iterate 6 refine No.alt (No.at (t := .CREATE_) rfl) ?_
  refine No.alt No.empty (No.alt No.empty (No.alt ?_ (No.alt No.empty (No.alt No.empty (No.alt No.empty (No.at (t := .CREATE_) rfl))))))
  refine No.nt (No.seq (No.tok rfl (No.seq (No.optOff (S := [.TABLE_]) Heads.kw (No.seq (No.tok rfl (ine_no b Heads.ident ?_ ?_)))))))
  · refine No.seq (No.opt (schemaNe n (by rintro y s ⟨⟩; simp [kw])) (No.seq (No.exact (table_runs n) (No.alt (No.seq (No.tok rfl ?_)) (No.seq (No.at rfl))))))
    refine close_no rfl rfl rfl hw ?_
    refine No.opt (No.alt (No.nt (No.alt (No.seq (No.tokNe h1)) (No.seq (No.tokNe h2)))) (No.nt (No.seq (No.tokNe h3)))) hk
  · refine No.seq (No.opt No.empty (No.seq (No.exact (l := [.node .table_name [.node .any_name [.node .keyword [.leaf (kw sp .IF_)]]]])
      (us := kw sp .NOT_ :: kw sp .EXISTS_ :: (ident n :: kw sp .OPEN_PAR :: (body ++ kw sp .CLOSE_PAR :: x :: r))) (by krfl) ?_)))
    exact No.alt (No.seq (No.at rfl)) (No.seq (No.at rfl))

end Verif.Gram

namespace Verif.Gram
open Verif Verif.Lex Verif.Spec

variable {β : Type} {k : List Token → Option β} {sp : Spelling} {x : Token} {r : List Token}

theorem walk_two {a b : List Token} (ha : walk 0 a = some 0) (hb : walk 0 b = some 0) : walk 0 (a ++ b) = some 0 := by
  rw [walk_append, ha]; exact hb

theorem walk_parens {a : List Token} (ha : walk 0 a = some 0) : walk 0 (parens sp a) = some 0 := by
  have : walk 1 a = some 1 := walk_shift 1 0 0 a ha
  simp only [parens, kw, walk, List.singleton_append, List.cons_append, List.nil_append, if_true]
  rw [walk_append, this]
  rfl

theorem walk_flat {α : Type} {f : α → List Token} (hf : ∀ a, walk 0 (f a) = some 0) (l : List α) : walk 0 (l.flatMap f) = some 0 := by
  induction l with
  | nil => rfl
  | cons a l ih => rw [List.flatMap_cons]; exact walk_two (hf a) ih

theorem walk_tail {α : Type} {f : α → List Token} (hf : ∀ a, walk 0 (f a) = some 0) (l : List α) : walk 0 (tailToks sp f l) = some 0 :=
  walk_flat (f := fun a => kw sp .COMMA :: f a) (fun a => hf a) l

theorem walk_names (c : Str) (cs : List Str) : walk 0 (namesToks sp c cs) = some 0 := by
  have := names_toks (sp := sp) c cs []
  rw [List.append_nil] at this
  have h : walk 0 (parens sp (ident c :: tailToks sp (fun c => [ident c]) cs)) = some 0 :=
    walk_parens (walk_two (a := [ident c]) rfl (walk_tail (fun _ => rfl) cs))
  rw [this]
  simpa [parens] using h

theorem walk_col (c : ColS) : walk 0 (c.toks sp) = some 0 := by
  obtain ⟨a, t, s, n, cs⟩ := c
  have h1 : walk 0 [ident a, ⟨t.tok, s⟩] = some 0 := by cases t <;> rfl
  have h2 : walk 0 (lenToks sp n) = some 0 := by cases n <;> rfl
  exact walk_two h1 (walk_two h2 (walk_flat (fun c => by cases c <;> rfl) cs))

theorem walk_table (t : TableS) : walk 0 (t.col.toks sp ++ (tailToks sp (PartS.toks sp) (partsOf t) ++ tailToks sp (KeyS.toks sp) t.keys)) = some 0 := by
  refine walk_two (walk_col _) (walk_two (walk_tail (fun p => ?_) _) (walk_tail (fun k => ?_) _))
  · cases p with
    | col c => exact walk_col c
    | idx i => exact walk_two (a := [⟨.INDEX_, s%"INDEX"⟩, ident i.name]) rfl (walk_parens rfl)
  · exact walk_two (a := [kw sp .PRIMARY_, kw sp .KEY_]) rfl (walk_names _ _)

/-- An ALTER TABLE that renames and is followed by a token. -/
theorem rename_more (t : TabS) {a : AlterS} (ha : (∃ u, a = .renameTo u) ∨ ∃ c d, a = .renameColumn c d) (hk : k (x :: r) = none) (hq : Quiet k) :
    No (.nt .sql_stmt) k ((DdlS.alterTable t a).toks sp ++ x :: r) := by
  have key : No ((.nt .rename_table_to) ∣ (.nt .rename_table_colum) ∣ (.nt .add_table_index) ∣ (.nt .add_table_column) ∣ (.nt .drop_table_column)) k
      (a.toks sp ++ x :: r) := by
    rcases ha with ⟨u, rfl⟩ | ⟨c, d, rfl⟩
    · refine No.alt ?_ (No.alt No.empty (No.at (t := .RENAME_) rfl))
      exact No.nt (No.seq (No.tok rfl (No.seq (No.tok rfl (No.exact (table_runs u) hk)))))
    · refine No.alt No.empty (No.alt ?_ (No.at (t := .RENAME_) rfl))
      refine No.nt (No.seq (No.tok rfl (No.seq (No.opt (No.tok rfl ?_) No.empty))))
      exact No.seq (No.lab (No.exact (column_runs c) (No.seq (No.tok rfl (No.lab (No.exact (column_runs d) hk))))))
  obtain ⟨s, n⟩ := t
  have e : (DdlS.alterTable ⟨s, n⟩ a).toks sp ++ x :: r = kw sp .ALTER_ :: kw sp .TABLE_ :: (TabS.toks sp ⟨s, n⟩ ++ (a.toks sp ++ x :: r)) := by
    simp [DdlS.toks]
  rw [e]
  refine No.nt (No.seq (No.optOff (S := [.ALTER_]) Heads.kw ?_))
  refine No.alt No.empty (No.alt ?_ (No.at (t := .ALTER_) rfl))
  refine No.nt (No.seq (No.tok rfl (No.seq (No.tok rfl ?_))))
  cases s with
  | none => exact No.seq (No.opt (schema_no n (alter_heads a) (by krfl)) (No.seq (No.lab (No.exact (table_runs n) key))))
  | some s =>
    refine No.seq (No.opt (No.exact (l := [nameT .schema_name s, .leaf (kw sp .DOT)]) (us := ident n :: (a.toks sp ++ x :: r)) (by krfl)
      (No.seq (No.lab (No.exact (table_runs n) key)))) ?_)
    exact No.seq (No.lab (No.exact (table_runs s) (No.at (t := .DOT) rfl)))

end Verif.Gram
