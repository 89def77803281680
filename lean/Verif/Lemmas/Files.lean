import Verif.Spec.Files
/-! Lemmas about walking a directory tree. -/
namespace Verif.Lemmas.Files
open Verif Verif.Files Verif.Spec.Files

theorem join_eq (p name : Str) : join p name = p ++ s%"/" ++ name := by simp [join]

/-- What walking gives, in terms of what is below. -/
def Walked (accept : Str → Bool) (B : Str → Node → Prop) (r : Res (List (Str × Node))) : Prop :=
  ((∃ q, B q .gone) ∧ r = .panic) ∨
  ((¬ ∃ q, B q .gone) ∧ ∃ l, r = .ok l ∧ ∀ q m, (q, m) ∈ l ↔ B q m ∧ Leaf m ∧ accept q = true)

theorem below_leaf {p q : Str} {n m : Node} (hn : ∀ es, n ≠ .dir es) : Below p n q m ↔ q = p ∧ m = n := by
  constructor
  · intro h
    cases h with
    | here => exact ⟨rfl, rfl⟩
    | down => exact absurd rfl (hn _)
  · rintro ⟨rfl, rfl⟩; exact .here _ _

theorem below_dir {p q : Str} {es : Entries} {m : Node} (hm : ∀ es, m ≠ .dir es) :
    Below p (.dir es) q m ↔ ∃ name n, (name, n) ∈ entries es ∧ Below (join p name) n q m := by
  constructor
  · intro h
    cases h with
    | here => exact absurd rfl (hm _)
    | down _ _ name n _ _ h1 h2 => exact ⟨name, n, h1, by rw [join_eq]; exact h2⟩
  · rintro ⟨name, n, h1, h2⟩
    exact .down p es name n q m h1 (by rw [← join_eq]; exact h2)

theorem walked_leaf (accept : Str → Bool) (p : Str) (n : Node) (hn : ∀ es, n ≠ .dir es) (hl : Leaf n) (hg : n ≠ .gone) :
    Walked accept (Below p n) (.ok (if accept p then [(p, n)] else [])) := by
  refine .inr ⟨fun ⟨q, hq⟩ => hg ((below_leaf hn).mp hq).2.symm, _, rfl, fun q m => ?_⟩
  rw [below_leaf hn]
  by_cases ha : accept p = true
  · rw [if_pos ha]
    simp only [List.mem_singleton, Prod.mk.injEq]
    constructor
    · rintro ⟨rfl, rfl⟩; exact ⟨⟨rfl, rfl⟩, hl, ha⟩
    · rintro ⟨h, _⟩; exact h
  · rw [if_neg ha]
    simp only [List.not_mem_nil, false_iff]
    rintro ⟨⟨rfl, _⟩, _, h⟩; exact ha h

mutual
theorem walk_spec (accept : Str → Bool) (p : Str) (n : Node) : Walked accept (Below p n) (walk accept p n) := by
  cases n with
  | file c => exact walked_leaf accept p _ (by simp) trivial (by simp)
  | link t => exact walked_leaf accept p _ (by simp) trivial (by simp)
  | dangling => exact walked_leaf accept p _ (by simp) trivial (by simp)
  | closed =>
    refine .inr ⟨fun ⟨q, hq⟩ => ?_, [], rfl, fun q m => ?_⟩
    · have := ((below_leaf (by simp)).mp hq).2; cases this
    · rw [below_leaf (by simp)]
      simp only [List.not_mem_nil, false_iff]
      rintro ⟨⟨_, rfl⟩, h, _⟩; exact h
  | gone => exact .inl ⟨⟨p, .here _ _⟩, rfl⟩
  | dir es =>
    have h := walkEntries_spec accept p es
    simp only [walk]
    rcases h with ⟨⟨q, name, n, h1, h2⟩, h3⟩ | ⟨h1, l, h2, h3⟩
    · exact .inl ⟨⟨q, (below_dir (by simp)).mpr ⟨name, n, h1, h2⟩⟩, h3⟩
    · refine .inr ⟨fun ⟨q, hq⟩ => h1 ⟨q, (below_dir (by simp)).mp hq⟩, l, h2, fun q m => ?_⟩
      rw [h3]
      constructor
      · rintro ⟨a, b, c⟩
        exact ⟨(below_dir (fun es he => by subst he; exact b)).mpr a, b, c⟩
      · rintro ⟨a, b, c⟩
        exact ⟨(below_dir (fun es he => by subst he; exact b)).mp a, b, c⟩
theorem walkEntries_spec (accept : Str → Bool) (p : Str) (es : Entries) :
    Walked accept (fun q m => ∃ name n, (name, n) ∈ entries es ∧ Below (join p name) n q m) (walkEntries accept p es) := by
  cases es with
  | nil =>
    exact .inr ⟨by simp [entries], [], rfl, by simp [entries]⟩
  | cons name n es =>
    have h1 := walk_spec accept (join p name) n
    have h2 := walkEntries_spec accept p es
    simp only [walkEntries]
    rcases h1 with ⟨⟨q, hq⟩, e1⟩ | ⟨g1, l, e1, m1⟩
    · rw [e1]
      exact .inl ⟨⟨q, name, n, by simp [entries], hq⟩, rfl⟩
    · rw [e1]
      rcases h2 with ⟨⟨q, name', n', hm, hq⟩, e2⟩ | ⟨g2, l2, e2, m2⟩
      · rw [e2]
        exact .inl ⟨⟨q, name', n', by simp [entries, hm], hq⟩, rfl⟩
      · rw [e2]
        refine .inr ⟨?_, l ++ l2, rfl, fun q m => ?_⟩
        · rintro ⟨q, name', n', hm, hq⟩
          simp only [entries, List.mem_cons, Prod.mk.injEq] at hm
          rcases hm with ⟨rfl, rfl⟩ | hm
          · exact g1 ⟨q, hq⟩
          · exact g2 ⟨q, name', n', hm, hq⟩
        · rw [List.mem_append, m1, m2]
          constructor
          · rintro (⟨a, b⟩ | ⟨⟨name', n', hm, hq⟩, b⟩)
            · exact ⟨⟨name, n, by simp [entries], a⟩, b⟩
            · exact ⟨⟨name', n', by simp [entries, hm], hq⟩, b⟩
          · rintro ⟨⟨name', n', hm, hq⟩, b⟩
            simp only [entries, List.mem_cons, Prod.mk.injEq] at hm
            rcases hm with ⟨rfl, rfl⟩ | hm
            · exact .inl ⟨hq, b⟩
            · exact .inr ⟨⟨name', n', hm, hq⟩, b⟩
end

theorem below_prefix {p q : Str} {n m : Node} (h : Below p n q m) : ∃ rest, q = p ++ rest ∧ (rest = [] ∨ ∃ r, rest = '/' :: r) := by
  induction h with
  | here => exact ⟨[], by simp, .inl rfl⟩
  | down p es name n q m _ _ ih =>
    obtain ⟨rest, e, _⟩ := ih
    exact ⟨'/' :: (name ++ rest), by rw [e]; simp, .inr ⟨_, rfl⟩⟩

theorem part_unique {a b x y : Str} (ha : '/' ∉ a) (hb : '/' ∉ b) (hx : x = [] ∨ ∃ r, x = '/' :: r) (hy : y = [] ∨ ∃ r, y = '/' :: r)
    (h : a ++ x = b ++ y) : a = b := by
  induction a generalizing b with
  | nil =>
    cases b with
    | nil => rfl
    | cons c b =>
      rcases hx with rfl | ⟨r, rfl⟩
      · simp at h
      · simp only [List.nil_append, List.cons_append, List.cons.injEq] at h
        exact absurd (List.mem_cons.mpr (.inl h.1)) hb
  | cons c a ih =>
    cases b with
    | nil =>
      rcases hy with rfl | ⟨r, rfl⟩
      · simp at h
      · simp only [List.nil_append, List.cons_append, List.cons.injEq] at h
        exact absurd (by simp [h.1]) ha
    | cons d b =>
      simp only [List.cons_append, List.cons.injEq] at h
      rw [h.1, ih (fun hm => ha (by simp [hm])) (fun hm => hb (by simp [hm])) h.2]

theorem proper_down {p name : Str} {es : Entries} {n : Node} (h : Proper p (.dir es)) (hm : (name, n) ∈ entries es) : Proper (join p name) n :=
  fun q es' hb => h q es' (.down p es name n q _ hm (by rw [← join_eq]; exact hb))

mutual
theorem walk_nodup (accept : Str → Bool) (p : Str) (n : Node) (hp : Proper p n) (l : List (Str × Node)) (h : walk accept p n = .ok l) :
    (l.map (·.1)).Nodup := by
  cases n with
  | file c => simp only [walk, Res.ok.injEq] at h; subst h; split <;> simp
  | link c => simp only [walk, Res.ok.injEq] at h; subst h; split <;> simp
  | dangling => simp only [walk, Res.ok.injEq] at h; subst h; split <;> simp
  | closed => simp only [walk, Res.ok.injEq] at h; subst h; simp
  | gone => simp [walk] at h
  | dir es =>
    simp only [walk] at h
    obtain ⟨h1, h2⟩ := hp p es (.here _ _)
    exact walkEntries_nodup accept p es h1 h2 (fun name n hm => proper_down hp hm) l h
theorem walkEntries_nodup (accept : Str → Bool) (p : Str) (es : Entries) (hn : ((entries es).map (·.1)).Nodup)
    (hs : ∀ x ∈ entries es, '/' ∉ x.1) (hp : ∀ name n, (name, n) ∈ entries es → Proper (join p name) n) (l : List (Str × Node))
    (h : walkEntries accept p es = .ok l) : (l.map (·.1)).Nodup := by
  cases es with
  | nil => simp only [walkEntries, Res.ok.injEq] at h; subst h; simp
  | cons name n es =>
    simp only [walkEntries] at h
    simp only [entries, List.map_cons, List.nodup_cons] at hn
    cases e1 : walk accept (join p name) n with
    | err => rw [e1] at h; cases h
    | panic => rw [e1] at h; cases h
    | ok l1 =>
      rw [e1] at h
      cases e2 : walkEntries accept p es with
      | err => rw [e2] at h; cases h
      | panic => rw [e2] at h; cases h
      | ok l2 =>
        rw [e2] at h
        have h' : l1 ++ l2 = l := by simpa [Res.bind] using h
        subst h'
        have i1 := walk_nodup accept (join p name) n (hp name n (by simp [entries])) l1 e1
        have i2 := walkEntries_nodup accept p es hn.2 (fun x hx => hs x (by simp [entries, hx])) (fun name n hm => hp name n (by simp [entries, hm])) l2 e2
        rw [List.map_append]
        refine List.nodup_append.mpr ⟨i1, i2, ?_⟩
        rintro q hq1 q' hq2 rfl
        obtain ⟨⟨q1, m1⟩, hm1, rfl⟩ := List.mem_map.mp hq1
        obtain ⟨⟨q2, m2⟩, hm2, he⟩ := List.mem_map.mp hq2
        have w1 := walk_spec accept (join p name) n
        have w2 := walkEntries_spec accept p es
        rw [e1] at w1; rw [e2] at w2
        rcases w1 with ⟨_, hh⟩ | ⟨_, l1', hh, k1⟩
        · cases hh
        cases hh
        rcases w2 with ⟨_, hh⟩ | ⟨_, l2', hh, k2⟩
        · cases hh
        cases hh
        obtain ⟨b1, _⟩ := (k1 q1 m1).mp hm1
        obtain ⟨⟨name', n', hm', b2⟩, _⟩ := (k2 q2 m2).mp hm2
        obtain ⟨r1, f1, g1⟩ := below_prefix b1
        obtain ⟨r2, f2, g2⟩ := below_prefix b2
        dsimp only at he
        rw [f1, f2] at he
        simp only [join, List.append_assoc, List.cons_append, List.append_cancel_left_eq, List.cons.injEq, true_and] at he
        have := part_unique (hs _ (show (name', n') ∈ _ by simp [entries, hm'])) (hs _ (show (name, n) ∈ _ by simp [entries])) g2 g1 he
        dsimp only at this
        subst this
        exact hn.1 (List.mem_map.mpr ⟨(name', n'), hm', rfl⟩)
end

theorem extRev_spec (s acc : Str) (h1 : '.' ∉ acc) (h2 : '/' ∉ acc) : IsExt (s.reverse ++ acc) (extRev s acc) := by
  induction s generalizing acc with
  | nil => exact .inr ⟨rfl, [], acc, by simp, h1, h2, .inl rfl⟩
  | cons c s ih =>
    simp only [extRev]
    split
    · next hc =>
      subst hc
      exact .inr ⟨rfl, s.reverse ++ ['/'], acc, by simp, h1, h2, .inr (by simp)⟩
    · split
      · next hc =>
        subst hc
        exact .inl ⟨s.reverse, acc, by simp, rfl, h1, h2⟩
      · next hc1 hc2 =>
        have := ih (c :: acc) (by simp [h1, Ne.symm hc2]) (by simp [h2, Ne.symm hc1])
        simpa using this

theorem ext_spec (path : Str) : IsExt path (ext path) := by
  have := extRev_spec path.reverse [] (by simp) (by simp)
  simpa [ext] using this

theorem last_dot_unique {a b x y : Str} (ha : '.' ∉ a) (hb : '.' ∉ b) (h : x ++ '.' :: a = y ++ '.' :: b) : a = b := by
  have h' := congrArg List.reverse h
  simp only [List.reverse_append, List.reverse_cons, List.append_assoc, List.cons_append, List.nil_append] at h'
  have key : ∀ (a b x y : Str), '.' ∉ a → '.' ∉ b → a ++ '.' :: x = b ++ '.' :: y → a = b := by
    intro a
    induction a with
    | nil =>
      intro b x y _ hb h
      cases b with
      | nil => rfl
      | cons c b => simp only [List.nil_append, List.cons_append, List.cons.injEq] at h; exact absurd (List.mem_cons.mpr (.inl h.1)) hb
    | cons c a ih =>
      intro b x y ha hb h
      cases b with
      | nil => simp only [List.nil_append, List.cons_append, List.cons.injEq] at h; exact absurd (List.mem_cons.mpr (.inl h.1.symm)) ha
      | cons d b =>
        simp only [List.cons_append, List.cons.injEq] at h
        rw [h.1, ih b x y (fun hm => ha (by simp [hm])) (fun hm => hb (by simp [hm])) h.2]
  have := key a.reverse b.reverse _ _ (by simpa using ha) (by simpa using hb) h'
  simpa using this

theorem ext_unique {path e e' : Str} (h : IsExt path e) (h' : IsExt path e') (hne : e' ≠ []) : e = e' := by
  rcases h' with ⟨pre', r', p1', p2', p3', p4'⟩ | ⟨h', _⟩
  · rcases h with ⟨pre, r, p1, p2, p3, p4⟩ | ⟨h, pre, l, p1, p2, p3, p4⟩
    · rw [p2, p2', last_dot_unique p3 p3' (by rw [← p2, ← p1, ← p2', ← p1'])]
    · exfalso
      rw [p2'] at p1'
      rw [p1'] at p1
      -- the last dot lies in `l` or before the last separator
      rcases List.append_eq_append_iff.mp p1 with ⟨c, c1, c2⟩ | ⟨c, c1, c2⟩
      · cases c with
        | nil => rw [List.nil_append] at c2; rw [← c2] at p2; exact p2 (by simp)
        | cons d c =>
          simp only [List.cons_append, List.cons.injEq] at c2
          rcases p4 with p4 | p4
          · rw [p4] at c1; exact absurd c1 (by simp)
          · rw [c1] at p4
            have : (d :: c).getLast? = some '/' := by
              rw [List.getLast?_append] at p4
              cases hg : (d :: c).getLast? with
              | none => simp at hg
              | some z => rw [hg] at p4; simpa using p4
            have hm := List.mem_of_getLast? this
            rcases List.mem_cons.mp hm with e | hm
            · rw [← c2.1] at e; exact absurd e (by decide)
            · exact p4' (by rw [c2.2]; simp [hm])
      · exact p2 (by rw [c2]; simp)
  · exact absurd h' hne

end Verif.Lemmas.Files
