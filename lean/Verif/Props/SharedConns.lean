import Verif.Lemmas.Slices
import Verif.Lemmas.Net
import Verif.Spec.Shared
import Verif.Props.Shared
/-! C186: connections made with the same slice of schemas. -/
namespace Verif.Props
open Verif Verif.Slices Verif.Spec Verif.Lemmas

theorem contains_some (v : List Str) (x : Str) : (v.map some).contains (some x) = v.contains x := by
  induction v with
  | nil => rfl
  | cons y v ih => simp only [List.map_cons, List.contains_cons, ih]; congr 1

theorem added_in (v ss : List Str) (x : Str) (h : v.contains x = true) :
    v ++ (firsts (x :: ss)).filter (fun y => !v.contains y) = v ++ (firsts ss).filter (fun y => !v.contains y) := by
  rw [← setSchemas_eq, ← setSchemas_eq, List.foldl_cons, if_pos h]

theorem added_out (v ss : List Str) (x : Str) (h : v.contains x = false) :
    v ++ (firsts (x :: ss)).filter (fun y => !v.contains y) = (v ++ [x]) ++ (firsts ss).filter (fun y => !(v ++ [x]).contains y) := by
  rw [← setSchemas_eq, ← setSchemas_eq, List.foldl_cons, if_neg (by rw [h]; simp)]

/-- What `SetSchemas` does to the connection's slice and to slices apart from it. -/
theorem addSchemas_spec (g : Nat) (ss : List Str) : ∀ (m : Mem Str) (s : Slice) (v : List Str), Valid m s → view m s = v.map some →
    let r := addSchemas g m s ss
    Valid r.1 r.2 ∧ view r.1 r.2 = (v ++ (firsts ss).filter (fun x => !v.contains x)).map some ∧
    ∀ t, Valid m t → SliceApart s t → Valid r.1 t ∧ view r.1 t = view m t ∧ SliceApart r.2 t := by
  induction ss with
  | nil => intro m s v hs hv; exact ⟨hs, by simp [addSchemas, firsts, hv], fun t ht ha => ⟨ht, rfl, ha⟩⟩
  | cons x ss ih =>
    intro m s v hs hv
    simp only [addSchemas, hv, contains_some]
    cases hc : v.contains x with
    | true =>
      rw [added_in v ss x hc]
      exact ih m s v hs hv
    | false =>
      rw [added_out v ss x hc]
      simp only [Bool.false_eq_true, if_false]
      have h1 := append_self (xs := [x]) (g := g) hs
      have h2 : view (append g m s [x]).1 (append g m s [x]).2 = (v ++ [x]).map some := by rw [h1.2, hv, List.map_append]
      obtain ⟨i1, i2, i3⟩ := ih _ _ (v ++ [x]) h1.1 h2
      refine ⟨i1, i2, fun t ht ha => ?_⟩
      have hk : view (append g m s [x]).1 t = view m t := by
        refine append_other hs ht ?_
        rcases ha with ha | ⟨ha, _⟩
        · exact .inr (.inl (Ne.symm ha))
        · exact .inl (by simp only [List.length_cons, List.length_nil]; omega)
      have hap : SliceApart (append g m s [x]).2 t := by
        rcases append_arr (m := m) (s := s) (xs := [x]) (g := g) with ⟨a1, a2, _⟩ | ⟨a1, _⟩
        · rcases ha with ha | ⟨ha, _⟩
          · exact .inl (by rw [a1]; exact ha)
          · simp only [List.length_cons, List.length_nil] at a2; omega
        · exact .inl (by rw [a1]; have := ht.1; omega)
      obtain ⟨j1, j2, j3⟩ := i3 t (append_valid hs ht) hap
      exact ⟨j1, by rw [j2, hk], j3⟩

/-- Each connection has the schemas it should have, in slices apart from each other. -/
structure SessInv (st : Sessions) (vals : List (List Str)) : Prop where
  length : st.conns.length = vals.length
  conn : ∀ (i : Nat) (s : Slice), st.conns[i]? = some s → Valid st.mem s ∧ ∃ v, vals[i]? = some v ∧ view st.mem s = v.map some
  apart : ∀ (i j : Nat) (s t : Slice), st.conns[i]? = some s → st.conns[j]? = some t → i ≠ j → SliceApart s t

theorem apart_symm {s t : Slice} (h : SliceApart s t) : SliceApart t s := h.imp Ne.symm And.symm

/-- One connection gets other schemas, and the slices apart from its own stay. -/
theorem SessInv.set {st : Sessions} {vals : List (List Str)} (h : SessInv st vals) (i : Nat) (m' : Mem Str) (s' : Slice) (v' : List Str)
    (h1 : Valid m' s') (h2 : view m' s' = v'.map some)
    (hold : ∀ (j : Nat) (t : Slice), j ≠ i → st.conns[j]? = some t → Valid m' t ∧ view m' t = view st.mem t ∧ SliceApart s' t) :
    SessInv { mem := m', conns := st.conns.set i s' } (vals.set i v') := by
  refine ⟨by simp [h.length], ?_, ?_⟩
  · intro j t hj
    simp only at hj
    by_cases hji : i = j
    · subst hji
      have hl : i < st.conns.length := by
        have := (List.getElem?_eq_some_iff.mp hj).1
        simpa using this
      rw [List.getElem?_set_self hl] at hj
      cases hj
      exact ⟨h1, v', by rw [List.getElem?_set_self (by rw [← h.length]; exact hl)], h2⟩
    · rw [List.getElem?_set_ne hji] at hj
      obtain ⟨_, v, c1, c2⟩ := h.conn j t hj
      obtain ⟨o1, o2, _⟩ := hold j t (Ne.symm hji) hj
      exact ⟨o1, v, by rw [List.getElem?_set_ne hji]; exact c1, by simp only; rw [o2, c2]⟩
  · intro j k t u hj hk hne
    simp only at hj hk
    have hset : ∀ (j : Nat) (t : Slice), (st.conns.set i s')[j]? = some t → j = i ∧ t = s' ∨ j ≠ i ∧ st.conns[j]? = some t := by
      intro j t hj
      by_cases hji : i = j
      · subst hji
        have hl : i < st.conns.length := by
          have := (List.getElem?_eq_some_iff.mp hj).1
          simpa using this
        rw [List.getElem?_set_self hl] at hj
        cases hj
        exact .inl ⟨rfl, rfl⟩
      · rw [List.getElem?_set_ne hji] at hj
        exact .inr ⟨Ne.symm hji, hj⟩
    rcases hset j t hj with ⟨rfl, rfl⟩ | ⟨hji, hj'⟩
    · rcases hset k u hk with ⟨rfl, rfl⟩ | ⟨hki, hk'⟩
      · exact absurd rfl hne
      · exact (hold k u hki hk').2.2
    · rcases hset k u hk with ⟨rfl, rfl⟩ | ⟨hki, hk'⟩
      · exact apart_symm (hold j t hji hj').2.2
      · exact h.apart j k t u hj' hk' hne

theorem sessInv_step {st : Sessions} {vals : List (List Str)} (h : SessInv st vals) (op : SessOp) (ho : OnConns op) :
    SessInv (st.step op) (ownSchemas vals op) := by
  cases op with
  | connWith s => exact absurd ho id
  | assign s k x => exact absurd ho id
  | conn =>
    simp only [Sessions.step, ownSchemas]
    refine ⟨by simp [h.length], ?_, ?_⟩
    · intro i t hi
      simp only [List.getElem?_append] at hi
      split at hi
      · obtain ⟨c0, v, c1, c2⟩ := h.conn i t hi
        obtain ⟨o1, o2⟩ := alloc_other [] c0
        exact ⟨o1, v, by rw [List.getElem?_append_left (List.getElem?_eq_some_iff.mp c1).1]; exact c1, by simp only; rw [o2, c2]⟩
      · next hl =>
        have hi0 : i - st.conns.length = 0 := by
          have := (List.getElem?_eq_some_iff.mp hi).1
          simp only [List.length_cons, List.length_nil] at this
          omega
        rw [hi0] at hi
        simp only [List.getElem?_cons_zero, Option.some.injEq] at hi
        subst hi
        refine ⟨(alloc_self _ _).1, [], ?_, (alloc_self _ _).2⟩
        rw [List.getElem?_append_right (by rw [← h.length]; omega), ← h.length, hi0]
        rfl
    · have hnew : ∀ (j : Nat) (t : Slice), (st.conns ++ [(alloc st.mem []).2])[j]? = some t →
          st.conns[j]? = some t ∨ j = st.conns.length ∧ t = (alloc st.mem []).2 := by
        intro j t hj
        rw [List.getElem?_append] at hj
        split at hj
        · exact .inl hj
        · next hl =>
          have hi0 : j - st.conns.length = 0 := by
            have := (List.getElem?_eq_some_iff.mp hj).1
            simp only [List.length_cons, List.length_nil] at this
            omega
          rw [hi0] at hj
          simp only [List.getElem?_cons_zero, Option.some.injEq] at hj
          exact .inr ⟨by omega, hj.symm⟩
      intro j k t u hj hk hne
      rcases hnew j t hj with hj | ⟨rfl, rfl⟩
      · rcases hnew k u hk with hk | ⟨rfl, rfl⟩
        · exact h.apart j k t u hj hk hne
        · have := (h.conn j t hj).1.1
          exact .inl (by simp only [alloc]; omega)
      · rcases hnew k u hk with hk | ⟨rfl, rfl⟩
        · have := (h.conn k u hk).1.1
          exact .inl (by simp only [alloc]; omega)
        · exact absurd rfl hne
  | setDatabase i db =>
    simp only [Sessions.step, ownSchemas]
    refine h.set i _ _ [] (alloc_self _ _).1 (alloc_self _ _).2 fun j t _ hj => ?_
    have hv := (h.conn j t hj).1
    obtain ⟨o1, o2⟩ := alloc_other [] hv
    exact ⟨o1, o2, .inl (by simp only [alloc]; have := hv.1; omega)⟩
  | setSchemas i ss g =>
    simp only [Sessions.step, ownSchemas]
    cases hi : st.conns[i]? with
    | none =>
      have : vals[i]? = none := by
        rw [List.getElem?_eq_none_iff] at hi ⊢
        rw [← h.length]; exact hi
      rw [this]
      exact h
    | some s =>
      obtain ⟨c0, v, c1, c2⟩ := h.conn i s hi
      rw [c1]
      obtain ⟨a1, a2, a3⟩ := addSchemas_spec g ss st.mem s v c0 c2
      exact h.set i _ _ _ a1 a2 fun j t hj ht => a3 t (h.conn j t ht).1 (h.apart i j s t hi ht (Ne.symm hj))
  | schemas i =>
    simp only [Sessions.step, ownSchemas]
    cases hi : st.conns[i]? with
    | none => exact h
    | some s =>
      refine ⟨h.length, ?_, h.apart⟩
      intro j t hj
      obtain ⟨c0, v, c1, c2⟩ := h.conn j t hj
      refine ⟨⟨by simp only [List.length_append]; have := c0.1; omega, c0.2.1, ?_⟩, v, c1, ?_⟩
      · simp only; rw [cells_old _ _ _ c0.1]; exact c0.2.2
      · rw [← c2]
        simp only [view, cells_old _ _ _ c0.1]

/-- C186 for connections created with slices that are apart, that is in different arrays or without room: after any calls on
any of the connections, in any order, and any further connections, each connection has exactly the schemas set on it.
Missing: connections created with the same slice with room, see `C186_fails`. -/
theorem C186_apart_partial (m : Mem Str) (conns : List Slice) (vals : List (List Str)) (hl : conns.length = vals.length)
    (hc : ∀ (i : Nat) s, conns[i]? = some s → Valid m s ∧ ∃ v, vals[i]? = some v ∧ view m s = v.map some)
    (ha : ∀ (i j : Nat) s t, conns[i]? = some s → conns[j]? = some t → i ≠ j → SliceApart s t) (h : List SessOp) (ho : ∀ op ∈ h, OnConns op) (i : Nat) :
    (h.foldl Sessions.step { mem := m, conns := conns }).schemas i = (((h.foldl ownSchemas vals)[i]?).getD []).map some := by
  have inv : ∀ (h : List SessOp) (st : Sessions) (vals : List (List Str)), SessInv st vals → (∀ op ∈ h, OnConns op) →
      SessInv (h.foldl Sessions.step st) (h.foldl ownSchemas vals) := by
    intro h
    induction h with
    | nil => intro st vals hi _; exact hi
    | cons op h ih =>
      intro st vals hi ho
      exact ih _ _ (sessInv_step hi op (ho op List.mem_cons_self)) fun o hm => ho o (List.mem_cons_of_mem _ hm)
  have hi := inv h { mem := m, conns := conns } vals ⟨hl, hc, ha⟩ ho
  unfold Sessions.schemas
  cases hs : (h.foldl Sessions.step { mem := m, conns := conns }).conns[i]? with
  | none =>
    have : (h.foldl ownSchemas vals)[i]? = none := by
      rw [List.getElem?_eq_none_iff] at hs ⊢
      rw [← hi.length]; exact hs
    rw [this]
    rfl
  | some s =>
    obtain ⟨_, v, c1, c2⟩ := hi.conn i s hs
    rw [c1]
    exact c2

/-- C186, for connections created without schemas or with slices of their own arrays: nothing is shared. -/
theorem C186_default_partial (n : Nat) (h : List SessOp) (ho : ∀ op ∈ h, OnConns op) (i : Nat) :
    ((List.replicate n SessOp.conn ++ h).foldl Sessions.step {}).schemas i =
      (((h.foldl ownSchemas (List.replicate n []))[i]?).getD []).map some := by
  have e := C186_apart_partial [] [] [] rfl (by simp) (by simp) (List.replicate n SessOp.conn ++ h)
    (by
      intro op hm
      rcases List.mem_append.mp hm with hm | hm
      · rw [List.eq_of_mem_replicate hm]; trivial
      · exact ho op hm) i
  have hr : ∀ (n : Nat) (l : List (List Str)), (List.replicate n SessOp.conn).foldl ownSchemas l = l ++ List.replicate n [] := by
    intro n
    induction n with
    | zero => simp
    | succ n ih => intro l; rw [List.replicate_succ, List.foldl_cons, ih]; simp [ownSchemas, List.replicate_succ]
  rw [e, List.foldl_append, hr]
  rfl

theorem addSchemas_one (g : Nat) (m : Mem Str) (s : Slice) (x : Str) (h : some x ∉ view m s) : addSchemas g m s [x] = append g m s [x] := by
  have : (view m s).contains (some x) = false := by simpa using h
  simp only [addSchemas, this]
  rfl

/-- C186 is false of the code for all schemas: two connections are created with the same slice, which has room; a schema `a` is
set on the first and another one `b` on the second. Then the first connection has the schema `b` instead of `a`. -/
theorem C186_fails (m : Mem Str) (s : Slice) (a b : Str) (g g' : Nat) (hs : Valid m s) (hr : s.len < s.cap) (ha : some a ∉ view m s)
    (hb : some b ∉ view m s) (i : Nat) (hi : i < 2) :
    ([SessOp.connWith s, .connWith s, .setSchemas 0 [a] g, .setSchemas 1 [b] g'].foldl Sessions.step { mem := m }).schemas i =
      view m s ++ [some b] := by
  have e1 := addSchemas_one g m s a ha
  have hk := (C184_append m s [a] g hs).2
  have e2 := addSchemas_one g' (append g m s [a]).1 s b (by rw [hk]; exact hb)
  have t := C184_twice_exact m s [a] [b] g g' hs
  simp only [List.length_cons, List.length_nil] at t
  rw [if_pos (by omega)] at t
  have t' := C184_append (append g m s [a]).1 s [b] g' (append_valid hs hs)
  rw [hk] at t'
  simp only [List.foldl_cons, List.foldl_nil, Sessions.step, Sessions.schemas, List.nil_append, List.cons_append, List.getElem?_cons_zero,
    List.getElem?_cons_succ, List.set_cons_zero, List.set_cons_succ, e1, e2]
  match i, hi with
  | 0, _ => simpa using t
  | 1, _ => simpa using t'.1

/-- C186 is false of the code for all schemas: what the caller assigns to an element of the slice that a connection was
created with becomes a schema of the connection. -/
theorem C186_assign_fails (m : Mem Str) (s : Slice) (k : Nat) (x : Str) (hs : Valid m s) (hk : k < s.len) :
    ([SessOp.connWith s, .assign s k x].foldl Sessions.step { mem := m }).schemas 0 = (view m s).set k (some x) := by
  obtain ⟨h1, h2, h3⟩ := hs
  simp only [List.foldl_cons, List.foldl_nil, Sessions.step, Sessions.schemas, List.nil_append, List.getElem?_cons_zero]
  apply List.ext_getElem?
  intro j
  rw [view_at, List.getElem?_set, view_at, cells_set _ _ _ _ h1, if_pos rfl, List.getElem?_set, view_length ⟨h1, h2, h3⟩]
  by_cases hj : j < s.len
  · by_cases hjk : k = j
    · subst hjk
      simp [hj, show s.off + k < (cells m s.arr).length by omega]
    · simp [hj, hjk]
  · simp [hj, show ¬ k = j by omega]

theorem addSchemas_kept (g : Nat) (ss : List Str) : ∀ (m : Mem Str) (s : Slice), Valid m s →
    let r := addSchemas g m s ss
    Valid r.1 r.2 ∧ ∀ t, Valid m t → Valid r.1 t ∧ (s.arr ≠ t.arr → view r.1 t = view m t ∧ r.2.arr ≠ t.arr) := by
  induction ss with
  | nil => intro m s hs; exact ⟨hs, fun t ht => ⟨ht, fun ha => ⟨rfl, ha⟩⟩⟩
  | cons x ss ih =>
    intro m s hs
    simp only [addSchemas]
    split
    · exact ih m s hs
    · have h1 := append_self (xs := [x]) (g := g) hs
      obtain ⟨i1, i2⟩ := ih _ _ h1.1
      refine ⟨i1, fun t ht => ?_⟩
      obtain ⟨j1, j2⟩ := i2 t (append_valid hs ht)
      refine ⟨j1, fun ha => ?_⟩
      have hap : (append g m s [x]).2.arr ≠ t.arr := by
        rcases append_arr (m := m) (s := s) (xs := [x]) (g := g) with ⟨a1, _⟩ | ⟨a1, _⟩
        · rw [a1]; exact ha
        · rw [a1]; have := ht.1; omega
      obtain ⟨k1, k2⟩ := j2 hap
      exact ⟨by rw [k1]; exact append_other hs ht (.inr (.inl (Ne.symm ha))), k2⟩

theorem kept_step (t : Slice) (st : Sessions) (ht : Valid st.mem t) (hc : ∀ s ∈ st.conns, Valid st.mem s ∧ s.arr ≠ t.arr) (op : SessOp)
    (ho : OnConns op) : Valid (st.step op).mem t ∧ view (st.step op).mem t = view st.mem t ∧
      ∀ s ∈ (st.step op).conns, Valid (st.step op).mem s ∧ s.arr ≠ t.arr := by
  have hnew : Valid (alloc st.mem []).1 (alloc st.mem []).2 ∧ (alloc st.mem []).2.arr ≠ t.arr :=
    ⟨(alloc_self _ _).1, by simp only [alloc]; have := ht.1; omega⟩
  cases op with
  | connWith s => exact absurd ho id
  | assign s k x => exact absurd ho id
  | conn =>
    refine ⟨(alloc_other [] ht).1, (alloc_other [] ht).2, fun s hs => ?_⟩
    simp only [Sessions.step, List.mem_append, List.mem_singleton] at hs
    rcases hs with hs | rfl
    · exact ⟨(alloc_other [] (hc s hs).1).1, (hc s hs).2⟩
    · exact hnew
  | setDatabase i db =>
    refine ⟨(alloc_other [] ht).1, (alloc_other [] ht).2, fun s hs => ?_⟩
    rcases List.mem_or_eq_of_mem_set hs with hs | rfl
    · exact ⟨(alloc_other [] (hc s hs).1).1, (hc s hs).2⟩
    · exact hnew
  | setSchemas i ss g =>
    simp only [Sessions.step]
    cases hi : st.conns[i]? with
    | none => exact ⟨ht, rfl, hc⟩
    | some s =>
      have hm := List.mem_of_getElem? hi
      obtain ⟨a1, a2⟩ := addSchemas_kept g ss st.mem s (hc s hm).1
      obtain ⟨b1, b2⟩ := a2 t ht
      obtain ⟨c1, c2⟩ := b2 (hc s hm).2
      refine ⟨b1, c1, fun u hu => ?_⟩
      rcases List.mem_or_eq_of_mem_set hu with hu | rfl
      · exact ⟨(a2 u (hc u hu).1).1, (hc u hu).2⟩
      · exact ⟨a1, c2⟩
  | schemas i =>
    simp only [Sessions.step]
    cases hi : st.conns[i]? with
    | none => exact ⟨ht, rfl, hc⟩
    | some s =>
      have hv : ∀ u, Valid st.mem u → Valid (st.mem ++ [view st.mem s]) u := fun u hu =>
        ⟨by simp only [List.length_append]; have := hu.1; omega, hu.2.1, by rw [cells_old _ _ _ hu.1]; exact hu.2.2⟩
      refine ⟨hv t ht, ?_, fun u hu => ⟨hv u (hc u hu).1, (hc u hu).2⟩⟩
      simp only [view, cells_old _ _ _ ht.1]

/-- C186: the list that `Schemas` returned, `t`, is the caller's own: whatever slices the connections share, no later call on
any connection changes it. -/
theorem C186_returned (st : Sessions) (i : Nat) (s : Slice) (hi : st.conns[i]? = some s) (hv : ∀ u ∈ st.conns, Valid st.mem u)
    (h : List SessOp) (ho : ∀ op ∈ h, OnConns op) :
    view (h.foldl Sessions.step (st.step (.schemas i))).mem { arr := st.mem.length, len := s.len, cap := s.len } = view st.mem s := by
  have run : ∀ (h : List SessOp) (st : Sessions) (t : Slice), (∀ op ∈ h, OnConns op) → Valid st.mem t →
      (∀ s ∈ st.conns, Valid st.mem s ∧ s.arr ≠ t.arr) → view (h.foldl Sessions.step st).mem t = view st.mem t := by
    intro h
    induction h with
    | nil => intro st t _ _ _; rfl
    | cons op h ih =>
      intro st t ho ht hc
      obtain ⟨k1, k2, k3⟩ := kept_step t st ht hc op (ho op List.mem_cons_self)
      rw [List.foldl_cons, ih _ t (fun o hm => ho o (List.mem_cons_of_mem _ hm)) k1 k3, k2]
  have hs := hv s (List.mem_of_getElem? hi)
  have hl := view_length hs
  have hstep : st.step (.schemas i) = { st with mem := st.mem ++ [view st.mem s] } := by simp only [Sessions.step, hi]
  rw [hstep, run h _ _ ho]
  · simp only [view, cells_new, List.drop_zero]
    rw [List.take_take, Nat.min_self]
  · exact ⟨by simp, Nat.le_refl _, by simp only; rw [cells_new, hl]; omega⟩
  · intro u hu
    have h1 := hv u hu
    refine ⟨⟨by simp only [List.length_append]; have := h1.1; omega, h1.2.1, by simp only; rw [cells_old _ _ _ h1.1]; exact h1.2.2⟩, ?_⟩
    have := h1.1
    simp only
    omega

example : ([SessOp.conn, .conn, .setSchemas 0 [s%"a", s%"b"] 3, .setSchemas 1 [s%"c"] 0, .schemas 0, .setSchemas 0 [s%"d", s%"a"] 1,
      .setDatabase 1 s%"x"].foldl Sessions.step {}).schemas 0 = [some s%"a", some s%"b", some s%"d"] := by decide

example : Valid [[some s%"p", none]] { arr := 0, len := 1, cap := 2 } ∧
    ([SessOp.connWith { arr := 0, len := 1, cap := 2 }, .connWith { arr := 0, len := 1, cap := 2 }, .setSchemas 0 [s%"a"] 3,
      .setSchemas 1 [s%"b"] 0].foldl Sessions.step { mem := [[some s%"p", none]] }).schemas 0 = [some s%"p", some s%"b"] := by
  unfold Valid; decide

end Verif.Props
