import Verif.Props.Net
/-! C60, exactly, for connections created with any schemas. -/
namespace Verif.Props
open Verif Verif.Net Verif.Spec Verif.Lemmas

theorem since_append (h : List COp) (init acc : List Str) (hn : ∀ db, COp.setDatabase db ∉ h) :
    sinceDatabase (init ++ acc) h = init ++ sinceDatabase acc h := by
  induction h generalizing acc with
  | nil => rfl
  | cons op h ih =>
    cases op with
    | setDatabase db => exact absurd List.mem_cons_self (hn db)
    | setSchemas ss =>
      have := ih (acc ++ ss) (fun db hm => hn db (List.mem_cons_of_mem _ hm))
      simpa [sinceDatabase, List.append_assoc] using this

theorem kept_schemas (h : List COp) (hn : ∀ db, COp.setDatabase db ∉ h) (c : CState) (init acc : List Str)
    (hc : c.schemas = init ++ (firsts acc).filter (fun x => !init.contains x)) :
    (h.foldl CState.step c).schemas = init ++ (firsts (sinceDatabase acc h)).filter (fun x => !init.contains x) := by
  induction h generalizing c acc with
  | nil => exact hc
  | cons op h ih =>
    cases op with
    | setDatabase db => exact absurd List.mem_cons_self (hn db)
    | setSchemas ss =>
      refine ih (fun db hm => hn db (List.mem_cons_of_mem _ hm)) _ (acc ++ ss) ?_
      simp only [CState.step, CState.setSchemas, setSchemas_eq, hc, firsts_append, List.filter_append, List.append_assoc,
        List.filter_filter]
      congr 2
      refine List.filter_congr fun x _ => ?_
      rw [Bool.eq_iff_iff]
      simp only [Bool.not_eq_true', Bool.and_eq_true, List.contains_eq_mem, decide_eq_false_iff_not, List.mem_append,
        List.mem_filter, firsts_mem, not_or, not_and, decide_eq_true_eq]
      constructor
      · rintro ⟨h1, h2⟩; exact ⟨h1, fun hm => h2 hm h1⟩
      · rintro ⟨h1, h2⟩; exact ⟨h1, fun hm => absurd hm h2⟩

theorem cleared_schemas (h : List COp) (hn : ∃ db, COp.setDatabase db ∈ h) (c c' : CState) (init init' : List Str) :
    (h.foldl CState.step c).schemas = (h.foldl CState.step c').schemas ∧ sinceDatabase init h = sinceDatabase init' h := by
  induction h generalizing c c' init init' with
  | nil => obtain ⟨_, h⟩ := hn; cases h
  | cons op h ih =>
    by_cases hh : ∃ db, COp.setDatabase db ∈ h
    · cases op with
      | setDatabase db => exact ih hh _ _ [] []
      | setSchemas ss => exact ih hh _ _ (init ++ ss) (init' ++ ss)
    · obtain ⟨db, hm⟩ := hn
      rcases List.mem_cons.mp hm with rfl | hm
      · have hk : ∀ db, COp.setDatabase db ∉ h := fun db hm => hh ⟨db, hm⟩
        refine ⟨?_, rfl⟩
        simp only [List.foldl_cons]
        rw [kept_schemas h hk (c.step (.setDatabase db)) [] [] rfl, kept_schemas h hk (c'.step (.setDatabase db)) [] [] rfl]
      · exact absurd ⟨db, hm⟩ hh

/-- C60, exactly, for every connection and every history: without a SetDatabase call the schemas the connection was created
with stay as they were given, repeated or not, and the first occurrences of the other names set follow them; after a
SetDatabase call Schemas lists the first occurrences of the names set since the last one. -/
theorem C60_exact (init : List Str) (h : List COp) :
    ((∀ db, COp.setDatabase db ∉ h) → (h.foldl CState.step { schemas := init }).schemas =
      init ++ (firsts (sinceDatabase [] h)).filter (fun x => x ∉ init)) ∧
    ((∃ db, COp.setDatabase db ∈ h) → (h.foldl CState.step { schemas := init }).schemas = firsts (sinceDatabase [] h)) := by
  constructor
  · intro hn
    rw [kept_schemas h hn _ init [] (by simp [firsts])]
    congr 1
    exact List.filter_congr fun x _ => by simp
  · intro hn
    rw [(cleared_schemas h hn { schemas := init } {} [] []).1]
    exact (C60_schemas_partial [] .nil h).1

/-- C60 holds of exactly these connections and histories: those created with schemas without repeated names, and those
whose database is set at least once. -/
theorem C60_iff (init : List Str) (h : List COp) :
    (h.foldl CState.step { schemas := init }).schemas = firsts (sinceDatabase init h) ↔
      init.Nodup ∨ ∃ db, COp.setDatabase db ∈ h := by
  constructor
  · intro he
    by_cases hd : ∃ db, COp.setDatabase db ∈ h
    · exact .inr hd
    · have hn : ∀ db, COp.setDatabase db ∉ h := fun db hm => hd ⟨db, hm⟩
      rw [(C60_exact init h).1 hn] at he
      have := he ▸ firsts_nodup (sinceDatabase init h)
      exact .inl (List.nodup_append.mp this).1
  · rintro (hi | hd)
    · exact (C60_schemas_partial init hi h).1
    · rw [(C60_exact init h).2 hd, (cleared_schemas h hd {} {} init []).2]

example : (∀ db, COp.setDatabase db ∉ [COp.setSchemas [s%"a", s%"b"]]) ∧
    ([COp.setSchemas [s%"a", s%"b", s%"b"]].foldl CState.step { schemas := [s%"a", s%"a"] }).schemas = [s%"a", s%"a", s%"b"] ∧
    ([COp.setSchemas [s%"a"], .setDatabase s%"d", .setSchemas [s%"b", s%"b"]].foldl CState.step { schemas := [s%"a", s%"a"] }).schemas =
      [s%"b"] := ⟨by simp, by decide, by decide⟩

end Verif.Props
