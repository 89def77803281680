import Verif.Props.Blank
import Verif.Props.RoundTrip
/-! C52, C179, C182: what a bound string with quotes can do. -/
namespace Verif.Props
open Verif Verif.Lex Verif.Gram Verif.Query Verif.Parse Verif.Bind Verif.Spec Verif.Lemmas

/-- A string that closes its quotes, adds statements, and makes a comment of what follows. -/
def attack (x : Str) (more : List Str) : Str := x ++ '\'' :: (more.flatMap (fun q => ';' :: q) ++ s%" --")

theorem join_flat (q : Str) (qs : List Str) : Str.join s%";" (q :: qs) = q ++ qs.flatMap (fun q => ';' :: q) := by
  induction qs generalizing q with
  | nil => simp [Str.join]
  | cons r qs ih => rw [Str.join, ih, List.flatMap_cons]; simp

/-- C52, C179 and C182 fail as badly as they can: if a query has a placeholder where a string belongs, then for any statements
there is a string with which the bound query is the beginning of the query followed by these statements, and all that follows
the placeholder is dropped, as long as it has no further placeholder and no line break. -/
theorem C182_script_fails {T F V : Type} (u : Str → Option Nat) (hu : ReadsNumbers u) (B : BEnv T F V) (p x r : Str) (s : Statement)
    (hne : p ≠ []) (hp : '?' ∉ p) (hs : Reread (p ++ '\'' :: x ++ ['\'']) s) (hr : '\n' ∉ r ∧ '\r' ∉ r) (hq : '?' ∉ r)
    (more : List (Str × Statement)) (hm : ∀ y ∈ more, Reread y.1 y.2) :
    ∃ text, bindText B (p ++ '?' :: r) [.str (attack x (more.map (·.1)))] = some text ∧
      parseQuery u text = .ok (s :: more.map (·.2)) := by
  have hb := (C50_bind_partial B (fun s => some s) p [r] [.str (attack x (more.map (·.1)))]
    ['\'' :: attack x (more.map (·.1)) ++ ['\'']] hne hp (by simpa using hq) (by simp [Param.text]) (by simp) (by simp)).1
  refine ⟨_, hb, ?_⟩
  obtain ⟨S, SS, hw, hv⟩ := script_writing hu (_, s) more (by
    intro y hy
    rcases List.mem_cons.mp hy with rfl | hy
    · exact hs
    · exact hm y hy)
  rw [List.map_cons, join_flat] at hw
  have hl := lx_hidden (longest_lineEnd ('\'' :: r) (by simp [hr.1]) (by simp [hr.2])) rfl Lx.nil
  have := hw _ _ rfl (Lx.space hl)
  have he : filled p [r] ['\'' :: attack x (more.map (·.1)) ++ ['\'']] =
      p ++ '\'' :: x ++ ['\''] ++ (more.map (·.1)).flatMap (fun q => ';' :: q) ++ ' ' :: (s%"--" ++ '\'' :: r ++ []) := by
    simp [filled, marked, attack]
  rw [he]
  have := this.writes
  rw [parse_writes u std_good S SS 0 (by simpa [queryToks] using this), hv]
  rfl

/-- Without further statements: the condition after the placeholder is dropped. -/
theorem C182_dropped_fails {T F V : Type} (u : Str → Option Nat) (hu : ReadsNumbers u) (B : BEnv T F V) (p x r : Str) (s : Statement)
    (hne : p ≠ []) (hp : '?' ∉ p) (hs : Reread (p ++ '\'' :: x ++ ['\'']) s) (hr : '\n' ∉ r ∧ '\r' ∉ r) (hq : '?' ∉ r) :
    ∃ text, bindText B (p ++ '?' :: r) [.str (x ++ s%"' --")] = some text ∧ parseQuery u text = .ok [s] :=
  C182_script_fails u hu B p x r s hne hp hs hr hq [] (by simp)

set_option maxRecDepth 10000 in
example : Reread (s%"DELETE FROM t WHERE a = " ++ '\'' :: s%"x" ++ ['\'']) (.delete { table := { name := s%"t" }, cond := some (isString s%"a" s%"x") }) ∧
    Reread s%"DROP TABLE u" (.dropTable [{ name := s%"u" }] false) ∧
    bindText bEnv s%"DELETE FROM t WHERE a = ? AND b = 'me'" [.str s%"x';DROP TABLE u --"] =
      some s%"DELETE FROM t WHERE a = 'x';DROP TABLE u --' AND b = 'me'" ∧
    parseQuery (fun _ => none) s%"DELETE FROM t WHERE a = 'x';DROP TABLE u --' AND b = 'me'" =
      .ok [.delete { table := { name := s%"t" }, cond := some (isString s%"a" s%"x") }, .dropTable [{ name := s%"u" }] false] := by
  refine ⟨?_, ?_, by decide +kernel, by krfl⟩
  · exact Reread.delete (d := { table := { name := s%"t" }, cond := some (isString s%"a" s%"x") })
      ⟨⟨_, any_of (by decide +kernel), rfl⟩, fun e he => by
        cases he
        exact .one ⟨rfl, any_of (by decide +kernel), ⟨nofun, nofun⟩, _, rfl, printable_str (by decide) (by decide)⟩⟩
  · exact .ddl (.dropTable false (by simp) (by
      intro t ht
      simp only [List.mem_cons, List.not_mem_nil, or_false] at ht
      subst ht
      exact ⟨_, name_of (by decide +kernel), rfl⟩)) rfl

end Verif.Props
