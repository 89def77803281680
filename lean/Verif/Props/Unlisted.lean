import Verif.Props.Files
/-! C158, C161: directories that cannot be listed. -/
namespace Verif.Props
open Verif Verif.Files Verif.TestHelper Verif.Spec.Files Verif.Lemmas.Files

mutual
/-- The tree in which every directory that cannot be listed is an empty one. -/
def emptied : Node → Node
  | .dir es => .dir (emptiedAll es)
  | .closed => .dir .nil
  | .file c => .file c
  | .link t => .link t
  | .dangling => .dangling
  | .gone => .gone
/-- The same for the entries of a directory. -/
def emptiedAll : Entries → Entries
  | .nil => .nil
  | .cons name n es => .cons name (emptied n) (emptiedAll es)
end

mutual
theorem walk_emptied (accept : Str → Bool) (p : Str) : ∀ n : Node, walk accept p (emptied n) = walk accept p n
  | .dir es => by simp only [emptied, walk]; exact walkEntries_emptied accept p es
  | .closed => by simp only [emptied, walk, walkEntries]
  | .file c => by simp only [emptied]
  | .link t => by simp only [emptied]
  | .dangling => by simp only [emptied]
  | .gone => by simp only [emptied]
theorem walkEntries_emptied (accept : Str → Bool) (p : Str) : ∀ es : Entries, walkEntries accept p (emptiedAll es) = walkEntries accept p es
  | .nil => by simp only [emptiedAll]
  | .cons name n es => by
    simp only [emptiedAll, walkEntries]
    rw [walk_emptied accept (join p name) n, walkEntries_emptied accept p es]
end

theorem isDir_emptied (n : Node) : (emptied n).isDir = n.isDir := by
  cases n <;> simp [emptied, Node.isDir, Node.stat]

/-- C158 fails for every tree with a directory that cannot be listed: by listing, with an extension or an expression or without, such a
directory cannot be told from an empty one; no error is reported for it. -/
theorem C158_unlisted_fails (path : Str) (n : Node) (re : Str → Bool) (t : Str) :
    listFiles path n = listFiles path (emptied n) ∧ listWithExt path n t = listWithExt path (emptied n) t ∧
      listWithRegexp path n re = listWithRegexp path (emptied n) re := by
  simp only [listFiles, listWithExt, listWithRegexp, isDir_emptied, walk_emptied, and_self]

/-- C161 fails for every tree with a directory that cannot be listed: the test of the tree runs the same queries and reports the
same as the test of the tree in which it is empty. -/
theorem C161_unlisted_fails (path : Str) (n : Node) (re : Option (Str → Bool)) :
    testDirectory path n re = testDirectory path (emptied n) re := by
  unfold testDirectory
  cases re with
  | none => rfl
  | some re => simp only [(C158_unlisted_fails path n re []).2.2]

example : emptied exTree ≠ exTree ∧ (listFiles s%"res" exTree).bind (fun l => .ok (l.map (·.1))) = .ok [s%"res/a.sql", s%"res/d/b.mysql"] ∧
    testDirectory s%"res" exTree (some fun _ => true) = .ok { run := [s%"BEGIN", s%"COMMIT", s%"ROLLBACK"], error := false } := by
  refine ⟨?_, rfl, by decide +kernel⟩
  intro h
  simp [emptied, emptiedAll, exTree] at h

end Verif.Props
