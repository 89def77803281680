import Verif.Model.TestHelper
/-! Listing files and running the queries of a directory: sqltest/util/file.go, sqltest/query_file_helper.go.

The file system is a tree that does not change while it is read, apart from entries that are listed but are gone when they
are looked at. Entries are in the order in which `filepath.Walk` visits them, which is the order of their names. Paths are
clean, so that `filepath.Join` of a path and a name is the two with a separator between them. -/
namespace Verif.Files
open Verif Verif.TestHelper

mutual
/-- What is at a path. file.go 25-27. -/
inductive Node
  /-- A file with its contents, `none` if it cannot be read. -/
  | file (contents : Option Str)
  /-- A directory. -/
  | dir (es : Entries)
  /-- A directory that cannot be listed. -/
  | closed
  /-- A symbolic link to something. -/
  | link (target : Node)
  /-- A symbolic link to nothing. -/
  | dangling
  /-- Listed, but `lstat` fails. -/
  | gone
/-- The entries of a directory. file.go 25-27. -/
inductive Entries
  | nil
  | cons (name : Str) (n : Node) (es : Entries)
end

/-- `os.Stat` follows links: whether it is a directory; `none` is the error. file.go 59. -/
def Node.stat : Node → Option Bool
  | .file _ => some false
  | .dir _ | .closed => some true
  | .link t => t.stat
  | .dangling | .gone => none

/-- file.go 58-67 `IsDir`. -/
def Node.isDir (n : Node) : Bool := match n.stat with | some b => b | none => false

/-- `filepath.Join` of a clean path and a name. file.go 77, 107. -/
def join (path name : Str) : Str := path ++ '/' :: name

mutual
/-- `filepath.Walk` with the callbacks of file.go 78-90 and 108-117: the callback ignores its error argument and asks the
information, which is nil when there is an error, whether it is a directory. A directory that cannot be listed is reported
to the callback, which returns nil for it. -/
def walk (accept : Str → Bool) (path : Str) : Node → Res (List (Str × Node))
  | .dir es => walkEntries accept path es
  | .closed => .ok []
  | .gone => .panic
  | .file c => .ok (if accept path then [(path, .file c)] else [])
  | .link t => .ok (if accept path then [(path, .link t)] else [])
  | .dangling => .ok (if accept path then [(path, .dangling)] else [])
/-- The entries one by one. file.go 77-90, 107-117. -/
def walkEntries (accept : Str → Bool) (path : Str) : Entries → Res (List (Str × Node))
  | .nil => .ok []
  | .cons name n es => (walk accept (join path name) n).bind fun l => (walkEntries accept path es).bind fun m => .ok (l ++ m)
end

/-- `filepath.Ext` on the reversed path: up to the last dot of the last element. file.go 82. -/
def extRev : Str → Str → Str
  | [], _ => []
  | c :: cs, acc => if c = '/' then [] else if c = '.' then c :: acc else extRev cs (c :: acc)

/-- `filepath.Ext`. file.go 53-55, 82. -/
def ext (path : Str) : Str := extRev path.reverse []

/-- file.go 81-86: the test of the extension. -/
def hasExt (target path : Str) : Bool := target.length == 0 || Str.hasSuffix (ext path) target

/-- file.go 70-97 `ListFilesWithExtention`: paths and what is there. -/
def listWithExt (path : Str) (n : Node) (target : Str) : Res (List (Str × Node)) :=
  if n.isDir then walk (hasExt target) path n else .err

/-- file.go 100-124 `ListFilesWithRegexp`; the regular expression is the set of texts it matches. -/
def listWithRegexp (path : Str) (n : Node) (re : Str → Bool) : Res (List (Str × Node)) :=
  if n.isDir then walk re path n else .err

/-- file.go 127-129 `ListFiles`. -/
def listFiles (path : Str) (n : Node) : Res (List (Str × Node)) := listWithExt path n []

/-- query_file_helper.go 33-46 `readQueryFile`: follows links; reading a directory is an error. -/
def Node.read : Node → Option Str
  | .file c => c
  | .link t => t.read
  | _ => none

/-- What a test did: the queries that were run as subtests, and whether an error was reported other than by those.
query_file_helper.go 87-130. -/
structure Report where
  run : List Str := []
  error : Bool := false
  deriving DecidableEq, Repr

/-- query_file_helper.go 87-104 `TestQueryFile`. -/
def testFile (n : Node) : Report := match n.read with
  | some c => { run := queriesOf c }
  | none => { error := true }

/-- One report after another. query_file_helper.go 122-126. -/
def Report.and (a b : Report) : Report := { run := a.run ++ b.run, error := a.error || b.error }

/-- query_file_helper.go 107-128 `TestQueryDirectoryWithRegex`; `re` is `none` if the expression does not compile. -/
def testDirectory (path : Str) (n : Node) (re : Option (Str → Bool)) : Res Report := match re with
  | none => .ok { error := true }
  | some re => match listWithRegexp path n re with
    | .ok l => .ok (l.foldr (fun x r => (testFile x.2).and r) {})
    | .err => .ok { error := true }
    | .panic => .panic

end Verif.Files
