import Verif.Model.Visitor
/-! The query test helpers of the sqltest package: sqltest/query_file_helper.go, sqltest/test_helper.go,
sqltest/config.go. The names of subtests are not modelled; reading files is in Model/Files.lean; log output is left out. -/
namespace Verif.TestHelper
open Verif Verif.Query Verif.Parse

/-- query_file_helper.go 48-57 `trimQuery`: semicolons, then line ends, then spaces are cut off both ends. -/
def trimQuery (q : Str) : Str := Str.trim s%" " (Str.trim s%"\n" (Str.trim s%";" q))

/-- The characters of `\s` in a Go regular expression. query_file_helper.go 65. -/
def isSpace (c : Char) : Bool := c == ' ' || c == '\t' || c == '\n' || c == Char.ofNat 12 || c == '\r'

/-- `ReplaceAllString` of `\s{2,}` by a space, query_file_helper.go 65-70. `p` is what the white space read so far and
not yet written stands for: its character if it is one, a space if there are more. -/
def squeezeFrom : Str → Option Char → Str
  | [], none => []
  | [], some p => [p]
  | c :: s, none => if isSpace c then squeezeFrom s (some c) else c :: squeezeFrom s none
  | c :: s, some p => if isSpace c then squeezeFrom s (some ' ') else p :: c :: squeezeFrom s none

/-- `strings.ReplaceAll(s, a, b)` for texts of one character. query_file_helper.go 75-76, 81. -/
def replaceChar (a b : Char) (s : Str) : Str := s.map (fun c => if c = a then b else c)

/-- `strings.ReplaceAll(s, ab, new)` for a pattern of two characters. query_file_helper.go 77-78, 81. -/
def replacePair (a b new : Char) : Str → Str
  | [] => []
  | [c] => [c]
  | c :: d :: s => if c = a ∧ d = b then new :: replacePair a b new s else c :: replacePair a b new (d :: s)

/-- query_file_helper.go 59-84 `formalizeQuery`. -/
def formalizeQuery (q : Str) : Str :=
  replacePair ' ' ')' ')' (replacePair '(' ' ' '(' (replaceChar '\t' ' ' (replaceChar '\n' ' '
    (squeezeFrom (trimQuery q) none))))

/-- config.go 21-30 `ValidationMode`. -/
inductive Mode | default | strict | parseOnly
  deriving DecidableEq, Repr

/-- config.go 33-36 `Config`. -/
structure Config where
  skipErrors : Bool
  mode : Mode
  deriving DecidableEq, Repr

/-- config.go 58-67 `NewDefaultConfig` without options. -/
def defaultConfig : Config := { skipErrors := false, mode := .default }

/-- An argument of `opts ...any`: a `*Config`, one of the two options of config.go 43-55, or a value of another type. -/
inductive Opt | config (c : Config) | skipErrors (b : Bool) | mode (m : Mode) | other
  deriving DecidableEq, Repr

/-- test_helper.go 27-34, one round of the loop. -/
def Opt.apply (c : Config) : Opt → Config
  | .config c' => c'
  | .skipErrors b => { c with skipErrors := b }
  | .mode m => { c with mode := m }
  | .other => c

/-- test_helper.go 26-34: the configuration for the arguments. The loop writes through the pointer of a `*Config`
argument; the new contents of that object are not modelled. -/
def configOf (opts : List Opt) : Config := opts.foldl Opt.apply defaultConfig

/-- How a test ends: nothing reported, `t.Error`, or `t.Skip`. test_helper.go 41-109. -/
inductive Verdict | pass | fail | skip
  deriving DecidableEq, Repr

/-- test_helper.go 76-80, 101-105: a difference is an error unless errors are skipped. -/
def mismatch (cfg : Config) : Res Verdict := .ok (if cfg.skipErrors then .skip else .fail)

/-- test_helper.go 53-59, 92-98: the texts of several statements, or of none, are logged as errors. -/
def notOne (l : List Statement) : Res Verdict := (Res.all Statement.toStr l).bind (fun _ => .ok .fail)

/-- test_helper.go 83-109, the second step: `p` is the formalized text of the parsed query. -/
def secondStep (toUint : Str → Option Nat) (cfg : Config) (p : Str) : Res Verdict :=
  match parseQuery toUint p with
  | .panic => .panic
  | .err => .ok .fail
  | .ok [s] => s.toStr.bind (fun t =>
      if Str.eqFold p (formalizeQuery t) then .ok .pass else mismatch cfg)
  | .ok l => notOne l

/-- test_helper.go 61-109, for the one parsed statement `s` of the query `q`. -/
def firstStep (toUint : Str → Option Nat) (cfg : Config) (q : Str) (s : Statement) : Res Verdict :=
  s.toStr.bind (fun t =>
    if Str.eqFold (formalizeQuery q) (formalizeQuery t) then .ok .pass
    else if cfg.mode = .strict then mismatch cfg
    else secondStep toUint cfg (formalizeQuery t))

/-- test_helper.go 40-109 `TestQueryString` after the options. -/
def testQuery (toUint : Str → Option Nat) (cfg : Config) (q : Str) : Res Verdict :=
  match parseQuery toUint q with
  | .panic => .panic
  | .err => .ok .fail
  | .ok l =>
    if cfg.mode = .parseOnly then match l with
      | [] => .panic
      | s :: _ => s.toStr.bind (fun _ => .ok .pass)
    else match l with
      | [s] => firstStep toUint cfg q s
      | l => notOne l

/-- test_helper.go 25-110 `TestQueryString`. -/
def testQueryString (toUint : Str → Option Nat) (q : Str) (opts : List Opt) : Res Verdict :=
  testQuery toUint (configOf opts) q

/-- query_file_helper.go 94-103: the queries of a file that are run as subtests, in their order. -/
def queriesOf (file : Str) : List Str :=
  ((Str.splitOn ';' file).map trimQuery).filter (fun q => !(q.length == 0 || Str.hasPrefix q s%"#"))

end Verif.TestHelper
