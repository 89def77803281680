import Verif.Model.Tok
/-! The lexer generated from sql/parser/sqlite/antlr/SQLiteLexer.g4: the lexer rules as regular expressions, and
the ANTLR lexer's choice between them (the longest match, and of the rules with a longest match the first). -/
namespace Verif.Lex
open Verif

/-! ### Regular expressions -/

/-- The right-hand sides of lexer rules. `cls neg rs` is a set `[..]` (or, with `neg`, `~[..]`) of character
ranges; `eof` is the end of input. The notation of SQLiteLexer.g4 31-257. -/
inductive Re
  | empty
  | eps
  | eof
  | cls (neg : Bool) (rs : List (Char × Char))
  | seq (a b : Re)
  | alt (a b : Re)
  | star (a : Re)
  deriving DecidableEq, Repr

/-- A character range. The notation of SQLiteLexer.g4 31-257. -/
def inRange (c : Char) (r : Char × Char) : Bool := decide (r.1.toNat ≤ c.toNat) && decide (c.toNat ≤ r.2.toNat)

/-- A set contains a rune if it contains it in either letter case: SQLiteLexer.g4 31 `caseInsensitive = true`. -/
def inSet (rs : List (Char × Char)) (c : Char) : Bool :=
  rs.any (fun r => inRange c r || inRange (Str.upC c) r || inRange (Str.loC c) r)

namespace Re

/-- A literal `'abc'`. The notation of SQLiteLexer.g4 31-257. -/
def lit : Str → Re
  | [] => eps
  | [c] => cls false [(c, c)]
  | c :: cs => seq (cls false [(c, c)]) (lit cs)

/-- `r?`. The notation of SQLiteLexer.g4 31-257. -/
def opt (r : Re) : Re := alt r eps
/-- `r+`. The notation of SQLiteLexer.g4 31-257. -/
def plus (r : Re) : Re := seq r (star r)

/-- Whether the empty text matches; `atEnd` tells whether the input ends here.
The notation of SQLiteLexer.g4 31-257. -/
def nullable (atEnd : Bool) : Re → Bool
  | empty => false
  | eps => true
  | eof => atEnd
  | cls _ _ => false
  | seq a b => a.nullable atEnd && b.nullable atEnd
  | alt a b => a.nullable atEnd || b.nullable atEnd
  | star _ => true

/-- Concatenation, simplified. The notation of SQLiteLexer.g4 31-257. -/
def mkSeq (a b : Re) : Re := match a with
  | empty => empty
  | eps => b
  | a => seq a b

/-- Alternative, simplified. The notation of SQLiteLexer.g4 31-257. -/
def mkAlt (a b : Re) : Re := match a, b with
  | empty, b => b
  | a, empty => a
  | a, b => alt a b

/-- What remains to be matched after the character `c`. The notation of SQLiteLexer.g4 31-257. -/
def d (c : Char) : Re → Re
  | empty => empty
  | eps => empty
  | eof => empty
  | cls neg rs => if inSet rs c != neg then eps else empty
  | seq a b => if a.nullable false then mkAlt (mkSeq (a.d c) b) (b.d c) else mkSeq (a.d c) b
  | alt a b => mkAlt (a.d c) (b.d c)
  | star a => mkSeq (a.d c) (star a)

/-- Whether nothing can match any more (for expressions built by `d`). The notation of SQLiteLexer.g4 31-257. -/
def isNone : Re → Bool
  | empty => true
  | _ => false

end Re

/-! ### The rules -/

open Re (lit opt plus cls seq alt star eof)

/-- SQLiteLexer.g4 257. -/
def digit : Re := cls false [('0', '9')]
/-- SQLiteLexer.g4 256. -/
def hexDigit : Re := cls false [('0', '9'), ('A', 'F')]

/-- SQLiteLexer.g4 233, the last alternative of IDENTIFIER. -/
def word : Re := seq (cls false [('A', 'Z'), ('_', '_')]) (star (cls false [('A', 'Z'), ('_', '_'), ('0', '9')]))

/-- A text between two quote characters in which a doubled quote stands for itself. SQLiteLexer.g4 230-231, 244. -/
def quoted (q : Char) : Re :=
  seq (lit [q]) (seq (star (alt (cls true [(q, q)]) (lit [q, q]))) (lit [q]))

/-- SQLiteLexer.g4 229-234. -/
def identifier : Re :=
  alt (quoted '"') (alt (quoted '`')
    (alt (seq (lit ['[']) (seq (star (cls true [(']', ']')])) (lit [']']))) word))

/-- SQLiteLexer.g4 236, the exponent. -/
def exponent : Re := opt (seq (lit ['E']) (seq (opt (cls false [('-', '-'), ('+', '+')])) (plus digit)))

/-- SQLiteLexer.g4 236. -/
def numeric : Re :=
  alt (seq (alt (seq (plus digit) (opt (seq (lit ['.']) (star digit)))) (seq (lit ['.']) (plus digit))) exponent)
    (seq (lit ['0', 'x']) (plus hexDigit))

/-- SQLiteLexer.g4 238. -/
def systemVariable : Re := seq (lit ['@']) (seq (lit ['@']) identifier)
/-- SQLiteLexer.g4 240. -/
def userVariable : Re := seq (lit ['@']) identifier
/-- SQLiteLexer.g4 242. -/
def bindParameter : Re :=
  alt (seq (cls false [('?', '?'), ('$', '$')]) (star digit))
    (seq (cls false [(':', ':'), ('@', '@'), ('$', '$')]) identifier)
/-- SQLiteLexer.g4 244. -/
def stringLiteral : Re := quoted '\''
/-- SQLiteLexer.g4 246. -/
def blobLiteral : Re := seq (lit ['X']) stringLiteral
/-- SQLiteLexer.g4 248. -/
def singleLineComment : Re :=
  seq (lit ['-', '-']) (seq (star (cls true [('\r', '\r'), ('\n', '\n')]))
    (alt (seq (opt (lit ['\r'])) (lit ['\n'])) eof))
/-- SQLiteLexer.g4 250: `'/*' .*? '*/'`. The non-greedy loop stops at the first `*/`, so the text before it
has no `*/`: it consists of runs of stars each followed by something that is neither a star nor a slash. -/
def multilineComment : Re :=
  seq (lit ['/', '*'])
    (seq (star (alt (cls true [('*', '*')]) (seq (plus (lit ['*'])) (cls true [('*', '*'), ('/', '/')]))))
      (seq (plus (lit ['*'])) (lit ['/'])))
/-- SQLiteLexer.g4 252. -/
def spaces : Re := cls false [(' ', ' '), (Char.ofNat 11, Char.ofNat 11), ('\t', '\t'), ('\r', '\r'), ('\n', '\n')]
/-- SQLiteLexer.g4 254. -/
def unexpectedChar : Re := cls true []

/-- SQLiteLexer.g4 229-254: the rules after the keywords. -/
def otherRules : List (Tok × Re) :=
  [(.IDENTIFIER, identifier), (.NUMERIC_LITERAL, numeric), (.SYSTEM_VARIABLE, systemVariable),
   (.USER_VARIABLE, userVariable), (.BIND_PARAMETER, bindParameter), (.STRING_LITERAL, stringLiteral),
   (.BLOB_LITERAL, blobLiteral), (.SINGLE_LINE_COMMENT, singleLineComment),
   (.MULTILINE_COMMENT, multilineComment), (.SPACES, spaces), (.UNEXPECTED_CHAR, unexpectedChar)]

/-- SQLiteLexer.g4 33-254: all rules in order. -/
def rules : List (Tok × Re) :=
  operators.map (fun o => (o.1, lit o.2)) ++ keywords.map (fun k => (k.1, lit k.2)) ++ otherRules

/-! ### The lexer -/

/-- A token: its kind and its text. SQLiteLexer.g4 33-254. -/
structure Token where
  kind : Tok
  text : Str
  deriving DecidableEq, Repr

/-- All rules still alive after one more character (the ANTLR lexer runs the rules side by side).
The notation of SQLiteLexer.g4 31-257. -/
def step (c : Char) (act : List (Tok × Re)) : List (Tok × Re) :=
  act.filterMap (fun p => let r := p.2.d c; if r.isNone then none else some (p.1, r))

/-- The first rule that matches what was read so far. The notation of SQLiteLexer.g4 31-257. -/
def accept (atEnd : Bool) (act : List (Tok × Re)) : Option Tok :=
  (act.find? (fun p => p.2.nullable atEnd)).map (·.1)

/-- The last accepting position replaces the earlier one. The notation of SQLiteLexer.g4 31-257. -/
def better (best : Option (Tok × Nat)) (n : Nat) : Option Tok → Option (Tok × Nat)
  | some t => some (t, n)
  | none => best

/-- Reading on from `n` characters with the best match so far: the longest match wins.
The notation of SQLiteLexer.g4 31-257. -/
def scan : List (Tok × Re) → Str → Nat → Option (Tok × Nat) → Option (Tok × Nat)
  | _, [], _, best => best
  | act, c :: cs, n, best =>
    let act' := step c act
    if act'.isEmpty then best
    else scan act' cs (n + 1) (better best (n + 1) (accept cs.isEmpty act'))

/-- The next token's kind and length. The notation of SQLiteLexer.g4 31-257. -/
def next (inp : Str) : Option (Tok × Nat) := scan rules inp 0 none

/-- All tokens of the input, of all channels; `fuel` bounds their number (C67 shows that the length of the input
is enough). `none` would be a token recognition error. The notation of SQLiteLexer.g4 31-257. -/
def lexFuel : Nat → Str → Option (List Token)
  | _, [] => some []
  | 0, _ => none
  | fuel + 1, c :: cs => (next (c :: cs)).bind (fun p =>
    (lexFuel fuel ((c :: cs).drop p.2)).map ({ kind := p.1, text := (c :: cs).take p.2 } :: ·))

/-- The tokens of a text (NewSQLiteLexer and its token source). parser_antlr.go 65-67. -/
def lex (inp : Str) : Option (List Token) := lexFuel inp.length inp

/-- `-> channel(HIDDEN)`: SQLiteLexer.g4 248, 250, 252. -/
def hidden : Tok → Bool
  | .SINGLE_LINE_COMMENT | .MULTILINE_COMMENT | .SPACES => true
  | _ => false

/-- The tokens of the default channel, which NewCommonTokenStream(lexer, 0) (parser_antlr.go 67) gives to the
parser. -/
def visible (ts : List Token) : List Token := ts.filter (fun t => !hidden t.kind)

end Verif.Lex
