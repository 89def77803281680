import Verif.Spec.Dml
/-! The words that say what a statement is, as every SQL manual gives them: the verb it begins with, and for the
statements about tables, databases and indexes the kind of object. Nothing here is taken from the grammar. -/
namespace Verif.Spec
open Verif Verif.Lex Verif.Query

/-- The verbs of a statement and their texts. -/
def verbs : Statement → List (Tok × Str)
  | .createDatabase .. | .createTable .. | .createIndex .. => [(.CREATE_, s%"CREATE")]
  | .dropDatabase .. | .dropTable .. | .dropIndex .. => [(.DROP_, s%"DROP")]
  | .alterDatabase .. | .alterTable .. => [(.ALTER_, s%"ALTER")]
  | .insert .. => [(.INSERT_, s%"INSERT"), (.REPLACE_, s%"REPLACE")]
  | .select .. => [(.SELECT_, s%"SELECT"), (.VALUES_, s%"VALUES")]
  | .update .. => [(.UPDATE_, s%"UPDATE")]
  | .delete .. => [(.DELETE_, s%"DELETE")]
  | .copy .. => [(.COPY_, s%"COPY")]
  | .commit => [(.COMMIT_, s%"COMMIT"), (.END_, s%"END")]
  | .vacuum .. => [(.VACUUM_, s%"VACUUM")]
  | .truncate .. => [(.TRUNCATE_, s%"TRUNCATE")]
  | .begin => [(.BEGIN_, s%"BEGIN")]
  | .rollback => [(.ROLLBACK_, s%"ROLLBACK")]
  | .use .. => [(.USE_, s%"USE")]

/-- The kind of object of a statement and the words allowed between it and the verb. -/
def objectWord : Statement → Option (Tok × List Tok)
  | .createTable .. => some (.TABLE_, [.TEMP_, .TEMPORARY_])
  | .dropTable .. | .alterTable .. => some (.TABLE_, [])
  | .createDatabase .. | .dropDatabase .. | .alterDatabase .. => some (.DATABASE_, [])
  | .createIndex .. => some (.INDEX_, [.UNIQUE_])
  | .dropIndex .. => some (.INDEX_, [])
  | _ => none

/-- The statements that may have a WITH clause before the verb. -/
def mayHaveWith : Statement → Bool
  | .insert .. | .select .. | .update .. | .delete .. => true
  | _ => false

/-- The tokens say what the statement is: they begin with its verb, after a WITH clause at most, and the kind of object
follows the verb, after one of the allowed words at most. -/
def SaysVerb (own : List Token) (s : Statement) : Prop :=
  ∃ wth x post, own = wth ++ x :: post ∧ WithTokens wth ∧ (wth ≠ [] → mayHaveWith s = true) ∧
    x.kind ∈ (verbs s).map (·.1) ∧
    ∀ o ms, objectWord s = some (o, ms) → ∃ mid y post', post = mid ++ y :: post' ∧ y.kind = o ∧
      mid.length ≤ 1 ∧ ∀ t, t ∈ mid → t.kind ∈ ms

/-- How many of the statements have these verbs. -/
def verbCount (vs : List (Tok × Str)) (l : List Statement) : Nat := (l.filter (fun s => verbs s = vs)).length

/-- How many of the tokens are one of these verbs. -/
def wordCount (vs : List (Tok × Str)) (toks : List Token) : Nat := (toks.filter (fun t => t.kind ∈ vs.map (·.1))).length

end Verif.Spec
