import Verif.Props.Util
import Verif.Props.Print
import Verif.Props.Schema
import Verif.Props.Types
import Verif.Props.Aggr
import Verif.Props.AggrMore
import Verif.Props.FnResult
import Verif.Props.Exec
import Verif.Props.ResultSet
import Verif.Props.RsAggr
import Verif.Props.Bind
import Verif.Props.Net
import Verif.Props.NetConc
import Verif.Props.System
import Verif.Props.Errors
import Verif.Props.Lexer
import Verif.Tactic.KRfl
import Verif.Props.Parser
import Verif.Props.RoundTrip
import Verif.Props.ExecValues
import Verif.Props.QueryMore
import Verif.Props.Quoted
import Verif.Props.QuotedKept
import Verif.Props.NetSchemas
import Verif.Props.DropIndex
import Verif.Props.DdlQuoted
import Verif.Props.TableExact
import Verif.Spec.AggrSels
import Verif.Lemmas.RsAggrMany
import Verif.Props.RsAggrMany
import Verif.Props.Ddl
import Verif.Props.Layout
import Verif.Props.Helpers
import Verif.Props.HelpersRow
import Verif.Props.Alias
import Verif.Props.Provenance
import Verif.Props.Tables
import Verif.Props.AliasRow
import Verif.Props.OneArray
import Verif.Props.TestHelper
import Verif.Spec.Where
import Verif.Lemmas.Prefer
import Verif.Lemmas.Shape
import Verif.Lemmas.Where
import Verif.Props.Where
import Verif.Lemmas.Top
import Verif.Spec.Dml
import Verif.Lemmas.LexLit
import Verif.Lemmas.NoBind
import Verif.Lemmas.Dml
import Verif.Props.Dml
import Verif.Spec.Functions
import Verif.Spec.Select
import Verif.Lemmas.SelectWritten
import Verif.Props.SelectWritten
import Verif.Props.TableWritten
import Verif.Props.NoConstraints
import Verif.Props.Others
import Verif.Props.AlterDrop
import Verif.Props.Whole
import Verif.Props.RsSchema
import Verif.Props.ConnConc
import Verif.Props.FnState
import Verif.Props.Files
import Verif.Props.Options
import Verif.Props.ParserConc
import Verif.Props.FnConc
import Verif.Spec.ReadBack
import Verif.Lemmas.ReadBack
import Verif.Props.ReadBack
import Verif.Spec.Migration
import Verif.Lemmas.KeywordText
import Verif.Props.Migration
import Verif.Model.Pipeline
import Verif.Model.Slices
import Verif.Spec.Shared
import Verif.Lemmas.Slices
import Verif.Props.Shared
import Verif.Props.SharedOpts
import Verif.Props.SharedConns
import Verif.Props.SharedNames
import Verif.Props.ExactMore
import Verif.Props.AggrAligned
import Verif.Spec.Pipeline
import Verif.Lemmas.Pipeline
import Verif.Props.Pipeline
import Verif.Props.Lookups
import Verif.Spec.Prepared
import Verif.Lemmas.Prepared
import Verif.Props.Prepared
import Verif.Lemmas.LongCond
import Verif.Spec.LongCond
import Verif.Lemmas.LongText
import Verif.Props.LongCond
import Verif.Spec.LostCond
import Verif.Lemmas.LostCond
import Verif.Props.LostCond
import Verif.Spec.LostValue
import Verif.Spec.Ignored
import Verif.Lemmas.LostValue
import Verif.Lemmas.Ignored
import Verif.Props.LostValue
import Verif.Props.Ignored
import Verif.Spec.IgnoredDdl
import Verif.Lemmas.IgnoredDdl
import Verif.Props.IgnoredDdl
import Verif.Spec.Exact
import Verif.Props.Exact
import Verif.Props.GroupKeys
import Verif.Spec.DdlSchemas
import Verif.Lemmas.DdlSchemas
import Verif.Props.DdlSchemas
import Verif.Lemmas.Erase
import Verif.Lemmas.BlankVisit
import Verif.Lemmas.LetterVisit
import Verif.Spec.Blank
import Verif.Spec.Letters
import Verif.Props.Blank
import Verif.Props.Injection
import Verif.Props.BoundStrings
import Verif.Props.Letters
import Verif.Spec.CondParts
import Verif.Lemmas.WhereText
import Verif.Props.WhereText
import Verif.Spec.Casts
import Verif.Props.SetSchema
import Verif.Lemmas.Number
import Verif.Props.DataDef
import Verif.Lemmas.BindExact
import Verif.Props.BindExact
import Verif.Props.CloseMany
import Verif.Props.Universal
import Verif.Spec.NetHistory
import Verif.Props.NetHistory
import Verif.Spec.NetPaired
import Verif.Props.NetPaired
import Verif.Spec.DmlSchemas
import Verif.Lemmas.DmlSchemas
import Verif.Props.DmlSchemas
import Verif.Spec.DmlText
import Verif.Props.DmlText
import Verif.Props.SetRefused
import Verif.Props.SelectRefused
import Verif.Props.CloseMeanwhile
import Verif.Spec.FileQueries
import Verif.Props.FileQueries
import Verif.Spec.TableText
import Verif.Props.TableText
import Verif.Props.AlterRefused
import Verif.Lemmas.MoreNo
import Verif.Props.RsOptions
import Verif.Props.Trailing
import Verif.Lemmas.MoreDml
import Verif.Props.TrailingDml
import Verif.Spec.Aliases
import Verif.Lemmas.Aliases
import Verif.Props.Aliases
import Verif.Spec.Clauses
import Verif.Lemmas.Clauses
import Verif.Props.Clauses
import Verif.Spec.Joins
import Verif.Lemmas.Joins
import Verif.Props.Joins
import Verif.Lemmas.Unnamed
import Verif.Props.Unnamed
import Verif.Lemmas.Asking
import Verif.Props.Asking
import Verif.Spec.ErrorTexts
import Verif.Props.ErrorTexts
import Verif.Props.ExecOptions
import Verif.Spec.Compound
import Verif.Lemmas.Compound
import Verif.Props.Compound
import Verif.Lemmas.CloseNo
import Verif.Props.TrailingTable
import Verif.Spec.FirstWord
import Verif.Lemmas.FirstWord
import Verif.Props.FirstWord
import Verif.Model.AggrConc
import Verif.Spec.AggrConc
import Verif.Lemmas.AggrConc
import Verif.Props.AggrConc
import Verif.Props.GroupExact
import Verif.Props.Unlisted
import Verif.Props.Reuse
import Verif.Props.NeverReported
import Verif.Props.AlterLeft
