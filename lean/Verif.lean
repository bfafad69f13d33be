import Verif.Props.Codec
import Verif.Props.Token
import Verif.Props.Rule
import Verif.Props.Search
import Verif.Props.Best
import Verif.Props.Grammar
import Verif.Props.Trie
import Verif.Props.Lexicon
import Verif.Props.Md5
import Verif.Props.Counts
import Verif.Props.Utf8
import Verif.Props.Classify
import Verif.Props.Tokenizer
import Verif.Props.Split
import Verif.Props.Wrapper
import Verif.Props.Cache
import Verif.Props.Order
import Verif.Props.Print
import Verif.Props.Compiled
import Verif.Props.Rounds
import Verif.Props.Whole
import Verif.Props.Agree
import Verif.Props.Choice
import Verif.Props.Blanks
import Verif.Props.TokenText
import Verif.Props.RuleApi
import Verif.Props.Sql
import Verif.Props.ByteTrie
import Verif.Props.Mirror
import Verif.Props.Slack
import Verif.Props.Samples
import Verif.Props.Heap
import Verif.Props.Origin
import Verif.Props.SampleOrigin
import Verif.Props.Prune
import Verif.Props.LexSamples
import Verif.Props.AltBound
import Verif.Props.AltSamples
import Verif.Props.Elision
import Verif.Props.ElisionSamples
import Verif.Props.Use
import Verif.Props.UseSamples
import Verif.Spec.Filter
import Verif.Props.Filter
import Verif.Spec.Cut
import Verif.Lemmas.ArchiveCut
import Verif.Props.Cut
import Verif.Spec.LineEnds
import Verif.Lemmas.LineEnds
import Verif.Lemmas.LineEndsGrammar
import Verif.Props.LineEnds
import Verif.Props.LineEndSamples
import Verif.Spec.Parts
import Verif.Lemmas.Parts
import Verif.Props.Parts
import Verif.Spec.Inline
import Verif.Spec.Improve
import Verif.Lemmas.Inline
import Verif.Lemmas.Improve
import Verif.Props.Inline
import Verif.Props.Improve
import Verif.Spec.Further
import Verif.Lemmas.Further
import Verif.Props.Further
import Verif.Spec.Joint
import Verif.Lemmas.Joint
import Verif.Lemmas.Synonym
import Verif.Props.Joint
import Verif.Spec.Defined
import Verif.Lemmas.Defined
import Verif.Props.Defined
import Verif.Spec.Outputs
import Verif.Props.Outputs
import Verif.Spec.Tally
import Verif.Lemmas.Tally
import Verif.Props.Tally
import Verif.Spec.Unknown
import Verif.Lemmas.Unknown
import Verif.Props.Unknown
import Verif.Model.Tools
import Verif.Spec.Tools
import Verif.Lemmas.Tools
import Verif.Props.Tools
import Verif.Props.ToolSamples
import Verif.Model.Pagc
import Verif.Spec.Pagc
import Verif.Lemmas.Pagc
import Verif.Lemmas.PagcText
import Verif.Props.Pagc
import Verif.Model.PagcLex
import Verif.Spec.PagcLex
import Verif.Lemmas.PagcLex
import Verif.Props.PagcLex
import Verif.Model.CompareLex
import Verif.Spec.CompareLex
import Verif.Props.CompareLex
import Verif.Spec.Rounding
import Verif.Model.Single
import Verif.Lemmas.Rounding
import Verif.Lemmas.Single
import Verif.Lemmas.SampleScores
import Verif.Props.Rounding
import Verif.Model.Tester
import Verif.Spec.Tester
import Verif.Lemmas.Tester
import Verif.Props.Tester
import Verif.Spec.Plain
import Verif.Props.Plain
import Verif.Spec.Forms
import Verif.Lemmas.Forms
import Verif.Spec.FormTable
import Verif.Lemmas.FormData
import Verif.Lemmas.FormChecks
import Verif.Props.Forms
import Verif.Props.Memory
import Verif.Props.Country
import Verif.Spec.Phrases
import Verif.Spec.ApartTable
import Verif.Lemmas.ApartChecks
import Verif.Props.Phrases
import Verif.Spec.Again
import Verif.Props.Again
import Verif.Props.AgainSamples
import Verif.Props.AgainCountry
import Verif.Spec.Together
import Verif.Lemmas.Together
import Verif.Props.Together
import Verif.Spec.Naming
import Verif.Props.Naming
import Verif.Spec.Labels
import Verif.Lemmas.Labels
import Verif.Props.Labels
import Verif.Props.LabelRows
import Verif.Spec.Portions
import Verif.Props.Portions
import Verif.Check.Suite
