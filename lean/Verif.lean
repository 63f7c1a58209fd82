import Verif.Props.Codec
import Verif.Props.TagMatcher
import Verif.Props.Reader
import Verif.Props.Built
import Verif.Props.ByteRecord
import Verif.Props.Matcher
import Verif.Props.Precedence
import Verif.Props.MatcherParse
import Verif.Props.Path
import Verif.Props.Format
import Verif.Props.FormatParse
import Verif.Props.Query
import Verif.Props.Filter
import Verif.Props.Explode
import Verif.Props.Split
import Verif.Props.Concat
import Verif.Props.ConcatStages
import Verif.Props.InvalidTwice
import Verif.Props.Joined
import Verif.Props.Partition
import Verif.Props.PartitionFiles
import Verif.Props.Place
import Verif.Props.Parts
import Verif.Props.AnyOrder
import Verif.Lemmas.Fast
import Verif.Props.Fast
import Verif.Props.LinkFast
import Verif.Props.Rewrite
import Verif.Props.StringAccess
import Verif.Props.PrintText
import Verif.Props.ArgsError
import Verif.Props.Progress
import Verif.Props.Lossy
import Verif.Props.Trim
import Verif.Props.Similar
import Verif.Props.Slice
import Verif.Props.Sample
import Verif.Props.Frequency
import Verif.Props.Select
import Verif.Props.Count
import Verif.Props.Convert
import Verif.Props.Isni
import Verif.Props.Checks
import Verif.Props.CheckOrder
import Verif.Props.Link
import Verif.Props.Writer
import Verif.Props.Predicates
import Verif.Props.Describe
import Verif.Props.Print
import Verif.Props.Display
import Verif.Props.CheckRules
import Verif.Props.CheckMessages
import Verif.Props.Args
import Verif.Props.PathParse
import Verif.Props.Pipeline
import Verif.Props.ExplodeTwice
import Verif.Props.Errors
import Verif.Props.Across
import Verif.Props.CheckOutput
import Verif.Props.Construct
import Verif.Props.Exact
import Verif.Props.Inclusion
import Verif.Props.Owned
import Verif.Props.SliceExact
import Verif.Props.ConvertExact
import Verif.Props.SplitExact
import Verif.Lemmas.Bound
import Verif.Props.Termination
import Verif.Model.Stream
import Verif.Spec.Stream
import Verif.Lemmas.Stream
import Verif.Props.Stream
import Verif.Model.Output
import Verif.Lemmas.Output
import Verif.Props.Output
import Verif.Model.Csv
import Verif.Spec.Csv
import Verif.Lemmas.Csv
import Verif.Props.Csv
import Verif.Model.XmlText
import Verif.Spec.Xml
import Verif.Lemmas.Xml
import Verif.Lemmas.XmlText
import Verif.Props.Xml
import Verif.Props.Json
import Verif.Model.ConfigFile
import Verif.Props.ConfigFile
import Verif.Props.Unique
import Verif.Model.RuleFile
import Verif.Spec.RuleFile
import Verif.Lemmas.RuleFile
import Verif.Props.RuleFile
import Verif.Model.ListFile
import Verif.Props.ListFile
import Verif.Model.Execute
import Verif.Spec.Options
import Verif.Props.Options
import Verif.Props.OptionsMore
import Verif.Props.Piped
import Verif.Props.Attempts
import Verif.Model.Compat
import Verif.Spec.Compat
import Verif.Props.Compat
import Verif.Conformance.Subfield
import Verif.Conformance.Field
import Verif.Conformance.Rest
import Verif.Conformance.Check
import Verif.Conformance.FilterCmd
import Verif.Conformance.SelectCmd
import Verif.Conformance.OtherCmds
import Verif.Spec.Survives
import Verif.Lemmas.Survives
import Verif.Props.NoPanic
import Verif.Props.NoPanicCheck
import Verif.Props.Algebra
import Verif.Model.Append
import Verif.Lemmas.Append
import Verif.Props.Append
import Verif.Spec.CodeLists
import Verif.Props.CodeLists
import Verif.Spec.Limit
import Verif.Lemmas.Limit
import Verif.Props.Limit
import Verif.Props.LimitCheck
import Verif.Props.LimitPipe
import Verif.Props.LimitFirst
import Verif.Model.SliceRuns
import Verif.Spec.SliceRuns
import Verif.Props.SliceRuns
import Verif.Props.SliceNested
