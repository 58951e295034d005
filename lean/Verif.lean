import Verif.Model.Scanner
import Verif.Model.Bleve
import Verif.Model.Filter
import Verif.Model.History
import Verif.Props.Iteration
import Verif.Props.Split
import Verif.Props.Scanner
import Verif.Props.Graphemes
import Verif.Props.Words
import Verif.Props.Phrases
import Verif.Props.Sentences
import Verif.Props.Packages
import Verif.Props.LineEnds
import Verif.Props.LineEndsBytes
import Verif.Props.Clusters
import Verif.Props.Ansi
import Verif.Props.Utf8
import Verif.Props.Bleve
import Verif.Props.Filter
import Verif.Props.CustomSplit
import Verif.Model.IntIter
import Verif.Props.Pieces
import Verif.Props.Unions
import Verif.Model.Crc64
import Verif.Model.GenMain
import Verif.Props.TrieGen
import Verif.Props.Reference
import Verif.Props.Joiners
import Verif.Props.JoinersBytes
import Verif.Props.Classes
import Verif.Model.GenParse
import Verif.Spec.PropFile
import Verif.Spec.FileNames
import Verif.Proofs.GenParse
import Verif.Proofs.GenComplete
import Verif.Proofs.GenTests
import Verif.Props.GenParse
import Verif.Model.Chars
import Verif.Model.GenPrint
import Verif.Model.KernelRfl
import Verif.Spec.GoText
import Verif.Proofs.GoText
import Verif.Proofs.GenPrint
import Verif.Proofs.GoLayout
import Verif.Proofs.MaxValue
import Verif.Proofs.GenShipped
import Verif.Table.GraphemesText
import Verif.Table.WordsText
import Verif.Table.PhrasesText
import Verif.Table.SentencesText
import Verif.Props.GenPrint
import Verif.Model.Cost
import Verif.Proofs.Cost
import Verif.Proofs.CostBound
import Verif.Proofs.CostWords
import Verif.Proofs.CostIter
import Verif.Proofs.CostQuad
import Verif.Proofs.CostAnsi
import Verif.Proofs.CostLower
import Verif.Props.Cost
import Verif.Model.Memory
import Verif.Spec.Memory
import Verif.Proofs.Memory
import Verif.Props.Memory
import Verif.Tests.Graphemes
import Verif.Tests.Words
import Verif.Tests.Phrases
import Verif.Tests.Sentences
import Verif.Tests.GraphemesUnicode
import Verif.Tests.WordsUnicode
import Verif.Tests.SentencesUnicode
import Verif.Spec.Levels
import Verif.Proofs.JointClasses
import Verif.Proofs.Levels
import Verif.Proofs.LevelsWithin
import Verif.Props.Levels
import Verif.Proofs.Merge
import Verif.Props.Merge
import Verif.Spec.Repair
import Verif.Props.Repair
import Verif.Model.MachineTrie
import Verif.Props.MachineTrie
import Verif.Spec.Ascii
import Verif.Props.Ascii
import Verif.Props.AsciiSentences
import Verif.Proofs.Transparent
import Verif.Props.Transparent
import Verif.Props.EmojiWords
import Verif.Props.MarksBytes
import Verif.Spec.Shapes
import Verif.Props.CutSentences
import Verif.Props.WordShape
import Verif.Props.SentenceEnds
import Verif.Props.Runs
import Verif.Spec.ClusterGrammar
import Verif.Props.ClusterGrammar
import Verif.Props.LongestTokens
import Verif.Spec.WordGrammar
import Verif.Proofs.WordGrammar
import Verif.Props.WordGrammar
import Verif.Spec.SentenceGrammar
import Verif.Proofs.SentenceGrammar
import Verif.Props.SentenceGrammar
import Verif.Props.GrammarBytes
import Verif.Props.JoinerGrammar
import Verif.Spec.JoinerGrammar
import Verif.Props.LeadingGrammar
import Verif.Spec.AnsiGrammar
import Verif.Props.AnsiGrammar
import Verif.Spec.Replace
import Verif.Proofs.Replace
import Verif.Spec.Hangul
import Verif.Proofs.Hangul
import Verif.Props.Hangul
import Verif.Spec.Newlines
import Verif.Proofs.Newlines
import Verif.Proofs.NewlineRules
import Verif.Props.Newlines
import Verif.Spec.RunLength
import Verif.Proofs.RunLength
import Verif.Props.RunLength
import Verif.Props.RunKinds
import Verif.Props.RunExchange
import Verif.Props.Edit
import Verif.Spec.Parallel
import Verif.Spec.Stream
import Verif.Props.Stream
import Verif.Spec.Exchange
import Verif.Props.Exchange
import Verif.Props.GenConst
import Verif.Model.GenTests
import Verif.Spec.GoTokens
import Verif.Proofs.GenWriteTests
import Verif.Props.GenWriteTests
import Verif.Props.Exact
import Verif.Proofs.GenFit
import Verif.Props.GenFit
import Verif.Proofs.Settle
import Verif.Proofs.SettleRules
import Verif.Proofs.SettleJoiners
import Verif.Props.Append
import Verif.Spec.PropLine
import Verif.Proofs.GenLine
import Verif.Props.GenLine
import Verif.Spec.Sync
import Verif.Proofs.Sync
import Verif.Proofs.SyncRules
import Verif.Props.MoreText
import Verif.Props.Parallel
import Verif.Props.Sync
import Verif.Props.SyncJoiners
import Verif.Spec.Complete
import Verif.Proofs.Divide
import Verif.Props.Divide
import Verif.Proofs.Window
import Verif.Proofs.WindowWords
import Verif.Proofs.WindowPhrases
import Verif.Proofs.WindowSentences
import Verif.Props.Window
import Verif.Spec.TestText
import Verif.Proofs.GenTestText
import Verif.Props.GenTestText
import Verif.Spec.GoSizes
import Verif.Proofs.GenSizes
import Verif.Props.GenSizes
import Verif.Spec.GoCode
import Verif.Spec.GoRead
import Verif.Spec.GoPackage
import Verif.Table.GraphemesSource
import Verif.Table.GraphemesCode
import Verif.Table.WordsSource
import Verif.Table.WordsCode
import Verif.Table.PhrasesSource
import Verif.Table.PhrasesCode
import Verif.Table.SentencesSource
import Verif.Table.SentencesCode
import Verif.Proofs.GoExec
import Verif.Proofs.GoLookup
import Verif.Proofs.GoLoops
import Verif.Proofs.GoSplit
import Verif.Proofs.GoGraphemes
import Verif.Proofs.GoPhrases
import Verif.Proofs.GoWords
import Verif.Proofs.GoSentences
import Verif.Proofs.GoPackage
import Verif.Proofs.GoAnsi
import Verif.Proofs.GoBleve
import Verif.Props.GoSource
import Verif.Spec.GoApi
import Verif.Spec.GoReader
import Verif.Table.GenericSource
import Verif.Table.GenericCode
import Verif.Table.FilterSource
import Verif.Table.FilterCode
import Verif.Proofs.GoIter
import Verif.Proofs.GoApi
import Verif.Proofs.GoGeneric
import Verif.Props.GoApi
import Verif.Props.GoGeneric
import Verif.Props.GoReader
