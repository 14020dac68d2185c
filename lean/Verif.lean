import Verif.Model.CharPreds
import Verif.Model.Cli
import Verif.Model.Constants
import Verif.Model.Convert
import Verif.Model.GetChunk
import Verif.Model.KanaNode
import Verif.Model.KanaTreeData
import Verif.Model.RomajiNode
import Verif.Model.RomajiTreeData
import Verif.Model.Std
import Verif.Model.StrPreds
import Verif.Model.Tokenize
import Verif.Model.Trees
import Verif.Model.Trim
import Verif.Spec.Scripts
import Verif.Proofs.Chars
import Verif.Props.Predicates
import Verif.Spec.Tokens
import Verif.Proofs.Tokens
import Verif.Props.Tokenize
import Verif.Props.Trim
import Verif.Props.GetChunk
import Verif.Proofs.Scan
import Verif.Proofs.KanaTrie
import Verif.Proofs.ToKana
import Verif.Proofs.KanaFacts
import Verif.Proofs.KanaTable
import Verif.Spec.RomajiTable
import Verif.Spec.ToKana
import Verif.Spec.ConversionTable
import Verif.Props.ToKana
import Verif.Props.ToKana2
import Verif.Props.ToKana3
import Verif.Proofs.RomajiTrie
import Verif.Spec.KanaShift
import Verif.Proofs.K2h
import Verif.Props.KanaShift
import Verif.Proofs.ToRomaji
import Verif.Model.StdConcrete
import Verif.Spec.ToRomaji
import Verif.Proofs.RomajiTable
import Verif.Proofs.StdConcrete
import Verif.Model.StdUnicode
import Verif.Proofs.StdUnicode
import Verif.Props.ToRomaji
import Verif.Props.ToRomaji2
import Verif.Proofs.Lower
import Verif.Props.Convert
import Verif.Spec.Convert
import Verif.Props.Convert2
import Verif.Spec.RoundTrip
import Verif.Proofs.RoundTrip
import Verif.Props.RoundTrip
import Verif.Props.Cli
import Verif.Props.Trim2
import Verif.Model.Traits
import Verif.Props.Traits
import Verif.Props.KanaShift2
import Verif.Props.ToKana4
import Verif.Props.Convert3
import Verif.Props.Convert4
import Verif.Props.Tokenize2
import Verif.Props.Upstream
import Verif.Spec.RomajiCut
import Verif.Props.RomajiCut
import Verif.Spec.KanaCut
import Verif.Props.ToKana5
import Verif.Props.RomajiNormal
import Verif.Props.RomajiDet
import Verif.Spec.RomajiPairs
import Verif.Props.RomajiPairs
import Verif.Props.RoundTrip2
import Verif.Spec.Platform
import Verif.Props.Platform
import Verif.Spec.Canonical
import Verif.Props.Canonical
import Verif.Props.RoundTrip3
import Verif.Props.RoundTrip4
import Verif.Model.Cost
import Verif.Props.Cost
import Verif.Spec.Typing
import Verif.Props.Typing
import Verif.Props.Streaming
import Verif.Props.Complete
import Verif.Props.Kernel
import Verif.Props.Bytes
import Verif.Props.Checks
import Verif.Props.BothWays
import Verif.Props.LeftAlone
import Verif.Props.TokenKana
import Verif.Props.KanaResult
import Verif.Props.RomajiPieces
import Verif.Props.Casing
import Verif.Props.Utf8
import Verif.Props.RomajiVu
import Verif.Props.Platform2
import Verif.Props.Utf8Trim
import Verif.Props.Utf8Convert
import Verif.Props.Utf8Cli
import Verif.Props.LazyApi
import Verif.Props.GroupBy
import Verif.Props.StrSearcher
import Verif.Props.CostTokens
import Verif.Props.CostTrim
import Verif.Props.RoundTripVu
import Verif.Props.RoundTripScripts
import Verif.Props.RoundTripLatin
import Verif.Props.Stdio
import Verif.Props.Lines
import Verif.Props.CanonicalAll
import Verif.Props.RoundTripScripts2
import Verif.Props.RoundTrip5
import Verif.Props.ScriptResult
import Verif.Props.DebugPrint
import Verif.Props.SourceTrees
import Verif.Props.SourceJson
import Verif.Props.RomajiUp
import Verif.Props.Settle
import Verif.Props.RoundTripIme
import Verif.Props.CanonicalIme
import Verif.Props.SettleIme
import Verif.Props.RoundTripScripts3
import Verif.Props.ImeAgree
import Verif.Props.RoundTripIme2
import Verif.Props.ImeAgree2
import Verif.Props.ObsAgree
import Verif.Props.PassAgree
import Verif.Props.CanonicalUp
import Verif.Props.ScriptRomaji
import Verif.Props.CanonicalUpIme
import Verif.Props.UpcaseChange
import Verif.Props.RomajiUpAll
import Verif.Props.Sigma
import Verif.Props.SigmaRust
import Verif.Props.PunctWays
import Verif.Props.TypingMixed
import Verif.Props.TokenScripts
import Verif.Props.RomajiResume
import Verif.Props.KanaPieces
import Verif.Tests.Repo1
import Verif.Tests.Repo2
import Verif.Tests.Repo3
import Verif.Tests.Repo4
