import Verif.Model.Tools
import Verif.Model.Specs
import Verif.Lemmas.Dict
import Verif.Lemmas.Num
import Verif.Lemmas.Bits
import Verif.Lemmas.Sets
import Verif.Lemmas.Decode
import Verif.Lemmas.EncodeRun
import Verif.Lemmas.Bridge
import Verif.Model.Exceptions
import Verif.Props.Codecs
import Verif.Props.Demo
import Verif.Props.DecodeFraming
import Verif.Props.DecodeContent
import Verif.Props.Exceptions
import Verif.Spec.Encode
import Verif.Lemmas.EncodeField
import Verif.Lemmas.EncodeMsg
import Verif.Lemmas.EncodeReads
import Verif.Lemmas.EncodeItems
import Verif.Props.EncodeRoundTrip
import Verif.Lemmas.EncodeErr
import Verif.Lemmas.EncodeCongr
import Verif.Lemmas.EncodeFault
import Verif.Props.EncodeDict
import Verif.Props.EncodeFailure
import Verif.Props.EncodeAttribution
import Verif.Props.SpecDependence
import Verif.Spec.DecodeFault
import Verif.Lemmas.DecodeFault
import Verif.Props.DecodeFailure
import Verif.Props.LengthPrefix
import Verif.Spec.Canonical
import Verif.Lemmas.DecodeWrites
import Verif.Props.DecodeEncode
import Verif.Props.Shipped
import Verif.Spec.PrettyPrint
import Verif.Lemmas.Fold
import Verif.Lemmas.Pp
import Verif.Props.PrettyPrint
import Verif.Props.PrettyPrintResult
import Verif.Spec.Grammar
import Verif.Lemmas.Grammar
import Verif.Lemmas.GrammarEncode
import Verif.Props.Grammar
import Verif.Props.ShippedAccept
import Verif.Props.SpecLocal
import Verif.Props.DecodeTotal
import Verif.Props.EncodeTotal
import Verif.Props.PrettyPrintTotal
import Verif.Props.Normalise
import Verif.Props.Overwrite
import Verif.Props.Findings
import Verif.Props.Incremental
import Verif.Props.Instances
import Verif.Props.Size
import Verif.Props.DecodeSize
import Verif.Props.SizeTight
import Verif.Props.Edit
import Verif.Props.Partial
import Verif.Props.Stream
import Verif.Props.AddRemove
import Verif.Props.Widen
import Verif.Props.Gateway
import Verif.Lemmas.PpRead
import Verif.Props.PrettyPrintRead
import Verif.Props.ErrorText
import Verif.Props.Patch
import Verif.Spec.Sentences
import Verif.Props.Sentences
import Verif.Spec.Salvage
import Verif.Props.Salvage
import Verif.Spec.Literal
import Verif.Lemmas.Literal
import Verif.Props.PrettyPrintLiteral
import Verif.Spec.Python
import Verif.Props.Python
import Verif.Props.PythonMore
import Verif.Spec.Json
import Verif.Props.Json
import Verif.Model.Format
import Verif.Spec.Format
import Verif.Props.Format
import Verif.Source.Attr
import Verif.Source.Names
import Verif.Source.Syntax
import Verif.Source.Semantics
import Verif.Source.Code
import Verif.Source.Run
import Verif.Source.Rep
import Verif.Source.DecodeBase
import Verif.Source.DecodeText
import Verif.Source.DecodeStmt
import Verif.Source.DecodeField
import Verif.Source.DecodeBitmap
import Verif.Source.DecodeType
import Verif.Source.Decode
import Verif.Props.SourceDecode
import Verif.Source.EncodeBase
import Verif.Source.EncodeText
import Verif.Source.EncodeBinary
import Verif.Source.EncodeStmt
import Verif.Source.EncodeField
import Verif.Source.EncodeHead
import Verif.Source.EncodeBitmap
import Verif.Source.Encode
import Verif.Props.SourceEncode
import Verif.Source.ToolsWrap
import Verif.Source.ToolsField
import Verif.Source.Tools
import Verif.Props.SourceTools
import Verif.Props.SourceMissing
import Verif.Props.SourceFresh
import Verif.Props.SourceSession
import Verif.Props.SourceValues
import Verif.Props.SourceArgs
import Verif.Props.SourceCalls
import Verif.Props.SourceErrors
import Verif.Props.SourceRound
import Verif.Source.SpecsCode
import Verif.Props.SourceSpecs
import Verif.Source.Freeze
import Verif.Source.FreezeOps
import Verif.Source.FreezeRun
import Verif.Source.Heap
import Verif.Props.SourceHeap
import Verif.Source.Lexer
import Verif.Source.Spellings
import Verif.Source.Parser
import Verif.Source.Equal
import Verif.Source.Text
import Verif.Props.SourceText
import Verif.Props.Capacity
