import Verif.Codec.Decode
import Verif.Codec.Encode
import Verif.Codec.Lexer
import Verif.Codec.Rel
import Verif.Codec.Schema
import Verif.Codec.Text
import Verif.Codec.Tree
import Verif.Codec.Type
import Verif.Codec.Xml
import Verif.Gen.Accessors
import Verif.Gen.Enums
import Verif.Gen.LeafElements
import Verif.Gen.Schema
import Verif.Gen.Status
import Verif.Gen.Structs
import Verif.Gen.Types
import Verif.Go.Str
import Verif.Lemmas.Access
import Verif.Lemmas.Alike
import Verif.Lemmas.Amount
import Verif.Lemmas.AmountPrint
import Verif.Lemmas.AmountSize
import Verif.Lemmas.AmountText
import Verif.Lemmas.Bufio
import Verif.Lemmas.Calendar
import Verif.Lemmas.Cli
import Verif.Lemmas.Client
import Verif.Lemmas.CodecEmit
import Verif.Lemmas.CodecMain
import Verif.Lemmas.CodecRT
import Verif.Lemmas.CodecType
import Verif.Lemmas.Concurrent
import Verif.Lemmas.Cut
import Verif.Lemmas.Date
import Verif.Lemmas.DateParse
import Verif.Lemmas.DateText
import Verif.Lemmas.DateTextAll
import Verif.Lemmas.DateTextIff
import Verif.Lemmas.DateTextZone
import Verif.Lemmas.DateZone
import Verif.Lemmas.DecodeDoc
import Verif.Lemmas.DocHeader
import Verif.Lemmas.Elements
import Verif.Lemmas.EncodeOk
import Verif.Lemmas.Enum
import Verif.Lemmas.Exact
import Verif.Lemmas.ExactCheck
import Verif.Lemmas.GrammarChars
import Verif.Lemmas.GrammarData
import Verif.Lemmas.GrammarDoc
import Verif.Lemmas.GrammarMarkup
import Verif.Lemmas.GrammarTag
import Verif.Lemmas.GrammarTree
import Verif.Lemmas.Header
import Verif.Lemmas.Layout
import Verif.Lemmas.LayoutCut
import Verif.Lemmas.Leaf
import Verif.Lemmas.LeafSays
import Verif.Lemmas.Lexer
import Verif.Lemmas.Lines
import Verif.Lemmas.ListKinds
import Verif.Lemmas.Lists
import Verif.Lemmas.Loans
import Verif.Lemmas.Main
import Verif.Lemmas.Marshal
import Verif.Lemmas.Meaning
import Verif.Lemmas.MsgSets
import Verif.Lemmas.Number
import Verif.Lemmas.Numeral
import Verif.Lemmas.Pad
import Verif.Lemmas.Pause
import Verif.Lemmas.Place
import Verif.Lemmas.Prefix
import Verif.Lemmas.Read
import Verif.Lemmas.ReadDoc
import Verif.Lemmas.Reader
import Verif.Lemmas.Reuse
import Verif.Lemmas.ReuseLeft
import Verif.Lemmas.SameValid
import Verif.Lemmas.Saved
import Verif.Lemmas.Says
import Verif.Lemmas.SaysDoc
import Verif.Lemmas.SaysMain
import Verif.Lemmas.SaysText
import Verif.Lemmas.SchemaSays
import Verif.Lemmas.Secret
import Verif.Lemmas.Shape
import Verif.Lemmas.Sharing
import Verif.Lemmas.Size
import Verif.Lemmas.Str
import Verif.Lemmas.Stray
import Verif.Lemmas.Stream
import Verif.Lemmas.StreamAhead
import Verif.Lemmas.StreamNext
import Verif.Lemmas.StreamOpen
import Verif.Lemmas.TextCheck
import Verif.Lemmas.Truncate
import Verif.Lemmas.Url
import Verif.Lemmas.Utf8
import Verif.Lemmas.Valid
import Verif.Lemmas.Written
import Verif.Lemmas.WrittenElements
import Verif.Lemmas.XmlHeader
import Verif.Model.Amount
import Verif.Model.Bufio
import Verif.Model.Checked
import Verif.Model.Cli
import Verif.Model.Client
import Verif.Model.Concurrent
import Verif.Model.Cookie
import Verif.Model.Date
import Verif.Model.Decode
import Verif.Model.Delivery
import Verif.Model.Disk
import Verif.Model.Enum
import Verif.Model.Header
import Verif.Model.Listed
import Verif.Model.Main
import Verif.Model.Marshal
import Verif.Model.Message
import Verif.Model.NewDate
import Verif.Model.Nil
import Verif.Model.Sharing
import Verif.Model.Stream
import Verif.Model.Types
import Verif.Model.Upload
import Verif.Model.Url
import Verif.Model.Valid
import Verif.Props.Accept
import Verif.Props.Access
import Verif.Props.AccessRead
import Verif.Props.Alike
import Verif.Props.Amount
import Verif.Props.AmountText
import Verif.Props.Answered
import Verif.Props.AskAgain
import Verif.Props.Belongs
import Verif.Props.Cases
import Verif.Props.Charset
import Verif.Props.Cli
import Verif.Props.CliAsk
import Verif.Props.CliCrash
import Verif.Props.CliDetect
import Verif.Props.CliLines
import Verif.Props.CliPause
import Verif.Props.CliShow
import Verif.Props.CliWorks
import Verif.Props.Client
import Verif.Props.Codec
import Verif.Props.Concurrent
import Verif.Props.Cookie
import Verif.Props.CookieOrigin
import Verif.Props.Date
import Verif.Props.DateText
import Verif.Props.Delivery
import Verif.Props.Disk
import Verif.Props.Document
import Verif.Props.Entrust
import Verif.Props.Enum
import Verif.Props.Equal
import Verif.Props.Grammar
import Verif.Props.Header
import Verif.Props.Http
import Verif.Props.Kinds
import Verif.Props.Leaf
import Verif.Props.Listed
import Verif.Props.Loose
import Verif.Props.Main
import Verif.Props.Marshal
import Verif.Props.Meaning
import Verif.Props.NewDate
import Verif.Props.Nil
import Verif.Props.NoPanic
import Verif.Props.Place
import Verif.Props.Reader
import Verif.Props.Refused
import Verif.Props.RepoTests
import Verif.Props.Reuse
import Verif.Props.ReuseLeft
import Verif.Props.Saved
import Verif.Props.Says
import Verif.Props.Secret
import Verif.Props.Sharing
import Verif.Props.Size
import Verif.Props.Sorts
import Verif.Props.Stream
import Verif.Props.StreamWait
import Verif.Props.Text
import Verif.Props.Truncate
import Verif.Props.Upload
import Verif.Props.Url
import Verif.Props.Valid
import Verif.Props.Written
import Verif.Props.Zone
import Verif.Spec.Accept
import Verif.Spec.Access
import Verif.Spec.Alike
import Verif.Spec.AmountText
import Verif.Spec.Answered
import Verif.Spec.AskAgain
import Verif.Spec.Belongs
import Verif.Spec.Charset
import Verif.Spec.Cli
import Verif.Spec.CliDetect
import Verif.Spec.CliWorks
import Verif.Spec.Client
import Verif.Spec.Cookie
import Verif.Spec.Date
import Verif.Spec.DateText
import Verif.Spec.Decimal
import Verif.Spec.Document
import Verif.Spec.Elements
import Verif.Spec.Entrust
import Verif.Spec.Equal
import Verif.Spec.Exact
import Verif.Spec.Grammar
import Verif.Spec.Header
import Verif.Spec.Http
import Verif.Spec.Kinds
import Verif.Spec.Layout
import Verif.Spec.LeafSays
import Verif.Spec.Leaves
import Verif.Spec.Lines
import Verif.Spec.Listed
import Verif.Spec.Lists
import Verif.Spec.Loose
import Verif.Spec.Main
import Verif.Spec.Meaning
import Verif.Spec.NewDate
import Verif.Spec.Nil
import Verif.Spec.Number
import Verif.Spec.Numeral
import Verif.Spec.Place
import Verif.Spec.Race
import Verif.Spec.Reader
import Verif.Spec.Refused
import Verif.Spec.Reuse
import Verif.Spec.Saved
import Verif.Spec.Says
import Verif.Spec.Secret
import Verif.Spec.Size
import Verif.Spec.Stream
import Verif.Spec.Upload
import Verif.Spec.Url
import Verif.Spec.Valid
import Verif.Spec.Written
import Verif.Spec.WrittenDocument
import Verif.Spec.Zone
