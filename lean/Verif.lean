import Verif.AgainProps
import Verif.AgreeProps
import Verif.Aid
import Verif.AidProps
import Verif.Apdu
import Verif.ApduExactProps
import Verif.ApduProps
import Verif.App
import Verif.AppAlt
import Verif.AppAltProps
import Verif.AppProps
import Verif.ArcTable
import Verif.Argp
import Verif.ArgpProps
import Verif.Atr
import Verif.AtrEmvProps
import Verif.AtrLemmas
import Verif.AtrParLemmas
import Verif.AtrProps
import Verif.AtrRunLemmas
import Verif.AtrSpec
import Verif.AtrStr
import Verif.AtrStrLemmas
import Verif.AtrStrProps
import Verif.Base
import Verif.BeNat
import Verif.Ber
import Verif.BerExactProps
import Verif.BerInv
import Verif.BerLemmas
import Verif.BerProps
import Verif.BerSpec
import Verif.Bits
import Verif.BitsInj
import Verif.BitsLemmas
import Verif.BitsProps
import Verif.BlockedProps
import Verif.Capdu
import Verif.CapduExactProps
import Verif.CapduProps
import Verif.Codes
import Verif.CodesProps
import Verif.CompactTlv
import Verif.CompactTlvProps
import Verif.CompleteDirProps
import Verif.CompleteProps
import Verif.Debug
import Verif.DebugProps
import Verif.Decode
import Verif.DecodeArgs
import Verif.DecodeArgsProps
import Verif.DecodeArgsSpec
import Verif.DecodeCodeProps
import Verif.DecodeFieldProps
import Verif.DecodeLemmas
import Verif.DecodeListProps
import Verif.DecodeProps
import Verif.DecodeRunProps
import Verif.DecodeSafeProps
import Verif.DeliverProps
import Verif.DirectoryProps
import Verif.Dol
import Verif.DolProps
import Verif.Emv
import Verif.EmvGpoProps
import Verif.EmvHistoryProps
import Verif.EmvReadProps
import Verif.EmvSelectProps
import Verif.FailureProps
import Verif.Fields
import Verif.FieldsProps
import Verif.Formats
import Verif.FormatsProps
import Verif.Hex
import Verif.HexProps
import Verif.Iad
import Verif.IadLemmas
import Verif.IadProps
import Verif.Iso8859
import Verif.Iso8859Alt
import Verif.Iso8859AltProps
import Verif.Iso8859Props
import Verif.IsoStr
import Verif.IsoStrProps
import Verif.LinkedList
import Verif.LinkedListHistory
import Verif.LinkedListLemmas
import Verif.LinkedListProps
import Verif.Lists
import Verif.ListsLemmas
import Verif.ListsProps
import Verif.MemoryProps
import Verif.MoreLemmas
import Verif.MoreProps
import Verif.Names
import Verif.NamesProps
import Verif.Nest
import Verif.NestLemmas
import Verif.NestProps
import Verif.OthersProps
import Verif.Own
import Verif.OwnProps
import Verif.Pcsc
import Verif.PcscConn
import Verif.PcscConnProps
import Verif.PcscInit
import Verif.PcscInitProps
import Verif.PcscProps
import Verif.Print
import Verif.PrintCard
import Verif.PrintCardLemmas
import Verif.PrintCardProps
import Verif.PrintCardSpec
import Verif.PrintEmvLemmas
import Verif.PrintEmvProps
import Verif.PrintEmvSpec
import Verif.PrintEventProps
import Verif.PrintLemmas
import Verif.PrintProps
import Verif.PrintSpec
import Verif.PrintUniqueProps
import Verif.RepoTestDecode
import Verif.RepoTestFields
import Verif.RepoTestKernel
import Verif.RepoTestTtl
import Verif.SameLemmas
import Verif.SameProps
import Verif.Scarce
import Verif.ScarceProps
import Verif.SearchProps
import Verif.Stack
import Verif.StackLemmas
import Verif.StackProps
import Verif.Str
import Verif.StrList
import Verif.StrListProps
import Verif.StrPackProps
import Verif.StrProps
import Verif.SupportProps
import Verif.Tal
import Verif.TalGpoProps
import Verif.TalReadLemmas
import Verif.TalReadProps
import Verif.TalSelectLemmas
import Verif.TalSelectProps
import Verif.TellsLemmas
import Verif.TellsProps
import Verif.Text
import Verif.ThirdParty
import Verif.ThirdPartyProps
import Verif.ThirdPartyTextProps
import Verif.TlvInfo
import Verif.TlvInfoLemmas
import Verif.TlvInfoProps
import Verif.TlvInfoSafe
import Verif.TlvInfoSame
import Verif.TlvInvProps
import Verif.TlvParse
import Verif.TlvParseProps
import Verif.ToolArgs
import Verif.ToolArgsProps
import Verif.ToolChoiceProps
import Verif.ToolFlowProps
import Verif.ToolMain
import Verif.ToolMainProps
import Verif.ToolReaders
import Verif.ToolReadersProps
import Verif.ToolRunProps
import Verif.ToolTxn
import Verif.ToolTxnProps
import Verif.ToolWords
import Verif.ToolWordsProps
import Verif.TpduProps
import Verif.Trace
import Verif.TraceAtr
import Verif.TraceAtrProps
import Verif.TraceCause
import Verif.TraceCauseProps
import Verif.TraceChain
import Verif.TraceErase
import Verif.TraceExactProps
import Verif.TraceOdaProps
import Verif.TraceOut
import Verif.TraceOutProps
import Verif.TraceProps
import Verif.TraceReason
import Verif.TraceTtl
import Verif.Ttl
import Verif.TtlBoundProps
import Verif.TtlLemmas
import Verif.TtlProps
import Verif.TtlSafe
import Verif.TtlTrace
import Verif.TwoWaysProps
import Verif.Viewer
import Verif.ViewerHexLemmas
import Verif.ViewerLemmas
import Verif.ViewerLookLemmas
import Verif.ViewerProps
import Verif.ViewerSpec
import Verif.ViewerText
import Verif.ViewerTextLemmas
import Verif.ViewerTextProps
import Verif.ViewerTextSpec
import Verif.ViewerWindow
import Verif.ViewerWindowLemmas
import Verif.ViewerWindowProps
import Verif.WarningProps
import Verif.Work
import Verif.WorkLemmas
import Verif.WorkProps
