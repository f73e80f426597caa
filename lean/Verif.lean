import Verif.Facets.Props
import Verif.Width.Props
import Verif.Dest.Props
import Verif.Utf.Props
import Verif.Sbc.Props
import Verif.Charset.Props
import Verif.Numpunct.Props
import Verif.IntDigits.Props
import Verif.IntPrinter.Props
import Verif.Print.Props
import Verif.Print.StringProps
import Verif.Print.TrProps
import Verif.Print.Alias
import Verif.Print.AliasProps
import Verif.Print.CharProps
import Verif.Print.PolicyProps
import Verif.Float.Props
import Verif.Float.ReadBack
import Verif.Dragonbox.Props
import Verif.WidthCalc.Props
import Verif.Format.IntProps
import Verif.Format.FloatProps
import Verif.Format.StringProps
import Verif.Format.StringCopied
import Verif.Format.CharProps
import Verif.Locale.Props
import Verif.Program.CallProps
import Verif.Program.TrCallProps
import Verif.Program.Laws
import Verif.Program.Plain
import Verif.Transcode.PrintProps
import Verif.Transcode.NotesProps
import Verif.Transcode.NotesSharp
import Verif.Transcode.FlagBits
import Verif.Told.Items
import Verif.Told.Model
import Verif.Told.Spec
import Verif.Told.Strings
import Verif.Told.Props
import Verif.Told.CallProps
import Verif.Told.Tr
import Verif.Told.Cases
import Verif.Told.TrCall
import Verif.Told.Generic
import Verif.Told.GenericTr
import Verif.TrTold.Model
import Verif.TrTold.Spec
import Verif.TrTold.Props
import Verif.TrTold.TrCall
import Verif.TrTold.Cases
import Verif.Dragonbox.HexProps
import Verif.Dragonbox.RoundProps
import Verif.Conformance.Base
import Verif.Conformance.T1
import Verif.Conformance.T2
import Verif.Conformance.T3
import Verif.Conformance.T4
import Verif.Conformance.T5
import Verif.Conformance.T6
import Verif.Conformance.TranscodingBase
import Verif.Conformance.Transcoding
import Verif.Conformance.WidthBase
import Verif.Conformance.Width
import Verif.Lib.Props
import Verif.Punct.Props
import Verif.Chain.Props
import Verif.Threads.CallProps
import Verif.Width.OpsProps
import Verif.Conformance.WidthT
import Verif.Override.CallProps
import Verif.Direct.CaseProps
import Verif.Sbc.Sharp
import Verif.Ranges.CallProps
import Verif.Float.HexSharp
import Verif.Float.PrecisionIff
import Verif.Dragonbox.RoundSharp
import Verif.Format.IntSharp
import Verif.Locale.Sharp
import Verif.Utf.SizeSharp
import Verif.Dest.Sharp
import Verif.Program.Terminated
import Verif.IntPrinter.Sharp
import Verif.Numpunct.Sharp
import Verif.Numpunct.Asked
import Verif.Print.Sharp
import Verif.Print.JoinSharp
import Verif.IntPrinter.SepSharp
import Verif.WidthCalc.Sharp
import Verif.Print.StringSharp
import Verif.Float.SepSharp
import Verif.Program.Fits
import Verif.Program.TrTerminated
import Verif.Program.Streams
import Verif.Format.FloatSharp
import Verif.Format.CharSharp
import Verif.Transcode.NotesUnsafe
