import Verif.Props.DcShort
import Verif.Props.ZipBroken
import Verif.Props.CutShort
import Verif.Props.PackedBroken
import Verif.Props.CsvBroken
import Verif.Props.CsvReceived3
import Verif.Props.CsvReceived2
import Verif.Props.FilterMergeProg2
import Verif.Props.Changing
import Verif.Props.Broken
import Verif.Props.Received
import Verif.Props.ZipCut
import Verif.Props.Stdout
import Verif.Props.InPlace
import Verif.Props.TimeFormatBack
import Verif.Props.TimeFormat
import Verif.Props.Live
import Verif.Props.Lag
import Verif.Props.Files
import Verif.Props.PackedDir
import Verif.Props.Delivery
import Verif.Props.Packed
import Verif.Spec.Packed
import Verif.Props.LibGraph
import Verif.Model.Compressed
import Verif.Props.GzTool
import Verif.Props.Gzip
import Verif.Proofs.Gzip
import Verif.Spec.Gzip
import Verif.Model.Gzip
import Verif.Props.DcDetect
import Verif.Props.SharedOut
import Verif.Proofs.SharedOut
import Verif.Spec.SharedOut
import Verif.Model.SharedOut
import Verif.Props.CsvHeader
import Verif.Proofs.RustFloat
import Verif.Spec.RustFloat
import Verif.Model.RustFloat
import Verif.Props.CsvQuoted
import Verif.Props.CsvCrate
import Verif.Proofs.CsvCrate
import Verif.Proofs.CsvBare
import Verif.Spec.CsvCrate
import Verif.Model.CsvCrate
import Verif.Props.CsvDir
import Verif.Spec.CsvDir
import Verif.Props.CsvCut
import Verif.Spec.CsvCut
import Verif.Props.CalendarColumns
import Verif.Props.CalendarCsv
import Verif.Props.Calendar
import Verif.Props.ZipFaults
import Verif.Props.FilterLaws
import Verif.Props.Cycles
import Verif.Props.Through
import Verif.Props.CliApp
import Verif.Spec.CliApp
import Verif.Model.CliApp
import Verif.Props.CsvIso
import Verif.Proofs.CsvIso
import Verif.Spec.CsvIso
import Verif.Props.DriverObj
import Verif.Props.Infistream
import Verif.Props.CsvExact
import Verif.Props.DcGrow
import Verif.Props.Routes
import Verif.Props.DcRow
import Verif.Props.Chopping
import Verif.Props.Driver
import Verif.Props.Graph
import Verif.Props.HeaderGraph
import Verif.Props.Filter
import Verif.Proofs.Utf8
import Verif.Props.RemoveMultiple
import Verif.Props.Reader
import Verif.Props.Csv2
import Verif.Props.CsvUtil
import Verif.Props.Timestamp
import Verif.Props.Timestamp2
import Verif.Props.Timestamp3
import Verif.Props.Dc
import Verif.Props.Csv
import Verif.Props.MultiFile
import Verif.Props.Zip
import Verif.Props.Zip2
import Verif.Props.Input2
import Verif.Props.Cli
import Verif.Props.Cli2
import Verif.Props.Cli3
import Verif.Props.Cli4
import Verif.Props.Cli5
import Verif.Props.Input3
import Verif.Props.Input4
import Verif.Props.Zst
import Verif.Props.FilterMerge
import Verif.Props.SplitGraph
import Verif.Props.Streaming
import Verif.Props.Cli6
import Verif.Props.Cli7
import Verif.Props.CsvRead
import Verif.Props.CsvRead2
import Verif.Props.Dcgen
import Verif.Props.CsvCopy
import Verif.Props.MergeLaws
import Verif.Props.Input5
import Verif.Proofs.InputCrc
import Verif.Tests.Integration
import Verif.Tests.Unit
