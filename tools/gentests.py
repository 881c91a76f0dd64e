import sys
R='/repo/tests/'
def lit(p):
    s=open(R+p,encoding='utf-8').read()
    return '"'+s.replace('\\','\\\\').replace('"','\\"').replace('\n','\\n')+'"'
gz=list(open(R+'input/time_city.csv.gz','rb').read())
def lines(p):
    # readable: one literal per line, concatenated
    s=open(R+p,encoding='utf-8',newline='').read()
    parts=s.split('\n')
    out=[]
    for i,x in enumerate(parts):
        if i<len(parts)-1: x+='\n'
        if x: out.append('"'+x.replace('\\','\\\\').replace('"','\\"').replace('\n','\\n').replace('\r','\\r')+'"')
    return ' ++\n    '.join(out)
print('''import Verif.Model.LibGraph
import Verif.Model.CsvCrate
import Verif.Model.Cli
import Verif.Model.Gzip
import Verif.Model.Chrono
import Verif.Model.RustFloat

/-!
# The project's integration tests, run on the model

`/repo/tests/*.rs` run the library on the files in `/repo/tests/input` and compare with the files in `/repo/tests/reference`. Here the same runs are done by the model, with its transcriptions of the csv
crate and of chrono, and compared with the same reference files.  These are tests of the model, not proofs of properties: they give evidence that the model is one of this program.
This file is generated from `/repo/tests` by `tools/gentests.py`.
-/
namespace Chopper.Tests
open Chopper Chopper.Chrono
''')
for name,p in [('timeCity','input/time_city.csv'),('multi1','input/multi_file/1.csv'),('multi2','input/multi_file/2.csv'),('multi3','input/multi_file/3.csv'),('multiInner','input/multi_file/inner/inner.csv'),
   ]:
    print(f'/-- `/repo/tests/{p}` -/\ndef {name} : String :=\n    {lines(p)}\n')
print(f'/-- `/repo/tests/input/time_city.csv.gz` -/\ndef timeCityGz : List Byte :=\n  {gz}\n'.replace('[','[').replace(', ',', '))
refs=[('refTimestamp1','test_timestamp_1'),('refTimestamp2','test_timestamp_2'),('refMerge','test_merge'),('refFilters','test_filters'),('refMultiFile','test_multi_file'),('refMultiRow','test_multi_row_output'),('refDecompress','test_decompress'),('refSplitMerge','test_split_merge_simple')]+[(f'refComplex{k}',f'test_split_merge_complex_chain{k}') for k in (2,3,4,5,7)]
for n,p in refs:
    print(f'/-- `/repo/tests/reference/{p}.csv` -/\ndef {n} : String :=\n    {lines("reference/"+p+".csv")}\n')
# NY transitions
from datetime import datetime,timezone
import zoneinfo
tz=zoneinfo.ZoneInfo('America/New_York')
print('''/-! ## The world of the tests -/

/-- The offset changes of `America/New_York` from 2015 to 2020. -/
def newYork : TzSpans := ⟨-18000, [(1425798000, -14400), (1446357600, -18000), (1457852400, -14400), (1478412000, -18000), (1489302000, -14400), (1509861600, -18000), (1520751600, -14400),
  (1541311200, -18000), (1552201200, -14400), (1572760800, -18000), (1583650800, -14400), (1604210400, -18000)]⟩

def env : CsvEnv := ⟨.panics, chrono, csvCrate, rustIsF64, fun s => s.map asciiLower⟩

def path (s : String) : Path := utf8Encode s.toList

/-- The files in `/repo/tests/input`. -/
def files : List (Path × List Byte) :=
  [(path "./tests/input/time_city.csv", utf8Encode timeCity.toList), (path "./tests/input/time_city.csv.gz", timeCityGz), (path "./tests/input/multi_file/1.csv", utf8Encode multi1.toList),
   (path "./tests/input/multi_file/2.csv", utf8Encode multi2.toList), (path "./tests/input/multi_file/3.csv", utf8Encode multi3.toList), (path "./tests/input/multi_file/inner/inner.csv", utf8Encode multiInner.toList)]

/-- ... as a world; the directory is listed in some order. -/
def world : World :=
  { pathExists := fun p => (files.lookup p).isSome || p == path "./tests/input/multi_file" || p == path "./tests/input/multi_file/inner"
    isDir := fun p => p == path "./tests/input/multi_file" || p == path "./tests/input/multi_file/inner"
    file := fun p => (files.lookup p).map fun c => ⟨c, [], none⟩
    listing := fun p => if p == path "./tests/input/multi_file" then
        some (["./tests/input/multi_file/inner", "./tests/input/multi_file/2.csv", "./tests/input/multi_file/3.csv", "./tests/input/multi_file/1.csv"].map fun x => some (path x))
      else none
    http := fun _ => .err (.io .other)
    stdin := ⟨[], [], none⟩ }

/-- gzip as modelled in `Model/Gzip` (header, checksum, length); only inflating is given by the result. -/
def gz : GzCrate := ⟨fun body => .complete (utf8Encode timeCity.toList) (body.drop (body.length - 8)), fun _ => []⟩

def dec : Decoders := ⟨gzReader gz, fun r => r.inner, fun r => r.inner, fun _ => none, fun _ => none⟩

def zipLib : ZipLib := ⟨fun _ => [], id, id, []⟩

def sinkEnv : SinkEnv := ⟨⟨fun _ => [], fun _ => []⟩, ⟨fun bs => [bs], by simp⟩, .panics⟩

/-- `CSVInputConfig::new(None, YesNoAuto::Auto, ts_config)?` and `InputFactory::new(csv_input_config, None, None)?`. -/
def inputs (col : TimestampColConfig) (fmt : TimestampFmtConfig) : Inputs FileSource :=
  newInputs env dec zipLib world (some ⟨none, .auto, col, fmt, some newYork.fromLocal⟩) [] []

/-- The sources are opened one after the other. -/
def openAll (col : TimestampColConfig) (fmt : TimestampFmtConfig) : List String → Res (List FileSource)
  | [] => .ok []
  | p :: ps => (createFromInput (inputs col fmt) world ⟨.path p.toList, .auto⟩).bind fun f => (openAll col fmt ps).bind fun fs => .ok (f :: fs)

/-- The sinks of the tests: those of the library, and `MultiRowFilter` (`/repo/tests/test_multi_row_output.rs:68-89`). -/
inductive TSink where
  | lib (s : LibSink)
  | triple

def tOps : SinkOps TSink :=
  ⟨fun s r => match s with
    | .lib s => let o := s.write sinkEnv r; (.lib o.1, o.2)
    | .triple => (.triple, .ok [r, r, r]),
   fun s => match s with
    | .lib s => let o := s.flush; (.lib o.1, o.2)
    | .triple => (.triple, .ok ())⟩

/-- `CSVOutputConfig::new_default()`. -/
def defaultOut : CsvOutputConfig := CsvOutputConfig.new [','] true none .epoch .nanos none

/-- `factory::new_header_sink(Some(output), Some(csv_output_config))?` with a new file. -/
def output : HNode TSink := .sink fun h => ((newHeaderSink sinkEnv ⟨fun _ => some ⟨[], [], 0⟩, ⟨[], [], 0⟩⟩ (some "x.csv".toList) defaultOut).2.bind (outHeader · h)).map fun p => (.lib p.1, p.2)

def node (f : Header → Res (BSink × Header)) : HNode TSink := .sink fun h => (nodeHeader f h).map fun p => (.lib p.1, p.2)

/-- What is in the files of a chain after the sinks are dropped. -/
def chainFiles (c : DChain TSink) : List (List Byte) :=
  c.filterMap fun n => match n with
    | .sink (.lib (.out (.csv _ w))) => some w.close.taken
    | _ => none

/-- A test: open the inputs, make the graph and the driver, drive; the files written by the chains. -/
def run (ins : Res (List FileSource)) (chains : List (HChain TSink)) (range : TimestampRange) : Res (List (List Byte)) :=
  ins.bind fun fs =>
  (newDriver true (.lib (.node .mergeJoin)) 100 fs.length chains (fs.map (·.header))).bind fun g =>
  match driveGraph tOps range 100 1000 (fs.map (·.source)) g with
  | (g', .ok ()) => .ok (g'.chains.flatMap chainFiles)
  | (_, .err e) => .err e
  | (_, .panic) => .panic
  | (_, .diverge) => .diverge

def dateTime : TimestampColConfig := .name "DateTime".toList
def city : String := "./tests/input/time_city.csv"
''')
print(open(__import__('os').path.join(__import__('os').path.dirname(__import__('os').path.abspath(__file__)),'gentests_tail.lean.in')).read())
