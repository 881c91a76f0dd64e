import Verif.Model.Cli
import Verif.Spec.Driver
import Verif.Spec.Csv
import Verif.Spec.Dc

/-!
# Specification vocabulary for the command line tool
-/
namespace Chopper.Spec
open Chopper

/-- `rows` is the time-ordered merge of the inputs' rows within the range: in time order, and at each time exactly the rows the inputs have at
that time, each input's in its own order, those of later inputs first. -/
structure IsMerge (range : TimestampRange) (inputs : List (List Row)) (rows : List Row) : Prop where
  sorted : Sorted rows
  rowsAt : ∀ t, rows.filter (fun r => r.timestamp == t) = inputs.reverse.flatMap fun i => i.filter fun r => r.timestamp == t && inRange range r.timestamp

/-- CSV output goes to this device: standard output without `-o`, otherwise the created file, whose name ends in `csv`. -/
def CsvTo (o : OutWorld) (output : Option Str) (d : Device) : Prop :=
  (output = none ∧ d = o.stdout) ∨ ∃ p, output = some p ∧ "csv".toList <:+ p ∧ o.create (utf8Encode p) = some d

/-- DC output goes to this device: the created file, whose name ends in `dc`. -/
def DcTo (o : OutWorld) (output : Option Str) (d : Device) : Prop :=
  ∃ p, output = some p ∧ "dc".toList <:+ p ∧ o.create (utf8Encode p) = some d

/-- The device never fails. -/
def Reliable (d : Device) : Prop := ∀ k, WriteStep.fail k ∉ d.sched

/-- Texts with a text between any two. -/
def joinWith (d : Str) : List Str → Str
  | [] => []
  | [t] => t
  | t :: u :: ts => t ++ d ++ joinWith d (u :: ts)

/-- The lines of a CSV file: for each row the time column (if any) and one text per value, separated by the delimiter. -/
inductive CsvLines (ff : FloatFmt) (cfg : CsvOutputConfig) : List Row → Str → Prop
  | nil : CsvLines ff cfg [] []
  | cons {r : Row} {rs : List Row} {col texts : List Str} {rest : Str} : TimeCol cfg r.timestamp col → ValueTexts ff r.values texts →
      CsvLines ff cfg rs rest → CsvLines ff cfg (r :: rs) (joinWith cfg.delimiter (col ++ texts) ++ ['\n'] ++ rest)

/-- The inputs can be opened, as `files`. -/
def Opens (e : CliEnv) (st : CliSettings e.csv.lib) (files : List FileSource) : Prop :=
  files.length = st.inputs.length ∧ ∀ (i : Nat) inp f, st.inputs[i]? = some inp → files[i]? = some f →
    createFromInput (newInputs e.csv e.dec e.zip e.world (some st.inCfg) e.userFactories e.userTransports) e.world inp = .ok f

/-- The format for input number `i`: that of the same number in the list, the last one if the list is too short; `auto` and no list mean detection. -/
def FormatFor (formats : Option (List Str)) (i : Nat) (fmt : InputFormat) : Prop :=
  match formats with
  | none => fmt = .auto
  | some fs => ∃ t, ((i < fs.length ∧ fs[i]? = some t) ∨ (fs.length ≤ i ∧ ∃ before, fs = before ++ [t])) ∧
      (t = "auto".toList → fmt = .auto) ∧ (t ≠ "auto".toList → fmt = .extension t)

/-- The inputs of a run that can go well: all with header `h`, in time order, with a row in the range, readable up to the end of the range. -/
structure GoodInputs (range : TimestampRange) (h : Header) (files : List FileSource) : Prop where
  header : ∀ f ∈ files, f.header = h
  sorted : ∀ f ∈ files, Sorted f.source.rows
  some : ∀ f ∈ files, ∃ r ∈ f.source.rows, inRange range r.timestamp = true
  readable : ∀ f ∈ files, endingWithin range f.source = .eof

end Chopper.Spec
