import Verif.Model.Cli

/-!
# The options of the tool (`/repo/src/cli_app.rs`) and how they are looked up (`/repo/src/chopper_cli.rs`)

The table of options is transcribed. The library `clap` (version 2) that splits the command line into options and values and checks it against the table is
represented by its contract, `Clap` below.
-/
namespace Chopper

/-- `clap::Arg`, as far as used. Without `long` and `short` it is the list of positional arguments. -/
structure OptDecl where
  name : Str
  long : Option Str := none
  short : Option Char := none
  takesValue : Bool := false
  /-- `multiple(true)` or `require_delimiter(true)`: any number of values -/
  many : Bool := false
  default : Option Str := none
  possible : Option (List Str) := none
  ignoreCase : Bool := false
  requires : List Str := []
  conflicts : List Str := []

/-- `create_cli_app` (`/repo/src/cli_app.rs:7-218`), without the help texts. -/
def cliApp : List OptDecl := [
  { name := "input".toList, takesValue := true, many := true },
  { name := "output".toList, long := some "output".toList, short := some 'o', takesValue := true },
  { name := "format".toList, long := some "format".toList, short := some 'f', takesValue := true, many := true },
  { name := "timezone".toList, long := some "timezone".toList, short := some 'z', takesValue := true, ignoreCase := true },
  { name := "begin".toList, long := some "begin".toList, short := some 'b', takesValue := true },
  { name := "end".toList, long := some "end".toList, short := some 'e', takesValue := true },
  { name := "backtrace".toList, long := some "backtrace".toList },
  { name := "csv_out_time_col_name".toList, long := some "time-col-name".toList, takesValue := true },
  { name := "csv_out_time_fmt_epoch".toList, long := some "epoch".toList, short := some 'E', conflicts := ["human".toList] },
  { name := "csv_out_time_fmt_human".toList, long := some "human".toList, short := some 'H', conflicts := ["epoch".toList] },
  { name := "csv_out_time_col_units".toList, long := some "granularity".toList, short := some 'g', takesValue := true, default := some "ns".toList,
    possible := some ["s".toList, "ms".toList, "us".toList, "ns".toList] },
  { name := "csv_in_delimiter".toList, long := some "csv-in-delimiter".toList, takesValue := true },
  { name := "csv_out_delimiter".toList, long := some "delimiter".toList, takesValue := true, default := some ",".toList },
  { name := "csv_in_has_header".toList, long := some "csv-in-has-header".toList, takesValue := true, default := some "auto".toList,
    possible := some ["yes".toList, "no".toList, "auto".toList], ignoreCase := true },
  { name := "csv_out_print_time_col".toList, long := some "print-time".toList, takesValue := true, default := some "yes".toList,
    possible := some ["yes".toList, "no".toList], ignoreCase := true },
  { name := "csv_in_ts_col".toList, long := some "csv-in-ts-col".toList, takesValue := true },
  { name := "csv_in_ts_col_date".toList, long := some "csv-in-ts-col-date".toList, takesValue := true, requires := ["csv_in_ts_col_time".toList],
    conflicts := ["csv_in_ts_col".toList, "csv_in_ts_fmt".toList] },
  { name := "csv_in_ts_col_time".toList, long := some "csv-in-ts-col-time".toList, takesValue := true, requires := ["csv_in_ts_col_date".toList],
    conflicts := ["csv_in_ts_col".toList, "csv_in_ts_fmt".toList] },
  { name := "csv_in_ts_fmt".toList, long := some "csv-in-ts-fmt".toList, takesValue := true },
  { name := "csv_in_ts_fmt_date".toList, long := some "csv-in-ts-fmt-date".toList, takesValue := true, requires := ["csv_in_ts_fmt_time".toList],
    conflicts := ["csv_in_ts_col".toList, "csv_in_ts_fmt".toList] },
  { name := "csv_in_ts_fmt_time".toList, long := some "csv-in-ts-fmt-time".toList, takesValue := true, requires := ["csv_in_ts_fmt_date".toList],
    conflicts := ["csv_in_ts_col".toList, "csv_in_ts_fmt".toList] },
  { name := "csv_in_epoch".toList, long := some "csv-in-epoch".toList, takesValue := true, possible := some ["s".toList, "ms".toList, "us".toList, "ns".toList],
    conflicts := ["csv_in_ts_col_date".toList, "csv_in_ts_col_time".toList, "csv_in_ts_fmt".toList] }]

/-- The options given on a command line, by the names of the table, with their values. -/
abbrev Given := List (Str × List Str)

/-- Is the option given? -/
def Given.has (g : Given) (name : Str) : Prop := ∃ vs, (name, vs) ∈ g

/-- ASCII lower-casing, as in `eq_ignore_ascii_case`. -/
def lowerAscii (s : Str) : Str := s.map Char.toLower

/-- The contract of `clap`: a command line is accepted if it consists of options of the table, none twice, each with the right number of values among the possible ones,
together with what it requires and without what it conflicts with (names not in the table have no effect). -/
structure Clap (decls : List OptDecl) (g : Given) : Prop where
  declared : ∀ n vs, (n, vs) ∈ g → ∃ d ∈ decls, d.name = n
  once : (g.map (·.1)).Nodup
  values : ∀ d ∈ decls, ∀ vs, (d.name, vs) ∈ g → if d.takesValue then vs ≠ [] ∧ (d.many = false → vs.length = 1) else vs = []
  possible : ∀ d ∈ decls, ∀ ps, d.possible = some ps → ∀ vs, (d.name, vs) ∈ g → ∀ v ∈ vs,
    if d.ignoreCase then ∃ p ∈ ps, lowerAscii v = lowerAscii p else v ∈ ps
  requires : ∀ d ∈ decls, g.has d.name → ∀ n ∈ d.requires, g.has n
  conflicts : ∀ d ∈ decls, g.has d.name → ∀ n ∈ d.conflicts, ¬ g.has n

/-- `ArgMatches::values_of`. -/
def Given.valuesOf (g : Given) (name : Str) : Option (List Str) := (g.find? fun x => x.1 == name).map (·.2)

/-- `ArgMatches::value_of`: the first value, or the default. -/
def Given.valueOf (decls : List OptDecl) (g : Given) (name : Str) : Option Str :=
  match g.valuesOf name with
  | some vs => vs.head?
  | none => (decls.find? fun d => d.name == name).bind (·.default)

/-- `ArgMatches::is_present` (for options without default). -/
def Given.isPresent (g : Given) (name : Str) : Bool := (g.valuesOf name).isSome

/-- `YesNoAuto::from_str` (`/repo/src/cli/util.rs:3-10`, `clap::arg_enum!`). -/
def yesNoAuto (s : Str) : Res YesNoAuto :=
  if lowerAscii s = "yes".toList then .ok .yes
  else if lowerAscii s = "no".toList then .ok .no
  else if lowerAscii s = "auto".toList then .ok .auto
  else .err (.custom "valid values")

/-- All look-ups of `parse_cli_args` and its helpers (`/repo/src/chopper_cli.rs:39-97,167-247`). Simplification: they are made at once. Only
the one of `csv_in_has_header` (line 169) can fail with an error and those of `csv_out_delimiter` and `csv_out_print_time_col` (lines 216-217) can panic. -/
def Given.args (g : Given) : Res CliArgs :=
  let v := fun n : String => g.valueOf cliApp n.toList
  (match v "csv_in_has_header" with
    | some s => yesNoAuto s
    | none => .err (.custom "argument not found")).bind fun header =>
  (Res.unwrap (v "csv_out_delimiter")).bind fun delimiter =>
  (Res.unwrap (v "csv_out_print_time_col")).bind fun print =>
  .ok {
    inputs := g.valuesOf "input".toList
    formats := g.valuesOf "format".toList
    output := v "output"
    timezone := v "timezone"
    beginTs := v "begin"
    endTs := v "end"
    inDelimiter := v "csv_in_delimiter"
    hasHeader := header
    tsFmtDate := v "csv_in_ts_fmt_date"
    tsFmtTime := v "csv_in_ts_fmt_time"
    tsFmt := v "csv_in_ts_fmt"
    inEpoch := v "csv_in_epoch"
    tsColDate := v "csv_in_ts_col_date"
    tsColTime := v "csv_in_ts_col_time"
    tsCol := v "csv_in_ts_col"
    outDelimiter := delimiter
    printTime := print
    timeColName := v "csv_out_time_col_name"
    outEpoch := g.isPresent "csv_out_time_fmt_epoch".toList
    units := v "csv_out_time_col_units" }

/-- The tool with a command line (`/repo/src/chopper_cli.rs:25-32`): `none` if `clap` refuses it (it then prints a message and ends the process, `get_matches`, line 39). -/
noncomputable def chopperMain (e : CliEnv) (g : Given) : Option CliRun :=
  open Classical in
  if Clap cliApp g then
    match g.args with
    | .ok a => some (chopperCli e a)
    | .err x => some ⟨[], none, .err x⟩
    | .panic => some ⟨[], none, .panic⟩
    | .diverge => some ⟨[], none, .diverge⟩
  else none

end Chopper
