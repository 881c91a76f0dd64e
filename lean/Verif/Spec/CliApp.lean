import Verif.Model.CliApp

/-!
# Specification vocabulary for command lines (C103)
-/
namespace Chopper.Spec
open Chopper

/-- The option has this (single) value: the given one; if it is not given, the default. -/
def HasValue (g : Given) (name : String) (default : Option String) (value : Option Str) : Prop :=
  (∀ v, (name.toList, [v]) ∈ g → value = some v) ∧ (¬ g.has name.toList → value = default.map String.toList)

/-- The option has these values: the given ones, none if it is not given. -/
def HasValues (g : Given) (name : String) (values : Option (List Str)) : Prop :=
  (∀ vs, (name.toList, vs) ∈ g → values = some vs) ∧ (¬ g.has name.toList → values = none)

/-- What a command line says: every setting has the value of its option or its documented default. -/
structure Says (g : Given) (a : CliArgs) : Prop where
  inputs : HasValues g "input" a.inputs
  formats : HasValues g "format" a.formats
  output : HasValue g "output" none a.output
  timezone : HasValue g "timezone" none a.timezone
  beginTs : HasValue g "begin" none a.beginTs
  endTs : HasValue g "end" none a.endTs
  inDelimiter : HasValue g "csv_in_delimiter" none a.inDelimiter
  hasHeader : ∃ s, HasValue g "csv_in_has_header" (some "auto") (some s) ∧
    ((lowerAscii s = "yes".toList ∧ a.hasHeader = .yes) ∨ (lowerAscii s = "no".toList ∧ a.hasHeader = .no) ∨ (lowerAscii s = "auto".toList ∧ a.hasHeader = .auto))
  tsFmtDate : HasValue g "csv_in_ts_fmt_date" none a.tsFmtDate
  tsFmtTime : HasValue g "csv_in_ts_fmt_time" none a.tsFmtTime
  tsFmt : HasValue g "csv_in_ts_fmt" none a.tsFmt
  inEpoch : HasValue g "csv_in_epoch" none a.inEpoch
  tsColDate : HasValue g "csv_in_ts_col_date" none a.tsColDate
  tsColTime : HasValue g "csv_in_ts_col_time" none a.tsColTime
  tsCol : HasValue g "csv_in_ts_col" none a.tsCol
  outDelimiter : HasValue g "csv_out_delimiter" (some ",") (some a.outDelimiter)
  printTime : HasValue g "csv_out_print_time_col" (some "yes") (some a.printTime)
  timeColName : HasValue g "csv_out_time_col_name" none a.timeColName
  outEpoch : a.outEpoch = true ↔ g.has "csv_out_time_fmt_epoch".toList
  units : HasValue g "csv_out_time_col_units" (some "ns") a.units

/-- Options that contradict each other: two styles of printed times, two ways to say the format of the times read, two ways to say their column. -/
def contradicting : List (String × String) :=
  [("csv_in_ts_fmt", "csv_in_epoch"), ("csv_in_ts_fmt", "csv_in_ts_fmt_date"), ("csv_in_ts_fmt", "csv_in_ts_fmt_time"),
   ("csv_in_ts_col", "csv_in_ts_col_date"), ("csv_in_ts_col", "csv_in_ts_col_time"),
   ("csv_in_epoch", "csv_in_ts_col_date"), ("csv_in_epoch", "csv_in_ts_col_time"),
   ("csv_out_time_fmt_epoch", "csv_out_time_fmt_human"), ("csv_in_epoch", "csv_in_ts_fmt_date"), ("csv_in_epoch", "csv_in_ts_fmt_time")]

/-- Options of no use without each other. -/
def belonging : List (String × String) :=
  [("csv_in_ts_fmt_date", "csv_in_ts_fmt_time"), ("csv_in_ts_fmt_time", "csv_in_ts_fmt_date"),
   ("csv_in_ts_col_date", "csv_in_ts_col_time"), ("csv_in_ts_col_time", "csv_in_ts_col_date")]

/-! ### The usage of the tool -/

/-- Options without value. -/
def flagOptions : List Str := ["backtrace".toList, "csv_out_time_fmt_epoch".toList, "csv_out_time_fmt_human".toList]

/-- Arguments that may have several values: the inputs, and the formats of the inputs (separated by commas). -/
def listOptions : List Str := ["input".toList, "format".toList]

/-- Options with one value. -/
def valueOptions : List Str :=
  ["output".toList, "timezone".toList, "begin".toList, "end".toList, "csv_out_time_col_name".toList, "csv_out_time_col_units".toList,
   "csv_in_delimiter".toList, "csv_out_delimiter".toList, "csv_in_has_header".toList, "csv_out_print_time_col".toList, "csv_in_ts_col".toList,
   "csv_in_ts_col_date".toList, "csv_in_ts_col_time".toList, "csv_in_ts_fmt".toList, "csv_in_ts_fmt_date".toList, "csv_in_ts_fmt_time".toList,
   "csv_in_epoch".toList]

/-- Values allowed for an option: units exactly as written here, yes/no/auto in any case; anything else for all other options. -/
def ValueAllowed (name value : Str) : Prop :=
  (name = "csv_out_time_col_units".toList ∨ name = "csv_in_epoch".toList → value ∈ ["s".toList, "ms".toList, "us".toList, "ns".toList]) ∧
  (name = "csv_in_has_header".toList → lowerAscii value ∈ ["yes".toList, "no".toList, "auto".toList]) ∧
  (name = "csv_out_print_time_col".toList → lowerAscii value ∈ ["yes".toList, "no".toList])

/-- Pairs of options refused together: those of `contradicting` but the three of `C103_refused_partial`, and any explicit date or time column or format together with
a combined column or format. -/
def refused : List (Str × Str) :=
  [("csv_in_ts_col_date".toList, "csv_in_ts_col".toList), ("csv_in_ts_col_date".toList, "csv_in_ts_fmt".toList),
   ("csv_in_ts_col_time".toList, "csv_in_ts_col".toList), ("csv_in_ts_col_time".toList, "csv_in_ts_fmt".toList),
   ("csv_in_ts_fmt_date".toList, "csv_in_ts_col".toList), ("csv_in_ts_fmt_date".toList, "csv_in_ts_fmt".toList),
   ("csv_in_ts_fmt_time".toList, "csv_in_ts_col".toList), ("csv_in_ts_fmt_time".toList, "csv_in_ts_fmt".toList),
   ("csv_in_epoch".toList, "csv_in_ts_col_date".toList), ("csv_in_epoch".toList, "csv_in_ts_col_time".toList), ("csv_in_epoch".toList, "csv_in_ts_fmt".toList)]

/-- A proper command line. -/
structure Usage (g : Given) : Prop where
  /-- nothing twice -/
  once : (g.map (·.1)).Nodup
  /-- known options with the right number of allowed values -/
  known : ∀ n vs, (n, vs) ∈ g → (n ∈ flagOptions ∧ vs = []) ∨ (n ∈ listOptions ∧ vs ≠ []) ∨ (n ∈ valueOptions ∧ ∃ v, vs = [v] ∧ ValueAllowed n v)
  /-- nothing refused -/
  apart : ∀ p ∈ refused, ¬ (g.has p.1 ∧ g.has p.2)
  /-- no half pairs -/
  together : ∀ p ∈ belonging, g.has p.1.toList → g.has p.2.toList

end Chopper.Spec
