import Verif.Proofs.CsvCopy
import Verif.Props.CsvRead2

/-! # C88: copying and merging plain CSV files -/
namespace Chopper.Props
open Chopper Chopper.Spec

/-- The input is a file with these bytes, given as CSV by its name or explicitly; reads may chop it up but do not fail. -/
def CsvDataAt (w : World) (inp : Input) (data : List Byte) : Prop :=
  ∃ (s : Str) (fmt : InputFormat) (sched : List ReadStep), inp = ⟨.path s, fmt⟩ ∧ FileAt w s ⟨data, sched, none⟩ ∧
    (∀ k, ReadStep.fail k ∉ sched) ∧ ¬ HttpAddress s ∧ ¬ [0x50, 0x4b, 3, 4] <+: data ∧
    ((∃ base, lastComponent s = some (base ++ ".csv".toList) ∧ fmt = .auto) ∨ fmt = .extension "csv".toList)

/-- The input is a CSV file with these column names and records, separated by `d`; reads may chop it up but do not fail. -/
def CsvFileAt (w : World) (inp : Input) (d : Char) (names : List Str) (recs : List (List Str)) : Prop := CsvDataAt w inp (utf8Encode (csvText d (names :: recs)))

/-- What is given: a run with explicit settings for its CSV inputs (delimiter `d`, a header line, times in column `c` in units `u`), CSV output with commas and without time column;
its inputs are CSV files with the same column names, all records as long as the header, in time order, with a record in the range. `time` is the time of a record. -/
structure CopyRun (e : CliEnv) (a : CliArgs) (st : CliSettings e.csv.lib) (d : Char) (c : Nat) (u : TimestampUnits) (names : List Str) (tables : List (List (List Str)))
    (time : List Str → Nanos) (dev : Device) : Prop where
  settings : parseSettings e a = .ok st
  contract : ReadsPlain e.csv.csv
  noUser : e.userFactories = [] ∧ e.userTransports = []
  delimiter : d.toNat < 128 ∧ d ≠ '"' ∧ d ≠ '\n' ∧ d ≠ '\r' ∧ ∃ b : Byte, b.toNat = d.toNat ∧ st.inCfg.delimiter = some b
  header : st.inCfg.hasHeader = .yes
  column : st.inCfg.tsCol = .index c
  format : st.inCfg.tsFmt = .epoch u
  outDelimiter : st.outCfg.delimiter = [',']
  outTime : st.outCfg.printTimeCol = false
  inputs : st.inputs.length = tables.length ∧ ∀ (i : Nat) inp recs, st.inputs[i]? = some inp → tables[i]? = some recs → CsvFileAt e.world inp d names recs
  plain : ∀ recs ∈ tables, PlainTable d (names :: recs)
  widths : ∀ recs ∈ tables, ∀ rec ∈ recs, rec.length = names.length
  times : ∀ recs ∈ tables, ∀ rec ∈ recs, TimeIn c u rec (time rec)
  sorted : ∀ recs ∈ tables, recs.Pairwise fun x y => time x ≤ time y
  some : ∀ recs ∈ tables, ∃ rec ∈ recs, inRange st.range (time rec) = true
  device : CsvTo e.out a.output dev
  reliable : Reliable dev

/-- What reading such a file gives. -/
def tableFile (names : List Str) (time : List Str → Nanos) (recs : List (List Str)) : FileSource :=
  ⟨⟨names, List.replicate names.length .string⟩, ⟨recs.map fun rec => ⟨time rec, rec.map .string⟩, .eof⟩⟩

/-- What is given in general: the settings are accepted and with them the inputs are read as tables with these names and records. -/
structure TablesRun (e : CliEnv) (a : CliArgs) (st : CliSettings e.csv.lib) (names : List Str) (tables : List (List (List Str)))
    (time : List Str → Nanos) (dev : Device) : Prop where
  settings : parseSettings e a = .ok st
  outDelimiter : st.outCfg.delimiter = [',']
  outTime : st.outCfg.printTimeCol = false
  opens : Opens e st (tables.map (tableFile names time))
  sorted : ∀ recs ∈ tables, recs.Pairwise fun x y => time x ≤ time y
  some : ∀ recs ∈ tables, ∃ rec ∈ recs, inRange st.range (time rec) = true
  device : CsvTo e.out a.output dev
  reliable : Reliable dev

theorem bytes_opens {e : CliEnv} {st : CliSettings e.csv.lib} {names : List Str} {tables : List (List (List Str))}
    {time : List Str → Nanos} (hu : e.userFactories = [] ∧ e.userTransports = []) {data : List (List Str) → List Byte → Prop}
    (hin : st.inputs.length = tables.length ∧ ∀ (i : Nat) inp recs, st.inputs[i]? = some inp → tables[i]? = some recs → ∃ bs, data recs bs ∧ CsvDataAt e.world inp bs)
    (hread : ∀ recs ∈ tables, ∀ bs, data recs bs → ReadsBytes e.csv st.inCfg bs names time recs) : Opens e st (tables.map (tableFile names time)) := by
  refine ⟨by rw [List.length_map, hin.1], ?_⟩
  intro i inp f hi hf
  rw [List.getElem?_map] at hf
  cases ht : tables[i]? with
  | none => rw [ht] at hf; cases hf
  | some recs =>
    rw [ht] at hf
    obtain rfl := Option.some.inj hf
    have hm := List.mem_of_getElem? ht
    obtain ⟨bs, hbs, s, fmt, sched, rfl, hfile, hsched, hhttp, hzip, hfmt⟩ := hin.2 i inp recs hi ht
    obtain ⟨p, src, g1, g2, g3⟩ := hread _ hm bs hbs
      ⟨bs, sched, none⟩ (by
        rintro k (hk | hk)
        · exact hsched k hk
        · cases hk) rfl
    rw [hu.1, hu.2, C66_csv_file e.csv e.dec e.zip e.world st.inCfg s fmt _ hfile.notDir hfile.here hfile.opens hhttp hzip (hfmt.elim .inl fun h => .inr (.inl h)), g1,
      Res.bind_ok, g2, Res.bind_ok, g3]
    rfl

theorem read_opens {e : CliEnv} {st : CliSettings e.csv.lib} {d : Char} {names : List Str} {tables : List (List (List Str))}
    {time : List Str → Nanos} (hu : e.userFactories = [] ∧ e.userTransports = [])
    (hin : st.inputs.length = tables.length ∧ ∀ (i : Nat) inp recs, st.inputs[i]? = some inp → tables[i]? = some recs → CsvFileAt e.world inp d names recs)
    (hread : ∀ recs ∈ tables, ReadsTable e.csv st.inCfg d names time recs) : Opens e st (tables.map (tableFile names time)) :=
  bytes_opens hu (data := fun recs bs => bs = utf8Encode (csvText d (names :: recs))) ⟨hin.1, fun i inp recs h1 h2 => ⟨_, rfl, hin.2 i inp recs h1 h2⟩⟩
    fun recs hm bs hbs => by subst hbs; exact hread recs hm

theorem copy_tables {e : CliEnv} {a : CliArgs} {st : CliSettings e.csv.lib} {d : Char} {c : Nat} {u : TimestampUnits} {names : List Str} {tables : List (List (List Str))}
    {time : List Str → Nanos} {dev : Device} (h : CopyRun e a st d c u names tables time dev) : TablesRun e a st names tables time dev := by
  obtain ⟨d1, d2, d3, d4, b, d5, d6⟩ := h.delimiter
  refine ⟨h.settings, h.outDelimiter, h.outTime, read_opens h.noUser h.inputs fun recs hm => ?_, h.sorted, h.some, h.device, h.reliable⟩
  have hne : recs ≠ [] := by
    rintro rfl
    obtain ⟨rec, hr, _⟩ := h.some _ hm
    cases hr
  exact csv_table_read e.csv h.contract st.inCfg d1 d5 d2 d3 d4 d6 h.header h.column h.format (h.plain _ hm) hne (h.widths _ hm) (h.times _ hm)

theorem tables_good {e : CliEnv} {a : CliArgs} {st : CliSettings e.csv.lib} {names : List Str} {tables : List (List (List Str))}
    {time : List Str → Nanos} {dev : Device} (h : TablesRun e a st names tables time dev) :
    GoodInputs st.range ⟨names, List.replicate names.length .string⟩ (tables.map (tableFile names time)) := by
  refine ⟨?_, ?_, ?_, ?_⟩
  · intro f hf
    obtain ⟨t, ht, rfl⟩ := List.mem_map.1 hf
    rfl
  · intro f hf
    obtain ⟨t, ht, rfl⟩ := List.mem_map.1 hf
    exact List.pairwise_map.2 (h.sorted t ht)
  · intro f hf
    obtain ⟨t, ht, rfl⟩ := List.mem_map.1 hf
    obtain ⟨rec, h1, h2⟩ := h.some t ht
    exact ⟨_, List.mem_map.2 ⟨rec, h1, rfl⟩, h2⟩
  · intro f hf
    obtain ⟨t, ht, rfl⟩ := List.mem_map.1 hf
    unfold endingWithin
    split <;> rfl

theorem copy_opens {e : CliEnv} {a : CliArgs} {st : CliSettings e.csv.lib} {d : Char} {c : Nat} {u : TimestampUnits} {names : List Str} {tables : List (List (List Str))}
    {time : List Str → Nanos} {dev : Device} (h : CopyRun e a st d c u names tables time dev) : Opens e st (tables.map (tableFile names time)) := (copy_tables h).opens

theorem copy_good {e : CliEnv} {a : CliArgs} {st : CliSettings e.csv.lib} {d : Char} {c : Nat} {u : TimestampUnits} {names : List Str} {tables : List (List (List Str))}
    {time : List Str → Nanos} {dev : Device} (h : CopyRun e a st d c u names tables time dev) :
    GoodInputs st.range ⟨names, List.replicate names.length .string⟩ (tables.map (tableFile names time)) := tables_good (copy_tables h)

theorem copy_printable (names : List Str) (time : List Str → Nanos) (tables : List (List (List Str))) :
    ∀ f ∈ tables.map (tableFile names time), ∀ r ∈ f.source.rows, ∀ v ∈ r.values, ¬ Unprintable v := by
  intro f hf r hr v hv
  obtain ⟨t, ht, rfl⟩ := List.mem_map.1 hf
  obtain ⟨rec, _, rfl⟩ := List.mem_map.1 hr
  obtain ⟨s, _, rfl⟩ := List.mem_map.1 hv
  rintro (⟨b, hb⟩ | ⟨b, hb⟩) <;> cases hb

theorem tables_run {e : CliEnv} {a : CliArgs} {st : CliSettings e.csv.lib} {names : List Str} {tables : List (List (List Str))}
    {time : List Str → Nanos} {dev : Device} (h : TablesRun e a st names tables time dev) :
    ∃ out recs, (chopperCli e a).result = .ok () ∧ (chopperCli e a).output = some out ∧ out.taken = dev.taken ++ utf8Encode (csvText ',' (names :: recs)) ∧
      IsMerge st.range (tables.map fun t => t.map fun rec => ⟨time rec, rec.map .string⟩) (recs.map fun rec => ⟨time rec, rec.map .string⟩) := by
  obtain ⟨out, rows, body, h1, h2, h3, h4, h5⟩ := C61_csv e a st _ _ dev h.settings h.opens (tables_good h) h.device h.reliable (by rw [h.outTime]; intro h; cases h)
    (fun f hf r hr _ v hv => copy_printable names time tables f hf r hr v hv)
  rw [List.map_map] at h3
  have hrows : rows = (rows.map textsOf).map fun rec => ⟨time rec, rec.map .string⟩ := by
    rw [List.map_map]
    conv => lhs; rw [← List.map_id rows]
    apply List.map_congr_left
    intro r hr
    obtain ⟨_, i, hi, hri⟩ := merge_mem h3 hr
    obtain ⟨t, _, rfl⟩ := List.mem_map.1 hi
    obtain ⟨rec, _, rfl⟩ := List.mem_map.1 hri
    simp only [Function.comp_apply, id, textsOf_row]
  refine ⟨out, rows.map textsOf, h1, h2, ?_, ?_⟩
  · rw [h5, csvLines_strings h.outDelimiter h.outTime h4 hrows, csvHeaderText_eq (by simp [h.outTime]), h.outTime]
    simp [csvText]
  · rw [← hrows]; exact h3

theorem copy_run {e : CliEnv} {a : CliArgs} {st : CliSettings e.csv.lib} {d : Char} {c : Nat} {u : TimestampUnits} {names : List Str} {tables : List (List (List Str))}
    {time : List Str → Nanos} {dev : Device} (h : CopyRun e a st d c u names tables time dev) :
    ∃ out recs, (chopperCli e a).result = .ok () ∧ (chopperCli e a).output = some out ∧ out.taken = dev.taken ++ utf8Encode (csvText ',' (names :: recs)) ∧
      IsMerge st.range (tables.map fun t => t.map fun rec => ⟨time rec, rec.map .string⟩) (recs.map fun rec => ⟨time rec, rec.map .string⟩) :=
  tables_run (copy_tables h)

theorem texts_rows (time : List Str → Nanos) (l : List (List Str)) : l.map (textsOf ∘ fun rec => (⟨time rec, rec.map .string⟩ : Row)) = l :=
  List.map_id'' (fun rec => textsOf_row _ rec) l

theorem tables_merge {e : CliEnv} {a : CliArgs} {st : CliSettings e.csv.lib} {names : List Str} {tables : List (List (List Str))}
    {time : List Str → Nanos} {dev : Device} (h : TablesRun e a st names tables time dev) :
    ∃ out recs, (chopperCli e a).result = .ok () ∧ (chopperCli e a).output = some out ∧ out.taken = dev.taken ++ utf8Encode (csvText ',' (names :: recs)) ∧
      recs.Pairwise (fun x y => time x ≤ time y) ∧
      ∀ t, recs.filter (fun rec => time rec == t) = tables.reverse.flatMap fun table => table.filter fun rec => time rec == t && inRange st.range (time rec) := by
  obtain ⟨out, recs, h1, h2, h3, h4, h5⟩ := tables_run h
  have h4' : recs.Pairwise fun x y => time x ≤ time y := by
    unfold Sorted at h4
    rw [List.pairwise_map] at h4
    exact h4
  refine ⟨out, recs, h1, h2, h3, h4', fun t => ?_⟩
  have := congrArg (List.map textsOf) (h5 t)
  rw [List.filter_map, List.map_map] at this
  have e1 := texts_rows time
  rw [e1] at this
  rw [show (fun rec => time rec == t) = ((fun r : Row => r.timestamp == t) ∘ fun rec => (⟨time rec, rec.map .string⟩ : Row)) from rfl, this]
  rw [← List.map_reverse, List.flatMap_map, List.map_flatMap]
  congr 1
  funext table
  rw [List.filter_map, List.map_map, e1]
  rfl

/-- **C88 (merge).** The output file has the same column names and consists of the records of the inputs that lie in the range: in time order, and at each time those of the inputs,
each input's in its own order, those of later inputs first. -/
theorem C88_merge (e : CliEnv) (a : CliArgs) (st : CliSettings e.csv.lib) (d : Char) (c : Nat) (u : TimestampUnits) (names : List Str) (tables : List (List (List Str)))
    (time : List Str → Nanos) (dev : Device) (h : CopyRun e a st d c u names tables time dev) :
    ∃ out recs, (chopperCli e a).result = .ok () ∧ (chopperCli e a).output = some out ∧ out.taken = dev.taken ++ utf8Encode (csvText ',' (names :: recs)) ∧
      recs.Pairwise (fun x y => time x ≤ time y) ∧
      ∀ t, recs.filter (fun rec => time rec == t) = tables.reverse.flatMap fun table => table.filter fun rec => time rec == t && inRange st.range (time rec) :=
  tables_merge (copy_tables h)

/-- A single table all of whose records lie in the range is copied. -/
theorem tables_copy {e : CliEnv} {a : CliArgs} {st : CliSettings e.csv.lib} {names : List Str} {recs : List (List Str)}
    {time : List Str → Nanos} {dev : Device} (h : TablesRun e a st names [recs] time dev) (hall : ∀ rec ∈ recs, inRange st.range (time rec) = true) :
    ∃ out, (chopperCli e a).result = .ok () ∧ (chopperCli e a).output = some out ∧ out.taken = dev.taken ++ utf8Encode (csvText ',' (names :: recs)) := by
  obtain ⟨out, recs', h1, h2, h3, h4⟩ := tables_run h
  have : IsMerge st.range ([recs].map fun t => t.map fun rec => (⟨time rec, rec.map .string⟩ : Row)) (recs.map fun rec => ⟨time rec, rec.map .string⟩) := by
    refine ⟨List.pairwise_map.2 (h.sorted recs (by simp)), fun t => ?_⟩
    simp only [List.map_cons, List.map_nil, List.reverse_singleton, List.flatMap_cons, List.flatMap_nil, List.append_nil]
    apply List.filter_congr
    intro r hr
    obtain ⟨rec, hrec, rfl⟩ := List.mem_map.1 hr
    simp [hall rec hrec]
  have heq := congrArg (List.map textsOf) (C61_merge_unique h4 this)
  rw [List.map_map, List.map_map, texts_rows, texts_rows] at heq
  exact ⟨out, h1, h2, by rw [h3, heq]⟩

/-- **C88 (copy).** A single input all of whose records lie in the range is copied: the same names and records; the same bytes if it is separated by commas. -/
theorem C88_copy (e : CliEnv) (a : CliArgs) (st : CliSettings e.csv.lib) (d : Char) (c : Nat) (u : TimestampUnits) (names : List Str) (recs : List (List Str))
    (time : List Str → Nanos) (dev : Device) (h : CopyRun e a st d c u names [recs] time dev) (hall : ∀ rec ∈ recs, inRange st.range (time rec) = true) :
    ∃ out, (chopperCli e a).result = .ok () ∧ (chopperCli e a).output = some out ∧ out.taken = dev.taken ++ utf8Encode (csvText ',' (names :: recs)) :=
  tables_copy (copy_tables h) hall

/-! ### Example: two files with the columns `t` and `v` are merged -/
def copyNames : List Str := [['t'], ['v']]
def copyA : List (List Str) := [[['5'], ['x']], [['7'], ['y']]]
def copyB : List (List Str) := [[['5'], ['z']], [['6'], []]]
def copyTime (rec : List Str) : Nanos := BitVec.ofNat 64 (decimalValue (rec.headD []) * 10 ^ 9)
def copyWorld : World :=
  ⟨fun p => p == utf8Encode "a.csv".toList || p == utf8Encode "b.csv".toList, fun _ => false,
   fun p => if p = utf8Encode "a.csv".toList then some ⟨utf8Encode (csvText ',' (copyNames :: copyA)), [.bytes 3], none⟩
     else if p = utf8Encode "b.csv".toList then some ⟨utf8Encode (csvText ',' (copyNames :: copyB)), [], none⟩ else none,
   fun _ => none, fun _ => .err (.io .other), ⟨[], [], none⟩⟩
def copyEnv : CliEnv :=
  { csv := plainEnv, ff := plainFloats, ch := ⟨fun bs => [bs], by simp⟩,
    dec := ⟨fun r => r.inner, fun r => r.inner, fun r => r.inner, fun _ => none, fun _ => none⟩, zip := exLib, world := copyWorld,
    out := ⟨fun _ => some exDev, ⟨[], [], 0⟩⟩, tzParse := fun _ => none, tzVar := none, tzMap := none, userFactories := [], userTransports := [] }
def copyArgs : CliArgs :=
  { inputs := some ["a.csv".toList, "b.csv".toList], output := some "o.csv".toList, inDelimiter := some [','], hasHeader := .yes, tsCol := some ['0'], inEpoch := some ['s'],
    printTime := ['n', 'o'], outEpoch := true }
def copySettings : CliSettings noLib :=
  ⟨[⟨.path "a.csv".toList, .auto⟩, ⟨.path "b.csv".toList, .auto⟩], ⟨none, none⟩, ⟨some 44, .yes, .index 0, .epoch .seconds, none⟩, .new [','] false none .epoch .nanos none⟩

theorem copy_example : CopyRun copyEnv copyArgs copySettings ',' 0 .seconds copyNames [copyA, copyB] copyTime exDev where
  settings := rfl
  contract := plainCsv_reads
  noUser := ⟨rfl, rfl⟩
  delimiter := ⟨by decide, by decide, by decide, by decide, 44, by decide, rfl⟩
  header := rfl
  column := rfl
  format := rfl
  outDelimiter := rfl
  outTime := rfl
  inputs := by
    refine ⟨rfl, ?_⟩
    intro i inp recs h1 h2
    match i, h1, h2 with
    | 0, h1, h2 =>
      cases h1; cases h2
      exact ⟨"a.csv".toList, .auto, [.bytes 3], rfl, ⟨rfl, by decide +kernel, by simp [copyEnv, copyWorld]⟩, by simp, by decide +kernel, by decide +kernel,
        .inl ⟨['a'], by decide +kernel, rfl⟩⟩
    | 1, h1, h2 =>
      cases h1; cases h2
      exact ⟨"b.csv".toList, .auto, [], rfl, ⟨rfl, by decide +kernel, by
        have : utf8Encode "b.csv".toList ≠ utf8Encode "a.csv".toList := by decide +kernel
        simp only [copyEnv, copyWorld]
        rw [if_neg this]; rfl⟩, by simp, by decide +kernel, by decide +kernel, .inl ⟨['b'], by decide +kernel, rfl⟩⟩
    | _ + 2, h1, h2 => cases h1
  plain := by
    intro recs hr
    have hr' : recs = copyA ∨ recs = copyB := by simpa using hr
    refine ⟨fun l hl t ht => plain_text t ?_, ?_, ?_⟩ <;> rcases hr' with rfl | rfl
    · revert t; revert l; decide +kernel
    · revert t; revert l; decide +kernel
    · decide +kernel
    · decide +kernel
    · decide +kernel
    · decide +kernel
  widths := by decide +kernel
  times := by
    intro recs hr rec hrec
    refine ⟨rec.headD [], ?_, ?_, ?_⟩ <;> revert rec recs
    · decide +kernel
    · unfold Digits; decide +kernel
    · decide +kernel
  sorted := by decide +kernel
  some := by decide +kernel
  device := .inr ⟨"o.csv".toList, rfl, by decide +kernel, rfl⟩
  reliable := by intro k; simp [exDev]

/-- The merged file. -/
example : ∃ out, (chopperCli copyEnv copyArgs).output = some out ∧ out.taken = utf8Encode "t,v\n5,z\n5,x\n6,\n7,y\n".toList := by
  obtain ⟨out, recs, _, h2, h3, h4⟩ := copy_run copy_example
  have : IsMerge copySettings.range ([copyA, copyB].map fun t => t.map fun rec => (⟨copyTime rec, rec.map .string⟩ : Row))
      (([[['5'], ['z']], [['5'], ['x']], [['6'], []], [['7'], ['y']]] : List (List Str)).map fun rec => ⟨copyTime rec, rec.map .string⟩) := by
    refine ⟨by unfold Sorted; decide +kernel, fun t => ?_⟩
    by_cases h5 : (5000000000 : Nanos) = t
    · subst h5; decide +kernel
    · by_cases h6 : (6000000000 : Nanos) = t
      · subst h6; decide +kernel
      · by_cases h7 : (7000000000 : Nanos) = t
        · subst h7; decide +kernel
        · have e5 : copyTime [['5'], ['z']] = 5000000000 := by decide +kernel
          have e5' : copyTime [['5'], ['x']] = 5000000000 := by decide +kernel
          have e6 : copyTime [['6'], []] = 6000000000 := by decide +kernel
          have e7 : copyTime [['7'], ['y']] = 7000000000 := by decide +kernel
          have f5 : ((5000000000 : Nanos) == t) = false := by simpa using h5
          have f6 : ((6000000000 : Nanos) == t) = false := by simpa using h6
          have f7 : ((7000000000 : Nanos) == t) = false := by simpa using h7
          simp only [copyA, copyB, List.map_cons, List.map_nil, List.reverse_cons, List.reverse_nil, List.nil_append, List.cons_append, List.flatMap_cons, List.flatMap_nil, List.filter_cons,
            List.filter_nil, e5, e5', e6, e7, f5, f6, f7, Bool.false_and, Bool.false_eq_true, if_false, List.append_nil]
  have heq := congrArg (List.map textsOf) (C61_merge_unique h4 this)
  rw [List.map_map, List.map_map, texts_rows, texts_rows] at heq
  refine ⟨out, h2, ?_⟩
  rw [h3, heq]
  decide +kernel

end Chopper.Props
