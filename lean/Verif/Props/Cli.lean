import Verif.Proofs.Cli4
import Verif.Props.Dc
import Verif.Props.Input2

/-!
# Properties of the command line tool (C60 - C64, C67 - C72)
-/
namespace Chopper.Props
open Chopper Chopper.Spec

/-! ### C60: formats -/

theorem formats_get (formats : Option (List Str)) (hf : formats ≠ some []) : ∃ last, (parseFormats formats).getLast? = some last ∧
    ∀ i, FormatFor formats i (match (parseFormats formats)[i]? with | some f => f | none => last) := by
  cases formats with
  | none =>
    refine ⟨.auto, rfl, fun i => ?_⟩
    cases i <;> exact rfl
  | some fs =>
    have hne : fs ≠ [] := fun h => hf (by rw [h])
    have one : ∀ t, (t = "auto".toList → parseFormat t = .auto) ∧ (t ≠ "auto".toList → parseFormat t = .extension t) := by
      intro t
      unfold parseFormat
      exact ⟨fun h => if_pos h, fun h => if_neg h⟩
    obtain ⟨init, t, rfl⟩ : ∃ init t, fs = init ++ [t] := ⟨fs.dropLast, fs.getLast hne, (List.dropLast_concat_getLast hne).symm⟩
    refine ⟨parseFormat t, by simp [parseFormats], fun i => ?_⟩
    by_cases hi : i < (init ++ [t]).length
    · refine ⟨(init ++ [t])[i], .inl ⟨hi, List.getElem?_eq_getElem hi⟩, ?_⟩
      simp only [parseFormats, List.getElem?_map, List.getElem?_eq_getElem hi, Option.map_some]
      exact one _
    · refine ⟨t, .inr ⟨by omega, init, rfl⟩, ?_⟩
      simp only [parseFormats, List.getElem?_map, List.getElem?_eq_none (Nat.le_of_not_lt hi), Option.map_none]
      exact one _

theorem assignFormats_get (formats : List InputFormat) (last : InputFormat) : ∀ (names : List Str) (k : Nat),
    (assignFormats formats last k names).length = names.length ∧ ∀ (i : Nat) n, names[i]? = some n →
      (assignFormats formats last k names)[i]? = some ⟨.path n, match formats[k + i]? with | some f => f | none => last⟩
  | [], k => by simp [assignFormats]
  | p :: ps, k => by
    obtain ⟨h1, h2⟩ := assignFormats_get formats last ps (k + 1)
    refine ⟨by simp [assignFormats, h1], ?_⟩
    intro i n hn
    cases i with
    | zero => simp at hn; subst hn; rfl
    | succ i =>
      have := h2 i n (by simpa using hn)
      rw [show k + 1 + i = k + (i + 1) by omega] at this
      simpa [assignFormats] using this

/-- **C60.** Every input gets the format override of the same number, or the last one if there are fewer; `auto` and no overrides mean detection.
Inputs keep their order and number. (clap never hands over an empty list.) -/
theorem C60_formats (a : CliArgs) (names : List Str) (ha : a.inputs = some names) (hn : names ≠ []) (hf : a.formats ≠ some []) :
    ∃ inputs, parseInputs a = .ok inputs ∧ inputs.length = names.length ∧
      ∀ (i : Nat) n, names[i]? = some n → ∃ fmt, inputs[i]? = some ⟨.path n, fmt⟩ ∧ FormatFor a.formats i fmt := by
  obtain ⟨last, h1, h2⟩ := formats_get a.formats hf
  obtain ⟨h3, h4⟩ := assignFormats_get (parseFormats a.formats) last names 0
  refine ⟨assignFormats (parseFormats a.formats) last 0 names, ?_, h3, ?_⟩
  · unfold parseInputs
    simp only [h1, ha, if_neg hn]
  · intro i n hi
    have := h4 i n hi
    rw [Nat.zero_add] at this
    exact ⟨_, this, h2 i⟩

/-- Without inputs: standard input with the first override. -/
theorem C60_stdin (a : CliArgs) (ha : a.inputs = none) (hf : a.formats ≠ some []) : ∃ fmt, parseInputs a = .ok [⟨.stdIn, fmt⟩] ∧ FormatFor a.formats 0 fmt := by
  obtain ⟨last, h1, h2⟩ := formats_get a.formats hf
  have h0 := h2 0
  cases hp : parseFormats a.formats with
  | nil => rw [hp] at h1; simp at h1
  | cons f fs =>
    rw [hp] at h0 h1
    refine ⟨f, ?_, h0⟩
    unfold parseInputs
    simp only [hp, h1, ha]
    rfl

example : parseInputs { inputs := some ["a".toList, "b".toList, "c".toList], formats := some ["auto".toList, "dc".toList] } =
    .ok [⟨.path "a".toList, .auto⟩, ⟨.path "b".toList, .extension "dc".toList⟩, ⟨.path "c".toList, .extension "dc".toList⟩] := by decide +kernel

/-! ### C61: the tool merges -/

/-- The merge the theorems below speak of is determined by the inputs. -/
theorem C61_merge_unique {range : TimestampRange} {inputs : List (List Row)} {a b : List Row} (ha : IsMerge range inputs a) (hb : IsMerge range inputs b) : a = b :=
  isMerge_unique ha hb

theorem csv_run_rows (e : CliEnv) (a : CliArgs) (st : CliSettings e.csv.lib) (files : List FileSource) (h : Header) (d : Device)
    (hs : parseSettings e a = .ok st) (ho : Opens e st files) (hg : GoodInputs st.range h files) (hd : CsvTo e.out a.output d) (hr : Reliable d)
    (ht : st.outCfg.printTimeCol = true → st.outCfg.style = .humanReadable → st.outCfg.zone ≠ none)
    (hv : ∀ f ∈ files, ∀ r ∈ f.source.rows, inRange st.range r.timestamp = true → ∀ v ∈ r.values, ¬ Unprintable v) :
    ∃ out rows, (chopperCli e a).result = .ok () ∧ (chopperCli e a).output = some out ∧ IsMerge st.range (files.map (·.source.rows)) rows ∧
      (csvRowsText e.ff st.outCfg rows).2 = .ok () ∧ CsvLines e.ff st.outCfg rows (csvRowsText e.ff st.outCfg rows).1 ∧
      out.taken = d.taken ++ utf8Encode (csvHeaderText st.outCfg h.names ++ (csvRowsText e.ff st.outCfg rows).1) := by
  have hm := files_merge st.range hg.sorted
  have hprint := csvRows_lines e.ff st.outCfg ht (mergeOf st.range (files.map (·.source))) (by
    intro r hr v hv'
    obtain ⟨h1, i, hi, h2⟩ := merge_mem hm hr
    obtain ⟨f, hf, rfl⟩ := List.mem_map.1 hi
    exact hv f hf r h2 h1 v hv')
  rcases csv_run e a st files h d hs ho hg.header hd with ⟨k, h1, _⟩ | ⟨out, cs, res, h1, h2, h3, h4, h5⟩
  · exact absurd h1 (hr k)
  · have hc := good_calls hg
    have hfed := fed_ok hc (sources_sorted hg.sorted)
    rw [← h1] at hc hfed
    simp only at hc hfed
    rw [hfed] at h4 h5
    have hok := h5 hr hc hprint.1
    exact ⟨out, _, hok, h2, hm, hprint.1, hprint.2, (h4 hok).2.2⟩

/-- **C61 (CSV).** If all inputs have the same header, are sorted, have a row in the range and can be read up to the end of the range, then the run
succeeds and the output receives the header line and one line per row of the merge of the inputs' rows in the range, provided the output does not
fail and the rows have a CSV form (no boolean and byte buffer values; a time zone if times are to be human readable). -/
theorem C61_csv (e : CliEnv) (a : CliArgs) (st : CliSettings e.csv.lib) (files : List FileSource) (h : Header) (d : Device)
    (hs : parseSettings e a = .ok st) (ho : Opens e st files) (hg : GoodInputs st.range h files) (hd : CsvTo e.out a.output d) (hr : Reliable d)
    (ht : st.outCfg.printTimeCol = true → st.outCfg.style = .humanReadable → st.outCfg.zone ≠ none)
    (hv : ∀ f ∈ files, ∀ r ∈ f.source.rows, inRange st.range r.timestamp = true → ∀ v ∈ r.values, ¬ Unprintable v) :
    ∃ out rows body, (chopperCli e a).result = .ok () ∧ (chopperCli e a).output = some out ∧ IsMerge st.range (files.map (·.source.rows)) rows ∧
      CsvLines e.ff st.outCfg rows body ∧ out.taken = d.taken ++ utf8Encode (csvHeaderText st.outCfg h.names ++ body) := by
  obtain ⟨out, rows, h1, h2, h3, _, h4, h5⟩ := csv_run_rows e a st files h d hs ho hg hd hr ht hv
  exact ⟨out, rows, _, h1, h2, h3, h4, h5⟩

/-- **C61 (DC).** The same for DC output, for headers and rows that DC can hold. -/
theorem C61_dc (e : CliEnv) (a : CliArgs) (st : CliSettings e.csv.lib) (files : List FileSource) (h : Header) (d : Device)
    (hs : parseSettings e a = .ok st) (ho : Opens e st files) (hg : GoodInputs st.range h files) (hd : DcTo e.out a.output d) (hr : Reliable d)
    (hl : h.names.length = h.types.length) (hn : 2 ≤ h.types.length) (hn2 : h.types.length < 2 ^ 32) (ht : ∀ t ∈ h.types, t ≠ .boolean ∧ t ≠ .byteBuf)
    (hnm : ∀ n ∈ h.names, (utf8Encode n).length < 2 ^ 32) (hf : ∀ f ∈ files, ∀ r ∈ f.source.rows, inRange st.range r.timestamp = true → RowFits h.types r) :
    ∃ out rows, (chopperCli e a).result = .ok () ∧ (chopperCli e a).output = some out ∧ IsMerge st.range (files.map (·.source.rows)) rows ∧
      (∀ r ∈ rows, RowFits h.types r) ∧ (dcWriteFile e.csv.ov h rows).res = .ok () ∧ out.taken = d.taken ++ (dcWriteFile e.csv.ov h rows).out := by
  have hm := files_merge st.range hg.sorted
  have hfit : ∀ r ∈ mergeOf st.range (files.map (·.source)), RowFits h.types r := by
    intro r hr
    obtain ⟨h1, i, hi, h2⟩ := merge_mem hm hr
    obtain ⟨f, hf', rfl⟩ := List.mem_map.1 hi
    exact hf f hf' r h2 h1
  obtain ⟨c, hc1, _⟩ := dcProcessHeader_ok e.csv.ov hl hn hn2 ht hnm
  have hw : (dcWriteFile e.csv.ov h (mergeOf st.range (files.map (·.source)))).res = .ok () := by
    obtain ⟨k, hk, hk48, _⟩ := C41_bitmap_length e.csv.ov h hl hn hn2 ht hnm
    unfold dcWriteFile Wr.bind
    rw [hk]
    simp only
    have key : ∀ rows : List Row, (∀ r ∈ rows, RowFits h.types r) → (dcWriteRows k rows).res = .ok () := by
      intro rows hrows
      induction rows with
      | nil => rfl
      | cons r rs ih =>
        unfold dcWriteRows Wr.bind
        rw [dcWriteRow_eq hk48 (allFit_of_row (hrows r (by simp)).1 (hrows r (by simp)).2)]
        exact ih fun x hx => hrows x (by simp [hx])
    exact key _ hfit
  rcases dc_run e a st files h d hs ho hg.header hd _ (by rw [hc1]) with ⟨k, h1, _⟩ | ⟨out, cs, res, h1, h2, h3, h4, h5⟩
  · exact absurd h1 (hr k)
  · have hc := good_calls hg
    have hfed := fed_ok hc (sources_sorted hg.sorted)
    rw [← h1] at hc hfed
    simp only at hc hfed
    rw [hfed] at h4 h5
    have hok := h5 hr hc hw
    exact ⟨out, _, hok, h2, hm, hfit, hw, (h4 hok).2.2⟩

/-- **C61 (unequal headers).** If the headers differ the run fails before any row is read or written. -/
theorem C61_unequal_headers (e : CliEnv) (a : CliArgs) (st : CliSettings e.csv.lib) (files : List FileSource) (d : Device)
    (hs : parseSettings e a = .ok st) (ho : Opens e st files) (hd : CsvTo e.out a.output d ∨ DcTo e.out a.output d)
    (hne : ∃ f ∈ files, ∃ g ∈ files, f.header ≠ g.header) :
    (chopperCli e a).result = .err (.custom "MuxHeaderSink -- wrong header") ∧ (chopperCli e a).graph = none := by
  obtain ⟨created, f, hsink⟩ : ∃ created f, newHeaderSink e.sink e.out a.output st.outCfg = (created, .ok f) := by
    rcases hd with hd | hd
    · obtain ⟨c, hc⟩ := csvTo_sink hd st.outCfg; exact ⟨c, _, hc⟩
    · obtain ⟨c, hc⟩ := dcTo_sink hd st.outCfg; exact ⟨c, _, hc⟩
  cases files with
  | nil => obtain ⟨f, hf, _⟩ := hne; cases hf
  | cons f0 fs =>
    have hne' : ∃ f ∈ fs, f.header ≠ f0.header := by
      obtain ⟨f, hf, g, hg, hfg⟩ := hne
      by_cases h1 : f.header = f0.header
      · refine ⟨g, ?_, fun h => hfg (by rw [h1, h])⟩
        rcases List.mem_cons.1 hg with rfl | hg
        · exact absurd h1 hfg
        · exact hg
      · refine ⟨f, ?_, h1⟩
        rcases List.mem_cons.1 hf with rfl | hf
        · exact absurd rfl h1
        · exact hf
    have h4 := cli_setup_run e a st (f0 :: fs) hs ho created f hsink
    rw [cli_wrong_header _ _ f0 fs hne'] at h4
    unfold chopperCli
    rw [h4]
    exact ⟨rfl, rfl⟩

/-! ### C62: DC to DC -/

/-- **C62 (partial).** With DC inputs (2 or more columns, not 1 modulo 8, of the supported types) and a new, reliable DC output file, reading the output
yields the same header and the merge of the inputs' rows. Missing, since it is false: 1, 9, 17, ... columns (`C62_nine_columns_never`). -/
theorem C62_dc_to_dc_partial (e : CliEnv) (a : CliArgs) (st : CliSettings e.csv.lib) (files : List FileSource) (h : Header) (d : Device) (ov : Overflow)
    (hs : parseSettings e a = .ok st) (ho : Opens e st files) (hg : GoodInputs st.range h files) (hd : DcTo e.out a.output d) (hr : Reliable d) (hnew : d.taken = [])
    (hdc : ∀ f ∈ files, ∃ stream src, dcOpen e.csv.ov stream = .ok src ∧ f = src.toFile)
    (hn : 2 ≤ h.types.length) (h8 : h.types.length % 8 ≠ 1) (ht : ∀ t ∈ h.types, t ≠ .boolean ∧ t ≠ .byteBuf) :
    ∃ out rows src fin, (chopperCli e a).result = .ok () ∧ (chopperCli e a).output = some out ∧ IsMerge st.range (files.map (·.source.rows)) rows ∧
      dcOpen ov (ofBytes out.taken) = .ok src ∧ src.header = h ∧ Delivers src rows fin ∧ fin.nextRow.1 = .ok none := by
  obtain ⟨f0, hf0⟩ := List.exists_mem_of_ne_nil _ (opens_ne hs ho)
  obtain ⟨hl, hn2, hnm⟩ : h.names.length = h.types.length ∧ h.types.length < 2 ^ 32 ∧ (∀ n ∈ h.names, (utf8Encode n).length < 2 ^ 32 ∧ n ≠ []) := by
    obtain ⟨stream, src, h1, h2⟩ := hdc f0 hf0
    obtain ⟨c, _, hc⟩ := dcOpen_iff.1 h1
    have hh : src.header = h := by rw [← hg.header f0 hf0, h2]; rfl
    rw [hh] at hc
    exact dc_header_facts hc
  obtain ⟨out, rows, h1, h2, h3, h4, h5, h6⟩ := C61_dc e a st files h d hs ho hg hd hr hl hn hn2 ht (fun n hn => (hnm n hn).1) (by
    intro f hf r hr _
    obtain ⟨stream, src, _, rfl⟩ := hdc f hf
    obtain ⟨fin, hfin⟩ := toFile_delivers src
    have := delivers_fits hfin r hr
    rwa [show src.header = h from hg.header _ hf] at this)
  obtain ⟨_, src, fin, h7, h8', h9, h10, h11⟩ := C36_roundtrip_partial e.csv.ov ov h rows hl hn h8 hn2 ht (fun n hn => (hnm n hn).1) h4
  rw [hnew, List.nil_append] at h6
  rw [← h6] at h7
  refine ⟨out, rows, src, fin, h1, h2, h3, h7, ?_, h10, h11⟩
  rw [C36_names_kept h.names (fun n hn => (hnm n hn).2)] at h9
  obtain ⟨names, types⟩ := h
  obtain ⟨s, names', types'⟩ := src
  simp only at h8' h9
  rw [h8', h9]

/-- **C62 is false** for 9, 17, ... columns: reading the output never yields the merged rows (strings below 2 GiB). -/
theorem C62_nine_columns_never (e : CliEnv) (a : CliArgs) (st : CliSettings e.csv.lib) (files : List FileSource) (h : Header) (d : Device) (ov : Overflow)
    (hs : parseSettings e a = .ok st) (ho : Opens e st files) (hg : GoodInputs st.range h files) (hd : DcTo e.out a.output d) (hr : Reliable d) (hnew : d.taken = [])
    (hdc : ∀ f ∈ files, ∃ stream src, dcOpen e.csv.ov stream = .ok src ∧ f = src.toFile)
    (hn : 2 ≤ h.types.length) (h8 : h.types.length % 8 = 1) (ht : ∀ t ∈ h.types, t ≠ .boolean ∧ t ≠ .byteBuf)
    (hstr : ∀ f ∈ files, ∀ r ∈ f.source.rows, ∀ s, .string s ∈ r.values → (utf8Encode s).length < 2 ^ 31) :
    ∃ out rows, (chopperCli e a).result = .ok () ∧ (chopperCli e a).output = some out ∧ IsMerge st.range (files.map (·.source.rows)) rows ∧
      ∀ src fin, dcOpen ov (ofBytes out.taken) = .ok src → ¬ Delivers src rows fin := by
  obtain ⟨f0, hf0⟩ := List.exists_mem_of_ne_nil _ (opens_ne hs ho)
  obtain ⟨hl, hn2, hnm⟩ : h.names.length = h.types.length ∧ h.types.length < 2 ^ 32 ∧ (∀ n ∈ h.names, (utf8Encode n).length < 2 ^ 32 ∧ n ≠ []) := by
    obtain ⟨stream, src, h1, h2⟩ := hdc f0 hf0
    obtain ⟨c, _, hc⟩ := dcOpen_iff.1 h1
    have hh : src.header = h := by rw [← hg.header f0 hf0, h2]; rfl
    rw [hh] at hc
    exact dc_header_facts hc
  obtain ⟨out, rows, h1, h2, h3, h4, h5, h6⟩ := C61_dc e a st files h d hs ho hg hd hr hl hn hn2 ht (fun n hn => (hnm n hn).1) (by
    intro f hf r hr _
    obtain ⟨stream, src, _, rfl⟩ := hdc f hf
    obtain ⟨fin, hfin⟩ := toFile_delivers src
    have := delivers_fits hfin r hr
    rwa [show src.header = h from hg.header _ hf] at this)
  rw [hnew, List.nil_append] at h6
  refine ⟨out, rows, h1, h2, h3, ?_⟩
  intro src fin hsrc
  rw [h6] at hsrc
  refine C36_nine_columns_never e.csv.ov ov h rows hl hn h8 hn2 ht (fun n hn => (hnm n hn).1) ?_ h4 ?_ h5 src fin hsrc
  · obtain ⟨r, hr1, hr2⟩ := hg.some f0 hf0
    intro h0
    have hmem : r ∈ rows.filter (fun x => x.timestamp == r.timestamp) := by
      rw [h3.rowsAt, List.mem_flatMap]
      exact ⟨f0.source.rows, List.mem_reverse.2 (List.mem_map.2 ⟨f0, hf0, rfl⟩), List.mem_filter.2 ⟨hr1, by simp [hr2]⟩⟩
    rw [h0] at hmem
    simp at hmem
  · intro r hr s hsv
    obtain ⟨_, i, hi, h7⟩ := merge_mem h3 hr
    obtain ⟨f, hf, rfl⟩ := List.mem_map.1 hi
    exact hstr f hf r h7 s hsv

/-! ### C67: complete output or failure -/

/-- **C67 (CSV, success).** Whatever the output does (short writes, failures at any point): if the run succeeds then the output has received the
complete file, that is header line and one line for every row of the merge. -/
theorem C67_csv_success_is_complete (e : CliEnv) (a : CliArgs) (st : CliSettings e.csv.lib) (files : List FileSource) (h : Header) (d : Device)
    (hs : parseSettings e a = .ok st) (ho : Opens e st files) (hh : ∀ f ∈ files, f.header = h) (hsort : ∀ f ∈ files, Sorted f.source.rows)
    (hd : CsvTo e.out a.output d) (hok : (chopperCli e a).result = .ok ()) :
    ∃ out rows, (chopperCli e a).output = some out ∧ IsMerge st.range (files.map (·.source.rows)) rows ∧
      (csvFile e.ff st.outCfg h rows).2 = .ok () ∧ out.taken = d.taken ++ utf8Encode (csvFile e.ff st.outCfg h rows).1 := by
  rcases csv_run e a st files h d hs ho hh hd with ⟨k, _, h1, _⟩ | ⟨out, cs, res, h1, h2, h3, h4, h5⟩
  · rw [hok] at h1; simp at h1
  · obtain ⟨h6, h7, h8⟩ := h4 hok
    have hfed := fed_ok (range := st.range) (fuel := enough (files.map (·.source))) (sources := files.map (·.source)) (by rw [← h1]; exact h6) (sources_sorted hsort)
    rw [← h1] at hfed
    simp only at hfed
    rw [hfed] at h7 h8
    exact ⟨out, _, h2, files_merge st.range hsort, h7, h8⟩

/-- **C67 (CSV, failure).** Whatever fails (the output, an input in the middle, a value without CSV form): what the output has received is the beginning of
the complete file. -/
theorem C67_csv_always_prefix (e : CliEnv) (a : CliArgs) (st : CliSettings e.csv.lib) (files : List FileSource) (h : Header) (d : Device)
    (hs : parseSettings e a = .ok st) (ho : Opens e st files) (hh : ∀ f ∈ files, f.header = h) (hsort : ∀ f ∈ files, Sorted f.source.rows)
    (hsome : ∀ f ∈ files, ∃ r ∈ f.source.rows, inRange st.range r.timestamp = true)
    (hd : CsvTo e.out a.output d) (out : Device) (hout : (chopperCli e a).output = some out) :
    ∃ rows, IsMerge st.range (files.map (·.source.rows)) rows ∧ out.taken <+: d.taken ++ utf8Encode (csvFile e.ff st.outCfg h rows).1 := by
  rcases csv_run e a st files h d hs ho hh hd with ⟨k, _, _, h1⟩ | ⟨out', cs, res, h1, h2, h3, h4, h5⟩
  · rw [hout] at h1; simp at h1
  · rw [hout] at h2
    obtain rfl := Option.some.inj h2
    refine ⟨_, files_merge st.range hsort, h3.trans (prefix_left _ (encode_prefix (csvFile_prefix _ _ _ ?_)))⟩
    have := fed_prefix (range := st.range) (sources := files.map (·.source)) (sources_sorted hsort) (by
      intro s hs
      obtain ⟨f, hf, rfl⟩ := List.mem_map.1 hs
      exact selected_ne (hsort f hf) (hsome f hf)) (Nat.le_refl _)
    rw [← h1] at this
    exact this

/-- **C67 (DC, success).** -/
theorem C67_dc_success_is_complete (e : CliEnv) (a : CliArgs) (st : CliSettings e.csv.lib) (files : List FileSource) (h : Header) (d : Device)
    (hs : parseSettings e a = .ok st) (ho : Opens e st files) (hh : ∀ f ∈ files, f.header = h) (hsort : ∀ f ∈ files, Sorted f.source.rows)
    (hd : DcTo e.out a.output d) (hok : (chopperCli e a).result = .ok ()) :
    ∃ out rows, (chopperCli e a).output = some out ∧ IsMerge st.range (files.map (·.source.rows)) rows ∧
      (dcWriteFile e.csv.ov h rows).res = .ok () ∧ out.taken = d.taken ++ (dcWriteFile e.csv.ov h rows).out := by
  obtain ⟨n, hn⟩ := Classical.not_forall_not.1 fun hc => (dc_bad_header e a st files h d hs ho hh hd hc).1 hok
  rcases dc_run e a st files h d hs ho hh hd n hn with ⟨k, _, h1, _⟩ | ⟨out, cs, res, h1, h2, h3, h4, h5⟩
  · rw [hok] at h1; simp at h1
  · obtain ⟨h6, h7, h8⟩ := h4 hok
    have hfed := fed_ok (range := st.range) (fuel := enough (files.map (·.source))) (sources := files.map (·.source)) (by rw [← h1]; exact h6) (sources_sorted hsort)
    rw [← h1] at hfed
    simp only at hfed
    rw [hfed] at h7 h8
    exact ⟨out, _, h2, files_merge st.range hsort, h7, h8⟩

/-- **C67 (DC, failure).** -/
theorem C67_dc_always_prefix (e : CliEnv) (a : CliArgs) (st : CliSettings e.csv.lib) (files : List FileSource) (h : Header) (d : Device)
    (hs : parseSettings e a = .ok st) (ho : Opens e st files) (hh : ∀ f ∈ files, f.header = h) (hsort : ∀ f ∈ files, Sorted f.source.rows)
    (hsome : ∀ f ∈ files, ∃ r ∈ f.source.rows, inRange st.range r.timestamp = true)
    (hd : DcTo e.out a.output d) (out : Device) (hout : (chopperCli e a).output = some out) :
    ∃ rows, IsMerge st.range (files.map (·.source.rows)) rows ∧ out.taken <+: d.taken ++ (dcWriteFile e.csv.ov h rows).out := by
  obtain ⟨n, hn⟩ := Classical.not_forall_not.1 fun hc => by
    have := (dc_bad_header e a st files h d hs ho hh hd hc).2
    rw [hout] at this; simp at this
  rcases dc_run e a st files h d hs ho hh hd n hn with ⟨k, _, _, h1⟩ | ⟨out', cs, res, h1, h2, h3, h4, h5⟩
  · rw [hout] at h1; simp at h1
  · rw [hout] at h2
    obtain rfl := Option.some.inj h2
    refine ⟨_, files_merge st.range hsort, h3.trans (prefix_left _ (dcFile_prefix _ _ ?_))⟩
    have := fed_prefix (range := st.range) (sources := files.map (·.source)) (sources_sorted hsort) (by
      intro s hs
      obtain ⟨f, hf, rfl⟩ := List.mem_map.1 hs
      exact selected_ne (hsort f hf) (hsome f hf)) (Nat.le_refl _)
    rw [← h1] at this
    exact this

end Chopper.Props
