import Verif.Props.CsvCrate
import Verif.Props.CsvCopy

/-! # C114: copying CSV files with quotes -/
namespace Chopper.Props
open Chopper Chopper.Spec

/-- The bytes of a CSV file with these column names and records: its values may be quoted and surrounded by white space, and it may begin with a byte order mark. -/
def QuotedData (d : Char) (names : List Str) (recs : List (List Str)) (data : List Byte) : Prop :=
  ∃ written text, FileText d written text ∧ Trimmed written (names :: recs) ∧
    ((data = utf8Encode text ∧ text.head? ≠ some '\uFEFF') ∨ data = utf8Encode ('\uFEFF' :: text))

/-- What is given: the tool with the csv crate, explicit settings for its CSV inputs (delimiter `d`, a header line, times in column `c` in units `u`), CSV output with commas and without time column;
its inputs are CSV files, possibly with quotes, with the same column names, all records as long as the header, in time order, with a record in the range. `time` is the time of a record. -/
structure QuotedRun (e : CliEnv) (a : CliArgs) (st : CliSettings e.csv.lib) (d : Char) (c : Nat) (u : TimestampUnits) (names : List Str) (tables : List (List (List Str)))
    (time : List Str → Nanos) (dev : Device) : Prop where
  settings : parseSettings e a = .ok st
  crate : e.csv.csv = csvCrate
  noUser : e.userFactories = [] ∧ e.userTransports = []
  delimiter : d.toNat < 128 ∧ d ≠ '"' ∧ d ≠ '\n' ∧ d ≠ '\r' ∧ ∃ b : Byte, b.toNat = d.toNat ∧ st.inCfg.delimiter = some b
  header : st.inCfg.hasHeader = .yes
  column : st.inCfg.tsCol = .index c
  format : st.inCfg.tsFmt = .epoch u
  outDelimiter : st.outCfg.delimiter = [',']
  outTime : st.outCfg.printTimeCol = false
  inputs : st.inputs.length = tables.length ∧ ∀ (i : Nat) inp recs, st.inputs[i]? = some inp → tables[i]? = some recs → ∃ data, QuotedData d names recs data ∧ CsvDataAt e.world inp data
  widths : ∀ recs ∈ tables, ∀ rec ∈ recs, rec.length = names.length
  times : ∀ recs ∈ tables, ∀ rec ∈ recs, TimeIn c u rec (time rec)
  sorted : ∀ recs ∈ tables, recs.Pairwise fun x y => time x ≤ time y
  some : ∀ recs ∈ tables, ∃ rec ∈ recs, inRange st.range (time rec) = true
  device : CsvTo e.out a.output dev
  reliable : Reliable dev

/-- After the preview as much as possible is buffered. -/
theorem preview_room {inner : Inner} {p : Previewer} (h : Previewer.new defaultBufSize inner = .ok p) : p.reader.cap - p.reader.pos = min defaultBufSize inner.data.length := by
  unfold Previewer.new at h
  rcases fillBuffer_spec defaultBufSize (by decide) inner with ⟨r, h1, _, h3, _, _, h6, _⟩ | ⟨e, r, h1, _⟩
  · simp only [h1] at h
    obtain ⟨t, _, h⟩ := Res.bind_eq_ok.1 h
    obtain ⟨l, _, h⟩ := Res.bind_eq_ok.1 h
    obtain rfl := Res.ok.inj h
    simp only [h3, h6, Nat.sub_zero]
  · simp only [h1] at h
    cases h

theorem quoted_parse {d : Char} {b : Byte} (hd : d.toNat < 128) (hb : b.toNat = d.toNat) (hq : d ≠ '"') (hn : d ≠ '\n') (hr : d ≠ '\r') {names : List Str} {recs : List (List Str)} {data : List Byte}
    (h : QuotedData d names recs data) {inner : Inner} {p : Previewer} (hi : NoFail inner) (hdata : inner.data = data) (hp : Previewer.new defaultBufSize inner = .ok p) :
    csvCrate.parse b true p.reader = ⟨.ok names, recs.map .ok⟩ := by
  obtain ⟨p', hpn', hinv, hpend, _, hnf⟩ := preview_ok hi
  obtain rfl : p' = p := Res.ok.inj (hpn'.symm.trans hp)
  obtain ⟨written, text, h1, h2, ⟨h3, h4⟩ | h3⟩ := h
  · exact (C113_quoted d b hd hb hq hn hr written _ text h1 h4 h2 p'.reader hnf (by rw [← h3, ← hdata, ← hpend]; rfl)).2 _ _ rfl
  · refine (C113_bom d b hd hb hq hn hr written _ text h1 h2 p'.reader hnf (by rw [← h3, ← hdata, ← hpend]; rfl) ?_).2 _ _ rfl
    rw [preview_room hp, hdata, h3]
    have : (utf8Encode ('\uFEFF' :: text)).length = 3 + (utf8Encode text).length := by
      have : utf8Encode ('\uFEFF' :: text) = 0xEF :: 0xBB :: 0xBF :: utf8Encode text := by
        simp [utf8Encode, show encodeChar '\uFEFF' = [0xEF, 0xBB, 0xBF] from by decide +kernel]
      rw [this]
      simp only [List.length_cons]
      omega
    rw [this]
    have : defaultBufSize = 8192 := rfl
    omega

theorem quoted_tables {e : CliEnv} {a : CliArgs} {st : CliSettings e.csv.lib} {d : Char} {c : Nat} {u : TimestampUnits} {names : List Str} {tables : List (List (List Str))}
    {time : List Str → Nanos} {dev : Device} (h : QuotedRun e a st d c u names tables time dev) : TablesRun e a st names tables time dev := by
  obtain ⟨d1, d2, d3, d4, b, d5, d6⟩ := h.delimiter
  refine ⟨h.settings, h.outDelimiter, h.outTime, bytes_opens h.noUser (data := QuotedData d names) h.inputs fun recs hm bs hbs => ?_, h.sorted, h.some, h.device, h.reliable⟩
  have hne : recs ≠ [] := by
    rintro rfl
    obtain ⟨rec, hr, _⟩ := h.some _ hm
    cases hr
  obtain ⟨first, rest, rfl⟩ := List.exists_cons_of_ne_nil hne
  refine reads_parsed e.csv st.inCfg (b := b) (col := .index c) (fmt := .units u) ?_ ?_ (h.widths _ hm) ?_ ?_
  · intro _ p _ _
    rw [← d6, ← h.header]
  · intro inner p hi hdata hp
    rw [h.crate]
    exact quoted_parse d1 d5 d2 d3 d4 hbs hi hdata hp
  · unfold getTimestampColAndFmt
    rw [h.column, h.format]
    rfl
  · intro rec hr
    obtain ⟨t, h1, h2, h3⟩ := h.times _ hm rec hr
    obtain ⟨ts, h4, h5⟩ := (C11_units_partial e.csv.ov e.csv.lib st.inCfg.tz u rec c t h1).1 t (.inl rfl) h2 (by rw [h3]; exact (time rec).isLt)
    rw [h4, BitVec.eq_of_toNat_eq (h5.trans h3)]

/-- **C114 (merge).** Whatever quotes, surrounding white space, empty lines or byte order mark the inputs have: the run succeeds, and the output has the column names and the records of the inputs that lie
in the range, in time order, at each time those of later inputs first, the values written without quotes. -/
theorem C114_merge (e : CliEnv) (a : CliArgs) (st : CliSettings e.csv.lib) (d : Char) (c : Nat) (u : TimestampUnits) (names : List Str) (tables : List (List (List Str)))
    (time : List Str → Nanos) (dev : Device) (h : QuotedRun e a st d c u names tables time dev) :
    ∃ out recs, (chopperCli e a).result = .ok () ∧ (chopperCli e a).output = some out ∧ out.taken = dev.taken ++ utf8Encode (csvText ',' (names :: recs)) ∧
      recs.Pairwise (fun x y => time x ≤ time y) ∧
      ∀ t, recs.filter (fun rec => time rec == t) = tables.reverse.flatMap fun table => table.filter fun rec => time rec == t && inRange st.range (time rec) :=
  tables_merge (quoted_tables h)

/-- **C114 (unquoted).** A single input all of whose records lie in the range: the output has the same names and records, written without quotes. -/
theorem C114_unquoted (e : CliEnv) (a : CliArgs) (st : CliSettings e.csv.lib) (d : Char) (c : Nat) (u : TimestampUnits) (names : List Str) (recs : List (List Str))
    (time : List Str → Nanos) (dev : Device) (h : QuotedRun e a st d c u names [recs] time dev) (hall : ∀ rec ∈ recs, inRange st.range (time rec) = true) :
    ∃ out, (chopperCli e a).result = .ok () ∧ (chopperCli e a).output = some out ∧ out.taken = dev.taken ++ utf8Encode (csvText ',' (names :: recs)) :=
  tables_copy (quoted_tables h) hall

/-- What one might expect: the file written by such a run to an empty output is a CSV file of the same names and records. -/
def C114_full : Prop :=
  ∀ (e : CliEnv) (a : CliArgs) (st : CliSettings e.csv.lib) (d : Char) (c : Nat) (u : TimestampUnits) (names : List Str) (recs : List (List Str))
    (time : List Str → Nanos) (dev : Device), QuotedRun e a st d c u names [recs] time dev → (∀ rec ∈ recs, inRange st.range (time rec) = true) → dev.taken = [] →
    ∃ out text, (chopperCli e a).result = .ok () ∧ (chopperCli e a).output = some out ∧ out.taken = utf8Encode text ∧ FileText ',' (names :: recs) text

/-- **C114 (copy).** The file that such a run of a single input writes to an empty output is a CSV file of the same names and records exactly if no name or value has a comma or a line end or begins with a
quote (and the file does not have just one column with an empty name). -/
theorem C114_copy (e : CliEnv) (a : CliArgs) (st : CliSettings e.csv.lib) (d : Char) (c : Nat) (u : TimestampUnits) (names : List Str) (recs : List (List Str))
    (time : List Str → Nanos) (dev : Device) (h : QuotedRun e a st d c u names [recs] time dev) (hall : ∀ rec ∈ recs, inRange st.range (time rec) = true) (hdev : dev.taken = []) :
    (∃ out text, (chopperCli e a).result = .ok () ∧ (chopperCli e a).output = some out ∧ out.taken = utf8Encode text ∧ FileText ',' (names :: recs) text) ↔
    names ≠ [[]] ∧ ∀ line ∈ names :: recs, ∀ v ∈ line, NeedsNoQuotes ',' v := by
  obtain ⟨out, h1, h2, h3⟩ := C114_unquoted e a st d c u names recs time dev h hall
  rw [hdev, List.nil_append] at h3
  have key := C113_quotes_needed ',' (by decide) (by decide) (by decide) (by decide) (names :: recs)
  have time1 : ∀ rec ∈ recs, rec ≠ [] ∧ rec ≠ [[]] := by
    intro rec hr
    obtain ⟨t, g1, g2, _⟩ := h.times recs (by simp) rec hr
    refine ⟨?_, ?_⟩
    · rintro rfl; simp at g1
    · rintro rfl
      cases c with
      | zero => simp at g1; exact g2.1 g1
      | succ c => simp at g1
  have hn : names ≠ [] := by
    rintro rfl
    obtain ⟨rec, hr, _⟩ := h.some recs (by simp)
    exact (time1 rec hr).1 (List.eq_nil_of_length_eq_zero (h.widths recs (by simp) rec hr))
  constructor
  · rintro ⟨out', text, _, g2, g3, g4⟩
    rw [h2] at g2
    obtain rfl := Option.some.inj g2
    rw [h3] at g3
    obtain rfl := encode_injective g3
    obtain ⟨k1, k2⟩ := key.1 g4
    exact ⟨(k1 names (by simp)).2, k2⟩
  · rintro ⟨k1, k2⟩
    refine ⟨out, _, h1, h2, h3, key.2 ⟨fun l hl => ?_, k2⟩⟩
    rcases List.mem_cons.1 hl with rfl | hl
    · exact ⟨hn, k1⟩
    · exact time1 l hl

/-! ### Example: a file with a byte order mark, quotes, white space, CRLF and an empty line -/
def quotedText : Str := "t, v \r\n5,\"x,y\"\r\n\r\n7,\"say \"\"hi\"\"\"".toList
def quotedWritten : List (List Str) := [[['t'], " v ".toList], [['5'], "x,y".toList], [['7'], "say \"hi\"".toList]]
def quotedRecs : List (List Str) := [[['5'], "x,y".toList], [['7'], "say \"hi\"".toList]]

theorem two_fields {d : Char} {v w t u : Str} (h1 : FieldText d v t) (h2 : FieldText d w u) : LineText d [v, w] (t ++ d :: u) := by
  refine ⟨by simp, [t, u], by simp, rfl, ?_, rfl⟩
  intro i a b ha hb
  match i, ha, hb with
  | 0, ha, hb => cases ha; cases hb; exact h1
  | 1, ha, hb => cases ha; cases hb; exact h2
  | _ + 2, ha, _ => simp at ha

theorem quoted_file : FileText ',' quotedWritten quotedText := by
  refine .line (rest := "\n5,\"x,y\"\r\n\r\n7,\"say \"\"hi\"\"\"".toList) (two_fields (t := ['t']) (u := " v ".toList) ?_ ?_) (.inr rfl) ?_
  · exact .plain (by decide) (by decide) (by decide) (by decide)
  · exact .plain (by decide) (by decide) (by decide) (by decide)
  refine .empty (.inl rfl) ?_
  refine .line (rest := "\n\r\n7,\"say \"\"hi\"\"\"".toList) (two_fields (t := ['5']) (u := "\"x,y\"".toList) ?_ ?_) (.inr rfl) ?_
  · exact .plain (by decide) (by decide) (by decide) (by decide)
  · exact .quoted
  refine .empty (.inl rfl) (.empty (.inr rfl) (.empty (.inl rfl) (.last (two_fields (t := ['7']) (u := "\"say \"\"hi\"\"\"".toList) ?_ ?_))))
  · exact .plain (by decide) (by decide) (by decide) (by decide)
  · exact .quoted

theorem quoted_data : QuotedData ',' copyNames quotedRecs (utf8Encode ('\uFEFF' :: quotedText)) := by
  refine ⟨quotedWritten, quotedText, quoted_file, ?_, .inr rfl⟩
  have : quotedWritten.map (fun r => r.map trim) = copyNames :: quotedRecs := by decide +kernel
  rw [← this]
  exact trimmed_map _

def quotedWorld : World :=
  ⟨fun p => p == utf8Encode "a.csv".toList, fun _ => false,
   fun p => if p = utf8Encode "a.csv".toList then some ⟨utf8Encode ('\uFEFF' :: quotedText), [.bytes 1, .bytes 3], none⟩ else none,
   fun _ => none, fun _ => .err (.io .other), ⟨[], [], none⟩⟩
def crateEnv : CsvEnv := { plainEnv with csv := csvCrate }
def quotedEnv : CliEnv := { copyEnv with csv := crateEnv, world := quotedWorld }
def quotedArgs : CliArgs := { copyArgs with inputs := some ["a.csv".toList] }
def quotedSettings : CliSettings noLib := { copySettings with inputs := [⟨.path "a.csv".toList, .auto⟩] }

theorem quoted_example : QuotedRun quotedEnv quotedArgs quotedSettings ',' 0 .seconds copyNames [quotedRecs] copyTime exDev where
  settings := rfl
  crate := rfl
  noUser := ⟨rfl, rfl⟩
  delimiter := ⟨by decide, by decide, by decide, by decide, 44, by decide, rfl⟩
  header := rfl
  column := rfl
  format := rfl
  outDelimiter := rfl
  outTime := rfl
  inputs := by
    refine ⟨rfl, ?_⟩
    intro i inp recs h1 h2
    match i, h1, h2 with
    | 0, h1, h2 =>
      cases h1; cases h2
      exact ⟨_, quoted_data, "a.csv".toList, .auto, [.bytes 1, .bytes 3], rfl, ⟨rfl, by decide +kernel, by simp [quotedEnv, quotedWorld]⟩, by simp, by decide +kernel, by decide +kernel,
        .inl ⟨['a'], by decide +kernel, rfl⟩⟩
    | _ + 1, h1, h2 => cases h1
  widths := by decide +kernel
  times := by
    intro recs hr rec hrec
    refine ⟨rec.headD [], ?_, ?_, ?_⟩ <;> revert rec recs
    · decide +kernel
    · unfold Digits; decide +kernel
    · decide +kernel
  sorted := by decide +kernel
  some := by decide +kernel
  device := .inr ⟨"o.csv".toList, rfl, by decide +kernel, rfl⟩
  reliable := by intro k; simp [exDev]

def quotedReader (more : List Byte) (ending : Option IoKind) : BufReader := ⟨⟨utf8Encode (quotedText ++ ['\n']) ++ more, [.bytes 2], ending⟩, [], 0, 0⟩

/-- The reader fails in the middle of the third record. -/
example : ∃ others, (csvCrate.parse 44 false (quotedReader (utf8Encode "9,\"z".toList) (some .other))).records =
    [.ok [['t'], ['v']], .ok [['5'], "x,y".toList], .ok [['7'], "say \"hi\"".toList]] ++ others ++ [.err (.io .other)] :=
  C113_failure ',' 44 (by decide) (by decide) (by decide) (by decide) (by decide) quotedWritten _ quotedText quoted_file (by decide +kernel) (trimmed_map quotedWritten) _
    (by simp [quotedReader]) .other rfl (utf8Encode "9,\"z".toList) rfl

/-- A reader that fails within the header line. -/
example : (csvCrate.parse 44 true ⟨⟨utf8Encode "t,\"v".toList, [], some .other⟩, [], 0, 0⟩).records.getLast? = some (.err (.io .other)) :=
  C113_failure_last 44 true _ (by simp) .other rfl

/-- The closing quote of the last value is missing. -/
example : (csvCrate.parse 44 false (quotedReader (utf8Encode "9,\"z\n10,y".toList) none)).records = (copyNames :: quotedRecs ++ [[['9'], "z\n10,y".toList]]).map .ok := by
  refine C113_unclosed ',' 44 (by decide) (by decide) (by decide) (by decide) (by decide) quotedWritten _ quotedText quoted_file (by decide +kernel) [['9']] [['9']] rfl ?_ "z\n10,y".toList
    (show Trimmed (quotedWritten ++ [[['9']] ++ ["z\n10,y".toList]]) (copyNames :: quotedRecs ++ [[['9'], "z\n10,y".toList]]) from
      (show (quotedWritten ++ [[['9']] ++ ["z\n10,y".toList]]).map (fun r => r.map trim) = copyNames :: quotedRecs ++ [[['9'], "z\n10,y".toList]] by decide +kernel) ▸ trimmed_map _) _
    (by rintro e (h | h) <;> simp [quotedReader] at h) (by decide +kernel)
  intro i v t h1 h2
  rw [h1] at h2
  obtain rfl := Option.some.inj h2
  obtain rfl : v = ['9'] := by simpa using List.mem_of_getElem? h1
  exact .plain (by decide) (by decide) (by decide) (by decide)

/-- A line with the byte 255 among others. -/
example : (csvCrate.parse 44 false (quotedReader ([57, 44, 255] ++ 10 :: utf8Encode quotedText) none)).records =
    (copyNames :: quotedRecs).map .ok ++ .err .csv :: (copyNames :: quotedRecs).map .ok :=
  C113_invalid ',' 44 (by decide) (by decide) (by decide) (by decide) (by decide) quotedWritten _ quotedText quoted_file (by decide +kernel)
    (show Trimmed quotedWritten (copyNames :: quotedRecs) from (show quotedWritten.map (fun r => r.map trim) = copyNames :: quotedRecs by decide +kernel) ▸ trimmed_map _)
    [57, 44, 255] (by decide +kernel) (by decide) (by decide) (by decide) quotedWritten _ quotedText quoted_file
    (show Trimmed quotedWritten (copyNames :: quotedRecs) from (show quotedWritten.map (fun r => r.map trim) = copyNames :: quotedRecs by decide +kernel) ▸ trimmed_map _) _
    (by rintro e (h | h) <;> simp [quotedReader] at h) rfl

/-- The copy. -/
theorem quoted_copy : ∃ out, (chopperCli quotedEnv quotedArgs).result = .ok () ∧ (chopperCli quotedEnv quotedArgs).output = some out ∧
    out.taken = utf8Encode "t,v\n5,x,y\n7,say \"hi\"\n".toList := by
  obtain ⟨out, h1, h2, h3⟩ := C114_unquoted _ _ _ _ _ _ _ _ _ _ quoted_example (by decide +kernel)
  refine ⟨out, h1, h2, ?_⟩
  rw [h3]
  decide +kernel

/-- **C114 (counterexample).** The copy of a file with the quoted value `x,y` has a record with the values `x` and `y`. -/
theorem C114_counterexample : ¬ C114_full := by
  intro h
  obtain ⟨out, text, _, h2, h3, h4⟩ := h _ _ _ _ _ _ _ _ _ _ quoted_example (by decide +kernel) rfl
  obtain ⟨out', _, g2, g3⟩ := quoted_copy
  rw [h2] at g2
  obtain rfl := Option.some.inj g2
  rw [h3] at g3
  obtain rfl := encode_injective g3
  have : FileText ',' [copyNames, [['5'], ['x'], ['y']], [['7'], "say \"hi\"".toList]] "t,v\n5,x,y\n7,say \"hi\"\n".toList := by
    have three : LineText ',' [['5'], ['x'], ['y']] "5,x,y".toList := by
      refine ⟨by decide, [['5'], ['x'], ['y']], by simp, rfl, ?_, by decide⟩
      intro i a b ha hb
      rw [ha] at hb
      obtain rfl := Option.some.inj hb
      have hm := List.mem_of_getElem? ha
      have : a = ['5'] ∨ a = ['x'] ∨ a = ['y'] := by simpa using hm
      rcases this with rfl | rfl | rfl <;> exact .plain (by decide) (by decide) (by decide) (by decide)
    refine .line (rest := "5,x,y\n7,say \"hi\"\n".toList) (two_fields (t := ['t']) (u := ['v']) ?_ ?_) (.inl rfl) (.line (rest := "7,say \"hi\"\n".toList) three (.inl rfl)
      (.line (rest := []) (two_fields (t := ['7']) (u := "say \"hi\"".toList) ?_ ?_) (.inl rfl) .done)) <;> exact .plain (by decide) (by decide) (by decide) (by decide)
  have := C113_unambiguous ',' (by decide) (by decide) (by decide) (by decide) _ _ _ h4 this
  revert this
  decide +kernel

end Chopper.Props
