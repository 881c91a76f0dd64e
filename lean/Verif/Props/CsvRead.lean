import Verif.Proofs.CsvRead
import Verif.Props.Cli3
import Verif.Props.Input3
import Verif.Spec.ZipInput

/-! # C85: CSV written by the tool can be read again -/
namespace Chopper.Props
open Chopper Chopper.Spec

/-- The file with these bytes, opened with settings `cfg2`, gives the header (time column, then the names) and the rows again. -/
def ReadsBack (env : CsvEnv) (ff : FloatFmt) (cfg : CsvOutputConfig) (cfg2 : CsvInputConfig env.lib) (names : List Str) (rows : List Row) (inner : Inner) : Prop :=
  ∃ p src rows', Previewer.new defaultBufSize inner = .ok p ∧ csvOpen env cfg2 p = .ok src ∧
    src.toFile env cfg2.tz = ⟨⟨cfg.timeColName :: names, List.replicate (names.length + 1) .string⟩, ⟨rows', .eof⟩⟩ ∧ ReadAgain ff cfg.units rows rows'

/-- **C85, stated in full**: what is written with a one-character delimiter and times as numbers can be read with the same delimiter and units: same names, same number
of rows, times rounded down to the units, values as texts. -/
def C85_full : Prop := ∀ (env : CsvEnv) (ff : FloatFmt) (cfg : CsvOutputConfig) (cfg2 : CsvInputConfig env.lib) (d : Char) (b : Byte) (names : List Str) (rows : List Row)
  (body : Str) (inner : Inner), ReadsPlain env.csv → d.toNat < 128 → d ≠ '"' → d ≠ '\n' → d ≠ '\r' → b.toNat = d.toNat → cfg.delimiter = [d] → cfg2.delimiter = some b →
  cfg2.hasHeader = .yes → cfg2.tsCol = .index 0 → cfg2.tsFmt = .epoch cfg.units → cfg.printTimeCol = true → cfg.style = .epoch → CsvLines ff cfg rows body →
  (∀ r ∈ rows, r.values.length = names.length) → (∀ n ∈ cfg.timeColName :: names, PlainField ',' n ∧ n ≠ [] ∧ n.head? ≠ some '\uFEFF') →
  NoFail inner → inner.data = utf8Encode (csvHeaderText cfg names ++ body) → ReadsBack env ff cfg cfg2 names rows inner

/-- **C85 (partial).** True for the delimiter comma, at least one column and one row, and strings (and printed floats) that contain no comma, quote or line end and do not
begin or end with white space. Missing, since false: see `C85_counterexample`. -/
theorem C85_file_partial (env : CsvEnv) (hc : ReadsPlain env.csv) (ff : FloatFmt) (cfg : CsvOutputConfig) (cfg2 : CsvInputConfig env.lib) (h2 : ReadsAs cfg cfg2)
    (hd : cfg.delimiter = [',']) (hp : cfg.printTimeCol = true) (hs : cfg.style = .epoch) (names : List Str) (rows : List Row) (body : Str)
    (hl : CsvLines ff cfg rows body) (hn : names ≠ []) (hr : rows ≠ []) (hw : ∀ r ∈ rows, r.values.length = names.length)
    (ht : PlainField ',' cfg.timeColName ∧ cfg.timeColName ≠ [] ∧ cfg.timeColName.head? ≠ some '\uFEFF') (hnp : ∀ n ∈ names, PlainField ',' n)
    (hv : ∀ r ∈ rows, ∀ v ∈ r.values, PlainValue ff ',' v) (inner : Inner) (hi : NoFail inner) (hdata : inner.data = utf8Encode (csvHeaderText cfg names ++ body)) :
    ReadsBack env ff cfg cfg2 names rows inner :=
  csv_read_again env hc h2 hd hp hs names rows body hl hn hr hw ht hnp hv inner hi hdata

/-- **C85 (the whole way, partial).** A run that writes CSV, followed by opening its output file (in any later state of the world, with any chopping of the reads): the
header and the merged rows are there again. -/
theorem C85_tool_partial (e : CliEnv) (a : CliArgs) (st : CliSettings e.csv.lib) (files : List FileSource) (h : Header) (d : Device)
    (hs : parseSettings e a = .ok st) (ho : Opens e st files) (hf : files ≠ []) (hg : GoodInputs st.range h files) (hd : CsvTo e.out a.output d) (hr : Reliable d) (hemp : d.taken = [])
    (hdel : st.outCfg.delimiter = [',']) (htime : st.outCfg.printTimeCol = true) (hstyle : st.outCfg.style = .epoch) (hn : h.names ≠ [])
    (ht : PlainField ',' st.outCfg.timeColName ∧ st.outCfg.timeColName ≠ [] ∧ st.outCfg.timeColName.head? ≠ some '\uFEFF') (hnp : ∀ n ∈ h.names, PlainField ',' n)
    (hv : ∀ f ∈ files, ∀ r ∈ f.source.rows, inRange st.range r.timestamp = true →
      r.values.length = h.names.length ∧ ∀ v ∈ r.values, ¬ Unprintable v ∧ PlainValue e.ff ',' v) :
    ∃ out rows, (chopperCli e a).result = .ok () ∧ (chopperCli e a).output = some out ∧ IsMerge st.range (files.map (·.source.rows)) rows ∧
      ∀ (env : CsvEnv) (dec : Decoders) (zip : ZipLib) (w : World) (cfg : CsvInputConfig env.lib) (s : Str) (fmt : InputFormat) (sched : List ReadStep),
        ReadsPlain env.csv → ReadsAs st.outCfg cfg → FileAt w s ⟨out.taken, sched, none⟩ → (∀ k, ReadStep.fail k ∉ sched) → ¬ HttpAddress s → ¬ [0x50, 0x4b, 3, 4] <+: out.taken →
        ((∃ base, lastComponent s = some (base ++ ".csv".toList) ∧ fmt = .auto) ∨ fmt = .extension "csv".toList) →
        ∃ rows', createFromInput (newInputs env dec zip w (some cfg) [] []) w ⟨.path s, fmt⟩ =
            .ok ⟨⟨st.outCfg.timeColName :: h.names, List.replicate (h.names.length + 1) .string⟩, ⟨rows', .eof⟩⟩ ∧ ReadAgain e.ff st.outCfg.units rows rows' := by
  obtain ⟨out, rows, body, h1, h3, h4, h5, h6⟩ := C61_csv e a st files h d hs ho hg hd hr (by intro _ h; rw [hstyle] at h; cases h)
    (fun f hf r hr hin v hv' => ((hv f hf r hr hin).2 v hv').1)
  refine ⟨out, rows, h1, h3, h4, ?_⟩
  intro env dec zip w cfg s fmt sched hc h2 hfile hsched hhttp hzip hfmt
  rw [hemp, List.nil_append] at h6
  have hmem : ∀ r ∈ rows, r.values.length = h.names.length ∧ ∀ v ∈ r.values, ¬ Unprintable v ∧ PlainValue e.ff ',' v := by
    intro r hr
    obtain ⟨h1, i, hi, h2⟩ := merge_mem h4 hr
    obtain ⟨f, hf, rfl⟩ := List.mem_map.1 hi
    exact hv f hf r h2 h1
  have hrows : rows ≠ [] := by
    obtain ⟨f, fs, rfl⟩ := List.exists_cons_of_ne_nil hf
    obtain ⟨r, hr, hin⟩ := hg.some f (by simp)
    have : r ∈ rows.filter fun x => x.timestamp == r.timestamp := by
      rw [h4.rowsAt r.timestamp, List.mem_flatMap]
      exact ⟨f.source.rows, by simp, by simp [hr, hin]⟩
    intro he
    rw [he] at this
    cases this
  obtain ⟨p, src, rows', g1, g2, g3, g4⟩ := C85_file_partial env hc e.ff st.outCfg cfg h2 hdel htime hstyle h.names rows body h5 hn hrows (fun r hr => (hmem r hr).1) ht hnp
    (fun r hr v hv => ((hmem r hr).2 v hv).2) ⟨out.taken, sched, none⟩ (by
      rintro k (hk | hk)
      · exact hsched k hk
      · cases hk) h6
  refine ⟨rows', ?_, g4⟩
  rw [C66_csv_file env dec zip w cfg s fmt _ hfile.notDir hfile.here hfile.opens hhttp hzip (hfmt.elim .inl fun h => .inr (.inl h)), g1, Res.bind_ok, g2, Res.bind_ok, g3]

/-- The contract assumed of the csv library can be met. -/
theorem C85_contract : ∃ csv, ReadsPlain csv := ⟨plainCsv, plainCsv_reads⟩

/-! ### Examples and counterexamples -/

def plainEnv : CsvEnv := ⟨.panics, noLib, plainCsv, fun _ => false, id⟩

theorem plain_open (cfg2 : CsvInputConfig noLib) (b : Byte) (hd : cfg2.delimiter = some b) (hh : cfg2.hasHeader = .yes) (inner : Inner) (p : Previewer)
    (hp : Previewer.new defaultBufSize inner = .ok p) :
    csvOpen plainEnv cfg2 p = csvStart plainEnv cfg2 true (plainCsv.parse b true ⟨⟨inner.data, [], none⟩, [], 0, 0⟩) := by
  have hpend : stillToCome p.reader = inner.data := by
    rcases previewer_spec defaultBufSize (by decide) inner with ⟨q, h1, _, h3, _⟩ | ⟨e, h1, _⟩
    · rw [hp] at h1
      cases h1
      exact h3
    · rw [hp] at h1; cases h1
  have e0 : plainCsv.parse b true p.reader = plainCsv.parse b true ⟨⟨inner.data, [], none⟩, [], 0, 0⟩ := by
    simp only [plainCsv, hpend]
    rfl
  unfold csvOpen
  rw [hd]
  simp only [csvDelimiter, Res.bind_ok, hh, csvHasHeader]
  rw [← e0]
  rfl

def backOut (d : Char) : CsvOutputConfig := .new [d] true none .epoch .nanos none
def backIn (b : Byte) : CsvInputConfig noLib := ⟨some b, .yes, .index 0, .epoch .nanos, none⟩
/-- The file written. -/
def backFile (d : Char) (names : List Str) (rows : List Row) : Inner := ⟨utf8Encode (csvHeaderText (backOut d) names ++ (csvRowsText plainFloats (backOut d) rows).1), [], none⟩

theorem not_back (b : Byte) (d : Char) (names : List Str) (rows : List Row)
    (h : ∀ src, csvStart plainEnv (backIn b) true (plainCsv.parse b true ⟨backFile d names rows, [], 0, 0⟩) = .ok src →
      src.header ≠ ⟨(backOut d).timeColName :: names, List.replicate (names.length + 1) .string⟩) :
    ¬ ReadsBack plainEnv plainFloats (backOut d) (backIn b) names rows (backFile d names rows) := by
  rintro ⟨p, src, rows', h1, h2, h3, _⟩
  rw [plain_open (backIn b) b rfl rfl _ p h1] at h2
  exact h src h2 (congrArg FileSource.header h3)

/-- The exceptions, one by one, each for one row of one column: a delimiter other than comma (the header line always has commas); a comma in a text (there is no quoting);
no column at all (the header line gets a second, empty name); no row at all; a text with white space at its end (it is lost). -/
theorem C85_exceptions :
    ¬ ReadsBack plainEnv plainFloats (backOut ';') (backIn 59) [['a']] [⟨5, [.string ['x']]⟩] (backFile ';' [['a']] [⟨5, [.string ['x']]⟩]) ∧
    ¬ ReadsBack plainEnv plainFloats (backOut ',') (backIn 44) [['a']] [⟨5, [.string ['x', ',', 'y']]⟩] (backFile ',' [['a']] [⟨5, [.string ['x', ',', 'y']]⟩]) ∧
    ¬ ReadsBack plainEnv plainFloats (backOut ',') (backIn 44) [] [⟨5, []⟩] (backFile ',' [] [⟨5, []⟩]) ∧
    ¬ ReadsBack plainEnv plainFloats (backOut ',') (backIn 44) [['a']] [] (backFile ',' [['a']] []) ∧
    ¬ ReadsBack plainEnv plainFloats (backOut ',') (backIn 44) [['a']] [⟨5, [.string ['x', ' ']]⟩] (backFile ',' [['a']] [⟨5, [.string ['x', ' ']]⟩]) := by
  refine ⟨not_back _ _ _ _ ?_, not_back _ _ _ _ ?_, not_back _ _ _ _ ?_, not_back _ _ _ _ ?_, ?_⟩
  · intro src h
    rw [show csvStart plainEnv (backIn 59) true (plainCsv.parse 59 true ⟨backFile ';' [['a']] [⟨5, [.string ['x']]⟩], [], 0, 0⟩) =
      .ok ⟨[], ⟨["timestampNanos,a".toList], [.string, .string]⟩, .index 0, .units .nanos, ⟨5, [.string ['5'], .string ['x']]⟩, true⟩ from by decide +kernel] at h
    cases h
    decide
  · intro src h
    rw [show csvStart plainEnv (backIn 44) true (plainCsv.parse 44 true ⟨backFile ',' [['a']] [⟨5, [.string ['x', ',', 'y']]⟩], [], 0, 0⟩) =
      .ok ⟨[], ⟨["timestampNanos".toList, ['a']], [.string, .string, .string]⟩, .index 0, .units .nanos, ⟨5, [.string ['5'], .string ['x'], .string ['y']]⟩, true⟩ from by decide +kernel] at h
    cases h
    decide
  · intro src h
    rw [show csvStart plainEnv (backIn 44) true (plainCsv.parse 44 true ⟨backFile ',' [] [⟨5, []⟩], [], 0, 0⟩) =
      .ok ⟨[], ⟨["timestampNanos".toList, []], [.string]⟩, .index 0, .units .nanos, ⟨5, [.string ['5']]⟩, true⟩ from by decide +kernel] at h
    cases h
    decide
  · intro src h
    rw [show csvStart plainEnv (backIn 44) true (plainCsv.parse 44 true ⟨backFile ',' [['a']] [], [], 0, 0⟩) = .panic from by decide +kernel] at h
    cases h
  · rintro ⟨p, src, rows', h1, h2, h3, h4⟩
    rw [plain_open (backIn 44) 44 rfl rfl _ p h1] at h2
    rw [show csvStart plainEnv (backIn 44) true (plainCsv.parse 44 true ⟨⟨(backFile ',' [['a']] [⟨5, [.string ['x', ' ']]⟩]).data, [], none⟩, [], 0, 0⟩) =
      .ok ⟨[], ⟨["timestampNanos".toList, ['a']], [.string, .string]⟩, .index 0, .units .nanos, ⟨5, [.string ['5'], .string ['x']]⟩, true⟩ from by decide +kernel] at h2
    cases h2
    have h3 := congrArg (fun f : FileSource => f.source.rows) h3
    simp only at h3
    rw [← h3] at h4
    obtain ⟨_, t, texts, _, _, h5, h6⟩ := h4.2 0 ⟨5, [.string ['x', ' ']]⟩ ⟨5, [.string ['5'], .string ['x']]⟩ rfl (by decide +kernel)
    simp only [List.map_cons, List.cons.injEq, FieldValue.string.injEq] at h6
    obtain ⟨_, h6⟩ := h6
    cases texts with
    | nil => cases h6
    | cons t' texts =>
      simp only [List.map_cons, List.cons.injEq, FieldValue.string.injEq] at h6
      have := h5.2 0 (.string ['x', ' ']) t' rfl rfl
      rw [← h6.1] at this
      cases this

/-- **C85 is false**: with the delimiter `;` the names of the columns are not found again. -/
theorem C85_counterexample : ¬ C85_full := by
  intro h
  refine C85_exceptions.1 (h plainEnv plainFloats (backOut ';') (backIn 59) ';' 59 [['a']] [⟨5, [.string ['x']]⟩] _ (backFile ';' [['a']] [⟨5, [.string ['x']]⟩]) plainCsv_reads
    (by decide) (by decide) (by decide) (by decide) (by decide) rfl rfl rfl rfl rfl rfl rfl (csvRows_lines plainFloats (backOut ';') ?_ _ ?_).2 ?_ ?_ ?_ rfl)
  · intro _ h; cases h
  · intro r hr v hv
    simp only [List.mem_cons, List.not_mem_nil, or_false] at hr
    subst hr
    simp only [List.mem_cons, List.not_mem_nil, or_false] at hv
    subst hv
    rintro (⟨b, hb⟩ | ⟨b, hb⟩) <;> cases hb
  · intro r hr
    simp only [List.mem_cons, List.not_mem_nil, or_false] at hr
    subst hr
    rfl
  · have p1 : PlainField ',' (backOut ';').timeColName := ⟨by decide, by decide, by decide, by decide, isTrimmed_self (by decide +kernel)⟩
    have p2 : PlainField ',' ['a'] := ⟨by decide, by decide, by decide, by decide, isTrimmed_self (by decide +kernel)⟩
    intro n hn
    simp only [List.mem_cons, List.not_mem_nil, or_false] at hn
    rcases hn with rfl | rfl
    · exact ⟨p1, by decide, by decide⟩
    · exact ⟨p2, by decide, by decide⟩
  · rintro k (hk | hk) <;> cases hk

/-- The hypotheses of the theorems are met: the output of the example run. -/
example : ∃ out rows, (chopperCli exEnv (exArgs "o.csv".toList)).result = .ok () ∧ (chopperCli exEnv (exArgs "o.csv".toList)).output = some out ∧
    IsMerge exSettings.range ([exFileA, exFileB].map (·.source.rows)) rows ∧
    ∀ (env : CsvEnv) (dec : Decoders) (zip : ZipLib) (w : World) (cfg : CsvInputConfig env.lib) (s : Str) (fmt : InputFormat) (sched : List ReadStep),
        ReadsPlain env.csv → ReadsAs exSettings.outCfg cfg → FileAt w s ⟨out.taken, sched, none⟩ → (∀ k, ReadStep.fail k ∉ sched) → ¬ HttpAddress s → ¬ [0x50, 0x4b, 3, 4] <+: out.taken →
        ((∃ base, lastComponent s = some (base ++ ".csv".toList) ∧ fmt = .auto) ∨ fmt = .extension "csv".toList) →
        ∃ rows', createFromInput (newInputs env dec zip w (some cfg) [] []) w ⟨.path s, fmt⟩ =
            .ok ⟨⟨"timestampNanos".toList :: ["a".toList, "b".toList], List.replicate 3 .string⟩, ⟨rows', .eof⟩⟩ ∧ ReadAgain plainFloats .nanos rows rows' := by
  have pl : ∀ t : Str, t.all (fun c => decide (c ≠ ',' ∧ c ≠ '"' ∧ c ≠ '\n' ∧ c ≠ '\r' ∧ isWhite c = false)) = true → PlainField ',' t := by
    intro t ht
    rw [List.all_eq_true] at ht
    have ht' : ∀ c ∈ t, c ≠ ',' ∧ c ≠ '"' ∧ c ≠ '\n' ∧ c ≠ '\r' ∧ isWhite c = false := fun c hc => by simpa using ht c hc
    exact ⟨fun h => (ht' _ h).1 rfl, fun h => (ht' _ h).2.1 rfl, fun h => (ht' _ h).2.2.1 rfl, fun h => (ht' _ h).2.2.2.1 rfl, isTrimmed_self fun c hc => (ht' c hc).2.2.2.2⟩
  refine C85_tool_partial exEnv (exArgs "o.csv".toList) exSettings [exFileA, exFileB] ⟨["a".toList, "b".toList], [.int, .string]⟩ exDev (exCli_settings _) exCli_opens (by simp)
    exCli_good exCli_csvTo exCli_reliable rfl rfl rfl rfl (by simp) ⟨pl _ (by decide +kernel), by decide, by decide⟩ ?_ ?_
  · intro n hn
    simp only [List.mem_cons, List.not_mem_nil, or_false] at hn
    rcases hn with rfl | rfl <;> exact pl _ (by decide +kernel)
  · intro f hf r hr _
    simp only [List.mem_cons, List.not_mem_nil, or_false] at hf
    have hu := exCli_values f (by simpa using hf) r hr
    rcases hf with rfl | rfl <;> simp only [exFileA, exFileB, List.mem_cons, List.not_mem_nil, or_false] at hr <;> rcases hr with rfl | rfl <;>
      refine ⟨rfl, fun v hv => ⟨hu v hv, ?_⟩⟩ <;> simp only [List.mem_cons, List.not_mem_nil, or_false] at hv <;> rcases hv with rfl | rfl <;>
      first | trivial | exact pl _ (by decide +kernel)

end Chopper.Props
