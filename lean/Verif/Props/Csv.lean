import Verif.Proofs.CsvSink
import Verif.Props.Timestamp

/-!
# Properties of CSV input and output: C42, C43, C44, C45, C46
-/
namespace Chopper.Props
open Chopper Spec

/-! ### C43: printed lines determine their texts -/

/-- **C43 (one row).** With a one-character delimiter, a printed row is one line made of the time column (if configured) and one text per value,
joined by the delimiter; if none of the texts contains the delimiter, splitting the line gives back exactly these texts. -/
theorem C43_row (ff : FloatFmt) (cfg : CsvOutputConfig) (d : Char) (row : Row) (out : Str) (hd : cfg.delimiter = [d])
    (h : csvRowText ff cfg row = (out, .ok ())) :
    ∃ line fields, out = line ++ ['\n'] ∧ PrintsAs ff cfg d row line fields ∧
      (fields ≠ [] → (∀ f ∈ fields, d ∉ f) → IsFields d line fields ∧ ∀ others, IsFields d line others → others = fields) := by
  obtain ⟨h1, h2⟩ := (csvRowText_iff ff cfg row).1 (by rw [h])
  obtain ⟨col, texts, h3, h4, h5⟩ := csvRowText_ok (ff := ff) h1 h2
  rw [h5] at h
  simp only [Prod.mk.injEq, and_true] at h
  rw [hd, joinStr_char] at h
  refine ⟨joinChar d (col ++ texts), col ++ texts, h.symm, ⟨col, texts, h3, h4, rfl, rfl⟩, ?_⟩
  intro hne hfree
  refine ⟨⟨hne, rfl, hfree⟩, fun others ho => ?_⟩
  rw [← isFields_unique ho, splitChar_join hne hfree]

/-- **C43 (rejections).** A row is printed exactly if it has no boolean and no byte buffer and, for human readable times, a time zone is set;
otherwise the result is an error, never a panic. -/
theorem C43_printable (ff : FloatFmt) (cfg : CsvOutputConfig) (row : Row) :
    ((csvRowText ff cfg row).2 = .ok () ↔
      (cfg.printTimeCol = true → cfg.style = .humanReadable → cfg.zone ≠ none) ∧ ∀ v ∈ row.values, ¬ Unprintable v) ∧
    ((csvRowText ff cfg row).2 ≠ .ok () → ∃ m, (csvRowText ff cfg row).2 = .err (.custom m)) := by
  refine ⟨csvRowText_iff ff cfg row, fun h => ?_⟩
  by_cases hb : ¬ TimePrintable cfg ∨ ∃ v ∈ row.values, Unprintable v
  · obtain ⟨out, m, ho⟩ := csvRowText_bad (ff := ff) hb
    exact ⟨m, by rw [ho]⟩
  · simp only [not_or, Classical.not_not, not_exists, not_and] at hb
    exact absurd ((csvRowText_iff ff cfg row).2 hb) h

/-- **C43 (nulls).** A null value prints as the empty text. -/
theorem C43_null (ff : FloatFmt) (t : Str) : ValueText ff .none t ↔ t = [] := by
  constructor
  · intro h; cases h; rfl
  · rintro rfl; exact .none

theorem joinChar_lines (nl : Char) : ∀ lines : List Str, joinChar nl (lines ++ [[]]) = (lines.map (· ++ [nl])).flatten
  | [] => rfl
  | [l] => by simp [joinChar]
  | l :: m :: ls => by
    have := joinChar_lines nl (m :: ls)
    simp only [List.cons_append] at this
    simp [joinChar, this]

/-- **C43 (whole output).** Printing rows gives one line per row, in order; if no text contains the delimiter or a line break, splitting the
output at line breaks gives back exactly these lines and splitting each line exactly the texts of its row. -/
theorem C43_rows (ff : FloatFmt) (cfg : CsvOutputConfig) (d : Char) (hd : cfg.delimiter = [d]) : ∀ (rows : List Row) (out : Str),
    csvRowsText ff cfg rows = (out, .ok ()) →
    ∃ lines : List (Str × List Str), out = (lines.map (·.1 ++ ['\n'])).flatten ∧ lines.length = rows.length ∧
      (∀ (i : Nat) row l, rows[i]? = some row → lines[i]? = some l → PrintsAs ff cfg d row l.1 l.2 ∧
        (l.2 ≠ [] → (∀ f ∈ l.2, d ∉ f) → IsFields d l.1 l.2)) ∧
      (d ≠ '\n' → (∀ l ∈ lines, ∀ f ∈ l.2, '\n' ∉ f) → IsFields '\n' out (lines.map (·.1) ++ [[]]))
  | [], out, h => by
    simp only [csvRowsText, Prod.mk.injEq, and_true] at h
    subst h
    exact ⟨[], rfl, rfl, by simp, fun _ _ => ⟨by simp, rfl, by simp⟩⟩
  | row :: rows, out, h => by
    rw [csvRowsText] at h
    rcases hr : csvRowText ff cfg row with ⟨o, _ | _ | _ | _⟩ <;> rw [hr] at h <;> simp only [Prod.mk.injEq, reduceCtorEq, and_false] at h
    rcases hrs : csvRowsText ff cfg rows with ⟨os, res⟩
    rw [hrs] at h
    simp only at h
    obtain ⟨h1, rfl⟩ := h
    obtain ⟨line, fields, g1, g2, g3⟩ := C43_row ff cfg d row o hd hr
    obtain ⟨lines, k1, k2, k3, k4⟩ := C43_rows ff cfg d hd rows os hrs
    refine ⟨(line, fields) :: lines, by simp [← h1, g1, k1], by simp [k2], ?_, ?_⟩
    · intro i r l q1 q2
      cases i with
      | zero =>
        simp only [List.getElem?_cons_zero, Option.some.injEq] at q1 q2
        subst q1 q2
        exact ⟨g2, fun a b => (g3 a b).1⟩
      | succ i => exact k3 i r l (by simpa using q1) (by simpa using q2)
    · intro hnl hf
      have hline : '\n' ∉ line := by
        obtain ⟨_, _, _, _, _, e⟩ := g2
        rw [e]
        intro hm
        rcases joinChar_mem hm with e' | ⟨p, hp, hp'⟩
        · exact hnl e'.symm
        · exact hf (line, fields) (by simp) p hp hp'
      obtain ⟨m1, m2, m3⟩ := k4 hnl (fun l hl => hf l (by simp [hl]))
      refine ⟨by simp, ?_, ?_⟩
      · rw [joinChar_lines, ← h1, g1, k1]
        simp [Function.comp_def]
      · intro f hf'
        rw [List.map_cons, List.cons_append, List.mem_cons] at hf'
        rcases hf' with rfl | hf'
        · exact hline
        · exact m3 f hf'

/-- An output configuration for examples. -/
def plainOut (d : Str) : CsvOutputConfig := .new d true none .epoch .seconds none

def plainFloats : FloatFmt := ⟨fun _ => ['f'], fun _ => ['f']⟩

/-- A row with several types is printed. -/
example : csvRowText plainFloats (plainOut [';']) ⟨5000000000, [.string ['a'], .none, .int (-12), .byte 200]⟩ =
    ("5;a;;-12;200\n".toList, .ok ()) := by decide +kernel
example : (csvRowText plainFloats (plainOut [';']) ⟨5, [.boolean true]⟩).2 ≠ .ok () := by decide +kernel

/-! ### C42: header and rows have the same columns -/

/-- The full property C42: with a one-character delimiter, for a row as wide as the header and texts without the delimiter, the header line has as
many columns as the row's line. -/
def C42_full : Prop := ∀ (ff : FloatFmt) (cfg : CsvOutputConfig) (names : List Str) (row : Row) (d : Char) (hline rline : Str) (hf rf fields : List Str),
  cfg.delimiter = [d] → names.length = row.values.length →
  csvHeaderText cfg names = hline ++ ['\n'] → csvRowText ff cfg row = (rline ++ ['\n'], .ok ()) →
  PrintsAs ff cfg d row rline fields → (∀ t ∈ headerColumns cfg names, d ∉ t) → (∀ t ∈ fields, d ∉ t) →
  IsFields d hline hf → IsFields d rline rf → hf.length = rf.length

theorem printsAs_length {ff : FloatFmt} {cfg : CsvOutputConfig} {d : Char} {row : Row} {line : Str} {fields : List Str} (h : PrintsAs ff cfg d row line fields) :
    fields.length = (if cfg.printTimeCol then 1 else 0) + row.values.length := by
  obtain ⟨col, texts, h1, h2, rfl, _⟩ := h
  unfold TimeCol at h1
  by_cases hp : cfg.printTimeCol = true
  · rw [if_pos hp] at h1
    obtain ⟨t, rfl, _⟩ := h1
    simp [hp, h2.1]; omega
  · rw [if_neg hp] at h1
    subst h1
    simp [hp, h2.1]

/-- **C42, partial.** What `C42_full` says, for the delimiter "," and unless there is a time column but no other column.  Missing: other
delimiters, for which the property is false (`C42_other_delimiter_never`), and the rowless time column (`C42_no_columns`). -/
theorem C42_same_columns_partial (ff : FloatFmt) (cfg : CsvOutputConfig) (names : List Str) (row : Row) (hline rline : Str) (hf rf fields : List Str)
    (hne : ¬ (cfg.printTimeCol = true ∧ names = []))
    (hlen : names.length = row.values.length)
    (hh : csvHeaderText cfg names = hline ++ ['\n'])
    (hpr : PrintsAs ff cfg ',' row rline fields) (hfree : ∀ t ∈ headerColumns cfg names, ',' ∉ t) (hfree' : ∀ t ∈ fields, ',' ∉ t)
    (h1 : IsFields ',' hline hf) (h2 : IsFields ',' rline rf) : hf.length = rf.length := by
  rw [csvHeaderText_eq hne, List.append_cancel_right_eq] at hh
  have hl : fields.length = (headerColumns cfg names).length := by
    rw [printsAs_length hpr, headerColumns, List.length_append, hlen]
    congr 1
    split <;> rfl
  obtain ⟨_, _, _, _, _, hr⟩ := hpr
  rw [← isFields_unique h1, ← isFields_unique h2, ← hh, hr]
  by_cases h0 : headerColumns cfg names = []
  · rw [h0, List.length_nil, List.length_eq_zero_iff] at hl
    unfold headerColumns at h0
    rw [h0, hl]
  · have h0' : fields ≠ [] := by intro e; rw [e] at hl; exact h0 (List.length_eq_zero_iff.1 hl.symm)
    rw [show (if cfg.printTimeCol then [cfg.timeColName] else []) ++ names = headerColumns cfg names from rfl,
      splitChar_join h0 hfree, splitChar_join h0' hfree', hl]

/-- **C42 is false for every other delimiter**: as soon as the row's line has two columns and the names do not contain the delimiter, the header
line is a single column. -/
theorem C42_other_delimiter_never (ff : FloatFmt) (cfg : CsvOutputConfig) (names : List Str) (row : Row) (d : Char) (hline rline : Str) (hf rf fields : List Str)
    (hd : d ≠ ',') (htwo : 2 ≤ fields.length)
    (hh : csvHeaderText cfg names = hline ++ ['\n'])
    (hpr : PrintsAs ff cfg d row rline fields) (hfree : ∀ t ∈ headerColumns cfg names, d ∉ t) (hfree' : ∀ t ∈ fields, d ∉ t)
    (h1 : IsFields d hline hf) (h2 : IsFields d rline rf) : hf.length = 1 ∧ rf.length = fields.length := by
  obtain ⟨_, _, _, _, _, hr⟩ := hpr
  constructor
  · rw [← isFields_unique h1, splitChar_single]; · rfl
    intro hm
    have hm' : d ∈ csvHeaderText cfg names := by rw [hh]; simp [hm]
    unfold csvHeaderText at hm'
    rw [csvHeaderNames_true] at hm'
    have hm'' : d ∈ hline := hm
    -- the line break at the end is not part of the line
    have hcut : hline = (if cfg.printTimeCol then cfg.timeColName ++ [','] else []) ++ joinChar ',' names := by
      have := hh
      unfold csvHeaderText at this
      rw [csvHeaderNames_true, List.append_cancel_right_eq] at this
      exact this.symm
    rw [hcut, List.mem_append] at hm''
    rcases hm'' with h | h
    · by_cases hp : cfg.printTimeCol = true
      · rw [if_pos hp] at h
        simp only [List.mem_append, List.mem_singleton] at h
        rcases h with h | h
        · exact hfree _ (by simp [headerColumns, hp]) h
        · exact hd h
      · simp [hp] at h
    · rcases joinChar_mem h with h | ⟨p, hp, hp'⟩
      · exact hd h
      · exact hfree p (by simp [headerColumns, hp]) hp'
  · rw [← isFields_unique h2, hr, splitChar_join (by intro e; simp [e] at htwo) hfree']

/-- **C42 is false without columns**: the header line has two columns (the second one empty), the row's line one. -/
theorem C42_no_columns (ff : FloatFmt) (cfg : CsvOutputConfig) (ts : Nanos) (hline rline : Str) (hf rf fields : List Str)
    (hp : cfg.printTimeCol = true) (hh : csvHeaderText cfg [] = hline ++ ['\n'])
    (hpr : PrintsAs ff cfg ',' ⟨ts, []⟩ rline fields) (hfree : ',' ∉ cfg.timeColName) (hfree' : ∀ t ∈ fields, ',' ∉ t)
    (h1 : IsFields ',' hline hf) (h2 : IsFields ',' rline rf) : hf.length = 2 ∧ rf.length = 1 := by
  have hl := printsAs_length hpr
  obtain ⟨_, _, _, _, _, hr⟩ := hpr
  have hcut : hline = cfg.timeColName ++ [','] := by
    unfold csvHeaderText at hh
    rw [List.append_cancel_right_eq] at hh
    simpa [hp, csvHeaderNames] using hh.symm
  constructor
  · rw [← isFields_unique h1, hcut, splitChar_cons hfree]; rfl
  · rw [← isFields_unique h2, hr, splitChar_join (by intro e; simp [e, hp] at hl) hfree', hl]
    simp [hp]

/-- **C42 is false.** -/
theorem C42_counterexample : ¬ C42_full := by
  intro h
  have := h plainFloats (plainOut [';']) [['a'], ['b']] ⟨0, [.string ['x'], .string ['y']]⟩ ';'
    "timestampSeconds,a,b".toList "0;x;y".toList ["timestampSeconds,a,b".toList] [['0'], ['x'], ['y']] [['0'], ['x'], ['y']]
    rfl rfl (by decide +kernel) (by decide +kernel)
    ⟨[['0']], [['x'], ['y']], by
        show ∃ t, [['0']] = [t] ∧ Digits t ∧ decimalValue t = 0 / 10 ^ 9
        exact ⟨_, rfl, ⟨by simp, by decide⟩, by decide⟩,
      ⟨rfl, by
        intro i v t h1 h2
        match i with
        | 0 => simp at h1 h2; subst h1 h2; exact .string
        | 1 => simp at h1 h2; subst h1 h2; exact .string
        | i + 2 => simp at h1⟩, rfl, by decide +kernel⟩
    (by decide +kernel) (by decide +kernel) ⟨by simp, by decide +kernel, by decide +kernel⟩ ⟨by simp, by decide +kernel, by decide +kernel⟩
  simp at this

/-! ### C44: rows carry their own record's fields -/

/-- The rows of an input whose records are `first` and `recs`, all well formed: see the theorems. -/
theorem csvOpen_rows {env : CsvEnv} {cfg : CsvInputConfig env.lib} {p : Previewer} {headers : Res (List Str)} {first : List Str} {items : List (Res (List Str))}
    {src : CsvSource} (hr : ReadsRecords env cfg p headers (.ok first :: items)) (h : csvOpen env cfg p = .ok src) :
    ∃ ts, getTimestamp env.ov env.lib cfg.tz first src.tsCol src.tsFmt = .ok ts ∧ src.records = items ∧ src.row = ⟨ts, first.map .string⟩ ∧
      src.hasNext = true ∧ src.header.types = List.replicate first.length .string ∧
      (∃ hh, csvNames hh headers first.length = .ok src.header.names) := by
  obtain ⟨d, h1, h2⟩ := hr
  unfold csvOpen at h
  simp only [h1, Res.bind_ok, h2] at h
  obtain ⟨f, rest, ts, g1, g2, g3, g4, g5, g6, g7, g8⟩ := csvStart_inv h
  simp only [List.cons.injEq, Res.ok.injEq] at g1
  obtain ⟨rfl, rfl⟩ := g1
  exact ⟨ts, g5, g6, g7, g8, g3, _, g2⟩

/-- The full property C44: every well formed input gives, for each record, a row with exactly that record's fields (as text) and its time. -/
def C44_full : Prop := ∀ (env : CsvEnv) (cfg : CsvInputConfig env.lib) (p : Previewer) (headers : Res (List Str)) (first : List Str)
  (recs : List (List Str × Nanos)) (src : CsvSource), ReadsRecords env cfg p headers (.ok first :: recs.map (fun r => .ok r.1)) → csvOpen env cfg p = .ok src →
  (∀ r ∈ recs, getTimestamp env.ov env.lib cfg.tz r.1 src.tsCol src.tsFmt = .ok r.2) →
  ∃ rows fin, Yields (CsvSource.nextRow env cfg.tz) src rows fin ∧ (fin.nextRow env cfg.tz).1 = .ok none ∧
    ∀ (k : Nat) r, recs[k]? = some r → rows[k + 1]? = some ⟨r.2, r.1.map .string⟩

/-- **C44 (ragged inputs).** For records no longer than the first one: there is exactly one row per record, with the record's time; field `i` of the
row is field `i` of its record if it has one, and otherwise of the latest earlier record that has one (the first record has all). -/
theorem C44_rows_partial (env : CsvEnv) (cfg : CsvInputConfig env.lib) (p : Previewer) (headers : Res (List Str)) (first : List Str)
    (recs : List (List Str × Nanos)) (src : CsvSource) (hr : ReadsRecords env cfg p headers (.ok first :: recs.map (fun r => .ok r.1)))
    (h : csvOpen env cfg p = .ok src) (hg : ∀ r ∈ recs, GoodRecord env cfg.tz src.tsCol src.tsFmt first.length r.1 r.2) :
    ∃ ts, getTimestamp env.ov env.lib cfg.tz first src.tsCol src.tsFmt = .ok ts ∧ src.header.types = List.replicate first.length .string ∧
    ∃ rows fin, Yields (CsvSource.nextRow env cfg.tz) src (⟨ts, first.map .string⟩ :: rows) fin ∧ fin.nextRow env cfg.tz = (.ok none, fin) ∧
      rows.length = recs.length ∧
      ∀ (k : Nat) row, rows[k]? = some row → row.values.length = first.length ∧
        ∃ r, recs[k]? = some (r, row.timestamp) ∧ (∀ (i : Nat) f, r[i]? = some f → row.values[i]? = some (.string f)) ∧
          ∀ i : Nat, r.length ≤ i → i < first.length →
            (row.values[i]? = (first.map .string)[i]? ∧ ∀ (j : Nat) r' ts', j ≤ k → recs[j]? = some (r', ts') → r'.length ≤ i) ∨
            ∃ (j : Nat) (r' : List Str) (ts' : Nanos) (f : Str), j < k ∧ recs[j]? = some (r', ts') ∧ r'[i]? = some f ∧ row.values[i]? = some (.string f) ∧
              ∀ (j' : Nat) r'' ts'', j < j' → j' ≤ k → recs[j']? = some (r'', ts'') → r''.length ≤ i := by
  obtain ⟨ts, h1, h2, h3, h4, h5, _⟩ := csvOpen_rows hr h
  have hlen : src.row.values.length = first.length := by rw [h3]; simp
  obtain ⟨fin, k1, k2, k3⟩ := csv_yields_all recs src h4 h2 (fun r hr => by rw [hlen]; exact hg r hr)
  rw [h3] at k1
  refine ⟨ts, h1, h5, rowsFrom (first.map .string) recs, fin, k1, Prod.ext k2 k3, rowsFrom_length _ _, ?_⟩
  intro k row hrow
  obtain ⟨q1, ⟨r, q2, q3⟩, q4⟩ := rowsFrom_spec recs (first.map .string) (fun r hr => by simpa using (hg r hr).1) k row hrow
  refine ⟨by simpa using q1, r, q2, q3, ?_⟩
  intro i hi1 hi2
  rcases q4 i (by simpa using hi2) with hl | ⟨j, r', ts', f, w1, w2, w3, w4, w5⟩
  · exact .inl hl
  · refine .inr ⟨j, r', ts', f, ?_, w2, w3, w4, w5⟩
    have : i < r'.length := (List.getElem?_eq_some_iff.1 w3).1
    rcases Nat.lt_or_ge j k with hjk | hjk
    · exact hjk
    · exfalso
      obtain rfl : j = k := by omega
      rw [q2] at w2
      simp only [Option.some.injEq, Prod.mk.injEq] at w2
      rw [← w2.1] at this
      omega

/-- **C44, partial.** What `C44_full` says, for inputs whose records all have as many fields as the first one.  Missing: records with fewer
fields, for which the property is false (`C44_counterexample`), and with more fields, which crash (`C44_longer_panics`). -/
theorem C44_own_fields_partial (env : CsvEnv) (cfg : CsvInputConfig env.lib) (p : Previewer) (headers : Res (List Str)) (first : List Str)
    (recs : List (List Str × Nanos)) (src : CsvSource) (hr : ReadsRecords env cfg p headers (.ok first :: recs.map (fun r => .ok r.1)))
    (h : csvOpen env cfg p = .ok src) (hg : ∀ r ∈ recs, r.1.length = first.length ∧ getTimestamp env.ov env.lib cfg.tz r.1 src.tsCol src.tsFmt = .ok r.2) :
    ∃ ts, getTimestamp env.ov env.lib cfg.tz first src.tsCol src.tsFmt = .ok ts ∧
    ∃ fin, Yields (CsvSource.nextRow env cfg.tz) src (⟨ts, first.map .string⟩ :: recs.map (fun r => ⟨r.2, r.1.map .string⟩)) fin ∧
      fin.nextRow env cfg.tz = (.ok none, fin) := by
  obtain ⟨ts, h1, h2, h3, h4, _, _⟩ := csvOpen_rows hr h
  have hlen : src.row.values.length = first.length := by rw [h3]; simp
  obtain ⟨fin, k1, k2, k3⟩ := csv_yields_all recs src h4 h2 (fun r hr => by rw [hlen]; exact ⟨by rw [(hg r hr).1]; omega, (hg r hr).2⟩)
  rw [h3] at k1
  have hrows : ∀ (l : List (List Str × Nanos)) (vals : List FieldValue), (∀ r ∈ l, r.1.length = vals.length) →
      rowsFrom vals l = l.map (fun r => ⟨r.2, r.1.map .string⟩) := by
    intro l
    induction l with
    | nil => intro _ _; rfl
    | cons r l ih =>
      intro vals hl
      obtain ⟨r, t⟩ := r
      have hlr : r.length = vals.length := hl (r, t) (by simp)
      have ho : overlay vals r = r.map .string := by
        unfold overlay
        rw [List.drop_eq_nil_of_le (by omega), List.append_nil]
      rw [rowsFrom, ho, ih _ (fun x hx => by rw [hl x (by simp [hx]), List.length_map, hlr])]
      rfl
  rw [hrows _ _ (fun r hr => by rw [(hg r hr).1]; simp)] at k1
  exact ⟨ts, h1, fin, k1, Prod.ext k2 k3⟩

/-- **C44 (longer records).** A record with more fields than the first one crashes the reader. -/
theorem C44_longer_panics (env : CsvEnv) (tz : ChopperTz env.lib) (src : CsvSource) (r : List Str) (rest : List (Res (List Str)))
    (hn : src.hasNext = true) (hr : src.records = .ok r :: rest) (hl : src.row.values.length < r.length) : (src.nextRow env tz).1 = .panic := by
  have hu : updateRow env tz src.tsCol src.tsFmt src.row r = (.panic, src.row) := by
    unfold updateRow
    rw [setValues_eq, if_neg (by omega)]
  unfold CsvSource.nextRow
  rw [hn, hr]
  simp only [hu]
  rfl

/-- An input with a time column in seconds and the given records. -/
def recordsEnv (records : List (Res (List Str))) : CsvEnv := ⟨.panics, noLib, ⟨fun _ _ _ => ⟨.ok [], records⟩⟩, fun _ => false, id⟩
def secondsCfg : CsvInputConfig noLib := ⟨some 44, .no, .index 0, .epoch .seconds, none⟩
def anyPreview : Previewer := ⟨BufReader.withCapacity 8 ⟨[], [], none⟩, [], none⟩

theorem reads_recordsEnv (records : List (Res (List Str))) : ReadsRecords (recordsEnv records) secondsCfg anyPreview (.ok []) records := ⟨44, rfl, rfl⟩

/-- The hypotheses of the C44 theorems are met: three records, two of them shorter. -/
example : ∃ src, csvOpen (recordsEnv [.ok [['1'], ['a']], .ok [['2']], .ok [['3'], ['b']]]) secondsCfg anyPreview = .ok src ∧
    GoodRecord (recordsEnv [.ok [['1'], ['a']], .ok [['2']], .ok [['3'], ['b']]]) secondsCfg.tz src.tsCol src.tsFmt 2 [['2']] 2000000000 ∧
    GoodRecord (recordsEnv [.ok [['1'], ['a']], .ok [['2']], .ok [['3'], ['b']]]) secondsCfg.tz src.tsCol src.tsFmt 2 [['3'], ['b']] 3000000000 :=
  ⟨⟨[.ok [['2']], .ok [['3'], ['b']]], ⟨["col_0".toList, "col_1".toList], [.string, .string]⟩, .index 0, .units .seconds,
    ⟨1000000000, [.string ['1'], .string ['a']]⟩, true⟩, by decide +kernel, ⟨by decide, by decide +kernel⟩, ⟨by decide, by decide +kernel⟩⟩

/-- **C44 is false**: the record `2` of an input whose first record is `1,a` gives the row `2,a`. -/
theorem C44_counterexample : ¬ C44_full := by
  intro h
  obtain ⟨rows, fin, h1, h2, h3⟩ := h (recordsEnv [.ok [['1'], ['a']], .ok [['2']]]) secondsCfg anyPreview (.ok []) [['1'], ['a']] [([['2']], 2000000000)]
    ⟨[.ok [['2']]], ⟨["col_0".toList, "col_1".toList], [.string, .string]⟩, .index 0, .units .seconds, ⟨1000000000, [.string ['1'], .string ['a']]⟩, true⟩
    (reads_recordsEnv _) (by decide +kernel) (by decide +kernel)
  have h3 := h3 0 _ rfl
  cases h1 with
  | nil => simp at h3
  | cons a b =>
    have e1 := congrArg Prod.snd a
    simp only [List.getElem?_cons_succ] at h3
    subst e1
    cases b with
    | nil => simp at h3
    | cons a' b' =>
      have := congrArg Prod.fst a'
      simp only [List.getElem?_cons_zero, Option.some.injEq] at h3
      subst h3
      simp only at this
      revert this
      decide +kernel

/-! ### C45: rows before a malformed record -/

/-- The full property C45: if a record after the well formed ones `first`, `recs` cannot be converted, the rows of all of them are delivered before the
error is reported. -/
def C45_full : Prop := ∀ (env : CsvEnv) (cfg : CsvInputConfig env.lib) (p : Previewer) (headers : Res (List Str)) (first : List Str)
  (recs : List (List Str × Nanos)) (bad : Res (List Str)) (rest : List (Res (List Str))) (e : Err) (src : CsvSource),
  ReadsRecords env cfg p headers (.ok first :: (recs.map (fun r => .ok r.1) ++ bad :: rest)) → csvOpen env cfg p = .ok src →
  (∀ r ∈ recs, GoodRecord env cfg.tz src.tsCol src.tsFmt first.length r.1 r.2) → BadRecord env cfg.tz src.tsCol src.tsFmt first.length bad e →
  ∃ rows fin, Yields (CsvSource.nextRow env cfg.tz) src rows fin ∧ (fin.nextRow env cfg.tz).1 = .err e ∧ rows.length = recs.length + 1

/-- **C45, partial.** With `k` well formed records before the first malformed one exactly `k - 1` rows are delivered, in order, then the error is
reported.  Missing: the row of the last well formed record, which is lost. -/
theorem C45_rows_partial (env : CsvEnv) (cfg : CsvInputConfig env.lib) (p : Previewer) (headers : Res (List Str)) (first : List Str)
    (recs : List (List Str × Nanos)) (bad : Res (List Str)) (rest : List (Res (List Str))) (e : Err) (src : CsvSource)
    (hr : ReadsRecords env cfg p headers (.ok first :: (recs.map (fun r => .ok r.1) ++ bad :: rest))) (h : csvOpen env cfg p = .ok src)
    (hg : ∀ r ∈ recs, GoodRecord env cfg.tz src.tsCol src.tsFmt first.length r.1 r.2) (hb : BadRecord env cfg.tz src.tsCol src.tsFmt first.length bad e) :
    ∃ rows fin, Yields (CsvSource.nextRow env cfg.tz) src rows fin ∧ (fin.nextRow env cfg.tz).1 = .err e ∧ rows.length = recs.length ∧
      ∀ (k : Nat) row, rows[k]? = some row → ∃ r, (first :: recs.map (·.1))[k]? = some r ∧
        getTimestamp env.ov env.lib cfg.tz r src.tsCol src.tsFmt = .ok row.timestamp ∧ ∀ (i : Nat) f, r[i]? = some f → row.values[i]? = some (.string f) := by
  obtain ⟨ts, h1, h2, h3, h4, _, _⟩ := csvOpen_rows hr h
  have hlen : src.row.values.length = first.length := by rw [h3]; simp
  obtain ⟨fin, k1, k2, k3, k4, k5, k6, k7, k8⟩ := csv_yields recs src (bad :: rest) h4 h2 (fun r hr => by rw [hlen]; exact hg r hr)
  refine ⟨_, fin, k1, ?_, by simp [rowsFrom_length], ?_⟩
  · unfold CsvSource.nextRow
    rw [k3, k2]
    rcases hb with rfl | ⟨r, rfl, hl, ht⟩
    · rfl
    · have hu : ∃ row', updateRow env cfg.tz fin.tsCol fin.tsFmt fin.row r = (.err e, row') := by
        unfold updateRow
        rw [setValues_eq, if_pos (by rw [k7, hlen]; exact hl), k4, k5, ht]
        exact ⟨_, rfl⟩
      obtain ⟨row', hu⟩ := hu
      simp only [hu]
      rfl
  · intro k row hrow
    rw [List.getElem?_dropLast] at hrow
    have hrow : (src.row :: rowsFrom src.row.values recs)[k]? = some row := by
      split at hrow
      · exact hrow
      · simp at hrow
    rw [h3] at hrow
    cases k with
    | zero =>
      simp only [List.getElem?_cons_zero, Option.some.injEq] at hrow
      subst hrow
      refine ⟨first, rfl, h1, ?_⟩
      intro i f hf
      simp [hf]
    | succ k =>
      rw [List.getElem?_cons_succ] at hrow
      obtain ⟨_, ⟨r, q2, q3⟩, _⟩ := rowsFrom_spec recs (first.map .string) (fun r hr => by simpa using (hg r hr).1) k row hrow
      refine ⟨r, by rw [List.getElem?_cons_succ, List.getElem?_map, q2]; rfl, ?_, q3⟩
      exact (hg _ (List.mem_of_getElem? q2)).2

theorem yields_unique {σ : Type} {next : σ → Res (Option Row) × σ} {s : σ} {r1 r2 : List Row} {f1 f2 : σ} (h1 : Yields next s r1 f1)
    (h2 : Yields next s r2 f2) (e1 : ∀ r, (next f1).1 ≠ .ok (some r)) (e2 : ∀ r, (next f2).1 ≠ .ok (some r)) : r1 = r2 ∧ f1 = f2 := by
  induction h1 generalizing r2 with
  | nil =>
    cases h2 with
    | nil => exact ⟨rfl, rfl⟩
    | cons a _ => exact absurd (congrArg Prod.fst a) (e1 _)
  | cons a _ ih =>
    cases h2 with
    | nil => exact absurd (congrArg Prod.fst a) (e2 _)
    | cons b hb =>
      rw [a] at b
      simp only [Prod.mk.injEq, Res.ok.injEq, Option.some.injEq] at b
      obtain ⟨rfl, rfl⟩ := b
      obtain ⟨rfl, rfl⟩ := ih hb e1
      exact ⟨rfl, rfl⟩

/-- **C45 is false**, for every input with a malformed record: the row of the record before it is never delivered. -/
theorem C45_never (env : CsvEnv) (cfg : CsvInputConfig env.lib) (p : Previewer) (headers : Res (List Str)) (first : List Str)
    (recs : List (List Str × Nanos)) (bad : Res (List Str)) (rest : List (Res (List Str))) (e : Err) (src : CsvSource)
    (hr : ReadsRecords env cfg p headers (.ok first :: (recs.map (fun r => .ok r.1) ++ bad :: rest))) (h : csvOpen env cfg p = .ok src)
    (hg : ∀ r ∈ recs, GoodRecord env cfg.tz src.tsCol src.tsFmt first.length r.1 r.2) (hb : BadRecord env cfg.tz src.tsCol src.tsFmt first.length bad e) :
    ¬ ∃ rows fin, Yields (CsvSource.nextRow env cfg.tz) src rows fin ∧ (fin.nextRow env cfg.tz).1 = .err e ∧ rows.length = recs.length + 1 := by
  rintro ⟨rows, fin, h1, h2, h3⟩
  obtain ⟨rows', fin', g1, g2, g3, _⟩ := C45_rows_partial env cfg p headers first recs bad rest e src hr h hg hb
  have := (yields_unique h1 g1 (by rw [h2]; simp) (by rw [g2]; simp)).1
  rw [this] at h3
  omega

/-- **C45 is false**: an instance, the input `1` `2` `x` delivers the row of `1` only. -/
theorem C45_counterexample : ¬ C45_full := by
  intro h
  have := h (recordsEnv [.ok [['1']], .ok [['2']], .ok [['x']]]) secondsCfg anyPreview (.ok []) [['1']] [([['2']], 2000000000)] (.ok [['x']]) []
    (.custom "ParseIntError") ⟨[.ok [['2']], .ok [['x']]], ⟨["col_0".toList], [.string]⟩, .index 0, .units .seconds, ⟨1000000000, [.string ['1']]⟩, true⟩
    (reads_recordsEnv _) (by decide +kernel)
  have hg : ∀ r ∈ [([['2']], (2000000000 : Nanos))], GoodRecord (recordsEnv [.ok [['1']], .ok [['2']], .ok [['x']]]) secondsCfg.tz (.index 0) (.units .seconds) [['1']].length r.1 r.2 := by
    intro r hr
    simp only [List.mem_singleton] at hr
    subst hr
    exact ⟨by decide, by decide +kernel⟩
  have hb : BadRecord (recordsEnv [.ok [['1']], .ok [['2']], .ok [['x']]]) secondsCfg.tz (.index 0) (.units .seconds) [['1']].length (.ok [['x']]) (.custom "ParseIntError") :=
    .inr ⟨_, rfl, by decide, by decide +kernel⟩
  exact C45_never (recordsEnv [.ok [['1']], .ok [['2']], .ok [['x']]]) secondsCfg anyPreview (.ok []) [['1']] [([['2']], 2000000000)] (.ok [['x']]) []
    (.custom "ParseIntError") _ (reads_recordsEnv _) (by decide +kernel) hg hb (this hg hb)

/-! ### C46: inputs without data records -/

/-- The full property C46: opening an input from which the csv library reads no data record gives a source without rows. -/
def C46_full : Prop := ∀ (env : CsvEnv) (cfg : CsvInputConfig env.lib) (p : Previewer) (headers : Res (List Str)),
  ReadsRecords env cfg p headers [] → ∃ src, csvOpen env cfg p = .ok src ∧ (src.nextRow env cfg.tz).1 = .ok none

/-- **C46 is false, for every input without data records and every configuration**: opening it panics. -/
theorem C46_always_panics (env : CsvEnv) (cfg : CsvInputConfig env.lib) (p : Previewer) (headers : Res (List Str)) (h : ReadsRecords env cfg p headers []) :
    csvOpen env cfg p = .panic := by
  obtain ⟨d, h1, h2⟩ := h
  unfold csvOpen
  simp only [h1, Res.bind_ok, h2]
  rfl

theorem C46_counterexample : ¬ C46_full := by
  intro h
  obtain ⟨src, h1, _⟩ := h (recordsEnv []) secondsCfg anyPreview (.ok []) (reads_recordsEnv _)
  rw [C46_always_panics _ _ _ _ (reads_recordsEnv _)] at h1
  simp at h1

/-- **C46, partial.** Opening an input with at least one data record panics only if the date library's answer for the first record overflows or the
column selection panics; what is missing is the input without records, which always panics. -/
theorem C46_with_records_partial (env : CsvEnv) (cfg : CsvInputConfig env.lib) (p : Previewer) (headers : Res (List Str)) (first : List Str)
    (items : List (Res (List Str))) (h : ReadsRecords env cfg p headers (.ok first :: items)) (hh : headers ≠ .panic)
    (hp : csvOpen env cfg p = .panic) :
    ∃ names, getTimestampColAndFmt env.lower env.lib cfg.tz names first cfg.tsCol cfg.tsFmt = .panic ∨
      ∃ col fmt, getTimestampColAndFmt env.lower env.lib cfg.tz names first cfg.tsCol cfg.tsFmt = .ok (col, fmt) ∧
        getTimestamp env.ov env.lib cfg.tz first col fmt = .panic := by
  obtain ⟨d, h1, h2⟩ := h
  unfold csvOpen at hp
  simp only [h1, Res.bind_ok, h2] at hp
  unfold csvStart at hp
  simp only [Res.bind_ok] at hp
  generalize csvHasHeader env.isF64 cfg.hasHeader (p.lines.bind (·[0]?)) (p.lines.bind (·[1]?)) d = hb at hp
  rcases hn : csvNames hb headers first.length with names | _ | _ | _
  · rw [hn] at hp
    simp only [Res.bind_ok] at hp
    refine ⟨names, ?_⟩
    rcases hc : getTimestampColAndFmt env.lower env.lib cfg.tz names first cfg.tsCol cfg.tsFmt with ⟨col, fmt⟩ | _ | _ | _
    · refine .inr ⟨col, fmt, rfl, ?_⟩
      rw [hc] at hp
      simp only [Res.bind_ok] at hp
      unfold updateRow at hp
      rw [setValues_eq, if_pos (by simp)] at hp
      simp only at hp
      rcases hg : getTimestamp env.ov env.lib cfg.tz first col fmt with ts | _ | _ | _ <;> rw [hg] at hp <;> simp at hp
    · rw [hc] at hp; simp at hp
    · exact .inl rfl
    · rw [hc] at hp; simp at hp
  · rw [hn] at hp; simp at hp
  · exfalso
    unfold csvNames at hn
    split at hn
    · exact hh hn
    · simp at hn
  · rw [hn] at hp; simp at hp

/-! ### C65: explicit CSV settings are never overridden by guessing -/

/-- **C65.** With an explicit delimiter and an explicit header setting, opening does not depend on the previewed lines at all: any two previews of
the same reader give the same result, and the csv library is asked to read with exactly these settings. -/
theorem C65_explicit_settings (env : CsvEnv) (cfg : CsvInputConfig env.lib) (p p' : Previewer) (d : Byte) (hd : cfg.delimiter = some d)
    (hh : cfg.hasHeader ≠ .auto) (hr : p.reader = p'.reader) :
    csvOpen env cfg p = csvOpen env cfg p' ∧
    ∀ (csv' : CsvLib) (isF64' : Str → Bool), csv'.parse d (cfg.hasHeader == .yes) p.reader = env.csv.parse d (cfg.hasHeader == .yes) p.reader →
      csvOpen { env with csv := csv', isF64 := isF64' } cfg p = csvOpen env cfg p := by
  have hkey : ∀ (e : CsvEnv) (c : CsvInputConfig e.lib) (q : Previewer), c.delimiter = some d → c.hasHeader = cfg.hasHeader →
      csvOpen e c q = csvStart e c (cfg.hasHeader == .yes) (e.csv.parse d (cfg.hasHeader == .yes) q.reader) := by
    intro e c q h1 h2
    have hx : ∀ a b, csvHasHeader e.isF64 c.hasHeader a b d = (cfg.hasHeader == .yes) := by
      intro a b
      rw [h2]
      revert hh
      cases cfg.hasHeader <;> simp [csvHasHeader] <;> rfl
    unfold csvOpen
    simp only [csvDelimiter, h1, Res.bind_ok, hx]
  refine ⟨by rw [hkey env cfg p hd rfl, hkey env cfg p' hd rfl, hr], ?_⟩
  intro csv' isF64' h
  rw [hkey { env with csv := csv', isF64 := isF64' } cfg p hd rfl, hkey env cfg p hd rfl]
  simp only [h]
  rfl

/-- The names of the columns are those of the header line if there is one, and `col_0`, `col_1`, … otherwise. -/
theorem C65_names (env : CsvEnv) (cfg : CsvInputConfig env.lib) (p : Previewer) (headers : Res (List Str)) (first : List Str) (items : List (Res (List Str)))
    (src : CsvSource) (hr : ReadsRecords env cfg p headers (.ok first :: items)) (h : csvOpen env cfg p = .ok src) :
    (cfg.hasHeader = .yes → headers = .ok src.header.names) ∧
    (cfg.hasHeader = .no → src.header.names.length = first.length ∧
      ∀ i : Nat, i < first.length → ∃ t, src.header.names[i]? = some ("col_".toList ++ t) ∧ Digits t ∧ decimalValue t = i) := by
  obtain ⟨d, h1, h2⟩ := hr
  unfold csvOpen at h
  simp only [h1, Res.bind_ok, h2] at h
  obtain ⟨f, rest, ts, g1, g2, _⟩ := csvStart_inv h
  simp only [List.cons.injEq, Res.ok.injEq] at g1
  obtain ⟨rfl, rfl⟩ := g1
  constructor
  · intro hy
    rw [hy] at g2
    simpa [csvHasHeader, csvNames] using g2
  · intro hy
    rw [hy] at g2
    simp only [csvHasHeader, csvNames, Bool.false_eq_true, if_false, Res.ok.injEq] at g2
    rw [← g2]
    refine ⟨by simp, ?_⟩
    intro i hi
    exact ⟨natToStr i, by simp [hi, defaultName], natToStr_spec i⟩

end Chopper.Props
