import Verif.Proofs.CsvIso
import Verif.Props.CsvRead
import Verif.Props.CsvRead2
import Verif.Props.Timestamp3

/-! # C101, C102: CSV written with human readable times can be read again -/
namespace Chopper.Props
open Chopper Chopper.Spec

/-- The file with these bytes, opened with settings `cfg2`, gives the header (time column, then the names) and the rows again. -/
def ReadsIsoBack (env : CsvEnv) (ff : FloatFmt) (cfg : CsvOutputConfig) (z : Int → Nat → Str → Str) (cfg2 : CsvInputConfig env.lib) (names : List Str) (rows : List Row)
    (inner : Inner) : Prop :=
  ∃ p src rows', Previewer.new defaultBufSize inner = .ok p ∧ csvOpen env cfg2 p = .ok src ∧
    src.toFile env cfg2.tz = ⟨⟨cfg.timeColName :: names, List.replicate (names.length + 1) .string⟩, ⟨rows', .eof⟩⟩ ∧ ReadIso ff z cfg.units rows rows'

/-- **C101.** A file written with human readable times, delimiter comma and texts that need no quoting, at least one column and one row, is read again, provided the date
library reads the times it prints: same names and rows, values as texts, times rounded down to the unit. In builds with overflow checks the times must lie before 2^63 ns (2262). -/
theorem C101_file (env : CsvEnv) (hc : ReadsPlain env.csv) (ff : FloatFmt) (cfg : CsvOutputConfig) (z : Int → Nat → Str → Str) (f : Str) (cfg2 : CsvInputConfig env.lib)
    (h2 : ReadsIsoAs cfg cfg2 f) (hd : cfg.delimiter = [',']) (hp : cfg.printTimeCol = true) (hs : cfg.style = .humanReadable) (hz : cfg.zone = some z) (names : List Str)
    (rows : List Row) (body : Str) (hl : CsvLines ff cfg rows body) (hn : names ≠ []) (hr : rows ≠ []) (hw : ∀ r ∈ rows, r.values.length = names.length)
    (ht : PlainField ',' cfg.timeColName ∧ cfg.timeColName ≠ [] ∧ cfg.timeColName.head? ≠ some '\uFEFF') (hnp : ∀ n ∈ names, PlainField ',' n)
    (hv : ∀ r ∈ rows, ∀ v ∈ r.values, PlainValue ff ',' v) (hiso : ∀ r ∈ rows, IsoReadable env.lib z cfg.units f r.timestamp)
    (hov : env.ov = .wraps ∨ ∀ r ∈ rows, r.timestamp.toNat < 2 ^ 63) (inner : Inner) (hi : NoFail inner) (hdata : inner.data = utf8Encode (csvHeaderText cfg names ++ body)) :
    ReadsIsoBack env ff cfg z cfg2 names rows inner := by
  obtain ⟨recs, htext, hplain, hrl, hrec, hrow⟩ := iso_written hd hp hs hz names rows body hl hn ht hnp hv (fun r hr => ⟨(hiso r hr).plain, (hiso r hr).nonempty⟩)
  obtain ⟨p, hpn, hpos, hcap, hnf, hcome, _⟩ := previewer_opens inner hi
  have hparse := (hc ',' 44 _ p.reader (by decide) (by decide) (by decide) (by decide) (by decide) hplain hpos hcap hnf (by rw [← htext, ← hdata, hcome])).2 _ _ rfl
  obtain ⟨src, rows', h3, h4, h5⟩ := iso_rows_read env cfg2 p h2.delimiter h2.header hparse hr (fun r hr texts => iso_colAndFmt h2 env.lower names (hiso r hr) texts)
    (fun r hr => by rw [hw r hr]; rfl) hrl hrec hrow hiso hov
  exact ⟨p, src, rows', hpn, h3, h4, h5⟩

/-- **C101 (the whole way).** A run that writes CSV with human readable times, followed by opening its output file (in any later state of the world, with any chopping of the
reads): the header and the merged rows are there again. -/
theorem C101_tool (e : CliEnv) (a : CliArgs) (st : CliSettings e.csv.lib) (files : List FileSource) (h : Header) (d : Device) (z : Int → Nat → Str → Str)
    (hs : parseSettings e a = .ok st) (ho : Opens e st files) (hf : files ≠ []) (hg : GoodInputs st.range h files) (hd : CsvTo e.out a.output d) (hr : Reliable d) (hemp : d.taken = [])
    (hdel : st.outCfg.delimiter = [',']) (htime : st.outCfg.printTimeCol = true) (hstyle : st.outCfg.style = .humanReadable) (hz : st.outCfg.zone = some z) (hn : h.names ≠ [])
    (ht : PlainField ',' st.outCfg.timeColName ∧ st.outCfg.timeColName ≠ [] ∧ st.outCfg.timeColName.head? ≠ some '\uFEFF') (hnp : ∀ n ∈ h.names, PlainField ',' n)
    (hv : ∀ f ∈ files, ∀ r ∈ f.source.rows, inRange st.range r.timestamp = true →
      r.values.length = h.names.length ∧ ∀ v ∈ r.values, ¬ Unprintable v ∧ PlainValue e.ff ',' v) :
    ∃ out rows, (chopperCli e a).result = .ok () ∧ (chopperCli e a).output = some out ∧ IsMerge st.range (files.map (·.source.rows)) rows ∧
      ∀ (env : CsvEnv) (dec : Decoders) (zip : ZipLib) (w : World) (cfg : CsvInputConfig env.lib) (f : Str) (s : Str) (fmt : InputFormat) (sched : List ReadStep),
        ReadsPlain env.csv → ReadsIsoAs st.outCfg cfg f → (∀ x ∈ files, ∀ r ∈ x.source.rows, inRange st.range r.timestamp = true → IsoReadable env.lib z st.outCfg.units f r.timestamp) →
        (env.ov = .wraps ∨ ∀ x ∈ files, ∀ r ∈ x.source.rows, inRange st.range r.timestamp = true → r.timestamp.toNat < 2 ^ 63) →
        FileAt w s ⟨out.taken, sched, none⟩ → (∀ k, ReadStep.fail k ∉ sched) → ¬ HttpAddress s → ¬ [0x50, 0x4b, 3, 4] <+: out.taken →
        ((∃ base, lastComponent s = some (base ++ ".csv".toList) ∧ fmt = .auto) ∨ fmt = .extension "csv".toList) →
        ∃ rows', createFromInput (newInputs env dec zip w (some cfg) [] []) w ⟨.path s, fmt⟩ =
            .ok ⟨⟨st.outCfg.timeColName :: h.names, List.replicate (h.names.length + 1) .string⟩, ⟨rows', .eof⟩⟩ ∧ ReadIso e.ff z st.outCfg.units rows rows' := by
  obtain ⟨out, rows, body, h1, h3, h4, h5, h6⟩ := C61_csv e a st files h d hs ho hg hd hr (by intro _ _ h; rw [hz] at h; cases h)
    (fun f hf r hr hin v hv' => ((hv f hf r hr hin).2 v hv').1)
  refine ⟨out, rows, h1, h3, h4, ?_⟩
  intro env dec zip w cfg f s fmt sched hc h2 hiso hov hfile hsched hhttp hzip hfmt
  rw [hemp, List.nil_append] at h6
  have hin : ∀ r ∈ rows, ∃ f ∈ files, r ∈ f.source.rows ∧ inRange st.range r.timestamp = true := by
    intro r hr
    obtain ⟨h1, i, hi, h2⟩ := merge_mem h4 hr
    obtain ⟨f, hf, rfl⟩ := List.mem_map.1 hi
    exact ⟨f, hf, h2, h1⟩
  have hmem : ∀ r ∈ rows, r.values.length = h.names.length ∧ ∀ v ∈ r.values, ¬ Unprintable v ∧ PlainValue e.ff ',' v := by
    intro r hr
    obtain ⟨f, hf, h2, h1⟩ := hin r hr
    exact hv f hf r h2 h1
  have hrows : rows ≠ [] := by
    obtain ⟨f, fs, rfl⟩ := List.exists_cons_of_ne_nil hf
    obtain ⟨r, hr, hin⟩ := hg.some f (by simp)
    have : r ∈ rows.filter fun x => x.timestamp == r.timestamp := by
      rw [h4.rowsAt r.timestamp, List.mem_flatMap]
      exact ⟨f.source.rows, by simp, by simp [hr, hin]⟩
    intro he
    rw [he] at this
    cases this
  obtain ⟨p, src, rows', g1, g2, g3, g4⟩ := C101_file env hc e.ff st.outCfg z f cfg h2 hdel htime hstyle hz h.names rows body h5 hn hrows (fun r hr => (hmem r hr).1) ht hnp
    (fun r hr v hv => ((hmem r hr).2 v hv).2) (fun r hr => by obtain ⟨x, hx, h2, h1⟩ := hin r hr; exact hiso x hx r h2 h1)
    (hov.imp id fun h r hr => by obtain ⟨x, hx, h2, h1⟩ := hin r hr; exact h x hx r h2 h1) ⟨out.taken, sched, none⟩ (by
      rintro k (hk | hk)
      · exact hsched k hk
      · cases hk) h6
  refine ⟨rows', ?_, g4⟩
  rw [C66_csv_file env dec zip w cfg s fmt _ hfile.notDir hfile.here hfile.opens hhttp hzip (hfmt.elim .inl fun h => .inr (.inl h)), g1, Res.bind_ok, g2, Res.bind_ok, g3]

/-- **C101 (far future).** In builds with overflow checks a file whose first time is 2^63 ns or later after rounding is written, but opening it panics. -/
theorem C101_far_future (env : CsvEnv) (hc : ReadsPlain env.csv) (ff : FloatFmt) (cfg : CsvOutputConfig) (z : Int → Nat → Str → Str) (f : Str) (cfg2 : CsvInputConfig env.lib)
    (h2 : ReadsIsoAs cfg cfg2 f) (hd : cfg.delimiter = [',']) (hp : cfg.printTimeCol = true) (hs : cfg.style = .humanReadable) (hz : cfg.zone = some z) (names : List Str)
    (r : Row) (rows : List Row) (body : Str) (hl : CsvLines ff cfg (r :: rows) body) (hn : names ≠ [])
    (ht : PlainField ',' cfg.timeColName ∧ cfg.timeColName ≠ [] ∧ cfg.timeColName.head? ≠ some '\uFEFF') (hnp : ∀ n ∈ names, PlainField ',' n)
    (hv : ∀ x ∈ r :: rows, ∀ v ∈ x.values, PlainValue ff ',' v) (hiso : ∀ x ∈ r :: rows, IsoReadable env.lib z cfg.units f x.timestamp)
    (hov : env.ov = .panics) (hfar : 2 ^ 63 ≤ r.timestamp.toNat / nanosPer cfg.units * nanosPer cfg.units)
    (inner : Inner) (hi : NoFail inner) (hdata : inner.data = utf8Encode (csvHeaderText cfg names ++ body)) :
    ∃ p, Previewer.new defaultBufSize inner = .ok p ∧ csvOpen env cfg2 p = .panic := by
  obtain ⟨recs, htext, hplain, hrl, hrec, hrow⟩ := iso_written hd hp hs hz names (r :: rows) body hl hn ht hnp hv (fun r hr => ⟨(hiso r hr).plain, (hiso r hr).nonempty⟩)
  obtain ⟨p, hpn, hpos, hcap, hnf, hcome, _⟩ := previewer_opens inner hi
  have hparse := (hc ',' 44 _ p.reader (by decide) (by decide) (by decide) (by decide) (by decide) hplain hpos hcap hnf (by rw [← htext, ← hdata, hcome])).2 _ _ rfl
  refine ⟨p, hpn, ?_⟩
  obtain ⟨first, rest, rfl⟩ : ∃ f l, recs = f :: l := by
    cases recs with
    | nil => simp at hrl
    | cons f l => exact ⟨f, l, rfl⟩
  obtain ⟨texts, _, rfl⟩ := hrec 0 r first rfl rfl
  obtain ⟨i, h1, h3, h4⟩ := (hiso r (by simp)).reads
  have hts : getTimestamp env.ov env.lib cfg2.tz (isoText z cfg.units r.timestamp :: texts) (.index 0) (.dateTimeIncludesTz f) = .panic := by
    have e : getTimestamp env.ov env.lib cfg2.tz (isoText z cfg.units r.timestamp :: texts) (.index 0) (.dateTimeIncludesTz f) =
      (Res.okOr .timeParsing (env.lib.parseTz f (isoText z cfg.units r.timestamp))).bind (timestampNanos env.ov) := rfl
    rw [e, h1, hov]
    show timestampNanos .panics i = _
    unfold timestampNanos
    have hfit : fitsI64 i.ns = false := by
      rw [h4, fitsI64, decide_eq_false_iff_not]
      omega
    simp only [hfit, Bool.and_false, Bool.false_eq_true, if_false]
  unfold csvOpen
  simp only [h2.delimiter, csvDelimiter, Res.bind_ok, h2.header, csvHasHeader, hparse]
  simp only [csvStart, List.map_cons, Res.bind_ok, csvNames, if_true, iso_colAndFmt h2 env.lower names (hiso r (by simp)) texts]
  unfold updateRow
  simp only [setValues_eq, List.length_replicate, Nat.le_refl, if_true, hts]
  rfl

/-! ### C102: automatic settings -/

theorem sameKind_iff (isF64 : Str → Bool) (s t : Str) : SameKind isF64 s t ↔ guessType isF64 s = guessType isF64 t := by
  constructor
  · rintro ⟨ty, h1, h2⟩
    rw [(C07_type_of_text isF64 s ty).1 h1, (C07_type_of_text isF64 t ty).1 h2]
  · intro h
    exact ⟨_, (C07_type_of_text isF64 s _).2 h, (C07_type_of_text isF64 t _).2 rfl⟩

theorem noNumber_iff (isF64 : Str → Bool) (s : Str) : NoNumber isF64 s ↔ guessType isF64 s = .string := C07_type_of_text isF64 s .string

theorem valueText_guess {ff : FloatFmt} {v : FieldValue} {s t : Str} (isF64 : Str → Bool) (h1 : ValueText ff v s) (h2 : ValueText ff v t) :
    guessType isF64 s = guessType isF64 t := by
  have nat : ∀ {s : Str} {n : Nat}, Digits s → decimalValue s = n → n < 2 ^ 63 → guessType isF64 s = .long := fun {s n} h1 h2 h3 =>
    (C07_type_of_text isF64 s .long).1 (.inl ⟨s, .inl rfl, h1, by omega⟩)
  have int : ∀ {s : Str} {x : Int}, SignedText s x → - 2 ^ 63 ≤ x → x < 2 ^ 63 → guessType isF64 s = .long := fun {s x} h1 h2 h3 =>
    (C07_type_of_text isF64 s .long).1 (by
      rcases h1 with ⟨_, g1, g2⟩ | ⟨_, d, rfl, g1, g2⟩
      · exact .inl ⟨s, .inl rfl, g1, by omega⟩
      · exact .inr ⟨d, rfl, g1, by omega⟩)
  cases h1 with
  | byte a b => rename_i x; cases h2 with | byte c d => rw [nat a b (by have := x.isLt; omega), nat c d (by have := x.isLt; omega)]
  | char a b => rename_i x; cases h2 with | char c d => rw [nat a b (by have := x.isLt; omega), nat c d (by have := x.isLt; omega)]
  | double => cases h2; rfl
  | float => cases h2; rfl
  | int a =>
    rename_i x; cases h2 with | int c =>
    have := BitVec.toInt_lt (x := x); have := BitVec.le_toInt (x := x)
    rw [int a (by omega) (by omega), int c (by omega) (by omega)]
  | long a =>
    rename_i x; cases h2 with | long c =>
    have := BitVec.toInt_lt (x := x); have := BitVec.le_toInt (x := x)
    rw [int a (by omega) (by omega), int c (by omega) (by omega)]
  | short a =>
    rename_i x; cases h2 with | short c =>
    have := BitVec.toInt_lt (x := x); have := BitVec.le_toInt (x := x)
    rw [int a (by omega) (by omega), int c (by omega) (by omega)]
  | string => cases h2; rfl
  | none => cases h2; rfl

/-- The settings found for a plain table with names without white space: comma; and a header line exactly if the first two lines are of different types. -/
theorem auto_table (env : CsvEnv) (tz : ChopperTz env.lib) {l1 l2 : List Str} {ls : List (List Str)} {inner : Inner} {p : Previewer}
    (hplain : PlainTable ',' (l1 :: l2 :: ls)) (hdata : inner.data = utf8Encode (csvText ',' (l1 :: l2 :: ls))) (hne1 : l1 ≠ []) (hne2 : l2 ≠ [])
    (hlines : ∀ pieces rest, IsLines (inner.data.take defaultBufSize) pieces rest →
        p.lines = decodeAll ((pieces ++ if rest = [] ∨ defaultBufSize ≤ inner.data.length then [] else [rest]).map dropCr))
    (hchars : ∀ n ∈ l1, ∀ c ∈ n, c.toNat < 256 ∧ c ≠ ' ' ∧ c ≠ '\t') (hfit : 2 ≤ (inner.data.take defaultBufSize).count 10) :
    csvOpen env (autoCfg tz) p = csvOpen env ⟨some 44, if l1.map (guessType env.isF64) = l2.map (guessType env.isF64) then .no else .yes, .auto, .auto, tz⟩ p := by
  obtain ⟨k, hpl, hk⟩ := preview_lines (d := ',') (by decide) (by decide)
    (fun l hl t ht => ⟨(hplain.plain l hl t ht).noLf, (hplain.plain l hl t ht).noCr⟩) hdata hlines
  have hk2 : 2 ≤ k := hk 2 (by simp) (two_lines (by decide) (fun l hl t ht => (hplain.plain l hl t ht).noLf) hdata hfit)
  have hline : ∃ more, p.lines = some (joinChar ',' l1 :: joinChar ',' l2 :: more) := by
    rw [hpl]
    obtain ⟨k', rfl⟩ : ∃ k', k = k' + 2 := ⟨k - 2, by omega⟩
    exact ⟨_, rfl⟩
  obtain ⟨more, hline⟩ := hline
  obtain ⟨d, hh, hopen, _, _, hdl, _, _, hhd⟩ := C75_auto_settings env (autoCfg tz) p
  have hd44 : d = 44 := by
    obtain ⟨_, h2⟩ := hdl rfl _ _ hline
    have hlat : ∀ c ∈ joinChar ',' l1, c.toNat < 256 := by
      have key : ∀ l : List Str, (∀ n ∈ l, ∀ c ∈ n, c.toNat < 256) → ∀ c ∈ joinChar ',' l, c.toNat < 256 := by
        intro l
        induction l with
        | nil => intro _ c hc; cases hc
        | cons n l ih =>
          intro h c hc
          cases l with
          | nil => exact h n (by simp) c hc
          | cons m l =>
            simp only [joinChar, List.mem_append, List.mem_cons] at hc
            rcases hc with hc | rfl | hc
            · exact h n (by simp) c hc
            · decide
            · exact ih (fun x hx => h x (by simp only [List.mem_cons] at hx ⊢; exact .inr hx)) c hc
      exact key _ fun n hn c hc => (hchars n hn c hc).1
    have h0 : occurrences 9 (joinChar ',' l1) = 0 :=
      occurrences_zero (joinChar_notin (by decide) fun n hn hc => (hchars n hn _ hc).2.2 (by decide))
    have h1 : occurrences 32 (joinChar ',' l1) = 0 :=
      occurrences_zero (joinChar_notin (by decide) fun n hn hc => (hchars n hn _ hc).2.1 (by decide))
    exact (h2 hlat).2.1 ⟨by omega, by omega⟩
  subst hd44
  have htypes : ∀ l ∈ l1 :: l2 :: ls, l ≠ [] → lineTypes env.isF64 44 (joinChar ',' l) = l.map (guessType env.isF64) := by
    intro l hl hne
    unfold lineTypes
    have e : splitChar (Char.ofNat (44 : Byte).toNat) (joinChar ',' l) = l := splitChar_join hne fun f hf => (hplain.plain l hl f hf).noDelim
    rw [e]
    apply List.map_congr_left
    intro t ht
    rw [trim_self (hplain.plain l hl t ht).trimmed]
  have hhh : hh = true ↔ l1.map (guessType env.isF64) ≠ l2.map (guessType env.isF64) := by
    rw [hhd rfl]
    constructor
    · rintro ⟨a, b, c, t1, t2, h1, h2, h3, h4⟩
      rw [hline] at h1
      cases h1
      rw [typesOfLine_iff, htypes _ (by simp) hne1] at h2
      rw [typesOfLine_iff, htypes _ (by simp) hne2] at h3
      rw [h2, h3]
      exact h4
    · intro h
      exact ⟨_, _, _, _, _, hline, (typesOfLine_iff env.isF64 44 _ _).2 rfl, (typesOfLine_iff env.isF64 44 _ _).2 rfl,
        by rw [htypes _ (by simp) hne1, htypes _ (by simp) hne2]; exact h⟩
  rw [hopen]
  by_cases h : l1.map (guessType env.isF64) = l2.map (guessType env.isF64)
  · have : hh = false := by
      cases hh with
      | false => rfl
      | true => exact absurd h (hhh.1 rfl)
    subst this
    rw [if_pos h]
    rfl
  · rw [hhh.2 h, if_neg h]
    rfl

/-- Does the table look as if it had a header line: is there a column whose name and whose first value are of different kinds? -/
def LooksHeaded (isF64 : Str → Bool) (ff : FloatFmt) (names : List Str) (r : Row) : Prop :=
  ∃ (i : Nat) (n : Str) (v : FieldValue) (t : Str), names[i]? = some n ∧ r.values[i]? = some v ∧ ValueText ff v t ∧ ¬ SameKind isF64 n t

theorem looksHeaded_iff {isF64 : Str → Bool} {ff : FloatFmt} {names : List Str} {r : Row} {texts : List Str} (hw : r.values.length = names.length)
    (hv : ValueTexts ff r.values texts) : LooksHeaded isF64 ff names r ↔ names.map (guessType isF64) ≠ texts.map (guessType isF64) := by
  have hlen : texts.length = names.length := by rw [hv.1, hw]
  constructor
  · rintro ⟨i, n, v, t, h1, h2, h3, h4⟩ he
    have hi : i < texts.length := by rw [hlen]; exact (List.getElem?_eq_some_iff.1 h1).1
    have ht := List.getElem?_eq_getElem hi
    have := congrArg (·[i]?) he
    simp only [List.getElem?_map, h1, ht, Option.map_some, Option.some.injEq] at this
    rw [sameKind_iff, this] at h4
    exact h4 (valueText_guess isF64 (hv.2 i v _ h2 ht) h3)
  · intro hne
    refine Classical.byContradiction fun hno => hne ?_
    apply List.ext_getElem? fun i => ?_
    simp only [List.getElem?_map]
    by_cases hi : i < names.length
    · have h1 := List.getElem?_eq_getElem hi
      have h2 := List.getElem?_eq_getElem (l := texts) (i := i) (by omega)
      have h3 := List.getElem?_eq_getElem (l := r.values) (i := i) (by omega)
      rw [h1, h2, Option.map_some, Option.map_some, Option.some.injEq, ← sameKind_iff]
      exact Classical.byContradiction fun hk => hno ⟨i, _, _, _, h1, h3, hv.2 i _ _ h3 h2, hk⟩
    · rw [List.getElem?_eq_none (by omega), List.getElem?_eq_none (by omega)]

theorem colName_noTime (i : Nat) : NoTimeName (defaultName i) := by
  obtain ⟨hd, _⟩ := natToStr_spec i
  have hh : (defaultName i).head? = some 'c' := rfl
  have hlast : ∀ c, (defaultName i).getLast? = some c → c.toNat ≤ 57 := by
    intro c hc
    have : c ∈ natToStr i := by
      unfold defaultName at hc
      rw [List.getLast?_append, List.getLast?_eq_some_getLast hd.1] at hc
      exact List.mem_of_getLast? ((List.getLast?_eq_some_getLast hd.1).trans hc)
    exact (hd.2 c this).2
  have key : ∀ s : Str, s ≠ [] → (∀ c, s.getLast? = some c → 57 < c.toNat) → ∀ p, defaultName i ≠ p ++ s := by
    intro s hs hc p he
    obtain ⟨c, hc'⟩ : ∃ c, s.getLast? = some c := ⟨s.getLast hs, List.getLast?_eq_some_getLast hs⟩
    have := hlast c (by rw [he, List.getLast?_append, hc']; rfl)
    have := hc c hc'
    omega
  have hunit : ∀ u p, defaultName i ≠ p ++ unitName u := by
    intro u p
    cases u
    · exact key _ (by decide) (by intro c hc; revert hc; simp only [unitName]; intro hc; cases hc; decide) p
    · exact key _ (by decide) (by intro c hc; revert hc; simp only [unitName]; intro hc; cases hc; decide) p
    · exact key _ (by decide) (by intro c hc; revert hc; simp only [unitName]; intro hc; cases hc; decide) p
    · exact key _ (by decide) (by intro c hc; revert hc; simp only [unitName]; intro hc; cases hc; decide) p
  have hdate : ∀ p, defaultName i ≠ p ++ dateWord := key _ (by decide) (by intro c hc; cases hc; decide)
  have htime : ∀ p, defaultName i ≠ p ++ timeWord := key _ (by decide) (by intro c hc; cases hc; decide)
  exact ⟨fun ⟨u, h⟩ => hunit u timeWord h, fun h => hdate [] h, fun h => htime [] h, fun ⟨u, p, h, _⟩ => hunit u (p ++ timeWord) h, fun ⟨p, h, _⟩ => hdate p h,
    fun ⟨p, h, _⟩ => htime p h⟩

/-- **C102, stated in full**: what is written with the tool's default style of times and default name of the time column can be read with all settings automatic. -/
def C102_full : Prop := ∀ (env : CsvEnv) (ff : FloatFmt) (u : TimestampUnits) (z : Int → Nat → Str → Str) (tz : ChopperTz env.lib) (names : List Str) (rows : List Row) (body : Str)
  (inner : Inner), ReadsPlain env.csv → LowersAscii env.lower → CsvLines ff (.new [','] true none .humanReadable u (some z)) rows body → names ≠ [] → rows ≠ [] →
  (∀ r ∈ rows, r.values.length = names.length) → (∀ n ∈ names, PlainField ',' n) → (∀ r ∈ rows, ∀ v ∈ r.values, PlainValue ff ',' v) →
  (∀ r ∈ rows, IsoReadable env.lib z u "%+".toList r.timestamp) → (∀ r ∈ rows, r.timestamp.toNat < 2 ^ 63) → NoFail inner →
  inner.data = utf8Encode (csvHeaderText (.new [','] true none .humanReadable u (some z)) names ++ body) →
  (∀ n ∈ names, ∀ c ∈ n, c.toNat < 256 ∧ c ≠ ' ' ∧ c ≠ '\t') → Chosen (((defaultTimeName .humanReadable u).toList :: names).map env.lower) (.index 0) none →
  2 ≤ (inner.data.take defaultBufSize).count 10 →
  ReadsIsoBack env ff (.new [','] true none .humanReadable u (some z)) z (autoCfg tz) names rows inner

/-- **C102 (partial).** With all settings automatic such a file (names without white space and with characters below U+0100 only, automatic selection takes the first column and knows no unit from
its name, two lines fit into the preview) is read again if it looks as if it had a header line, that is, if some column has a name and a first value of different kinds; -/
theorem C102_auto_partial (env : CsvEnv) (hc : ReadsPlain env.csv) (ff : FloatFmt) (cfg : CsvOutputConfig) (z : Int → Nat → Str → Str) (tz : ChopperTz env.lib)
    (hd : cfg.delimiter = [',']) (hp : cfg.printTimeCol = true) (hs : cfg.style = .humanReadable) (hz : cfg.zone = some z) (names : List Str)
    (r : Row) (rows : List Row) (body : Str) (hl : CsvLines ff cfg (r :: rows) body) (hn : names ≠ []) (hw : ∀ x ∈ r :: rows, x.values.length = names.length)
    (ht : PlainField ',' cfg.timeColName ∧ cfg.timeColName ≠ [] ∧ cfg.timeColName.head? ≠ some '\uFEFF') (hnp : ∀ n ∈ names, PlainField ',' n)
    (hv : ∀ x ∈ r :: rows, ∀ v ∈ x.values, PlainValue ff ',' v) (hiso : ∀ x ∈ r :: rows, IsoReadable env.lib z cfg.units "%+".toList x.timestamp)
    (hov : env.ov = .wraps ∨ ∀ x ∈ r :: rows, x.timestamp.toNat < 2 ^ 63) (inner : Inner) (hi : NoFail inner) (hdata : inner.data = utf8Encode (csvHeaderText cfg names ++ body))
    (hchars : ∀ n ∈ cfg.timeColName :: names, ∀ c ∈ n, c.toNat < 256 ∧ c ≠ ' ' ∧ c ≠ '\t')
    (hchosen : Chosen ((cfg.timeColName :: names).map env.lower) (.index 0) none)
    (hfit : 2 ≤ (inner.data.take defaultBufSize).count 10)
    (hhead : LooksHeaded env.isF64 ff names r ∨ ¬ SameKind env.isF64 cfg.timeColName (isoText z cfg.units r.timestamp)) :
    ReadsIsoBack env ff cfg z (autoCfg tz) names (r :: rows) inner := by
  obtain ⟨recs, htext, hplain, hrl, hrec, hrow⟩ := iso_written hd hp hs hz names (r :: rows) body hl hn ht hnp hv (fun r hr => ⟨(hiso r hr).plain, (hiso r hr).nonempty⟩)
  obtain ⟨p, hpn, hpos, hcap, hnf, hcome, hlines⟩ := previewer_opens inner hi
  have hparse := (hc ',' 44 _ p.reader (by decide) (by decide) (by decide) (by decide) (by decide) hplain hpos hcap hnf (by rw [← htext, ← hdata, hcome])).2 _ _ rfl
  obtain ⟨first, rest, rfl⟩ : ∃ f l, recs = f :: l := by
    cases recs with
    | nil => simp at hrl
    | cons f l => exact ⟨f, l, rfl⟩
  obtain ⟨texts, htx, rfl⟩ := hrec 0 r first rfl rfl
  have hauto := auto_table env tz hplain (by rw [← htext]; exact hdata) (by simp) (by simp) hlines hchars hfit
  rw [if_neg] at hauto
  · obtain ⟨src, rows', h3, h4, h5⟩ := iso_rows_read env (⟨some 44, .yes, .auto, .auto, tz⟩ : CsvInputConfig env.lib) p rfl rfl hparse (by simp) (f := "%+".toList) (u := cfg.units) (z := z)
      (rows := r :: rows) (ff := ff) (by
        intro x hx texts
        unfold getTimestampColAndFmt
        simp only [(C13_chosen env.lower (cfg.timeColName :: names) (.index 0) none).2 hchosen, Res.bind_ok]
        obtain ⟨i, h1, _⟩ := (hiso x hx).reads
        have : getTimestampFmtAuto env.lib tz (isoText z cfg.units x.timestamp :: texts) none (.index 0) = .ok (.dateTimeIncludesTz "%+".toList) := by
          have e : getTimestampFmtAuto env.lib tz (isoText z cfg.units x.timestamp :: texts) none (.index 0) = detectFmt env.lib tz (isoText z cfg.units x.timestamp) := rfl
          have e2 : fmtIso = "%+".toList := rfl
          rw [e]
          unfold detectFmt
          rw [e2, if_pos (by rw [h1]; rfl)]
        simp only [this, Res.bind_ok])
      (fun x hx => by rw [hw x hx]; rfl) hrl hrec hrow hiso hov
    exact ⟨p, src, rows', hpn, by rw [hauto]; exact h3, h4, h5⟩
  · rw [List.map_cons, List.map_cons, List.cons.injEq]
    rintro ⟨h1, h2⟩
    rcases hhead with h | h
    · exact (looksHeaded_iff (hw r (by simp)) htx).1 h h2
    · exact h ((sameKind_iff _ _ _).2 h1)

/-- and otherwise opening it fails: the header line is taken for data, and its first field is no time. -/
theorem C102_header_lost (env : CsvEnv) (hc : ReadsPlain env.csv) (ff : FloatFmt) (cfg : CsvOutputConfig) (z : Int → Nat → Str → Str) (tz : ChopperTz env.lib)
    (hd : cfg.delimiter = [',']) (hp : cfg.printTimeCol = true) (hs : cfg.style = .humanReadable) (hz : cfg.zone = some z) (names : List Str)
    (r : Row) (rows : List Row) (body : Str) (hl : CsvLines ff cfg (r :: rows) body) (hn : names ≠ []) (hw : r.values.length = names.length)
    (ht : PlainField ',' cfg.timeColName ∧ cfg.timeColName ≠ [] ∧ cfg.timeColName.head? ≠ some '\uFEFF') (hnp : ∀ n ∈ names, PlainField ',' n)
    (hv : ∀ x ∈ r :: rows, ∀ v ∈ x.values, PlainValue ff ',' v)
    (hiso : ∀ x ∈ r :: rows, PlainField ',' (isoText z cfg.units x.timestamp) ∧ isoText z cfg.units x.timestamp ≠ [])
    (inner : Inner) (hi : NoFail inner) (hdata : inner.data = utf8Encode (csvHeaderText cfg names ++ body))
    (hchars : ∀ n ∈ cfg.timeColName :: names, ∀ c ∈ n, c.toNat < 256 ∧ c ≠ ' ' ∧ c ≠ '\t') (hlow : LowersAscii env.lower)
    (hfit : 2 ≤ (inner.data.take defaultBufSize).count 10) (hname : NoNumber env.isF64 cfg.timeColName ∧ NoDate env.lib cfg.timeColName)
    (htime : NoNumber env.isF64 (isoText z cfg.units r.timestamp)) (hhead : ¬ LooksHeaded env.isF64 ff names r) :
    ∃ p e, Previewer.new defaultBufSize inner = .ok p ∧ csvOpen env (autoCfg tz) p = .err e := by
  obtain ⟨recs, htext, hplain, hrl, hrec, hrow⟩ := iso_written hd hp hs hz names (r :: rows) body hl hn ht hnp hv hiso
  obtain ⟨p, hpn, hpos, hcap, hnf, hcome, hlines⟩ := previewer_opens inner hi
  have hparse := (hc ',' 44 _ p.reader (by decide) (by decide) (by decide) (by decide) (by decide) hplain hpos hcap hnf (by rw [← htext, ← hdata, hcome])).1
  obtain ⟨first, rest, rfl⟩ : ∃ f l, recs = f :: l := by
    cases recs with
    | nil => simp at hrl
    | cons f l => exact ⟨f, l, rfl⟩
  obtain ⟨texts, htx, rfl⟩ := hrec 0 r first rfl rfl
  have hauto := auto_table env tz hplain (by rw [← htext]; exact hdata) (by simp) (by simp) hlines hchars hfit
  rw [if_pos] at hauto
  · have hcol : getTimestampCol env.lower ((List.range (names.length + 1)).map defaultName) .auto = .ok (.index 0, none) := by
      rw [C13_chosen]
      have hno : ∀ i, NoTimeName (env.lower (defaultName i)) := by
        intro i
        have hasc : ∀ c ∈ defaultName i, c.toNat < 128 ∧ c.toLower = c := by
          intro c hc
          obtain ⟨hd, _⟩ := natToStr_spec i
          unfold defaultName at hc
          rcases List.mem_append.1 hc with h | h
          · simp only [List.mem_cons, List.not_mem_nil, or_false] at h
            rcases h with rfl | rfl | rfl | rfl <;> decide
          · have := hd.2 c h
            refine ⟨by omega, ?_⟩
            unfold Char.toLower
            rw [dif_neg]
            intro hh
            have h1 : 65 ≤ c.toNat := hh.1
            omega
        rw [hlow _ fun c hc => (hasc c hc).1, (List.map_congr_left fun c hc => (hasc c hc).2 : (defaultName i).map Char.toLower = (defaultName i).map id), List.map_id]
        exact colName_noTime i
      rw [List.range_succ_eq_map, List.map_cons, List.map_cons]
      refine (chosen_default (hno 0)).2 ⟨rfl, ?_⟩
      intro m hm
      simp only [List.mem_map] at hm
      obtain ⟨_, ⟨i, _, rfl⟩, rfl⟩ := hm
      exact hno i
    have hfmt : ∃ e, detectFmt env.lib tz cfg.timeColName = .err e := by
      obtain ⟨h1, h2, h3⟩ := hname.2
      unfold detectFmt
      have e2 : fmtIso = "%+".toList := rfl
      have e3 : fmtDate = "%Y%m%d".toList := rfl
      have e4 : tryNaiveFormats env.lib tz cfg.timeColName timeFormats = none := by
        have : ∀ l : List Str, (∀ f ∈ l, env.lib.parseNaive f cfg.timeColName = none) → tryNaiveFormats env.lib tz cfg.timeColName l = none := by
          intro l
          induction l with
          | nil => intro _; rfl
          | cons f l ih =>
            intro h
            unfold tryNaiveFormats
            rw [h f (by simp)]
            exact ih fun g hg => h g (by simp [hg])
        exact this _ h2
      rw [e2, e3, h1, e4, h3]
      simp only [Option.isSome_none, Bool.false_eq_true, if_false]
      unfold detectUnits
      split
      · rename_i hall
        have hdig : Digits cfg.timeColName := ⟨ht.2.1, fun c hc => by
          have := List.all_eq_true.1 hall c hc
          simpa [isDigit] using this⟩
        have hbig : 2 ^ 63 ≤ decimalValue cfg.timeColName := by
          have := hname.1.1
          refine Classical.byContradiction fun hlt => this (.inl ⟨_, .inl rfl, hdig, by omega⟩)
        rw [parseU64_digits hdig]
        split
        · rename_i hs
          exact ⟨_, rfl⟩
        · rename_i n hs
          split at hs
          · have hn2 : n.toNat = decimalValue cfg.timeColName := by
              rw [← Option.some.inj hs, BitVec.toNat_ofNat, Nat.mod_eq_of_lt (by assumption)]
            rw [inRangeNanos, inRangeMicros, inRangeMillis, inRangeSeconds, decide_eq_false (by omega), decide_eq_false (by omega), decide_eq_false (by omega),
              decide_eq_false (by omega)]
            exact ⟨_, rfl⟩
          · cases hs
      · exact ⟨_, rfl⟩
    obtain ⟨e, hfmt⟩ := hfmt
    refine ⟨p, e, hpn, ?_⟩
    rw [hauto]
    unfold csvOpen
    simp only [csvDelimiter, Res.bind_ok, csvHasHeader]
    unfold csvStart
    rw [hparse]
    simp only [List.map_cons, Res.bind_ok, csvNames, Bool.false_eq_true, if_false, List.length_cons]
    unfold getTimestampColAndFmt
    simp only [hcol, Res.bind_ok]
    have e5 : getTimestampFmtAuto env.lib tz (cfg.timeColName :: names) none (.index 0) = detectFmt env.lib tz cfg.timeColName := rfl
    rw [e5, hfmt]
    rfl
  · rw [List.map_cons, List.map_cons, (noNumber_iff _ _).1 hname.1, (noNumber_iff _ _).1 htime, List.cons.injEq]
    refine ⟨rfl, Classical.byContradiction fun h => hhead ((looksHeaded_iff hw htx).2 h)⟩

/-! ### The hypotheses are met, and each kind of failure occurs -/

/-- A time zone that prints times as `t` and a number, and a date library that reads them. -/
def tagZone : Int → Nat → Str → Str := fun s n _ => 't' :: natToStr (s.toNat * 10 ^ 9 + n)
def tagLib : DateLib where
  Naive := Unit
  parseTz _ text := match text with
    | 't' :: ds => (parseU64 ds).map fun n => ⟨(n.toNat / 10 ^ 9 : Nat), n.toNat % 10 ^ 9⟩
    | _ => none
  parseNaive _ _ := none
  parseDate _ _ := none

theorem tag_readable (f : Str) (ts : Nanos) : IsoReadable tagLib tagZone .nanos f ts := by
  have e : isoText tagZone .nanos ts = 't' :: natToStr ts.toNat := by
    unfold isoText tagZone
    rw [Int.toNat_natCast, Nat.div_add_mod']
  obtain ⟨hd, hval⟩ := natToStr_spec ts.toNat
  have hlt := ts.isLt
  refine ⟨?_, by rw [e]; simp, ?_⟩
  · rw [e]
    have hno : ∀ c : Char, c ≠ 't' → ¬ (48 ≤ c.toNat ∧ c.toNat ≤ 57) → c ∉ 't' :: natToStr ts.toNat := by
      intro c h1 h2 hm
      rcases List.mem_cons.1 hm with h | h
      · exact h1 h
      · exact h2 (hd.2 c h)
    refine ⟨hno _ (by decide) (by decide), hno _ (by decide) (by decide), hno _ (by decide) (by decide), hno _ (by decide) (by decide), isTrimmed_self ?_⟩
    intro c hc
    rcases List.mem_cons.1 hc with rfl | h
    · decide
    · exact digit_notWhite (hd.2 c h)
  · refine ⟨⟨(ts.toNat / 10 ^ 9 : Nat), ts.toNat % 10 ^ 9⟩, ?_, Nat.mod_lt _ (by decide), ?_⟩
    · rw [e]
      show (parseU64 (natToStr ts.toNat)).map _ = _
      rw [parseU64_digits hd, hval, if_pos hlt, Option.map_some, BitVec.toNat_ofNat, Nat.mod_eq_of_lt hlt]
    · simp only [Instant.ns, nanosPer]
      omega

def tagEnv : CsvEnv := ⟨.panics, tagLib, plainCsv, fun _ => false, fun s => s.map Char.toLower⟩
/-- The default configuration: human readable times under the name `time`. -/
def tagOut (name : Option Str) : CsvOutputConfig := .new [','] true name .humanReadable .nanos (some tagZone)
def tagRow (n : Nat) (v : FieldValue) : Row := ⟨BitVec.ofNat 64 n, [v]⟩
def tagBytes (name : Option Str) (n : Nat) (v : FieldValue) : Inner :=
  ⟨utf8Encode (csvHeaderText (tagOut name) [['a']] ++ (csvRowsText plainFloats (tagOut name) [tagRow n v]).1), [], none⟩

theorem tag_lines (name : Option Str) (n : Nat) {v : FieldValue} {t : Str} (hv : ValueText plainFloats v t) (hv2 : valueText plainFloats v = .ok t) :
    CsvLines plainFloats (tagOut name) [tagRow n v] (csvRowsText plainFloats (tagOut name) [tagRow n v]).1 := by
  have e : (csvRowsText plainFloats (tagOut name) [tagRow n v]).1 =
      joinWith [','] ([isoText tagZone .nanos (BitVec.ofNat 64 n)] ++ [t]) ++ ['\n'] ++ [] := by
    have e1 : timeText (tagOut name) (BitVec.ofNat 64 n) = .ok (isoText tagZone .nanos (BitVec.ofNat 64 n)) := by
      show Res.ok (tagZone (splitTimestamp (BitVec.ofNat 64 n)).1 (splitTimestamp (BitVec.ofNat 64 n)).2 (humanFormat .nanos)) = _
      rw [splitTimestamp_eq, humanFormat_eq]
      rfl
    have e2 : csvRowText plainFloats (tagOut name) (tagRow n v) = (isoText tagZone .nanos (BitVec.ofNat 64 n) ++ (',' :: t) ++ ['\n'], .ok ()) := by
      unfold csvRowText
      have : (tagOut name).printTimeCol = true := rfl
      simp only [this, if_true]
      have : (tagRow n v).timestamp = BitVec.ofNat 64 n := rfl
      rw [this, e1]
      have : csvValues plainFloats (tagOut name).delimiter false (tagRow n v).values = (',' :: t, .ok ()) := by
        simp only [tagRow, csvValues, hv2]
        simp [tagOut, CsvOutputConfig.new]
      simp only [this]
    simp only [csvRowsText, e2]
    simp [joinWith]
  rw [e]
  refine .cons (col := [isoText tagZone .nanos (BitVec.ofNat 64 n)]) (texts := [t]) ?_ ⟨rfl, ?_⟩ .nil
  · unfold TimeCol
    exact ⟨_, rfl, tagZone, rfl, rfl⟩
  · intro i v' t' h1 h2
    cases i with
    | zero => cases h1; cases h2; exact hv
    | succ i => simp [tagRow] at h1

theorem tag_nofail (name : Option Str) (n : Nat) (v : FieldValue) : NoFail (tagBytes name n v) := by
  rintro k (hk | hk)
  · cases hk
  · cases hk

theorem tag_name : PlainField ',' (tagOut none).timeColName ∧ (tagOut none).timeColName ≠ [] ∧ (tagOut none).timeColName.head? ≠ some '\uFEFF' :=
  ⟨plain_text _ (by decide), by decide, by decide⟩

/-- The explicit settings can be those found automatically for the default name. -/
example (ts : Nat) (hts : ts < 2 ^ 63) : ReadsIsoBack tagEnv plainFloats (tagOut none) tagZone (⟨some 44, .yes, .index 0, .auto, none⟩ : CsvInputConfig tagLib) [['a']]
    [tagRow ts (.string ['x'])] (tagBytes none ts (.string ['x'])) :=
  C101_file tagEnv plainCsv_reads plainFloats (tagOut none) tagZone "%+".toList _
    ⟨rfl, rfl, .inl rfl, .inr ⟨rfl, rfl, by rintro (_ | _ | _ | _) <;> (rw [← List.isSuffixOf_iff_suffix]; decide)⟩⟩ rfl rfl rfl rfl _ _ _ (tag_lines none ts .string rfl) (by simp) (by simp)
    (by simp [tagRow]) tag_name (by simp only [List.mem_singleton, forall_eq]; exact plain_text _ (by decide))
    (by simp only [List.mem_singleton, forall_eq, tagRow]; exact plain_text _ (by decide)) (fun r _ => tag_readable _ _)
    (.inr (by simp only [List.mem_singleton, forall_eq, tagRow, BitVec.toNat_ofNat]; rw [Nat.mod_eq_of_lt (by omega)]; exact hts)) _ (tag_nofail _ _ _) rfl

/-- A time in the year 2500 is written but not read. -/
example : ∃ p, Previewer.new defaultBufSize (tagBytes none (16725225600 * 10 ^ 9) (.string ['x'])) = .ok p ∧
    csvOpen tagEnv (⟨some 44, .yes, .index 0, .explicit "%+".toList, none⟩ : CsvInputConfig tagLib) p = .panic :=
  C101_far_future tagEnv plainCsv_reads plainFloats (tagOut none) tagZone "%+".toList _
    ⟨rfl, rfl, .inl rfl, .inl rfl⟩ rfl rfl rfl rfl _ _ _ _ (tag_lines none _ .string rfl) (by simp)
    tag_name (by simp only [List.mem_singleton, forall_eq]; exact plain_text _ (by decide))
    (by simp only [List.mem_singleton, forall_eq, tagRow]; exact plain_text _ (by decide)) (fun r _ => tag_readable _ _) rfl
    (by simp only [tagRow, BitVec.toNat_ofNat, tagOut, CsvOutputConfig.new, nanosPer]; decide) _ (tag_nofail _ _ _) rfl

theorem tag_chosen : Chosen (((tagOut none).timeColName :: [['a']]).map tagEnv.lower) (.index 0) none :=
  (C13_chosen tagEnv.lower _ _ _).1 (by decide)

theorem tag_chars : ∀ n ∈ (tagOut none).timeColName :: [['a']], ∀ c ∈ n, c.toNat < 256 ∧ c ≠ ' ' ∧ c ≠ '\t' := by decide

/-- A number: the header line is recognised. -/
example : ReadsIsoBack tagEnv plainFloats (tagOut none) tagZone (autoCfg none) [['a']] [tagRow 1500000000123456789 (.long 7)] (tagBytes none 1500000000123456789 (.long 7)) :=
  C102_auto_partial tagEnv plainCsv_reads plainFloats (tagOut none) tagZone none rfl rfl rfl rfl _ _ _ _
    (tag_lines none _ (t := ['7']) (.long (.inl ⟨by decide, ⟨by decide, by decide⟩, by decide⟩)) (by decide)) (by simp)
    (by simp [tagRow]) tag_name (by simp only [List.mem_singleton, forall_eq]; exact plain_text _ (by decide))
    (by simp only [List.mem_singleton, forall_eq, tagRow]; trivial) (fun r _ => tag_readable _ _)
    (.inr (by simp only [List.mem_singleton, forall_eq, tagRow, BitVec.toNat_ofNat]; decide)) _ (tag_nofail _ _ _) rfl tag_chars tag_chosen (by decide +kernel)
    (.inl ⟨0, ['a'], .long 7, ['7'], rfl, rfl, .long (.inl ⟨by decide, ⟨by decide, by decide⟩, by decide⟩), by rw [sameKind_iff]; decide⟩)

/-- **C102 is false**: the tool's default output of one column of texts cannot be opened with the tool's default input settings. -/
theorem C102_counterexample : ¬ C102_full := by
  intro h
  have hnum : ∀ s : Str, guessType tagEnv.isF64 s = .string → NoNumber tagEnv.isF64 s := fun s h => (noNumber_iff _ _).2 h
  obtain ⟨p, src, rows', h1, h2, _⟩ := h tagEnv plainFloats .nanos tagZone none [['a']] [tagRow 1500000000123456789 (.string ['x'])] _ _ plainCsv_reads
    (by
      intro s _
      rfl) (tag_lines none _ .string rfl) (by simp) (by simp) (by simp [tagRow]) (by simp only [List.mem_singleton, forall_eq]; exact plain_text _ (by decide))
    (by simp only [List.mem_singleton, forall_eq, tagRow]; exact plain_text _ (by decide)) (fun r _ => tag_readable _ _)
    (by simp only [List.mem_singleton, forall_eq, tagRow, BitVec.toNat_ofNat]; decide) (tag_nofail none 1500000000123456789 (.string ['x'])) rfl
    (fun n hn => tag_chars n (List.mem_cons_of_mem _ hn)) tag_chosen (by decide +kernel)
  obtain ⟨p', e, g1, g2⟩ := C102_header_lost tagEnv plainCsv_reads plainFloats (tagOut none) tagZone none rfl rfl rfl rfl [['a']] (tagRow 1500000000123456789 (.string ['x'])) [] _
    (tag_lines none _ .string rfl) (by simp)
    (by simp [tagRow]) tag_name (by simp only [List.mem_singleton, forall_eq]; exact plain_text _ (by decide))
    (by simp only [List.mem_singleton, forall_eq, tagRow]; exact plain_text _ (by decide))
    (fun r _ => ⟨(tag_readable [] r.timestamp).plain, (tag_readable [] r.timestamp).nonempty⟩) (tagBytes none 1500000000123456789 (.string ['x'])) (tag_nofail _ _ _) rfl
    tag_chars (fun _ _ => rfl) (by decide +kernel) ⟨hnum _ (by decide), by decide, by intro f _; rfl, rfl⟩ (hnum _ (by decide +kernel)) (by
      rintro ⟨i, n, v, t, k1, k2, k3, k4⟩
      cases i with
      | zero =>
        cases k1
        cases k2
        rw [valueText_string k3] at k4
        exact k4 ((sameKind_iff _ _ _).2 (by decide))
      | succ i => simp at k1)
  rw [h1] at g1
  cases g1
  have h2' : csvOpen tagEnv (autoCfg none) p = .ok src := h2
  rw [g2] at h2'
  cases h2'

end Chopper.Props
