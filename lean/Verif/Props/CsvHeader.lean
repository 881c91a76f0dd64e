import Verif.Proofs.RustFloat
import Verif.Props.CsvCopy
import Verif.Props.CsvIso
import Verif.Props.CsvQuoted

/-! # C115: automatic header detection, with Rust's own idea of a number -/
namespace Chopper.Props
open Chopper Chopper.Spec

/-- **C115 (numbers).** The texts the standard library accepts as floating point numbers are exactly those of the grammar. -/
theorem C115_number (s : Str) : rustIsF64 s = true ↔ FloatText s := rustIsF64_iff s

/-- The type the code uses for a kind of cell. -/
def kindType : CellKind → FieldType
  | .whole => .long
  | .number => .double
  | .text => .string

theorem guess_kind (s : Str) (k : CellKind) : OfKind s k ↔ guessType rustIsF64 s = kindType k := by
  rw [← C07_type_of_text]
  cases k
  · exact Iff.rfl
  · simp only [OfKind, kindType, TypeOfText, rustIsF64_iff]
  · simp only [OfKind, kindType, TypeOfText, ← rustIsF64_iff, Bool.not_eq_true]

/-- **C115 (kinds).** Every cell has exactly one kind, and it is the one that is guessed. -/
theorem C115_kind (s : Str) : ∃ k, OfKind s k ∧ (∀ k', OfKind s k' → k' = k) ∧ guessType rustIsF64 s = kindType k := by
  have key : ∃ k, guessType rustIsF64 s = kindType k := by
    unfold guessType
    split
    · exact ⟨.whole, rfl⟩
    · split
      · exact ⟨.number, rfl⟩
      · exact ⟨.text, rfl⟩
  obtain ⟨k, hk⟩ := key
  refine ⟨k, (guess_kind s k).2 hk, ?_, hk⟩
  intro k' h
  rw [guess_kind, hk] at h
  cases k <;> cases k' <;> first | rfl | cases h

/-- Two lines have cells of different kinds in some column. -/
def KindsDiffer (l1 l2 : List Str) : Prop := ∃ (i : Nat) (x y : Str) (k k' : CellKind), l1[i]? = some x ∧ l2[i]? = some y ∧ OfKind x k ∧ OfKind y k' ∧ k ≠ k'

theorem kindsDiffer_iff {l1 l2 : List Str} (hl : l1.length = l2.length) : KindsDiffer l1 l2 ↔ l1.map (guessType rustIsF64) ≠ l2.map (guessType rustIsF64) := by
  constructor
  · rintro ⟨i, x, y, k, k', h1, h2, h3, h4, hne⟩ he
    have := congrArg (·[i]?) he
    simp only [List.getElem?_map, h1, h2, Option.map_some, Option.some.injEq] at this
    rw [(guess_kind x k).1 h3, (guess_kind y k').1 h4] at this
    cases k <;> cases k' <;> first | exact hne rfl | cases this
  · intro hne
    refine Classical.byContradiction fun hno => hne ?_
    apply List.ext_getElem? fun i => ?_
    simp only [List.getElem?_map]
    by_cases hi : i < l1.length
    · have h1 := List.getElem?_eq_getElem hi
      have h2 := List.getElem?_eq_getElem (l := l2) (i := i) (by omega)
      rw [h1, h2, Option.map_some, Option.map_some, Option.some.injEq]
      obtain ⟨k, hk, _, e⟩ := C115_kind l1[i]
      obtain ⟨k', hk', _, e'⟩ := C115_kind (l2[i]'(by omega))
      rw [e, e']
      have : k = k' := Classical.byContradiction fun hkk => hno ⟨i, _, _, k, k', h1, h2, hk, hk', hkk⟩
      rw [this]
    · rw [List.getElem?_eq_none (by omega), List.getElem?_eq_none (by omega)]

/-- What is given: a CSV file of these lines, all of the same length, separated by `d`, the first two of them (or the only one) within the first 8192 bytes; given as CSV by its name or explicitly. -/
structure LinesFile (w : World) (inp : Input) (d : Char) (b : Byte) (width : Nat) (lines : List (List Str)) : Prop where
  file : CsvDataAt w inp (utf8Encode (csvText d lines))
  delimiter : d.toNat < 128 ∧ d ≠ '"' ∧ d ≠ '\n' ∧ d ≠ '\r' ∧ b.toNat = d.toNat
  plain : PlainTable d lines
  widths : width ≠ 0 ∧ ∀ l ∈ lines, l.length = width
  fits : (utf8Encode (csvText d (lines.take 2))).length ≤ 8192

/-- The settings: the delimiter and the time column (number `c`, in units `u`) are given, whether there is a header line is to be found out. -/
def headerAuto {lib : DateLib} (b : Byte) (c : Nat) (u : TimestampUnits) (tz : ChopperTz lib) : CsvInputConfig lib := ⟨some b, .auto, .index c, .epoch u, tz⟩

/-- The source for a table. -/
def readAs (names : List Str) (time : List Str → Nanos) (recs : List (List Str)) : FileSource := tableFile names time recs

theorem data_opens {env : CsvEnv} (dec : Decoders) (zip : ZipLib) {w : World} {inp : Input} {cfg : CsvInputConfig env.lib} {bs : List Byte} {names : List Str} {time : List Str → Nanos}
    {recs : List (List Str)} (hat : CsvDataAt w inp bs) (h : ReadsBytes env cfg bs names time recs) :
    createFromInput (newInputs env dec zip w (some cfg) [] []) w inp = .ok (tableFile names time recs) := by
  obtain ⟨s, fmt, sched, rfl, hfile, hsched, hhttp, hzip, hfmt⟩ := hat
  obtain ⟨p, src, g1, g2, g3⟩ := h ⟨bs, sched, none⟩ (by
    rintro k (hk | hk)
    · exact hsched k hk
    · cases hk) rfl
  rw [C66_csv_file env dec zip w cfg s fmt _ hfile.notDir hfile.here hfile.opens hhttp hzip (hfmt.elim .inl fun h => .inr (.inl h)), g1, Res.bind_ok, g2, Res.bind_ok, g3]
  rfl

/-- The header line that is found. -/
theorem header_found {env : CsvEnv} (hf : env.isF64 = rustIsF64) {w : World} {inp : Input} {d : Char} {b : Byte} {width : Nat} {lines : List (List Str)} (h : LinesFile w inp d b width lines)
    (c : Nat) (u : TimestampUnits) (tz : ChopperTz env.lib) (hh : Bool) (hhh : hh = true ↔ ∃ l1 l2 ls, lines = l1 :: l2 :: ls ∧ KindsDiffer l1 l2)
    (inner : Inner) (p : Previewer) (hdata : inner.data = utf8Encode (csvText d lines))
    (hlines : ∀ pieces rest, IsLines (inner.data.take defaultBufSize) pieces rest →
        p.lines = decodeAll ((pieces ++ if rest = [] ∨ defaultBufSize ≤ inner.data.length then [] else [rest]).map dropCr)) :
    csvOpen env (headerAuto b c u tz) p = csvOpen env ⟨some b, if hh then .yes else .no, .index c, .epoch u, tz⟩ p := by
  obtain ⟨hd1, hd2, hd3, hd4, hb⟩ := h.delimiter
  obtain ⟨k, hpl, hk⟩ := preview_lines hd3 hd4 (fun l hl t ht => ⟨(h.plain.plain l hl t ht).noLf, (h.plain.plain l hl t ht).noCr⟩) hdata hlines
  obtain ⟨e, hh', hopen, hdl, _, _, _, _, hhd⟩ := C75_auto_settings env (headerAuto b c u tz) p
  obtain rfl : e = b := hdl b rfl
  have hchar : Char.ofNat e.toNat = d := by rw [hb]; exact Char.ofNat_toNat d
  have htypes : ∀ l ∈ lines, lineTypes rustIsF64 e (joinChar d l) = l.map (guessType rustIsF64) := by
    intro l hl
    unfold lineTypes
    rw [hchar, splitChar_join (by
      intro e0
      have := h.widths.2 l hl
      rw [e0] at this
      exact h.widths.1 this.symm) fun f hf => (h.plain.plain l hl f hf).noDelim]
    apply List.map_congr_left
    intro t ht
    rw [trim_self (h.plain.plain l hl t ht).trimmed]
  have hty : ∀ line types, TypesOfLine rustIsF64 d line types ↔ lineTypes rustIsF64 e line = types := by
    intro line types
    have := typesOfLine_iff rustIsF64 e line types
    rwa [hchar] at this
  have hsame : hh' = hh := by
    rw [Bool.eq_iff_iff, hhh, hhd rfl, hpl, hf, hchar]
    constructor
    · rintro ⟨a1, a2, as, t1, t2, h1, h2, h3, h4⟩
      have h1 := Option.some.inj h1
      rcases lines with _ | ⟨l1, _ | ⟨l2, ls⟩⟩
      · simp at h1
      · rcases k with _ | k <;> simp at h1
      · rcases k with _ | _ | k
        · simp at h1
        · simp at h1
        · simp only [List.map_cons, List.take_succ_cons, List.cons.injEq] at h1
          obtain ⟨rfl, rfl, _⟩ := h1
          refine ⟨l1, l2, ls, rfl, ?_⟩
          rw [hty, htypes l1 (by simp)] at h2
          rw [hty, htypes l2 (by simp)] at h3
          rw [kindsDiffer_iff (by rw [h.widths.2 l1 (by simp), h.widths.2 l2 (by simp)]), h2, h3]
          exact h4
    · rintro ⟨l1, l2, ls, rfl, hne⟩
      have hk2 : 2 ≤ k := hk 2 (by simp) h.fits
      obtain ⟨k', rfl⟩ : ∃ k', k = k' + 2 := ⟨k - 2, by omega⟩
      rw [kindsDiffer_iff (by rw [h.widths.2 l1 (by simp), h.widths.2 l2 (by simp)])] at hne
      refine ⟨_, _, _, _, _, rfl, ?_, ?_, hne⟩
      · rw [hty]; exact htypes l1 (by simp)
      · rw [hty]; exact htypes l2 (by simp)
  rw [hopen, hsame]
  rfl

theorem timeIn_get {ov : Overflow} {lib : DateLib} {tz : ChopperTz lib} {c : Nat} {u : TimestampUnits} {rec : List Str} {ts : Nanos} (h : TimeIn c u rec ts) :
    getTimestamp ov lib tz rec (.index c) (.units u) = .ok ts := by
  obtain ⟨t, h1, h2, h3⟩ := h
  obtain ⟨ts', h4, h5⟩ := (C11_units_partial ov lib tz u rec c t h1).1 t (.inl rfl) h2 (by rw [h3]; exact ts.isLt)
  rw [h4, BitVec.eq_of_toNat_eq (h5.trans h3)]

theorem plain_parsed {env : CsvEnv} (hc : ReadsPlain env.csv) {w : World} {inp : Input} {d : Char} {b : Byte} {width : Nat} {lines : List (List Str)} (h : LinesFile w inp d b width lines)
    (inner : Inner) (p : Previewer) (hi : NoFail inner) (hdata : inner.data = utf8Encode (csvText d lines)) (hpn : Previewer.new defaultBufSize inner = .ok p) :
    (env.csv.parse b false p.reader).records = lines.map .ok ∧ ∀ h t, lines = h :: t → env.csv.parse b true p.reader = ⟨.ok h, t.map .ok⟩ := by
  obtain ⟨hd1, hd2, hd3, hd4, hb⟩ := h.delimiter
  obtain ⟨p', hpn', hinv, hpend, _, hnf⟩ := preview_ok hi
  obtain rfl : p' = p := Res.ok.inj (hpn'.symm.trans hpn)
  exact hc d b _ p'.reader hd1 hb hd2 hd3 hd4 h.plain hinv.pos hinv.cap hnf (by rw [← hdata, ← hpend]; rfl)

/-- **C115, in full**: a CSV file without header line, all of whose lines are records with a time, is delivered completely when the tool is to find out whether there is a header line. -/
def C115_full : Prop := ∀ (env : CsvEnv) (dec : Decoders) (zip : ZipLib) (w : World) (inp : Input) (d : Char) (b : Byte) (c width : Nat) (u : TimestampUnits) (tz : ChopperTz env.lib)
  (lines : List (List Str)) (time : List Str → Nanos), ReadsPlain env.csv → env.isF64 = rustIsF64 → LinesFile w inp d b width lines → lines ≠ [] → (∀ l ∈ lines, TimeIn c u l (time l)) →
  ∃ names, createFromInput (newInputs env dec zip w (some (headerAuto b c u tz)) [] []) w inp = .ok (readAs names time lines)

/-- **C115 (partial): kept.** It is delivered completely, with the names `col_0`, `col_1`, … for the columns, if the first two lines have cells of the same kinds in every column (or there is
only one line). -/
theorem C115_kept_partial (env : CsvEnv) (dec : Decoders) (zip : ZipLib) (w : World) (inp : Input) (d : Char) (b : Byte) (c width : Nat) (u : TimestampUnits) (tz : ChopperTz env.lib)
    (lines : List (List Str)) (time : List Str → Nanos) (hc : ReadsPlain env.csv) (hf : env.isF64 = rustIsF64) (h : LinesFile w inp d b width lines) (hne : lines ≠ [])
    (ht : ∀ l ∈ lines, TimeIn c u l (time l)) (hsame : ∀ l1 l2 ls, lines = l1 :: l2 :: ls → ¬ KindsDiffer l1 l2) :
    createFromInput (newInputs env dec zip w (some (headerAuto b c u tz)) [] []) w inp = .ok (readAs ((List.range width).map fun i => "col_".toList ++ decimal i) time lines) := by
  obtain ⟨first, rest, rfl⟩ := List.exists_cons_of_ne_nil hne
  have hnames : ((List.range width).map fun i => "col_".toList ++ decimal i) = (List.range width).map defaultName := by
    apply List.map_congr_left
    intro i _
    unfold defaultName
    rw [natToStr_repr i]
    rfl
  rw [hnames]
  refine data_opens dec zip h.file (reads_parsed_as env (headerAuto b c u tz) (b := b) (hh := false) (col := .index c) (fmt := .units u) ?_ ?_ ?_ ?_ ?_)
  · intro inner p hdata hlines
    refine header_found hf h c u tz false ?_ inner p hdata hlines
    constructor
    · intro e; cases e
    · rintro ⟨l1, l2, ls, e, hk⟩; exact absurd hk (hsame l1 l2 ls e)
  · intro inner p hi hdata hpn
    refine ⟨(plain_parsed hc h inner p hi hdata hpn).1, ?_⟩
    unfold csvNames
    rw [h.widths.2 first (by simp)]
    rfl
  · intro rec hr
    rw [List.length_map, List.length_range]
    exact h.widths.2 rec hr
  · rfl
  · intro rec hr
    exact timeIn_get (ht rec hr)

/-- **C115 (a header is assumed).** If the first two lines have cells of different kinds in some column, the first line is taken for the column names, whatever it is: only the lines after it are delivered. -/
theorem C115_header (env : CsvEnv) (dec : Decoders) (zip : ZipLib) (w : World) (inp : Input) (d : Char) (b : Byte) (c width : Nat) (u : TimestampUnits) (tz : ChopperTz env.lib)
    (names first : List Str) (rest : List (List Str)) (time : List Str → Nanos) (hc : ReadsPlain env.csv) (hf : env.isF64 = rustIsF64) (h : LinesFile w inp d b width (names :: first :: rest))
    (ht : ∀ l ∈ first :: rest, TimeIn c u l (time l)) (hdiff : KindsDiffer names first) :
    createFromInput (newInputs env dec zip w (some (headerAuto b c u tz)) [] []) w inp = .ok (readAs names time (first :: rest)) := by
  refine data_opens dec zip h.file (reads_parsed_as env (headerAuto b c u tz) (b := b) (hh := true) (col := .index c) (fmt := .units u) ?_ ?_ ?_ ?_ ?_)
  · intro inner p hdata hlines
    refine header_found hf h c u tz true ?_ inner p hdata hlines
    exact ⟨fun _ => ⟨names, first, rest, rfl, hdiff⟩, fun _ => rfl⟩
  · intro inner p hi hdata hpn
    rw [(plain_parsed hc h inner p hi hdata hpn).2 names (first :: rest) rfl]
    exact ⟨rfl, rfl⟩
  · intro rec hr
    rw [h.widths.2 rec (List.mem_cons_of_mem _ hr), h.widths.2 names (by simp)]
  · rfl
  · intro rec hr
    exact timeIn_get (ht rec hr)

theorem digits_kind {t : Str} (h : Digits t) : OfKind t .whole ∨ OfKind t .number := by
  by_cases hi : DenotesI64 t
  · exact .inl hi
  · exact .inr ⟨hi, .number (sign := []) (.inl rfl) (.whole h)⟩

/-- **C115 (names).** A header line is always found if the name of the time column is no number (times being numbers here). -/
theorem C115_names (env : CsvEnv) (dec : Decoders) (zip : ZipLib) (w : World) (inp : Input) (d : Char) (b : Byte) (c width : Nat) (u : TimestampUnits) (tz : ChopperTz env.lib)
    (names first : List Str) (rest : List (List Str)) (time : List Str → Nanos) (hc : ReadsPlain env.csv) (hf : env.isF64 = rustIsF64) (h : LinesFile w inp d b width (names :: first :: rest))
    (ht : ∀ l ∈ first :: rest, TimeIn c u l (time l)) (n : Str) (hn : names[c]? = some n) (hno : ¬ DenotesI64 n ∧ ¬ FloatText n) :
    createFromInput (newInputs env dec zip w (some (headerAuto b c u tz)) [] []) w inp = .ok (readAs names time (first :: rest)) := by
  refine C115_header env dec zip w inp d b c width u tz names first rest time hc hf h ht ?_
  obtain ⟨t, h1, h2, _⟩ := ht first (by simp)
  rcases digits_kind h2 with hk | hk
  · exact ⟨c, n, t, .text, .whole, hn, h1, hno, hk, by decide⟩
  · exact ⟨c, n, t, .text, .number, hn, h1, hno, hk, by decide⟩

/-- **C115 (lost).** Exactly the first record is lost if the kinds of cells in the first two differ. -/
theorem C115_lost (env : CsvEnv) (dec : Decoders) (zip : ZipLib) (w : World) (inp : Input) (d : Char) (b : Byte) (c width : Nat) (u : TimestampUnits) (tz : ChopperTz env.lib)
    (l1 l2 : List Str) (ls : List (List Str)) (time : List Str → Nanos) (hc : ReadsPlain env.csv) (hf : env.isF64 = rustIsF64) (h : LinesFile w inp d b width (l1 :: l2 :: ls))
    (ht : ∀ l ∈ l1 :: l2 :: ls, TimeIn c u l (time l)) :
    (∃ names, createFromInput (newInputs env dec zip w (some (headerAuto b c u tz)) [] []) w inp = .ok (readAs names time (l1 :: l2 :: ls))) ↔ ¬ KindsDiffer l1 l2 := by
  constructor
  · rintro ⟨names, e⟩ hk
    rw [C115_header env dec zip w inp d b c width u tz l1 l2 ls time hc hf h (fun l hl => ht l (List.mem_cons_of_mem _ hl)) hk] at e
    have := congrArg (fun f : FileSource => f.source.rows.length) (Res.ok.inj e)
    simp [readAs, tableFile] at this
  · intro hk
    refine ⟨_, C115_kept_partial env dec zip w inp d b c width u tz _ time hc hf h (by simp) ht ?_⟩
    rintro a1 a2 as e
    cases e
    exact hk

/-! ### Examples -/
example : FloatText "-12.5e+03".toList ∧ FloatText ".5".toList ∧ FloatText "5.".toList ∧ FloatText "InFiniTy".toList ∧ FloatText "+nan".toList := by
  simp only [← rustIsF64_iff]; decide +kernel
example : ¬ FloatText [] ∧ ¬ FloatText ".".toList ∧ ¬ FloatText "1e".toList ∧ ¬ FloatText "1 ".toList ∧ ¬ FloatText "--1".toList ∧ ¬ FloatText "0x10".toList ∧ ¬ FloatText "1_000".toList := by
  simp only [← rustIsF64_iff]; decide +kernel

/-- A file `a.csv` with these bytes, read three bytes at first. -/
def headerWorld (data : List Byte) : World :=
  ⟨fun p => p == utf8Encode "a.csv".toList, fun _ => false, fun p => if p = utf8Encode "a.csv".toList then some ⟨data, [.bytes 3], none⟩ else none,
   fun _ => none, fun _ => .err (.io .other), ⟨[], [], none⟩⟩

/-- Times (in seconds) and prices, without header line. -/
def prices : List (List Str) := [[['5'], ['1']], [['7'], ['1', '.', '5']], [['8'], ['2']]]
/-- The same with a header line. -/
def namedPrices : List (List Str) := [['t'], ['v']] :: prices
/-- Prices all of one kind. -/
def floatPrices : List (List Str) := [[['5'], ['1', '.', '0']], [['7'], ['1', '.', '5']], [['8'], ['2']]]
def floatsEnv : CsvEnv := { crateEnv with isF64 := rustIsF64 }

theorem header_file (lines : List (List Str)) (hl : lines = prices ∨ lines = namedPrices ∨ lines = floatPrices) :
    LinesFile (headerWorld (utf8Encode (csvText ',' lines))) ⟨.path "a.csv".toList, .auto⟩ ',' 44 2 lines where
  file := ⟨"a.csv".toList, .auto, [.bytes 3], rfl, ⟨rfl, by simp [headerWorld], by simp [headerWorld]⟩, by simp, by decide +kernel, by
    rcases hl with rfl | rfl | rfl <;> decide +kernel, .inl ⟨['a'], by decide +kernel, rfl⟩⟩
  delimiter := by decide
  plain := by
    refine ⟨fun l hl' t ht => plain_text t ?_, ?_, ?_⟩ <;> rcases hl with rfl | rfl | rfl
    · revert t; revert l; decide +kernel
    · revert t; revert l; decide +kernel
    · revert t; revert l; decide +kernel
    all_goals decide +kernel
  widths := by rcases hl with rfl | rfl | rfl <;> decide +kernel
  fits := by rcases hl with rfl | rfl | rfl <;> decide +kernel

theorem header_times (lines : List (List Str)) (hl : lines = prices ∨ lines = floatPrices) : ∀ l ∈ lines, TimeIn 0 .seconds l (copyTime l) := by
  rcases hl with rfl | rfl
  all_goals
    intro l hl
    refine ⟨l.headD [], ?_, ?_, ?_⟩ <;> revert l
    · decide +kernel
    · unfold Digits; decide +kernel
    · decide +kernel

theorem prices_differ : KindsDiffer [['5'], ['1']] [['7'], ['1', '.', '5']] := by
  rw [kindsDiffer_iff (by decide)]; decide +kernel

/-- The price `1` of the first line is taken for a column name: the first record is lost. -/
theorem C115_counterexample : ¬ C115_full := by
  intro h
  have := h floatsEnv copyEnv.dec exLib _ _ ',' 44 0 2 .seconds none prices copyTime C113_plain rfl (header_file prices (.inl rfl)) (by decide) (header_times prices (.inl rfl))
  exact (C115_lost floatsEnv copyEnv.dec exLib _ _ ',' 44 0 2 .seconds none _ _ _ copyTime C113_plain rfl (header_file prices (.inl rfl)) (header_times prices (.inl rfl))).1 this prices_differ

/-- What happens instead: the columns are called `5` and `1`. -/
example : createFromInput (newInputs floatsEnv copyEnv.dec exLib (headerWorld (utf8Encode (csvText ',' prices))) (some (headerAuto 44 0 .seconds none)) [] [])
    (headerWorld (utf8Encode (csvText ',' prices))) ⟨.path "a.csv".toList, .auto⟩ = .ok (readAs [['5'], ['1']] copyTime (prices.drop 1)) :=
  C115_header floatsEnv copyEnv.dec exLib _ _ ',' 44 0 2 .seconds none _ _ _ copyTime C113_plain rfl (header_file prices (.inl rfl))
    (fun l hl => header_times prices (.inl rfl) l (List.mem_cons_of_mem _ hl)) prices_differ

/-- With a header line. -/
example : createFromInput (newInputs floatsEnv copyEnv.dec exLib (headerWorld (utf8Encode (csvText ',' namedPrices))) (some (headerAuto 44 0 .seconds none)) [] [])
    (headerWorld (utf8Encode (csvText ',' namedPrices))) ⟨.path "a.csv".toList, .auto⟩ = .ok (readAs [['t'], ['v']] copyTime prices) :=
  C115_names floatsEnv copyEnv.dec exLib _ _ ',' 44 0 2 .seconds none _ _ _ copyTime C113_plain rfl (header_file namedPrices (.inr (.inl rfl)))
    (header_times prices (.inl rfl)) ['t'] rfl (by
      have h : OfKind ['t'] .text := by rw [guess_kind]; decide +kernel
      exact h)

/-- All of one kind. -/
example : createFromInput (newInputs floatsEnv copyEnv.dec exLib (headerWorld (utf8Encode (csvText ',' floatPrices))) (some (headerAuto 44 0 .seconds none)) [] [])
    (headerWorld (utf8Encode (csvText ',' floatPrices))) ⟨.path "a.csv".toList, .auto⟩ = .ok (readAs ["col_0".toList, "col_1".toList] copyTime floatPrices) :=
  C115_kept_partial floatsEnv copyEnv.dec exLib _ _ ',' 44 0 2 .seconds none _ copyTime C113_plain rfl (header_file floatPrices (.inr (.inr rfl))) (by decide)
    (header_times floatPrices (.inr rfl)) (by
      rintro l1 l2 ls e
      simp only [floatPrices, List.cons.injEq] at e
      obtain ⟨rfl, rfl, rfl⟩ := e
      rw [kindsDiffer_iff (by decide)]; decide +kernel)

end Chopper.Props
