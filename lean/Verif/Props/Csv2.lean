import Verif.Props.Csv
import Verif.Props.CsvUtil

/-!
# Properties of CSV input and output: C74, C75
-/
namespace Chopper.Props
open Chopper Spec

/-! ### C74: the header line -/

/-- **C74.** CSV output starts with one header line: the name of the time column, if there is a time column (the given name; without one `time` for
human readable times and `timestamp` with the units for others), then the names of all columns in order, separated by commas; the rows' lines (C43) follow.  (With a time
column and no other column, an empty second name is printed, see `C42_no_columns`.) -/
theorem C74_header_line (ff : FloatFmt) (delimiter : Str) (printTime : Bool) (timeName : Option Str) (style : TimestampStyle) (units : TimestampUnits)
    (zone : Option (Int → Nat → Str → Str)) (h : Header) (rows : List Row) :
    (csvFile ff (.new delimiter printTime timeName style units zone) h rows).1 =
      joinChar ',' ((if printTime then [timeName.getD (defaultTimeName style units).toList] else []) ++
        if printTime = true ∧ h.names = [] then [[]] else h.names) ++ '\n' ::
      (csvRowsText ff (.new delimiter printTime timeName style units zone) rows).1 := by
  have hn : (CsvOutputConfig.new delimiter printTime timeName style units zone).timeColName = timeName.getD (defaultTimeName style units).toList := by
    cases timeName with
    | some n => rfl
    | none => cases style <;> cases units <;> rfl
  simp only [csvFile]
  by_cases hc : printTime = true ∧ h.names = []
  · obtain ⟨rfl, h0⟩ := hc
    unfold csvHeaderText
    rw [hn, h0]
    simp [csvHeaderNames, joinChar, CsvOutputConfig.new]
  · rw [csvHeaderText_eq (cfg := .new delimiter printTime timeName style units zone) hc, hn, if_neg hc]
    simp only [CsvOutputConfig.new, List.append_assoc, List.singleton_append]
    rfl

example : (csvFile plainFloats (.new [','] true none .epoch .millis none) ⟨["a".toList, "b".toList], [.string, .string]⟩ []).1 =
    "timestampMillis,a,b\n".toList := by decide

/-! ### C75: automatic settings -/

/-- The delimiter among comma, TAB and space that is most frequent in the line, in this order of preference. -/
def PreferredDelimiter (line : Str) (d : Byte) : Prop :=
  d ∈ [(44 : Byte), 9, 32] ∧
  (occurrences 9 line ≤ occurrences 44 line ∧ occurrences 32 line ≤ occurrences 44 line → d = 44) ∧
  (occurrences 44 line < occurrences 9 line ∧ occurrences 32 line ≤ occurrences 9 line → d = 9) ∧
  (occurrences 44 line < occurrences 32 line ∧ occurrences 9 line < occurrences 32 line → d = 32)

/-- **C75.** Opening with automatic settings is opening with explicit settings that are found as follows: the delimiter is the most frequent of
comma, TAB and space in the first line (comma if there is no text); there is a header exactly if the first two lines have different types of
fields.  Settings that are given explicitly are left alone. -/
theorem C75_auto_settings (env : CsvEnv) (cfg : CsvInputConfig env.lib) (p : Previewer) :
    ∃ (d : Byte) (hh : Bool),
      csvOpen env cfg p = csvOpen env { cfg with delimiter := some d, hasHeader := if hh then .yes else .no } p ∧
      (∀ e, cfg.delimiter = some e → d = e) ∧
      (cfg.delimiter = none → (p.lines = none ∨ p.lines = some []) → d = 44) ∧
      (cfg.delimiter = none → ∀ l ls, p.lines = some (l :: ls) →
        d ∈ [(44 : Byte), 9, 32] ∧ ((∀ c ∈ l, c.toNat < 256) → PreferredDelimiter l d)) ∧
      (cfg.hasHeader = .yes → hh = true) ∧ (cfg.hasHeader = .no → hh = false) ∧
      (cfg.hasHeader = .auto → (hh = true ↔ ∃ l1 l2 ls t1 t2, p.lines = some (l1 :: l2 :: ls) ∧
        TypesOfLine env.isF64 (Char.ofNat d.toNat) l1 t1 ∧ TypesOfLine env.isF64 (Char.ofNat d.toNat) l2 t2 ∧ t1 ≠ t2)) := by
  have hd : ∃ d, csvDelimiter cfg.delimiter (p.lines.bind (·[0]?)) = .ok d := by
    unfold csvDelimiter
    cases cfg.delimiter with
    | some e => exact ⟨e, rfl⟩
    | none =>
      cases p.lines.bind (·[0]?) with
      | none => exact ⟨44, rfl⟩
      | some l =>
        obtain ⟨d, _, h, _⟩ := (C05_always_a_candidate l csvDelimiters).2 (by decide)
        exact ⟨d, h⟩
  obtain ⟨d, hd⟩ := hd
  refine ⟨d, csvHasHeader env.isF64 cfg.hasHeader (p.lines.bind (·[0]?)) (p.lines.bind (·[1]?)) d, ?_, ?_, ?_, ?_, ?_, ?_, ?_⟩
  · unfold csvOpen
    simp only [hd, Res.bind_ok, show ∀ x, csvDelimiter (some d) x = .ok d from fun _ => rfl]
    cases csvHasHeader env.isF64 cfg.hasHeader (p.lines.bind (·[0]?)) (p.lines.bind (·[1]?)) d <;> rfl
  · intro e he
    rw [he] at hd
    simp only [csvDelimiter, Res.ok.injEq] at hd
    exact hd.symm
  · intro h0 hl
    rcases hl with hl | hl <;> rw [h0, hl] at hd <;> simp [csvDelimiter] at hd <;> exact hd.symm
  · intro h0 l ls hl
    rw [h0, hl] at hd
    simp only [csvDelimiter, Option.bind_some, List.getElem?_cons_zero] at hd
    have hm : d ∈ [(44 : Byte), 9, 32] := by
      obtain ⟨d', i, h, h', _⟩ := (C05_always_a_candidate l csvDelimiters).2 (by decide)
      rw [hd] at h
      simp only [Res.ok.injEq] at h
      subst h
      exact List.mem_of_getElem? h'
    refine ⟨hm, fun hc => ?_⟩
    obtain ⟨d', i, h, h', hall⟩ := C05_most_frequent_partial l csvDelimiters (by decide) hc
    rw [hd] at h
    simp only [Res.ok.injEq] at h
    subst h
    have h0 := hall 0 44 rfl
    have h1 := hall 1 9 rfl
    have h2 := hall 2 32 rfl
    have hi : i = 0 ∧ d = 44 ∨ i = 1 ∧ d = 9 ∨ i = 2 ∧ d = 32 := by
      match i, h' with
      | 0, h' => exact .inl ⟨rfl, by simpa [csvDelimiters] using h'.symm⟩
      | 1, h' => exact .inr (.inl ⟨rfl, by simpa [csvDelimiters] using h'.symm⟩)
      | 2, h' => exact .inr (.inr ⟨rfl, by simpa [csvDelimiters] using h'.symm⟩)
      | (n + 3), h' => simp [csvDelimiters] at h'
    refine ⟨hm, fun h => ?_, fun h => ?_, fun h => ?_⟩ <;> rcases hi with ⟨rfl, rfl⟩ | ⟨rfl, rfl⟩ | ⟨rfl, rfl⟩ <;> first | rfl | omega
  · intro h; rw [h]; rfl
  · intro h; rw [h]; rfl
  · intro h
    rw [h]
    simp only [csvHasHeader]
    rw [C07_header]
    constructor
    · rintro ⟨a, b, ta, tb, h1, h2, h3, h4, h5⟩
      cases hl : p.lines with
      | none => rw [hl] at h1; cases h1
      | some ls =>
        rw [hl] at h1 h2
        match ls, h1, h2 with
        | [], h1, _ => cases h1
        | [_], _, h2 => cases h2
        | l1 :: l2 :: ls, h1, h2 =>
          simp only [Option.bind_some, List.getElem?_cons_zero, List.getElem?_cons_succ, Option.some.injEq] at h1 h2
          subst h1 h2
          exact ⟨_, _, ls, ta, tb, rfl, h3, h4, h5⟩
    · rintro ⟨l1, l2, ls, t1, t2, hl, h3, h4, h5⟩
      rw [hl]
      exact ⟨l1, l2, t1, t2, rfl, rfl, h3, h4, h5⟩

/-- A line where TAB wins over comma. -/
example : PreferredDelimiter "a\tb\tc,d".toList 9 := by unfold PreferredDelimiter; decide

end Chopper.Props
