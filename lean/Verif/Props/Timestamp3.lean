import Verif.Props.Timestamp

/-! # C14: which timestamp format is detected -/
namespace Chopper.Props
open Chopper Spec

theorem fromLocal_cases {lib : DateLib} (tz : ChopperTz lib) (x : lib.Naive) :
    (∃ i, fromLocalDatetime tz x = .ok i ∧ Exists tz x) ∨ (∃ e, fromLocalDatetime tz x = .err e ∧ ¬ Exists tz x) := by
  cases htz : tz with
  | none => exact .inr ⟨_, rfl, by rintro ⟨z, i, h, _⟩; cases h⟩
  | some zone =>
    cases hz : zone x with
    | none => exact .inr ⟨.custom "Converting in timezone to timestamp failed.", by simp [fromLocalDatetime, hz], by rintro ⟨z, i, h, h'⟩; cases h; rw [hz] at h'; cases h'⟩
    | some i => exact .inl ⟨i, by simp [fromLocalDatetime, hz], zone, i, rfl, hz⟩

theorem tryNaive_cases (lib : DateLib) (tz : ChopperTz lib) (text : Str) : ∀ (pre rest : List Str), NoFormat lib pre text →
    (NoFormat lib (pre ++ rest) text ∧ tryNaiveFormats lib tz text rest = none) ∨
    (∃ f x, FirstFormat lib (pre ++ rest) text f x ∧ tryNaiveFormats lib tz text rest = some ((fromLocalDatetime tz x).bind fun _ => .ok (.dateTimeNeedsExternalTz f)))
  | pre, [], hpre => .inl ⟨by simpa using hpre, rfl⟩
  | pre, f :: fs, hpre => by
    simp only [tryNaiveFormats]
    cases hf : lib.parseNaive f text with
    | none =>
      simp only
      have := tryNaive_cases lib tz text (pre ++ [f]) fs (by
        intro g hg
        rcases List.mem_append.1 hg with h | h
        · exact hpre g h
        · simp at h; subst h; exact hf)
      simpa using this
    | some x =>
      refine .inr ⟨f, x, ⟨pre.length, by simp, hf, ?_⟩, rfl⟩
      intro j g hj hg
      rw [List.getElem?_append_left hj] at hg
      exact hpre g (List.mem_of_getElem? hg)

theorem detectUnits_cases (text : Str) :
    (∃ u, Digits text ∧ InWindow u (decimalValue text) ∧ detectUnits text = .ok (.units u)) ∨
    ((Digits text → ∀ u, ¬ InWindow u (decimalValue text)) ∧ ∃ e, detectUnits text = .err e) := by
  by_cases hd : Digits text
  · by_cases hw : ∃ u, InWindow u (decimalValue text)
    · obtain ⟨u, hw⟩ := hw
      refine .inl ⟨u, hd, hw, ?_⟩
      have h := (C09_same_as_csv .wraps noLib none text u hd hw rfl (fun _ _ => rfl) rfl).1
      have e : getTimestampFmtAuto noLib none [text] none (.index 0) = detectFmt noLib none text := rfl
      rw [e] at h
      exact h
    · have hw : ∀ u, ¬ InWindow u (decimalValue text) := fun u h => hw ⟨u, h⟩
      refine .inr ⟨fun _ => hw, ?_⟩
      unfold detectUnits
      rw [if_pos (digits_all hd), parseU64_digits hd]
      by_cases hlt : decimalValue text < 2 ^ 64
      · rw [if_pos hlt]
        have hn : (BitVec.ofNat 64 (decimalValue text)).toNat = decimalValue text := by rw [BitVec.toNat_ofNat, Nat.mod_eq_of_lt hlt]
        obtain ⟨i1, i2, i3, i4⟩ := inRange_iff (BitVec.ofNat 64 (decimalValue text))
        rw [hn] at i1 i2 i3 i4
        simp only
        rw [if_neg (fun h => hw _ (i1.1 h)), if_neg (fun h => hw _ (i2.1 h)), if_neg (fun h => hw _ (i3.1 h)), if_neg (fun h => hw _ (i4.1 h))]
        exact ⟨_, rfl⟩
      · rw [if_neg hlt]; exact ⟨_, rfl⟩
  · refine .inr ⟨fun h => absurd h hd, ?_⟩
    cases hr : detectUnits text with
    | ok f => obtain ⟨u, _, h1, _⟩ := detectUnits_ok hr; exact absurd h1 hd
    | err e => exact ⟨e, rfl⟩
    | panic =>
      unfold detectUnits at hr
      repeat' split at hr
      all_goals cases hr
    | diverge =>
      unfold detectUnits at hr
      repeat' split at hr
      all_goals cases hr

/-- **C14 (one column).** With automatic format, and no unit known from the column name, the format of a timestamp column is the one the text of the first row says: ISO 8601 with
offset, else the first of four formats that fits, else a date, else the unit whose window contains the number; otherwise, and if the local time does not exist, opening fails. -/
theorem C14_one_column (lower : Str → Str) (lib : DateLib) (tz : ChopperTz lib) (names firstRow : List Str) (colCfg : TimestampColConfig) (c : Nat) (text : Str)
    (hcol : getTimestampCol lower names colCfg = .ok (.index c, none)) (ht : firstRow[c]? = some text) :
    ∃ o, DetectedOne lib tz text o ∧ Gives (.index c) o (getTimestampColAndFmt lower lib tz names firstRow colCfg .auto) := by
  have e : getTimestampColAndFmt lower lib tz names firstRow colCfg .auto = (detectFmt lib tz text).bind fun fmt => .ok (.index c, fmt) := by
    unfold getTimestampColAndFmt
    rw [hcol]
    simp only [Res.bind_ok, getTimestampFmtAuto, ht]
    rfl
  rw [e]
  unfold detectFmt
  rw [iso_eq]
  cases hp : lib.parseTz "%+".toList text with
  | some i => exact ⟨_, .iso hp, rfl⟩
  | none =>
    simp only [Option.isSome_none, Bool.false_eq_true, if_false]
    have hf : timeFormats = oneColumnFormats := by decide
    rw [hf]
    rcases tryNaive_cases lib tz text [] oneColumnFormats (by intro _ h; cases h) with ⟨h1, h2⟩ | ⟨f, x, h1, h2⟩
    · rw [h2]
      have hd : fmtDate = "%Y%m%d".toList := by decide
      simp only [hd]
      cases hx : lib.parseDate "%Y%m%d".toList text with
      | some x =>
        simp only
        rcases fromLocal_cases tz x with ⟨i, g1, g2⟩ | ⟨er, g1, g2⟩
        · rw [g1]; exact ⟨_, .date hp h1 hx g2, rfl⟩
        · rw [g1]; exact ⟨_, .badDate hp h1 hx g2, _, rfl⟩
      | none =>
        simp only
        rcases detectUnits_cases text with ⟨u, g1, g2, g3⟩ | ⟨g1, er, g2⟩
        · rw [g3]; exact ⟨_, .epoch hp h1 hx g1 g2, rfl⟩
        · rw [g2]; exact ⟨_, .unknown hp h1 hx g1, _, rfl⟩
    · rw [h2]
      simp only
      rcases fromLocal_cases tz x with ⟨i, g1, g2⟩ | ⟨er, g1, g2⟩
      · rw [g1]; exact ⟨_, .local hp h1 g2, rfl⟩
      · rw [g1]; exact ⟨_, .badLocal hp h1 g2, _, rfl⟩

/-- **C14 (two columns).** The same for a date and a time column, for which there are four other formats, without epoch values and offsets. -/
theorem C14_two_columns (lower : Str → Str) (lib : DateLib) (tz : ChopperTz lib) (names firstRow : List Str) (colCfg : TimestampColConfig) (d t : Nat) (date time : Str)
    (hcol : getTimestampCol lower names colCfg = .ok (.dateTimeIndex d t, none)) (hd : firstRow[d]? = some date) (ht : firstRow[t]? = some time) :
    ∃ o, DetectedTwo lib tz (date ++ "#".toList ++ time) o ∧ Gives (.dateTimeIndex d t) o (getTimestampColAndFmt lower lib tz names firstRow colCfg .auto) := by
  have ej : date ++ "#".toList ++ time = date ++ '#' :: time := by simp
  rw [ej]
  have e : getTimestampColAndFmt lower lib tz names firstRow colCfg .auto = ((tryNaiveFormats lib tz (date ++ '#' :: time) dateTimeFormats).getD
      (.err (.custom "Cannot parse timestamp. Please provide format for parsing."))).bind fun fmt => .ok (.dateTimeIndex d t, fmt) := by
    unfold getTimestampColAndFmt
    rw [hcol]
    simp only [Res.bind_ok, getTimestampFmtAuto, hd, ht]
    rfl
  have hf : dateTimeFormats = twoColumnFormats := by decide
  rw [e, hf]
  rcases tryNaive_cases lib tz (date ++ '#' :: time) [] twoColumnFormats (by intro _ h; cases h) with ⟨h1, h2⟩ | ⟨f, x, h1, h2⟩
  · rw [h2]; exact ⟨_, .unknown h1, _, rfl⟩
  · rw [h2]
    simp only [Option.getD_some]
    rcases fromLocal_cases tz x with ⟨i, g1, g2⟩ | ⟨er, g1, g2⟩
    · rw [g1]; exact ⟨_, .local h1 g2, rfl⟩
    · rw [g1]; exact ⟨_, .badLocal h1 g2, _, rfl⟩

/-- **C14 (user's format).** For a format given by the user, the first row decides whether it has an offset, is a date and time or a date only; if it is none of them, opening fails.
For two columns the formats are joined with `#` as the texts are. -/
theorem C14_user_format (lower : Str → Str) (lib : DateLib) (tz : ChopperTz lib) (names firstRow : List Str) (colCfg : TimestampColConfig) (col : TimestampCol) (hint : Option TimestampUnits)
    (text : Str) (hcol : getTimestampCol lower names colCfg = .ok (col, hint)) (ht : ColText firstRow col text) :
    (∀ f, ∃ o, DetectedUser lib tz f text o ∧ Gives col o (getTimestampColAndFmt lower lib tz names firstRow colCfg (.explicit f))) ∧
    (∀ fd ft, ∃ o, DetectedUser lib tz (fd ++ "#".toList ++ ft) text o ∧ Gives col o (getTimestampColAndFmt lower lib tz names firstRow colCfg (.dateTimeExplicit fd ft))) ∧
    (∀ u, getTimestampColAndFmt lower lib tz names firstRow colCfg (.epoch u) = .ok (col, .units u)) := by
  have hs : getTimestampString firstRow col = .ok text := by
    cases ht with
    | one h => simp [getTimestampString, h]
    | two h1 h2 => simp [getTimestampString, h1, h2]
  have key : ∀ f, ∃ o, DetectedUser lib tz f text o ∧ Gives col o ((getTimestampFmtFromUserSpec lib tz firstRow col f).bind fun fmt => .ok (col, fmt)) := by
    intro f
    unfold getTimestampFmtFromUserSpec
    rw [hs, Res.bind_ok]
    cases hp : lib.parseTz f text with
    | some i => exact ⟨_, .offset hp, rfl⟩
    | none =>
      simp only [Option.isSome_none, Bool.false_eq_true, if_false]
      cases hn : lib.parseNaive f text with
      | some x =>
        simp only
        rcases fromLocal_cases tz x with ⟨i, g1, g2⟩ | ⟨er, g1, g2⟩
        · rw [g1]; exact ⟨_, .local hp hn g2, rfl⟩
        · rw [g1]; exact ⟨_, .badLocal hp hn g2, _, rfl⟩
      | none =>
        simp only
        cases hx : lib.parseDate f text with
        | some x =>
          simp only
          rcases fromLocal_cases tz x with ⟨i, g1, g2⟩ | ⟨er, g1, g2⟩
          · rw [g1]; exact ⟨_, .date hp hn hx g2, rfl⟩
          · rw [g1]; exact ⟨_, .badDate hp hn hx g2, _, rfl⟩
        | none => exact ⟨_, .unknown hp hn hx, _, rfl⟩
  refine ⟨fun f => ?_, fun fd ft => ?_, fun u => ?_⟩
  · have := key f
    unfold getTimestampColAndFmt
    rw [hcol, Res.bind_ok]
    exact this
  · have := key (fd ++ '#' :: ft)
    have ej : fd ++ "#".toList ++ ft = fd ++ '#' :: ft := by simp
    rw [ej]
    unfold getTimestampColAndFmt
    rw [hcol, Res.bind_ok]
    exact this
  · unfold getTimestampColAndFmt
    rw [hcol, Res.bind_ok]
    rfl

/-- A library that knows one of the formats for date and time columns. -/
def hashLib : DateLib := ⟨Unit, fun _ _ => none, fun f t => if f = "%Y%m%d#%H:%M:%S".toList && t.contains '#' then some () else none, fun _ _ => none⟩

example : getTimestampCol id ["date".toList, "time".toList] .auto = .ok (.dateTimeIndex 0 1, none) ∧
    getTimestampColAndFmt id hashLib (some fun _ => some ⟨5, 0⟩) ["date".toList, "time".toList] ["a".toList, "b".toList] .auto .auto =
      .ok (.dateTimeIndex 0 1, .dateTimeNeedsExternalTz "%Y%m%d#%H:%M:%S".toList) ∧
    getTimestampColAndFmt id hashLib none ["date".toList, "time".toList] ["a".toList, "b".toList] .auto .auto ≠ .ok (.dateTimeIndex 0 1, .dateTimeNeedsExternalTz "%Y%m%d#%H:%M:%S".toList) := by
  decide +kernel

end Chopper.Props
