import Verif.Proofs.CsvRead2
import Verif.Props.CsvRead

/-! # C86: automatic settings and CSV written by the tool -/
namespace Chopper.Props
open Chopper Chopper.Spec

/-- Automatic settings for everything. -/
def autoCfg {lib : DateLib} (tz : ChopperTz lib) : CsvInputConfig lib := ⟨none, .auto, .auto, .auto, tz⟩

/-- The date library takes no text of nine or more digits for a date. -/
def DigitsAreNoDate (lib : DateLib) : Prop := ∀ t, Digits t → 9 ≤ t.length →
  lib.parseTz "%+".toList t = none ∧ (∀ f ∈ oneColumnFormats, lib.parseNaive f t = none) ∧ lib.parseDate "%Y%m%d".toList t = none

/-- ASCII texts are lower-cased letter by letter. -/
def LowersAscii (lower : Str → Str) : Prop := ∀ s : Str, (∀ c ∈ s, c.toNat < 128) → lower s = s.map Char.toLower

/-- **C86, stated in full**: CSV written with times as numbers under the default name, otherwise as in C85, is read again with all settings automatic. -/
def C86_full : Prop := ∀ (env : CsvEnv) (ff : FloatFmt) (u : TimestampUnits) (tz : ChopperTz env.lib) (names : List Str) (rows : List Row) (body : Str) (inner : Inner),
  ReadsPlain env.csv → DigitsAreNoDate env.lib → env.isF64 (defaultTimeName .epoch u).toList = false →
  LowersAscii env.lower →
  CsvLines ff (.new [','] true none .epoch u none) rows body → names ≠ [] → rows ≠ [] → (∀ r ∈ rows, r.values.length = names.length) →
  (∀ n ∈ names, PlainField ',' n) → (∀ r ∈ rows, ∀ v ∈ r.values, PlainValue ff ',' v) → NoFail inner →
  inner.data = utf8Encode (csvHeaderText (.new [','] true none .epoch u none) names ++ body) →
  ReadsBack env ff (.new [','] true none .epoch u none) (autoCfg tz) names rows inner

theorem decimalValue_lt : ∀ t : Str, (∀ c ∈ t, c.toNat ≤ 57) → decimalValue t < 10 ^ t.length
  | [], _ => by decide
  | c :: cs, h => by
    have ih := decimalValue_lt cs (fun x hx => h x (by simp [hx]))
    have hc := h c (by simp)
    simp only [decimalValue, List.length_cons, Nat.pow_succ]
    have : (c.toNat - 48) * 10 ^ cs.length ≤ 9 * 10 ^ cs.length := Nat.mul_le_mul_right _ (by omega)
    omega

theorem window_digits {u : TimestampUnits} {t : Str} (hd : Digits t) (hw : InWindow u (decimalValue t)) : 9 ≤ t.length ∧ decimalValue t < 2 ^ 63 := by
  have h1 := decimalValue_lt t (fun c hc => (hd.2 c hc).2)
  have h2 : 630000000 ≤ decimalValue t ∧ decimalValue t < 2 ^ 63 := by
    obtain ⟨h3, h4⟩ := hw
    cases u <;> simp only [nanosPer] at h3 h4 <;> omega
  refine ⟨?_, h2.2⟩
  apply Classical.byContradiction
  intro hl
  have : 10 ^ t.length ≤ 10 ^ 8 := Nat.pow_le_pow_right (by decide) (by omega)
  omega

theorem occurrences_zero {b : Byte} {row : Str} (h : Char.ofNat b.toNat ∉ row) : occurrences b row = 0 := List.count_eq_zero.2 h

/-- If two line ends lie in the first `n` bytes, then so do the first two lines. -/
theorem two_lines {d : Char} (hdn : d ≠ '\n') {l1 l2 : List Str} {ls : List (List Str)} {data : List Byte} {n : Nat}
    (hp : ∀ l ∈ l1 :: l2 :: ls, ∀ t ∈ l, '\n' ∉ t) (hdata : data = utf8Encode (csvText d (l1 :: l2 :: ls))) (hc : 2 ≤ (data.take n).count 10) :
    (utf8Encode (csvText d ((l1 :: l2 :: ls).take 2))).length ≤ n := by
  apply Classical.byContradiction
  intro hlt
  have none : ∀ l ∈ l1 :: l2 :: ls, (utf8Encode (joinChar d l)).count 10 = 0 := by
    intro l hl
    rw [List.count_eq_zero]
    exact ascii_notin_encode (d := '\n') (by decide) (by decide) (joinChar_notin hdn.symm (hp l hl))
  have e : utf8Encode (csvText d (l1 :: l2 :: ls)) = (utf8Encode (joinChar d l1) ++ [10] ++ utf8Encode (joinChar d l2)) ++ ([10] ++ utf8Encode (csvText d ls)) := by
    rw [csvText_bytes]
    simp [csvText_bytes]
  have e2 : utf8Encode (csvText d ((l1 :: l2 :: ls).take 2)) = (utf8Encode (joinChar d l1) ++ [10] ++ utf8Encode (joinChar d l2)) ++ [10] := by
    rw [csvText_bytes]
    simp [csvText_bytes]
  rw [e2, List.length_append, List.length_singleton] at hlt
  rw [hdata, e, List.take_append_of_le_length (by omega)] at hc
  have := (List.take_sublist n (utf8Encode (joinChar d l1) ++ [10] ++ utf8Encode (joinChar d l2))).count_le (10 : Byte)
  rw [List.count_append, List.count_append, none l1 (by simp), none l2 (by simp)] at this
  have h1 : List.count (10 : Byte) [10] = 1 := by decide
  omega

theorem auto_as_explicit (env : CsvEnv) (hc : ReadsPlain env.csv) (ff : FloatFmt) (cfg : CsvOutputConfig) (tz : ChopperTz env.lib) (hint : Option TimestampUnits) (v : TimestampUnits)
    (hlib : DigitsAreNoDate env.lib)
    (hd : cfg.delimiter = [',']) (hp : cfg.printTimeCol = true) (hs : cfg.style = .epoch) (names : List Str) (r : Row) (rows : List Row) (body : Str)
    (hl : CsvLines ff cfg (r :: rows) body) (hn : names ≠ [])
    (ht : PlainField ',' cfg.timeColName ∧ cfg.timeColName ≠ [] ∧ cfg.timeColName.head? ≠ some '\uFEFF') (hnp : ∀ n ∈ names, PlainField ',' n)
    (hv : ∀ x ∈ r :: rows, ∀ v ∈ x.values, PlainValue ff ',' v) (inner : Inner) (hi : NoFail inner) (hdata : inner.data = utf8Encode (csvHeaderText cfg names ++ body))
    (hchars : ∀ n ∈ cfg.timeColName :: names, ∀ c ∈ n, c.toNat < 256 ∧ c ≠ ' ' ∧ c ≠ '\t')
    (hnum : ¬ DenotesI64 cfg.timeColName ∧ env.isF64 cfg.timeColName = false)
    (hchosen : Chosen ((cfg.timeColName :: names).map env.lower) (.index 0) hint) (hhint : ∀ u, hint = some u → u = v)
    (hwin : InWindow v (r.timestamp.toNat / nanosPer cfg.units))
    (hfit : 2 ≤ (inner.data.take defaultBufSize).count 10) :
    ∃ p t texts rest, Previewer.new defaultBufSize inner = .ok p ∧ csvOpen env (autoCfg tz) p = csvOpen env ⟨some 44, .yes, .index 0, .epoch v, tz⟩ p ∧
      env.csv.parse 44 true p.reader = ⟨.ok (cfg.timeColName :: names), .ok (t :: texts) :: rest⟩ ∧ Digits t ∧ decimalValue t = r.timestamp.toNat / nanosPer cfg.units ∧
      rest.length = rows.length := by
  obtain ⟨recs, p, hdata2, hplain, hrl, hrec, hpn, hlines, hparse⟩ := csv_written env hc hd hp hs names (r :: rows) body hl hn ht hnp hv inner hi hdata
  obtain ⟨first, rest, rfl⟩ : ∃ f l, recs = f :: l := by
    cases recs with
    | nil => simp at hrl
    | cons f l => exact ⟨f, l, rfl⟩
  obtain ⟨t, texts, ht1, ht2, htv, rfl⟩ := hrec 0 r first rfl rfl
  have hwin' : InWindow v (decimalValue t) := by rw [ht2]; exact hwin
  obtain ⟨hlen, hsmall⟩ := window_digits ht1 hwin'
  -- the previewed lines
  obtain ⟨k, hpl, hk⟩ := preview_lines (d := ',') (by decide) (by decide)
    (fun l hl t ht => ⟨(hplain.plain l hl t ht).noLf, (hplain.plain l hl t ht).noCr⟩) hdata2 hlines
  have hk2 : 2 ≤ k := hk 2 (by simp) (two_lines (by decide) (fun l hl t ht => (hplain.plain l hl t ht).noLf) hdata2 hfit)
  have hline : ∃ ls, p.lines = some (joinChar ',' (cfg.timeColName :: names) :: joinChar ',' (t :: texts) :: ls) := by
    rw [hpl]
    obtain ⟨k', rfl⟩ : ∃ k', k = k' + 2 := ⟨k - 2, by omega⟩
    exact ⟨_, rfl⟩
  obtain ⟨ls, hline⟩ := hline
  -- the settings found
  obtain ⟨d, hh, hopen, _, _, hdl, _, _, hhd⟩ := C75_auto_settings env (autoCfg tz) p
  have hd44 : d = 44 := by
    obtain ⟨_, h2⟩ := hdl rfl _ _ hline
    have hlat : ∀ c ∈ joinChar ',' (cfg.timeColName :: names), c.toNat < 256 := by
      have key : ∀ l : List Str, (∀ n ∈ l, ∀ c ∈ n, c.toNat < 256) → ∀ c ∈ joinChar ',' l, c.toNat < 256 := by
        intro l
        induction l with
        | nil => intro _ c hc; cases hc
        | cons n l ih =>
          intro h c hc
          cases l with
          | nil => exact h n (by simp) c hc
          | cons m l =>
            simp only [joinChar, List.mem_append, List.mem_cons] at hc
            rcases hc with hc | rfl | hc
            · exact h n (by simp) c hc
            · decide
            · exact ih (fun x hx => h x (by simp only [List.mem_cons] at hx ⊢; exact .inr hx)) c hc
      exact key _ fun n hn c hc => (hchars n hn c hc).1
    have h0 : occurrences 9 (joinChar ',' (cfg.timeColName :: names)) = 0 :=
      occurrences_zero (joinChar_notin (by decide) fun n hn hc => (hchars n hn _ hc).2.2 (by decide))
    have h1 : occurrences 32 (joinChar ',' (cfg.timeColName :: names)) = 0 :=
      occurrences_zero (joinChar_notin (by decide) fun n hn hc => (hchars n hn _ hc).2.1 (by decide))
    exact (h2 hlat).2.1 ⟨by omega, by omega⟩
  subst hd44
  have hhh : hh = true := by
    rw [hhd rfl]
    refine ⟨_, _, _, _, _, hline, (typesOfLine_iff env.isF64 44 _ _).2 rfl, (typesOfLine_iff env.isF64 44 _ _).2 rfl, ?_⟩
    have hsplit : ∀ l ∈ (cfg.timeColName :: names) :: (t :: texts) :: rest, l ≠ [] → splitChar (Char.ofNat (44 : Byte).toNat) (joinChar ',' l) = l := by
      intro l hl hne
      exact splitChar_join hne fun f hf => (hplain.plain l hl f hf).noDelim
    unfold lineTypes
    rw [hsplit _ (by simp) (by simp), hsplit (t :: texts) (by simp) (by simp)]
    have e1 : guessType env.isF64 (trim cfg.timeColName) = .string := by
      rw [trim_self ht.1.trimmed]
      exact (C07_type_of_text env.isF64 _ _).1 hnum
    have e2 : guessType env.isF64 (trim t) = .long := by
      rw [trim_self (digits_plain ht1).trimmed]
      exact (C07_type_of_text env.isF64 _ _).1 (.inl ⟨t, .inl rfl, ht1, hsmall⟩)
    simp only [List.map_cons, e1, e2]
    intro h
    cases h
  subst hhh
  -- the column and the format found
  have hcol := (C13_chosen env.lower (cfg.timeColName :: names) (.index 0) hint).2 hchosen
  have hfmt : getTimestampColAndFmt env.lower env.lib tz (cfg.timeColName :: names) (t :: texts) .auto .auto = .ok (.index 0, .units v) := by
    unfold getTimestampColAndFmt
    rw [hcol, Res.bind_ok]
    have : getTimestampFmtAuto env.lib tz (t :: texts) hint (.index 0) = .ok (.units v) := by
      cases hint with
      | some u => rw [hhint u rfl]; rfl
      | none =>
        obtain ⟨g1, g2, g3⟩ := hlib t ht1 hlen
        exact (C09_same_as_csv env.ov env.lib tz t v ht1 hwin' g1 g2 g3).1
    simp only [this, Res.bind_ok]
  refine ⟨p, t, texts, rest.map .ok, hpn, ?_, hparse, ht1, ht2, by simpa using hrl⟩
  rw [hopen]
  unfold csvOpen
  simp only [csvDelimiter, Res.bind_ok, csvHasHeader, if_true, autoCfg, hparse]
  simp only [csvStart, List.map_cons, Res.bind_ok, csvNames, if_true, hfmt]
  rw [show getTimestampColAndFmt env.lower env.lib tz (cfg.timeColName :: names) (t :: texts) (.index 0) (.epoch v) = .ok (.index 0, .units v) from rfl]
  rfl

/-- **C86 (partial).** True if the names have only characters below U+0100 and no white space, the first column is the one that automatic selection chooses, the first time
lies between December 1989 and 2033, and the first two lines fit into the preview. -/
theorem C86_auto_partial (env : CsvEnv) (hc : ReadsPlain env.csv) (ff : FloatFmt) (cfg : CsvOutputConfig) (tz : ChopperTz env.lib) (hint : Option TimestampUnits)
    (hlib : DigitsAreNoDate env.lib)
    (hd : cfg.delimiter = [',']) (hp : cfg.printTimeCol = true) (hs : cfg.style = .epoch) (names : List Str) (r : Row) (rows : List Row) (body : Str)
    (hl : CsvLines ff cfg (r :: rows) body) (hn : names ≠ []) (hw : ∀ x ∈ r :: rows, x.values.length = names.length)
    (ht : PlainField ',' cfg.timeColName ∧ cfg.timeColName ≠ [] ∧ cfg.timeColName.head? ≠ some '\uFEFF') (hnp : ∀ n ∈ names, PlainField ',' n)
    (hv : ∀ x ∈ r :: rows, ∀ v ∈ x.values, PlainValue ff ',' v) (inner : Inner) (hi : NoFail inner) (hdata : inner.data = utf8Encode (csvHeaderText cfg names ++ body))
    (hchars : ∀ n ∈ cfg.timeColName :: names, ∀ c ∈ n, c.toNat < 256 ∧ c ≠ ' ' ∧ c ≠ '\t')
    (hnum : ¬ DenotesI64 cfg.timeColName ∧ env.isF64 cfg.timeColName = false)
    (hchosen : Chosen ((cfg.timeColName :: names).map env.lower) (.index 0) hint) (hhint : ∀ u, hint = some u → u = cfg.units)
    (hwin : 630000000 * 10 ^ 9 + 10 ^ 9 ≤ r.timestamp.toNat ∧ r.timestamp.toNat < 2000000000 * 10 ^ 9)
    (hfit : 2 ≤ (inner.data.take defaultBufSize).count 10) :
    ReadsBack env ff cfg (autoCfg tz) names (r :: rows) inner := by
  have hpos : 0 < nanosPer cfg.units := by cases cfg.units <;> decide
  have hwin' : InWindow cfg.units (r.timestamp.toNat / nanosPer cfg.units) := by
    have hle := Nat.div_mul_le_self r.timestamp.toNat (nanosPer cfg.units)
    have hlt : r.timestamp.toNat < r.timestamp.toNat / nanosPer cfg.units * nanosPer cfg.units + nanosPer cfg.units := by
      have := Nat.lt_div_mul_add (a := r.timestamp.toNat) hpos
      omega
    have hu : nanosPer cfg.units ≤ 10 ^ 9 := by cases cfg.units <;> decide
    exact ⟨by omega, by omega⟩
  obtain ⟨p, t, texts, rest, hpn, hsame, _⟩ := auto_as_explicit env hc ff cfg tz hint cfg.units hlib hd hp hs names r rows body hl hn ht hnp hv inner hi hdata hchars hnum hchosen hhint
    hwin' hfit
  obtain ⟨p', src, rows', h1, h2, h3, h4⟩ := C85_file_partial env hc ff cfg ⟨some 44, .yes, .index 0, .epoch cfg.units, tz⟩ ⟨rfl, rfl, .inl rfl, rfl⟩ hd hp hs names (r :: rows) body hl hn
    (by simp) hw ht hnp hv inner hi hdata
  rw [hpn] at h1
  cases h1
  exact ⟨p, src, rows', hpn, by rw [hsame, h2], h3, h4⟩

/-- **C86 (wrong units).** If automatic selection takes the first column but knows no unit from its name, and the printed first time is a number in the window of another
unit, then the file (here: of one row) is read without complaint and the time is wrong. -/
theorem C86_misread (env : CsvEnv) (hc : ReadsPlain env.csv) (ff : FloatFmt) (cfg : CsvOutputConfig) (tz : ChopperTz env.lib) (v : TimestampUnits)
    (hlib : DigitsAreNoDate env.lib)
    (hd : cfg.delimiter = [',']) (hp : cfg.printTimeCol = true) (hs : cfg.style = .epoch) (names : List Str) (r : Row) (body : Str)
    (hl : CsvLines ff cfg [r] body) (hn : names ≠ [])
    (ht : PlainField ',' cfg.timeColName ∧ cfg.timeColName ≠ [] ∧ cfg.timeColName.head? ≠ some '\uFEFF') (hnp : ∀ n ∈ names, PlainField ',' n)
    (hv : ∀ v ∈ r.values, PlainValue ff ',' v) (inner : Inner) (hi : NoFail inner) (hdata : inner.data = utf8Encode (csvHeaderText cfg names ++ body))
    (hchars : ∀ n ∈ cfg.timeColName :: names, ∀ c ∈ n, c.toNat < 256 ∧ c ≠ ' ' ∧ c ≠ '\t')
    (hnum : ¬ DenotesI64 cfg.timeColName ∧ env.isF64 cfg.timeColName = false)
    (hchosen : Chosen ((cfg.timeColName :: names).map env.lower) (.index 0) none) (hwin : InWindow v (r.timestamp.toNat / nanosPer cfg.units)) (hne : v ≠ cfg.units)
    (hfit : 2 ≤ (inner.data.take defaultBufSize).count 10) :
    ∃ p src r', Previewer.new defaultBufSize inner = .ok p ∧ csvOpen env (autoCfg tz) p = .ok src ∧ (src.toFile env tz).source = ⟨[r'], .eof⟩ ∧
      r'.timestamp.toNat = r.timestamp.toNat / nanosPer cfg.units * nanosPer v ∧ r'.timestamp.toNat ≠ r.timestamp.toNat / nanosPer cfg.units * nanosPer cfg.units := by
  obtain ⟨p, t, texts, rest, hpn, hsame, hparse, ht1, ht2, hrest⟩ := auto_as_explicit env hc ff cfg tz none v hlib hd hp hs names r [] body hl hn ht hnp
    (by intro x hx; rw [List.mem_singleton] at hx; subst hx; exact hv) inner hi hdata hchars hnum hchosen
    (by intro u h; cases h) hwin hfit
  have hbound : decimalValue t * nanosPer v < 2 ^ 64 := by
    have := hwin.2
    rw [← ht2] at this
    omega
  obtain ⟨ts, hts, hval⟩ := (C11_units_partial env.ov env.lib tz v (t :: texts) 0 t rfl).1 t (.inl rfl) ht1 hbound
  have hopen : csvOpen env ⟨some 44, .yes, .index 0, .epoch v, tz⟩ p = .ok ⟨rest, ⟨cfg.timeColName :: names, List.replicate (t :: texts).length .string⟩, .index 0, .units v,
      ⟨ts, (t :: texts).map .string⟩, true⟩ := by
    unfold csvOpen
    simp only [csvDelimiter, Res.bind_ok, csvHasHeader, hparse]
    simp only [csvStart, Res.bind_ok, csvNames, if_true]
    rw [show getTimestampColAndFmt env.lower env.lib tz (cfg.timeColName :: names) (t :: texts) (.index 0) (.epoch v) = .ok (.index 0, .units v) from rfl]
    simp only [Res.bind_ok]
    unfold updateRow
    simp only [setValues_eq, List.length_replicate, Nat.le_refl, if_true, hts, Res.bind_ok]
    rw [overlay_all]
  have hne' : decimalValue t * nanosPer v ≠ decimalValue t * nanosPer cfg.units := by
    intro he
    have h1 : InWindow cfg.units (decimalValue t) := by
      rw [← ht2] at hwin
      unfold InWindow at hwin ⊢
      rw [← he]
      exact hwin
    rw [← ht2] at hwin
    exact hne (window_unique hwin h1)
  obtain rfl : rest = [] := List.length_eq_zero_iff.1 hrest
  refine ⟨p, _, ⟨ts, (t :: texts).map .string⟩, hpn, by rw [hsame, hopen], ?_, ?_, ?_⟩
  · simp [CsvSource.toFile, toSource, CsvSource.nextRow]
  · rw [hval, ht2]
  · rw [hval, ← ht2]; exact hne'

/-- Names that say nothing about time to the automatic selection. -/
structure NoTimeName (n : Str) : Prop where
  timeUnit : ¬ AnyTimeUnit n
  date : ¬ IsDateName n
  time : ¬ IsTimeName n
  prefTimeUnit : ¬ AnyPrefixTimeUnit n
  prefDate : ¬ AnyPrefixDate n
  prefTime : ¬ AnyPrefixTime n

/-- The tool's own default names are such names: the unit in them is not understood. -/
theorem default_noTimeName (u : TimestampUnits) : NoTimeName ((defaultTimeName .epoch u).toList.map Char.toLower) := by
  have hp : timeWord <+: (defaultTimeName .epoch u).toList.map Char.toLower := by
    cases u <;> exact List.isPrefixOf_iff_prefix.1 (by decide +kernel)
  refine ⟨?_, ?_, ?_, ?_, ?_, ?_⟩
  · rintro ⟨v, hv⟩
    have := congrArg List.length hv
    revert hv this
    unfold TimeUnit
    cases u <;> cases v <;> decide +kernel
  · unfold IsDateName; cases u <;> decide +kernel
  · unfold IsTimeName; cases u <;> decide +kernel
  · rintro ⟨v, q, _, h⟩; exact h hp
  · rintro ⟨q, _, _, h⟩; exact h hp
  · rintro ⟨q, _, _, h⟩; exact h hp

theorem chosen_default {n : Str} {names : List Str} {hint : Option TimestampUnits} (hn : NoTimeName n) :
    Chosen (n :: names) (.index 0) hint ↔ hint = none ∧ ∀ m ∈ names, NoTimeName m := by
  have no : ∀ P : Str → Prop, ¬ P n → ¬ Leftmost P (n :: names) 0 := by
    rintro P h ⟨⟨m, h1, h2⟩, _⟩
    cases h1
    exact h h2
  constructor
  · intro h
    cases h with
    | timeUnit h1 => exact absurd h1 (no _ hn.timeUnit)
    | date _ h1 => exact absurd h1 (no _ hn.date)
    | time _ _ h1 => exact absurd h1 (no _ hn.time)
    | prefTimeUnit _ _ _ h1 => exact absurd h1 (no _ hn.prefTimeUnit)
    | prefDate _ _ _ _ h1 => exact absurd h1 (no _ hn.prefDate)
    | prefTime _ _ _ _ _ h1 => exact absurd h1 (no _ hn.prefTime)
    | first h1 h2 h3 h4 h5 h6 =>
      exact ⟨rfl, fun m hm => ⟨h1 m (by simp [hm]), h2 m (by simp [hm]), h3 m (by simp [hm]), h4 m (by simp [hm]), h5 m (by simp [hm]), h6 m (by simp [hm])⟩⟩
  · rintro ⟨rfl, h⟩
    have all : ∀ m ∈ n :: names, NoTimeName m := by
      intro m hm
      rcases List.mem_cons.1 hm with rfl | hm
      · exact hn
      · exact h m hm
    exact .first (fun m hm => (all m hm).timeUnit) (fun m hm => (all m hm).date) (fun m hm => (all m hm).time) (fun m hm => (all m hm).prefTimeUnit)
      (fun m hm => (all m hm).prefDate) (fun m hm => (all m hm).prefTime)

/-- **C86 (default names).** With the tool's default name for the time column, automatic selection takes the first column exactly if no other name looks like a time,
and never knows the unit from the name. -/
theorem C86_default_column (lower : Str → Str) (hlow : LowersAscii lower) (u : TimestampUnits) (names : List Str) (hint : Option TimestampUnits) :
    getTimestampCol lower ((defaultTimeName .epoch u).toList :: names) .auto = .ok (.index 0, hint) ↔ hint = none ∧ ∀ n ∈ names, NoTimeName (lower n) := by
  rw [C13_chosen, List.map_cons, hlow _ (by cases u <;> decide +kernel), chosen_default (default_noTimeName u)]
  simp

/-! ### Example and counterexample -/

def lowEnv : CsvEnv := ⟨.panics, noLib, plainCsv, fun _ => false, fun s => s.map Char.toLower⟩
theorem noLib_digits : DigitsAreNoDate noLib := fun _ _ _ => ⟨rfl, fun _ _ => rfl, rfl⟩
/-- One row at the time `n`, written with the given units and read again. -/
def autoOut (u : TimestampUnits) : CsvOutputConfig := .new [','] true none .epoch u none
def autoRow (n : Nat) : Row := ⟨BitVec.ofNat 64 n, [.string ['x']]⟩
def autoBytes (u : TimestampUnits) (n : Nat) : Inner := ⟨utf8Encode (csvHeaderText (autoOut u) [['a']] ++ (csvRowsText plainFloats (autoOut u) [autoRow n]).1), [], none⟩

theorem plain_text : ∀ t : Str, t.all (fun c => decide (c ≠ ',' ∧ c ≠ '"' ∧ c ≠ '\n' ∧ c ≠ '\r' ∧ isWhite c = false)) = true → PlainField ',' t := by
  intro t ht
  rw [List.all_eq_true] at ht
  have ht' : ∀ c ∈ t, c ≠ ',' ∧ c ≠ '"' ∧ c ≠ '\n' ∧ c ≠ '\r' ∧ isWhite c = false := fun c hc => by simpa using ht c hc
  exact ⟨fun h => (ht' _ h).1 rfl, fun h => (ht' _ h).2.1 rfl, fun h => (ht' _ h).2.2.1 rfl, fun h => (ht' _ h).2.2.2.1 rfl, isTrimmed_self fun c hc => (ht' c hc).2.2.2.2⟩

theorem auto_lines (u : TimestampUnits) (n : Nat) : CsvLines plainFloats (autoOut u) [autoRow n] (csvRowsText plainFloats (autoOut u) [autoRow n]).1 := by
  refine (csvRows_lines plainFloats (autoOut u) (by intro _ h; cases h) _ ?_).2
  intro r hr v hv
  rw [List.mem_singleton] at hr
  subst hr
  have hv := List.mem_singleton.1 hv
  subst hv
  rintro (⟨b, hb⟩ | ⟨b, hb⟩) <;> cases hb

theorem auto_time_name (u : TimestampUnits) : PlainField ',' (autoOut u).timeColName ∧ (autoOut u).timeColName ≠ [] ∧ (autoOut u).timeColName.head? ≠ some '\uFEFF' := by
  cases u <;> exact ⟨plain_text _ (by decide +kernel), by decide +kernel, by decide +kernel⟩

theorem auto_chars (u : TimestampUnits) : ∀ n ∈ (autoOut u).timeColName :: [['a']], ∀ c ∈ n, c.toNat < 256 ∧ c ≠ ' ' ∧ c ≠ '\t' := by
  cases u <;> decide +kernel

theorem auto_chosen (u : TimestampUnits) : Chosen (((autoOut u).timeColName :: [['a']]).map lowEnv.lower) (.index 0) none := by
  have e : (autoOut u).timeColName = (defaultTimeName .epoch u).toList := by cases u <;> rfl
  rw [e]
  refine (C13_chosen _ _ _ _).1 ((C86_default_column lowEnv.lower (fun _ _ => rfl) u _ none).2 ⟨rfl, ?_⟩)
  intro n hn
  rw [List.mem_singleton] at hn
  subst hn
  have len : ∀ t : Str, 2 ≤ t.length → lowEnv.lower ['a'] ≠ t := by
    intro t ht he
    rw [← he] at ht
    exact absurd ht (by decide)
  refine ⟨?_, len _ (by decide), len _ (by decide), ?_, ?_, ?_⟩
  · rintro ⟨v, hv⟩; exact len _ (by simp [timeWord]) hv
  · rintro ⟨v, q, hv, _⟩; exact len _ (by simp [timeWord]; omega) hv
  · rintro ⟨q, hv, _⟩; exact len _ (by simp [dateWord]) hv
  · rintro ⟨q, hv, _⟩; exact len _ (by simp [timeWord]) hv

theorem auto_nofail (u : TimestampUnits) (n : Nat) : NoFail (autoBytes u n) := by
  rintro k (hk | hk) <;> cases hk

theorem auto_number (u : TimestampUnits) : ¬ DenotesI64 (autoOut u).timeColName ∧ lowEnv.isF64 (autoOut u).timeColName = false := by
  refine ⟨?_, rfl⟩
  have hh : (autoOut u).timeColName.head? = some 't' := by cases u <;> decide +kernel
  have hd : ∀ t : Str, t.head? = some 't' → ¬ Digits t := fun t h hd => absurd (hd.2 _ (List.mem_of_mem_head? h)).2 (by decide)
  rintro (⟨t, h | h, h2, _⟩ | ⟨t, h, _⟩)
  · exact hd t (h ▸ hh) h2
  · rw [h] at hh; cases hh
  · rw [h] at hh; cases hh

theorem auto_values (n : Nat) : ∀ v ∈ (autoRow n).values, PlainValue plainFloats ',' v := by
  intro v hv
  have hv := List.mem_singleton.1 hv
  subst hv
  exact plain_text _ (by decide +kernel)

/-- **C86 is false**: a row at one second after the epoch, written in nanoseconds, is read as a row in 2001. -/
theorem C86_counterexample : ¬ C86_full := by
  intro h
  obtain ⟨p, src, rows', h1, h2, h3, h4⟩ := h lowEnv plainFloats .nanos none [['a']] [autoRow 1000000000] _ (autoBytes .nanos 1000000000) plainCsv_reads noLib_digits
    rfl (fun _ _ => rfl) (auto_lines .nanos _) (by simp) (by simp)
    (by intro r hr; rw [List.mem_singleton] at hr; subst hr; rfl) (by intro n hn; rw [List.mem_singleton] at hn; subst hn; exact plain_text _ (by decide +kernel))
    (by intro r hr; rw [List.mem_singleton] at hr; subst hr; exact auto_values _) (auto_nofail _ _) rfl
  obtain ⟨p', src', r', g1, g2, g3, g4, g5⟩ := C86_misread lowEnv plainCsv_reads plainFloats (autoOut .nanos) none .seconds noLib_digits rfl rfl rfl [['a']] (autoRow 1000000000) _
    (auto_lines .nanos _) (by simp) (auto_time_name .nanos) (by intro n hn; rw [List.mem_singleton] at hn; subst hn; exact plain_text _ (by decide +kernel)) (auto_values _)
    (autoBytes .nanos 1000000000) (auto_nofail _ _) rfl (auto_chars .nanos) (auto_number .nanos) (auto_chosen .nanos) ⟨by decide, by decide⟩ (by decide) (by decide +kernel)
  rw [h1] at g1
  cases g1
  rw [h2] at g2
  cases g2
  rw [show src.toFile lowEnv none = _ from h3] at g3
  simp only [Source.mk.injEq] at g3
  rw [g3.1] at h4
  exact g5 (h4.2 0 _ r' rfl rfl).1

/-- The hypotheses are met: a row in 2017, written in milliseconds, is read again with automatic settings. -/
example : ReadsBack lowEnv plainFloats (autoOut .millis) (autoCfg none) [['a']] [autoRow 1500000000123456789] (autoBytes .millis 1500000000123456789) :=
  C86_auto_partial lowEnv plainCsv_reads plainFloats (autoOut .millis) none none noLib_digits rfl rfl rfl [['a']] (autoRow 1500000000123456789) [] _ (auto_lines .millis _) (by simp)
    (by intro r hr; rw [List.mem_singleton] at hr; subst hr; rfl) (auto_time_name .millis)
    (by intro n hn; rw [List.mem_singleton] at hn; subst hn; exact plain_text _ (by decide +kernel))
    (by intro r hr; rw [List.mem_singleton] at hr; subst hr; exact auto_values _) (autoBytes .millis 1500000000123456789) (auto_nofail _ _) rfl (auto_chars .millis) (auto_number .millis)
    (auto_chosen .millis) (by intro u h; cases h) (by decide) (by decide +kernel)

end Chopper.Props
