import Verif.Props.Timestamp

/-!
# Explicitly configured timestamp columns and formats (C73)
-/
namespace Chopper.Props
open Chopper Chopper.Spec

theorem unit_ends : ∀ u v : TimestampUnits, ∀ name : Str, unitName u <:+ name → unitName v <:+ name → u = v := by
  intro u v name ⟨a, ha⟩ ⟨b, hb⟩
  have hl : ∀ u v : TimestampUnits, u ≠ v → ∃ i, (unitName u).reverse[i]? ≠ (unitName v).reverse[i]? ∧ i < (unitName u).length ∧ i < (unitName v).length := by
    intro u v h
    cases u <;> cases v <;> first | exact absurd rfl h | exact ⟨1, by decide, by decide, by decide⟩ | exact ⟨4, by decide, by decide, by decide⟩ | exact ⟨2, by decide, by decide, by decide⟩ | exact ⟨3, by decide, by decide, by decide⟩
  apply Classical.byContradiction
  intro h
  obtain ⟨i, h1, h2, h3⟩ := hl u v h
  have e : (a ++ unitName u).reverse = (b ++ unitName v).reverse := by rw [ha, hb]
  have e := congrArg (fun l => l[i]?) e
  simp only [List.reverse_append] at e
  rw [List.getElem?_append_left (by simpa using h2), List.getElem?_append_left (by simpa using h3)] at e
  exact h1 e

theorem unitSuffixOf_iff (name : Str) (hint : Option TimestampUnits) : unitSuffixOf name = hint ↔ UnitAtEnd name hint := by
  have spec : ∀ p ∈ timestampUnits, p.2 = unitName p.1 := by decide
  have all : ∀ u : TimestampUnits, (u, unitName u) ∈ timestampUnits := by intro u; cases u <;> decide
  have pos : UnitAtEnd name (unitSuffixOf name) := by
    unfold unitSuffixOf
    cases h : timestampUnits.find? (fun p => p.2.isSuffixOf name) with
    | none =>
      intro u hu
      have := List.find?_eq_none.1 h _ (all u)
      exact this (List.isSuffixOf_iff_suffix.2 hu)
    | some p =>
      have h1 := List.find?_some h
      have h2 := List.mem_of_find?_eq_some h
      show unitName p.1 <:+ name
      rw [← spec p h2]
      exact List.isSuffixOf_iff_suffix.1 h1
  constructor
  · rintro rfl; exact pos
  · intro h
    cases hs : unitSuffixOf name with
    | none =>
      rw [hs] at pos
      cases hint with
      | none => rfl
      | some u => exact absurd h (pos u)
    | some v =>
      rw [hs] at pos
      cases hint with
      | none => exact absurd pos (h v)
      | some u => rw [unit_ends v u name pos h]

theorem getFieldIndex_iff (names : List Str) (n : Str) (i : Nat) : getFieldIndex names n = .ok i ↔ Leftmost (· = n) names i := by
  unfold getFieldIndex
  constructor
  · intro h
    cases hf : names.findIdx? (fun s => s == n) with
    | none => rw [hf] at h; simp [Res.okOr] at h
    | some k =>
      rw [hf] at h
      simp only [Res.okOr, Res.ok.injEq] at h
      subst h
      obtain ⟨h1, h2, h3⟩ := List.findIdx?_eq_some_iff_getElem.1 hf
      refine ⟨⟨names[k], by rw [List.getElem?_eq_getElem h1], by simpa using h2⟩, ?_⟩
      intro j m hj hm e
      have := h3 j hj
      obtain ⟨hj', em⟩ := List.getElem?_eq_some_iff.1 hm
      rw [em, e] at this
      simp at this
  · rintro ⟨⟨m, hm, rfl⟩, h2⟩
    obtain ⟨hi, em⟩ := List.getElem?_eq_some_iff.1 hm
    have : names.findIdx? (fun s => s == m) = some i := by
      rw [List.findIdx?_eq_some_iff_getElem]
      refine ⟨hi, by simp [em], ?_⟩
      intro j hj
      have := h2 j _ hj (List.getElem?_eq_getElem (by omega))
      simpa using this
    rw [this]; rfl

/-- **C73 (column).** An explicitly configured time column is exactly the one asked for; a name that does not occur is an error. -/
theorem C73_column (lower : Str → Str) (names : List Str) (cfg : TimestampColConfig) (hcfg : cfg ≠ .auto) :
    (∀ c hint, getTimestampCol lower names cfg = .ok (c, hint) ↔ ColumnFor names cfg c hint) ∧
    ((∀ c hint, ¬ ColumnFor names cfg c hint) → ∃ e, getTimestampCol lower names cfg = .err e) := by
  have key : ∀ c hint, getTimestampCol lower names cfg = .ok (c, hint) ↔ ColumnFor names cfg c hint := by
    intro c hint
    cases cfg with
    | auto => exact absurd rfl hcfg
    | index i =>
      simp only [getTimestampCol, Res.ok.injEq, Prod.mk.injEq]
      constructor
      · rintro ⟨rfl, rfl⟩
        cases h : names[i]? with
        | none => rw [List.getElem?_eq_none_iff] at h; exact .missing h
        | some n => exact .index h ((unitSuffixOf_iff n _).1 rfl)
      · intro h
        cases h with
        | index h1 h2 => exact ⟨rfl, by rw [h1]; exact (unitSuffixOf_iff _ _).2 h2⟩
        | missing h1 => exact ⟨rfl, by rw [List.getElem?_eq_none h1]; rfl⟩
    | dateTimeIndex d t =>
      simp only [getTimestampCol, Res.ok.injEq, Prod.mk.injEq]
      constructor
      · rintro ⟨rfl, rfl⟩; exact .indices
      · intro h; cases h; exact ⟨rfl, rfl⟩
    | name n =>
      simp only [getTimestampCol, Res.bind_eq_ok, Res.ok.injEq, Prod.mk.injEq]
      constructor
      · rintro ⟨i, h1, rfl, rfl⟩; exact .name ((getFieldIndex_iff _ _ _).1 h1) ((unitSuffixOf_iff _ _).1 rfl)
      · intro h
        cases h with
        | name h1 h2 => exact ⟨_, (getFieldIndex_iff _ _ _).2 h1, rfl, (unitSuffixOf_iff _ _).2 h2⟩
    | dateTimeName d t =>
      simp only [getTimestampCol, Res.bind_eq_ok, Res.ok.injEq, Prod.mk.injEq]
      constructor
      · rintro ⟨i, h1, j, h2, rfl, rfl⟩; exact .twoNames ((getFieldIndex_iff _ _ _).1 h1) ((getFieldIndex_iff _ _ _).1 h2)
      · intro h
        cases h with
        | twoNames h1 h2 => exact ⟨_, (getFieldIndex_iff _ _ _).2 h1, _, (getFieldIndex_iff _ _ _).2 h2, rfl, rfl⟩
  refine ⟨key, fun hno => ?_⟩
  have hnot : ∀ r, getTimestampCol lower names cfg ≠ .ok r := fun r h => hno r.1 r.2 ((key _ _).1 h)
  have hf : ∀ n, (∃ i, getFieldIndex names n = .ok i) ∨ ∃ e, getFieldIndex names n = .err e := by
    intro n
    unfold getFieldIndex
    cases names.findIdx? (fun s => s == n) <;> simp [Res.okOr]
  cases cfg with
  | auto => exact absurd rfl hcfg
  | index i => exact absurd rfl (hnot _)
  | dateTimeIndex d t => exact absurd rfl (hnot _)
  | name n =>
    rcases hf n with ⟨i, hi⟩ | ⟨e, he⟩
    · exact absurd (by simp only [getTimestampCol, hi]; rfl) (hnot (.index i, unitSuffixOf n))
    · exact ⟨e, by simp only [getTimestampCol, he]; rfl⟩
  | dateTimeName d t =>
    rcases hf d with ⟨i, hi⟩ | ⟨e, he⟩
    · rcases hf t with ⟨j, hj⟩ | ⟨e, he⟩
      · exact absurd (by simp only [getTimestampCol, hi, hj]; rfl) (hnot (.dateTimeIndex i j, none))
      · exact ⟨e, by simp only [getTimestampCol, hi, he]; rfl⟩
    · exact ⟨e, by simp only [getTimestampCol, he]; rfl⟩

/-- A format made from this format text: with a zone in the text, a local time, or a date. -/
def FormatFrom (f : Str) (fmt : TimestampFmt) : Prop :=
  fmt = .dateTimeIncludesTz f ∨ fmt = .dateTimeNeedsExternalTz f ∨ fmt = .dateNeedsExternalTz f

/-- **C73 (format).** The format of the time column is the configured one: epoch units as given, the explicit format text, the date and time formats joined
as date and time texts are; without configuration a unit in the name of a single column decides, whatever the values look like. -/
theorem C73_format (lower : Str → Str) (lib : DateLib) (tz : ChopperTz lib) (names firstRow : List Str) (colCfg : TimestampColConfig)
    (fmtCfg : TimestampFmtConfig) (col : TimestampCol) (fmt : TimestampFmt) (h : getTimestampColAndFmt lower lib tz names firstRow colCfg fmtCfg = .ok (col, fmt)) :
    (∃ hint, getTimestampCol lower names colCfg = .ok (col, hint) ∧
      ∀ i u, fmtCfg = .auto → col = .index i → hint = some u → fmt = .units u) ∧
    (∀ u, fmtCfg = .epoch u → fmt = .units u) ∧
    (∀ f, fmtCfg = .explicit f → FormatFrom f fmt) ∧
    (∀ d t, fmtCfg = .dateTimeExplicit d t → FormatFrom (d ++ "#".toList ++ t) fmt) := by
  unfold getTimestampColAndFmt at h
  simp only [Res.bind_eq_ok, Res.ok.injEq, Prod.mk.injEq, Prod.exists] at h
  obtain ⟨c, hint, h1, fmt', h2, rfl, rfl⟩ := h
  have user : ∀ f, getTimestampFmtFromUserSpec lib tz firstRow c f = .ok fmt' → FormatFrom f fmt' := by
    intro f hf
    unfold getTimestampFmtFromUserSpec at hf
    simp only [Res.bind_eq_ok] at hf
    obtain ⟨text, _, hf⟩ := hf
    split at hf
    · simp only [Res.ok.injEq] at hf; exact .inl hf.symm
    · split at hf
      · simp only [Res.bind_eq_ok, Res.ok.injEq] at hf
        obtain ⟨_, _, hf⟩ := hf
        exact .inr (.inl hf.symm)
      · split at hf
        · simp only [Res.bind_eq_ok, Res.ok.injEq] at hf
          obtain ⟨_, _, hf⟩ := hf
          exact .inr (.inr hf.symm)
        · simp at hf
  refine ⟨⟨hint, h1, ?_⟩, ?_, ?_, ?_⟩
  · rintro i u rfl rfl rfl
    simp only [getTimestampFmtAuto, Res.ok.injEq] at h2
    exact h2.symm
  · rintro u rfl
    simp only [Res.ok.injEq] at h2
    exact h2.symm
  · rintro f rfl
    exact user f h2
  · rintro d t rfl
    have e : d ++ "#".toList ++ t = d ++ '#' :: t := by simp
    rw [e]
    exact user _ h2

/-- The column number decides, and the unit at the end of its name; upper case is not recognised here. -/
example : ColumnFor ["x".toList, "t_millis".toList] (.index 1) (.index 1) (some .millis) ∧ ColumnFor ["x".toList, "t_MILLIS".toList] (.index 1) (.index 1) none ∧
    getTimestampColAndFmt id noLib none ["x".toList, "t_millis".toList] ["a".toList, "b".toList] (.index 1) .auto = .ok (.index 1, .units .millis) := by
  refine ⟨.index (n := "t_millis".toList) rfl ⟨"t_".toList, by decide⟩, .index (n := "t_MILLIS".toList) rfl ?_, by decide +kernel⟩
  intro u
  cases u <;> decide

end Chopper.Props
