import Verif.Props.Cli2

/-!
# What the options mean (C76)
-/
namespace Chopper.Props
open Chopper Chopper.Spec

/-- A text that names a delimiter: `\t` for TAB, otherwise one ASCII character. -/
def DelimiterText (s : Str) (b : Byte) : Prop := (s = "\\t".toList ∧ b = 9) ∨ ∃ c, s = [c] ∧ c.toNat < 128 ∧ b.toNat = c.toNat

/-- The name of a unit on the command line. -/
def unitName : TimestampUnits → String
  | .seconds => "s"
  | .millis => "ms"
  | .micros => "us"
  | .nanos => "ns"

/-- What the options for CSV input mean: an explicit delimiter is used, a header is expected as told, column and format of the time are as told. -/
structure InputOptions {lib : DateLib} (a : CliArgs) (cfg : CsvInputConfig lib) : Prop where
  delimiter : (a.inDelimiter = none → cfg.delimiter = none) ∧ ∀ s, a.inDelimiter = some s → ∃ b, DelimiterText s b ∧ cfg.delimiter = some b
  header : cfg.hasHeader = a.hasHeader
  column : ColumnChoice a cfg.tsCol
  format : FormatChoice a cfg.tsFmt

/-- What the options for CSV output mean: the delimiter is used as it is, `--print-time` tells whether there is a time column, its name is the one given or else
tells what the column holds, `--epoch` gives numbers instead of dates, the unit is the one named, nanoseconds otherwise. -/
structure OutputOptions (a : CliArgs) (cfg : CsvOutputConfig) : Prop where
  delimiter : cfg.delimiter = a.outDelimiter
  time : (cfg.printTimeCol = true ∧ a.printTime = "yes".toList) ∨ (cfg.printTimeCol = false ∧ a.printTime = "no".toList)
  style : cfg.style = .epoch ↔ a.outEpoch = true
  units : (a.units = none ∧ cfg.units = .nanos) ∨ a.units = some (unitName cfg.units).toList
  name : (∀ n, a.timeColName = some n → cfg.timeColName = n) ∧ (a.timeColName = none → cfg.timeColName = (defaultTimeName cfg.style cfg.units).toList)

theorem unitsFromStr_iff (s : Str) (u : TimestampUnits) : unitsFromStr s = .ok u ↔ s = (unitName u).toList := by
  constructor
  · intro h
    unfold unitsFromStr at h
    split at h
    · simp only [Res.ok.injEq] at h; subst h; assumption
    · split at h
      · simp only [Res.ok.injEq] at h; subst h; assumption
      · split at h
        · simp only [Res.ok.injEq] at h; subst h; assumption
        · split at h
          · simp only [Res.ok.injEq] at h; subst h; assumption
          · simp at h
  · rintro rfl
    cases u <;> decide

/-- **C76.** The settings of a run are what the options say. -/
theorem C76_settings (lower : Str → Str) (e : CliEnv) (a : CliArgs) (ha : a.Accepted lower) (st : CliSettings e.csv.lib) (h : parseSettings e a = .ok st) :
    InputOptions a st.inCfg ∧ OutputOptions a st.outCfg := by
  unfold parseSettings at h
  simp only [Res.bind_eq_ok, Res.ok.injEq] at h
  obtain ⟨z, hz, range, hr, is, his, inCfg, hin, outCfg, hout, rfl⟩ := h
  constructor
  · unfold parseCsvInputConfig at hin
    simp only [Res.bind_eq_ok] at hin
    obtain ⟨fmt, hfmt, col, hcol, hnew⟩ := hin
    have h1 := (C69_column lower a ha col).1 hcol
    have h2 := (C69_format lower a ha fmt).1 hfmt
    unfold CsvInputConfig.new at hnew
    cases hd : a.inDelimiter with
    | none =>
      rw [hd] at hnew
      simp only [Res.ok.injEq] at hnew
      subst hnew
      exact ⟨⟨fun _ => rfl, by simp [hd]⟩, rfl, h1, h2⟩
    | some s =>
      rw [hd] at hnew
      simp only [Res.bind_eq_ok, Res.ok.injEq] at hnew
      obtain ⟨b, hb, rfl⟩ := hnew
      refine ⟨⟨by simp [hd], ?_⟩, rfl, h1, h2⟩
      intro s' hs'
      rw [hd] at hs'
      simp only [Option.some.injEq] at hs'
      subst hs'
      exact ⟨b, ((C08_delimiter s).1 b).1 hb, rfl⟩
  · unfold parseCsvOutputConfig at hout
    simp only [Res.bind_eq_ok, Res.ok.injEq] at hout
    obtain ⟨p, hp, u, hu, rfl⟩ := hout
    refine ⟨rfl, ?_, ?_, ?_, ?_, ?_⟩
    · unfold parsePrintTime at hp
      split at hp
      · simp only [Res.ok.injEq] at hp
        exact .inl ⟨hp.symm, by assumption⟩
      · split at hp
        · simp only [Res.ok.injEq] at hp
          exact .inr ⟨hp.symm, by assumption⟩
        · simp at hp
    · cases hE : a.outEpoch <;> simp [CsvOutputConfig.new]
    · cases hU : a.units with
      | none =>
        rw [hU] at hu
        simp only [parseOutUnits, Res.ok.injEq] at hu
        exact .inl ⟨rfl, hu.symm⟩
      | some s =>
        rw [hU] at hu
        right
        rw [(unitsFromStr_iff s u).1 hu]
        rfl
    · intro n hn
      rw [hn]
      rfl
    · intro hn
      rw [hn]
      have hname : ∀ style, (CsvOutputConfig.new a.outDelimiter p none style u (z.map (·.render))).timeColName = (defaultTimeName style u).toList := by
        intro style
        cases style <;> cases u <;> rfl
      exact hname _

theorem accepted_inputs {lower : Str → Str} {a : CliArgs} (ha : a.Accepted lower) : ∃ is, parseInputs a = .ok is := by
  cases hi : a.inputs with
  | none => obtain ⟨f, hf, _⟩ := C60_stdin a hi ha.formats; exact ⟨_, hf⟩
  | some names =>
    obtain ⟨f, hf, _⟩ := C60_formats a names hi (fun h => ha.inputs (by rw [hi, h])) ha.formats; exact ⟨_, hf⟩

theorem accepted_fmt {lower : Str → Str} {a : CliArgs} (ha : a.Accepted lower) : ∃ f, parseTsFmt a = .ok f := by
  unfold parseTsFmt
  cases hd : a.tsFmtDate with
  | some d =>
    have := ha.fmtTime (by rw [hd]; rfl)
    cases ht : a.tsFmtTime with
    | none => rw [ht] at this; cases this
    | some t => exact ⟨_, rfl⟩
  | none =>
    cases a.tsFmt with
    | some f => exact ⟨_, rfl⟩
    | none =>
      cases hu : a.inEpoch with
      | none => exact ⟨_, rfl⟩
      | some u =>
        have := ha.inEpoch u hu
        simp only [unitNames, List.mem_cons, List.not_mem_nil, or_false] at this
        rcases this with rfl | rfl | rfl | rfl <;> exact ⟨_, rfl⟩

theorem accepted_col {lower : Str → Str} {a : CliArgs} (ha : a.Accepted lower) : ∃ c, parseTsCol a = .ok c := by
  unfold parseTsCol
  cases hd : a.tsColDate with
  | none =>
    cases a.tsCol with
    | none => exact ⟨_, rfl⟩
    | some s => simp only; cases parseUsize s <;> exact ⟨_, rfl⟩
  | some d =>
    have := ha.colTime (by rw [hd]; rfl)
    cases ht : a.tsColTime with
    | none => rw [ht] at this; cases this
    | some t =>
      simp only [Res.unwrap, Res.bind_ok]
      cases parseUsize d <;> cases parseUsize t <;> exact ⟨_, rfl⟩

/-- **C76 (acceptance).** Settings are found exactly if the time zone is known, the range can be understood, the input delimiter (if given) is a delimiter, and `--print-time` is
`yes` or `no` (for the other spellings that are let through see C71). -/
theorem C76_accepted (lower : Str → Str) (e : CliEnv) (a : CliArgs) (ha : a.Accepted lower) :
    (∃ st, parseSettings e a = .ok st) ↔
      (∃ z range, resolveTimezone e.tzParse e.tzMap e.tzVar a.timezone = .ok z ∧
        TimestampRange.new e.csv.ov e.csv.lib (z.map (·.fromLocal)) a.beginTs a.endTs = .ok range) ∧
      (∀ s, a.inDelimiter = some s → ∃ b, DelimiterText s b) ∧ (a.printTime = "yes".toList ∨ a.printTime = "no".toList) := by
  constructor
  · rintro ⟨st, h⟩
    obtain ⟨h1, h2⟩ := C76_settings lower e a ha st h
    unfold parseSettings at h
    simp only [Res.bind_eq_ok, Res.ok.injEq] at h
    obtain ⟨z, hz, range, hr, _⟩ := h
    refine ⟨⟨z, range, hz, hr⟩, fun s hs => ?_, h2.time.elim (fun h => .inl h.2) fun h => .inr h.2⟩
    obtain ⟨b, hb, _⟩ := h1.delimiter.2 s hs
    exact ⟨b, hb⟩
  · rintro ⟨⟨z, range, hz, hr⟩, hdel, hp⟩
    have hin := accepted_inputs ha
    have hfmt := accepted_fmt ha
    have hcol := accepted_col ha
    obtain ⟨is, hin⟩ := hin
    obtain ⟨f, hfmt⟩ := hfmt
    obtain ⟨c, hcol⟩ := hcol
    have hcfg : ∃ cfg : CsvInputConfig e.csv.lib, parseCsvInputConfig a (z.map (·.fromLocal)) = .ok cfg := by
      unfold parseCsvInputConfig CsvInputConfig.new
      rw [hfmt, Res.bind_ok, hcol, Res.bind_ok]
      cases hd : a.inDelimiter with
      | none => exact ⟨_, rfl⟩
      | some s =>
        obtain ⟨b, hb⟩ := hdel s hd
        have := ((C08_delimiter s).1 b).2 hb
        simp only [this, Res.bind_ok]
        exact ⟨_, rfl⟩
    have hout : ∃ cfg, parseCsvOutputConfig a (z.map (·.render)) = .ok cfg := by
      have hpt : ∃ p, parsePrintTime a.printTime = .ok p := by
        rcases hp with h | h <;> rw [h] <;> exact ⟨_, rfl⟩
      obtain ⟨p, hpt⟩ := hpt
      have hu : ∃ u, parseOutUnits a.units = .ok u := by
        cases hu : a.units with
        | none => exact ⟨_, rfl⟩
        | some u =>
          have := ha.units u hu
          simp only [unitNames, List.mem_cons, List.not_mem_nil, or_false] at this
          rcases this with rfl | rfl | rfl | rfl <;> exact ⟨_, rfl⟩
      obtain ⟨u, hu⟩ := hu
      unfold parseCsvOutputConfig
      rw [hpt, Res.bind_ok, hu, Res.bind_ok]
      exact ⟨_, rfl⟩
    obtain ⟨cfg, hcfg⟩ := hcfg
    obtain ⟨out, hout⟩ := hout
    unfold parseSettings
    rw [hz, Res.bind_ok, hr, Res.bind_ok, hin, Res.bind_ok, hcfg, Res.bind_ok, hout, Res.bind_ok]
    exact ⟨_, rfl⟩

/-- The hypotheses are met by the command line of the examples. -/
example : (exArgs "o.csv".toList).Accepted id ∧ parseSettings exEnv (exArgs "o.csv".toList) = .ok exSettings :=
  ⟨⟨by decide, by decide, by decide, by decide, by decide, by decide, by decide⟩, rfl⟩

end Chopper.Props
