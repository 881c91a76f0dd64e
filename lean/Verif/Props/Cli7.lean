import Verif.Props.Cli3
import Verif.Props.Cli4

/-! # C84: a run that cannot start says why and leaves nothing behind -/
namespace Chopper.Props
open Chopper Chopper.Spec

/-- The run ended with error `x` before any row was read or written: no file was created, no driver was started, and the process ends with status 1. -/
structure Refused (r : CliRun) (x : Err) : Prop where
  result : r.result = .err x
  created : r.created = []
  graph : r.graph = none
  status : ∀ text : Err → Str, ∃ m, handleDriveError text r.result = some ⟨1, m⟩ ∧ (errorExit text x).status = 1

theorem refused_of (e : CliEnv) (a : CliArgs) (x : Err) (h : parseCliArgs e a = ([], .err x)) : Refused (chopperCli e a) x := by
  have : chopperCli e a = ⟨[], none, .err x⟩ := by
    unfold chopperCli
    rw [h]
  rw [this]
  exact ⟨rfl, rfl, rfl, fun text => ⟨_, rfl, rfl⟩⟩

/-- **C84 (options).** A beginning or end of the range that cannot be read, and an option text that is no delimiter, are reported. -/
theorem C84_bad_option (lower : Str → Str) (e : CliEnv) (a : CliArgs) (ha : a.Accepted lower) (z : Option (Zone e.csv.lib))
    (hz : resolveTimezone e.tzParse e.tzMap e.tzVar a.timezone = .ok z) :
    (∀ x, TimestampRange.new e.csv.ov e.csv.lib (z.map (·.fromLocal)) a.beginTs a.endTs = .err x → Refused (chopperCli e a) x) ∧
    (∀ range s, TimestampRange.new e.csv.ov e.csv.lib (z.map (·.fromLocal)) a.beginTs a.endTs = .ok range → a.inDelimiter = some s → (¬ ∃ b, DelimiterText s b) →
      ∃ x, Refused (chopperCli e a) x) := by
  constructor
  · intro x hx
    apply refused_of
    unfold parseCliArgs
    have : parseSettings e a = .err x := by
      unfold parseSettings
      rw [hz, Res.bind_ok, hx]
      rfl
    rw [this]
  · intro range s hr hd hb
    obtain ⟨is, hin⟩ := accepted_inputs ha
    obtain ⟨f, hfmt⟩ := accepted_fmt ha
    obtain ⟨c, hcol⟩ := accepted_col ha
    have hp : ∃ x, parseIntoDelimiter s = .err x := by
      rcases (C08_delimiter s).2 with ⟨b, h⟩ | h
      · exact (hb ⟨b, ((C08_delimiter s).1 b).1 h⟩).elim
      · exact h
    obtain ⟨x, hp⟩ := hp
    refine ⟨x, refused_of e a x ?_⟩
    have : parseSettings e a = .err x := by
      unfold parseSettings
      rw [hz, Res.bind_ok, hr, Res.bind_ok, hin, Res.bind_ok]
      unfold parseCsvInputConfig CsvInputConfig.new
      rw [hfmt, Res.bind_ok, hcol, Res.bind_ok]
      simp only [hd, hp]
      rfl
    unfold parseCliArgs
    rw [this]

/-- The sources an input opens as. -/
def opened (e : CliEnv) (st : CliSettings e.csv.lib) (inp : Input) : Res FileSource :=
  createFromInput (newInputs e.csv e.dec e.zip e.world (some st.inCfg) e.userFactories e.userTransports) e.world inp

/-- **C84 (inputs).** If an input cannot be opened and all inputs named before it can, its error is reported. -/
theorem C84_bad_input (e : CliEnv) (a : CliArgs) (st : CliSettings e.csv.lib) (hs : parseSettings e a = .ok st) (pre post : List Input) (inp : Input) (x : Err)
    (hi : st.inputs = pre ++ inp :: post) (hp : ∀ i ∈ pre, ∃ f, opened e st i = .ok f) (hx : opened e st inp = .err x) : Refused (chopperCli e a) x := by
  have key : ∀ (pre : List Input), (∀ i ∈ pre, ∃ f, opened e st i = .ok f) →
      openInputs (newInputs e.csv e.dec e.zip e.world (some st.inCfg) e.userFactories e.userTransports) e.world (pre ++ inp :: post) = .err x := by
    intro pre
    induction pre with
    | nil =>
      intro _
      unfold opened at hx
      simp only [List.nil_append, openInputs, hx]
      rfl
    | cons i pre ih =>
      intro hp
      obtain ⟨f, hf⟩ := hp i (List.mem_cons_self ..)
      unfold opened at hf
      simp only [List.cons_append, openInputs, hf, Res.bind_ok, ih (fun j hj => hp j (List.mem_cons_of_mem _ hj))]
      rfl
  apply refused_of
  unfold parseCliArgs
  rw [hs]
  simp only [setupGraph, hi, key pre hp]

/-- **C84 (output).** If the output's name ends neither in `csv` nor in `dc`, or the file cannot be created, that is reported, once all inputs are open. -/
theorem C84_bad_output (e : CliEnv) (a : CliArgs) (st : CliSettings e.csv.lib) (files : List FileSource) (hs : parseSettings e a = .ok st) (ho : Opens e st files)
    (p : Str) (hp : a.output = some p) (hb : (¬ "csv".toList <:+ p ∧ ¬ "dc".toList <:+ p) ∨ e.out.create (utf8Encode p) = none) :
    ∃ x, Refused (chopperCli e a) x := by
  have hk : ∃ x, newHeaderSink e.sink e.out a.output st.outCfg = ([], .err x) := by
    rw [hp]
    rcases hb with ⟨h1, h2⟩ | h
    · exact (C63_partial e.sink e.out st.outCfg).2.2.2.2 p h1 h2
    · exact (C63_partial e.sink e.out st.outCfg).2.2.2.1 p h
  obtain ⟨x, hk⟩ := hk
  refine ⟨x, refused_of e a x ?_⟩
  unfold parseCliArgs
  rw [hs]
  simp only [setupGraph, (openInputs_iff _ _ _ _).2 ho, hk]

/-- The hypotheses are met. -/
example : (∃ x, Refused (chopperCli exEnv { exArgs "o.csv".toList with inDelimiter := some "ab".toList }) x) ∧
    (∃ x, Refused (chopperCli exEnv (exArgs "o.txt".toList)) x) := by
  constructor
  · refine (C84_bad_option id exEnv { exArgs "o.csv".toList with inDelimiter := some "ab".toList } ?_ none rfl).2 ⟨none, none⟩ "ab".toList rfl rfl ?_
    · refine ⟨?_, ?_, ?_, ?_, ?_, ?_, ?_⟩ <;> simp [exArgs, unitNames]
    · rintro ⟨b, h | ⟨c, h, _⟩⟩ <;> revert h <;> simp
  · exact C84_bad_output exEnv (exArgs "o.txt".toList) exSettings [exFileA, exFileB] (exCli_settings _) exCli_opens "o.txt".toList rfl (.inl (by decide))

/-- The same run, but no file can be opened. -/
def noFileEnv : CliEnv := { exEnv with world := { exCliWorld with file := fun _ => none } }

example : Refused (chopperCli noFileEnv (exArgs "o.csv".toList)) (.io .other) :=
  C84_bad_input noFileEnv (exArgs "o.csv".toList) exSettings (exCli_settings _) [] [⟨.path "y.dc".toList, .auto⟩] ⟨.path "x.dc".toList, .auto⟩ (.io .other) rfl
    (fun _ h => by cases h) (by rfl)

end Chopper.Props
