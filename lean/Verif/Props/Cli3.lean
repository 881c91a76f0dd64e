import Verif.Props.Cli2

/-! # Concrete runs that meet the hypotheses of C61, C62, C67, C70, C72 -/
namespace Chopper.Props
open Chopper Chopper.Spec

theorem exCli_settings (o : Str) : parseSettings exEnv (exArgs o) = .ok exSettings := rfl

theorem exCli_opens : Opens exEnv exSettings [exFileA, exFileB] := by
  refine ⟨rfl, ?_⟩
  have hA : createFromInput (newInputs exEnv.csv exEnv.dec exEnv.zip exEnv.world (some exSettings.inCfg) exEnv.userFactories exEnv.userTransports) exEnv.world ⟨.path "x.dc".toList, .auto⟩ = .ok exFileA := by
    show createFromInput (newInputs exEnv.csv exEnv.dec exEnv.zip exEnv.world (some exSettings.inCfg) [] []) exEnv.world ⟨.path "x.dc".toList, .auto⟩ = _
    rw [C66_dc_file exEnv.csv _ exEnv.zip exEnv.world (some exSettings.inCfg) "x.dc".toList .auto ⟨exA, [.bytes 3], none⟩ (by decide +kernel) (by decide +kernel) (by decide +kernel)
      (by decide +kernel) (by decide +kernel) (noFail_none (by simp)) (.inl ⟨"x".toList, by decide +kernel, rfl⟩)]
    decide +kernel
  have hB : createFromInput (newInputs exEnv.csv exEnv.dec exEnv.zip exEnv.world (some exSettings.inCfg) exEnv.userFactories exEnv.userTransports) exEnv.world ⟨.path "y.dc".toList, .auto⟩ = .ok exFileB := by
    show createFromInput (newInputs exEnv.csv exEnv.dec exEnv.zip exEnv.world (some exSettings.inCfg) [] []) exEnv.world ⟨.path "y.dc".toList, .auto⟩ = _
    rw [C66_dc_file exEnv.csv _ exEnv.zip exEnv.world (some exSettings.inCfg) "y.dc".toList .auto ⟨exB, [], none⟩ (by decide +kernel) (by decide +kernel) (by decide +kernel)
      (by decide +kernel) (by decide +kernel) (noFail_none (by simp)) (.inl ⟨"y".toList, by decide +kernel, rfl⟩)]
    decide +kernel
  intro i inp f h1 h2
  match i with
  | 0 => simp [exSettings] at h1 h2; subst h1; subst h2; exact hA
  | 1 => simp [exSettings] at h1 h2; subst h1; subst h2; exact hB
  | i + 2 => simp at h2

theorem exCli_good : GoodInputs exSettings.range ⟨["a".toList, "b".toList], [.int, .string]⟩ [exFileA, exFileB] := by
  refine ⟨?_, ?_, ?_, ?_⟩ <;> intro f hf <;> simp only [List.mem_cons, List.not_mem_nil, or_false] at hf <;> rcases hf with rfl | rfl
  · rfl
  · rfl
  · show List.Pairwise _ _; decide +kernel
  · show List.Pairwise _ _; decide +kernel
  · exact ⟨⟨5, [.int 1, .none]⟩, by decide +kernel, by decide +kernel⟩
  · exact ⟨⟨5, [.int 3, .none]⟩, by decide +kernel, by decide +kernel⟩
  · decide +kernel
  · decide +kernel

theorem exCli_csvTo : CsvTo exEnv.out (exArgs "o.csv".toList).output exDev := .inr ⟨"o.csv".toList, rfl, by decide +kernel, rfl⟩
theorem exCli_dcTo : DcTo exEnv.out (exArgs "o.dc".toList).output exDev := ⟨"o.dc".toList, rfl, by decide +kernel, rfl⟩
theorem exCli_reliable : Reliable exDev := by intro k; simp [exDev]

theorem exCli_values : ∀ f ∈ [exFileA, exFileB], ∀ r ∈ f.source.rows, ∀ v ∈ r.values, ¬ Unprintable v := by
  intro f hf r hr v hv
  have key : (∃ x, v = .int x) ∨ (∃ s, v = .string s) ∨ v = .none := by
    simp only [List.mem_cons, List.not_mem_nil, or_false] at hf
    rcases hf with rfl | rfl <;> simp only [exFileA, exFileB, List.mem_cons, List.not_mem_nil, or_false] at hr <;> rcases hr with rfl | rfl <;>
      simp only [List.mem_cons, List.not_mem_nil, or_false] at hv <;> rcases hv with rfl | rfl
    all_goals first | exact .inl ⟨_, rfl⟩ | exact .inr (.inl ⟨_, rfl⟩) | exact .inr (.inr rfl)
  rcases key with ⟨x, rfl⟩ | ⟨s, rfl⟩ | rfl <;> rintro (⟨b, hb⟩ | ⟨b, hb⟩) <;> cases hb

/-- The hypotheses of C61 for CSV are met ... -/
example : ∃ out rows body, (chopperCli exEnv (exArgs "o.csv".toList)).result = .ok () ∧ (chopperCli exEnv (exArgs "o.csv".toList)).output = some out ∧
    IsMerge exSettings.range ([exFileA, exFileB].map (·.source.rows)) rows ∧ CsvLines exEnv.ff exSettings.outCfg rows body ∧
    out.taken = exDev.taken ++ utf8Encode (csvHeaderText exSettings.outCfg ["a".toList, "b".toList] ++ body) := by
  have h := C61_csv exEnv (exArgs "o.csv".toList) exSettings [exFileA, exFileB] ⟨["a".toList, "b".toList], [.int, .string]⟩ exDev (exCli_settings _) exCli_opens exCli_good
    exCli_csvTo exCli_reliable (by intro _ h; cases h) (fun f hf r hr _ v hv => exCli_values f hf r hr v hv)
  exact h

/-- ... and this is the merge they speak of: the row of the second input comes first at time 5. -/
example : IsMerge exSettings.range ([exFileA, exFileB].map (·.source.rows))
    [⟨5, [.int 3, .none]⟩, ⟨5, [.int 1, .none]⟩, ⟨6, [.none, .none]⟩, ⟨7, [.int 2, .string ['x']]⟩] := by
  have := files_merge exSettings.range exCli_good.sorted
  rwa [show mergeOf exSettings.range ([exFileA, exFileB].map (·.source)) =
    [⟨5, [.int 3, .none]⟩, ⟨5, [.int 1, .none]⟩, ⟨6, [.none, .none]⟩, ⟨7, [.int 2, .string ['x']]⟩] from by decide +kernel] at this

/-- The hypotheses of C62 are met. -/
example : ∃ out rows src fin, (chopperCli exEnv (exArgs "o.dc".toList)).result = .ok () ∧ (chopperCli exEnv (exArgs "o.dc".toList)).output = some out ∧
    IsMerge exSettings.range ([exFileA, exFileB].map (·.source.rows)) rows ∧
    dcOpen .panics (ofBytes out.taken) = .ok src ∧ src.header = ⟨["a".toList, "b".toList], [.int, .string]⟩ ∧ Delivers src rows fin ∧ fin.nextRow.1 = .ok none := by
  have hdc : ∀ f ∈ [exFileA, exFileB], ∃ stream src, dcOpen exEnv.csv.ov stream = .ok src ∧ f = src.toFile := by
    intro f hf
    simp only [List.mem_cons, List.not_mem_nil, or_false] at hf
    rcases hf with rfl | rfl
    · exact ⟨ofBytes exA, ⟨ofBytes (exA.drop 63), ⟨["a".toList, "b".toList], [.int, .string]⟩⟩, by decide +kernel, by decide +kernel⟩
    · exact ⟨ofBytes exB, ⟨ofBytes (exB.drop 63), ⟨["a".toList, "b".toList], [.int, .string]⟩⟩, by decide +kernel, by decide +kernel⟩
  have h := C62_dc_to_dc_partial exEnv (exArgs "o.dc".toList) exSettings [exFileA, exFileB] ⟨["a".toList, "b".toList], [.int, .string]⟩ exDev .panics (exCli_settings _) exCli_opens exCli_good
    exCli_dcTo exCli_reliable rfl hdc (by decide) (by decide) (by decide)
  exact h

/-- A run with an output device that fails: the hypotheses of C67 for failures are met whatever the device does. -/
example (d : Device) (out : Device)
    (hout : (chopperCli { exEnv with out := ⟨fun _ => some d, d⟩ } (exArgs "o.csv".toList)).output = some out) :
    ∃ rows, IsMerge exSettings.range ([exFileA, exFileB].map (·.source.rows)) rows ∧
      out.taken <+: d.taken ++ utf8Encode (csvFile exEnv.ff exSettings.outCfg ⟨["a".toList, "b".toList], [.int, .string]⟩ rows).1 := by
  have h := C67_csv_always_prefix { exEnv with out := ⟨fun _ => some d, d⟩ } (exArgs "o.csv".toList) exSettings [exFileA, exFileB] ⟨["a".toList, "b".toList], [.int, .string]⟩ d
    (exCli_settings _) exCli_opens exCli_good.header exCli_good.sorted exCli_good.some (.inr ⟨"o.csv".toList, rfl, by decide +kernel, rfl⟩) out hout
  exact h

/-- The hypothesis of C70 is met: this run does create its output file. -/
example : (chopperCli exEnv (exArgs "o.csv".toList)).created = [utf8Encode "o.csv".toList] := by
  have hc : newHeaderSink exEnv.sink exEnv.out (exArgs "o.csv".toList).output exSettings.outCfg = ([utf8Encode "o.csv".toList], .ok (csvSinkHeader exEnv.sink exSettings.outCfg exDev)) :=
    sink_csv exEnv.sink exEnv.out exSettings.outCfg "o.csv".toList (by decide +kernel)
  have h4 := cli_setup_run exEnv (exArgs "o.csv".toList) exSettings [exFileA, exFileB] (exCli_settings _) exCli_opens _ _ hc
  have : (chopperCli exEnv (exArgs "o.csv".toList)).created = (parseCliArgs exEnv (exArgs "o.csv".toList)).1 := by
    unfold chopperCli
    rcases parseCliArgs exEnv (exArgs "o.csv".toList) with ⟨c, _ | _ | _ | _⟩ <;> rfl
  rw [this, h4]

example : ∃ src fin, dcOpen .panics (ofBytes exA) = .ok src ∧ Delivers src exFileA.source.rows fin := by
  refine ⟨⟨ofBytes (exA.drop 63), ⟨["a".toList, "b".toList], [.int, .string]⟩⟩, ?_⟩
  obtain ⟨fin, h⟩ := toFile_delivers ⟨ofBytes (exA.drop 63), ⟨["a".toList, "b".toList], [.int, .string]⟩⟩
  refine ⟨fin, by decide +kernel, ?_⟩
  rwa [show (DcSource.toFile ⟨ofBytes (exA.drop 63), ⟨["a".toList, "b".toList], [.int, .string]⟩⟩).source.rows = exFileA.source.rows from by decide +kernel] at h

end Chopper.Props
