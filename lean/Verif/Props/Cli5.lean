import Verif.Props.Cli3

/-! # C62 in full, and a run that refutes it -/
namespace Chopper.Props
open Chopper Chopper.Spec

/-- The English claim C62: with DC inputs (all with the same header, sorted, with a row in the range) and a new, reliable DC output file, the output,
read back, has the inputs' header and the merge of their rows. -/
def C62_full : Prop := ∀ (e : CliEnv) (a : CliArgs) (st : CliSettings e.csv.lib) (files : List FileSource) (h : Header) (d : Device) (ov : Overflow),
  parseSettings e a = .ok st → Opens e st files → GoodInputs st.range h files → DcTo e.out a.output d → Reliable d → d.taken = [] →
  (∀ f ∈ files, ∃ stream src, dcOpen e.csv.ov stream = .ok src ∧ f = src.toFile) → (∀ t ∈ h.types, t ≠ .boolean ∧ t ≠ .byteBuf) →
    ∃ out rows src fin, (chopperCli e a).result = .ok () ∧ (chopperCli e a).output = some out ∧ IsMerge st.range (files.map (·.source.rows)) rows ∧
      dcOpen ov (ofBytes out.taken) = .ok src ∧ src.header = h ∧ Delivers src rows fin ∧ fin.nextRow.1 = .ok none

/-- A DC file with nine columns and one row, as other programs write it: two bytes of null flags. -/
def nineFile : List Byte :=
  (dcWriteFile .panics ⟨List.replicate 9 "x".toList, List.replicate 9 .byte⟩ []).out ++ [0, 0, 0, 0, 0, 0, 0, 5] ++ [0, 0] ++ List.replicate 9 7

def nineHeader : Header := ⟨List.replicate 9 "x".toList, List.replicate 9 .byte⟩
def nineSource : FileSource := ⟨nineHeader, ⟨[⟨5, List.replicate 9 (.byte 7)⟩], .eof⟩⟩

def nineWorld : World :=
  ⟨fun p => p == utf8Encode "x.dc".toList, fun _ => false, fun p => if p = utf8Encode "x.dc".toList then some ⟨nineFile, [], none⟩ else none,
   fun _ => none, fun _ => .err (.io .other), ⟨[], [], none⟩⟩

def nineEnv : CliEnv := { exEnv with world := nineWorld }
def nineArgs : CliArgs := { inputs := some ["x.dc".toList], output := some "o.dc".toList, outEpoch := true }
def nineSettings : CliSettings noLib := { exSettings with inputs := [⟨.path "x.dc".toList, .auto⟩] }

theorem nine_opens : Opens nineEnv nineSettings [nineSource] := by
  refine ⟨rfl, ?_⟩
  have hA : createFromInput (newInputs nineEnv.csv nineEnv.dec nineEnv.zip nineEnv.world (some nineSettings.inCfg) nineEnv.userFactories nineEnv.userTransports) nineEnv.world ⟨.path "x.dc".toList, .auto⟩ = .ok nineSource := by
    show createFromInput (newInputs nineEnv.csv nineEnv.dec nineEnv.zip nineEnv.world (some nineSettings.inCfg) [] []) nineEnv.world ⟨.path "x.dc".toList, .auto⟩ = _
    rw [C66_dc_file nineEnv.csv _ nineEnv.zip nineEnv.world (some nineSettings.inCfg) "x.dc".toList .auto ⟨nineFile, [], none⟩ (by decide +kernel) (by decide +kernel) (by decide +kernel)
      (by decide +kernel) (by decide +kernel) (noFail_none (by simp)) (.inl ⟨"x".toList, by decide +kernel, rfl⟩)]
    decide +kernel
  intro i inp f h1 h2
  match i with
  | 0 => simp [nineSettings] at h1 h2; subst h1; subst h2; exact hA
  | i + 1 => simp at h2

theorem nine_good : GoodInputs nineSettings.range nineHeader [nineSource] := by
  refine ⟨?_, ?_, ?_, ?_⟩ <;> intro f hf <;> simp only [List.mem_cons, List.not_mem_nil, or_false] at hf <;> subst hf
  · rfl
  · show List.Pairwise _ _; decide +kernel
  · exact ⟨⟨5, List.replicate 9 (.byte 7)⟩, by decide +kernel, by decide +kernel⟩
  · decide +kernel

theorem C62_refuted : ¬ C62_full := fun hfull => by
  have hdc : ∀ f ∈ [nineSource], ∃ stream src, dcOpen nineEnv.csv.ov stream = .ok src ∧ f = src.toFile := by
    intro f hf
    simp only [List.mem_cons, List.not_mem_nil, or_false] at hf
    subst hf
    exact ⟨ofBytes nineFile, ⟨ofBytes (nineFile.drop (nineFile.length - 19)), nineHeader⟩, by decide +kernel, by decide +kernel⟩
  have hs : parseSettings nineEnv nineArgs = .ok nineSettings := rfl
  have hd : DcTo nineEnv.out nineArgs.output exDev := ⟨"o.dc".toList, rfl, by decide +kernel, rfl⟩
  have ht : ∀ t ∈ nineHeader.types, t ≠ .boolean ∧ t ≠ .byteBuf := by decide
  obtain ⟨out, rows, src, fin, _, h2, h3, h4, _, h5, _⟩ := hfull nineEnv nineArgs nineSettings [nineSource] nineHeader exDev .panics hs nine_opens nine_good hd
    exCli_reliable rfl hdc ht
  obtain ⟨out', rows', _, h2', h3', h4'⟩ := C62_nine_columns_never nineEnv nineArgs nineSettings [nineSource] nineHeader exDev .panics hs nine_opens nine_good hd
    exCli_reliable rfl hdc (by decide) (by decide) ht (by
      intro f hf r hr s hsv
      simp only [List.mem_cons, List.not_mem_nil, or_false] at hf
      subst hf
      simp only [nineSource, List.mem_cons, List.not_mem_nil, or_false] at hr
      subst hr
      have := List.eq_of_mem_replicate hsv
      cases this)
  rw [h2] at h2'
  cases h2'
  have := C61_merge_unique h3 h3'
  subst this
  exact h4' src fin h4 h5

end Chopper.Props
