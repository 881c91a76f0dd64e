import Verif.Props.CsvReceived2
import Verif.Props.Broken
import Verif.Spec.FailingInput

/-!
# C144: the tool with CSV inputs that fail
-/
namespace Chopper.Props
open Chopper Chopper.Spec

theorem failing_opened {env : CsvEnv} (hcrate : env.csv = csvCrate) {dec : Decoders} {zip : ZipLib} {w w' : World} {cfg : CsvInputConfig env.lib} {b : Byte} {header : Bool}
    {u : TimestampUnits} (hc : Explicit cfg b header u) (hb : b.toNat < 128) {i : Input} (hi : ArrivesOrFails zip w w' i) {f f' : FileSource}
    (h : createFromInput (newInputs env dec zip w (some cfg) [] []) w i = .ok f) (h' : createFromInput (newInputs env dec zip w' (some cfg) [] []) w' i = .ok f') :
    f'.header = f.header ∧ BreaksOff f'.source f.source := by
  cases hi with
  | same r n h1 h2 =>
    rw [h1.opens (some cfg)] at h
    rw [h2.opens (some cfg), h] at h'
    cases h'
    exact ⟨rfl, .inl rfl⟩
  | fails r r' n n' k h1 h2 h3 h4 h5 h6 h7 =>
    obtain ⟨g, g1, g2, g3, g4⟩ := C143_failed env hcrate dec zip w' w cfg b header u hc hb i i r' r n' n h2 h1 h4 h3 h5 h6 (by rw [h7]; simp) f' h'
    rw [h] at g1
    cases g1
    exact ⟨g2.symm, .inr ⟨g3, g4⟩⟩

/-- If every input is opened with the same header and breaks off or not, the output is a beginning of the complete one. -/
theorem tool_parts (e : CliEnv) (w' : World) (a : CliArgs) (st : CliSettings e.csv.lib) (parts wholes : List FileSource) (h : Header) (d : Device) (hs : parseSettings e a = .ok st)
    (ho : Opens e st wholes) (ho' : Opens { e with world := w' } st parts) (hh : ∀ f ∈ wholes, f.header = h)
    (hi : ∀ i ∈ st.inputs, ∀ f f', createFromInput (newInputs e.csv e.dec e.zip e.world (some st.inCfg) e.userFactories e.userTransports) e.world i = .ok f →
      createFromInput (newInputs e.csv e.dec e.zip w' (some st.inCfg) e.userFactories e.userTransports) w' i = .ok f' → f'.header = f.header ∧ BreaksOff f'.source f.source)
    (hd : CsvTo e.out a.output d ∨ DcTo e.out a.output d)
    (hok : (chopperCli e a).result = .ok ()) (out out' : Device) (hout : (chopperCli e a).output = some out) (hout' : (chopperCli { e with world := w' } a).output = some out') :
    out'.taken <+: out.taken ∧ ((chopperCli { e with world := w' } a).result = .ok () → out'.taken = out.taken) := by
  have key : ∀ (k : Nat) (p s : FileSource), parts[k]? = some p → wholes[k]? = some s → p.header = s.header ∧ BreaksOff p.source s.source := by
    intro k p s hk hk'
    obtain ⟨i, hin⟩ : ∃ i, st.inputs[k]? = some i := by
      have := (List.getElem?_eq_some_iff.1 hk).1
      rw [ho'.1] at this
      exact ⟨_, List.getElem?_eq_getElem this⟩
    exact hi i (List.mem_of_getElem? hin) s p (ho.2 k i s hin hk') (ho'.2 k i p hin hk)
  have hlen : parts.length = wholes.length := ho'.1.trans ho.1.symm
  have hbo : BreakOff (parts.map (·.source)) (wholes.map (·.source)) := by
    refine ⟨by simp [hlen], ?_⟩
    intro k p s hk hk'
    rw [List.getElem?_map] at hk hk'
    obtain ⟨p0, hp0, rfl⟩ := Option.map_eq_some_iff.1 hk
    obtain ⟨s0, hs0, rfl⟩ := Option.map_eq_some_iff.1 hk'
    exact (key k p0 s0 hp0 hs0).2
  have hh' : ∀ f ∈ parts, f.header = h := by
    intro f hf
    obtain ⟨k, hk⟩ := List.getElem?_of_mem hf
    have hlt := (List.getElem?_eq_some_iff.1 hk).1
    obtain ⟨s, hs'⟩ : ∃ s, wholes[k]? = some s := ⟨_, List.getElem?_eq_getElem (by omega)⟩
    exact (key k f s hk hs').1.trans (hh s (List.mem_of_getElem? hs'))
  rcases hd with hd | hd
  · exact C140_csv e w' a st parts wholes h d hs ho ho' hh hh' hbo hd hok out out' hout hout'
  · exact C140_dc e w' a st parts wholes h d hs ho ho' hh hh' hbo hd hok out out' hout hout'

/-- **C144.** A run of the tool over any number of inputs, of which some - CSV, read with explicit settings - fail at some point while they are read, against the run over the same inputs that do
not fail, where that succeeds: the output file holds a beginning of the complete one; if the run reports success, all of it. -/
theorem C144_tool (e : CliEnv) (hcrate : e.csv.csv = csvCrate) (w' : World) (a : CliArgs) (st : CliSettings e.csv.lib) (wholes : List FileSource) (h : Header) (d : Device) (b : Byte) (header : Bool)
    (u : TimestampUnits) (hs : parseSettings e a = .ok st) (hc : Explicit st.inCfg b header u) (hb : b.toNat < 128) (hp : e.userFactories = [] ∧ e.userTransports = [])
    (hi : ∀ i ∈ st.inputs, ArrivesOrFails e.zip e.world w' i) (ho : Opens e st wholes) (hh : ∀ f ∈ wholes, f.header = h) (hd : CsvTo e.out a.output d ∨ DcTo e.out a.output d)
    (hok : (chopperCli e a).result = .ok ()) (out out' : Device) (hout : (chopperCli e a).output = some out) (hout' : (chopperCli { e with world := w' } a).output = some out') :
    out'.taken <+: out.taken ∧ ((chopperCli { e with world := w' } a).result = .ok () → out'.taken = out.taken) := by
  obtain ⟨parts, ho'⟩ := opens_of_output (e := { e with world := w' }) (st := st) hs hout'
  refine tool_parts e w' a st parts wholes h d hs ho ho' hh ?_ hd hok out out' hout hout'
  intro i hin f f' h1 h2
  rw [hp.1, hp.2] at h1 h2
  exact failing_opened hcrate hc hb (hi i hin) h1 h2

/-! ### A case that meets the hypotheses -/

/-- Many lines `1` that arrive completely. -/
theorem ones_full {dec : Decoders} (n : Nat) (hn : 0 < n) : ∃ rows : List Row, rows.length = n ∧ (∀ r ∈ rows, r.timestamp = 1 ∧ ∀ v ∈ r.values, ∃ s, v = .string s) ∧
    createFromInput (newInputs crateEnv dec exLib (pipedWorld ⟨ones n, [], none⟩) (some nanosCfg) [] []) (pipedWorld ⟨ones n, [], none⟩) pipedCsv =
      .ok ⟨⟨["col_0".toList], [.string]⟩, ⟨rows, .eof⟩⟩ := by
  obtain ⟨p, hp, _⟩ := preview_ok (inner := ⟨ones n, [], none⟩) (noFail_none (by simp))
  have hrec : (csvCrate.parse 44 false p.reader).records = .ok [['1']] :: List.replicate (n - 1) (Res.ok [['1']]) := by
    have hb : ¬ bom <+: ones n := by
      obtain ⟨m, rfl⟩ : ∃ m, n = m + 1 := ⟨n - 1, by omega⟩
      rintro ⟨z, hz⟩
      have := congrArg List.head? hz
      simp [ones, List.replicate_succ, bom] at this
    simp only [csvCrate, Bool.false_eq_true, if_false]
    rw [previewed_stream hp rfl hb, ones_run]
    obtain ⟨m, rfl⟩ : ∃ m, n = m + 1 := ⟨n - 1, by omega⟩
    have h1 : (Res.ok [[0x31]] : Res (List (List Byte))).bind stringRecord = .ok [['1']] := by decide +kernel
    simp only [List.map_append, List.map_replicate, h1, List.replicate_succ, Nat.add_sub_cancel, List.cons_append, List.map_cons]
    show Res.ok [['1']] :: (List.replicate m (Res.ok [['1']]) ++ []) = _
    rw [List.append_nil]
  have ht := nano_time ['1'] [] 1 (by decide +kernel)
  have hall : ∀ rec ∈ [['1']] :: List.replicate (n - 1) [['1']], rec = [['1']] := by
    intro rec hr
    rcases List.mem_cons.1 hr with rfl | hr
    · rfl
    · exact (List.mem_replicate.1 hr).2
  obtain ⟨rows, hl, hrows⟩ := rows_exist (first := [['1']]) (good := List.replicate (n - 1) [['1']]) (fun rec hr => by rw [hall rec hr]; exact ⟨_, ht⟩) n (by simp; omega)
  refine ⟨rows, hl, ?_, (csv_opened (env := crateEnv) nanos_explicit (piped_delivered _) piped_says _ _).2 ⟨p, hp, ?_⟩⟩
  · intro r hr
    obtain ⟨k, hk⟩ := List.getElem?_of_mem hr
    obtain ⟨hlen, ⟨rec, h1, h2⟩, hvals⟩ := hrows k r hk
    refine ⟨?_, fun v hv => ?_⟩
    rotate_left
    · obtain ⟨j, hj⟩ := List.getElem?_of_mem hv
      have hlt := (List.getElem?_eq_some_iff.1 hj).1
      obtain ⟨s, _, h3⟩ := hvals j (by omega)
      rw [hj] at h3
      exact ⟨s, Option.some.inj h3⟩
    rw [hall rec (List.mem_of_getElem? h1)] at h2
    have e1 := (C97_time _ _ _ _ _ _ _).2 h2
    have e2 := (C97_time _ _ _ _ _ _ _).2 ht
    rw [e1] at e2
    exact Res.ok.inj e2
  refine ⟨[['1']], _, ["col_0".toList], .index 0, none, hrec, ?_, .index (n := "col_0".toList) (by decide +kernel) (by intro u; cases u <;> decide +kernel), rfl, ?_⟩
  · show ["col_0".toList] = (List.range 1).map fun i => "col_".toList ++ decimal i
    decide +kernel
  · show CsvMeaning _ _ _ _ _ (csvCrate.parse 44 false p.reader).records _
    rw [hrec]
    refine ⟨[['1']], List.replicate (n - 1) [['1']], [], by simp, fun rec hr => by rw [hall rec hr]; exact ⟨by simp, _, ht⟩, hrows, .inl ⟨rfl, by simp [hl]; omega, rfl⟩⟩

/-- `chopper -f csv --csv-in-delim , --csv-in-header no --csv-in-ts-col 0 --csv-in-epoch ns -E`, from standard input to standard output. -/
def pipedArgs : CliArgs := { formats := some ["csv".toList], inDelimiter := some [','], hasHeader := .no, tsCol := some ['0'], inEpoch := some ['n', 's'], outEpoch := true }
def pipedSettings : CliSettings noLib := ⟨[pipedCsv], ⟨none, none⟩, nanosCfg, .new [','] true none .epoch .nanos none⟩
def pipedEnv (r : Inner) : CliEnv := { exEnv with csv := crateEnv, dec := anyDec, world := pipedWorld r, out := ⟨fun _ => none, ⟨[], [.take 3], 0⟩⟩ }

theorem piped_settings (r : Inner) : parseSettings (pipedEnv r) pipedArgs = .ok pipedSettings := rfl

theorem piped_opens {r : Inner} {f : FileSource}
    (h : createFromInput (newInputs crateEnv anyDec exLib (pipedWorld r) (some nanosCfg) [] []) (pipedWorld r) pipedCsv = .ok f) : Opens (pipedEnv r) pipedSettings [f] := by
  refine ⟨rfl, ?_⟩
  intro i inp g hi hg
  match i with
  | 0 => cases hi; cases hg; exact h
  | i + 1 => simp at hg

/-- Standard input with many lines that fails after them, and with more lines and no failure: everything `C144_tool` asks for, and so what it says. -/
example : ∃ out out', (chopperCli (pipedEnv ⟨ones 10000 ++ ones 7, [], none⟩) pipedArgs).output = some out ∧
    (chopperCli (pipedEnv ⟨ones 10000, [], some .other⟩) pipedArgs).output = some out' ∧ out'.taken <+: out.taken := by
  have hones : ones 10000 ++ ones 7 = ones 10007 := by
    unfold ones
    rw [← List.flatten_append, List.replicate_append_replicate]
  obtain ⟨rows, hl, ht, hf⟩ := ones_full 10007 (by omega)
  rw [← hones] at hf
  obtain ⟨f', hf', _, _⟩ := ones_read 10000 (by simp [defaultBufSize]) (by omega)
  have hd : CsvTo (pipedEnv ⟨ones 10000 ++ ones 7, [], none⟩).out pipedArgs.output ⟨[], [.take 3], 0⟩ := .inl ⟨rfl, rfl⟩
  have hgood : GoodInputs (⟨none, none⟩ : TimestampRange) ⟨["col_0".toList], [.string]⟩ [⟨⟨["col_0".toList], [.string]⟩, ⟨rows, .eof⟩⟩] := by
    refine ⟨by simp, ?_, ?_, ?_⟩
    · intro f hf
      rw [List.mem_singleton] at hf
      subst hf
      refine List.pairwise_iff_forall_sublist.2 ?_
      intro a b hab
      rw [(ht a (hab.subset (by simp))).1, (ht b (hab.subset (by simp))).1]
      exact Nat.le_refl _
    · intro f hf
      rw [List.mem_singleton] at hf
      subst hf
      match rows, hl with
      | r :: _, _ => exact ⟨r, .head _, rfl⟩
    · intro f hf
      rw [List.mem_singleton] at hf
      subst hf
      unfold endingWithin
      split <;> rfl
  obtain ⟨out, _, _, h1, h2, _⟩ := C61_csv (pipedEnv ⟨ones 10000 ++ ones 7, [], none⟩) pipedArgs pipedSettings _ _ _ (piped_settings _) (piped_opens hf) hgood hd
    (by intro k hk; simp at hk) (by intro _ h; cases h) (by
      intro f hf r hr _ v hv
      rw [List.mem_singleton] at hf
      subst hf
      obtain ⟨s, rfl⟩ := (ht r hr).2 v hv
      rintro (⟨b, hb⟩ | ⟨b, hb⟩) <;> cases hb)
  rcases csv_run (pipedEnv ⟨ones 10000, [], some .other⟩) pipedArgs pipedSettings [f'] f'.header ⟨[], [.take 3], 0⟩ (piped_settings _) (piped_opens hf') (by simp) (.inl ⟨rfl, rfl⟩) with
    ⟨k, hk, _⟩ | ⟨out', _, _, _, h3, _⟩
  · simp [CanFail] at hk
  refine ⟨out, out', h2, h3, ?_⟩
  refine (C144_tool (pipedEnv ⟨ones 10000 ++ ones 7, [], none⟩) rfl (pipedWorld ⟨ones 10000, [], some .other⟩) pipedArgs pipedSettings _ ⟨["col_0".toList], [.string]⟩ ⟨[], [.take 3], 0⟩ 44 false .nanos
    (piped_settings _) nanos_explicit (by decide) ⟨rfl, rfl⟩ ?_ (piped_opens hf) (by simp) (.inl hd) h1 out out' h2 h3).1
  intro i hi
  replace hi : i ∈ [pipedCsv] := hi
  rw [List.mem_singleton] at hi
  subst hi
  exact .fails _ _ none none .other (piped_delivered ⟨ones 10000 ++ ones 7, [], none⟩) (piped_delivered ⟨ones 10000, [], some .other⟩) piped_says piped_says (List.prefix_append _ _) (noFail_none (by simp)) rfl

end Chopper.Props
