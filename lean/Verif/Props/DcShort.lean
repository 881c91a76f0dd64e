import Verif.Props.CutShort
import Verif.Props.Broken
import Verif.Props.CsvBroken
import Verif.Spec.DcShort

/-!
# C149: DC inputs of the tool that are cut short
-/
namespace Chopper.Props
open Chopper Chopper.Spec

/-- The rows of a DC input that is cut short are the first rows of the complete one; and the header is the same. -/
theorem short_rows {env : CsvEnv} {dec : Decoders} {zip : ZipLib} {w w' : World} {cfg : Option (CsvInputConfig env.lib)} {i : Input} (hi : DcShort zip w w' i) {f f' : FileSource}
    (h : createFromInput (newInputs env dec zip w cfg [] []) w i = .ok f) (h' : createFromInput (newInputs env dec zip w' cfg [] []) w' i = .ok f') :
    f'.header = f.header ∧ f'.source.rows <+: f.source.rows := by
  obtain ⟨r, r', n, n', hd, src, k1, k2, k3, k4, k5, k6, k7⟩ := hi
  obtain ⟨a1, a2⟩ := dc_all k1 k3 k5 k6 h
  obtain ⟨b1, b2, _⟩ := C139_input env dec zip w' cfg i r' n' k2 k4 r.data hd src k5 k7 f' h'
  exact ⟨b1.trans a1.symm, a2 ▸ b2⟩

/-- **C149.** A run of the tool over any number of inputs of which some - DC - are cut short after any byte, against the run over the complete inputs in time order. If every input still has a row in
the time range and what is left of it is read without an error, then both runs succeed and write the same header; and the lines of the first run are lines of the second one, in the same order: no
line is wrong, doubled or moved. -/
theorem C149_lines (e : CliEnv) (w' : World) (a : CliArgs) (st : CliSettings e.csv.lib) (wholes parts : List FileSource) (h : Header) (d : Device) (hs : parseSettings e a = .ok st)
    (hp : e.userFactories = [] ∧ e.userTransports = []) (hi : ∀ i ∈ st.inputs, DcShort e.zip e.world w' i ∨ Unchanged e.zip e.world w' i)
    (ho : Opens e st wholes) (ho' : Opens { e with world := w' } st parts) (hg : GoodInputs st.range h wholes)
    (hsome : ∀ f ∈ parts, ∃ r ∈ f.source.rows, inRange st.range r.timestamp = true) (hread : ∀ f ∈ parts, f.source.ending = .eof)
    (hd : CsvTo e.out a.output d) (hr : Reliable d) (ht : st.outCfg.printTimeCol = true → st.outCfg.style = .humanReadable → st.outCfg.zone ≠ none)
    (hv : ∀ f ∈ wholes, ∀ r ∈ f.source.rows, inRange st.range r.timestamp = true → ∀ v ∈ r.values, ¬ Unprintable v) :
    ∃ out out' lines lines', (chopperCli e a).result = .ok () ∧ (chopperCli { e with world := w' } a).result = .ok () ∧
      (chopperCli e a).output = some out ∧ (chopperCli { e with world := w' } a).output = some out' ∧
      out.taken = d.taken ++ utf8Encode (csvHeaderText st.outCfg h.names ++ List.flatten lines) ∧
      out'.taken = d.taken ++ utf8Encode (csvHeaderText st.outCfg h.names ++ List.flatten lines') ∧
      (∀ l ∈ lines, ∃ r, CsvLines e.ff st.outCfg [r] l) ∧ List.Sublist lines' lines := by
  have hlp : parts.length = st.inputs.length := ho'.1
  have hlw : wholes.length = st.inputs.length := ho.1
  -- every part is the beginning of its whole
  have hpair : ∀ (k : Nat) f', parts[k]? = some f' → ∃ f, wholes[k]? = some f ∧ f'.header = f.header ∧ f'.source.rows <+: f.source.rows := by
    intro k f' hf'
    have hk := (List.getElem?_eq_some_iff.1 hf').1
    obtain ⟨i, hik⟩ : ∃ i, st.inputs[k]? = some i := ⟨_, List.getElem?_eq_getElem (by omega)⟩
    obtain ⟨f, hf⟩ : ∃ f, wholes[k]? = some f := ⟨_, List.getElem?_eq_getElem (by omega)⟩
    refine ⟨f, hf, ?_⟩
    have o1 := ho.2 k i f hik hf
    have o2 := ho'.2 k i f' hik hf'
    simp only [hp.1, hp.2] at o1 o2
    rcases hi i (List.mem_of_getElem? hik) with hi' | ⟨r, n, k1, k2⟩
    · exact short_rows hi' o1 o2
    · rw [k1.opens (some st.inCfg)] at o1
      rw [k2.opens (some st.inCfg), o1] at o2
      cases o2
      exact ⟨rfl, List.prefix_refl _⟩
  have hg' : GoodInputs st.range h parts := by
    refine ⟨?_, ?_, hsome, ?_⟩
    · intro f' hf'
      obtain ⟨k, hk⟩ := List.getElem?_of_mem hf'
      obtain ⟨f, h1, h2, _⟩ := hpair k f' hk
      exact h2.trans (hg.header f (List.mem_of_getElem? h1))
    · intro f' hf'
      obtain ⟨k, hk⟩ := List.getElem?_of_mem hf'
      obtain ⟨f, h1, _, h3⟩ := hpair k f' hk
      exact List.Pairwise.sublist h3.sublist (hg.sorted f (List.mem_of_getElem? h1))
    · intro f' hf'
      unfold endingWithin
      rw [hread f' hf']
      split <;> rfl
  have hv' : ∀ f ∈ parts, ∀ r ∈ f.source.rows, inRange st.range r.timestamp = true → ∀ v ∈ r.values, ¬ Unprintable v := by
    intro f' hf' r hr
    obtain ⟨k, hk⟩ := List.getElem?_of_mem hf'
    obtain ⟨f, h1, _, h3⟩ := hpair k f' hk
    exact hv f (List.mem_of_getElem? h1) r (h3.subset hr)
  obtain ⟨out, rows, p1, p2, p3, p4, p5, p6⟩ := csv_run_rows e a st wholes h d hs ho hg hd hr ht hv
  obtain ⟨out', rows', q1, q2, q3, q4, q5, q6⟩ := csv_run_rows { e with world := w' } a st parts h d hs ho' hg' hd hr ht hv'
  have hvr : ∀ (fs : List FileSource) (rows : List Row), (∀ f ∈ fs, ∀ r ∈ f.source.rows, inRange st.range r.timestamp = true → ∀ v ∈ r.values, ¬ Unprintable v) →
      IsMerge st.range (fs.map (·.source.rows)) rows → ∀ r ∈ rows, ∀ v ∈ r.values, ¬ Unprintable v := by
    intro fs rows hfs hm r hr v hv'
    obtain ⟨h1, i, hi, h2⟩ := merge_mem hm hr
    obtain ⟨f, hf, rfl⟩ := List.mem_map.1 hi
    exact hfs f hf r h2 h1 v hv'
  have v1 := hvr wholes rows hv p3
  have v2 := hvr parts rows' hv' q3
  have hsub : List.Sublist rows' rows := by
    refine merge_sublist (by simp [hlp, hlw]) ?_ q3 p3
    intro k x y hx hy
    rw [List.getElem?_map] at hx hy
    obtain ⟨f', hf', rfl⟩ := Option.map_eq_some_iff.1 hx
    obtain ⟨f, hf, _, h3⟩ := hpair k f' hf'
    rw [hf] at hy
    cases hy
    exact h3.sublist
  refine ⟨out, out', rows.map fun r => (csvRowsText e.ff st.outCfg [r]).1, rows'.map fun r => (csvRowsText e.ff st.outCfg [r]).1, p1, q1, p2, q2, ?_, ?_, ?_, hsub.map _⟩
  · rw [p6, csvLines_all ht rows v1, List.flatMap_def]
  · rw [q6, csvLines_all ht rows' v2, List.flatMap_def]
  · intro l hl
    obtain ⟨r, hr, rfl⟩ := List.mem_map.1 hl
    refine ⟨r, (csvRows_lines e.ff st.outCfg ht [r] ?_).2⟩
    intro x hx
    rw [List.mem_singleton] at hx
    subst hx
    exact v1 x hr

/-- **C149 (with CSV among the inputs).** The same if some of the inputs that are cut short are CSV, read with explicit settings (C147): then, but for at most one line for each of these, the lines
of the run over what is left are lines of the complete output, in the same order. -/
theorem C149_mixed (e : CliEnv) (hcrate : e.csv.csv = csvCrate) (w' : World) (a : CliArgs) (st : CliSettings e.csv.lib) (wholes parts : List FileSource) (h : Header) (d : Device) (b : Byte)
    (header : Bool) (u : TimestampUnits) (hs : parseSettings e a = .ok st) (hc : Explicit st.inCfg b header u) (hb : b.toNat < 128) (hp : e.userFactories = [] ∧ e.userTransports = [])
    (cut : Input → Bool) (hi : ∀ i ∈ st.inputs, if cut i then CutShort e.zip e.world w' i else (DcShort e.zip e.world w' i ∨ Unchanged e.zip e.world w' i))
    (ho : Opens e st wholes) (ho' : Opens { e with world := w' } st parts) (hg : GoodInputs st.range h wholes) (hg' : GoodInputs st.range h parts)
    (he : ∀ f ∈ wholes, f.source.ending = .eof) (hd : CsvTo e.out a.output d) (hr : Reliable d)
    (ht : st.outCfg.printTimeCol = true → st.outCfg.style = .humanReadable → st.outCfg.zone ≠ none)
    (hv : ∀ f ∈ wholes ++ parts, ∀ r ∈ f.source.rows, inRange st.range r.timestamp = true → ∀ v ∈ r.values, ¬ Unprintable v) :
    ∃ out out' lines lines' common, (chopperCli e a).result = .ok () ∧ (chopperCli { e with world := w' } a).result = .ok () ∧
      (chopperCli e a).output = some out ∧ (chopperCli { e with world := w' } a).output = some out' ∧
      out.taken = d.taken ++ utf8Encode (csvHeaderText st.outCfg h.names ++ List.flatten lines) ∧
      out'.taken = d.taken ++ utf8Encode (csvHeaderText st.outCfg h.names ++ List.flatten lines') ∧
      (∀ l ∈ lines ++ lines', ∃ r, CsvLines e.ff st.outCfg [r] l) ∧
      List.Sublist common lines ∧ List.Sublist common lines' ∧ lines'.length ≤ common.length + st.inputs.countP cut := by
  obtain ⟨out, rows, p1, p2, p3, p4, p5, p6⟩ := csv_run_rows e a st wholes h d hs ho hg hd hr ht (fun f hf => hv f (List.mem_append_left _ hf))
  obtain ⟨out', rows', q1, q2, q3, q4, q5, q6⟩ := csv_run_rows { e with world := w' } a st parts h d hs ho' hg' hd hr ht (fun f hf => hv f (List.mem_append_right _ hf))
  have hvr : ∀ (fs : List FileSource) (rows : List Row), (∀ f ∈ fs, f ∈ wholes ++ parts) → IsMerge st.range (fs.map (·.source.rows)) rows → ∀ r ∈ rows, ∀ v ∈ r.values, ¬ Unprintable v := by
    intro fs rows hfs hm r hr v hv'
    obtain ⟨h1, i, hi, h2⟩ := merge_mem hm hr
    obtain ⟨f, hf, rfl⟩ := List.mem_map.1 hi
    exact hv f (hfs f hf) r h2 h1 v hv'
  have v1 := hvr wholes rows (fun f hf => List.mem_append_left _ hf) p3
  have v2 := hvr parts rows' (fun f hf => List.mem_append_right _ hf) q3
  have hlp : parts.length = st.inputs.length := ho'.1
  have hlw : wholes.length = st.inputs.length := ho.1
  have hget : ∀ (k : Nat) q, (withoutLast cut st.inputs parts)[k]? = some q → ∃ i f, st.inputs[k]? = some i ∧ parts[k]? = some f ∧ q = if cut i then f.source.rows.dropLast else f.source.rows := by
    intro k q hq
    unfold withoutLast at hq
    rw [List.getElem?_zipWith] at hq
    cases hin : st.inputs[k]? with
    | none => rw [hin] at hq; cases hq
    | some i =>
      cases hpk : parts[k]? with
      | none => rw [hin, hpk] at hq; cases hq
      | some f =>
        rw [hin, hpk] at hq
        cases hq
        exact ⟨i, f, rfl, rfl, rfl⟩
  have hlq : (withoutLast cut st.inputs parts).length = st.inputs.length := by simp [withoutLast, hlp]
  -- without the last rows, the inputs are parts of both
  have s1 : ∀ (k : Nat) q y, (withoutLast cut st.inputs parts)[k]? = some q → (parts.map (·.source.rows))[k]? = some y → List.Sublist q y := by
    intro k q y hq hy
    obtain ⟨i, f, _, h2, rfl⟩ := hget k q hq
    rw [List.getElem?_map, h2] at hy
    cases hy
    split
    · exact List.dropLast_sublist _
    · exact List.Sublist.refl _
  have s2 : ∀ (k : Nat) q y, (withoutLast cut st.inputs parts)[k]? = some q → (wholes.map (·.source.rows))[k]? = some y → List.Sublist q y := by
    intro k q y hq hy
    obtain ⟨i, f', h1, h2, rfl⟩ := hget k q hq
    rw [List.getElem?_map] at hy
    obtain ⟨f, hf, rfl⟩ := Option.map_eq_some_iff.1 hy
    have o1 := ho.2 k i f h1 hf
    have o2 := ho'.2 k i f' h1 h2
    simp only [hp.1, hp.2] at o1 o2
    have hi' := hi i (List.mem_of_getElem? h1)
    by_cases hci : cut i = true
    · rw [if_pos hci] at hi' ⊢
      exact (cut_rows hcrate hc hb hi' o1 o2 (he f (List.mem_of_getElem? hf))).sublist
    · rw [if_neg hci] at hi' ⊢
      rcases hi' with hi' | ⟨r, n, k1, k2⟩
      · exact (short_rows hi' o1 o2).2.sublist
      · rw [k1.opens (some st.inCfg)] at o1
        rw [k2.opens (some st.inCfg), o1] at o2
        cases o2
        exact List.Sublist.refl _
  have hqs : ∀ s ∈ (withoutLast cut st.inputs parts).map (fun q => (⟨q, .eof⟩ : Source)), Sorted s.rows := by
    intro s hs
    obtain ⟨q, hq, rfl⟩ := List.mem_map.1 hs
    obtain ⟨k, hk⟩ := List.getElem?_of_mem hq
    obtain ⟨i, f, _, h2, _⟩ := hget k q hk
    have := s1 k q f.source.rows hk (by rw [List.getElem?_map, h2]; rfl)
    exact List.Pairwise.sublist this (hg'.sorted f (List.mem_of_getElem? h2))
  have hm := mergeOf_isMerge st.range _ hqs
  generalize mergeOf st.range ((withoutLast cut st.inputs parts).map fun q => (⟨q, .eof⟩ : Source)) = m at hm
  rw [List.map_map, show ((fun x : Source => x.rows) ∘ fun q => (⟨q, .eof⟩ : Source)) = id from rfl, List.map_id] at hm
  have c1 := merge_sublist (by simp [hlq, hlp]) s1 hm q3
  have c2 := merge_sublist (by simp [hlq, hlw]) s2 hm p3
  have hcount : rows'.length ≤ m.length + st.inputs.countP cut := by
    rw [(isMerge_count q3).length_eq, (isMerge_count hm).length_eq]
    exact withoutLast_count cut _ st.inputs parts hlp
  refine ⟨out, out', rows.map fun r => (csvRowsText e.ff st.outCfg [r]).1, rows'.map fun r => (csvRowsText e.ff st.outCfg [r]).1, m.map fun r => (csvRowsText e.ff st.outCfg [r]).1,
    p1, q1, p2, q2, ?_, ?_, ?_, c2.map _, c1.map _, by simpa using hcount⟩
  · rw [p6, csvLines_all ht rows v1, List.flatMap_def]
  · rw [q6, csvLines_all ht rows' v2, List.flatMap_def]
  · intro l hl
    rw [← List.map_append] at hl
    obtain ⟨r, hr, rfl⟩ := List.mem_map.1 hl
    refine ⟨r, (csvRows_lines e.ff st.outCfg ht [r] ?_).2⟩
    intro x hx
    rw [List.mem_singleton] at hx
    subst hx
    rcases List.mem_append.1 hr with hr | hr
    · exact v1 x hr
    · exact v2 x hr

/-! ### A case that meets the hypotheses -/

/-- **C149 (with a sign).** If what is left of every input that is cut short ends with an error instead (a failing read, or a file that ends within a row), and the run over the complete inputs
succeeds, then what the run writes, as CSV or DC, is a beginning of the complete output; all of it if the run reports success. -/
theorem C149_errors (e : CliEnv) (w' : World) (a : CliArgs) (st : CliSettings e.csv.lib) (wholes : List FileSource) (h : Header) (d : Device) (hs : parseSettings e a = .ok st)
    (hp : e.userFactories = [] ∧ e.userTransports = [])
    (hi : ∀ i ∈ st.inputs, Unchanged e.zip e.world w' i ∨ (DcShort e.zip e.world w' i ∧
      ∀ f', createFromInput (newInputs e.csv e.dec e.zip w' (some st.inCfg) [] []) w' i = .ok f' → f'.source.ending ≠ .eof))
    (ho : Opens e st wholes) (hh : ∀ f ∈ wholes, f.header = h) (hd : CsvTo e.out a.output d ∨ DcTo e.out a.output d) (hok : (chopperCli e a).result = .ok ())
    (out out' : Device) (hout : (chopperCli e a).output = some out) (hout' : (chopperCli { e with world := w' } a).output = some out') :
    out'.taken <+: out.taken ∧ ((chopperCli { e with world := w' } a).result = .ok () → out'.taken = out.taken) := by
  obtain ⟨parts, ho'⟩ := opens_of_output (e := { e with world := w' }) (st := st) hs hout'
  refine tool_parts e w' a st parts wholes h d hs ho ho' hh ?_ hd hok out out' hout hout'
  intro i hin f f' h1 h2
  rw [hp.1, hp.2] at h1 h2
  rcases hi i hin with ⟨r, n, k1, k2⟩ | ⟨k1, k2⟩
  · rw [k1.opens (some st.inCfg)] at h1
    rw [k2.opens (some st.inCfg), h1] at h2
    cases h2
    exact ⟨rfl, .inl rfl⟩
  · obtain ⟨g1, g2⟩ := short_rows k1 h1 h2
    exact ⟨g1, .inr ⟨g2, k2 f' h2⟩⟩

/-- The lines `1,x` and `12,y`, and only the first five bytes of them: everything `C149_mixed` asks for (with no DC input: for one, see the next examples), and so what it says. (The rows are at the times 1 and 12, and 1 and 1.) -/
example : ∃ out out' lines lines' common, (chopperCli (pipedEnv ⟨twoLines, [], none⟩) pipedArgs).output = some out ∧ (chopperCli (pipedEnv ⟨twoLines.take 5, [], none⟩) pipedArgs).output = some out' ∧
    out.taken = utf8Encode (csvHeaderText (pipedSettings).outCfg pairHeader.names ++ List.flatten lines) ∧
    out'.taken = utf8Encode (csvHeaderText (pipedSettings).outCfg pairHeader.names ++ List.flatten lines') ∧
    List.Sublist common lines ∧ List.Sublist common lines' ∧ lines'.length ≤ common.length + 1 := by
  obtain ⟨out, out', lines, lines', common, _, _, h3, h4, h5, h6, _, h8, h9, h10⟩ := C149_mixed (pipedEnv ⟨twoLines, [], none⟩) rfl (pipedWorld ⟨twoLines.take 5, [], none⟩) pipedArgs pipedSettings
    _ _ pairHeader ⟨[], [.take 3], 0⟩ 44 false .nanos (piped_settings _) nanos_explicit (by decide) ⟨rfl, rfl⟩ (fun _ => true)
    (by
      intro i hi
      replace hi : i ∈ [pipedCsv] := hi
      rw [List.mem_singleton] at hi
      subst hi
      rw [if_pos rfl]
      exact ⟨_, _, none, none, piped_delivered ⟨twoLines, [], none⟩, piped_delivered ⟨twoLines.take 5, [], none⟩, piped_says, piped_says, List.take_prefix _ _, noFail_none (by simp)⟩)
    (piped_opens two_read) (piped_opens cut_read) (pair_good 12 _ _ _ _ (by decide)) (pair_good 1 _ _ _ _ (by decide)) (by simp) (.inl ⟨rfl, rfl⟩) (by intro k hk; simp at hk) (by intro _ h; cases h)
    (by
      intro f hf r hr _ v hv
      have : ∃ s, v = .string s := by
        simp only [List.mem_append, List.mem_singleton] at hf
        rcases hf with rfl | rfl <;> simp only [List.mem_cons, List.not_mem_nil, or_false] at hr <;> rcases hr with rfl | rfl <;>
          simp only [List.mem_cons, List.not_mem_nil, or_false] at hv <;> rcases hv with rfl | rfl <;> exact ⟨_, rfl⟩
      obtain ⟨s, rfl⟩ := this
      rintro (⟨b, hb⟩ | ⟨b, hb⟩) <;> cases hb)
  exact ⟨out, out', lines, lines', common, h3, h4, h5, h6, h8, h9, h10⟩

/-- `chopper x.dc`, with times as numbers -/
def shortArgs : CliArgs := { inputs := some ["x.dc".toList], output := none, outEpoch := true }

/-- A DC file of `k + 1 + m` rows of which the last `m` are missing: everything `C149_lines` asks for, and so what it says. -/
example (k m : Nat) : ∃ out out' lines lines', (chopperCli (lossEnv (lossFile (k + 1 + m))) shortArgs).output = some out ∧ (chopperCli (lossEnv (lossFile (k + 1))) shortArgs).output = some out' ∧
    out.taken = utf8Encode (csvHeaderText lossSettings.outCfg lossHeader.names ++ List.flatten lines) ∧
    out'.taken = utf8Encode (csvHeaderText lossSettings.outCfg lossHeader.names ++ List.flatten lines') ∧ List.Sublist lines' lines := by
  have hl : lastComponent "x.dc".toList = some (['x'] ++ ".dc".toList) := by decide +kernel
  have hg := loss_good (k + m)
  rw [show k + m + 1 = k + 1 + m by omega] at hg
  obtain ⟨out, out', lines, lines', _, _, h1, h2, h3, h4, _, h5⟩ := C149_lines (lossEnv (lossFile (k + 1 + m))) (lossWorld (lossFile (k + 1))) shortArgs lossSettings _ _ lossHeader ⟨[], [], 0⟩ rfl
    ⟨rfl, rfl⟩ (by
      intro i hi
      replace hi : i ∈ [(⟨.path "x.dc".toList, .auto⟩ : Input)] := hi
      rw [List.mem_singleton] at hi
      subst hi
      exact .inl ⟨_, _, _, _, lossHeader, _, broken_delivered _ (dc_not_zip (loss_file _)), broken_delivered _ (dc_not_zip (loss_file _)), .inl ⟨_, hl, rfl⟩, .inl ⟨_, hl, rfl⟩, loss_file _,
        (by intro k hk; rcases hk with hk | hk <;> simp at hk), by rw [loss_grow (k + 1) m]; exact List.prefix_append _ _⟩)
    ((loss_over _).opens (loss_file (k + 1 + m))) ((loss_over (lossFile (k + 1))).opens (loss_file (k + 1))) hg
    (by
      intro f hf
      rw [List.mem_singleton] at hf
      subst hf
      exact ⟨lossRow, by simp [List.replicate_succ], rfl⟩)
    (by
      intro f hf
      rw [List.mem_singleton] at hf
      subst hf
      rfl)
    (.inl ⟨rfl, rfl⟩) (by intro k hk; simp at hk) (by intro _ h; cases h)
    (by
      intro f hf r hr _ v hv
      rw [List.mem_singleton] at hf
      subst hf
      rw [(List.mem_replicate.1 hr).2] at hv
      replace hv : v ∈ lossRow.values := hv
      simp only [lossRow, List.mem_cons, List.not_mem_nil, or_false] at hv
      rcases hv with rfl | rfl <;> (rintro (⟨b, hb⟩ | ⟨b, hb⟩) <;> cases hb))
  exact ⟨out, out', lines, lines', h1, h2, h3, h4, h5⟩

/-- A DC file of two rows, and what is left if it ends within the second row. -/
theorem torn_file : IsDcFile (lossFile 1 ++ lossPart.take 10) lossHeader ⟨[lossRow], .fail (.io .unexpectedEof)⟩ := by
  rw [isDcFile_iff .wraps]
  refine ⟨⟨ofBytes (lossPart ++ lossPart.take 10), lossHeader⟩, (C94_open _ _ _).2 ⟨lossHdr, by simp [lossFile, ofBytes_append], loss_header⟩, rfl, ?_⟩
  have h : (DcSource.toFile ⟨ofBytes (lossPart ++ lossPart.take 10), lossHeader⟩).source = ⟨[lossRow], .fail (.io .unexpectedEof)⟩ := by decide +kernel
  exact h ▸ dc_toFile_runs _

/-- A file that ends within its second row: everything `C149_errors` asks for, and so what it says. -/
example (out' : Device) (hout' : (chopperCli (lossEnv (lossFile 1 ++ lossPart.take 10)) brokenArgs).output = some out') : ∃ out, (chopperCli (lossEnv (lossFile 2)) brokenArgs).output = some out ∧
    out'.taken <+: out.taken := by
  obtain ⟨out, h1, h2⟩ := broken_run 1
  have hl : lastComponent "x.dc".toList = some (['x'] ++ ".dc".toList) := by decide +kernel
  refine ⟨out, h2, (C149_errors (lossEnv (lossFile 2)) (lossWorld (lossFile 1 ++ lossPart.take 10)) brokenArgs lossSettings _ lossHeader exDev rfl ⟨rfl, rfl⟩ ?_
    ((loss_over _).opens (loss_file 2)) (by simp) (.inr ⟨_, rfl, ⟨"y.".toList, by decide +kernel⟩, rfl⟩) h1 out out' h2 hout').1⟩
  intro i hi
  replace hi : i ∈ [(⟨.path "x.dc".toList, .auto⟩ : Input)] := hi
  rw [List.mem_singleton] at hi
  subst hi
  refine .inr ⟨⟨_, _, _, _, lossHeader, _, broken_delivered _ (dc_not_zip (loss_file _)), broken_delivered _ (dc_not_zip torn_file), .inl ⟨_, hl, rfl⟩, .inl ⟨_, hl, rfl⟩, loss_file _,
    (by intro k hk; rcases hk with hk | hk <;> simp at hk), ?_⟩, ?_⟩
  · exact ⟨lossPart.drop 10, by rw [List.append_assoc, List.take_append_drop]; simp [lossFile, List.replicate_succ]⟩
  · intro f' hf'
    have ho : Opens (lossEnv (lossFile 1 ++ lossPart.take 10)) lossSettings [⟨lossHeader, ⟨[lossRow], .fail (.io .unexpectedEof)⟩⟩] := (loss_over _).opens torn_file
    have h0 := ho.2 0 _ _ rfl rfl
    replace h0 := h0.symm.trans hf'
    cases h0
    simp

end Chopper.Props
