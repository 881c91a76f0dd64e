import Verif.Props.MergeLaws
import Verif.Props.DcGrow

/-!
# A DC file as an intermediate result: C104
-/
namespace Chopper.Props
open Chopper Spec

/-- A run that writes the (merged) inputs `B` with header `h` to a new DC file, where nothing fails. The table is one that DC can hold: at least two columns, not one more than a
multiple of eight (C36), with names, of the supported types; texts below 4 GiB. -/
structure ToDc (e : CliEnv) (a : CliArgs) (st : CliSettings e.csv.lib) (h : Header) (B : List FileSource) (d : Device) : Prop where
  settings : parseSettings e a = .ok st
  opens : Opens e st B
  good : GoodInputs st.range h B
  output : DcTo e.out a.output d
  reliable : Reliable d
  fresh : d.taken = []
  wide : h.names.length = h.types.length
  two : 2 ≤ h.types.length
  notNine : h.types.length % 8 ≠ 1
  few : h.types.length < 2 ^ 32
  types : ∀ t ∈ h.types, t ≠ .boolean ∧ t ≠ .byteBuf
  names : ∀ n ∈ h.names, (utf8Encode n).length < 2 ^ 32 ∧ n ≠ []
  rows : ∀ f ∈ B, ∀ r ∈ f.source.rows, inRange st.range r.timestamp = true → RowFits h.types r

/-- The path names a file with these bytes, which can be read to its end, and it is taken for a DC file because of its name or of the format given for it. -/
structure DcAt (w : World) (s : Str) (fmt : InputFormat) (bytes : List Byte) : Prop where
  file : ∃ inner, FileAt w s inner ∧ inner.data = bytes ∧ NoFail inner
  local' : ¬ HttpAddress s
  asDc : (∃ base, lastComponent s = some (base ++ ".dc".toList) ∧ fmt = .auto) ∨ fmt = .extension "dc".toList ∨ fmt = .extension ".dc".toList

/-- **C104 (the file).** The file such a run writes is, as an input of the tool in any world, the time-ordered merge of the inputs: same header, same rows, and a normal end. -/
theorem C104_file (e : CliEnv) (a : CliArgs) (st : CliSettings e.csv.lib) (h : Header) (B : List FileSource) (d : Device) (hd : ToDc e a st h B d) :
    ∃ out rows, (chopperCli e a).result = .ok () ∧ (chopperCli e a).output = some out ∧ IsMerge st.range (B.map (·.source.rows)) rows ∧
      ∀ (env : CsvEnv) (dec : Decoders) (zip : ZipLib) (w : World) (csv : Option (CsvInputConfig env.lib)) (s : Str) (fmt : InputFormat), DcAt w s fmt out.taken →
        createFromInput (newInputs env dec zip w csv [] []) w ⟨.path s, fmt⟩ = .ok ⟨h, ⟨rows, .eof⟩⟩ := by
  obtain ⟨out, rows, h1, h2, h3, h4, h5, h6⟩ := C61_dc e a st B h d hd.settings hd.opens hd.good hd.output hd.reliable hd.wide hd.two hd.few hd.types
    (fun n hn => (hd.names n hn).1) hd.rows
  refine ⟨out, rows, h1, h2, h3, ?_⟩
  intro env dec zip w csv s fmt ⟨⟨inner, hf, hb, hn⟩, hh, hfmt⟩
  obtain ⟨_, src, fin, h7, h8, h9, h10, h11⟩ := C36_roundtrip_partial e.csv.ov env.ov h rows hd.wide hd.two hd.notNine hd.few hd.types (fun n hn => (hd.names n hn).1) h4
  rw [hd.fresh, List.nil_append] at h6
  rw [← h6, ← hb] at h7
  have hz : ¬ [0x50, 0x4b, 3, 4] <+: inner.data := by
    obtain ⟨c, hc, ⟨user, cols, _, _, _, _, hx, _⟩⟩ := dcOpen_iff.1 h7
    intro hp
    have h0 : (ofBytes inner.data).head? = some (.byte 0) := by rw [hc, hx]; rfl
    obtain ⟨t, ht⟩ := hp
    rw [← ht] at h0
    cases h0
  rw [C66_dc_file env dec zip w csv s fmt inner hf.notDir hf.here hf.opens hh hz hn hfmt, h7, Res.bind_ok]
  have hsrc : src.header = h := by
    rw [C36_names_kept h.names (fun n hn => (hd.names n hn).2)] at h9
    obtain ⟨names, types⟩ := h
    obtain ⟨s, names', types'⟩ := src
    simp only at h8 h9
    rw [h8, h9]
  have hruns : RunsAs DcSource.nextRow src ⟨rows, .eof⟩ := ⟨fin, yields_delivers.2 h10, by rw [h11]⟩
  have := runsAs_unique (dc_toFile_runs src) hruns
  show Res.ok src.toFile = _
  rw [show src.toFile = ⟨src.header, src.toFile.source⟩ from rfl, this, hsrc]

/-- The two ways: `A`, the DC file in place of `B`, and `C` (run 2); or all inputs at once (run 0). -/
structure TwoWays (e2 e : CliEnv) (st2 : CliSettings e2.csv.lib) (st : CliSettings e.csv.lib) (a2 a : CliArgs) (h : Header) (A B C : List FileSource) (m : FileSource) (s : Str)
    (fmt : InputFormat) : Prop where
  settings2 : parseSettings e2 a2 = .ok st2
  settings : parseSettings e a = .ok st
  opens2 : Opens e2 st2 (A ++ [m] ++ C)
  opens : Opens e st (A ++ B ++ C)
  input : st2.inputs[A.length]? = some ⟨.path s, fmt⟩
  noUser : e2.userFactories = [] ∧ e2.userTransports = []
  good : GoodInputs st.range h (A ++ B ++ C)
  range : st2.range = st.range

theorem through_mid {e1 e2 e : CliEnv} {a1 a2 a : CliArgs} {st1 : CliSettings e1.csv.lib} {st2 : CliSettings e2.csv.lib} {st : CliSettings e.csv.lib} {h : Header}
    {A B C : List FileSource} {m : FileSource} {s : Str} {fmt : InputFormat} {d1 : Device} (h1 : ToDc e1 a1 st1 h B d1) (h2 : TwoWays e2 e st2 st a2 a h A B C m s fmt)
    (hfile : ∀ out, (chopperCli e1 a1).output = some out → DcAt e2.world s fmt out.taken) (hr : ∀ t, inRange st.range t = true → inRange st1.range t = true) :
    ∃ rows, m = ⟨h, ⟨rows, .eof⟩⟩ ∧ IsMerge st1.range (B.map (·.source.rows)) rows ∧ GoodInputs st2.range h (A ++ [m] ++ C) := by
  obtain ⟨out, rows, _, p2, p3, p4⟩ := C104_file e1 a1 st1 h B d1 h1
  have hm : m = ⟨h, ⟨rows, .eof⟩⟩ := by
    have := h2.opens2.2 A.length _ m h2.input (by simp)
    rw [h2.noUser.1, h2.noUser.2, p4 _ _ _ _ _ _ _ (hfile out p2)] at this
    cases this
    rfl
  refine ⟨rows, hm, p3, ?_⟩
  have hg := h2.good
  rw [h2.range]
  have hcase : ∀ f ∈ A ++ [m] ++ C, f ∈ A ++ B ++ C ∨ f = m := by
    intro f hf
    simp only [List.mem_append, List.mem_singleton] at hf ⊢
    rcases hf with (hf | hf) | hf
    · exact .inl (.inl (.inl hf))
    · exact .inr hf
    · exact .inl (.inr hf)
  refine ⟨?_, ?_, ?_, ?_⟩
  · intro f hf
    rcases hcase f hf with hf | rfl
    · exact hg.header f hf
    · rw [hm]
  · intro f hf
    rcases hcase f hf with hf | rfl
    · exact hg.sorted f hf
    · rw [hm]; exact p3.sorted
  · intro f hf
    rcases hcase f hf with hf | rfl
    · exact hg.some f hf
    · obtain ⟨b, hb⟩ := List.exists_mem_of_ne_nil _ (opens_ne h1.settings h1.opens)
      obtain ⟨r, hr1, hr2⟩ := hg.some b (by simp [hb])
      refine ⟨r, ?_, hr2⟩
      rw [hm]
      have : r ∈ rows.filter (fun x => x.timestamp == r.timestamp) := by
        rw [p3.rowsAt r.timestamp]
        refine List.mem_flatMap.2 ⟨b.source.rows, by simpa using ⟨b, hb, rfl⟩, List.mem_filter.2 ⟨hr1, ?_⟩⟩
        simp [hr _ hr2]
      exact (List.mem_filter.1 this).1
  · intro f hf
    rcases hcase f hf with hf | rfl
    · exact hg.readable f hf
    · rw [hm]
      unfold endingWithin
      split <;> rfl

theorem through_merge {e1 e2 e : CliEnv} {a2 a : CliArgs} {st1 : CliSettings e1.csv.lib} {st2 : CliSettings e2.csv.lib} {st : CliSettings e.csv.lib} {h : Header}
    {A B C : List FileSource} {m : FileSource} {s : Str} {fmt : InputFormat} (h2 : TwoWays e2 e st2 st a2 a h A B C m s fmt)
    (hr : ∀ t, inRange st.range t = true → inRange st1.range t = true) {mid : List Row} (hm : m = ⟨h, ⟨mid, .eof⟩⟩) (h3 : IsMerge st1.range (B.map (·.source.rows)) mid)
    {rows2 rows : List Row} (hr2 : IsMerge st2.range ((A ++ [m] ++ C).map (·.source.rows)) rows2) (hr0 : IsMerge st.range ((A ++ B ++ C).map (·.source.rows)) rows) :
    rows2 = rows := by
  rw [h2.range] at hr2
  subst hm
  simp only [List.map_append, List.map_cons, List.map_nil] at hr2 hr0
  exact isMerge_unique (isMerge_stage hr h3 hr2) hr0

/-- **C104 (to CSV).** Run 1 writes the inputs `B` to a DC file. Run 2, over `A`, that file and `C`, writes the same CSV, byte for byte, as a run over `A`, `B` and `C`. -/
theorem C104_csv (e1 e2 e : CliEnv) (a1 a2 a : CliArgs) (st1 : CliSettings e1.csv.lib) (st2 : CliSettings e2.csv.lib) (st : CliSettings e.csv.lib) (h : Header)
    (A B C : List FileSource) (m : FileSource) (s : Str) (fmt : InputFormat) (d1 d2 d : Device) (h1 : ToDc e1 a1 st1 h B d1)
    (hfile : ∀ out, (chopperCli e1 a1).output = some out → DcAt e2.world s fmt out.taken) (h2 : TwoWays e2 e st2 st a2 a h A B C m s fmt)
    (hr : ∀ t, inRange st.range t = true → inRange st1.range t = true)
    (hd2 : CsvTo e2.out a2.output d2 ∧ Reliable d2) (hd : CsvTo e.out a.output d ∧ Reliable d) (hdd : d2.taken = d.taken) (hcfg : st2.outCfg = st.outCfg ∧ e2.ff = e.ff)
    (ht : st.outCfg.printTimeCol = true → st.outCfg.style = .humanReadable → st.outCfg.zone ≠ none)
    (hv : ∀ f ∈ A ++ B ++ C, ∀ r ∈ f.source.rows, inRange st.range r.timestamp = true → ∀ v ∈ r.values, ¬ Unprintable v) :
    ∃ out2 out, (chopperCli e2 a2).result = .ok () ∧ (chopperCli e2 a2).output = some out2 ∧ (chopperCli e a).result = .ok () ∧ (chopperCli e a).output = some out ∧
      out2.taken = out.taken := by
  obtain ⟨mid, hm, p1, p2⟩ := through_mid h1 h2 hfile hr
  obtain ⟨out2, rows2, q1, q2, q3, _, _, q4⟩ := csv_run_rows e2 a2 st2 _ h d2 h2.settings2 h2.opens2 p2 hd2.1 hd2.2 (by rw [hcfg.1]; exact ht) (by
    intro f hf r hr' hin
    rw [h2.range] at hin
    simp only [List.mem_append, List.mem_singleton] at hf
    rcases hf with (hf | rfl) | hf
    · exact hv f (by simp [hf]) r hr' hin
    · rw [hm] at hr'
      obtain ⟨_, i, hi, hri⟩ := merge_mem p1 hr'
      obtain ⟨b, hb, rfl⟩ := List.mem_map.1 hi
      exact hv b (by simp [hb]) r hri hin
    · exact hv f (by simp [hf]) r hr' hin)
  obtain ⟨out, rows, s1, s2, s3, _, _, s4⟩ := csv_run_rows e a st _ h d h2.settings h2.opens h2.good hd.1 hd.2 ht hv
  refine ⟨out2, out, q1, q2, s1, s2, ?_⟩
  rw [q4, s4, through_merge h2 hr hm p1 q3 s3, hcfg.1, hcfg.2, hdd]

/-- **C104 (to DC).** The same for DC output. -/
theorem C104_dc (e1 e2 e : CliEnv) (a1 a2 a : CliArgs) (st1 : CliSettings e1.csv.lib) (st2 : CliSettings e2.csv.lib) (st : CliSettings e.csv.lib) (h : Header)
    (A B C : List FileSource) (m : FileSource) (s : Str) (fmt : InputFormat) (d1 d2 d : Device) (h1 : ToDc e1 a1 st1 h B d1)
    (hfile : ∀ out, (chopperCli e1 a1).output = some out → DcAt e2.world s fmt out.taken) (h2 : TwoWays e2 e st2 st a2 a h A B C m s fmt)
    (hr : ∀ t, inRange st.range t = true → inRange st1.range t = true)
    (hd2 : DcTo e2.out a2.output d2 ∧ Reliable d2) (hd : DcTo e.out a.output d ∧ Reliable d) (hdd : d2.taken = d.taken) (hov : e2.csv.ov = e.csv.ov)
    (hv : ∀ f ∈ A ++ B ++ C, ∀ r ∈ f.source.rows, inRange st.range r.timestamp = true → RowFits h.types r) :
    ∃ out2 out, (chopperCli e2 a2).result = .ok () ∧ (chopperCli e2 a2).output = some out2 ∧ (chopperCli e a).result = .ok () ∧ (chopperCli e a).output = some out ∧
      out2.taken = out.taken := by
  obtain ⟨mid, hm, p1, p2⟩ := through_mid h1 h2 hfile hr
  obtain ⟨out2, rows2, q1, q2, q3, _, _, q4⟩ := C61_dc e2 a2 st2 _ h d2 h2.settings2 h2.opens2 p2 hd2.1 hd2.2 h1.wide h1.two h1.few h1.types (fun n hn => (h1.names n hn).1) (by
    intro f hf r hr' hin
    rw [h2.range] at hin
    simp only [List.mem_append, List.mem_singleton] at hf
    rcases hf with (hf | rfl) | hf
    · exact hv f (by simp [hf]) r hr' hin
    · rw [hm] at hr'
      obtain ⟨_, i, hi, hri⟩ := merge_mem p1 hr'
      obtain ⟨b, hb, rfl⟩ := List.mem_map.1 hi
      exact hv b (by simp [hb]) r hri hin
    · exact hv f (by simp [hf]) r hr' hin)
  obtain ⟨out, rows, s1, s2, s3, _, _, s4⟩ := C61_dc e a st _ h d h2.settings h2.opens h2.good hd.1 hd.2 h1.wide h1.two h1.few h1.types (fun n hn => (h1.names n hn).1) hv
  refine ⟨out2, out, q1, q2, s1, s2, ?_⟩
  rw [q4, s4, through_merge h2 hr hm p1 q3 s3, hov, hdd]

/-! ### The hypotheses are met: `a.csv` and `b.csv` are merged into `m.dc`, and `m.dc` is written as CSV -/

def thruArgs1 : CliArgs := { lawArgs ["a.csv".toList, "b.csv".toList] none none with output := some "m.dc".toList }
/-- A world with the file `m.dc`. -/
def thruEnv2 (bytes : List Byte) : CliEnv := { copyEnv with world :=
  ⟨fun p => p == utf8Encode "m.dc".toList, fun _ => false, fun p => if p = utf8Encode "m.dc".toList then some ⟨bytes, [.bytes 5], none⟩ else none, fun _ => none,
   fun _ => .err (.io .other), ⟨[], [], none⟩⟩ }
def thruInputs : List FileSource := [lawA.2, lawB.2].map (tableFile copyNames lawTime)

theorem thru_copy : CopyRun (lawEnv lawFiles) (lawArgs ["a.csv".toList, "b.csv".toList] none none) (lawSettings ["a.csv".toList, "b.csv".toList] ⟨none, none⟩) ',' 0 .seconds copyNames
    [lawA.2, lawB.2] lawTime exDev := by
  have sub : ∀ x ∈ [lawA, lawB], x ∈ lawFiles := by decide +kernel
  exact law_run lawFiles [lawA, lawB] none none ⟨none, none⟩ (law_settings _ _ _ _ _ rfl rfl) (fun x hx => law_found (sub x hx)) (fun x hx => law_name (sub x hx)) (by decide +kernel)

theorem thru_fits {f : FileSource} (hf : f ∈ thruInputs) {r : Row} (hr : r ∈ f.source.rows) : RowFits [.string, .string] r := by
  have h : ∀ t ∈ [lawA.2, lawB.2], ∀ rec ∈ t, rec.length = 2 ∧ ∀ s ∈ rec, (utf8Encode s).length < 2 ^ 32 := by decide +kernel
  obtain ⟨t, ht, rfl⟩ := List.mem_map.1 hf
  obtain ⟨rec, hrec, rfl⟩ := List.mem_map.1 hr
  obtain ⟨h1, h2⟩ := h t ht rec hrec
  refine ⟨by simp [h1], ?_⟩
  intro i t' v hi hv
  have hs : t' = .string := by
    have := List.mem_of_getElem? hi
    simpa using this
  subst hs
  obtain ⟨s, hs, rfl⟩ := List.mem_map.1 (List.mem_of_getElem? hv)
  exact h2 s hs

theorem thru_toDc : ToDc (lawEnv lawFiles) thruArgs1 (lawSettings ["a.csv".toList, "b.csv".toList] ⟨none, none⟩) ⟨copyNames, [.string, .string]⟩ thruInputs exDev where
  settings := thru_copy.settings
  opens := copy_opens thru_copy
  good := copy_good thru_copy
  output := ⟨_, rfl, by decide, rfl⟩
  reliable := by intro k hk; simp [exDev] at hk
  fresh := rfl
  wide := rfl
  two := by decide
  notNine := by decide
  few := by decide
  types := by decide
  names := by decide +kernel
  rows := fun _ hf _ hr _ => thru_fits hf hr

theorem thru_dcAt (bytes : List Byte) : DcAt (thruEnv2 bytes).world "m.dc".toList .auto bytes := by
  refine ⟨⟨⟨bytes, [.bytes 5], none⟩, ⟨rfl, by simp [thruEnv2], by simp [thruEnv2]⟩, rfl, ?_⟩, by decide +kernel, .inl ⟨['m'], by decide +kernel, rfl⟩⟩
  rintro k (h | h)
  · simp at h
  · cases h

/-- All hypotheses of C104 (to CSV) hold. -/
example : ∃ out m, (chopperCli (lawEnv lawFiles) thruArgs1).output = some out ∧ DcAt (thruEnv2 out.taken).world "m.dc".toList .auto out.taken ∧
    TwoWays (thruEnv2 out.taken) (lawEnv lawFiles) (lawSettings ["m.dc".toList] ⟨none, none⟩) (lawSettings ["a.csv".toList, "b.csv".toList] ⟨none, none⟩)
      (lawArgs ["m.dc".toList] none none) (lawArgs ["a.csv".toList, "b.csv".toList] none none) ⟨copyNames, [.string, .string]⟩ [] thruInputs [] m "m.dc".toList .auto := by
  obtain ⟨out, rows, _, h2, _, h4⟩ := C104_file _ _ _ _ _ _ thru_toDc
  have h5 := h4 (thruEnv2 out.taken).csv (thruEnv2 out.taken).dec (thruEnv2 out.taken).zip (thruEnv2 out.taken).world (some (lawSettings ["m.dc".toList] ⟨none, none⟩).inCfg) _ _
    (thru_dcAt out.taken)
  refine ⟨out, ⟨⟨copyNames, [.string, .string]⟩, ⟨rows, .eof⟩⟩, h2, thru_dcAt _, ⟨rfl, thru_copy.settings, ⟨rfl, ?_⟩, ?_, rfl, ⟨rfl, rfl⟩, ?_, rfl⟩⟩
  · intro i inp f h1 h2
    match i with
    | 0 => cases h1; cases h2; exact h5
    | i + 1 => simp at h2
  · rw [List.nil_append, List.append_nil]; exact copy_opens thru_copy
  · rw [List.nil_append, List.append_nil]; exact copy_good thru_copy

end Chopper.Props
