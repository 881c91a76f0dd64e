import Verif.Proofs.Chopping
import Verif.Props.CsvCopy

/-!
# How reads and writes are chopped up does not matter (C92)
-/
namespace Chopper.Props
open Chopper Chopper.Spec

/-- Output sinks at the same point of the same output. -/
def SameSink (e : SinkEnv) (s1 s2 : CliSink) : Prop :=
  ∃ (mk : BufWriter → CliSink) (row : Row → Wr Unit) (w1 w2 : BufWriter), WritesRows e mk row ∧ s1 = mk w1 ∧ s2 = mk w2 ∧ SameWriter w1 w2

theorem newHeaderSink_same (e : SinkEnv) {o1 o2 : OutWorld} (ho : SameOut o1 o2) (output : Option Str) (cfg : CsvOutputConfig) :
    (newHeaderSink e o1 output cfg).1 = (newHeaderSink e o2 output cfg).1 ∧
    SameRes (fun f g => ∀ h, SameRes (fun p q => SameSink e p.1 q.1) (f h) (g h)) (newHeaderSink e o1 output cfg).2 (newHeaderSink e o2 output cfg).2 := by
  have new : ∀ {d1 d2 : Device}, SameDevice d1 d2 → SameWriter (BufWriter.new d1) (BufWriter.new d2) := fun hd =>
    ⟨by show _ ++ [] = _ ++ []; rw [List.append_nil, List.append_nil]; exact hd.taken, hd.reliable1, hd.reliable2⟩
  have csv : ∀ {d1 d2 : Device}, SameDevice d1 d2 → ∀ h, SameRes (fun p q => SameSink e p.1 q.1) (csvSinkHeader e cfg d1 h) (csvSinkHeader e cfg d2 h) := by
    intro d1 d2 hd h
    obtain ⟨g1, g2, g3⟩ := (new hd).emit e.ch (utf8Encode (csvHeaderText cfg h.names)) (.ok ())
    unfold csvSinkHeader
    simp only [g2, g3]
    exact .ok ⟨_, _, _, _, csv_writes e cfg, rfl, rfl, g1⟩
  have dc : ∀ {d1 d2 : Device}, SameDevice d1 d2 → ∀ h, SameRes (fun p q => SameSink e p.1 q.1) (dcSinkHeader e d1 h) (dcSinkHeader e d2 h) := by
    intro d1 d2 hd h
    obtain ⟨g1, g2, g3⟩ := (new hd).emit e.ch (dcProcessHeader e.ov h).out (dcProcessHeader e.ov h).res
    unfold dcSinkHeader
    simp only [g2, g3]
    cases hk : (dcProcessHeader e.ov h).res with
    | ok k =>
      rw [hk] at g1
      exact .ok ⟨_, _, _, _, dc_writes e k, rfl, rfl, g1⟩
    | err x => exact .err x
    | panic => exact .panic
    | diverge => exact .diverge
  unfold newHeaderSink
  cases output with
  | none => exact ⟨rfl, .ok (csv ho.stdout)⟩
  | some p =>
    simp only
    have hp := ho.create (utf8Encode p)
    generalize o1.create (utf8Encode p) = x at hp
    generalize o2.create (utf8Encode p) = y at hp
    split
    · cases hp with
      | none => exact ⟨rfl, .err _⟩
      | some hd => exact ⟨rfl, .ok (csv hd)⟩
    · split
      · cases hp with
        | none => exact ⟨rfl, .err _⟩
        | some hd => exact ⟨rfl, .ok (dc hd)⟩
      · exact ⟨rfl, .err _⟩

/-- The environment with its files, pages, standard input and outputs replaced. -/
def CliEnv.elsewhere (e : CliEnv) (w : World) (o : OutWorld) : CliEnv := { e with world := w, out := o }

theorem settings_fail {e : CliEnv} {a : CliArgs} (r : Res (CliSettings e.csv.lib)) (h : parseSettings e a = r) (hn : ∀ st, r ≠ .ok st) :
    chopperCli e a = ⟨[], none, r.bind fun _ => .ok ()⟩ := by
  unfold chopperCli parseCliArgs
  rw [h]
  cases r with
  | ok st => exact absurd rfl (hn st)
  | err x => rfl
  | panic => rfl
  | diverge => rfl

theorem open_fails {e : CliEnv} {a : CliArgs} {st : CliSettings e.csv.lib} (h : parseSettings e a = .ok st) (r : Res (List FileSource))
    (hr : openInputs (newInputs e.csv e.dec e.zip e.world (some st.inCfg) e.userFactories e.userTransports) e.world st.inputs = r) (hn : ∀ ss, r ≠ .ok ss) :
    chopperCli e a = ⟨[], none, r.bind fun _ => .ok ()⟩ := by
  unfold chopperCli parseCliArgs
  rw [h]
  simp only [setupGraph, hr]
  cases r with
  | ok st => exact absurd rfl (hn st)
  | err x => rfl
  | panic => rfl
  | diverge => rfl

theorem sink_fails {e : CliEnv} {a : CliArgs} {st : CliSettings e.csv.lib} (h : parseSettings e a = .ok st) (ss : List FileSource)
    (hr : openInputs (newInputs e.csv e.dec e.zip e.world (some st.inCfg) e.userFactories e.userTransports) e.world st.inputs = .ok ss) (c : List Path)
    (r : Res (Header → Res (CliSink × Header))) (hs : newHeaderSink e.sink e.out a.output st.outCfg = (c, r)) (hn : ∀ f, r ≠ .ok f) :
    chopperCli e a = ⟨c, none, r.bind fun _ => .ok ()⟩ := by
  unfold chopperCli parseCliArgs
  rw [h]
  simp only [setupGraph, hr, hs]
  cases r with
  | ok st => exact absurd rfl (hn st)
  | err x => rfl
  | panic => rfl
  | diverge => rfl

theorem driver_fails {e : CliEnv} {a : CliArgs} {st : CliSettings e.csv.lib} (h : parseSettings e a = .ok st) (files : List FileSource) (ho : Opens e st files) (c : List Path)
    (f : Header → Res (CliSink × Header)) (hs : newHeaderSink e.sink e.out a.output st.outCfg = (c, .ok f)) (r : Res (DGraph CliSink))
    (hr : newDriver e.csv.ov.checks .mergeJoin (files.length + 3) files.length (cliChains files.length f) (files.map (·.header)) = r) (hn : ∀ g, r ≠ .ok g) :
    chopperCli e a = ⟨c, none, r.bind fun _ => .ok ()⟩ := by
  unfold chopperCli
  rw [cli_setup_run e a st files h ho c f hs, hr]
  cases r with
  | ok st => exact absurd rfl (hn st)
  | err x => rfl
  | panic => rfl
  | diverge => rfl

/-- **C92.** What a run creates, returns and writes depends on the contents of its inputs only, not on the pieces in which reads deliver and writes take the bytes. -/
theorem C92_pieces (e : CliEnv) (w : World) (o : OutWorld) (a : CliArgs) (hu : e.userFactories = [] ∧ e.userTransports = []) (hc : CsvByContent e.csv.csv)
    (hd : DecodeByContent e.dec) (hw : SameWorld e.world w) (ho : SameOut e.out o) :
    (chopperCli (CliEnv.elsewhere e w o) a).created = (chopperCli e a).created ∧ (chopperCli (CliEnv.elsewhere e w o) a).result = (chopperCli e a).result ∧
      (chopperCli (CliEnv.elsewhere e w o) a).output.map (·.taken) = (chopperCli e a).output.map (·.taken) := by
  have same : ∀ c (r : Res Unit), chopperCli e a = ⟨c, none, r⟩ → chopperCli (CliEnv.elsewhere e w o) a = ⟨c, none, r⟩ →
      (chopperCli (CliEnv.elsewhere e w o) a).created = (chopperCli e a).created ∧ (chopperCli (CliEnv.elsewhere e w o) a).result = (chopperCli e a).result ∧
      (chopperCli (CliEnv.elsewhere e w o) a).output.map (·.taken) = (chopperCli e a).output.map (·.taken) := by
    intro c r h1 h2
    rw [h1, h2]
    exact ⟨rfl, rfl, rfl⟩
  by_cases hst : ∃ st, parseSettings e a = .ok st
  case neg =>
    have hn : ∀ st, parseSettings e a ≠ .ok st := fun st h => hst ⟨st, h⟩
    exact same _ _ (settings_fail _ rfl hn) (settings_fail (e := CliEnv.elsewhere e w o) _ rfl hn)
  obtain ⟨st, hst⟩ := hst
  have hst2 : parseSettings (CliEnv.elsewhere e w o) a = .ok st := hst
  have hop : openInputs (newInputs e.csv e.dec e.zip e.world (some st.inCfg) e.userFactories e.userTransports) e.world st.inputs =
      openInputs (newInputs e.csv e.dec e.zip w (some st.inCfg) e.userFactories e.userTransports) w st.inputs := by
    rw [hu.1, hu.2]
    exact openInputs_same (newInputs_same e.csv hc e.dec hd e.zip hw (some st.inCfg)) hw st.inputs
  by_cases hf : ∃ files, openInputs (newInputs e.csv e.dec e.zip e.world (some st.inCfg) e.userFactories e.userTransports) e.world st.inputs = .ok files
  case neg =>
    have hn := fun ss h => hf ⟨ss, h⟩
    exact same _ _ (open_fails hst _ rfl hn) (open_fails (e := CliEnv.elsewhere e w o) hst2 _ hop.symm hn)
  obtain ⟨files, hf⟩ := hf
  have hf2 : openInputs (newInputs e.csv e.dec e.zip w (some st.inCfg) e.userFactories e.userTransports) w st.inputs = .ok files := hop.symm.trans hf
  have ho1 : Opens e st files := (openInputs_iff _ _ _ _).1 hf
  have ho2 : Opens (CliEnv.elsewhere e w o) st files := (openInputs_iff _ _ _ _).1 hf2
  have hne := opens_ne hst ho1
  obtain ⟨hcr, hsk⟩ := newHeaderSink_same e.sink ho a.output st.outCfg
  rcases h1 : newHeaderSink e.sink e.out a.output st.outCfg with ⟨c, r1⟩
  rcases h2 : newHeaderSink e.sink o a.output st.outCfg with ⟨c2, r2⟩
  rw [h1, h2] at hcr hsk
  cases hcr
  simp only at hsk
  cases hsk with
  | err x => exact same _ _ (sink_fails hst _ hf _ _ h1 (by intro f h; cases h)) (sink_fails (e := CliEnv.elsewhere e w o) hst2 _ hf2 _ _ h2 (by intro f h; cases h))
  | panic => exact same _ _ (sink_fails hst _ hf _ _ h1 (by intro f h; cases h)) (sink_fails (e := CliEnv.elsewhere e w o) hst2 _ hf2 _ _ h2 (by intro f h; cases h))
  | diverge => exact same _ _ (sink_fails hst _ hf _ _ h1 (by intro f h; cases h)) (sink_fails (e := CliEnv.elsewhere e w o) hst2 _ hf2 _ _ h2 (by intro f h; cases h))
  | @ok f g hfg =>
    obtain ⟨f0, fs, rfl⟩ : ∃ f0 fs, files = f0 :: fs := List.exists_cons_of_ne_nil hne
    by_cases hh : ∃ x ∈ fs, x.header ≠ f0.header
    · have k1 := cli_wrong_header e.csv.ov.checks .mergeJoin f0 fs hh f
      have k2 := cli_wrong_header e.csv.ov.checks .mergeJoin f0 fs hh g
      exact same _ _ (driver_fails hst _ ho1 _ _ h1 _ k1 (by intro g h; cases h)) (driver_fails (e := CliEnv.elsewhere e w o) hst2 _ ho2 _ _ h2 _ k2 (by intro g h; cases h))
    · have hh' : ∀ x ∈ f0 :: fs, x.header = f0.header := by
        intro x hx
        rcases List.mem_cons.1 hx with rfl | hx
        · rfl
        · exact Classical.byContradiction fun h => hh ⟨x, hx, h⟩
      have k1 := cli_new_driver e.csv.ov.checks .mergeJoin (f0 :: fs) hne f0.header hh' f
      have k2 := cli_new_driver e.csv.ov.checks .mergeJoin (f0 :: fs) hne f0.header hh' g
      have hs := hfg f0.header
      rcases hx : f f0.header with ⟨p⟩ | x | _ | _ <;> rcases hy : g f0.header with ⟨q⟩ | y | _ | _ <;> rw [hx, hy] at hs <;> cases hs
      · rename_i hs
        obtain ⟨mk, row, w1, w2, hm, e1, e2, hsw⟩ := hs
        obtain ⟨fu, l1, rfl, q1⟩ := cli_run e a st (f0 :: fs) hst ho1 hne f0.header hh' c f h1 p.1 p.2 hx
        obtain ⟨fu, l2, rfl, q2⟩ := cli_run (CliEnv.elsewhere e w o) a st (f0 :: fs) hst2 ho2 hne f0.header hh' c g h2 q.1 q.2 hy
        rw [e1] at q1
        rw [e2] at q2
        obtain ⟨u1, u2, hu', r1, r2, r3⟩ := perform_same hm (calls st.range (enough ((f0 :: fs).map (·.source))) ((f0 :: fs).map (·.source))).1
          (calls st.range (enough ((f0 :: fs).map (·.source))) ((f0 :: fs).map (·.source))).2 w1 w2 hsw
        rw [r1] at q1
        have r2' : (perform (sinkFeed (cliOps (CliEnv.elsewhere e w o).sink)) (sinkFlush (cliOps (CliEnv.elsewhere e w o).sink))
          (calls st.range (enough ((f0 :: fs).map (·.source))) ((f0 :: fs).map (·.source))).1
          (calls st.range (enough ((f0 :: fs).map (·.source))) ((f0 :: fs).map (·.source))).2 (mk w2)).1 = mk u2 := r2
        rw [r2'] at q2
        rw [q1, q2]
        refine ⟨rfl, r3.symm, ?_⟩
        rw [cli_output _ _ rfl, cli_output _ _ rfl, hm.device, hm.device, Option.map_some, Option.map_some, hu'.close]
      all_goals
        rw [hx] at k1
        rw [hy] at k2
        exact same _ _ (driver_fails hst _ ho1 _ _ h1 _ k1 (by intro g h; cases h)) (driver_fails (e := CliEnv.elsewhere e w o) hst2 _ ho2 _ _ h2 _ k2 (by intro g h; cases h))

/-! A concrete case: two CSV files, read in one piece or byte by byte, written in one piece or byte by byte. -/

/-- Decoders for data that is not compressed at all (they satisfy `DecodeByContent`). -/
def wholeDecoders : Decoders :=
  ⟨fun r => ⟨stillToCome r, [], r.inner.ending⟩, fun r => ⟨stillToCome r, [], r.inner.ending⟩, fun r => ⟨stillToCome r, [.bytes 7], r.inner.ending⟩, fun _ => none,
   fun r => some ⟨stillToCome r, [], r.inner.ending⟩⟩
def piecesEnv : CliEnv := { copyEnv with dec := wholeDecoders }
/-- The same files, read byte by byte at first. -/
def piecesWorld : World := { copyWorld with file := fun p => (copyWorld.file p).map fun i => ⟨i.data, [.bytes 1, .bytes 1, .bytes 1, .bytes 2], i.ending⟩ }
/-- Outputs that take the first bytes one by one. -/
def piecesOut : OutWorld := ⟨fun _ => some ⟨[], [.take 0, .take 0, .take 1, .take 0], 0⟩, ⟨[], [.take 0], 0⟩⟩

example : (piecesEnv.userFactories = [] ∧ piecesEnv.userTransports = []) ∧ CsvByContent piecesEnv.csv.csv ∧ DecodeByContent piecesEnv.dec ∧ SameWorld piecesEnv.world piecesWorld ∧
    SameOut piecesEnv.out piecesOut ∧ (chopperCli piecesEnv copyArgs).result = .ok () := by
  refine ⟨⟨rfl, rfl⟩, ?_, ?_, ?_, ?_, ?_⟩
  · intro d hh r1 r2 h
    show plainCsv.parse d hh r1 = plainCsv.parse d hh r2
    unfold plainCsv
    simp only [h.bytes]
  · exact ⟨fun r1 r2 h => ⟨h.bytes, h.ending, by simp [piecesEnv, wholeDecoders], by simp [piecesEnv, wholeDecoders]⟩,
      fun r1 r2 h => ⟨h.bytes, h.ending, by simp [piecesEnv, wholeDecoders], by simp [piecesEnv, wholeDecoders]⟩,
      fun r1 r2 h => ⟨h.bytes, h.ending, by simp [piecesEnv, wholeDecoders], by simp [piecesEnv, wholeDecoders]⟩, fun _ _ _ => .none,
      fun r1 r2 h => .some ⟨h.bytes, h.ending, by simp, by simp⟩⟩
  · refine ⟨rfl, rfl, rfl, fun p => ?_, fun u => .err _, ⟨rfl, rfl, by simp [piecesEnv, copyEnv, copyWorld], by simp [piecesWorld, copyWorld]⟩⟩
    show Both SameContent (copyWorld.file p) ((copyWorld.file p).map fun i => ⟨i.data, [.bytes 1, .bytes 1, .bytes 1, .bytes 2], i.ending⟩)
    have : ∀ i, copyWorld.file p = some i → ∀ e, ReadStep.fail e ∉ i.sched := by
      intro i hi e
      simp only [copyWorld] at hi
      split at hi
      · cases hi; simp
      · split at hi
        · cases hi; simp
        · cases hi
    cases hf : copyWorld.file p with
    | none => exact .none
    | some i => exact .some ⟨rfl, rfl, this i hf, by simp⟩
  · exact ⟨fun p => .some ⟨rfl, by intro k; simp [exDev], by intro k; simp⟩, ⟨rfl, by intro k; simp [piecesEnv, copyEnv], by intro k; simp [piecesOut]⟩⟩
  · have h : CopyRun piecesEnv copyArgs copySettings ',' 0 .seconds copyNames [copyA, copyB] copyTime exDev :=
      ⟨copy_example.settings, copy_example.contract, copy_example.noUser, copy_example.delimiter, copy_example.header, copy_example.column, copy_example.format,
       copy_example.outDelimiter, copy_example.outTime, copy_example.inputs, copy_example.plain, copy_example.widths, copy_example.times, copy_example.sorted, copy_example.some,
       copy_example.device, copy_example.reliable⟩
    obtain ⟨out, recs, g, _⟩ := copy_run h
    exact g

end Chopper.Props
