import Verif.Proofs.Cli
import Verif.Props.Driver
import Verif.Props.HeaderGraph
import Verif.Proofs.CsvSink
import Verif.Spec.Cli

/-!
# What a run of the tool writes
-/
namespace Chopper
open Spec

/-- Rows written one after the other, each as `row` says. -/
def rowsOut (row : Row → Wr Unit) : List Row → Wr Unit
  | [] => Wr.put []
  | r :: rs => Wr.bind (row r) fun _ => rowsOut row rs

theorem rowsOut_dc (k : Nat) : ∀ rows, rowsOut (dcWriteRow k) rows = dcWriteRows k rows
  | [] => rfl
  | r :: rs => by simp only [rowsOut, dcWriteRows, rowsOut_dc k rs]

theorem rowsOut_csv (ff : FloatFmt) (cfg : CsvOutputConfig) : ∀ rows,
    rowsOut (fun r => ⟨utf8Encode (csvRowText ff cfg r).1, (csvRowText ff cfg r).2⟩) rows = ⟨utf8Encode (csvRowsText ff cfg rows).1, (csvRowsText ff cfg rows).2⟩
  | [] => rfl
  | r :: rs => by
    simp only [rowsOut, csvRowsText, rowsOut_csv ff cfg rs]
    rcases csvRowText ff cfg r with ⟨t, res⟩
    cases res with
    | ok u => simp only [Wr.bind, utf8Encode, List.flatMap_append]
    | err e => rfl
    | panic => rfl
    | diverge => rfl

/-- A sink that writes `row r` for every row through a buffered writer. -/
structure WritesRows (e : SinkEnv) (mk : BufWriter → CliSink) (row : Row → Wr Unit) : Prop where
  write : ∀ w r, CliSink.write e (mk w) r = (mk (w.emit e.ch (row r).out ((row r).res.map fun _ => [r])).1, (w.emit e.ch (row r).out ((row r).res.map fun _ => [r])).2)
  flush : ∀ w, CliSink.flush (mk w) = (mk w.flush.1, w.flush.2)
  device : ∀ w, (mk w).device = some w.close

theorem csv_writes (e : SinkEnv) (cfg : CsvOutputConfig) :
    WritesRows e (CliSink.csv cfg) (fun r => ⟨utf8Encode (csvRowText e.ff cfg r).1, (csvRowText e.ff cfg r).2⟩) :=
  ⟨fun _ _ => rfl, fun _ => rfl, fun _ => rfl⟩

theorem dc_writes (e : SinkEnv) (k : Nat) : WritesRows e (CliSink.dc k) (dcWriteRow k) := ⟨fun _ _ => rfl, fun _ => rfl, fun _ => rfl⟩

theorem res_map_unit (r : Res Unit) (x : List Row) : ((r.map fun _ => x).map fun _ => ()) = r := by cases r <;> rfl

theorem perform_output {e : SinkEnv} {mk : BufWriter → CliSink} {row : Row → Wr Unit} (hm : WritesRows e mk row) :
    ∀ (cs : List Call) (out : Res Unit) (w : BufWriter) (b : List Byte), Holds w b →
    ∃ w', (perform (sinkFeed (cliOps e)) (sinkFlush (cliOps e)) cs out (mk w)).1 = mk w' ∧ HoldsPrefix w' (b ++ (rowsOut row ((fed cs).map (·.2))).out) ∧
      (∀ k, CanFail w'.dev k → CanFail w.dev k) ∧
      (((perform (sinkFeed (cliOps e)) (sinkFlush (cliOps e)) cs out (mk w)).2 = out ∧ (rowsOut row ((fed cs).map (·.2))).res = .ok () ∧
          Holds w' (b ++ (rowsOut row ((fed cs).map (·.2))).out)) ∨
       (∃ k, (perform (sinkFeed (cliOps e)) (sinkFlush (cliOps e)) cs out (mk w)).2 = .err (.io k) ∧ CanFail w.dev k) ∨
       ((perform (sinkFeed (cliOps e)) (sinkFlush (cliOps e)) cs out (mk w)).2 = (rowsOut row ((fed cs).map (·.2))).res ∧
          (rowsOut row ((fed cs).map (·.2))).res ≠ .ok ()))
  | [], out, w, b, hg => by
    have hb : Holds w (b ++ []) := by rw [List.append_nil]; exact hg
    refine ⟨w, rfl, ?_, fun k h => h, .inl ⟨rfl, rfl, hb⟩⟩
    show _ <+: _
    rw [show w.dev.taken ++ w.buf = b from hg]
    exact ⟨_, rfl⟩
  | .flush c :: cs, out, w, b, hg => by
    obtain ⟨h1, h2⟩ := flush_step hg
    simp only [perform, sinkFlush, cliOps, hm.flush]
    rcases hw : w.flush with ⟨w1, r⟩
    rw [hw] at h1 h2
    simp only at h1 h2
    rcases h2 with ⟨rfl, h3, _⟩ | ⟨k, rfl, h3, h4⟩
    · obtain ⟨w', h5, h6, h7, h8⟩ := perform_output hm cs out w1 b h3
      refine ⟨w', h5, h6, fun k hk => h1 k (h7 k hk), ?_⟩
      rcases h8 with h8 | ⟨k, h8, h9⟩ | h8
      · exact .inl h8
      · exact .inr (.inl ⟨k, h8, h1 k h9⟩)
      · exact .inr (.inr h8)
    · refine ⟨w1, rfl, ?_, h1, .inr (.inl ⟨k, rfl, h3⟩)⟩
      show _ <+: _
      rw [show w1.dev.taken ++ w1.buf = b from h4]
      exact ⟨_, rfl⟩
  | .feed c r :: cs, out, w, b, hg => by
    obtain ⟨h1, h2⟩ := emit_step e.ch (row r).out ((row r).res.map fun _ => [r]) hg
    simp only [perform, sinkFeed, cliOps, hm.write]
    rw [show (fed (Call.feed c r :: cs)).map (·.2) = r :: (fed cs).map (·.2) from rfl]
    simp only [rowsOut]
    rcases hw : w.emit e.ch (row r).out ((row r).res.map fun _ => [r]) with ⟨w1, res⟩
    rw [hw] at h1 h2
    simp only at h1 h2
    rcases h2 with ⟨rfl, h3⟩ | ⟨k, rfl, h3, h4⟩
    · rw [res_map_unit]
      have hpre : ∀ x, w1.dev.taken ++ w1.buf <+: b ++ ((row r).out ++ x) := by
        intro x; rw [show w1.dev.taken ++ w1.buf = b ++ (row r).out from h3]; exact ⟨x, by simp⟩
      cases hr : (row r).res with
      | ok u =>
        obtain ⟨w', h5, h6, h7, h8⟩ := perform_output hm cs out w1 (b ++ (row r).out) h3
        simp only [Wr.bind, hr]
        rw [← List.append_assoc]
        refine ⟨w', h5, h6, fun k hk => h1 k (h7 k hk), ?_⟩
        rcases h8 with h8 | ⟨k, h8, h9⟩ | h8
        · exact .inl h8
        · exact .inr (.inl ⟨k, h8, h1 k h9⟩)
        · exact .inr (.inr h8)
      | err x =>
        simp only [Wr.bind, hr]
        refine ⟨w1, rfl, ?_, h1, .inr (.inr ⟨trivial, by simp⟩)⟩
        have := hpre []; rwa [List.append_nil] at this
      | panic =>
        simp only [Wr.bind, hr]
        refine ⟨w1, rfl, ?_, h1, .inr (.inr ⟨trivial, by simp⟩)⟩
        have := hpre []; rwa [List.append_nil] at this
      | diverge =>
        simp only [Wr.bind, hr]
        refine ⟨w1, rfl, ?_, h1, .inr (.inr ⟨trivial, by simp⟩)⟩
        have := hpre []; rwa [List.append_nil] at this
    · simp only [Res.map]
      refine ⟨w1, rfl, ?_, h1, .inr (.inl ⟨k, rfl, h3⟩)⟩
      have h5 : HoldsPrefix w1 (b ++ (row r).out) := h4
      refine List.IsPrefix.trans h5 ?_
      simp only [Wr.bind]
      cases (row r).res with
      | ok u => exact ⟨_, by rw [List.append_assoc]⟩
      | err x => exact ⟨[], by simp⟩
      | panic => exact ⟨[], by simp⟩
      | diverge => exact ⟨[], by simp⟩

theorem perform_last_flush {e : SinkEnv} {mk : BufWriter → CliSink} {row : Row → Wr Unit} (hm : WritesRows e mk row)
    (cs : List Call) (c : Nat) (w : BufWriter) (b : List Byte) (hg : Holds w b)
    (hok : (perform (sinkFeed (cliOps e)) (sinkFlush (cliOps e)) (cs ++ [.flush c]) (.ok ()) (mk w)).2 = .ok ()) :
    ∃ w', (perform (sinkFeed (cliOps e)) (sinkFlush (cliOps e)) (cs ++ [.flush c]) (.ok ()) (mk w)).1 = mk w' ∧ w'.buf = [] ∧
      Holds w' (b ++ (rowsOut row ((fed cs).map (·.2))).out) := by
  rw [perform_append] at hok ⊢
  obtain ⟨w1, h1, _, h2, h3⟩ := perform_output hm cs (.ok ()) w b hg
  rcases hp : perform (sinkFeed (cliOps e)) (sinkFlush (cliOps e)) cs (.ok ()) (mk w) with ⟨s1, r⟩
  rw [hp] at hok h1 h3
  simp only at h1 h3
  subst h1
  rcases h3 with ⟨rfl, _, h4⟩ | ⟨k, rfl, _⟩ | ⟨rfl, h4⟩
  · simp only [perform, sinkFlush, cliOps, hm.flush] at hok ⊢
    obtain ⟨h5, h6⟩ := flush_step h4
    rcases hf : w1.flush with ⟨w2, r⟩
    rw [hf] at h6 hok
    simp only at h6 hok
    rcases h6 with ⟨rfl, h6, h7⟩ | ⟨k, rfl, h6, h7⟩
    · exact ⟨w2, rfl, h7, h6⟩
    · simp at hok
  · simp at hok
  · cases hr : (rowsOut row ((fed cs).map (·.2))).res with
    | ok u => exact absurd hr h4
    | err x => rw [hr] at hok; simp at hok
    | panic => rw [hr] at hok; simp at hok
    | diverge => rw [hr] at hok; simp at hok

/-! ## Setting up -/

theorem cli_new_driver (dbg : Bool) (mj : CliSink) (files : List FileSource) (hne : files ≠ []) (h : Header) (hh : ∀ f ∈ files, f.header = h)
    (f : Header → Res (CliSink × Header)) :
    newDriver dbg mj (files.length + 3) files.length (cliChains files.length f) (files.map (·.header)) =
      (f h).bind fun p => .ok (cliGraph mj files.length p.1 []) := by
  rcases files with _ | ⟨f0, _ | ⟨f1, fs⟩⟩
  · exact absurd rfl hne
  · unfold newDriver cliChains
    rw [if_neg (by simp), if_neg (by simp)]
    simp only [List.length_cons, List.length_nil, List.map_cons, List.map_nil]
    rw [hh f0 (by simp)]
    unfold processHeader
    cases hf : f h with
    | ok p => simp [processHeadersFrom, processHeaderRe, matchRemoveChain, hSwapRemove, nodesLoop, hf, addNode, cliGraph, Res.bind]
    | err e => simp [processHeadersFrom, processHeaderRe, matchRemoveChain, hSwapRemove, nodesLoop, hf, addNode, cliGraph, Res.bind]
    | panic => simp [processHeadersFrom, processHeaderRe, matchRemoveChain, hSwapRemove, nodesLoop, hf, addNode, cliGraph, Res.bind]
    | diverge => simp [processHeadersFrom, processHeaderRe, matchRemoveChain, hSwapRemove, nodesLoop, hf, addNode, cliGraph, Res.bind]
  · have hl : (f0 :: f1 :: fs).length = (f1 :: fs).length + 1 := rfl
    unfold newDriver
    rw [if_neg (by unfold cliChains; simp)]
    rw [hl, List.map_cons, hh f0 (by simp)]
    have := (Props.C27_command_line dbg mj ((f1 :: fs).length + 1 + 3) (by omega) f h ((f1 :: fs).map (·.header)) (by simp)).1 (by
      intro x hx
      obtain ⟨y, hy, rfl⟩ := List.mem_map.1 hx
      exact hh y (List.mem_cons_of_mem _ hy))
    rw [List.length_map] at this
    rw [this]
    have hk : 1 < (f1 :: fs).length + 1 := by simp
    simp only [cliGraph, if_pos hk]

theorem cli_wrong_header (dbg : Bool) (mj : CliSink) (f0 : FileSource) (fs : List FileSource) (hne : ∃ f ∈ fs, f.header ≠ f0.header)
    (f : Header → Res (CliSink × Header)) :
    newDriver dbg mj ((f0 :: fs).length + 3) (f0 :: fs).length (cliChains (f0 :: fs).length f) ((f0 :: fs).map (·.header)) =
      .err (.custom "MuxHeaderSink -- wrong header") := by
  obtain ⟨g, hg, hgne⟩ := hne
  have hfs : fs ≠ [] := by rintro rfl; simp at hg
  have hl : 1 < (f0 :: fs).length := by cases fs with | nil => exact absurd rfl hfs | cons a b => simp
  unfold newDriver
  rw [if_neg (by unfold cliChains; rw [if_pos hl]; simp)]
  have := (Props.C27_command_line dbg mj ((f0 :: fs).length + 3) (by simp at hl ⊢) f f0.header (fs.map (·.header)) (by simpa using hfs)).2
    ⟨g.header, List.mem_map.2 ⟨g, hg, rfl⟩, hgne⟩
  rw [List.length_map] at this
  exact this

/-! ## The whole run -/

theorem openInputs_iff (inp : Inputs FileSource) (w : World) : ∀ (is : List Input) (files : List FileSource),
    openInputs inp w is = .ok files ↔
      files.length = is.length ∧ ∀ (i : Nat) x f, is[i]? = some x → files[i]? = some f → createFromInput inp w x = .ok f
  | [], files => by
    simp only [openInputs, Res.ok.injEq, List.length_nil]
    constructor
    · rintro rfl; simp
    · rintro ⟨h, _⟩; exact (List.eq_nil_of_length_eq_zero h).symm
  | x :: is, files => by
    simp only [openInputs, Res.bind_eq_ok, Res.ok.injEq]
    constructor
    · rintro ⟨s, h1, ss, h2, rfl⟩
      obtain ⟨h3, h4⟩ := (openInputs_iff inp w is ss).1 h2
      refine ⟨by simp [h3], ?_⟩
      intro i y f hy hf
      cases i with
      | zero => simp at hy hf; subst hy; subst hf; exact h1
      | succ i => exact h4 i y f (by simpa using hy) (by simpa using hf)
    · rintro ⟨h1, h2⟩
      cases files with
      | nil => simp at h1
      | cons s ss =>
        exact ⟨s, h2 0 x s rfl rfl, ss, (openInputs_iff inp w is ss).2 ⟨by simpa using h1, fun i y f hy hf => h2 (i + 1) y f (by simpa using hy) (by simpa using hf)⟩, rfl⟩

theorem cli_setup_run (e : CliEnv) (a : CliArgs) (st : CliSettings e.csv.lib) (files : List FileSource) (hs : parseSettings e a = .ok st)
    (ho : Opens e st files) (created : List Path) (f : Header → Res (CliSink × Header)) (hf : newHeaderSink e.sink e.out a.output st.outCfg = (created, .ok f)) :
    parseCliArgs e a = (created, (newDriver e.csv.ov.checks .mergeJoin (files.length + 3) files.length (cliChains files.length f) (files.map (·.header))).bind
      fun g => .ok ⟨files.map (·.source), g, st.range⟩) := by
  unfold parseCliArgs
  simp only [hs]
  unfold setupGraph
  rw [(openInputs_iff _ _ _ _).2 ho]
  simp only [hf]
  rw [← ho.1]

theorem cli_output (mj s : CliSink) (hmj : mj.device = none) (k : Nat) (log : List Event) (created : List Path) (r : Res Unit) :
    (⟨created, some (cliGraph mj k s log), r⟩ : CliRun).output = s.device := by
  unfold CliRun.output cliGraph
  split <;> simp

/-- A started run is the calls of the driver performed on the output sink alone. -/
theorem cli_run (e : CliEnv) (a : CliArgs) (st : CliSettings e.csv.lib) (files : List FileSource) (hs : parseSettings e a = .ok st)
    (ho : Opens e st files) (hne : files ≠ []) (h : Header) (hh : ∀ x ∈ files, x.header = h) (created : List Path)
    (f : Header → Res (CliSink × Header)) (hf : newHeaderSink e.sink e.out a.output st.outCfg = (created, .ok f)) (s0 : CliSink) (h' : Header)
    (hs0 : f h = .ok (s0, h')) :
    ∃ fuel log, fuel = Props.enough (files.map (·.source)) ∧ chopperCli e a =
      ⟨created, some (cliGraph .mergeJoin files.length
        (perform (sinkFeed (cliOps e.sink)) (sinkFlush (cliOps e.sink)) (calls st.range fuel (files.map (·.source))).1 (calls st.range fuel (files.map (·.source))).2 s0).1 log),
       (perform (sinkFeed (cliOps e.sink)) (sinkFlush (cliOps e.sink)) (calls st.range fuel (files.map (·.source))).1 (calls st.range fuel (files.map (·.source))).2 s0).2⟩ := by
  refine ⟨Props.enough (files.map (·.source)), ?_⟩
  have h1 := cli_setup_run e a st files hs ho created f hf
  rw [cli_new_driver _ _ files hne h hh f, hs0] at h1
  simp only [Res.bind_ok] at h1
  have h2 : chopperCli e a = ⟨created, some (CliDriver.drive e.sink ⟨files.map (·.source), cliGraph .mergeJoin files.length s0 [], st.range⟩).1,
      (CliDriver.drive e.sink ⟨files.map (·.source), cliGraph .mergeJoin files.length s0 [], st.range⟩).2⟩ := by
    unfold chopperCli
    rw [h1]
  obtain ⟨log, h3⟩ := cli_perform (cliOps e.sink) .mergeJoin (fun _ => rfl) rfl files.length 1 (calls st.range (Props.enough (files.map (·.source))) (files.map (·.source))).1
    (calls st.range (Props.enough (files.map (·.source))) (files.map (·.source))).2 s0 [] (by
      intro x hx
      have := calls_chains _ _ _ x hx
      simpa using this)
  have h4 : CliDriver.drive e.sink ⟨files.map (·.source), cliGraph .mergeJoin files.length s0 [], st.range⟩ =
      perform (fun c r g => processRow (cliOps e.sink) (1 + 4) c 0 r g) (fun c g => flushFrom (cliOps e.sink) (1 + 4) c 0 g)
        (calls st.range (Props.enough (files.map (·.source))) (files.map (·.source))).1 (calls st.range (Props.enough (files.map (·.source))) (files.map (·.source))).2
        (cliGraph .mergeJoin files.length s0 []) := by
    unfold CliDriver.drive driveGraph
    rw [drive_perform]
    rfl
  rw [h2, h4, h3]
  exact ⟨log, rfl, rfl⟩

end Chopper
