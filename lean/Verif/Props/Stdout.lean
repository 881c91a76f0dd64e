import Verif.Proofs.StdoutLines
import Verif.Proofs.Cli4
import Verif.Props.Cli3

/-!
# Standard output and its line buffer (C137)
-/
namespace Chopper.Props
open Chopper Chopper.Spec

/-- **C137 (any program).** Whatever is written to standard output, however the system takes it: at the end of the process a beginning of it has arrived (in order, nothing doubled);
only a failure of the system can make a write fail; if the system does not fail everything arrives; and everything has arrived, before the process ends, when a flush has succeeded. -/
theorem C137_writer (fd : Device) (ops : List Op) (out : Res Unit) :
    ((StdoutWriter.new fd).runOps ops out).1.exit.taken <+: fd.taken ++ opBytes ops ∧
    (((StdoutWriter.new fd).runOps ops out).2 = out ∨ ∃ k, ((StdoutWriter.new fd).runOps ops out).2 = .err (.io k) ∧ CanFail fd k) ∧
    (Reliable fd → ((StdoutWriter.new fd).runOps ops out).2 = out ∧ ((StdoutWriter.new fd).runOps ops out).1.exit.taken = fd.taken ++ opBytes ops) := by
  obtain ⟨h1, _, h3⟩ := stdout_runOps out ops (StdoutWriter.new fd)
  have hn : held (StdoutWriter.new fd) = fd.taken := by simp [held, got, StdoutWriter.new]
  obtain ⟨h4, h5, _⟩ := stdout_exit ((StdoutWriter.new fd).runOps ops out).1
  rw [hn] at h3
  refine ⟨?_, ?_, ?_⟩
  · rcases h3 with ⟨_, h3⟩ | ⟨k, _, _, h3⟩
    · rw [← h3]; exact h4
    · exact h4.trans h3
  · rcases h3 with ⟨h3, _⟩ | ⟨k, h3, h6, _⟩
    · exact .inl h3
    · exact .inr ⟨k, h3, h6⟩
  · intro hr
    rcases h3 with ⟨h3, h6⟩ | ⟨k, _, h6, _⟩
    · exact ⟨h3, by rw [h5 (fun k hk => hr k (h1 k hk)), h6]⟩
    · exact absurd h6 (hr k)

/-- **C137 (flush).** After a flush that succeeded everything written so far is with the system, not in a buffer. -/
theorem C137_flushed (fd : Device) (ops : List Op) (h : ((StdoutWriter.new fd).runOps (ops ++ [.flush]) (.ok ())).2 = .ok ()) :
    ((StdoutWriter.new fd).runOps (ops ++ [.flush]) (.ok ())).1.line.dev.taken = fd.taken ++ opBytes ops ∧
    ((StdoutWriter.new fd).runOps (ops ++ [.flush]) (.ok ())).1.exit.taken = fd.taken ++ opBytes ops := by
  have hn : held (StdoutWriter.new fd) = fd.taken := by simp [held, got, StdoutWriter.new]
  have h1 := (stdout_runOps (.ok ()) (ops ++ [.flush]) (StdoutWriter.new fd)).2.2
  have hb : ∀ ops, opBytes (ops ++ [.flush]) = opBytes ops := by
    intro ops
    induction ops with
    | nil => rfl
    | cons o ops ih => cases o <;> simp [opBytes, ih]
  rw [hn, hb] at h1
  have h2 : held ((StdoutWriter.new fd).runOps (ops ++ [.flush]) (.ok ())).1 = fd.taken ++ opBytes ops := by
    rcases h1 with ⟨_, h1⟩ | ⟨k, h1, _⟩
    · exact h1
    · rw [h] at h1; cases h1
  have h3 : ((StdoutWriter.new fd).runOps (ops ++ [.flush]) (.ok ())).1.buf = [] ∧ ((StdoutWriter.new fd).runOps (ops ++ [.flush]) (.ok ())).1.line.buf = [] := by
    rw [runOps_append] at h ⊢
    rcases hr : (StdoutWriter.new fd).runOps ops (.ok ()) with ⟨w, r⟩
    rw [hr] at h
    rcases r with u | _ | _ | _
    · simp only [StdoutWriter.runOps] at h ⊢
      have h4 := (stdout_flush w).2
      rcases hw : w.flush with ⟨w', r'⟩
      rw [hw] at h h4
      rcases r' with u | _ | _ | _
      · exact h4 rfl
      all_goals simp at h
    all_goals simp at h
  rw [held, got, h3.1, h3.2, List.append_nil, List.append_nil] at h2
  exact ⟨h2, by rw [(stdout_exit _).2.2 h3.1 h3.2]; exact h2⟩

/-- **C137 (lines).** If the system takes all it is given, what has been handed on by the sink's buffer and has not arrived is at most the beginning of a line. -/
theorem C137_lines (fd : Device) (hall : fd.sched = []) (ops : List Op) (out : Res Unit) :
    ∃ part, (10 : Byte) ∉ part ∧ ((StdoutWriter.new fd).runOps ops out).1.line.dev.taken ++ part ++ ((StdoutWriter.new fd).runOps ops out).1.buf = fd.taken ++ opBytes ops := by
  have h1 := open_runOps out ops (w := StdoutWriter.new fd) ⟨hall, by simp [StdoutWriter.new]⟩
  refine ⟨_, h1.2, ?_⟩
  obtain ⟨_, _, h3⟩ := stdout_runOps out ops (StdoutWriter.new fd)
  have hn : held (StdoutWriter.new fd) = fd.taken := by simp [held, got, StdoutWriter.new]
  rcases h3 with ⟨_, h3⟩ | ⟨k, _, h6, _⟩
  · rw [hn] at h3; exact h3
  · have h7 : WriteStep.fail k ∈ fd.sched := h6
    rw [hall] at h7; cases h7

theorem opBytes_append (a b : List Op) : opBytes (a ++ b) = opBytes a ++ opBytes b := by
  induction a with
  | nil => rfl
  | cons o a ih => cases o <;> simp [opBytes, ih]

theorem opBytes_writes (cs : List (List Byte)) : opBytes (cs.map Op.write) = cs.flatten := by
  induction cs with
  | nil => rfl
  | cons c cs ih => simp [opBytes, ih]

/-- The bytes of a run are the text of its rows. -/
theorem opBytes_csv (e : SinkEnv) (cfg : CsvOutputConfig) (out : Res Unit) : ∀ cs : List Call,
    opBytes (csvOps e cfg cs out).1 = utf8Encode (csvRowsText e.ff cfg ((fed cs).map (·.2))).1 ∧
    (csvOps e cfg cs out).2 = (csvRowsText e.ff cfg ((fed cs).map (·.2))).2.bind fun _ => out
  | [] => ⟨rfl, rfl⟩
  | .feed c r :: cs => by
    obtain ⟨h1, h2⟩ := opBytes_csv e cfg out cs
    have hf : (fed (.feed c r :: cs)).map (·.2) = r :: (fed cs).map (·.2) := by simp [fed, Call.fed?, List.filterMap_cons]
    rw [hf, csvOps, csvRowsText]
    rcases hr : csvRowText e.ff cfg r with ⟨t, _ | _ | _ | _⟩
    · simp only [opBytes_append, opBytes_writes, e.ch.flat, h1, h2]
      exact ⟨by simp [utf8Encode], trivial⟩
    all_goals exact ⟨by simp only [opBytes_writes, e.ch.flat], rfl⟩
  | .flush c :: cs => by
    obtain ⟨h1, h2⟩ := opBytes_csv e cfg out cs
    have hf : (fed (.flush c :: cs)).map (·.2) = (fed cs).map (·.2) := by simp [fed, Call.fed?, List.filterMap_cons]
    rw [hf, csvOps]
    exact ⟨h1, h2⟩

theorem csvOps_append (e : SinkEnv) (cfg : CsvOutputConfig) (c : Nat) : ∀ cs : List Call, (csvOps e cfg (cs ++ [.flush c]) (.ok ())).2 = .ok () →
    ∃ ops, (csvOps e cfg (cs ++ [.flush c]) (.ok ())).1 = ops ++ [.flush]
  | [], _ => ⟨[], rfl⟩
  | .feed d r :: cs, h => by
    rw [List.cons_append, csvOps] at h ⊢
    rcases hr : (csvRowText e.ff cfg r).2 with _ | _ | _ | _ <;> rw [hr] at h
    · simp only at h ⊢
      obtain ⟨ops, ho⟩ := csvOps_append e cfg c cs h
      exact ⟨_, by rw [ho, ← List.append_assoc]⟩
    all_goals simp at h
  | .flush d :: cs, h => by
    rw [List.cons_append, csvOps] at h ⊢
    simp only at h ⊢
    obtain ⟨ops, ho⟩ := csvOps_append e cfg c cs h
    exact ⟨.flush :: ops, by rw [ho, List.cons_append]⟩

/-- The text of a run: header line and rows. -/
theorem opBytes_run (e : SinkEnv) (cfg : CsvOutputConfig) (h : Header) (cs : List Call) (out : Res Unit) :
    opBytes (headerOps e cfg h ++ (csvOps e cfg cs out).1) = utf8Encode (csvFile e.ff cfg h ((fed cs).map (·.2))).1 := by
  rw [opBytes_append, headerOps, opBytes_writes, e.ch.flat, (opBytes_csv e cfg out cs).1]
  unfold csvFile
  simp [utf8Encode]

/-- A run of operations on a device that does not fail. -/
theorem buf_runOps_reliable (out : Res Unit) : ∀ (ops : List Op) (w : BufWriter), (∀ k, ¬ CanFail w.dev k) →
    (w.runOps ops out).2 = out ∧ (∀ k, ¬ CanFail (w.runOps ops out).1.dev k) ∧ got (w.runOps ops out).1 = got w ++ opBytes ops
  | [], w, h => ⟨rfl, h, by simp [BufWriter.runOps, opBytes]⟩
  | .write bs :: ops, w, h => by
    have h0 := writeAll_took w bs
    rw [BufWriter.runOps, opBytes]
    rcases hw : w.writeAll bs with ⟨w', r⟩
    rw [hw] at h0
    rcases h0.2.2 with ⟨h1, h2⟩ | ⟨k, m, _, h2, _⟩
    · simp only at h1 h2
      subst h1
      have h3 := buf_runOps_reliable out ops w' (fun k hk => h k (h0.1 k hk))
      rw [h2, List.append_assoc] at h3
      exact h3
    · exact absurd h2 (h k)
  | .flush :: ops, w, h => by
    have h0 := (lineFlush_took w).1
    rw [BufWriter.runOps, opBytes]
    rcases hw : w.flush with ⟨w', r⟩
    rw [hw] at h0
    rcases h0.2.2 with ⟨h1, h2⟩ | ⟨k, m, _, h2, _⟩
    · simp only at h1 h2
      subst h1
      have h3 := buf_runOps_reliable out ops w' (fun k hk => h k (h0.1 k hk))
      rw [h2, List.append_nil] at h3
      exact h3
    · exact absurd h2 (h k)

/-- **C137 (the tool).** A run of the tool that writes to standard output, with its line buffer: what arrives is a beginning of the header line and the lines of the rows; if the run
succeeds all of it has arrived, before the process ends; if the system does not fail, result and bytes are those of the run without the line buffer. -/
theorem C137_tool (e : CliEnv) (a : CliArgs) (st : CliSettings e.csv.lib) (files : List FileSource) (h : Header) (hs : parseSettings e a = .ok st) (ho : Opens e st files)
    (hh : ∀ f ∈ files, f.header = h) (hout : a.output = none) (cs : List Call) (res : Res Unit)
    (hc : (cs, res) = calls st.range (enough (files.map (·.source))) (files.map (·.source))) :
    (stdoutRun e.sink st.outCfg h cs res e.out.stdout).1.exit.taken <+: e.out.stdout.taken ++ utf8Encode (csvFile e.ff st.outCfg h ((fed cs).map (·.2))).1 ∧
    ((stdoutRun e.sink st.outCfg h cs res e.out.stdout).2 = .ok () →
      (stdoutRun e.sink st.outCfg h cs res e.out.stdout).1.line.dev.taken = e.out.stdout.taken ++ utf8Encode (csvFile e.ff st.outCfg h ((fed cs).map (·.2))).1 ∧
      (stdoutRun e.sink st.outCfg h cs res e.out.stdout).1.exit.taken = e.out.stdout.taken ++ utf8Encode (csvFile e.ff st.outCfg h ((fed cs).map (·.2))).1) ∧
    (Reliable e.out.stdout → (stdoutRun e.sink st.outCfg h cs res e.out.stdout).2 = (chopperCli e a).result ∧
      (chopperCli e a).output.map (·.taken) = some (stdoutRun e.sink st.outCfg h cs res e.out.stdout).1.exit.taken) := by
  have hne := opens_ne hs ho
  have htext := opBytes_run e.sink st.outCfg h cs res
  have hff : e.sink.ff = e.ff := rfl
  rw [hff] at htext
  have hw := C137_writer e.out.stdout (headerOps e.sink st.outCfg h ++ (csvOps e.sink st.outCfg cs res).1) (csvOps e.sink st.outCfg cs res).2
  rw [htext] at hw
  refine ⟨hw.1, ?_, ?_⟩
  · intro hok
    unfold stdoutRun at hok ⊢
    have h2 : (csvOps e.sink st.outCfg cs res).2 = .ok () := by
      rcases hw.2.1 with h1 | ⟨k, h1, _⟩
      · rw [← h1]; exact hok
      · rw [hok] at h1; cases h1
    have hres : res = .ok () := by
      have h3 := (opBytes_csv e.sink st.outCfg res cs).2
      rw [h2] at h3
      cases hx : (csvRowsText e.sink.ff st.outCfg ((fed cs).map (·.2))).2 <;> rw [hx] at h3
      · exact h3.symm
      all_goals cases h3
    have hcalls : (calls st.range (enough (files.map (·.source))) (files.map (·.source))).2 = .ok () := by rw [← hc]; exact hres
    obtain ⟨cs', c, hcs⟩ := last_flush hcalls (by simpa using hne)
    rw [← hc] at hcs
    simp only at hcs
    have htext' := htext
    rw [h2] at hok ⊢
    rw [hcs, hres] at h2
    obtain ⟨ops, hops⟩ := csvOps_append e.sink st.outCfg c cs' h2
    have hops' : (csvOps e.sink st.outCfg cs res).1 = ops ++ [.flush] := by rw [hres, hcs]; exact hops
    rw [hops', ← List.append_assoc] at hok htext' ⊢
    have h5 := C137_flushed e.out.stdout _ hok
    rw [opBytes_append] at htext'
    simp only [opBytes, List.append_nil] at htext'
    rw [htext'] at h5
    exact h5
  · intro hr
    obtain ⟨h1, h2⟩ := hw.2.2 hr
    obtain ⟨created, hsink⟩ := csvTo_sink (e := e) (a := a) (d := e.out.stdout) (.inl ⟨hout, rfl⟩) st.outCfg
    have hhead : csvSinkHeader e.sink st.outCfg e.out.stdout h =
        .ok (.csv st.outCfg ((BufWriter.new e.out.stdout).runOps (headerOps e.sink st.outCfg h) (.ok ())).1, h) := by
      have h3 := buf_runOps_reliable (.ok ()) (headerOps e.sink st.outCfg h) (BufWriter.new e.out.stdout) hr
      have h4 := chunks_ops (.ok ()) (e.sink.ch.cut (utf8Encode (csvHeaderText st.outCfg h.names))) (BufWriter.new e.out.stdout)
      unfold headerOps at h3 ⊢
      rw [h4] at h3 ⊢
      unfold csvSinkHeader BufWriter.emit
      rcases hx : (BufWriter.new e.out.stdout).writeChunks (e.sink.ch.cut (utf8Encode (csvHeaderText st.outCfg h.names))) with ⟨w', r⟩
      rw [hx] at h3
      rcases r with u | _ | _ | _
      · rfl
      all_goals simp at h3
    obtain ⟨fuel, log, rfl, hrun⟩ := cli_run e a st files hs ho hne h hh created _ hsink _ _ hhead
    rw [← hc, csv_ops] at hrun
    simp only at hrun
    have happ := buf_runOps_append (csvOps e.sink st.outCfg cs res).2 (headerOps e.sink st.outCfg h) (csvOps e.sink st.outCfg cs res).1 (BufWriter.new e.out.stdout)
    have hhd := buf_runOps_reliable (.ok ()) (headerOps e.sink st.outCfg h) (BufWriter.new e.out.stdout) hr
    rcases hx : (BufWriter.new e.out.stdout).runOps (headerOps e.sink st.outCfg h) (.ok ()) with ⟨w0, r0⟩
    rw [hx] at happ hhd hrun
    simp only at hhd
    rw [hhd.1] at happ
    simp only at happ hrun
    rw [← happ] at hrun
    obtain ⟨g1, g2, g3⟩ := buf_runOps_reliable (csvOps e.sink st.outCfg cs res).2 (headerOps e.sink st.outCfg h ++ (csvOps e.sink st.outCfg cs res).1) (BufWriter.new e.out.stdout) hr
    rw [hrun]
    refine ⟨by rw [g1]; exact h1, ?_⟩
    rw [cli_output _ _ rfl]
    show some (((BufWriter.new e.out.stdout).runOps (headerOps e.sink st.outCfg h ++ (csvOps e.sink st.outCfg cs res).1) (csvOps e.sink st.outCfg cs res).2).1.close).taken = _
    congr 1
    unfold stdoutRun
    rw [h2, ← htext]
    generalize ((BufWriter.new e.out.stdout).runOps (headerOps e.sink st.outCfg h ++ (csvOps e.sink st.outCfg cs res).1) (csvOps e.sink st.outCfg cs res).2).1 = w at g2 g3
    obtain ⟨h5, h6⟩ := flushBuf_took w
    obtain ⟨_, _, h7, h8 | ⟨k, _, h8⟩⟩ := took_nothing (l' := w.flushBuf.1) (r := w.flushBuf.2) h5
    · have h9 := h6 h8
      rw [got, h9, List.append_nil, g3] at h7
      rw [show w.close = w.flushBuf.1.dev from rfl, h7]
      simp [got, BufWriter.new]
    · exact absurd h8 (g2 k)

/-- Two lines and a half are written to a device that takes three bytes at a time: nothing is lost at the end of the process. -/
example : ((StdoutWriter.new ⟨[], [.take 2, .take 2], 0⟩).runOps [.write [97, 10, 98, 98, 98, 10, 99], .flush, .write [100]] (.ok ())).1.exit.taken =
    [97, 10, 98, 98, 98, 10, 99, 100] := by
  rw [((C137_writer _ _ _).2.2 (fun k h => by simp [CanFail] at h)).2]
  rfl

/-- The run of the example of C60 without `-o`. -/
def exStdoutArgs : CliArgs := { inputs := some ["x.dc".toList, "y.dc".toList], outEpoch := true }

theorem exStdout_settings : parseSettings exEnv exStdoutArgs = .ok exSettings := rfl

/-- The hypotheses of C137_tool are met. -/
example : (stdoutRun exEnv.sink exSettings.outCfg ⟨["a".toList, "b".toList], [.int, .string]⟩
      (calls exSettings.range (enough ([exFileA, exFileB].map (·.source))) ([exFileA, exFileB].map (·.source))).1
      (calls exSettings.range (enough ([exFileA, exFileB].map (·.source))) ([exFileA, exFileB].map (·.source))).2 exEnv.out.stdout).2 = (chopperCli exEnv exStdoutArgs).result :=
  ((C137_tool exEnv exStdoutArgs exSettings [exFileA, exFileB] ⟨["a".toList, "b".toList], [.int, .string]⟩ exStdout_settings exCli_opens exCli_good.header rfl _ _ rfl).2.2
    (fun k h => by simp [CanFail, exEnv] at h)).1

end Chopper.Props
