import Verif.Proofs.Cli4
import Verif.Proofs.Writer2

/-!
# A successful run made no failing call to its output and flushed it
-/
namespace Chopper
open Spec

theorem perform_clean {e : SinkEnv} {mk : BufWriter → CliSink} {row : Row → Wr Unit} (hm : WritesRows e mk row) :
    ∀ (cs : List Call) (w : BufWriter), (perform (sinkFeed (cliOps e)) (sinkFlush (cliOps e)) cs (.ok ()) (mk w)).2 = .ok () →
    ∃ w', (perform (sinkFeed (cliOps e)) (sinkFlush (cliOps e)) cs (.ok ()) (mk w)).1 = mk w' ∧ Clean w.dev w'.dev
  | [], w, _ => ⟨w, rfl, .refl _⟩
  | .flush c :: cs, w, h => by
    simp only [perform, sinkFlush, cliOps, hm.flush] at h ⊢
    have hf := flush_clean (w := w)
    rcases hw : w.flush with ⟨w1, r⟩
    rw [hw] at hf h
    cases r with
    | ok u =>
      obtain ⟨w', h3, h4⟩ := perform_clean hm cs w1 h
      exact ⟨w', h3, (hf rfl).1.trans h4⟩
    | err x => simp at h
    | panic => simp at h
    | diverge => simp at h
  | .feed c r :: cs, w, h => by
    simp only [perform, sinkFeed, cliOps, hm.write] at h ⊢
    have hf := fun x => emit_clean (ch := e.ch) (w := w) (bs := (row r).out) (res := (row r).res.map fun _ => [r]) (x := x)
    rcases hw : w.emit e.ch (row r).out ((row r).res.map fun _ => [r]) with ⟨w1, res⟩
    rw [hw] at hf h
    cases res with
    | ok u =>
      obtain ⟨w', h3, h4⟩ := perform_clean hm cs w1 h
      exact ⟨w', h3, (hf u rfl).trans h4⟩
    | err x => simp [Res.map] at h
    | panic => simp [Res.map] at h
    | diverge => simp [Res.map] at h

theorem perform_ends_flushed {e : SinkEnv} {mk : BufWriter → CliSink} {row : Row → Wr Unit} (hm : WritesRows e mk row) (cs : List Call) (c : Nat) (w : BufWriter)
    (h : (perform (sinkFeed (cliOps e)) (sinkFlush (cliOps e)) (cs ++ [.flush c]) (.ok ()) (mk w)).2 = .ok ()) :
    ∃ w', (perform (sinkFeed (cliOps e)) (sinkFlush (cliOps e)) (cs ++ [.flush c]) (.ok ()) (mk w)).1 = mk w' ∧ Clean w.dev w'.dev ∧ w'.buf = [] ∧
      w'.dev.flushed = w'.dev.taken.length := by
  rw [perform_append] at h ⊢
  have h1 := perform_clean hm cs w
  rcases hp : perform (sinkFeed (cliOps e)) (sinkFlush (cliOps e)) cs (.ok ()) (mk w) with ⟨s1, r⟩
  rw [hp] at h h1
  cases r with
  | ok u =>
    obtain ⟨w1, h2, h3⟩ := h1 rfl
    simp only at h2
    subst h2
    simp only [perform, sinkFlush, cliOps, hm.flush] at h ⊢
    have hf := flush_clean (w := w1)
    have hg := (flush_step (w := w1) (b := w1.dev.taken ++ w1.buf) rfl).2
    rcases hw : w1.flush with ⟨w2, r⟩
    rw [hw] at hf hg h
    cases r with
    | ok u =>
      obtain ⟨h4, h5⟩ := hf rfl
      refine ⟨w2, rfl, h3.trans h4, ?_, h5⟩
      rcases hg with ⟨_, _, hg⟩ | ⟨k, hg, _⟩
      · exact hg
      · simp at hg
    | err x => simp at h
    | panic => simp at h
    | diverge => simp at h
  | err x => simp at h
  | panic => simp at h
  | diverge => simp at h

/-- What a successful run has done to its output. -/
theorem cli_flushed (e : CliEnv) (a : CliArgs) (st : CliSettings e.csv.lib) (files : List FileSource) (hs : parseSettings e a = .ok st)
    (ho : Opens e st files) (hne : files ≠ []) (h : Header) (hh : ∀ x ∈ files, x.header = h) (created : List Path)
    (f : Header → Res (CliSink × Header)) (hf : newHeaderSink e.sink e.out a.output st.outCfg = (created, .ok f))
    (mk : BufWriter → CliSink) (row : Row → Wr Unit) (hm : WritesRows e.sink mk row) (w0 : BufWriter) (h' : Header) (hs0 : f h = .ok (mk w0, h'))
    (hok : (chopperCli e a).result = .ok ()) :
    ∃ out, (chopperCli e a).output = some out ∧ Clean w0.dev out ∧ out.flushed = out.taken.length := by
  obtain ⟨fuel, log, rfl, hrun⟩ := cli_run e a st files hs ho hne h hh created f hf (mk w0) h' hs0
  generalize hc : calls st.range (Props.enough (files.map (·.source))) (files.map (·.source)) = cc at hrun
  rw [hrun] at hok ⊢
  simp only at hok
  have hc2 := perform_ok hok
  obtain ⟨cs, c, hcs⟩ := last_flush (by rw [hc]; exact hc2) (by simpa using hne)
  rw [hc] at hcs
  rw [hc2, hcs] at hok ⊢
  obtain ⟨w', h1, h2, h3, h4⟩ := perform_ends_flushed hm cs c w0 hok
  obtain ⟨g1, g2, g3⟩ := close_empty h3
  refine ⟨w'.close, ?_, ?_, by rw [g3, g2]; exact h4⟩
  · rw [cli_output _ _ rfl, h1, hm.device]
  · obtain ⟨used, h5, h6⟩ := h2
    exact ⟨used, by rw [g1]; exact h5, h6⟩

theorem csv_flushed (e : CliEnv) (a : CliArgs) (st : CliSettings e.csv.lib) (files : List FileSource) (h : Header) (d : Device) (hs : parseSettings e a = .ok st)
    (ho : Opens e st files) (hh : ∀ f ∈ files, f.header = h) (hd : CsvTo e.out a.output d) (hok : (chopperCli e a).result = .ok ()) :
    ∃ out, (chopperCli e a).output = some out ∧ Clean d out ∧ out.flushed = out.taken.length := by
  obtain ⟨created, hsink⟩ := csvTo_sink hd st.outCfg
  have hne := opens_ne hs ho
  have hcl := emit_clean (ch := e.sink.ch) (w := BufWriter.new d) (bs := utf8Encode (csvHeaderText st.outCfg h.names)) (res := .ok ()) (x := ())
  rcases hw : (BufWriter.new d).emit e.sink.ch (utf8Encode (csvHeaderText st.outCfg h.names)) (.ok ()) with ⟨w, r⟩
  rw [hw] at hcl
  have h1 : csvSinkHeader e.sink st.outCfg d h = r.bind fun _ => .ok (.csv st.outCfg w, h) := by unfold csvSinkHeader; rw [hw]
  have hbad : ∀ x : Res (CliSink × Header), csvSinkHeader e.sink st.outCfg d h = x → (∀ p, x ≠ .ok p) → False := by
    intro x hx hn
    have h4 := cli_setup_run e a st files hs ho created _ hsink
    rw [cli_new_driver _ _ files hne h hh, hx] at h4
    unfold chopperCli at hok
    rw [h4] at hok
    cases x with
    | ok p => exact hn p rfl
    | err y => simp [Res.bind] at hok
    | panic => simp [Res.bind] at hok
    | diverge => simp [Res.bind] at hok
  cases r with
  | ok u =>
    obtain ⟨out, g1, g2, g3⟩ := cli_flushed e a st files hs ho hne h hh created _ hsink _ _ (csv_writes e.sink st.outCfg) w h h1 hok
    exact ⟨out, g1, Clean.trans (hcl rfl) g2, g3⟩
  | err x => exact (hbad _ h1 (by simp [Res.bind])).elim
  | panic => exact (hbad _ h1 (by simp [Res.bind])).elim
  | diverge => exact (hbad _ h1 (by simp [Res.bind])).elim

theorem dc_flushed (e : CliEnv) (a : CliArgs) (st : CliSettings e.csv.lib) (files : List FileSource) (h : Header) (d : Device) (hs : parseSettings e a = .ok st)
    (ho : Opens e st files) (hh : ∀ f ∈ files, f.header = h) (hd : DcTo e.out a.output d) (hok : (chopperCli e a).result = .ok ()) :
    ∃ out, (chopperCli e a).output = some out ∧ Clean d out ∧ out.flushed = out.taken.length := by
  obtain ⟨created, hsink⟩ := dcTo_sink hd st.outCfg
  have hne := opens_ne hs ho
  have hcl := fun x => emit_clean (ch := e.sink.ch) (w := BufWriter.new d) (bs := (dcProcessHeader e.sink.ov h).out) (res := (dcProcessHeader e.sink.ov h).res) (x := x)
  rcases hw : (BufWriter.new d).emit e.sink.ch (dcProcessHeader e.sink.ov h).out (dcProcessHeader e.sink.ov h).res with ⟨w, r⟩
  rw [hw] at hcl
  have h1 : dcSinkHeader e.sink d h = r.bind fun k => .ok (.dc k w, h) := by unfold dcSinkHeader; simp only [hw]
  have hbad : ∀ x : Res (CliSink × Header), dcSinkHeader e.sink d h = x → (∀ p, x ≠ .ok p) → False := by
    intro x hx hn
    have h4 := cli_setup_run e a st files hs ho created _ hsink
    rw [cli_new_driver _ _ files hne h hh, hx] at h4
    unfold chopperCli at hok
    rw [h4] at hok
    cases x with
    | ok p => exact hn p rfl
    | err y => simp [Res.bind] at hok
    | panic => simp [Res.bind] at hok
    | diverge => simp [Res.bind] at hok
  cases r with
  | ok k =>
    obtain ⟨out, g1, g2, g3⟩ := cli_flushed e a st files hs ho hne h hh created _ hsink _ _ (dc_writes e.sink k) w h h1 hok
    exact ⟨out, g1, Clean.trans (hcl k rfl) g2, g3⟩
  | err x => exact (hbad _ h1 (by simp [Res.bind])).elim
  | panic => exact (hbad _ h1 (by simp [Res.bind])).elim
  | diverge => exact (hbad _ h1 (by simp [Res.bind])).elim

end Chopper
