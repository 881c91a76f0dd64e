import Verif.Proofs.Broken
import Verif.Props.Received
import Verif.Props.LibGraph
import Verif.Props.FilterLaws
import Verif.Props.Cli
import Verif.Props.InPlace

/-!
# Inputs that break off (C140)
-/
namespace Chopper.Props
open Chopper Chopper.Spec

/-- Some of the inputs, each with the same place in the list, break off. -/
def BreakOff (parts wholes : List Source) : Prop :=
  parts.length = wholes.length ∧ ∀ (i : Nat) p s, parts[i]? = some p → wholes[i]? = some s → BreaksOff p s

/-- **C140 (calls).** Whatever inputs break off, wherever: what a run feeds and flushes is the beginning of what the run over the unbroken inputs feeds and flushes; and it is all of
it unless the run fails. -/
theorem C140_calls (range : TimestampRange) (fuel : Nat) (parts wholes : List Source) (h : BreakOff parts wholes) :
    (calls range fuel parts).1 <+: (calls range fuel wholes).1 ∧ ((calls range fuel parts).2 = .ok () → calls range fuel parts = calls range fuel wholes) :=
  calls_broken range fuel (sourcesBroken_of h.1 h.2)

/-- **C140 (graphs).** So for every graph, whatever its nodes and outputs do, the run over the broken inputs leaves it in a state it has at some moment of the run over the unbroken ones;
if it succeeds, then the runs are the same. -/
theorem C140_graph {S : Type} (ops : SinkOps S) (range : TimestampRange) (gfuel fuel : Nat) (parts wholes : List Source) (g : DGraph S) (h : BreakOff parts wholes) :
    (∃ k, (driveGraph ops range gfuel fuel parts g).1 = after ops gfuel (calls range fuel wholes).1 k g) ∧
    ((driveGraph ops range gfuel fuel parts g).2 = .ok () → driveGraph ops range gfuel fuel parts g = driveGraph ops range gfuel fuel wholes g) := by
  obtain ⟨h1, h2⟩ := C140_calls range fuel parts wholes h
  unfold driveGraph
  rw [drive_perform, drive_perform]
  constructor
  · refine ⟨(calls range fuel parts).1.length, ?_⟩
    unfold after
    rw [← List.prefix_iff_eq_take.1 h1, ← perform_fst _ _ _ (calls range fuel parts).2]
  · intro hok
    have hc : (calls range fuel parts).2 = .ok () := by
      have hall : ∀ (cs : List Call) (out : Res Unit) (g : DGraph S),
          (perform (fun c r g => processRow ops gfuel c 0 r g) (fun c g => flushFrom ops gfuel c 0 g) cs out g).2 = .ok () → out = .ok () := by
        intro cs
        induction cs with
        | nil => intro out g h; exact h
        | cons c cs ih =>
          intro out g h
          cases c with
          | feed c r =>
            rw [perform] at h
            rcases hp : processRow ops gfuel c 0 r g with ⟨g', (_ | _) | _ | _ | _⟩ <;> simp only [hp, reduceCtorEq] at h
            exact ih _ _ h
          | flush c =>
            rw [perform] at h
            rcases hp : flushFrom ops gfuel c 0 g with ⟨g', (_ | _) | _ | _ | _⟩ <;> simp only [hp, reduceCtorEq] at h
            exact ih _ _ h
      exact hall _ _ _ hok
    rw [h2 hc]

theorem part_calls {range : TimestampRange} {parts wholes : List Source} (h : BreakOff parts wholes) :
    (calls range (enough parts) parts).1 <+: (calls range (enough wholes) wholes).1 ∧
      ((calls range (enough parts) parts).2 = .ok () → calls range (enough parts) parts = calls range (enough wholes) wholes) := by
  have h1 : calls range (enough parts) parts = calls range (enough parts + enough wholes) parts := calls_fuel (Nat.le_refl _) (by omega)
  have h2 : calls range (enough wholes) wholes = calls range (enough parts + enough wholes) wholes := calls_fuel (Nat.le_refl _) (by omega)
  rw [h1, h2]
  exact C140_calls range _ parts wholes h

theorem fed_map_prefix {a b : List Call} (h : a <+: b) : (fed a).map (·.2) <+: (fed b).map (·.2) := by
  obtain ⟨u, rfl⟩ := h
  exact ⟨(fed u).map (·.2), by simp [fed]⟩

/-- **C140 (the tool, CSV).** A run of the tool over inputs of which some break off - a connection is lost, a compressed file is damaged, a line is malformed - against the run over the
unbroken inputs, where that succeeds: the output file holds a beginning of the complete one; if the run reports success, it holds all of it. (The inputs have the same header, the output is
CSV, and any device.) -/
theorem C140_csv (e : CliEnv) (w' : World) (a : CliArgs) (st : CliSettings e.csv.lib) (parts wholes : List FileSource) (h : Header) (d : Device)
    (hs : parseSettings e a = .ok st) (ho : Opens e st wholes) (ho' : Opens { e with world := w' } st parts) (hh : ∀ f ∈ wholes, f.header = h) (hh' : ∀ f ∈ parts, f.header = h)
    (hb : BreakOff (parts.map (·.source)) (wholes.map (·.source))) (hd : CsvTo e.out a.output d) (hok : (chopperCli e a).result = .ok ()) (out out' : Device)
    (hout : (chopperCli e a).output = some out) (hout' : (chopperCli { e with world := w' } a).output = some out') :
    out'.taken <+: out.taken ∧ ((chopperCli { e with world := w' } a).result = .ok () → out'.taken = out.taken) := by
  rcases csv_run e a st wholes h d hs ho hh hd with ⟨k, _, _, h1⟩ | ⟨o, cs, res, h1, h2, h3, h4, h5⟩
  · rw [hout] at h1; cases h1
  rcases csv_run { e with world := w' } a st parts h d hs ho' hh' hd with ⟨k, _, _, g1⟩ | ⟨o', cs', res', g1, g2, g3, g4, g5⟩
  · rw [hout'] at g1; cases g1
  rw [hout] at h2; rw [hout'] at g2
  obtain rfl := Option.some.inj h2
  obtain rfl := Option.some.inj g2
  obtain ⟨h6, h7, h8⟩ := h4 hok
  obtain ⟨p1, p2⟩ := part_calls (range := st.range) hb
  rw [← g1, ← h1] at p1 p2
  rw [h8]
  refine ⟨g3.trans (prefix_left _ (encode_prefix (csvFile_prefix _ _ _ (fed_map_prefix p1)))), fun hok' => ?_⟩
  obtain ⟨g6, _, g8⟩ := g4 hok'
  have := congrArg Prod.fst (p2 g6)
  simp only at this
  rw [g8, this]

/-- **C140 (the tool, DC).** The same for DC output. -/
theorem C140_dc (e : CliEnv) (w' : World) (a : CliArgs) (st : CliSettings e.csv.lib) (parts wholes : List FileSource) (h : Header) (d : Device)
    (hs : parseSettings e a = .ok st) (ho : Opens e st wholes) (ho' : Opens { e with world := w' } st parts) (hh : ∀ f ∈ wholes, f.header = h) (hh' : ∀ f ∈ parts, f.header = h)
    (hb : BreakOff (parts.map (·.source)) (wholes.map (·.source))) (hd : DcTo e.out a.output d) (hok : (chopperCli e a).result = .ok ()) (out out' : Device)
    (hout : (chopperCli e a).output = some out) (hout' : (chopperCli { e with world := w' } a).output = some out') :
    out'.taken <+: out.taken ∧ ((chopperCli { e with world := w' } a).result = .ok () → out'.taken = out.taken) := by
  obtain ⟨n, hn⟩ := Classical.not_forall_not.1 fun hc => by
    have := (dc_bad_header e a st wholes h d hs ho hh hd hc).2
    rw [hout] at this; simp at this
  rcases dc_run e a st wholes h d hs ho hh hd n hn with ⟨k, _, _, h1⟩ | ⟨o, cs, res, h1, h2, h3, h4, h5⟩
  · rw [hout] at h1; cases h1
  rcases dc_run { e with world := w' } a st parts h d hs ho' hh' hd n hn with ⟨k, _, _, g1⟩ | ⟨o', cs', res', g1, g2, g3, g4, g5⟩
  · rw [hout'] at g1; cases g1
  rw [hout] at h2; rw [hout'] at g2
  obtain rfl := Option.some.inj h2
  obtain rfl := Option.some.inj g2
  obtain ⟨h6, h7, h8⟩ := h4 hok
  obtain ⟨p1, p2⟩ := part_calls (range := st.range) hb
  rw [← g1, ← h1] at p1 p2
  rw [h8]
  refine ⟨g3.trans (prefix_left _ (dcFile_prefix _ _ (fed_map_prefix p1))), fun hok' => ?_⟩
  obtain ⟨g6, _, g8⟩ := g4 hok'
  have := congrArg Prod.fst (p2 g6)
  simp only at this
  rw [g8, this]

theorem single_calls {range : TimestampRange} {p s : Source} (h : p.rows <+: s.rows) :
    (fed (calls range (enough [p]) [p]).1).map (·.2) <+: (fed (calls range (enough [s]) [s]).1).map (·.2) := by
  have h1 : calls range (enough [p]) [p] = calls range (enough [p] + enough [s]) [p] := calls_fuel (Nat.le_refl _) (by omega)
  have h2 : calls range (enough [s]) [s] = calls range (enough [p] + enough [s]) [s] := calls_fuel (Nat.le_refl _) (by omega)
  rw [h1, h2]
  obtain ⟨u, hu⟩ := calls_single range (enough [p] + enough [s]) h
  rw [← hu]
  exact ⟨u.map (·.2), by simp⟩

/-- **C140 (one input).** With a single input the output holds a beginning of the complete one even if the input ends early without an error. -/
theorem C140_one (e : CliEnv) (w' : World) (a : CliArgs) (st : CliSettings e.csv.lib) (part whole : FileSource) (d : Device)
    (hs : parseSettings e a = .ok st) (ho : Opens e st [whole]) (ho' : Opens { e with world := w' } st [part]) (hh : part.header = whole.header)
    (hb : part.source.rows <+: whole.source.rows) (hd : CsvTo e.out a.output d ∨ DcTo e.out a.output d) (hok : (chopperCli e a).result = .ok ()) (out out' : Device)
    (hout : (chopperCli e a).output = some out) (hout' : (chopperCli { e with world := w' } a).output = some out') : out'.taken <+: out.taken := by
  have p1 := single_calls (range := st.range) hb
  rcases hd with hd | hd
  · rcases csv_run e a st [whole] whole.header d hs ho (by simp) hd with ⟨k, _, _, h1⟩ | ⟨o, cs, res, h1, h2, h3, h4, h5⟩
    · rw [hout] at h1; cases h1
    rcases csv_run { e with world := w' } a st [part] whole.header d hs ho' (by simpa using hh) hd with ⟨k, _, _, g1⟩ | ⟨o', cs', res', g1, g2, g3, g4, g5⟩
    · rw [hout'] at g1; cases g1
    rw [hout] at h2; rw [hout'] at g2
    obtain rfl := Option.some.inj h2
    obtain rfl := Option.some.inj g2
    obtain ⟨h6, h7, h8⟩ := h4 hok
    simp only [List.map_cons, List.map_nil] at g1 h1
    rw [← g1, ← h1] at p1
    rw [h8]
    exact g3.trans (prefix_left _ (encode_prefix (csvFile_prefix _ _ _ p1)))
  · obtain ⟨n, hn⟩ := Classical.not_forall_not.1 fun hc => by
      have := (dc_bad_header e a st [whole] whole.header d hs ho (by simp) hd hc).2
      rw [hout] at this; simp at this
    rcases dc_run e a st [whole] whole.header d hs ho (by simp) hd n hn with ⟨k, _, _, h1⟩ | ⟨o, cs, res, h1, h2, h3, h4, h5⟩
    · rw [hout] at h1; cases h1
    rcases dc_run { e with world := w' } a st [part] whole.header d hs ho' (by simpa using hh) hd n hn with ⟨k, _, _, g1⟩ | ⟨o', cs', res', g1, g2, g3, g4, g5⟩
    · rw [hout'] at g1; cases g1
    rw [hout] at h2; rw [hout'] at g2
    obtain rfl := Option.some.inj h2
    obtain rfl := Option.some.inj g2
    obtain ⟨h6, h7, h8⟩ := h4 hok
    simp only [List.map_cons, List.map_nil] at g1 h1
    rw [← g1, ← h1] at p1
    rw [h8]
    exact g3.trans (prefix_left _ (dcFile_prefix _ _ p1))

/-- If the driver was started, the inputs were opened. -/
theorem opens_of_output {e : CliEnv} {a : CliArgs} {st : CliSettings e.csv.lib} (hs : parseSettings e a = .ok st) {out : Device} (h : (chopperCli e a).output = some out) :
    ∃ files, Opens e st files := by
  rcases ho : openInputs (newInputs e.csv e.dec e.zip e.world (some st.inCfg) e.userFactories e.userTransports) e.world st.inputs with files | _ | _ | _
  · exact ⟨files, (openInputs_iff _ _ _ _).1 ho⟩
  all_goals
    rw [show (chopperCli e a).output = none by
      unfold chopperCli parseCliArgs
      simp only [hs]
      unfold setupGraph
      simp only [ho]
      rfl] at h
    cases h

theorem opens_one {e : CliEnv} {st : CliSettings e.csv.lib} {files : List FileSource} {i : Input} (hi : st.inputs = [i]) (h : Opens e st files) :
    ∃ f, files = [f] ∧ createFromInput (newInputs e.csv e.dec e.zip e.world (some st.inCfg) e.userFactories e.userTransports) e.world i = .ok f := by
  obtain ⟨h1, h2⟩ := h
  rw [hi] at h1 h2
  match files, h1 with
  | [f], _ => exact ⟨f, rfl, h2 0 i f rfl rfl⟩

/-- All of a DC input is read if it arrives completely. -/
theorem dc_all {env : CsvEnv} {dec : Decoders} {zip : ZipLib} {w : World} {cfg : Option (CsvInputConfig env.lib)} {i : Input} {r : Inner} {n : Option Str}
    (hi : Delivered zip w i r n) (hn : SaysDc n i.format) {h : Header} {src : Source} (hw : IsDcFile r.data h src) (hf : NoFail r) {f : FileSource}
    (ho : createFromInput (newInputs env dec zip w cfg [] []) w i = .ok f) : f.header = h ∧ f.source.rows = src.rows := by
  obtain ⟨p, h1, h2, h3, h4, h5⟩ := preview_ok hf
  rw [hi.opens cfg, h1] at ho
  replace ho : createFromPreviewer dec (defaultFactories env cfg) p n i.format = .ok f := ho
  rw [says_dc hn, show (dcFactory env.ov).create p = (dcOpen env.ov (streamOf p.reader)).bind fun src => .ok src.toFile from rfl] at ho
  have hr : received (streamOf p.reader) = r.data := by
    rw [streamOf_eq _ (fun e he => h5 e (.inl he)), h3, received_append]
    have : p.reader.inner.ending = none := by
      rcases he : p.reader.inner.ending with _ | k
      · rfl
      · exact absurd (.inr he) (h5 k)
    rw [this]; simp [endItems, received]
  obtain ⟨d, g1, g2, g3⟩ := C139_complete env.ov _ r.data h src hw hr
  rw [g1] at ho
  cases ho
  exact ⟨g2, g3⟩

/-- **C140 (one DC input).** The tool reads a single DC input - a file, a page, standard input, the entry of a zip archive - of which only a part arrives, in whatever pieces and with
whatever failures. If the run over the complete input succeeds, then the output holds a beginning of the complete output. -/
theorem C140_dc_input (e : CliEnv) (w' : World) (a : CliArgs) (st : CliSettings e.csv.lib) (i : Input) (r r' : Inner) (n n' : Option Str) (h : Header) (src : Source) (d : Device)
    (hs : parseSettings e a = .ok st) (hi : st.inputs = [i]) (hp : e.userFactories = [] ∧ e.userTransports = [])
    (h1 : Delivered e.zip e.world i r n) (h2 : SaysDc n i.format) (h3 : IsDcFile r.data h src) (h4 : NoFail r)
    (h5 : Delivered e.zip w' i r' n') (h6 : SaysDc n' i.format) (h7 : r'.data <+: r.data)
    (hd : CsvTo e.out a.output d ∨ DcTo e.out a.output d) (hok : (chopperCli e a).result = .ok ()) (out out' : Device)
    (hout : (chopperCli e a).output = some out) (hout' : (chopperCli { e with world := w' } a).output = some out') : out'.taken <+: out.taken := by
  obtain ⟨fs, ho⟩ := opens_of_output hs hout
  obtain ⟨fs', ho'⟩ := opens_of_output (e := { e with world := w' }) (st := st) hs hout'
  obtain ⟨f, rfl, hf⟩ := opens_one hi ho
  obtain ⟨f', rfl, hf'⟩ := opens_one (e := { e with world := w' }) (st := st) hi ho'
  rw [hp.1, hp.2] at hf
  replace hf' : createFromInput (newInputs e.csv e.dec e.zip w' (some st.inCfg) e.userFactories e.userTransports) w' i = .ok f' := hf'
  rw [hp.1, hp.2] at hf'
  obtain ⟨g1, g2⟩ := dc_all h1 h2 h3 h4 hf
  have g3 := C139_input e.csv e.dec e.zip w' (some st.inCfg) i r' n' h5 h6 r.data h src h3 h7 f' hf'
  exact C140_one e w' a st f' f d hs ho ho' (g3.header.trans g1.symm) (g2 ▸ g3.rows) hd hok out out' hout hout'

/-! ### Cases that meet the hypotheses -/

def exBrokenA : Source := ⟨[⟨1, [.int 1]⟩], .fail (.io .unexpectedEof)⟩
def exWholeA : Source := ⟨[⟨1, [.int 1]⟩, ⟨4, [.int 2]⟩], .eof⟩
def exWholeB : Source := ⟨[⟨2, [.int 3]⟩, ⟨5, [.int 4]⟩], .eof⟩

/-- The first of two inputs breaks off after its first row: that row is fed and nothing else, although the second input has a row that would be next. -/
example : BreakOff [exBrokenA, exWholeB] [exWholeA, exWholeB] ∧ calls ⟨none, none⟩ 6 [exBrokenA, exWholeB] = ([.feed 1 ⟨1, [.int 1]⟩], .err (.io .unexpectedEof)) ∧
    calls ⟨none, none⟩ 6 [exWholeA, exWholeB] =
      ([.feed 1 ⟨1, [.int 1]⟩, .feed 0 ⟨2, [.int 3]⟩, .feed 1 ⟨4, [.int 2]⟩, .flush 1, .feed 0 ⟨5, [.int 4]⟩, .flush 0], .ok ()) := by
  refine ⟨⟨rfl, ?_⟩, by decide, by decide⟩
  intro i p s h1 h2
  match i with
  | 0 => cases h1; cases h2; exact .inr ⟨⟨[⟨4, [.int 2]⟩], rfl⟩, by decide⟩
  | 1 => cases h1; cases h2; exact .inl rfl
  | i + 2 => simp at h1

/-- `chopper -o y.dc x.dc` -/
def brokenArgs : CliArgs := { inputs := some ["x.dc".toList], output := some "y.dc".toList, outEpoch := true }

theorem broken_delivered (data : List Byte) (hz : ¬ [0x50, 0x4b, 3, 4] <+: data) :
    Delivered exLib (lossWorld data) ⟨.path "x.dc".toList, .auto⟩ ⟨data, [.bytes 3], none⟩ (lastComponent "x.dc".toList) :=
  .file _ _ _ ⟨rfl, by simp [lossWorld], by simp [lossWorld]⟩ (by decide +kernel) hz

theorem broken_run (n : Nat) : ∃ out, (chopperCli (lossEnv (lossFile (n + 1))) brokenArgs).result = .ok () ∧ (chopperCli (lossEnv (lossFile (n + 1))) brokenArgs).output = some out := by
  obtain ⟨out, _, h1, h2, _⟩ := C61_dc (lossEnv (lossFile (n + 1))) brokenArgs lossSettings _ lossHeader exDev rfl ((loss_over _).opens (loss_file (n + 1))) (loss_good n)
    ⟨_, rfl, ⟨"y.".toList, by decide +kernel⟩, rfl⟩ (by intro k hk; simp [exDev] at hk) rfl (by decide) (by decide) (by decide) (by decide +kernel) (by
      intro f hf r hr _
      simp only [List.mem_singleton] at hf
      subst hf
      exact (List.mem_replicate.1 hr).2 ▸ loss_fits)
  exact ⟨out, h1, h2⟩

/-- A DC file of which only the first rows arrive: everything `C140_dc_input` asks for, and so what it says. -/
example (k m : Nat) : ∃ out out', (chopperCli (lossEnv (lossFile (k + 1 + m))) brokenArgs).output = some out ∧
    (chopperCli (lossEnv (lossFile (k + 1))) brokenArgs).output = some out' ∧ out'.taken <+: out.taken := by
  obtain ⟨out', _, h2'⟩ := broken_run k
  obtain ⟨out, h1, h2⟩ := broken_run (k + m)
  rw [show k + m + 1 = k + 1 + m by omega] at h1 h2
  refine ⟨out, out', h2, h2', ?_⟩
  have hl : lastComponent "x.dc".toList = some (['x'] ++ ".dc".toList) := by decide +kernel
  exact C140_dc_input (lossEnv (lossFile (k + 1 + m))) (lossWorld (lossFile (k + 1))) brokenArgs lossSettings ⟨.path "x.dc".toList, .auto⟩ _ _ _ _ lossHeader _ exDev rfl rfl ⟨rfl, rfl⟩
    (broken_delivered _ (dc_not_zip (loss_file _))) (.inl ⟨_, hl, rfl⟩) (loss_file _) (by intro k hk; rcases hk with hk | hk <;> simp at hk)
    (broken_delivered _ (dc_not_zip (loss_file _))) (.inl ⟨_, hl, rfl⟩) (by rw [loss_grow (k + 1) m]; exact List.prefix_append _ _)
    (.inr ⟨_, rfl, ⟨"y.".toList, by decide +kernel⟩, rfl⟩) h1 out out' h2 h2'

end Chopper.Props
