import Verif.Proofs.LibGraph
import Verif.Spec.Moments

/-!
# C121, C122: output files in any graph of filters, merges, splits and outputs
-/
namespace Chopper.Props
open Chopper Spec

theorem turns_end {c i : Nat} : ∀ {ev : List Event}, Event.flush c i ∈ ev → (∀ r pre post, ev = pre ++ .write c i r :: post → .flush c i ∈ post) →
    (turns c i ev).getLast? = some none
  | [], h, _ => by simp at h
  | x :: ev, h, hf => by
    have hf' : ∀ r pre post, ev = pre ++ .write c i r :: post → Event.flush c i ∈ post :=
      fun r pre post he => hf r (x :: pre) post (by rw [he]; rfl)
    by_cases hm : Event.flush c i ∈ ev
    · have := turns_end hm hf'
      rw [show x :: ev = [x] ++ ev from rfl, turns_append, List.getLast?_append, this]
      rfl
    · have hnil : turns c i ev = [] := by
        unfold turns
        rw [List.filterMap_eq_nil_iff]
        intro y hy
        cases y with
        | write c' i' r =>
          simp only
          split
          · next hh =>
            obtain ⟨rfl, rfl⟩ := hh
            obtain ⟨pre, post, he⟩ := List.append_of_mem hy
            exact absurd (by rw [he]; simp [hf' r pre post he]) hm
          · rfl
        | flush c' i' =>
          simp only
          split
          · next hh => obtain ⟨rfl, rfl⟩ := hh; exact absurd hy hm
          · rfl
      rw [show x :: ev = [x] ++ ev from rfl, turns_append, hnil, List.append_nil]
      rcases List.mem_cons.1 h with rfl | h
      · simp [turns]
      · exact absurd h hm

theorem fed_chains {range : TimestampRange} {fuel : Nat} {sources : List Source} {cs : List Call} (hc : ∀ x ∈ cs, x ∈ (calls range fuel sources).1) :
    ∀ p ∈ fed cs, p.1 < sources.length := by
  intro p hp
  obtain ⟨x, hx, he⟩ := List.mem_filterMap.1 hp
  have := calls_chains range fuel sources x (hc x hx)
  cases x with
  | feed c r => simp only [Call.fed?, Option.some.injEq] at he; subst he; exact this
  | flush c => simp [Call.fed?] at he

theorem routed_append (chains : List (DChain LibSink)) (R : Nat → List (List Place)) (a b : List Call) : routed chains R (a ++ b) = routed chains R a ++ routed chains R b := by
  unfold routed fed
  rw [List.filterMap_append, List.flatMap_append]

theorem routed_take (chains : List (DChain LibSink)) (R : Nat → List (List Place)) (cs : List Call) (k : Nat) : routed chains R (cs.take k) <+: routed chains R cs :=
  ⟨routed chains R (cs.drop k), by rw [← routed_append, List.take_append_drop]⟩

/-- The run as a whole is its last moment. -/
theorem perform_fst {G : Type} (process : ChainId → Row → G → G × Res Unit) (flush : ChainId → G → G × Res Unit) (cs : List Call) (out : Res Unit) (g : G) :
    (perform process flush cs out g).1 = (perform process flush cs (.ok ()) g).1 := by
  have := perform_append process flush cs [] out g
  rw [List.append_nil] at this
  rw [this]
  rcases perform process flush cs (.ok ()) g with ⟨g', _ | _ | _ | _⟩ <;> rfl

/-- **C121 (the end).** The last of the moments the other theorems speak about is the end of the run. -/
theorem C121_end (e : SinkEnv) (range : TimestampRange) (gfuel fuel : Nat) (sources : List Source) (g : DGraph LibSink) :
    (driveGraph (libOps e) range gfuel fuel sources g).1 = after (libOps e) gfuel (calls range fuel sources).1 (calls range fuel sources).1.length g := by
  unfold driveGraph after
  rw [drive_perform, List.take_length]
  exact perform_fst _ _ _ _ _

theorem after_reaches (e : SinkEnv) (gfuel : Nat) {n : Nat} (cs : List Call) (hcs : ∀ p ∈ fed cs, p.1 < n) (out : Res Unit) (g0 g : DGraph LibSink) (t : Place)
    (R : Nat → List (List Place)) (hinv : AllInv (libInv g0.chains) g.chains) (hr : ∀ c, c < n → Routes g.chains t c 0 (R c)) :
    Reaches (libOps e) t (routed g0.chains R cs) g (perform (fun c r g => processRow (libOps e) gfuel c 0 r g) (fun c g => flushFrom (libOps e) gfuel c 0 g) cs out g) :=
  perform_reaches (lib_acts e g0.chains) (lib_one g0.chains) R cs out g hinv (fun p hp => hr p.1 (hcs p hp))

/-- **C121 (success).** Take any graph of filters, merges, splits and output files, any inputs, any devices. If the run succeeds, then each output file that can be
reached from some input holds exactly its header and the rows that the routes from the inputs lead to it, all of it handed over by the program (nothing is left
in a buffer, the device was flushed after the last byte); closing the file adds nothing. -/
theorem C121_success (e : SinkEnv) (range : TimestampRange) (gfuel fuel : Nat) (sources : List Source) (g g' : DGraph LibSink) (t : Place) (s : CliSink) (d : Device)
    (text : List Row → List Byte × Res Unit) (R : Nat → List (List Place)) (hs : sinkAt g.chains t.1 t.2 = some (.out s)) (hw : Writes e s d text)
    (hr : ∀ c, c < sources.length → Routes g.chains t c 0 (R c)) (hreach : ∃ c, c < sources.length ∧ OnPath g.chains c 0 t.1 t.2)
    (hok : driveGraph (libOps e) range gfuel fuel sources g = (g', .ok ())) :
    ∃ s' now closed, sinkAt g'.chains t.1 t.2 = some (.out s') ∧ deviceNow s' = some now ∧ s'.device = some closed ∧
      (text (routed g.chains R (calls range fuel sources).1)).2 = .ok () ∧
      now.taken = d.taken ++ (text (routed g.chains R (calls range fuel sources).1)).1 ∧ now.flushed = now.taken.length ∧ closed.taken = now.taken := by
  have hok0 := hok
  obtain ⟨ev0, hlog0, hfl0⟩ := C22_flushed _ range gfuel fuel sources g g' hok0
  unfold driveGraph at hok
  rw [drive_perform] at hok
  have hout := perform_ok (by rw [hok])
  obtain ⟨ev, ⟨hsh, hlog, hg⟩, _, hb⟩ := after_reaches e gfuel _ (fed_chains (fun x hx => hx)) (calls range fuel sources).2 g g t R (lib_inv g.chains) hr
  rw [hok] at hsh hlog hg hb
  have hb := hb rfl
  have hee : ev0 = ev := List.append_cancel_left (hlog0.symm.trans hlog)
  subst hee
  obtain ⟨mk, row, w, b, hm, rfl, h1, h2, hnow, htext⟩ := writes_shape hw
  obtain ⟨s', h3, _, h4⟩ := hg t.1 t.2 _ hs
  obtain ⟨w', rfl, h5, h6, _, _, h7⟩ := did_writer hm (h4 rfl) rfl h1
  rw [rowTurns_turns, hb] at h5 h6
  obtain ⟨c, hc, hp⟩ := hreach
  obtain ⟨a, ha, he⟩ := absFrom_chains range sources.reverse 0 (fun s hs => calls_nonempty hout s (by simpa using hs)) c (by simpa using hc)
  have hfl := run_flushed (calls_ok_run hout) rfl a ha
  rw [he, Nat.zero_add] at hfl
  have hmem := perform_flush_mem (libOps e) gfuel (onPath_reach hp) _ _ g g' rfl hfl hok
  have hne : newEvents g g' = ev0 := by simp [newEvents, hlog0]
  rw [hne] at hmem
  obtain ⟨h8, h9⟩ := h7 (turns_end hmem (fun r pre post => hfl0 t.1 t.2 r pre post))
  refine ⟨mk w', w'.dev, w'.close, h3, hnow w', hm.device w', ?_, ?_, h9, ?_⟩
  · rw [htext]; exact h6
  · rw [htext]
    have : w'.dev.taken ++ w'.buf = d.taken ++ b ++ (rowsOut row (routed g.chains R (calls range fuel sources).1)).out := h5
    rw [h8, List.append_nil, List.append_assoc] at this
    exact this
  · exact (close_empty h8).2.1

/-- **C121 (always).** At every moment of every run, however it goes on and ends, the file holds a beginning of that text, and the same is true of what is left if
the file is closed at that moment; the rows handed to the output so far are a beginning of the rows that belong there. -/
theorem C121_always (e : SinkEnv) (range : TimestampRange) (gfuel fuel : Nat) (sources : List Source) (g : DGraph LibSink) (t : Place) (s : CliSink) (d : Device)
    (text : List Row → List Byte × Res Unit) (R : Nat → List (List Place)) (hs : sinkAt g.chains t.1 t.2 = some (.out s)) (hw : Writes e s d text)
    (hr : ∀ c, c < sources.length → Routes g.chains t c 0 (R c)) (k : Nat) :
    ∃ s' now closed ev, sinkAt (after (libOps e) gfuel (calls range fuel sources).1 k g).chains t.1 t.2 = some (.out s') ∧ deviceNow s' = some now ∧ s'.device = some closed ∧
      (after (libOps e) gfuel (calls range fuel sources).1 k g).log = g.log ++ ev ∧ written t.1 t.2 ev <+: routed g.chains R (calls range fuel sources).1 ∧
      now.taken <+: closed.taken ∧ closed.taken <+: d.taken ++ (text (written t.1 t.2 ev)).1 ∧
      d.taken ++ (text (written t.1 t.2 ev)).1 <+: d.taken ++ (text (routed g.chains R (calls range fuel sources).1)).1 := by
  obtain ⟨ev, ⟨hsh, hlog, hg⟩, hp, _⟩ := after_reaches e gfuel ((calls range fuel sources).1.take k) (fed_chains (fun x hx => List.mem_of_mem_take hx)) (.ok ()) g g t R
    (lib_inv g.chains) hr
  obtain ⟨mk, row, w, b, hm, rfl, h1, h2, hnow, htext⟩ := writes_shape hw
  obtain ⟨s', h3, h4, _⟩ := hg t.1 t.2 _ hs
  obtain ⟨w', rfl, h5, _, _, _⟩ := tried_writer hm h4 rfl h1
  have hp' := hp.trans (routed_take g.chains R (calls range fuel sources).1 k)
  refine ⟨mk w', w'.dev, w'.close, ev, h3, hnow w', hm.device w', hlog, hp', flushBuf_grows w', ?_, ?_⟩
  · rw [htext, ← List.append_assoc, ← rowTurns_turns]
    exact close_prefix h5
  · rw [htext, htext]
    obtain ⟨u, hu⟩ := hp'
    rw [← hu]
    exact prefix_left _ (prefix_left _ (rowsOut_prefix _ _))

/-- **C121 (files only grow).** What is in the file at one moment is still there at every later one. -/
theorem C121_grows (e : SinkEnv) (range : TimestampRange) (gfuel fuel : Nat) (sources : List Source) (g : DGraph LibSink) (t : Place) (s : CliSink) (d : Device)
    (text : List Row → List Byte × Res Unit) (R : Nat → List (List Place)) (hs : sinkAt g.chains t.1 t.2 = some (.out s)) (hw : Writes e s d text)
    (hr : ∀ c, c < sources.length → Routes g.chains t c 0 (R c)) (k k' : Nat) (hk : k ≤ k') :
    ∃ s1 s2 now1 now2, sinkAt (after (libOps e) gfuel (calls range fuel sources).1 k g).chains t.1 t.2 = some (.out s1) ∧ deviceNow s1 = some now1 ∧
      sinkAt (after (libOps e) gfuel (calls range fuel sources).1 k' g).chains t.1 t.2 = some (.out s2) ∧ deviceNow s2 = some now2 ∧ now1.taken <+: now2.taken := by
  obtain ⟨ev, hgoes, _, _⟩ := after_reaches e gfuel ((calls range fuel sources).1.take k) (fed_chains (fun x hx => List.mem_of_mem_take hx)) (.ok ()) g g t R
    (lib_inv g.chains) hr
  obtain ⟨hsh, hlog, hg⟩ := hgoes
  obtain ⟨mk, row, w, b, hm, rfl, h1, h2, hnow, htext⟩ := writes_shape hw
  obtain ⟨s', h3, h4, h4'⟩ := hg t.1 t.2 _ hs
  have hsplit : (calls range fuel sources).1.take k' = (calls range fuel sources).1.take k ++ ((calls range fuel sources).1.take k').drop k := by
    conv => lhs; rw [← List.take_append_drop k ((calls range fuel sources).1.take k')]
    rw [List.take_take, Nat.min_eq_left hk]
  have happ := perform_append (fun c r g => processRow (libOps e) gfuel c 0 r g) (fun c g => flushFrom (libOps e) gfuel c 0 g) ((calls range fuel sources).1.take k)
    (((calls range fuel sources).1.take k').drop k) (.ok ()) g
  rw [← hsplit] at happ
  unfold after
  rw [happ]
  have hrest : ∀ x ∈ ((calls range fuel sources).1.take k').drop k, x ∈ (calls range fuel sources).1 := fun x hx => List.mem_of_mem_take (List.mem_of_mem_drop hx)
  generalize ((calls range fuel sources).1.take k').drop k = cs2 at hrest
  generalize (calls range fuel sources).1.take k = cs1 at *
  rcases hq : perform (fun c r g => processRow (libOps e) gfuel c 0 r g) (fun c g => flushFrom (libOps e) gfuel c 0 g) cs1 (.ok ()) g with ⟨g1, x⟩
  rw [hq] at hsh hg hlog h3 h4'
  cases x with
  | ok u =>
    obtain ⟨w1, rfl, h5, _, h6, _, _⟩ := did_writer hm (h4' rfl) rfl h1
    obtain ⟨ev2, hgoes2, _, _⟩ := after_reaches e gfuel cs2 (fed_chains hrest) (.ok ()) g g1 t R
      (Goes.allInv (lib_acts e g.chains) ⟨hsh, hlog, hg⟩ (lib_inv g.chains)) (fun c hc => routes_stay hsh (hr c hc))
    obtain ⟨s2, h7, h8, _⟩ := hgoes2.2.2 t.1 t.2 _ h3
    obtain ⟨w2, rfl, _, h9, _, _⟩ := tried_writer hm h8 rfl h5
    exact ⟨mk w1, mk w2, w1.dev, w2.dev, h3, hnow w1, h7, hnow w2, h9⟩
  | err x =>
    obtain ⟨w1, rfl, _, _, _, _⟩ := tried_writer hm h4 rfl h1
    exact ⟨mk w1, mk w1, w1.dev, w1.dev, h3, hnow w1, h3, hnow w1, List.prefix_refl _⟩
  | panic =>
    obtain ⟨w1, rfl, _, _, _, _⟩ := tried_writer hm h4 rfl h1
    exact ⟨mk w1, mk w1, w1.dev, w1.dev, h3, hnow w1, h3, hnow w1, List.prefix_refl _⟩
  | diverge =>
    obtain ⟨w1, rfl, _, _, _, _⟩ := tried_writer hm h4 rfl h1
    exact ⟨mk w1, mk w1, w1.dev, w1.dev, h3, hnow w1, h3, hnow w1, List.prefix_refl _⟩

/-- **C122 (closed files), partial.** If the device cannot fail, then at every moment of every run the file, once closed, holds the text of exactly the rows handed to the
output so far, whatever stopped the run. -/
theorem C122_closed_partial (e : SinkEnv) (range : TimestampRange) (gfuel fuel : Nat) (sources : List Source) (g : DGraph LibSink) (t : Place) (s : CliSink) (d : Device)
    (text : List Row → List Byte × Res Unit) (R : Nat → List (List Place)) (hs : sinkAt g.chains t.1 t.2 = some (.out s)) (hw : Writes e s d text)
    (hr : ∀ c, c < sources.length → Routes g.chains t c 0 (R c)) (hd : ∀ kind, WriteStep.fail kind ∉ d.sched) (k : Nat) :
    ∃ s' closed ev, sinkAt (after (libOps e) gfuel (calls range fuel sources).1 k g).chains t.1 t.2 = some (.out s') ∧ s'.device = some closed ∧
      (after (libOps e) gfuel (calls range fuel sources).1 k g).log = g.log ++ ev ∧ written t.1 t.2 ev <+: routed g.chains R (calls range fuel sources).1 ∧
      closed.taken = d.taken ++ (text (written t.1 t.2 ev)).1 := by
  obtain ⟨ev, ⟨hsh, hlog, hg⟩, hp, _⟩ := after_reaches e gfuel ((calls range fuel sources).1.take k) (fed_chains (fun x hx => List.mem_of_mem_take hx)) (.ok ()) g g t R
    (lib_inv g.chains) hr
  obtain ⟨mk, row, w, b, hm, rfl, h1, h2, hnow, htext⟩ := writes_shape hw
  obtain ⟨s', h3, h4, _⟩ := hg t.1 t.2 _ hs
  obtain ⟨w', rfl, _, _, h5, h6⟩ := tried_writer hm h4 rfl h1
  have hno : ∀ k, ¬ CanFail w.dev k := fun k hk => hd k (h2 k hk)
  refine ⟨mk w', w'.close, ev, h3, hm.device w', hlog, hp.trans (routed_take _ _ _ k), ?_⟩
  rw [htext, ← List.append_assoc, ← rowTurns_turns]
  exact close_holds (h6 hno) (fun k hk => hno k (h5 k hk))

/-! ### One filter in front of a file -/

/-- **C121 (one filter).** The usual case, from the header to the file: one sorted input, one filter, a CSV file behind it. If setting up and running succeed, the file is the
header as the filter leaves it, followed by what the filter makes of the rows in the time range, in order. -/
theorem C121_filtered (e : SinkEnv) (dbg : Bool) (cfg : CsvOutputConfig) (d : Device) (f : Header → Res (BSink × Header)) (h h1 : Header) (b : BSink) (range : TimestampRange)
    (gfuel fuel : Nat) (src : Source) (g g' : DGraph LibSink) (hf : f h = .ok (b, h1)) (hs : Sorted src.rows)
    (hg : newDriver dbg (.node .mergeJoin) 1 1 [[.sink (nodeHeader f), .sink (outHeader (csvSinkHeader e cfg d))]] [h] = .ok g)
    (hok : driveGraph (libOps e) range gfuel fuel [src] g = (g', .ok ())) :
    ∃ s' now closed, sinkAt g'.chains 0 1 = some (.out s') ∧ deviceNow s' = some now ∧ s'.device = some closed ∧ closed.taken = now.taken ∧
      now.taken = d.taken ++ utf8Encode (csvFile e.ff cfg h1 ((src.rows.filter (fun r => (match range.beginTs with | none => true | some b => decide (b ≤ r.timestamp)) &&
        (match range.endTs with | none => true | some e => decide (r.timestamp < e)))).flatMap fun r => match (b.write r).2 with | .ok rows => rows | _ => [])).1 := by
  rcases csv_header_ok e cfg d h1 with ⟨w, h2, _⟩ | ⟨k, h2, _⟩
  · have hgc : g = ⟨[[.sink (.node b), .sink (.out (.csv cfg w))]], []⟩ := by
      simp [newDriver, processHeader, processHeadersFrom, processHeaderRe, matchRemoveChain, hSwapRemove, nodesLoop, addNode, nodeHeader, outHeader, hf, h2, Res.map, Res.bind] at hg
      exact hg.symm
    subst hgc
    have hr : ∀ c, c < [src].length → Routes [[DNode.sink (LibSink.node b), .sink (.out (.csv cfg w))]] (0, 1) c 0 [[(0, 0)]] := by
      intro c hc
      obtain rfl : c = 0 := by simpa using hc
      exact .sink rfl rfl (.sink (s := LibSink.out (.csv cfg w)) rfl rfl (.done rfl rfl))
    obtain ⟨s', now, closed, h3, h4, h5, _, h6, _, h7⟩ := C121_success e range gfuel fuel [src] _ g' (0, 1) (.csv cfg w) d _ (fun _ => [[(0, 0)]]) rfl (.csv h2) hr
      ⟨0, by simp, .next rfl rfl (.here rfl rfl)⟩ hok
    refine ⟨s', now, closed, h3, h4, h5, h7, ?_⟩
    rw [h6]
    simp only
    have hout : (calls range fuel [src]).2 = .ok () := by
      unfold driveGraph at hok
      rw [drive_perform] at hok
      exact perform_ok (congrArg Prod.snd hok)
    have hrows := C16_range range fuel src hs hout
    have hsame : src.rows.filter (fun r => (match range.beginTs with | none => true | some b => decide (b ≤ r.timestamp)) &&
        (match range.endTs with | none => true | some e => decide (r.timestamp < e))) = (fed (calls range fuel [src]).1).map (·.2) := by
      rw [hrows]
      apply List.filter_congr
      intro r _
      cases range.beginTs <;> cases range.endTs <;> rfl
    rw [hsame]
    unfold routed
    simp only [List.flatMap_cons, List.flatMap_nil, List.append_nil, along]
    have key : ∀ p : Nat × Row, ((libAt [[DNode.sink (LibSink.node b), .sink (.out (.csv cfg w))]] (0, 0) p.2).flatMap fun r => [r]) =
        (match (b.write p.2).2 with | .ok rows => rows | _ => []) := by
      intro p
      rw [List.flatMap_singleton', libAt]
      rfl
    simp only [key, List.flatMap_map]
  · simp [newDriver, processHeader, processHeadersFrom, processHeaderRe, matchRemoveChain, hSwapRemove, nodesLoop, addNode, nodeHeader, outHeader, hf, h2, Res.map, Res.bind] at hg

/-! ### A graph with two files, and what is lost when the process exits -/

def fileEnv : SinkEnv := ⟨⟨fun _ => [], fun _ => []⟩, ⟨fun b => [b], by simp⟩, .panics⟩

def fileCfg : CsvOutputConfig := CsvOutputConfig.new [','] true none .epoch .seconds none

def fileHdr : Header := ⟨[['a'], ['b']], [.int, .string]⟩

/-- Two copies of the input: one of the rows with `a` greater than a value, to a file; one without the column `a`, to a slow file. -/
def fileChains (v : FieldValue) : List (HChain LibSink) :=
  [[.splitSink [1, 2] 2], [.sink (nodeHeader (greaterHeader ['A'] v)), .sink (outHeader (csvSinkHeader fileEnv fileCfg {}))],
   [.sink (nodeHeader (deleteHeader ['a'])), .sink (outHeader (csvSinkHeader fileEnv fileCfg { sched := [.take 3, .take 0] }))]]

/-- The bytes that have reached the file of the output at a place. -/
def fileAt (g : DGraph LibSink) (c i : Nat) : Option (List Byte) :=
  match sinkAt g.chains c i with
  | some (.out s) => (deviceNow s).map (·.taken)
  | _ => none

def fileRun (v : FieldValue) (s : Source) : Option (DGraph LibSink × Res Unit) :=
  match newDriver true (.node .mergeJoin) 5 1 (fileChains v) [fileHdr] with
  | .ok g => some (driveGraph (libOps fileEnv) .all 9 9 [s] g)
  | _ => none

/-- The run that succeeds: two of three rows in one file, three rows of one column in the other. -/
example : (fileRun (.int 5) ⟨[⟨1000000000, [.int 7, .string ['x']]⟩, ⟨2000000000, [.int 3, .string ['y']]⟩, ⟨3000000000, [.int 9, .string ['z']]⟩], .eof⟩).map
      (fun p => (p.2, fileAt p.1 1 1, fileAt p.1 2 1)) =
    some (.ok (), some (utf8Encode "timestampSeconds,a,b\n1,7,x\n3,9,z\n".toList), some (utf8Encode "timestampSeconds,b\n1,x\n2,y\n3,z\n".toList)) := by
  decide +kernel

/-- What is left of an output when a run has ended: with `Ok` or `Err` the sinks are dropped and their files closed; a comparison of unsuitable values ends the process
at once (`process::exit`, `/repo/src/chopper/types.rs:108-156`), and what was in the buffer is gone. -/
def remains : Res Unit → CliSink → Option Device
  | .panic, s => deviceNow s
  | _, s => s.device

/-- **C122 in full.** However a run ends, the files hold every row that was handed to them before (devices that cannot fail). -/
def C122_full : Prop :=
  ∀ (e : SinkEnv) (range : TimestampRange) (gfuel fuel : Nat) (sources : List Source) (g g' : DGraph LibSink) (r : Res Unit) (t : Place) (s s' : CliSink) (d left : Device)
    (text : List Row → List Byte × Res Unit) (ev : List Event), sinkAt g.chains t.1 t.2 = some (.out s) → Writes e s d text → (∀ kind, WriteStep.fail kind ∉ d.sched) →
    driveGraph (libOps e) range gfuel fuel sources g = (g', r) → g'.log = g.log ++ ev → sinkAt g'.chains t.1 t.2 = some (.out s') → remains r s' = some left →
    left.taken = d.taken ++ (text (written t.1 t.2 ev)).1

/-- The header is in the buffer of the output. -/
def lostSink : CliSink := .csv fileCfg ⟨defaultBufSize, utf8Encode (csvHeaderText fileCfg fileHdr.names), {}⟩

theorem lost_header : csvSinkHeader fileEnv fileCfg {} fileHdr = .ok (lostSink, fileHdr) := by
  have h : (BufWriter.new {}).emit fileEnv.ch (utf8Encode (csvHeaderText fileCfg fileHdr.names)) (.ok ()) =
      (⟨defaultBufSize, utf8Encode (csvHeaderText fileCfg fileHdr.names), {}⟩, .ok ()) := by decide +kernel
  unfold csvSinkHeader
  rw [h]
  rfl

/-- A filter in front of a file. -/
def lostGraph : DGraph LibSink := ⟨[[.sink (.node (.greater 0 (.int 5))), .sink (.out lostSink)]], []⟩

/-- A row the filter lets through, then one with a value of another type. -/
def lostSource : Source := ⟨[⟨1, [.int 7, .string ['x']]⟩, ⟨2, [.long 3, .string ['y']]⟩], .eof⟩

/-- The run: the process exits, the first row was handed to the output, nothing is in the file. -/
theorem lost_run : (driveGraph (libOps fileEnv) .all 9 9 [lostSource] lostGraph).2 = .panic ∧
    written 0 1 (driveGraph (libOps fileEnv) .all 9 9 [lostSource] lostGraph).1.log = [⟨1, [.int 7, .string ['x']]⟩] ∧
    fileAt (driveGraph (libOps fileEnv) .all 9 9 [lostSource] lostGraph).1 0 1 = some [] := by decide +kernel

/-- Setting up gives this graph (`C121_filtered` applies to it), and with suitable rows the run succeeds. -/
example : newDriver true (.node .mergeJoin) 1 1 [[.sink (nodeHeader (greaterHeader ['a'] (.int 5))), .sink (outHeader (csvSinkHeader fileEnv fileCfg {}))]] [fileHdr] = .ok lostGraph ∧
    (driveGraph (libOps fileEnv) .all 9 9 [⟨[⟨1, [.int 7, .string ['x']]⟩, ⟨2, [.int 3, .string ['y']]⟩], .eof⟩] lostGraph).2 = .ok () := by
  refine ⟨?_, by decide +kernel⟩
  have hf : ∀ v, greaterHeader ['a'] v fileHdr = .ok (.greater 0 v, fileHdr) := fun _ => rfl
  simp [newDriver, processHeader, processHeadersFrom, processHeaderRe, matchRemoveChain, hSwapRemove, nodesLoop, addNode, nodeHeader, outHeader, hf, lost_header, Res.map, Res.bind, lostGraph]

theorem fileAt_sink {g : DGraph LibSink} {c i : Nat} {bs : List Byte} (h : fileAt g c i = some bs) :
    ∃ s d, sinkAt g.chains c i = some (.out s) ∧ deviceNow s = some d ∧ d.taken = bs := by
  unfold fileAt at h
  split at h
  · next s hs =>
    cases hd : deviceNow s with
    | none => rw [hd] at h; cases h
    | some d => rw [hd] at h; exact ⟨s, d, hs, hd, by simpa using h⟩
  · cases h

/-- **C122 is false**: a filter that meets a value of another type ends the process, and both files stay empty although a row had been handed to each of them. -/
theorem C122_counterexample : ¬ C122_full := by
  intro hall
  obtain ⟨h1, h2, h3⟩ := lost_run
  obtain ⟨s', left, h4, h5, h6⟩ := fileAt_sink h3
  have h7 := hall fileEnv .all 9 9 [lostSource] lostGraph (driveGraph (libOps fileEnv) .all 9 9 [lostSource] lostGraph).1 .panic (0, 1) lostSink s' {} left _
    (driveGraph (libOps fileEnv) .all 9 9 [lostSource] lostGraph).1.log rfl (.csv lost_header) (by simp) (Prod.ext rfl h1) rfl h4 h5
  rw [h6, h2] at h7
  exact absurd h7 (by decide +kernel)

end Chopper.Props
