import Verif.Spec.InPlace
import Verif.Proofs.Live
import Verif.Proofs.LibGraph
import Verif.Proofs.Cli4
import Verif.Props.FilterLaws

/-!
# Runs whose output file is one of the inputs
-/
namespace Chopper
open Spec

theorem later_succ (s : Source) : ∀ n, s.later (n + 1) = (s.later n).nextRow.2
  | 0 => rfl
  | n + 1 => by
    rw [Source.later, later_succ s.nextRow.2 n]
    rfl

/-- While nothing stands in the file behind the place where it stopped, a source answers as if the file consisted of what it has fetched. -/
theorem agrees_inPlace {G : Type} (fetch : List Byte → Nat → List Byte → Nat) (content : G → List Byte) (N : Nat) (meaning : List Byte → Source) (seen : List Byte)
    (hN : N ≤ seen.length) : ∀ (n asked : Nat),
    Agrees (Reading.next fetch content) (fun g => (content g).length ≤ N) n (.inPlace meaning seen asked) ((meaning seen).later asked)
  | 0, _ => trivial
  | n + 1, asked => fun g hg => by
    have h1 : (content g).drop seen.length = [] := List.drop_eq_nil_of_le (Nat.le_trans hg hN)
    have h2 : Reading.next fetch content (.inPlace meaning seen asked) g = (((meaning seen).later asked).nextRow.1, .inPlace meaning seen (asked + 1)) := by
      simp only [Reading.next, h1, List.append_nil, List.take_nil]
    rw [h2, ← later_succ]
    exact ⟨rfl, agrees_inPlace fetch content N meaning seen hN n (asked + 1)⟩

theorem agrees_fixed {G : Type} (fetch : List Byte → Nat → List Byte → Nat) (content : G → List Byte) (ok : G → Prop) : ∀ (n : Nat) (s : Source),
    Agrees (Reading.next fetch content) ok n (.fixed s) s
  | 0, _ => trivial
  | n + 1, s => fun _ _ => ⟨rfl, agrees_fixed fetch content ok n _⟩

theorem agrees_readings {G : Type} (fetch : List Byte → Nat → List Byte → Nat) (content : G → List Byte) (N n : Nat) : ∀ (ss : List Source) (ps : List (Option InPlaceFile)),
    (∀ p, some p ∈ ps → N ≤ p.seen.length) → AgreesAll (Reading.next fetch content) (fun g => (content g).length ≤ N) n (readings ss ps) (cutSources ss ps)
  | [], _, _ => by cases ‹List (Option InPlaceFile)› <;> exact .nil
  | s :: ss, [], h => .cons (agrees_fixed fetch content _ n s) (agrees_readings fetch content N n ss [] h)
  | s :: ss, none :: ps, h => .cons (agrees_fixed fetch content _ n s) (agrees_readings fetch content N n ss ps fun p hp => h p (.tail _ hp))
  | _ :: ss, some p :: ps, h => .cons (agrees_inPlace fetch content N p.meaning p.seen (h p (.head _)) n 0) (agrees_readings fetch content N n ss ps fun p hp => h p (.tail _ hp))

theorem cutSources_length : ∀ (ss : List Source) (ps : List (Option InPlaceFile)), (cutSources ss ps).length = ss.length
  | [], _ => by cases ‹List (Option InPlaceFile)› <;> rfl
  | _ :: ss, [] => congrArg (· + 1) (cutSources_length ss [])
  | _ :: ss, none :: ps => congrArg (· + 1) (cutSources_length ss ps)
  | _ :: ss, some _ :: ps => congrArg (· + 1) (cutSources_length ss ps)

theorem write_grows (e : SinkEnv) (s : CliSink) (r : Row) : sinkNow s <+: sinkNow (s.write e r).1 := by
  cases s with
  | mergeJoin => exact List.prefix_refl _
  | csv cfg w => rw [(csv_writes e cfg).write]; exact emit_grows _ _ _ _
  | dc n w => rw [(dc_writes e n).write]; exact emit_grows _ _ _ _

theorem sinkFlush_grows (s : CliSink) : sinkNow s <+: sinkNow s.flush.1 := by
  cases s with
  | mergeJoin => exact List.prefix_refl _
  | csv cfg w => exact flush_grows w
  | dc n w => exact flush_grows w

/-- Nothing that has reached the file disappears. -/
theorem perform_grows (e : SinkEnv) (out : Res Unit) : ∀ (cs : List Call) (s : CliSink),
    sinkNow s <+: sinkNow (perform (sinkFeed (cliOps e)) (sinkFlush (cliOps e)) cs out s).1
  | [], _ => List.prefix_refl _
  | .feed c r :: cs, s => by
    rw [perform]
    have h : sinkNow s <+: sinkNow (sinkFeed (cliOps e) c r s).1 := write_grows e s r
    rcases hx : sinkFeed (cliOps e) c r s with ⟨s', _ | _ | _ | _⟩ <;> rw [hx] at h
    · exact h.trans (perform_grows e out cs s')
    all_goals exact h
  | .flush c :: cs, s => by
    rw [perform]
    have h : sinkNow s <+: sinkNow (sinkFlush (cliOps e) c s).1 := sinkFlush_grows s
    rcases hx : sinkFlush (cliOps e) c s with ⟨s', _ | _ | _ | _⟩ <;> rw [hx] at h
    · exact h.trans (perform_grows e out cs s')
    all_goals exact h

theorem now_closed (s : CliSink) : (s.device = none ∧ sinkNow s = []) ∨ ∃ out, s.device = some out ∧ sinkNow s <+: out.taken := by
  cases s with
  | mergeJoin => exact .inl ⟨rfl, rfl⟩
  | csv cfg w => exact .inr ⟨_, rfl, flushBuf_grows w⟩
  | dc n w => exact .inr ⟨_, rfl, flushBuf_grows w⟩

theorem outputNow_cli (s : CliSink) (k : Nat) (log : List Event) : outputNow (cliGraph .mergeJoin k s log) = sinkNow s := by
  unfold outputNow cliGraph
  by_cases h : 1 < k
  · simp [h]
  · simp [h]

/-- A run of the tool's graph over sources some of which read the output file. -/
theorem inPlace_drive (e : SinkEnv) (range : TimestampRange) (sfuel fuel : Nat) (fetch : List Byte → Nat → List Byte → Nat) (ss : List Source) (ps : List (Option InPlaceFile))
    (k : Nat) (hk : k = ss.length) (s0 : CliSink)
    (hout : ∀ s' log, (driveGraph (cliOps e) range 5 fuel (cutSources ss ps) (cliGraph .mergeJoin k s0 [])).1 = cliGraph .mergeJoin k s' log →
      ∀ out, s'.device = some out → ∀ p, some p ∈ ps → out.taken.length ≤ p.seen.length)
    (hsf : ∀ s ∈ cutSources ss ps, s.rows.length < sfuel) :
    liveGraph (Reading.next fetch outputNow) (cliOps e) range 5 sfuel fuel (readings ss ps) (cliGraph .mergeJoin k s0 []) =
      driveGraph (cliOps e) range 5 fuel (cutSources ss ps) (cliGraph .mergeJoin k s0 []) := by
  have hchain : ∀ x ∈ (calls range fuel (cutSources ss ps)).1, callChain x < k := by
    intro x hx
    have := calls_chains _ _ _ x hx
    rw [cutSources_length] at this
    omega
  obtain ⟨log, hfin⟩ := cli_perform (cliOps e) .mergeJoin (fun _ => rfl) rfl k 1 (calls range fuel (cutSources ss ps)).1 (calls range fuel (cutSources ss ps)).2 s0 [] hchain
  generalize hS : perform (sinkFeed (cliOps e)) (sinkFlush (cliOps e)) (calls range fuel (cutSources ss ps)).1 (calls range fuel (cutSources ss ps)).2 s0 = fin at hfin
  have hdrive : driveGraph (cliOps e) range 5 fuel (cutSources ss ps) (cliGraph .mergeJoin k s0 []) = (cliGraph .mergeJoin k fin.1 log, fin.2) := by
    unfold driveGraph
    rw [drive_perform]
    exact hfin
  have hN : ∀ p, some p ∈ ps → (sinkNow fin.1).length ≤ p.seen.length := by
    intro p hp
    rcases now_closed fin.1 with ⟨_, h2⟩ | ⟨out, h1, h2⟩
    · rw [h2]; exact Nat.zero_le _
    · exact Nat.le_trans h2.length_le (hout fin.1 log (by rw [hdrive]) out h1 p hp)
  have h1 := live_drive (next := Reading.next fetch outputNow) (ok := fun g => (outputNow g).length ≤ (sinkNow fin.1).length)
    (fun c r g => processRow (cliOps e) 5 c 0 r g) (fun c g => flushFrom (cliOps e) 5 c 0 g) range sfuel fuel (cliGraph .mergeJoin k s0 [])
    (agrees_readings fetch outputNow (sinkNow fin.1).length (fuel * sfuel + sfuel) ss ps hN)
    (by
      rw [outputNow_cli, ← hS]
      exact (perform_grows e _ _ s0).length_le)
    (by
      intro pre c r g' hpre hperf
      obtain ⟨post, hpost⟩ := hpre
      obtain ⟨log', h2⟩ := cli_perform (cliOps e) .mergeJoin (fun _ => rfl) rfl k 1 (pre ++ [.feed c r]) (.ok ()) s0 [] (by
        intro x hx
        exact hchain x (by rw [← hpost]; exact List.mem_append_left _ hx))
      have h3 := h2.symm.trans hperf
      obtain ⟨h4, h5⟩ := Prod.mk.inj h3
      rw [← h4, outputNow_cli]
      rw [← hpost, perform_append] at hS
      rcases hx : perform (sinkFeed (cliOps e)) (sinkFlush (cliOps e)) (pre ++ [.feed c r]) (.ok ()) s0 with ⟨s1, r1⟩
      rw [hx] at hS h5
      simp only at h5
      subst h5
      simp only at hS
      rw [← hS, hx]
      exact (perform_grows e _ post s1).length_le)
  rcases h1 with h1 | ⟨_, ⟨r, hr, hl⟩, _⟩
  · exact h1
  · exact absurd (hsf r hr) (by omega)

theorem parse_world (e : CliEnv) (w' : World) (a : CliArgs) (st : CliSettings e.csv.lib) (h : parseSettings e a = .ok st) : parseSettings { e with world := w' } a = .ok st := h

/-- **The run in place is the run on the beginning of the file.** -/
theorem inPlace_cut (e : CliEnv) (a : CliArgs) (fetch : List Byte → Nat → List Byte → Nat) (places : List (Option InPlaceFile)) (sfuel fuel : Nat) (w' : World)
    (st : CliSettings e.csv.lib) (files files' : List FileSource) (hs : parseSettings e a = .ok st) (ho : Opens e st files) (ho' : Opens { e with world := w' } st files')
    (hh : files'.map (·.header) = files.map (·.header)) (hc : files'.map (·.source) = cutSources (files.map (·.source)) places)
    (hlen : ∀ out, (chopperCli { e with world := w' } a).output = some out → ∀ p, some p ∈ places → out.taken.length ≤ p.seen.length)
    (hsf : ∀ f ∈ files', f.source.rows.length < sfuel) (hfuel : Props.enough (files'.map (·.source)) ≤ fuel) :
    chopperCliInPlace e a fetch places sfuel fuel = chopperCli { e with world := w' } a := by
  have hne := opens_ne hs ho
  have hne' := opens_ne (parse_world e w' a st hs) ho'
  have hlen' : files'.length = files.length := by simpa using congrArg List.length hh
  rcases hsink : newHeaderSink e.sink e.out a.output st.outCfg with ⟨created, f | x | _ | _⟩
  · have h1 := cli_setup_run e a st files hs ho created f hsink
    have h2 := cli_setup_run { e with world := w' } a st files' (parse_world e w' a st hs) ho' created f hsink
    rw [hlen', hh] at h2
    by_cases hall : ∃ h, ∀ x ∈ files, x.header = h
    · obtain ⟨h, hall⟩ := hall
      have hnd := cli_new_driver e.csv.ov.checks .mergeJoin files hne h hall f
      rcases hf : f h with ⟨s0, h0⟩ | x | _ | _
      · rw [hf, Res.bind_ok] at hnd
        rw [hnd, Res.bind_ok] at h1 h2
        have e1 : chopperCliInPlace e a fetch places sfuel fuel = ⟨created,
            some (liveGraph (Reading.next fetch outputNow) (cliOps e.sink) st.range 5 sfuel fuel (readings (files.map (·.source)) places) (cliGraph .mergeJoin files.length s0 [])).1,
            (liveGraph (Reading.next fetch outputNow) (cliOps e.sink) st.range 5 sfuel fuel (readings (files.map (·.source)) places) (cliGraph .mergeJoin files.length s0 [])).2⟩ := by
          unfold chopperCliInPlace
          rw [h1]
        have hfu : driveGraph (cliOps e.sink) st.range 5 fuel (files'.map (·.source)) (cliGraph .mergeJoin files.length s0 []) =
            CliDriver.drive e.sink ⟨files'.map (·.source), cliGraph .mergeJoin files.length s0 [], st.range⟩ := by
          unfold CliDriver.drive driveGraph
          rw [drive_perform, drive_perform, Props.calls_fuel hfuel (Nat.le_refl _)]
          rfl
        have e2 : chopperCli { e with world := w' } a = ⟨created,
            some (driveGraph (cliOps e.sink) st.range 5 fuel (files'.map (·.source)) (cliGraph .mergeJoin files.length s0 [])).1,
            (driveGraph (cliOps e.sink) st.range 5 fuel (files'.map (·.source)) (cliGraph .mergeJoin files.length s0 [])).2⟩ := by
          rw [hfu]
          unfold chopperCli
          rw [h2]
          rfl
        rw [e1, e2, hc]
        rw [e2, hc] at hlen
        rw [inPlace_drive e.sink st.range sfuel fuel fetch (files.map (·.source)) places files.length (by simp) s0 (by
          intro s' log hg out hout p hp
          rw [hg] at hlen
          exact hlen out (by rw [cli_output _ _ rfl]; exact hout) p hp) (by
          intro s hs
          rw [← hc] at hs
          obtain ⟨x, hx, rfl⟩ := List.mem_map.1 hs
          exact hsf x hx)]
      all_goals
        rw [hf] at hnd
        simp only [Res.bind] at hnd
        rw [hnd] at h1 h2
        unfold chopperCliInPlace chopperCli
        rw [h1, h2]
        rfl
    · obtain ⟨f0, fs, rfl⟩ := List.exists_cons_of_ne_nil hne
      have hbad : ∃ f ∈ fs, f.header ≠ f0.header := by
        refine Classical.byContradiction fun hn => hall ⟨f0.header, fun x hx => ?_⟩
        rcases List.mem_cons.1 hx with rfl | hx
        · rfl
        · exact Classical.byContradiction fun hxn => hn ⟨x, hx, hxn⟩
      have hnd := cli_wrong_header e.csv.ov.checks .mergeJoin f0 fs hbad f
      rw [hnd] at h1 h2
      unfold chopperCliInPlace chopperCli
      rw [h1, h2]
      rfl
  all_goals
    have hop := (openInputs_iff _ _ _ _).2 ho
    have hop' := (openInputs_iff _ _ _ _).2 ho'
    unfold chopperCliInPlace chopperCli parseCliArgs
    rw [hs, parse_world e w' a st hs]
    simp only [setupGraph]
    rw [hop, hop']
    have hsink' : newHeaderSink (CliEnv.sink { e with world := w' }) e.out a.output st.outCfg = newHeaderSink e.sink e.out a.output st.outCfg := rfl
    simp only [hsink', hsink]

end Chopper
