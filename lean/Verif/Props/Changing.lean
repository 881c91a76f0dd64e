import Verif.Proofs.Changing
import Verif.Props.Received
import Verif.Props.InPlace

/-!
# Inputs that change while the program runs (C141)
-/
namespace Chopper.Props
open Chopper Chopper.Spec

/-- **C141 (inputs).** Files and directories may change in any way between the moments when the program looks at them. If the world `w`, which does not change, shows the input as it was
at those moments (the directory as it was when listed, each file as it was when it was opened), then the input is opened and read exactly as in `w`: header, rows, end and errors. -/
theorem C141_input (env : CsvEnv) (dec : Decoders) (zip : ZipLib) (cfg : Option (CsvInputConfig env.lib)) (uf : List (Factory FileSource)) (hist : History) (i : Input) (w : World)
    (h : ShowsInput w hist i) : createFromInputC (fun w => newInputs env dec zip w cfg uf []) hist i = createFromInput (newInputs env dec zip w cfg uf []) w i :=
  input_changing h

theorem openInputs_changing {env : CsvEnv} {dec : Decoders} {zip : ZipLib} {cfg : Option (CsvInputConfig env.lib)} {uf : List (Factory FileSource)} {w : World} :
    ∀ (is : List Input) (hists : Nat → History), (∀ (k : Nat) i, is[k]? = some i → ShowsInput w (hists k) i) →
      openInputsC (fun w => newInputs env dec zip w cfg uf []) hists is = openInputs (newInputs env dec zip w cfg uf []) w is
  | [], _, _ => rfl
  | i :: is, hists, h => by
    unfold openInputsC openInputs
    rw [C141_input env dec zip cfg uf (hists 0) i w (h 0 i rfl), openInputs_changing is (fun k => hists (k + 1)) fun k j hk => h (k + 1) j (by simpa using hk)]

/-- **C141 (the tool).** So a run of the tool over inputs that change is the run over inputs that do not, as long as no two inputs see the same file at different moments. -/
theorem C141_tool (e : CliEnv) (hists : Nat → History) (a : CliArgs) (w : World) (hu : e.userTransports = [])
    (h : ∀ is, parseInputs a = .ok is → ∀ (k : Nat) i, is[k]? = some i → ShowsInput w (hists k) i) : chopperCliC e hists a = chopperCli { e with world := w } a := by
  have hs : parseSettings { e with world := w } a = parseSettings e a := rfl
  have : parseCliArgsC e hists a = parseCliArgs { e with world := w } a := by
    unfold parseCliArgsC parseCliArgs
    rw [hs]
    cases hp : parseSettings e a with
    | ok st =>
      have hi : parseInputs a = .ok st.inputs := by
        unfold parseSettings at hp
        obtain ⟨_, _, hp⟩ := Res.bind_eq_ok.1 hp
        obtain ⟨_, _, hp⟩ := Res.bind_eq_ok.1 hp
        obtain ⟨is, h1, hp⟩ := Res.bind_eq_ok.1 hp
        obtain ⟨_, _, hp⟩ := Res.bind_eq_ok.1 hp
        obtain ⟨_, _, hp⟩ := Res.bind_eq_ok.1 hp
        cases hp
        exact h1
      simp only
      unfold setupGraphC setupGraph
      have hx : openInputsC (fun w => newInputs e.csv e.dec e.zip w (some st.inCfg) e.userFactories e.userTransports) hists st.inputs =
          openInputs (newInputs e.csv e.dec e.zip w (some st.inCfg) e.userFactories e.userTransports) w st.inputs := by
        rw [hu]
        exact openInputs_changing st.inputs hists (h _ hi)
      rw [hx]
      rfl
    | err e => rfl
    | panic => rfl
    | diverge => rfl
  unfold chopperCliC chopperCli
  rw [this]
  rfl

theorem SameAt.refl (w : World) (p : Path) : SameAt w w p := ⟨rfl, rfl, fun _ _ => rfl⟩

/-- The moment that counts for a path. -/
theorem moment_counts {check stream : World} {p : Path} (h : ¬ TurnedZip check stream p) : ∃ v, (v = check ∨ v = stream) ∧ ∀ w, SameAt w v p → AsItWas w check stream p := by
  by_cases hd : ZipThere check p ∨ Closed check p
  · exact ⟨check, .inl rfl, fun w hw => .inl ⟨hd, hw⟩⟩
  · have h1 : ¬ ZipThere check p := fun hz => hd (.inl hz)
    have h2 : ¬ Closed check p := fun hz => hd (.inr hz)
    exact ⟨stream, .inr rfl, fun w hw => .inr ⟨h1, h2, fun hz => h ⟨h1, h2, hz⟩, hw⟩⟩

/-- A world put together from views of each path. -/
def patched (view : Path → World) (isDir : Path → Bool) (listing : Path → Option (List (Option Path))) (stdin : Inner) : World :=
  ⟨fun p => (view p).pathExists p, isDir, fun p => (view p).file p, listing, fun s => (view (utf8Encode s)).http s, stdin⟩

theorem patched_same (view : Path → World) (isDir : Path → Bool) (listing : Path → Option (List (Option Path))) (stdin : Inner) (p : Path) : SameAt (patched view isDir listing stdin) (view p) p :=
  ⟨rfl, rfl, fun s hs => by subst hs; rfl⟩

theorem filesInDir_ok {isDir : Path → Bool} {listing : Option (List (Option Path))} {paths : List Path} (h : filesInDir isDir listing = .ok paths) :
    ∃ entries, listing = some entries ∧ paths.Perm ((entries.filterMap id).filter fun e => !isDir e) := by
  cases listing with
  | none => cases h
  | some entries =>
    obtain ⟨order, h1, h2, _⟩ := filesInDir_spec isDir entries
    rw [h] at h1
    cases h1
    exact ⟨entries, rfl, h2⟩

theorem filesInDir_congr {d1 d2 : Path → Bool} {listing : Option (List (Option Path))} (h : ∀ entries p, listing = some entries → some p ∈ entries → d1 p = d2 p) :
    filesInDir d1 listing = filesInDir d2 listing := by
  cases listing with
  | none => rfl
  | some entries =>
    unfold filesInDir readDir
    simp only [Res.bind_ok]
    rw [List.filter_congr (q := fun e => !d2 e)]
    intro p hp
    rw [h entries p rfl (by simpa using hp)]

theorem some_nodup {entries : List (Option Path)} (h : entries.Nodup) : (entries.filterMap id).Nodup := by
  refine List.Pairwise.filterMap id ?_ h
  intro a b hab x hx y hy
  simp only [id] at hx hy
  subst hx hy
  exact fun hc => hab (by rw [hc])

/-- **C141 (partial).** Whatever happens to an input while the program runs: unless one of its files turns into a zip archive between the two moments when it is opened, there is a fixed
state of things, in which every path is as it was at one of the moments, such that the input is read exactly as if that had been the state all the time. Missing, since false
(`C141_counterexample`): files that turn into zip archives. -/
theorem C141_partial (env : CsvEnv) (dec : Decoders) (zip : ZipLib) (cfg : Option (CsvInputConfig env.lib)) (uf : List (Factory FileSource)) (hist : History) (i : Input)
    (ht : NoneTurned hist i) (hl : ∀ s, i.input = .path s → ProperListing (hist 1) (utf8Encode s)) :
    ∃ w, FromHistory w hist ∧ ShowsInput w hist i ∧
      createFromInputC (fun w => newInputs env dec zip w cfg uf []) hist i = createFromInput (newInputs env dec zip w cfg uf []) w i := by
  suffices h : ∃ w, FromHistory w hist ∧ ShowsInput w hist i by
    obtain ⟨w, h1, h2⟩ := h
    exact ⟨w, h1, h2, C141_input env dec zip cfg uf hist i w h2⟩
  obtain ⟨it, fmt⟩ := i
  cases it with
  | stdIn => exact ⟨hist 0, fun p => ⟨0, SameAt.refl _ _⟩, rfl⟩
  | path s =>
    unfold NoneTurned at ht
    simp only at ht
    by_cases hd : (hist 0).isDir (utf8Encode s) = true
    · rw [if_pos hd] at ht
      have hlist := hl s rfl
      -- the world at the moment that counts, for each path
      have hview : ∃ view : Path → World, (∀ p, ∃ n, view p = hist n) ∧ ∀ paths, Listed (hist 1) (utf8Encode s) paths → ∀ (k : Nat) p, paths[k]? = some p →
          ∀ w, SameAt w (view p) p → AsItWas w (hist (2 + 2 * k)) (hist (3 + 2 * k)) p := by
        cases hp : filesInDir (hist 1).isDir ((hist 1).listing (utf8Encode s)) with
        | ok paths =>
          obtain ⟨entries, he, hperm⟩ := filesInDir_ok hp
          have hnd : paths.Nodup := hperm.nodup_iff.2 ((some_nodup (hlist entries he).1).filter _)
          have hex : ∀ p, ∃ v : World, (∃ n, v = hist n) ∧ ∀ k, paths[k]? = some p → ∀ w, SameAt w v p → AsItWas w (hist (2 + 2 * k)) (hist (3 + 2 * k)) p := by
            intro p
            by_cases hm : p ∈ paths
            · obtain ⟨k, hk, rfl⟩ := List.getElem_of_mem hm
              obtain ⟨v, hv, hw⟩ := moment_counts (ht paths hp k _ (List.getElem?_eq_getElem hk))
              refine ⟨v, ?_, ?_⟩
              · rcases hv with rfl | rfl
                · exact ⟨_, rfl⟩
                · exact ⟨_, rfl⟩
              · intro k' hk' w hs
                obtain ⟨hk2, he2⟩ := List.getElem?_eq_some_iff.1 hk'
                have : k' = k := by
                  have e1 := hnd.idxOf_getElem k hk
                  have e2 := hnd.idxOf_getElem k' hk2
                  rw [he2] at e2
                  exact e2.symm.trans e1
                subst this
                exact hw w hs
            · exact ⟨hist 0, ⟨0, rfl⟩, fun k hk => absurd (List.mem_of_getElem? hk) hm⟩
          refine ⟨fun p => Classical.choose (hex p), fun p => (Classical.choose_spec (hex p)).1, ?_⟩
          intro paths' hp' k p hk
          have : paths' = paths := by
            have := hp'.symm.trans hp
            cases this
            rfl
          subst this
          exact (Classical.choose_spec (hex p)).2 k hk
        | err e => exact ⟨fun _ => hist 0, fun _ => ⟨0, rfl⟩, fun paths hp' => by have := hp'.symm.trans hp; cases this⟩
        | panic => exact ⟨fun _ => hist 0, fun _ => ⟨0, rfl⟩, fun paths hp' => by have := hp'.symm.trans hp; cases this⟩
        | diverge => exact ⟨fun _ => hist 0, fun _ => ⟨0, rfl⟩, fun paths hp' => by have := hp'.symm.trans hp; cases this⟩
      obtain ⟨view, hv, hw⟩ := hview
      let w := patched view (fun p => if p = utf8Encode s then true else (hist 1).isDir p) (fun _ => (hist 1).listing (utf8Encode s)) (hist 0).stdin
      have hdir : w.isDir (utf8Encode s) = true := if_pos rfl
      refine ⟨w, ?_, ?_⟩
      · intro p
        obtain ⟨n, hn⟩ := hv p
        exact ⟨n, hn ▸ patched_same view _ _ _ p⟩
      · refine ⟨hdir.trans hd.symm, ?_⟩
        rw [if_pos hdir]
        refine ⟨filesInDir_congr fun entries p he hm => ?_, fun paths hp k p hk => hw paths hp k p hk w (patched_same view _ _ _ p)⟩
        have : p ≠ utf8Encode s := by
          rintro rfl
          exact (hlist entries he).2 hm
        exact if_neg this
    · rw [if_neg hd] at ht
      obtain ⟨v, hv, hw⟩ := moment_counts ht
      have hn : ∃ n, v = hist n := by
        rcases hv with rfl | rfl
        · exact ⟨_, rfl⟩
        · exact ⟨_, rfl⟩
      obtain ⟨n, rfl⟩ := hn
      have hs : SameAt { hist n with isDir := (hist 0).isDir } (hist n) (utf8Encode s) := ⟨rfl, rfl, fun _ _ => rfl⟩
      refine ⟨{ hist n with isDir := (hist 0).isDir }, fun p => ⟨n, rfl, rfl, fun _ _ => rfl⟩, rfl, ?_⟩
      have hd' : ¬ ({ hist n with isDir := (hist 0).isDir } : World).isDir (utf8Encode s) = true := hd
      rw [if_neg hd']
      exact hw _ hs

/-- The full claim: an input that changes is read as it was, each file at some moment. -/
def C141_full : Prop := ∀ (env : CsvEnv) (dec : Decoders) (zip : ZipLib) (cfg : Option (CsvInputConfig env.lib)) (uf : List (Factory FileSource)) (hist : History) (i : Input),
  (∀ s, i.input = .path s → ProperListing (hist 1) (utf8Encode s)) →
  ∃ w, FromHistory w hist ∧ (∀ s, i.input = .path s → w.isDir (utf8Encode s) = (hist 0).isDir (utf8Encode s)) ∧
    createFromInputC (fun w => newInputs env dec zip w cfg uf []) hist i = createFromInput (newInputs env dec zip w cfg uf []) w i

theorem dc_error {env : CsvEnv} {dec : Decoders} {csv : Option (CsvInputConfig env.lib)} {data : List Byte} {name : Option Str} {fmt : InputFormat} (hn : SaysDc name fmt) {e : Err}
    (h : dcOpen env.ov (ofBytes data) = .err e) :
    ((Previewer.new defaultBufSize ⟨data, [], none⟩).bind fun p => createFromPreviewer dec (defaultFactories env csv) p name fmt) = .err e := by
  have hf : NoFail ⟨data, [], none⟩ := by rintro k (h | h) <;> simp at h
  obtain ⟨p, h1, h2, h3, h4, h5⟩ := preview_ok hf
  rw [h1, Res.bind_ok, says_dc hn, show (dcFactory env.ov).create p = (dcOpen env.ov (streamOf p.reader)).bind fun src => .ok src.toFile from rfl]
  rw [streamOf_eq _ (fun e he => h5 e (.inl he)), h3]
  have : p.reader.inner.ending = none := by
    rcases he : p.reader.inner.ending with _ | k
    · rfl
    · exact absurd (.inr he) (h5 k)
  rw [this]
  simp only [endItems, List.append_nil, h]
  rfl

/-- The beginning of a zip archive. -/
def turnedZip : List Byte := [0x50, 0x4b, 3, 4, 20, 0, 0, 0, 0, 0, 0, 0]

/-- `x.dc` is empty when the zip test looks at it, then an archive is copied over it. -/
def turning : History := fun n => oneWorld "x.dc".toList (if n ≤ 2 then [] else turnedZip)

theorem not_zip_nil (s : Str) : ¬ ZipThere (oneWorld s []) (utf8Encode s) := by
  rintro ⟨_, inner, h1, h2⟩
  have : inner = ⟨[], [], none⟩ := by simpa [oneWorld] using h1.symm
  subst this
  simp at h2

theorem not_closed (s : Str) (data : List Byte) : ¬ Closed (oneWorld s data) (utf8Encode s) := by
  rintro ⟨_, h⟩
  simp [oneWorld] at h

theorem x_says : SaysDc (lastComponent "x.dc".toList) .auto := .inl ⟨['x'], by decide +kernel, rfl⟩
theorem x_not_http : ¬ HttpAddress "x.dc".toList := by decide +kernel

/-- The archive is taken for a DC file. -/
theorem turning_read : createFromInputC (fun w => newInputs (recordsEnv []) plainDecoders exLib w none [] []) turning ⟨.path "x.dc".toList, .auto⟩ =
    .err (.custom "DCReader -- wrong magic number") := by
  show createFromPathInputC _ turning (utf8Encode "x.dc".toList) .auto = _
  unfold createFromPathInputC
  rw [if_neg (by simp [turning, oneWorld])]
  unfold createFromPathC
  have h2 : turning 2 = oneWorld "x.dc".toList [] := rfl
  have h3 : turning 3 = oneWorld "x.dc".toList turnedZip := rfl
  have hat := oneWorld_at "x.dc".toList turnedZip
  rw [h2, h3, zip_no (not_zip_nil _) (not_closed _ _)]
  simp only [Res.bind_ok]
  unfold createFromStream
  rw [file_previewer hat.here hat.opens (not_http x_not_http)]
  have hx := dc_error (env := recordsEnv []) (dec := plainDecoders) (csv := none) (data := turnedZip) x_says (e := .custom "DCReader -- wrong magic number") (by decide +kernel)
  cases hp : Previewer.new defaultBufSize ⟨turnedZip, [], none⟩ with
  | ok p =>
    rw [hp, Res.bind_ok] at hx
    simp only [Res.bind_ok, getFileName_encode]
    show (Res.bind (createFromPreviewer plainDecoders (defaultFactories (recordsEnv []) none) p (lastComponent "x.dc".toList) .auto) _).bind _ = _
    rw [hx]
    rfl
  | err e => rw [hp] at hx; cases hx; rfl
  | panic => rw [hp] at hx; cases hx
  | diverge => rw [hp] at hx; cases hx

/-- A zip archive that cannot be opened. -/
theorem zip_refused {env : CsvEnv} {dec : Decoders} {zip : ZipLib} {w : World} {csv : Option (CsvInputConfig env.lib)} {s : Str} {fmt : InputFormat} {inner : Inner} (h : FileAt w s inner)
    (hz : [0x50, 0x4b, 3, 4] <+: inner.data) {e : Err} (he : ∀ pos, openZip zip inner.data pos = .err e) : createFromInput (newInputs env dec zip w csv [] []) w ⟨.path s, fmt⟩ = .err e := by
  show createFromPathInput _ _ _ _ = _
  unfold createFromPathInput
  rw [h.notDir]
  simp only [Bool.false_eq_true, if_false]
  unfold createFromPath createFromZip
  rw [seek_eq, if_pos h.here, h.opens]
  simp only [Option.map_some, Res.okOr, Res.bind_ok]
  obtain ⟨q, hq⟩ := C55_isZip inner.data 0
  rw [hq]
  simp only [Res.bind_ok]
  rw [if_pos (by simpa using hz), show openZip (newInputs env dec zip w csv [] []).zip inner.data q = .err e from he q]
  rfl

theorem fixed_file {w : World} {s : Str} {data : List Byte} (hs : SameAt w (oneWorld s data) (utf8Encode s)) (hd : w.isDir (utf8Encode s) = false) : FileAt w s ⟨data, [], none⟩ where
  notDir := hd
  here := by rw [hs.1]; simp [oneWorld]
  opens := by rw [hs.2.1]; simp [oneWorld]

/-- **C141, refuted in full**: `x.dc` is empty when it is tested and an archive when it is read; then it is taken for a DC file with a wrong magic number. As an empty file it would have been
reported as cut short, as an archive as a damaged one. -/
theorem C141_counterexample : ¬ C141_full := by
  intro h
  obtain ⟨w, h1, h2, h3⟩ := h (recordsEnv []) plainDecoders exLib none [] turning ⟨.path "x.dc".toList, .auto⟩ (by
    intro s _ entries he
    simp [turning, oneWorld] at he)
  rw [turning_read] at h3
  have hd : w.isDir (utf8Encode "x.dc".toList) = false := (h2 _ rfl).trans rfl
  obtain ⟨n, hn⟩ := h1 (utf8Encode "x.dc".toList)
  by_cases hle : n ≤ 2
  · have hs : SameAt w (oneWorld "x.dc".toList []) (utf8Encode "x.dc".toList) := by
      have : turning n = oneWorld "x.dc".toList [] := by unfold turning; rw [if_pos hle]
      rwa [this] at hn
    have hat := fixed_file hs hd
    have he : dcOpen (recordsEnv []).ov (ofBytes []) = .err (.io .unexpectedEof) := by decide +kernel
    rw [C66_plain_file _ _ _ _ _ _ _ _ hat.notDir hat.here hat.opens x_not_http (by simp), dc_error x_says he] at h3
    cases h3
  · have hs : SameAt w (oneWorld "x.dc".toList turnedZip) (utf8Encode "x.dc".toList) := by
      have : turning n = oneWorld "x.dc".toList turnedZip := by unfold turning; rw [if_neg hle]
      rwa [this] at hn
    have hz : ∀ pos, openZip exLib turnedZip pos = .err (.io .invalidData) := by
      intro pos
      exact (show openZip exLib turnedZip pos = openZip exLib turnedZip 0 from rfl).trans (by decide +kernel)
    rw [zip_refused (fixed_file hs hd) (by decide) hz] at h3
    cases h3

/-! ### Cases that meet the hypotheses -/

theorem plain_then {w check stream : World} {s : Str} {r r' : Inner} (h1 : FileAt check s r) (h2 : FileAt stream s r') (hz : ¬ [0x50, 0x4b, 3, 4] <+: r.data) (hz' : ¬ [0x50, 0x4b, 3, 4] <+: r'.data)
    (hs : SameAt w stream (utf8Encode s)) : AsItWas w check stream (utf8Encode s) := by
  refine .inr ⟨?_, ?_, ?_, hs⟩
  · rintro ⟨_, x, hx, hp⟩
    rw [h1.opens] at hx
    cases hx
    exact hz hp
  · rintro ⟨_, hx⟩
    rw [h1.opens] at hx
    cases hx
  · rintro ⟨_, x, hx, hp⟩
    rw [h2.opens] at hx
    cases hx
    exact hz' hp

/-- A directory with two files, the second of which is written again before it is opened; and after that both are. -/
def rewritten (r1 r2 r2' r1' : Inner) : History := fun n =>
  if n ≤ 3 then pairDir "d".toList "d/a".toList "d/b".toList r1 r2 else if n ≤ 5 then pairDir "d".toList "d/a".toList "d/b".toList r1' r2' else pairDir "d".toList "d/a".toList "d/b".toList r2 r1

theorem rewritten_shows (r1 r2 r2' r1' : Inner) (fmt : InputFormat) (h : ∀ r ∈ [r1, r2, r2', r1'], ¬ [0x50, 0x4b, 3, 4] <+: r.data) :
    ShowsInput (pairDir "d".toList "d/a".toList "d/b".toList r1 r2') (rewritten r1 r2 r2' r1') ⟨.path "d".toList, fmt⟩ := by
  have ha : utf8Encode "d/a".toList ≠ utf8Encode "d".toList := by decide +kernel
  have hb : utf8Encode "d/b".toList ≠ utf8Encode "d".toList := by decide +kernel
  have hba : utf8Encode "d/b".toList ≠ utf8Encode "d/a".toList := by decide +kernel
  have hle : pathLe (utf8Encode "d/a".toList) (utf8Encode "d/b".toList) = true := by decide +kernel
  have hdir : ∀ r r' : Inner, (pairDir "d".toList "d/a".toList "d/b".toList r r').isDir (utf8Encode "d".toList) = true := fun r r' => by simp [pairDir]
  refine ⟨rfl, ?_⟩
  rw [if_pos (hdir _ _)]
  refine ⟨rfl, ?_⟩
  intro paths hp k p hk
  have ho := (dir_order (pairDir_holds (dir := "d".toList) (s1 := "d/a".toList) (s2 := "d/b".toList) r1 r2 ha hb hle)).1
  have : Res.ok paths = Res.ok (["d/a".toList, "d/b".toList].map utf8Encode) := hp.symm.trans ho
  cases this
  match k with
  | 0 =>
    cases hk
    exact plain_then (pairDir_first r1 r2 ha) (pairDir_first r1 r2 ha) (h r1 (by simp)) (h r1 (by simp))
      ⟨((pairDir_first r1 r2' ha).here).trans (pairDir_first r1 r2 ha).here.symm, ((pairDir_first r1 r2' ha).opens).trans (pairDir_first r1 r2 ha).opens.symm, fun _ _ => rfl⟩
  | 1 =>
    cases hk
    exact plain_then (pairDir_second r1' r2' hb hba) (pairDir_second r1' r2' hb hba) (h r2' (by simp)) (h r2' (by simp))
      ⟨((pairDir_second r1 r2' hb hba).here).trans (pairDir_second r1' r2' hb hba).here.symm, ((pairDir_second r1 r2' hb hba).opens).trans (pairDir_second r1' r2' hb hba).opens.symm, fun _ _ => rfl⟩
  | k + 2 => simp at hk

/-- It is read as the first file before and the second after it was written again, a state of things that never was. -/
example (env : CsvEnv) (dec : Decoders) (zip : ZipLib) (cfg : Option (CsvInputConfig env.lib)) (r1 r2 r2' r1' : Inner) (fmt : InputFormat)
    (h : ∀ r ∈ [r1, r2, r2', r1'], ¬ [0x50, 0x4b, 3, 4] <+: r.data) :
    createFromInputC (fun w => newInputs env dec zip w cfg [] []) (rewritten r1 r2 r2' r1') ⟨.path "d".toList, fmt⟩ =
      createFromInput (newInputs env dec zip (pairDir "d".toList "d/a".toList "d/b".toList r1 r2') cfg [] []) (pairDir "d".toList "d/a".toList "d/b".toList r1 r2') ⟨.path "d".toList, fmt⟩ :=
  C141_input _ _ _ _ _ _ _ _ (rewritten_shows r1 r2 r2' r1' fmt h)

/-- A DC file that grows from `k` to `m` rows between the test and the opening: the run of the tool is the one on the grown file. -/
example (k m : Nat) : chopperCliC (lossEnv []) (fun _ n => lossWorld (lossFile (if n ≤ 2 then k else m))) lossArgs = chopperCli (lossEnv (lossFile m)) lossArgs := by
  refine C141_tool (lossEnv []) _ lossArgs (lossWorld (lossFile m)) rfl ?_
  intro is hi j i hj
  cases hi
  match j with
  | 0 =>
    cases hj
    refine ⟨rfl, ?_⟩
    rw [if_neg (by simp [lossWorld])]
    have hat : ∀ n, FileAt (lossWorld (lossFile n)) "x.dc".toList ⟨lossFile n, [.bytes 3], none⟩ := fun n => ⟨rfl, by simp [lossWorld], by simp [lossWorld]⟩
    exact plain_then (hat k) (hat m) (dc_not_zip (loss_file k)) (dc_not_zip (loss_file m)) (SameAt.refl _ _)
  | j + 1 => cases hj

end Chopper.Props
