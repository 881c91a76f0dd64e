import Verif.Props.Delivery
import Verif.Props.CsvDir

/-!
# C126: directories of compressed, archived and plain files
-/
namespace Chopper.Props
open Chopper Chopper.Spec

variable {P Q : Type}

/-- The same state with other paths. -/
def renamed (f : Q → P) (s : MultiFile Q) : MultiFile P := ⟨s.paths.map f, s.header, s.map, s.current⟩

theorem multiNext_map (o : P → Res (Option FileSource)) (f : Q → P) (h : Header) : ∀ (zs : List Q) (m : List Nat) (cur : Option FileSource),
    multiNext o h (zs.map f) m cur =
      ((multiNext (fun z => o (f z)) h zs m cur).1, renamed f (multiNext (fun z => o (f z)) h zs m cur).2)
  | zs, m, none => by
    unfold multiNext
    rfl
  | [], m, some g => by
    unfold multiNext
    rcases hn : g.source.nextRow with ⟨r, s'⟩
    cases r with
    | ok r =>
      cases r with
      | some row => simp only [List.map_nil]; cases alignRow m row <;> rfl
      | none => rfl
    | err e => rfl
    | panic => rfl
    | diverge => rfl
  | z :: zs, m, some g => by
    rw [List.map_cons]
    unfold multiNext
    rcases hn : g.source.nextRow with ⟨r, s'⟩
    cases r with
    | ok r =>
      cases r with
      | some row => simp only; cases alignRow m row <;> rfl
      | none =>
        simp only
        have ho : openPath (fun z => o (f z)) z = openPath o (f z) := rfl
        rw [ho]
        cases openPath o (f z) with
        | ok g' =>
          simp only
          cases swapMap h g'.header with
          | ok m' => exact multiNext_map o f h zs m' (some g')
          | err e => rfl
          | panic => rfl
          | diverge => rfl
        | err e => rfl
        | panic => rfl
        | diverge => rfl
    | err e => rfl
    | panic => rfl
    | diverge => rfl

theorem multiNext_congr (o1 o2 : P → Res (Option FileSource)) (h : Header) : ∀ (zs : List P) (m : List Nat) (cur : Option FileSource),
    (∀ z ∈ zs, openPath o1 z = openPath o2 z) →
    multiNext o1 h zs m cur = multiNext o2 h zs m cur ∧ ∀ z ∈ (multiNext o1 h zs m cur).2.paths, z ∈ zs
  | zs, m, none, _ => by
    unfold multiNext
    exact ⟨rfl, fun z hz => hz⟩
  | [], m, some g, _ => by
    unfold multiNext
    rcases hn : g.source.nextRow with ⟨r, s'⟩
    cases r with
    | ok r =>
      cases r with
      | some row =>
        cases ha : alignRow m row <;> simp only [ha] <;> exact ⟨trivial, fun z hz => hz⟩
      | none => exact ⟨rfl, fun z hz => hz⟩
    | err e => exact ⟨rfl, fun z hz => hz⟩
    | panic => exact ⟨rfl, fun z hz => hz⟩
    | diverge => exact ⟨rfl, fun z hz => hz⟩
  | z :: zs, m, some g, hz => by
    unfold multiNext
    rcases hn : g.source.nextRow with ⟨r, s'⟩
    cases r with
    | ok r =>
      cases r with
      | some row =>
        cases ha : alignRow m row <;> simp only [ha] <;> exact ⟨trivial, fun z hz => hz⟩
      | none =>
        simp only
        rw [← hz z (by simp)]
        cases openPath o1 z with
        | ok g' =>
          simp only
          cases swapMap h g'.header with
          | ok m' =>
            obtain ⟨h1, h2⟩ := multiNext_congr o1 o2 h zs m' (some g') fun y hy => hz y (by simp [hy])
            exact ⟨h1, fun y hy => List.mem_cons_of_mem _ (h2 y hy)⟩
          | err e => exact ⟨rfl, fun y hy => List.mem_cons_of_mem _ hy⟩
          | panic => exact ⟨rfl, fun y hy => List.mem_cons_of_mem _ hy⟩
          | diverge => exact ⟨rfl, fun y hy => List.mem_cons_of_mem _ hy⟩
        | err e => exact ⟨rfl, fun y hy => List.mem_cons_of_mem _ hy⟩
        | panic => exact ⟨rfl, fun y hy => List.mem_cons_of_mem _ hy⟩
        | diverge => exact ⟨rfl, fun y hy => List.mem_cons_of_mem _ hy⟩
    | err e => exact ⟨rfl, fun z hz => hz⟩
    | panic => exact ⟨rfl, fun z hz => hz⟩
    | diverge => exact ⟨rfl, fun z hz => hz⟩

theorem toSource_map (o : P → Res (Option FileSource)) (f : Q → P) : ∀ (n : Nat) (s : MultiFile Q),
    toSource (MultiFile.nextRow o) n (renamed f s) = toSource (MultiFile.nextRow fun z => o (f z)) n s
  | 0, _ => rfl
  | n + 1, s => by
    unfold toSource
    have h : MultiFile.nextRow o (renamed f s) = ((MultiFile.nextRow (fun z => o (f z)) s).1, renamed f (MultiFile.nextRow (fun z => o (f z)) s).2) := multiNext_map o f _ _ _ _
    rw [h]
    rcases MultiFile.nextRow (fun z => o (f z)) s with ⟨r, s'⟩
    cases r with
    | ok r =>
      cases r with
      | some row => simp only; rw [toSource_map o f n s']
      | none => rfl
    | err e => rfl
    | panic => rfl
    | diverge => rfl

theorem toSource_congr (o1 o2 : P → Res (Option FileSource)) : ∀ (n : Nat) (s : MultiFile P), (∀ z ∈ s.paths, openPath o1 z = openPath o2 z) →
    toSource (MultiFile.nextRow o1) n s = toSource (MultiFile.nextRow o2) n s
  | 0, _, _ => rfl
  | n + 1, s, hz => by
    unfold toSource
    obtain ⟨h1, h2⟩ := multiNext_congr o1 o2 s.header s.paths s.map s.current hz
    have h : MultiFile.nextRow o1 s = MultiFile.nextRow o2 s := h1
    have h2' : ∀ z ∈ (MultiFile.nextRow o1 s).2.paths, z ∈ s.paths := h2
    rw [← h]
    rcases hr : MultiFile.nextRow o1 s with ⟨r, s'⟩
    rw [hr] at h2'
    cases r with
    | ok r =>
      cases r with
      | some row => simp only; rw [toSource_congr o1 o2 n s' fun z hzz => hz z (h2' z hzz)]
      | none => rfl
    | err e => rfl
    | panic => rfl
    | diverge => rfl

theorem fileRows_path (o : Path → Res (Option FileSource)) (p : Path) : fileRows o p = match openPath o p with | .ok f => f.source.rows.length | _ => 0 := by
  unfold fileRows openPath
  cases o p with
  | ok x => cases x <;> rfl
  | err e => rfl
  | panic => rfl
  | diverge => rfl

theorem multi_new_map (o : P → Res (Option FileSource)) (f : Q → P) (zs : List Q) :
    MultiFile.new o (zs.map f) none = (MultiFile.new (fun z => o (f z)) zs none).bind fun m => .ok (renamed f m) := by
  cases zs with
  | nil => rfl
  | cons z zs =>
    rw [List.map_cons]
    unfold MultiFile.new
    simp only
    have ho : openPath (fun z => o (f z)) z = openPath o (f z) := rfl
    rw [ho]
    cases openPath o (f z) <;> rfl

/-- Two lists of paths of which corresponding ones open in the same way. -/
theorem multi_same (o o' : Path → Res (Option FileSource)) (ps ps' : List Path) (hl : ps.length = ps'.length)
    (h : ∀ (k : Nat) p p', ps[k]? = some p → ps'[k]? = some p' → openPath o p = openPath o' p') :
    ((MultiFile.new o ps none).bind fun m => Res.ok (m.toFile o)) = (MultiFile.new o' ps' none).bind fun m => Res.ok (m.toFile o') := by
  have e1 : (ps.zip ps').map (·.1) = ps := List.map_fst_zip (by omega)
  have e2 : (ps.zip ps').map (·.2) = ps' := List.map_snd_zip (by omega)
  have hz : ∀ z ∈ ps.zip ps', openPath o z.1 = openPath o' z.2 := by
    intro z hz
    obtain ⟨i, hi, rfl⟩ := List.getElem_of_mem hz
    rw [List.getElem_zip]
    have h1 : i < ps.length := by simp at hi; omega
    have h2 : i < ps'.length := by omega
    exact h i _ _ (List.getElem?_eq_getElem h1) (List.getElem?_eq_getElem h2)
  generalize ps.zip ps' = zs at e1 e2 hz
  subst e1 e2
  rw [multi_new_map, multi_new_map]
  have hnew : MultiFile.new (fun z : Path × Path => o z.1) zs none = MultiFile.new (fun z => o' z.2) zs none := by
    cases zs with
    | nil => rfl
    | cons z zs =>
      unfold MultiFile.new
      simp only
      have : openPath (fun z : Path × Path => o z.1) z = openPath (fun z => o' z.2) z := hz z (by simp)
      rw [this]
  have hsub : ∀ m, MultiFile.new (fun z : Path × Path => o z.1) zs none = .ok m → ∀ z ∈ m.paths, z ∈ zs := by
    intro m hm
    cases zs with
    | nil => cases hm; simp
    | cons z zs =>
      unfold MultiFile.new at hm
      simp only at hm
      obtain ⟨f, _, h2⟩ := Res.bind_eq_ok.1 hm
      cases h2
      intro y hy
      exact List.mem_cons_of_mem _ hy
  rw [← hnew]
  cases hm : MultiFile.new (fun z : Path × Path => o z.1) zs none with
  | ok m =>
    simp only [Res.bind_ok, Res.ok.injEq]
    unfold MultiFile.toFile
    have hfu : currentRows (renamed (·.1) m) + ((renamed (·.1) m).paths.map (fileRows o)).sum + 1 = currentRows (renamed (·.2) m) + ((renamed (·.2) m).paths.map (fileRows o')).sum + 1 := by
      have hc : currentRows (renamed (·.1) m) = currentRows (renamed (·.2) m) := rfl
      have hs : (renamed (·.1) m).paths.map (fileRows o) = (renamed (·.2) m).paths.map (fileRows o') := by
        simp only [renamed, List.map_map]
        refine List.map_congr_left fun z hzm => ?_
        simp only [Function.comp, fileRows_path]
        rw [hz z (hsub m hm z hzm)]
      rw [hc, hs]
    rw [hfu, toSource_map, toSource_map, toSource_congr (fun z : Path × Path => o z.1) (fun z => o' z.2) _ m fun z hzm => hz z (hsub m hm z hzm)]
    rfl
  | err e => rfl
  | panic => rfl
  | diverge => rfl

/-- A file in a directory opens like an input of its own. -/
theorem dir_entry {inp : Inputs FileSource} {w : World} {s : Str} {fmt : InputFormat} (h : w.isDir (utf8Encode s) = false) :
    openPath (fun p => createFromPath inp p fmt) (utf8Encode s) = createFromInput inp w ⟨.path s, fmt⟩ := by
  show _ = createFromPathInput inp w (utf8Encode s) fmt
  unfold createFromPathInput openPath
  rw [h]
  simp only [Bool.false_eq_true, if_false]
  cases createFromPath inp (utf8Encode s) fmt with
  | ok o => cases o <;> rfl
  | err e => rfl
  | panic => rfl
  | diverge => rfl

theorem dir_order {w : World} {dir : Str} {paths : List Str} (hh : DirHolds w dir paths) :
    filesInDir w.isDir (w.listing (utf8Encode dir)) = .ok (paths.map utf8Encode) ∧ ∀ p ∈ paths, w.isDir (utf8Encode p) = false := by
  obtain ⟨entries, hlist, hperm⟩ := hh.entries
  constructor
  · obtain ⟨order', h1, h2, h3⟩ := filesInDir_spec w.isDir entries
    have : order' = paths.map utf8Encode :=
      List.Perm.eq_of_pairwise (le := PathBefore) (fun a b _ _ hab hba => pathBefore_antisymm hab hba) h3 hh.order (h2.trans hperm.symm)
    rw [hlist, h1, this]
  · intro p hp
    have : utf8Encode p ∈ (entries.filterMap id).filter fun e => !w.isDir e := hperm.mem_iff.1 (List.mem_map.2 ⟨_, hp, rfl⟩)
    simpa using (List.mem_filter.1 this).2

/-- **C126 (directories).** A directory is read as what its files, each taken as an input of its own, are read as, in the order of their names: two directories, of the same number of files, whose
files are read alike one by one are read alike, whatever else is different. (This includes headers that do not fit together, files that cannot be opened and errors while reading.) -/
theorem C126_directory (inp inp' : Inputs FileSource) (w w' : World) (dir dir' : Str) (fmt fmt' : InputFormat) (paths paths' : List Str) (hh : DirHolds w dir paths)
    (hh' : DirHolds w' dir' paths') (hl : paths.length = paths'.length)
    (h : ∀ (k : Nat) p p', paths[k]? = some p → paths'[k]? = some p' → createFromInput inp w ⟨.path p, fmt⟩ = createFromInput inp' w' ⟨.path p', fmt'⟩) :
    createFromInput inp w ⟨.path dir, fmt⟩ = createFromInput inp' w' ⟨.path dir', fmt'⟩ := by
  obtain ⟨h1, h2⟩ := dir_order hh
  obtain ⟨h1', h2'⟩ := dir_order hh'
  show createFromPathInput inp w (utf8Encode dir) fmt = createFromPathInput inp' w' (utf8Encode dir') fmt'
  unfold createFromPathInput openDir
  rw [hh.isDir, hh'.isDir, if_pos rfl, if_pos rfl, h1, h1', Res.bind_ok, Res.bind_ok]
  refine multi_same _ _ _ _ (by simpa using hl) ?_
  intro k p p' hp hp'
  rw [List.getElem?_map] at hp hp'
  obtain ⟨s, hs, rfl⟩ := Option.map_eq_some_iff.1 hp
  obtain ⟨s', hs', rfl⟩ := Option.map_eq_some_iff.1 hp'
  rw [dir_entry (h2 s (List.mem_of_getElem? hs)), dir_entry (h2' s' (List.mem_of_getElem? hs'))]
  exact h k s s' hs hs'

/-- Two inputs that are read alike (C125): one is the compressed form of the other, says less about its format, or they are the same bytes. -/
def Alike (dec : Decoders) (zip : ZipLib) (w w' : World) (i i' : Input) : Prop :=
  UnpackedInput dec zip w w' i i' ∨ UnpackedInput dec zip w' w i' i ∨ SaidInput zip w w' i i' ∨ SaidInput zip w' w i' i ∨ SameInput zip w w' i i'

/-- Two directories with as many files, which are read alike one by one. -/
def AlikeDirs (dec : Decoders) (zip : ZipLib) (w w' : World) (i i' : Input) : Prop :=
  ∃ (dir dir' : Str) (fmt fmt' : InputFormat) (paths paths' : List Str), i = ⟨.path dir, fmt⟩ ∧ i' = ⟨.path dir', fmt'⟩ ∧ DirHolds w dir paths ∧ DirHolds w' dir' paths' ∧
    paths.length = paths'.length ∧ ∀ (k : Nat) p p', paths[k]? = some p → paths'[k]? = some p' → Alike dec zip w w' ⟨.path p, fmt⟩ ⟨.path p', fmt'⟩

theorem alike_open {env : CsvEnv} {dec : Decoders} {zip : ZipLib} {w w' : World} (cfg : CsvInputConfig env.lib) {i i' : Input} (hcsv : CsvByContent env.csv)
    (hd : DecodeByContent dec) (h : Alike dec zip w w' i i') :
    createFromInput (newInputs env dec zip w (some cfg) [] []) w i = createFromInput (newInputs env dec zip w' (some cfg) [] []) w' i' := by
  rcases h with hk | hk | hk | hk | hk
  · exact C125_unpacked _ _ _ _ _ _ _ _ hcsv hd hk
  · exact (C125_unpacked _ _ _ _ _ _ _ _ hcsv hd hk).symm
  · exact C125_said _ _ _ _ _ _ _ _ hcsv hd hk
  · exact (C125_said _ _ _ _ _ _ _ _ hcsv hd hk).symm
  · exact C125_same _ _ _ _ _ _ _ _ hcsv hd hk

/-- **C126 (the tool).** A run of the tool does the same if the files in any of the directories it is given are unpacked, compressed, archived or taken out of archives, each for itself and so that the order
of their names remains. -/
theorem C126_tool (e : CliEnv) (w' : World) (a : CliArgs) (inputs' formats' : Option (List Str)) (is is' : List Input)
    (hu : e.userFactories = [] ∧ e.userTransports = []) (hcsv : CsvByContent e.csv.csv) (hd : DecodeByContent e.dec)
    (hi : parseInputs a = .ok is) (hi' : parseInputs { a with inputs := inputs', formats := formats' } = .ok is') (hl : is.length = is'.length)
    (h : ∀ (k : Nat) i i', is[k]? = some i → is'[k]? = some i' → Alike e.dec e.zip e.world w' i i' ∨ AlikeDirs e.dec e.zip e.world w' i i') :
    chopperCli e a = chopperCli { e with world := w' } { a with inputs := inputs', formats := formats' } := by
  have hp : parseCliArgs e a = parseCliArgs { e with world := w' } { a with inputs := inputs', formats := formats' } := by
    unfold parseCliArgs
    rw [settings_other hi hi']
    cases hst : parseSettings e a with
    | err x => rfl
    | panic => rfl
    | diverge => rfl
    | ok st =>
      simp only [Res.bind_ok]
      have hin := settings_inputs hi hst
      refine setupGraph_same (by rw [hin]; exact hl) _ _ _ _ (openInputs_pairs _ _ (by rw [hin]; exact hl) ?_)
      intro k i i' h1 h2
      rw [hin] at h1
      rw [hu.1, hu.2]
      rcases h k i i' h1 h2 with hk | ⟨dir, dir', fmt, fmt', paths, paths', rfl, rfl, g1, g2, g3, g4⟩
      · exact alike_open _ hcsv hd hk
      · exact C126_directory _ _ _ _ dir dir' fmt fmt' paths paths' g1 g2 g3 fun k p p' hp hp' => alike_open _ hcsv hd (g4 k p p' hp hp')
  unfold chopperCli
  rw [hp]
  rfl

/-! ### Example: a directory with a zstd file and a plain one -/

/-- A directory with two files, listed last first. -/
def pairDir (dir s1 s2 : Str) (r1 r2 : Inner) : World :=
  { twoWorld s1 s2 r1 r2 with isDir := fun p => p == utf8Encode dir, listing := fun _ => some [some (utf8Encode s2), none, some (utf8Encode s1)] }

theorem pairDir_holds {dir s1 s2 : Str} (r1 r2 : Inner) (h1 : utf8Encode s1 ≠ utf8Encode dir) (h2 : utf8Encode s2 ≠ utf8Encode dir)
    (hle : pathLe (utf8Encode s1) (utf8Encode s2) = true) : DirHolds (pairDir dir s1 s2 r1 r2) dir [s1, s2] where
  isDir := by simp [pairDir]
  entries := ⟨_, rfl, by
    have h1' : (utf8Encode s1 == utf8Encode dir) = false := by simpa using h1
    have h2' : (utf8Encode s2 == utf8Encode dir) = false := by simpa using h2
    have e : (List.filterMap id [some (utf8Encode s2), none, some (utf8Encode s1)]) = [utf8Encode s2, utf8Encode s1] := rfl
    rw [e]
    show List.Perm _ (List.filter (fun e => !(e == utf8Encode dir)) _)
    simp only [List.filter_cons, h1', h2', Bool.not_false, if_true, List.filter_nil]
    exact .swap _ _ _⟩
  order := by simpa using (pathLe_iff _ _).1 hle

theorem pairDir_first {dir s1 s2 : Str} (r1 r2 : Inner) (h : utf8Encode s1 ≠ utf8Encode dir) : FileAt (pairDir dir s1 s2 r1 r2) s1 r1 where
  notDir := by simpa [pairDir] using h
  here := (twoWorld_first s1 s2 r1 r2).here
  opens := (twoWorld_first s1 s2 r1 r2).opens

theorem pairDir_second {dir s1 s2 : Str} (r1 r2 : Inner) (h : utf8Encode s2 ≠ utf8Encode dir) (h2 : utf8Encode s2 ≠ utf8Encode s1) : FileAt (pairDir dir s1 s2 r1 r2) s2 r2 where
  notDir := by simpa [pairDir] using h
  here := (twoWorld_second s1 s2 r1 r2 h2).here
  opens := (twoWorld_second s1 s2 r1 r2 h2).opens

def packedDays : World := pairDir "days".toList "days/a.csv.zst".toList "days/b.csv".toList ⟨zstFile, [.bytes 3], none⟩ ⟨utf8Encode (csvText ',' (copyNames :: copyB)), [], none⟩
def plainDays : World := pairDir "d".toList "d/a.csv".toList "d/b.csv".toList ⟨gzText, [], none⟩ ⟨utf8Encode (csvText ',' (copyNames :: copyB)), [.bytes 1], none⟩

/-- `chopper days --output …` with `days/a.csv.zst` and `days/b.csv`, and `chopper d` with the plain files `d/a.csv` and `d/b.csv`. -/
example : chopperCli { packEnv with world := packedDays } { copyArgs with inputs := some ["days".toList] } =
    chopperCli { packEnv with world := plainDays } { copyArgs with inputs := some ["d".toList] } := by
  refine C126_tool { packEnv with world := packedDays } plainDays { copyArgs with inputs := some ["days".toList] } (some ["d".toList]) copyArgs.formats
    [⟨.path "days".toList, .auto⟩] [⟨.path "d".toList, .auto⟩] ⟨rfl, rfl⟩ plainCsv_content (zstWhole_content _) rfl rfl rfl ?_
  intro k i i' h1 h2
  match k, h1, h2 with
  | n + 1, h1, h2 => cases h1
  | 0, h1, h2 =>
    cases h1; cases h2
    refine .inr ⟨"days".toList, "d".toList, .auto, .auto, ["days/a.csv.zst".toList, "days/b.csv".toList], ["d/a.csv".toList, "d/b.csv".toList], rfl, rfl,
      pairDir_holds _ _ (by decide +kernel) (by decide +kernel) (by decide +kernel), pairDir_holds _ _ (by decide +kernel) (by decide +kernel) (by decide +kernel), rfl, ?_⟩
    intro k p p' h1 h2
    match k, h1, h2 with
    | n + 2, h1, h2 => cases h1
    | 0, h1, h2 =>
      cases h1; cases h2
      refine .inl ⟨.zst, zstFile, gzText, _, _, _, _, pack_unpacks, .file _ _ _ (pairDir_first _ _ (by decide +kernel)) (by decide +kernel) (by decide +kernel),
        .file _ _ _ (pairDir_first _ _ (by decide +kernel)) (by decide +kernel) gzText_not_zip, ⟨rfl, rfl, by simp, by simp [plainReader]⟩, ⟨rfl, rfl, by simp, by simp [plainReader]⟩, ?_⟩
      have e1 : lastComponent "days/a.csv.zst".toList = some ("a.csv".toList ++ (extension .zst).toList) := by decide +kernel
      have e2 : lastComponent "d/a.csv".toList = some "a.csv".toList := by decide +kernel
      rw [e1, e2]
      exact .name _ (plain_csv ['a']) (.inl (.inl ⟨['a'], rfl⟩))
    | 1, h1, h2 =>
      cases h1; cases h2
      refine .inr (.inr (.inr (.inr ⟨_, _, _, _, .file _ _ _ (pairDir_second _ _ (by decide +kernel) (by decide +kernel)) (by decide +kernel) gzOther_not_zip,
        .file _ _ _ (pairDir_second _ _ (by decide +kernel) (by decide +kernel)) (by decide +kernel) gzOther_not_zip, ⟨rfl, rfl, by simp, by simp⟩, rfl, .inl ?_⟩)))
      have : lastComponent "days/b.csv".toList = lastComponent "d/b.csv".toList := by decide +kernel
      exact this

end Chopper.Props
