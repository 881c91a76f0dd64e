import Verif.Spec.Changing
import Verif.Props.PackedDir
import Verif.Proofs.DcRow

/-! # Inputs that change while the program runs: proofs -/
namespace Chopper.Props
open Chopper Chopper.Spec

theorem openLoop_append {β : Type} (p : Path) (l l' : List (Transport β)) (h : ∀ acc, openLoop p l acc = openLoop p l' acc) :
    ∀ (ut : List (Transport β)) (acc : Option β), openLoop p (ut ++ l) acc = openLoop p (ut ++ l') acc
  | [], acc => h acc
  | t :: ut, acc => by
    simp only [List.cons_append, openLoop]
    by_cases hc : t.canOpen p = true
    · rw [if_pos hc, if_pos hc]
      cases t.openPath p with
      | ok r => exact openLoop_append p l l' h ut (some r)
      | err e => rfl
      | panic => rfl
      | diverge => rfl
    · rw [if_neg hc, if_neg hc]
      exact openLoop_append p l l' h ut acc

variable {env : CsvEnv} {dec : Decoders} {zip : ZipLib} {cfg : Option (CsvInputConfig env.lib)} {uf : List (Factory FileSource)} {ut : List (Transport Inner)}

theorem seek_eq (w : World) (p : Path) : createSeekable (newInputs env dec zip w cfg uf ut).seekable p =
    if w.pathExists p then (Res.okOr (.io .other) ((w.file p).map (·.data))).bind fun r => .ok (some r) else .ok none := by
  unfold createSeekable
  show openLoop p [seekableFileTransport w] none = _
  simp only [openLoop]
  rfl

theorem zip_same {w w' : World} {p : Path} (h : SameAt w w' p) (fmt : InputFormat) :
    createFromZip (newInputs env dec zip w cfg uf ut) p fmt = createFromZip (newInputs env dec zip w' cfg uf ut) p fmt := by
  unfold createFromZip
  rw [seek_eq, seek_eq, h.1, h.2.1]
  rfl

theorem stream_same {w w' : World} {p : Path} (h : SameAt w w' p) (fmt : InputFormat) :
    createFromStream (newInputs env dec zip w cfg uf ut) p fmt = createFromStream (newInputs env dec zip w' cfg uf ut) p fmt := by
  have hh : (httpTransport w).openPath p = (httpTransport w').openPath p := by
    show (Res.unwrap (utf8Decode p)).bind w.http = (Res.unwrap (utf8Decode p)).bind w'.http
    rcases hd : utf8Decode p with _ | s
    · rfl
    · exact h.2.2 s (utf8_iff.1 hd).symm
  have : createPreviewer (newInputs env dec zip w cfg uf ut).streaming p = createPreviewer (newInputs env dec zip w' cfg uf ut).streaming p := by
    unfold createPreviewer
    show (openLoop p (ut ++ [fileTransport w, httpTransport w]) none).bind _ = (openLoop p (ut ++ [fileTransport w', httpTransport w']) none).bind _
    rw [openLoop_append p _ [fileTransport w', httpTransport w'] (fun acc => ?_)]
    have h1 : (fileTransport w).canOpen p = (fileTransport w').canOpen p := h.1
    have h2 : (fileTransport w).openPath p = (fileTransport w').openPath p := by
      show Res.okOr _ (w.file p) = Res.okOr _ (w'.file p)
      rw [h.2.1]
    have h3 : (httpTransport w).canOpen p = (httpTransport w').canOpen p := rfl
    simp only [openLoop, h1, h2, h3, hh]
  unfold createFromStream
  rw [this]
  rfl

theorem bind_agree {α β : Type} {x : Res (Option α)} (hx : x ≠ .ok none) {F G : Option α → Res β} (h : ∀ s, F (some s) = G (some s)) : x.bind F = x.bind G := by
  cases x with
  | ok o =>
    cases o with
    | none => exact absurd rfl hx
    | some s => exact h s
  | err e => rfl
  | panic => rfl
  | diverge => rfl

theorem zip_decided {w : World} {p : Path} (h : ZipThere w p ∨ Closed w p) (fmt : InputFormat) : createFromZip (newInputs env dec zip w cfg uf ut) p fmt ≠ .ok none := by
  unfold createFromZip
  rw [seek_eq]
  rcases h with ⟨h1, inner, h2, h3⟩ | ⟨h1, h2⟩
  · rw [if_pos h1, h2]
    simp only [Option.map_some, Res.okOr, Res.bind_ok]
    obtain ⟨q, hq⟩ := C55_isZip inner.data 0
    rw [hq]
    simp only [Res.bind_ok]
    rw [if_pos (by simpa using h3)]
    intro hc
    obtain ⟨_, _, hc⟩ := Res.bind_eq_ok.1 hc
    obtain ⟨_, _, hc⟩ := Res.bind_eq_ok.1 hc
    obtain ⟨_, _, hc⟩ := Res.bind_eq_ok.1 hc
    cases hc
  · rw [if_pos h1, h2]
    intro hc
    cases hc

theorem zip_no {w : World} {p : Path} (h1 : ¬ ZipThere w p) (h2 : ¬ Closed w p) (fmt : InputFormat) : createFromZip (newInputs env dec zip w cfg uf ut) p fmt = .ok none := by
  unfold createFromZip
  rw [seek_eq]
  by_cases he : w.pathExists p = true
  · rw [if_pos he]
    rcases hf : w.file p with _ | inner
    · exact absurd ⟨he, hf⟩ h2
    have hz : ¬ [0x50, 0x4b, 3, 4] <+: inner.data := fun hz => h1 ⟨he, inner, hf, hz⟩
    simp only [Option.map_some, Res.okOr, Res.bind_ok]
    obtain ⟨q, hq⟩ := C55_isZip inner.data 0
    rw [hq]
    simp only [Res.bind_ok]
    rw [if_neg (by simpa using hz)]
  · rw [if_neg he]
    rfl

theorem sameAt_zip {w w' : World} {p : Path} (h : SameAt w w' p) : (ZipThere w p ↔ ZipThere w' p) ∧ (Closed w p ↔ Closed w' p) := by
  unfold ZipThere Closed
  rw [h.1, h.2.1]
  exact ⟨Iff.rfl, Iff.rfl⟩

theorem stream_closed {w : World} {p : Path} (h : Closed w p) (fmt : InputFormat) : createFromStream (newInputs env dec zip w cfg uf []) p fmt = .err (.io .other) := by
  have : createPreviewer (newInputs env dec zip w cfg uf []).streaming p = .err (.io .other) := by
    unfold createPreviewer
    show (openLoop p [fileTransport w, httpTransport w] none).bind _ = _
    have h1 : (fileTransport w).canOpen p = true := h.1
    have h2 : (fileTransport w).openPath p = .err (.io .other) := by
      show Res.okOr _ (w.file p) = _
      rw [h.2]; rfl
    rw [openLoop, if_pos h1, h2]
    rfl
  unfold createFromStream
  rw [this]
  rfl

theorem zip_closed {w : World} {p : Path} (h : Closed w p) (fmt : InputFormat) : createFromZip (newInputs env dec zip w cfg uf ut) p fmt = .err (.io .other) := by
  unfold createFromZip
  rw [seek_eq, if_pos h.1, h.2]
  rfl

theorem path_changing {w check stream : World} {p : Path} (h : AsItWas w check stream p) (fmt : InputFormat) :
    createFromPathC (fun w => newInputs env dec zip w cfg uf []) check stream p fmt = createFromPath (newInputs env dec zip w cfg uf []) p fmt := by
  unfold createFromPathC createFromPath
  rcases h with ⟨h1, h2⟩ | ⟨h1, h2, h3, h4⟩
  · rw [zip_same h2]
    exact bind_agree (zip_decided h1 fmt) fun s => rfl
  · rw [zip_no h1 h2]
    by_cases hc : Closed w p
    · rw [zip_closed hc]
      exact stream_closed ((sameAt_zip h4).2.1 hc) fmt
    · rw [zip_no (fun hz => h3 ((sameAt_zip h4).1.1 hz)) hc]
      exact (stream_same h4 fmt).symm

/-- The files of a directory opened at different moments, and once and for all. -/
theorem dir_changing (o : Path × Nat → Res (Option FileSource)) (o' : Path → Res (Option FileSource)) (ps : List Path)
    (h : ∀ (k : Nat) p, ps[k]? = some p → openPath o (p, k) = openPath o' p) :
    ((MultiFile.new o ps.zipIdx none).bind fun m => Res.ok (m.toFileC o)) = (MultiFile.new o' ps none).bind fun m => Res.ok (m.toFile o') := by
  have e1 : ps.zipIdx.map (·.1) = ps := by simp
  have hz : ∀ z ∈ ps.zipIdx, openPath o z = openPath o' z.1 := by
    intro z hz
    exact h z.2 z.1 (by rw [List.mem_zipIdx_iff_getElem?] at hz; exact hz)
  generalize ps.zipIdx = zs at e1 hz
  subst e1
  rw [multi_new_map]
  have hnew : MultiFile.new o zs none = MultiFile.new (fun z => o' z.1) zs none := by
    cases zs with
    | nil => rfl
    | cons z zs =>
      unfold MultiFile.new
      simp only
      have : openPath o z = openPath (fun z => o' z.1) z := hz z (by simp)
      rw [this]
  have hsub : ∀ m, MultiFile.new o zs none = .ok m → ∀ z ∈ m.paths, z ∈ zs := by
    intro m hm
    cases zs with
    | nil => cases hm; simp
    | cons z zs =>
      unfold MultiFile.new at hm
      simp only at hm
      obtain ⟨f, _, h2⟩ := Res.bind_eq_ok.1 hm
      cases h2
      intro y hy
      exact List.mem_cons_of_mem _ hy
  rw [← hnew]
  cases hm : MultiFile.new o zs none with
  | ok m =>
    simp only [Res.bind_ok, Res.ok.injEq]
    unfold MultiFile.toFile MultiFile.toFileC
    have hrows : ∀ z, numberedRows o z = match openPath o z with | .ok f => f.source.rows.length | _ => 0 := by
      intro z
      unfold numberedRows openPath
      cases o z with
      | ok x => cases x <;> rfl
      | err e => rfl
      | panic => rfl
      | diverge => rfl
    have hs : m.paths.map (numberedRows o) = (renamed (·.1) m).paths.map (fileRows o') := by
      simp only [renamed, List.map_map]
      refine List.map_congr_left fun z hzm => ?_
      simp only [Function.comp, fileRows_path, hrows]
      rw [hz z (hsub m hm z hzm)]
      cases openPath o' z.1 <;> rfl
    rw [hs, toSource_map, toSource_congr o (fun z => o' z.1) _ m fun z hzm => hz z (hsub m hm z hzm)]
    rfl
  | err e => rfl
  | panic => rfl
  | diverge => rfl

theorem input_changing {w : World} {hist : History} {i : Input} (h : ShowsInput w hist i) :
    createFromInputC (fun w => newInputs env dec zip w cfg uf []) hist i = createFromInput (newInputs env dec zip w cfg uf []) w i := by
  obtain ⟨it, fmt⟩ := i
  cases it with
  | stdIn =>
    have h : w.stdin = (hist 0).stdin := h
    unfold createFromInputC createFromInput
    simp only [h]
    rfl
  | path s =>
    obtain ⟨h1, h2⟩ : w.isDir (utf8Encode s) = (hist 0).isDir (utf8Encode s) ∧ _ := h
    show createFromPathInputC (fun w => newInputs env dec zip w cfg uf []) hist (utf8Encode s) fmt = createFromPathInput (newInputs env dec zip w cfg uf []) w (utf8Encode s) fmt
    unfold createFromPathInputC createFromPathInput
    by_cases hd : w.isDir (utf8Encode s) = true
    · rw [if_pos hd] at h2
      rw [if_pos (h1 ▸ hd), if_pos hd]
      unfold openDir
      rw [h2.1]
      cases hp : filesInDir (hist 1).isDir ((hist 1).listing (utf8Encode s)) with
      | ok paths =>
        simp only [Res.bind_ok]
        refine dir_changing _ _ paths fun k p hk => ?_
        unfold openPath openNumbered
        rw [path_changing (h2.2 paths hp k p hk)]
      | err e => rfl
      | panic => rfl
      | diverge => rfl
    · rw [if_neg hd] at h2
      rw [if_neg (h1 ▸ hd), if_neg hd, path_changing h2]
      rfl

end Chopper.Props
