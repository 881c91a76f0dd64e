import Verif.Props.Input2

/-!
# Inputs: http addresses, standard input, CSV files (C66), user supplied factories (C77)
-/
namespace Chopper.Props
open Chopper Chopper.Spec

/-- **C66 (http).** An address that is no existing path is fetched and opened under the last component of the address; a failure of the request is
reported. -/
theorem C66_http (env : CsvEnv) (dec : Decoders) (zip : ZipLib) (w : World) (csv : Option (CsvInputConfig env.lib)) (s : Str) (fmt : InputFormat)
    (hd : w.isDir (utf8Encode s) = false) (he : w.pathExists (utf8Encode s) = false) (hh : HttpAddress s) :
    createFromInput (newInputs env dec zip w csv [] []) w ⟨.path s, fmt⟩ =
      (w.http s).bind fun inner => (Previewer.new defaultBufSize inner).bind fun p =>
        createFromPreviewer dec (defaultFactories env csv) p (lastComponent s) fmt := by
  have hc := (C66_http_address w s).2 hh
  have hseek : createSeekable (newInputs env dec zip w csv [] []).seekable (utf8Encode s) = .ok none := by
    simp [createSeekable, newInputs, openLoop, seekableFileTransport, he]
  have hstr : createPreviewer (newInputs env dec zip w csv [] []).streaming (utf8Encode s) =
      (w.http s).bind fun inner => (Previewer.new defaultBufSize inner).bind fun p => .ok (some p) := by
    unfold createPreviewer
    have hl : openLoop (utf8Encode s) (newInputs env dec zip w csv [] []).streaming none = (w.http s).bind fun r => .ok (some r) := by
      have h0 : (fileTransport w).canOpen (utf8Encode s) = false := he
      show openLoop (utf8Encode s) [fileTransport w, httpTransport w] none = _
      unfold openLoop
      rw [h0]
      simp only [Bool.false_eq_true, if_false]
      unfold openLoop
      rw [if_pos hc]
      show ((Res.unwrap (utf8Decode (utf8Encode s))).bind w.http).bind _ = _
      rw [utf8Decode_encode]
      rfl
    rw [hl]
    cases w.http s <;> rfl
  show createFromPathInput _ _ _ _ = _
  unfold createFromPathInput
  rw [hd]
  simp only [Bool.false_eq_true, if_false]
  unfold createFromPath createFromZip
  rw [hseek, Res.bind_ok]
  simp only [Res.bind_ok]
  unfold createFromStream
  rw [hstr]
  cases w.http s with
  | ok inner =>
    simp only [Res.bind_ok]
    cases Previewer.new defaultBufSize inner with
    | ok p =>
      simp only [Res.bind_ok, getFileName_encode]
      show (Res.bind (createFromPreviewer dec (defaultFactories env csv) p (lastComponent s) fmt) _).bind _ = _
      cases createFromPreviewer dec (defaultFactories env csv) p (lastComponent s) fmt <;> rfl
    | err e => rfl
    | panic => rfl
    | diverge => rfl
  | err e => rfl
  | panic => rfl
  | diverge => rfl

example : HttpAddress "http://host/a.csv".toList ∧ HttpAddress "https://h".toList ∧ ¬ HttpAddress "httpx/a".toList ∧ ¬ HttpAddress "./http:/a".toList := by decide

/-- **C66 (standard input).** Standard input has no name: the format given or the content decides. -/
theorem C66_stdin (env : CsvEnv) (dec : Decoders) (zip : ZipLib) (w : World) (csv : Option (CsvInputConfig env.lib)) (fmt : InputFormat)
    (uf : List (Factory FileSource)) (ut : List (Transport Inner)) :
    createFromInput (newInputs env dec zip w csv uf ut) w ⟨.stdIn, fmt⟩ =
      (Previewer.new defaultBufSize w.stdin).bind fun p => createFromPreviewer dec (uf ++ defaultFactories env csv) p none fmt := rfl

theorem csv_from_previewer (env : CsvEnv) (dec : Decoders) (cfg : CsvInputConfig env.lib) (s : Str) (fmt : InputFormat) (p : Previewer)
    (hfmt : (∃ base, lastComponent s = some (base ++ ".csv".toList) ∧ fmt = .auto) ∨ fmt = .extension "csv".toList ∨ fmt = .extension ".csv".toList) :
    createFromPreviewer dec (defaultFactories env (some cfg)) p (lastComponent s) fmt = (csvOpen env cfg p).bind fun src => .ok (src.toFile env cfg.tz) := by
  have hdot : ∀ b : Str, NameSplits (b ++ ".csv".toList) none (b ++ ".csv".toList) := by
    intro b
    refine ⟨rfl, ?_⟩
    intro f b' h
    have hl := congrArg List.getLast? h
    rw [ext_last] at hl
    have : (b ++ ".csv".toList).getLast? = some 'v' := by simp [List.getLast?_append]
    rw [this] at hl
    cases f <;> simp [extLast] at hl
  have hfirst : ∀ b : Str, FirstOf (defaultFactories env (some cfg)) (·.canFormat (b ++ ".csv".toList)) (csvFactory env cfg) := fun b =>
    ⟨[], [dcFactory env.ov], rfl, (endsWith_iff _ _).2 ⟨b, rfl⟩, by simp⟩
  rcases hfmt with ⟨base, hb, rfl⟩ | rfl | rfl
  · rw [hb]
    exact C57_name_first dec _ p _ none _ (hdot base) _ (hfirst base)
  · exact (C57_explicit dec _ p _ "csv".toList ".csv".toList (.inr ⟨rfl, by intro r; simp⟩) none ".csv".toList (hdot [])).1 _ (hfirst [])
  · exact (C57_explicit dec _ p _ ".csv".toList ".csv".toList (.inl ⟨rfl, _, rfl⟩) none ".csv".toList (hdot [])).1 _ (hfirst [])

/-- **C66 (CSV files).** A file that is no zip archive, given by a name ending in `.csv` or by the format "csv", is opened as CSV: header and rows are those of
the CSV source on its content. -/
theorem C66_csv_file (env : CsvEnv) (dec : Decoders) (zip : ZipLib) (w : World) (cfg : CsvInputConfig env.lib) (s : Str) (fmt : InputFormat) (inner : Inner)
    (hd : w.isDir (utf8Encode s) = false) (he : w.pathExists (utf8Encode s) = true) (hf : w.file (utf8Encode s) = some inner)
    (hh : ¬ HttpAddress s) (hz : ¬ [0x50, 0x4b, 3, 4] <+: inner.data)
    (hfmt : (∃ base, lastComponent s = some (base ++ ".csv".toList) ∧ fmt = .auto) ∨ fmt = .extension "csv".toList ∨ fmt = .extension ".csv".toList) :
    createFromInput (newInputs env dec zip w (some cfg) [] []) w ⟨.path s, fmt⟩ =
      (Previewer.new defaultBufSize inner).bind fun p => (csvOpen env cfg p).bind fun src => .ok (src.toFile env cfg.tz) := by
  rw [C66_plain_file env dec zip w (some cfg) s fmt inner hd he hf hh hz]
  cases Previewer.new defaultBufSize inner with
  | ok p =>
    rw [Res.bind_ok, Res.bind_ok]
    exact csv_from_previewer env dec cfg s fmt p hfmt
  | err e => rfl
  | panic => rfl
  | diverge => rfl

/-- **C66 (CSV over http).** An address that is no existing path, given by a name ending in `.csv` or with the format "csv", is opened as CSV: header and rows are those of
the CSV source on the answer. -/
theorem C66_csv_http (env : CsvEnv) (dec : Decoders) (zip : ZipLib) (w : World) (cfg : CsvInputConfig env.lib) (s : Str) (fmt : InputFormat) (inner : Inner)
    (hd : w.isDir (utf8Encode s) = false) (he : w.pathExists (utf8Encode s) = false) (hh : HttpAddress s) (hf : w.http s = .ok inner)
    (hfmt : (∃ base, lastComponent s = some (base ++ ".csv".toList) ∧ fmt = .auto) ∨ fmt = .extension "csv".toList ∨ fmt = .extension ".csv".toList) :
    createFromInput (newInputs env dec zip w (some cfg) [] []) w ⟨.path s, fmt⟩ =
      (Previewer.new defaultBufSize inner).bind fun p => (csvOpen env cfg p).bind fun src => .ok (src.toFile env cfg.tz) := by
  rw [C66_http env dec zip w (some cfg) s fmt hd he hh, hf, Res.bind_ok]
  cases Previewer.new defaultBufSize inner with
  | ok p =>
    rw [Res.bind_ok, Res.bind_ok]
    exact csv_from_previewer env dec cfg s fmt p hfmt
  | err e => rfl
  | panic => rfl
  | diverge => rfl

/-- What `FileSource`s of CSV and DC are: they deliver exactly the rows that the source delivers call by call, and end as it ends. -/
theorem C66_rows (env : CsvEnv) (tz : ChopperTz env.lib) (c : CsvSource) (d : DcSource) :
    RunsAs (CsvSource.nextRow env tz) c (c.toFile env tz).source ∧ (c.toFile env tz).header = c.header ∧
    RunsAs DcSource.nextRow d d.toFile.source ∧ d.toFile.header = d.header :=
  ⟨csv_toFile_runs env tz c, rfl, dc_toFile_runs d, rfl⟩

/-! ### C77: user supplied source factories come first -/

theorem firstOf_append {α : Type} {fs : List (Factory α)} (gs : List (Factory α)) {test : Factory α → Bool} {f : Factory α} (h : FirstOf fs test f) :
    FirstOf (fs ++ gs) test f := by
  obtain ⟨b, a, h1, h2, h3⟩ := h
  exact ⟨b, a ++ gs, by rw [h1, List.append_assoc, List.cons_append], h2, h3⟩

/-- **C77.** The first user supplied factory that accepts a format, a name, or (where these do not decide) a content is the one that creates the source,
whatever the built-in factories and user transports are. -/
theorem C77_user_factories (env : CsvEnv) (dec : Decoders) (zip : ZipLib) (w : World) (csv : Option (CsvInputConfig env.lib)) (user : List (Factory FileSource))
    (ut : List (Transport Inner)) (f : Factory FileSource) (p : Previewer) :
    (∀ name e full c base, Dotted e full → NameSplits full c base → FirstOf user (·.canFormat base) f →
      createFromPreviewer dec (newInputs env dec zip w csv user ut).factories p name (.extension e) = (decoded dec c p).bind f.create) ∧
    (∀ name c base, NameSplits name c base → FirstOf user (·.canFormat base) f →
      createFromPreviewer dec (newInputs env dec zip w csv user ut).factories p (some name) .auto = (decoded dec c p).bind f.create) ∧
    (∀ k p', ContentIs p.trimmed k → decoded dec k p = .ok p' → FirstOf user (·.canPreview p') f →
      createFromPreviewer dec (newInputs env dec zip w csv user ut).factories p none .auto = f.create p') := by
  refine ⟨?_, ?_, ?_⟩
  · intro name e full c base hd hs hf
    exact (C57_explicit dec _ p name e full hd c base hs).1 f (firstOf_append _ hf)
  · intro name c base hs hf
    exact C57_name_first dec _ p name c base hs f (firstOf_append _ hf)
  · intro k p' hk hdec hf
    rcases (C57_content_only dec (newInputs env dec zip w csv user ut).factories p k hk).1 p' hdec with ⟨g, hg, h⟩ | ⟨hn, _⟩
    · obtain ⟨b, a, h1, h2, h3⟩ := hg
      obtain ⟨b', a', h1', h2', h3'⟩ := firstOf_append (defaultFactories env csv) hf
      have : g = f := by
        have heq : b ++ g :: a = b' ++ f :: a' := by rw [← h1, ← h1']; rfl
        rcases List.append_eq_append_iff.1 heq with ⟨x, hx, hy⟩ | ⟨x, hx, hy⟩
        · cases x with
          | nil => simp only [List.nil_append, List.cons.injEq] at hy; exact hy.1
          | cons y ys =>
            simp only [List.cons_append, List.cons.injEq] at hy
            have := h3' g (by rw [hx, hy.1]; simp)
            rw [h2] at this
            cases this
        · cases x with
          | nil => simp only [List.nil_append, List.cons.injEq] at hy; exact hy.1.symm
          | cons y ys =>
            simp only [List.cons_append, List.cons.injEq] at hy
            have := h3 f (by rw [hx, hy.1]; simp)
            rw [h2'] at this
            cases this
      rw [h, this]
    · obtain ⟨b, a, h1, h2, _⟩ := hf
      have := hn f (by show f ∈ user ++ _; rw [h1]; simp)
      simp only at h2
      rw [h2] at this
      cases this

/-- The hypotheses are met: a user factory that claims `.csv` for itself. -/
def exUserFactory : Factory FileSource := ⟨fun s => endsWith s ".csv".toList, fun _ => true, fun _ => .ok ⟨⟨[], []⟩, ⟨[], .eof⟩⟩⟩
example : FirstOf [exUserFactory] (·.canFormat "x.csv".toList) exUserFactory ∧ NameSplits "x.csv".toList none "x.csv".toList := by
  refine ⟨⟨[], [], rfl, by decide +kernel, by simp⟩, rfl, ?_⟩
  intro f b h
  have hl := congrArg List.getLast? h
  rw [ext_last] at hl
  cases f <;> simp [extLast] at hl

end Chopper.Props
