import Verif.Props.Input
import Verif.Props.Zip

/-!
# Path inputs: C66, and directories as inputs (C49)
-/
namespace Chopper.Props
open Chopper Chopper.Spec

/-! ### File names -/

theorem encodeChar_slash {c : Char} (h : (47 : Byte) ∈ encodeChar c) : c = '/' := by
  have hc := char_lt c
  have key : ∀ n, 0x80 ≤ n → n < 256 → ¬ (47 : Byte) = BitVec.ofNat 8 n := by
    intro n h1 h2 h
    have := congrArg BitVec.toNat h
    simp at this
    omega
  unfold encodeChar at h
  simp only at h
  split at h
  · simp only [List.mem_cons, List.not_mem_nil, or_false] at h
    have := congrArg BitVec.toNat h
    rw [ofNat8 (by omega)] at this
    exact char_ext (by simpa using this.symm)
  · split at h
    · simp only [List.mem_cons, List.not_mem_nil, or_false] at h
      rcases h with h | h
      · exact absurd h (key _ (by omega) (by omega))
      · exact absurd h (key _ (by omega) (by omega))
    · split at h
      · simp only [List.mem_cons, List.not_mem_nil, or_false] at h
        rcases h with h | h | h
        · exact absurd h (key _ (by omega) (by omega))
        · exact absurd h (key _ (by omega) (by omega))
        · exact absurd h (key _ (by omega) (by omega))
      · simp only [List.mem_cons, List.not_mem_nil, or_false] at h
        rcases h with h | h | h | h
        · exact absurd h (key _ (by omega) (by omega))
        · exact absurd h (key _ (by omega) (by omega))
        · exact absurd h (key _ (by omega) (by omega))
        · exact absurd h (key _ (by omega) (by omega))

theorem splitSlash_ne (p : Path) : splitSlash p ≠ [] := by
  cases p with
  | nil => simp [splitSlash]
  | cons c p =>
    unfold splitSlash
    split
    · simp
    · split <;> simp

/-- Bytes without a slash in front go into the first piece. -/
theorem splitSlash_append {a : List Byte} (ha : (47 : Byte) ∉ a) (p : Path) :
    splitSlash (a ++ p) = match splitSlash p with
      | [] => [a]
      | q :: qs => (a ++ q) :: qs := by
  induction a with
  | nil =>
    cases hs : splitSlash p with
    | nil => exact absurd hs (splitSlash_ne p)
    | cons q qs => simpa using hs
  | cons x a ih =>
    simp only [List.mem_cons, not_or] at ha
    rw [List.cons_append, splitSlash, if_neg (fun h => ha.1 h.symm), ih ha.2]
    cases splitSlash p with
    | nil => rfl
    | cons q qs => rfl

theorem splitSlash_encode (s : Str) : splitSlash (utf8Encode s) = (splitChar '/' s).map utf8Encode := by
  induction s with
  | nil => rfl
  | cons c s ih =>
    have e : utf8Encode (c :: s) = encodeChar c ++ utf8Encode s := by simp [utf8Encode]
    rw [e]
    by_cases hc : c = '/'
    · subst hc
      have : encodeChar '/' = [47] := by decide
      rw [this, List.singleton_append, splitSlash, if_pos rfl, splitChar, if_pos rfl, ih]
      rfl
    · rw [splitSlash_append (fun h => hc (encodeChar_slash h)), splitChar, if_neg hc, ih]
      cases hs : splitChar '/' s with
      | nil => exact absurd hs (splitChar_ne _ _)
      | cons q qs => simp [utf8Encode]

/-- The last component of a path, where empty components and `.` do not count; there is none if that is `..` or nothing. -/
def lastComponent (s : Str) : Option Str :=
  match ((splitChar '/' s).filter fun c => c ≠ [] ∧ c ≠ ['.']).getLast? with
  | some c => if c = ['.', '.'] then none else some c
  | none => none

theorem getFileName_encode (s : Str) : getFileName (utf8Encode s) = .ok (lastComponent s) := by
  have e1 : ∀ c : Str, (utf8Encode c = [] ↔ c = []) := fun c => ⟨fun h => utf8Encode_inj (b := []) (by rw [h]; rfl), fun h => by rw [h]; rfl⟩
  have e2 : ∀ c : Str, (utf8Encode c = [46] ↔ c = ['.']) := fun c => ⟨fun h => utf8Encode_inj (b := ['.']) (by rw [h]; decide), fun h => by rw [h]; decide⟩
  have e3 : ∀ c : Str, (utf8Encode c = [46, 46] ↔ c = ['.', '.']) :=
    fun c => ⟨fun h => utf8Encode_inj (b := ['.', '.']) (by rw [h]; decide), fun h => by rw [h]; decide⟩
  have hf : (splitSlash (utf8Encode s)).filter (fun c => !(c == [] || c == [46])) =
      ((splitChar '/' s).filter fun c => c ≠ [] ∧ c ≠ ['.']).map utf8Encode := by
    rw [splitSlash_encode, List.filter_map]
    congr 1
    apply List.filter_congr
    intro c _
    simp only [Function.comp, Bool.not_or, ne_eq]
    rw [Bool.eq_iff_iff]
    simp [e1]
    intro _
    exact not_congr (e2 c)
  unfold getFileName osFileName lastComponent
  rw [hf, List.getLast?_map]
  cases ((splitChar '/' s).filter fun c => c ≠ [] ∧ c ≠ ['.']).getLast? with
  | none => rfl
  | some c =>
    simp only [Option.map_some, e3]
    by_cases hc : c = ['.', '.']
    · simp only [if_pos hc]
    · simp only [if_neg hc, utf8Decode_encode]
      rfl

example : lastComponent "data//x/./a.csv.gz/".toList = some "a.csv.gz".toList := by decide +kernel
example : lastComponent "data/..".toList = none := by decide +kernel

/-! ### Http addresses -/

theorem firstPiece_encode (s : Str) : firstPiece (utf8Encode s) = utf8Encode (s.takeWhile (· != '/')) := by
  induction s with
  | nil => rfl
  | cons c cs ih =>
    unfold firstPiece at ih ⊢
    by_cases hc : c = '/'
    · subst hc
      rw [show utf8Encode ('/' :: cs) = 47 :: utf8Encode cs from rfl]
      rfl
    · have hno : (47 : Byte) ∉ encodeChar c := fun h => hc (encodeChar_slash h)
      have hpre : ∀ (a b : List Byte), (47 : Byte) ∉ a → (a ++ b).takeWhile (· != 47) = a ++ b.takeWhile (· != 47) := by
        intro a b ha
        rw [List.takeWhile_append_of_pos]
        intro x hx
        simp only [bne_iff_ne, ne_eq]
        rintro rfl
        exact ha hx
      rw [show utf8Encode (c :: cs) = encodeChar c ++ utf8Encode cs from rfl, hpre _ _ hno, ih, List.takeWhile_cons_of_pos (by simpa using hc)]
      rfl

theorem takeWhile_slash (s t : Str) (ht : '/' ∉ t) : s.takeWhile (· != '/') = t ↔ s = t ∨ t ++ ['/'] <+: s := by
  induction t generalizing s with
  | nil =>
    cases s with
    | nil => simp
    | cons c cs =>
      by_cases hc : c = '/'
      · subst hc; simp
      · rw [List.takeWhile_cons_of_pos (by simpa using hc)]
        simp only [reduceCtorEq, List.nil_append, List.cons_prefix_cons, false_or, false_iff, not_and]
        intro h
        exact absurd h.symm hc
  | cons d ds ih =>
    simp only [List.mem_cons, not_or] at ht
    cases s with
    | nil => simp
    | cons c cs =>
      by_cases hc : c = '/'
      · subst hc
        simp only [List.takeWhile_cons, bne_self_eq_false, Bool.false_eq_true, if_false, reduceCtorEq, List.cons.injEq, List.cons_append, List.cons_prefix_cons, false_iff, not_or,
          not_and]
        exact ⟨fun h => absurd h ht.1, fun h => absurd h.symm ht.1⟩
      · rw [List.takeWhile_cons_of_pos (by simpa using hc)]
        simp only [List.cons.injEq, List.cons_append, List.cons_prefix_cons, ih cs ht.2]
        constructor
        · rintro ⟨rfl, h | h⟩
          · exact .inl ⟨rfl, h⟩
          · exact .inr ⟨rfl, h⟩
        · rintro (⟨rfl, h⟩ | ⟨rfl, h⟩)
          · exact ⟨rfl, .inl h⟩
          · exact ⟨rfl, .inr h⟩

/-- **C66 (addresses).** Exactly the paths whose first component is `http:` or `https:` are opened over http. -/
theorem C66_http_address (w : World) (s : Str) : (httpTransport w).canOpen (utf8Encode s) = true ↔ HttpAddress s := by
  show (firstPiece (utf8Encode s) == utf8Encode ['h', 't', 't', 'p', ':'] || firstPiece (utf8Encode s) == utf8Encode ['h', 't', 't', 'p', 's', ':']) = true ↔ _
  rw [firstPiece_encode, Bool.or_eq_true, beq_iff_eq, beq_iff_eq]
  have inj : ∀ a b : Str, utf8Encode a = utf8Encode b ↔ a = b := fun a b => ⟨utf8Encode_inj, fun h => by rw [h]⟩
  rw [inj, inj, takeWhile_slash _ _ (by decide), takeWhile_slash _ _ (by decide)]
  show _ ↔ ∃ scheme ∈ [['h', 't', 't', 'p', ':'], ['h', 't', 't', 'p', 's', ':']], _
  simp only [List.mem_cons, List.not_mem_nil, or_false]
  constructor
  · rintro (h | h)
    · exact ⟨_, .inl rfl, h⟩
    · exact ⟨_, .inr rfl, h⟩
  · rintro ⟨_, rfl | rfl, h⟩
    · exact .inl h
    · exact .inr h

theorem not_http {w : World} {s : Str} (h : ¬ HttpAddress s) : (httpTransport w).canOpen (utf8Encode s) = false := by
  cases hc : (httpTransport w).canOpen (utf8Encode s) with
  | false => rfl
  | true => exact absurd ((C66_http_address w s).1 hc) h

/-! ### C66: what a path is read as -/

variable {env : CsvEnv} {dec : Decoders} {zip : ZipLib} {w : World} {csv : Option (CsvInputConfig env.lib)}

theorem file_previewer {path : Path} {inner : Inner} (he : w.pathExists path = true) (hf : w.file path = some inner) (hh : (httpTransport w).canOpen path = false) :
    createPreviewer (newInputs env dec zip w csv [] []).streaming path = (Previewer.new defaultBufSize inner).bind fun p => .ok (some p) :=
  C59_file_wins env dec zip w csv [] path inner (by simp) he hf hh

/-- **C66 (plain files).** An existing file that is no zip archive is opened with its file name. -/
theorem C66_plain_file (env : CsvEnv) (dec : Decoders) (zip : ZipLib) (w : World) (csv : Option (CsvInputConfig env.lib)) (s : Str) (fmt : InputFormat) (inner : Inner)
    (hd : w.isDir (utf8Encode s) = false) (he : w.pathExists (utf8Encode s) = true) (hf : w.file (utf8Encode s) = some inner)
    (hh : ¬ HttpAddress s) (hz : ¬ [0x50, 0x4b, 3, 4] <+: inner.data) :
    createFromInput (newInputs env dec zip w csv [] []) w ⟨.path s, fmt⟩ =
      (Previewer.new defaultBufSize inner).bind fun p => createFromPreviewer dec (defaultFactories env csv) p (lastComponent s) fmt := by
  have hh := not_http (w := w) hh
  have hseek : createSeekable (newInputs env dec zip w csv [] []).seekable (utf8Encode s) = .ok (some inner.data) := by
    simp [createSeekable, newInputs, openLoop, seekableFileTransport, he, hf, Res.okOr]
  have hzip : createFromZip (newInputs env dec zip w csv [] []) (utf8Encode s) fmt = .ok none := by
    unfold createFromZip
    rw [hseek, Res.bind_ok]
    obtain ⟨q, hq⟩ := C55_isZip inner.data 0
    simp only [hq, Res.bind_ok]
    rw [if_neg (by simpa using hz)]
  show createFromPathInput _ _ _ _ = _
  unfold createFromPathInput
  rw [hd]
  simp only [Bool.false_eq_true, if_false]
  unfold createFromPath
  rw [hzip, Res.bind_ok]
  simp only
  unfold createFromStream
  rw [file_previewer he hf hh]
  cases Previewer.new defaultBufSize inner with
  | ok p =>
    simp only [Res.bind_ok, getFileName_encode]
    show (Res.bind (createFromPreviewer dec (defaultFactories env csv) p (lastComponent s) fmt) _).bind _ = _
    cases createFromPreviewer dec (defaultFactories env csv) p (lastComponent s) fmt <;> rfl
  | err e => rfl
  | panic => rfl
  | diverge => rfl

/-- **C66 (zip archives).** An existing file that starts with a local file header signature is opened as a zip archive: its entry's data, checked against the
entry's checksum, is opened under the entry's name. -/
theorem C66_zip_file (env : CsvEnv) (dec : Decoders) (zip : ZipLib) (w : World) (csv : Option (CsvInputConfig env.lib)) (s : Str) (fmt : InputFormat) (inner : Inner)
    (hd : w.isDir (utf8Encode s) = false) (he : w.pathExists (utf8Encode s) = true) (hf : w.file (utf8Encode s) = some inner)
    (hz : [0x50, 0x4b, 3, 4] <+: inner.data) (r : CrcReader) (name : Str) (ho : ∀ pos, ∃ q, openZip zip inner.data pos = .ok ((r, name), q)) :
    createFromInput (newInputs env dec zip w csv [] []) w ⟨.path s, fmt⟩ =
      (Previewer.new defaultBufSize r.asInner).bind fun p => createFromPreviewer dec (defaultFactories env csv) p (some name) fmt := by
  have hseek : createSeekable (newInputs env dec zip w csv [] []).seekable (utf8Encode s) = .ok (some inner.data) := by
    simp [createSeekable, newInputs, openLoop, seekableFileTransport, he, hf, Res.okOr]
  show createFromPathInput _ _ _ _ = _
  unfold createFromPathInput
  rw [hd]
  simp only [Bool.false_eq_true, if_false]
  unfold createFromPath createFromZip
  rw [hseek, Res.bind_ok]
  obtain ⟨q, hq⟩ := C55_isZip inner.data 0
  simp only [hq, Res.bind_ok]
  rw [if_pos (by simpa using hz)]
  obtain ⟨q', hq'⟩ := ho q
  have hq'' : openZip (newInputs env dec zip w csv [] []).zip inner.data q = .ok ((r, name), q') := hq'
  rw [hq'', Res.bind_ok]
  simp only
  cases Previewer.new defaultBufSize r.asInner with
  | ok p =>
    simp only [Res.bind_ok]
    show ((Res.bind (createFromPreviewer dec (defaultFactories env csv) p (some name) fmt) _).bind _).bind _ = _
    cases createFromPreviewer dec (defaultFactories env csv) p (some name) fmt <;> rfl
  | err e => rfl
  | panic => rfl
  | diverge => rfl

/-- **C66 (missing files).** A path that does not exist and is no http address is an error. -/
theorem C66_missing (env : CsvEnv) (dec : Decoders) (zip : ZipLib) (w : World) (csv : Option (CsvInputConfig env.lib)) (s : Str) (fmt : InputFormat)
    (hd : w.isDir (utf8Encode s) = false) (he : w.pathExists (utf8Encode s) = false) (hh : ¬ HttpAddress s) :
    createFromInput (newInputs env dec zip w csv [] []) w ⟨.path s, fmt⟩ = .err (.io .other) := by
  have hh := not_http (w := w) hh
  have hseek : createSeekable (newInputs env dec zip w csv [] []).seekable (utf8Encode s) = .ok none := by
    simp [createSeekable, newInputs, openLoop, seekableFileTransport, he]
  have hstr : createPreviewer (newInputs env dec zip w csv [] []).streaming (utf8Encode s) = .ok none := by
    refine (C59_last_wins _ _ ?_).1 ?_ <;> intro t ht
    · simp only [newInputs, List.nil_append, List.mem_cons, List.not_mem_nil, or_false] at ht
      intro hc
      rcases ht with rfl | rfl
      · rw [show (fileTransport w).canOpen (utf8Encode s) = w.pathExists (utf8Encode s) from rfl, he] at hc; simp at hc
      · rw [hh] at hc; simp at hc
    · simp only [newInputs, List.nil_append, List.mem_cons, List.not_mem_nil, or_false] at ht
      rcases ht with rfl | rfl
      · exact he
      · exact hh
  show createFromPathInput _ _ _ _ = _
  unfold createFromPathInput
  rw [hd]
  simp only [Bool.false_eq_true, if_false]
  unfold createFromPath createFromZip
  rw [hseek, Res.bind_ok]
  simp only [Res.bind_ok]
  unfold createFromStream
  rw [hstr, Res.bind_ok]
  rfl

/-- **C66/C49 (directories).** A directory whose files can all be opened, are read to their ends and have headers acceptable to the first file's header is one
input with the first file's header and the rows of all files, aligned, in the order of the file names. -/
theorem C66_directory (inp : Inputs FileSource) (w : World) (s : Str) (fmt : InputFormat) (entries order : List Path)
    (hd : w.isDir (utf8Encode s) = true) (hl : w.listing (utf8Encode s) = some (entries.map some))
    (hperm : order.Perm (entries.filter fun e => !w.isDir e)) (hsort : order.Pairwise PathBefore)
    (hgood : ∀ p ∈ order, ∃ f, createFromPath inp p fmt = .ok (some f) ∧ GoodFile f ∧ f.header.names.Nodup)
    (hcomp : ∀ p f q g, order.head? = some p → createFromPath inp p fmt = .ok (some f) → q ∈ order → createFromPath inp q fmt = .ok (some g) →
      Compatible f.header g.header) :
    ∃ src, createFromInput inp w ⟨.path s, fmt⟩ = .ok src ∧ src.source.ending = .eof ∧
      (∀ p f, order.head? = some p → createFromPath inp p fmt = .ok (some f) → src.header = f.header) ∧
      Concatenation (fun p => createFromPath inp p fmt) src.header order src.source.rows := by
  have ho : filesInDir w.isDir (some (entries.map some)) = .ok order := by
    obtain ⟨order', h1, h2, h3, _⟩ := C49_order w.isDir entries
    have : order' = order := List.Perm.eq_of_pairwise (le := PathBefore) (fun a b _ _ hab hba => pathBefore_antisymm hab hba) h3 hsort (h2.trans hperm.symm)
    rw [h1, this]
  obtain ⟨src, h1, h2, rows, fin, h3, h4, h5⟩ := C49_concatenation (fun p => createFromPath inp p fmt) w.isDir entries order ho hgood hcomp
  have hrun : RunsAs (MultiFile.nextRow fun p => createFromPath inp p fmt) src ⟨rows, .eof⟩ := ⟨fin, h3, by rw [h4]⟩
  have heq := runsAs_unique (multi_toFile_runs (fun p => createFromPath inp p fmt) src) hrun
  refine ⟨src.toFile fun p => createFromPath inp p fmt, ?_, by rw [heq], h2, by rw [heq]; exact h5⟩
  show createFromPathInput _ _ _ _ = _
  unfold createFromPathInput
  rw [hd, if_pos rfl, hl, h1, Res.bind_ok]

/-! ### C66: DC files -/

/-- Such an input is previewed and opened by the DC factory. -/
theorem dc_input_opens (env : CsvEnv) (dec : Decoders) (zip : ZipLib) (w : World) (csv : Option (CsvInputConfig env.lib)) (s : Str) (fmt : InputFormat) (inner : Inner)
    (hd : w.isDir (utf8Encode s) = false) (he : w.pathExists (utf8Encode s) = true) (hf : w.file (utf8Encode s) = some inner)
    (hh : ¬ HttpAddress s) (hz : ¬ [0x50, 0x4b, 3, 4] <+: inner.data)
    (hfmt : (∃ base, lastComponent s = some (base ++ ".dc".toList) ∧ fmt = .auto) ∨ fmt = .extension "dc".toList ∨ fmt = .extension ".dc".toList) :
    createFromInput (newInputs env dec zip w csv [] []) w ⟨.path s, fmt⟩ = (Previewer.new defaultBufSize inner).bind (dcFactory env.ov).create := by
  rw [C66_plain_file env dec zip w csv s fmt inner hd he hf hh hz]
  have hdot : ∀ b : Str, NameSplits (b ++ ".dc".toList) none (b ++ ".dc".toList) := by
    intro b
    refine ⟨rfl, ?_⟩
    intro f b' h
    have hl := congrArg List.getLast? h
    rw [ext_last] at hl
    have : (b ++ ".dc".toList).getLast? = some 'c' := by simp [List.getLast?_append]
    rw [this] at hl
    cases f <;> simp [extLast] at hl
  have hfirst : ∀ b : Str, FirstOf (defaultFactories env csv) (·.canFormat (b ++ ".dc".toList)) (dcFactory env.ov) := by
    intro b
    have hdc : (dcFactory env.ov).canFormat (b ++ ".dc".toList) = true := (endsWith_iff _ _).2 ⟨b, rfl⟩
    cases csv with
    | none => exact ⟨[], [], rfl, hdc, by simp⟩
    | some cfg =>
      refine ⟨[csvFactory env cfg], [], rfl, hdc, ?_⟩
      intro g hg
      simp only [List.mem_singleton] at hg
      subst hg
      show endsWith _ _ = false
      cases he : endsWith (b ++ ".dc".toList) ['.', 'c', 's', 'v'] with
      | false => rfl
      | true =>
        obtain ⟨b', hb'⟩ := (endsWith_iff _ _).1 he
        have hl := congrArg List.getLast? hb'
        simp [List.getLast?_append] at hl
  cases Previewer.new defaultBufSize inner with
  | ok p =>
    rw [Res.bind_ok, Res.bind_ok]
    rcases hfmt with ⟨base, hb, rfl⟩ | rfl | rfl
    · rw [hb]
      exact C57_name_first dec _ p _ none _ (hdot base) _ (hfirst base)
    · exact (C57_explicit dec _ p _ "dc".toList ".dc".toList (.inr ⟨rfl, by intro r; simp⟩) none ".dc".toList (hdot [])).1 _ (hfirst [])
    · exact (C57_explicit dec _ p _ ".dc".toList ".dc".toList (.inl ⟨rfl, _, rfl⟩) none ".dc".toList (hdot [])).1 _ (hfirst [])
  | err e => rfl
  | panic => rfl
  | diverge => rfl

/-- **C66 (DC files).** A DC file, given by its name or by the format "dc", is opened as DC: the header and rows are those of the DC reader on its bytes. -/
theorem C66_dc_file (env : CsvEnv) (dec : Decoders) (zip : ZipLib) (w : World) (csv : Option (CsvInputConfig env.lib)) (s : Str) (fmt : InputFormat) (inner : Inner)
    (hd : w.isDir (utf8Encode s) = false) (he : w.pathExists (utf8Encode s) = true) (hf : w.file (utf8Encode s) = some inner)
    (hh : ¬ HttpAddress s) (hz : ¬ [0x50, 0x4b, 3, 4] <+: inner.data) (hn : NoFail inner)
    (hfmt : (∃ base, lastComponent s = some (base ++ ".dc".toList) ∧ fmt = .auto) ∨ fmt = .extension "dc".toList ∨ fmt = .extension ".dc".toList) :
    createFromInput (newInputs env dec zip w csv [] []) w ⟨.path s, fmt⟩ = (dcOpen env.ov (ofBytes inner.data)).bind fun src => .ok src.toFile := by
  rw [dc_input_opens env dec zip w csv s fmt inner hd he hf hh hz hfmt]
  rcases previewer_spec defaultBufSize (by decide) inner with ⟨p, h1, _, h3, _, _, h6, h7, _⟩ | ⟨e, _, he⟩
  · rw [h1, Res.bind_ok]
    show (dcOpen env.ov (streamOf p.reader)).bind (fun src => .ok src.toFile) = _
    have hend : inner.ending = none := by
      cases hi : inner.ending with
      | none => rfl
      | some e => exact absurd (.inr hi) (hn e)
    rw [streamOf_eq _ (fun e he => h6 hn e (.inl he)), h3, h7, hend, endItems, List.append_nil]
  · exact absurd he (hn e)

/-- The hypotheses are met: a world with one DC file in a directory. -/
def exDcWorld : World :=
  ⟨fun p => p == utf8Encode "d/x.dc".toList, fun p => p == utf8Encode "d".toList, fun p => if p = utf8Encode "d/x.dc".toList then some ⟨exDc, [.bytes 3], none⟩ else none,
   fun _ => some [some (utf8Encode "d/x.dc".toList)], fun _ => .err (.io .other), ⟨[], [], none⟩⟩

example : createFromInput (newInputs (recordsEnv []) ⟨fun r => r.inner, fun r => r.inner, fun r => r.inner, fun _ => none, fun _ => none⟩ exLib exDcWorld none [] [])
    exDcWorld ⟨.path "d/x.dc".toList, .auto⟩ = .ok ⟨⟨[['a']], [.int]⟩, ⟨[], .eof⟩⟩ := by
  rw [C66_dc_file (recordsEnv []) _ exLib exDcWorld none "d/x.dc".toList .auto ⟨exDc, [.bytes 3], none⟩ (by decide +kernel) (by decide +kernel) (by decide +kernel)
    (by decide +kernel) (by decide +kernel) (noFail_none (by simp)) (.inl ⟨"x".toList, by decide +kernel, rfl⟩)]
  decide +kernel

end Chopper.Props
