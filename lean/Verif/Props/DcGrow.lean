import Verif.Props.DcRow

/-!
# C96: DC files that grow
-/
namespace Chopper.Props
open Chopper Spec

/-- Bytes after the header always have a meaning. -/
theorem dc_meaning (h : Header) (hne : h.types ≠ []) (rest : List Byte) : ∃ (parts : List (List Byte)) (rest' : List Byte) (src : Source),
    rest = parts.flatten ++ rest' ∧ parts.length = src.rows.length ∧
      (∀ (i : Nat) p r, parts[i]? = some p → src.rows[i]? = some r → IsDcRow h.types p r) ∧ DcEnding h.types rest' src.ending := by
  obtain ⟨fin, hy, he⟩ := dc_toFile_runs ⟨ofBytes rest, h⟩
  obtain ⟨hh, parts, hs, hl, hp⟩ := (delivers_parts (src := ⟨ofBytes rest, h⟩) hne).1 (yields_delivers.1 hy)
  obtain ⟨rest', hr⟩ : ∃ rest', fin.stream = ofBytes rest' := by
    revert hs
    generalize parts.flatten = q
    intro hs
    refine ⟨rest.drop q.length, ?_⟩
    have := congrArg (List.drop q.length) hs
    simp only [ofBytes] at this ⊢
    have e : List.drop q.length (List.map Item.byte q ++ fin.stream) = fin.stream := by
      conv => lhs; rw [show q.length = (List.map Item.byte q).length by simp]
      exact List.drop_left
    rw [e] at this
    rw [← this]; simp
  refine ⟨parts, rest', (DcSource.toFile ⟨ofBytes rest, h⟩).source, ?_, hl, hp, ?_⟩
  · have h2 : ofBytes rest = ofBytes (parts.flatten ++ rest') := by rw [ofBytes_append, ← hr]; exact hs
    simp only [ofBytes] at h2
    exact (List.map_inj_right (by intro x y hxy; cases hxy; rfl)).1 h2
  · refine (ending_iff hne).2 ?_
    have hf : fin = ⟨ofBytes rest', h⟩ := by cases fin; cases hh; cases hr; rfl
    rw [← hf]; exact he

/-- **C96 (every file has a meaning).** A file is read, with some rows and some end, exactly if it begins with a header. -/
theorem C96_total (bytes : List Byte) (h : Header) : (∃ src, IsDcFile bytes h src) ↔ ∃ hdr, hdr <+: bytes ∧ IsDcHeader hdr h := by
  constructor
  · rintro ⟨src, hdr, parts, rest, rfl, hh, _⟩
    exact ⟨hdr, by simp [List.append_assoc], hh⟩
  · rintro ⟨hdr, ⟨rest, rfl⟩, hh⟩
    obtain ⟨parts, rest', src, rfl, hl, hp, he⟩ := dc_meaning h (types_of_header hh) rest
    exact ⟨src, hdr, parts, rest', by simp, hh, hl, hp, he⟩

/-- **C96 (growing).** When bytes are appended to a DC file, whatever they are, the header and the rows that were there stay. -/
theorem C96_grow (bytes more : List Byte) (h : Header) (src : Source) (hf : IsDcFile bytes h src) :
    ∃ src', IsDcFile (bytes ++ more) h src' ∧ src.rows <+: src'.rows := by
  obtain ⟨hdr, parts, rest, rfl, hh, hl, hp, he⟩ := hf
  obtain ⟨parts', rest', s', hr, hl', hp', he'⟩ := dc_meaning h (types_of_header hh) (rest ++ more)
  refine ⟨⟨src.rows ++ s'.rows, s'.ending⟩, ⟨hdr, parts ++ parts', rest', by simp [hr], hh, by simp [hl, hl'], ?_, he'⟩, by simp⟩
  intro i p r h1 h2
  by_cases hi : i < parts.length
  · rw [List.getElem?_append_left hi] at h1
    rw [List.getElem?_append_left (by omega)] at h2
    exact hp i p r h1 h2
  · rw [List.getElem?_append_right (by omega)] at h1
    rw [List.getElem?_append_right (by omega), ← hl] at h2
    exact hp' _ p r h1 h2

/-- **C96 (cut anywhere).** What is left of a DC file after its end is cut off, as long as the header is complete, is read as a beginning of its rows. -/
theorem C96_cut (bytes p : List Byte) (h h' : Header) (src src' : Source) (hf : IsDcFile bytes h src) (hp : p <+: bytes) (hc : IsDcFile p h' src') :
    h' = h ∧ src'.rows <+: src.rows := by
  obtain ⟨more, rfl⟩ := hp
  obtain ⟨s, hs, hr⟩ := C96_grow p more h' src' hc
  obtain ⟨rfl, rfl⟩ := C94_unambiguous _ _ _ _ _ hs hf
  exact ⟨rfl, hr⟩

/-- **C96 (appending rows).** Complete rows that follow complete rows are read after them, whatever comes then. -/
theorem C96_append (hdr old new : List Byte) (h : Header) (rows : List Row) (src : Source) (hh : IsDcHeader hdr h) (ho : DcRows h.types old rows)
    (hf : IsDcFile (hdr ++ new) h src) : IsDcFile (hdr ++ old ++ new) h ⟨rows ++ src.rows, src.ending⟩ := by
  obtain ⟨s, hs, he, hr⟩ := (isDcFile_iff .wraps).1 hf
  have h0 := dcOpen_iff (ov := .wraps).2 ⟨hdr, (by simp [ofBytes_append] : ofBytes (hdr ++ new) = ofBytes hdr ++ (⟨ofBytes new, h⟩ : DcSource).stream), hh⟩
  rw [hs] at h0
  cases h0
  obtain ⟨fin, hy, he⟩ := hr
  obtain ⟨parts, rfl, hl, hp⟩ := ho
  refine (isDcFile_iff .wraps).2 ⟨⟨ofBytes (parts.flatten ++ new), h⟩, dcOpen_iff.2 ⟨hdr, by simp [ofBytes_append], hh⟩, rfl, fin, ?_, he⟩
  refine yields_delivers.2 ?_
  obtain ⟨hfh, ps, e1, e2, e3⟩ := (delivers_parts (src := ⟨ofBytes new, h⟩) (types_of_header hh)).1 (yields_delivers.1 hy)
  simp only at e1 e3
  refine (delivers_parts (src := ⟨ofBytes (parts.flatten ++ new), h⟩) (types_of_header hh)).2 ⟨hfh, parts ++ ps, ?_, by simp [hl, e2], ?_⟩
  · simp only [ofBytes_append, e1, List.flatten_append, List.append_assoc]
  · intro i p r h1 h2
    by_cases hi : i < parts.length
    · rw [List.getElem?_append_left hi] at h1
      rw [List.getElem?_append_left (by omega)] at h2
      exact hp i p r h1 h2
    · rw [List.getElem?_append_right (by omega)] at h1
      rw [List.getElem?_append_right (by omega), ← hl] at h2
      exact e3 _ p r h1 h2

/-- **C96 (stuck).** After a row that crashes the reader, or one with a value of an unsupported type, whatever is appended is never read. -/
theorem C96_stuck (bytes more : List Byte) (h : Header) (src : Source) (hf : IsDcFile bytes h src)
    (he : src.ending = .crash ∨ ∃ msg, src.ending = .fail (.custom msg)) : IsDcFile (bytes ++ more) h src := by
  obtain ⟨hdr, parts, rest, rfl, hh, hl, hp, hend⟩ := hf
  refine ⟨hdr, parts, rest ++ more, by simp, hh, hl, hp, ?_⟩
  obtain ⟨rows, e⟩ := src
  simp only at he hend ⊢
  cases hend with
  | eof _ => simp at he
  | crash hc hr => exact .crash (hc.trans (List.prefix_append _ _)) hr
  | unsupported hc hr hm => exact .unsupported (hc.trans (List.prefix_append _ _)) hr hm
  | cut _ _ => simp at he

/-- **C96 (how a cut file ends).** If a DC file ends well, so does what is left of it after a cut, or there is an unexpected end of file: a cut neither crashes the
reader nor gives another error. -/
theorem C96_cut_ending (bytes p : List Byte) (h h' : Header) (src src' : Source) (hf : IsDcFile bytes h src) (hp : p <+: bytes) (hc : IsDcFile p h' src')
    (he : src.ending = .eof) : src'.ending = .eof ∨ src'.ending = .fail (.io .unexpectedEof) := by
  obtain ⟨more, rfl⟩ := hp
  have key : ¬ (src'.ending = .crash ∨ ∃ msg, src'.ending = .fail (.custom msg)) := by
    intro hx
    obtain ⟨_, rfl⟩ := C94_unambiguous _ _ _ _ _ (C96_stuck p more h' src' hc hx) hf
    rw [he] at hx
    simp at hx
  obtain ⟨hdr, parts, rest, rfl, hh, hl, hp, hend⟩ := hc
  obtain ⟨rows, e⟩ := src'
  simp only at key hend ⊢
  cases hend with
  | eof _ => exact .inl rfl
  | crash hc hr => simp at key
  | unsupported hc hr hm => simp at key
  | cut _ _ => exact .inr rfl

/-- **C96 (files).** The same of files that are opened by name: what is read of the shorter file is a beginning of what is read of the longer one. -/
theorem C96_file (env : CsvEnv) (dec : Decoders) (zip : ZipLib) (w w' : World) (csv : Option (CsvInputConfig env.lib)) (s : Str) (fmt : InputFormat) (inner inner' : Inner)
    (hd : w.isDir (utf8Encode s) = false) (he : w.pathExists (utf8Encode s) = true) (hf : w.file (utf8Encode s) = some inner)
    (hd' : w'.isDir (utf8Encode s) = false) (he' : w'.pathExists (utf8Encode s) = true) (hf' : w'.file (utf8Encode s) = some inner')
    (hh : ¬ HttpAddress s) (hn : NoFail inner) (hn' : NoFail inner')
    (hfmt : (∃ base, lastComponent s = some (base ++ ".dc".toList) ∧ fmt = .auto) ∨ fmt = .extension "dc".toList ∨ fmt = .extension ".dc".toList)
    (hp : inner.data <+: inner'.data) (h : Header) (src : Source)
    (ho : createFromInput (newInputs env dec zip w csv [] []) w ⟨.path s, fmt⟩ = .ok ⟨h, src⟩) (hz : ¬ [0x50, 0x4b, 3, 4] <+: inner.data) :
    ∃ src', createFromInput (newInputs env dec zip w' csv [] []) w' ⟨.path s, fmt⟩ = .ok ⟨h, src'⟩ ∧ src.rows <+: src'.rows ∧
      ((src.ending = .crash ∨ ∃ msg, src.ending = .fail (.custom msg)) → src' = src) := by
  have hfile := (C94_file env dec zip w csv s fmt inner hd he hf hh hz hn hfmt h src).1 ho
  obtain ⟨more, hm⟩ := hp
  have hz' : ¬ [0x50, 0x4b, 3, 4] <+: inner'.data := by
    obtain ⟨hdr, parts, rest, hb, ⟨user, cols, _, _, _, _, hx, _⟩, _⟩ := hfile
    rw [← hm, hb, hx]
    simp
  obtain ⟨src', h1, h2⟩ := C96_grow _ more h src hfile
  refine ⟨src', (C94_file env dec zip w' csv s fmt inner' hd' he' hf' hh hz' hn' hfmt h src').2 (hm ▸ h1), h2, fun hx => ?_⟩
  exact (C94_unambiguous _ _ _ _ _ h1 (C96_stuck _ more h src hfile hx)).2

/-! ### The hypotheses are met -/

/-- The header alone is a file without rows, and the rows of the example of C94 can be appended to it one at a time. -/
theorem C96_example_empty : IsDcFile exTwoColumns ⟨[['a'], "col_1".toList], [.int, .string]⟩ ⟨[], .eof⟩ :=
  ⟨exTwoColumns, [], [], by simp, two_columns_header, rfl, by simp, .eof (by decide)⟩

/-- The example of C94 cut after nine bytes of its second row: the first row is there, and then an unexpected end. -/
example : ∃ src, IsDcFile ((exTwoColumns ++ exRow1 ++ exRow2 ++ [1, 2, 3]).take ((exTwoColumns ++ exRow1).length + 9)) ⟨[['a'], "col_1".toList], [.int, .string]⟩ src ∧
    src.rows <+: [⟨7, [.int 258, .string "hi".toList]⟩, ⟨9, [.none, .string "!".toList]⟩] ∧ (src.ending = .eof ∨ src.ending = .fail (.io .unexpectedEof)) := by
  obtain ⟨src, hs⟩ := (C96_total ((exTwoColumns ++ exRow1 ++ exRow2 ++ [1, 2, 3]).take ((exTwoColumns ++ exRow1).length + 9)) _).2
    ⟨exTwoColumns, by decide +kernel, two_columns_header⟩
  have hp := List.take_prefix ((exTwoColumns ++ exRow1).length + 9) (exTwoColumns ++ exRow1 ++ exRow2 ++ [1, 2, 3])
  exact ⟨src, hs, (C96_cut _ _ _ _ _ _ C94_example hp hs).2, C96_cut_ending _ _ _ _ _ _ C94_example hp hs rfl⟩

/-- Two rows of the form of the first, appended to the header. -/
example (old : List Byte) (rows : List Row) (ho : DcRows [.int, .string] old rows) :
    IsDcFile (exTwoColumns ++ old ++ (exRow1 ++ exRow2 ++ [1, 2, 3])) ⟨[['a'], "col_1".toList], [.int, .string]⟩
      ⟨rows ++ [⟨7, [.int 258, .string "hi".toList]⟩, ⟨9, [.none, .string "!".toList]⟩], .eof⟩ :=
  C96_append exTwoColumns old (exRow1 ++ exRow2 ++ [1, 2, 3]) _ rows _ two_columns_header ho (by simpa using C94_example)

/-- Nothing that follows the text that is not UTF-8 is read. -/
example (more : List Byte) : IsDcFile (exBadText ++ more) ⟨[['a']], [.string]⟩ ⟨[], .crash⟩ := C96_stuck _ more _ _ C94_example_crash (.inl rfl)

end Chopper.Props
