import Verif.Proofs.DcRow3
import Verif.Props.Input2

/-!
# What DC files mean, byte by byte: C93 and C94
-/
namespace Chopper.Props
open Chopper Spec

/-! ### C93: no DC file crashes the reader -/

/-- The English claim C93: opening a DC file and asking for its rows ends with an answer or an error, whatever bytes it has. -/
def C93_full : Prop := ∀ (ov : Overflow) (s : Stream), dcOpen ov s ≠ .panic ∧
  ∀ (src fin : DcSource) (rows : List Row), dcOpen ov s = .ok src → Delivers src rows fin → fin.nextRow.1 ≠ .panic

/-- **C93 (exactly, opening).** Opening crashes exactly on the bytes described by `CrashHeader`, whatever follows them (even a failure of the medium). -/
theorem C93_open (ov : Overflow) (s : Stream) : dcOpen ov s = .panic ↔ ∃ c t, s = ofBytes c ++ t ∧ CrashHeader c := dcOpen_panic

/-- Opening always ends. -/
theorem C93_open_ends (ov : Overflow) (s : Stream) : dcOpen ov s ≠ .diverge := dcOpen_ends ov s

theorem delivers_header {src fin : DcSource} {rows : List Row} (h : Delivers src rows fin) : fin.header = src.header := by
  induction h with
  | nil _ => rfl
  | cons h1 _ ih =>
    rw [ih]
    unfold DcSource.nextRow at h1
    split at h1 <;> try cases h1
    split at h1 <;> cases h1
    rfl

theorem opened_types {ov : Overflow} {s : Stream} {src : DcSource} (ho : dcOpen ov s = .ok src) : src.header.types ≠ [] := by
  obtain ⟨_, _, h⟩ := dcOpen_iff.1 ho
  exact types_of_header h

/-- **C93 (exactly, rows).** After any rows of an open file, asking for the next row crashes exactly if the bytes that follow are a row up to a text that is
not UTF-8, and all of that text is there. -/
theorem C93_row (ov : Overflow) (s : Stream) (src fin : DcSource) (rows : List Row) (ho : dcOpen ov s = .ok src) (hd : Delivers src rows fin) :
    fin.nextRow.1 = .panic ↔ ∃ c t, fin.stream = ofBytes c ++ t ∧ CrashRow src.header.types c := by
  have hh := delivers_header hd
  rw [nextRow_panic (by rw [hh]; exact opened_types ho), hh]

/-- Asking for a row always ends. -/
theorem C93_row_ends (ov : Overflow) (s : Stream) (src fin : DcSource) (rows : List Row) (ho : dcOpen ov s = .ok src) (hd : Delivers src rows fin) :
    fin.nextRow.1 ≠ .diverge := nextRow_ends fin (by rw [delivers_header hd]; exact opened_types ho)

/-- **C93 (partial).** Without text columns no row crashes the reader.  Missing: text columns (`C93_counterexample_row`) and damaged headers
(`C93_counterexample`). -/
theorem C93_rows_partial (ov : Overflow) (s : Stream) (src fin : DcSource) (rows : List Row) (ho : dcOpen ov s = .ok src) (hd : Delivers src rows fin)
    (ht : FieldType.string ∉ src.header.types) : fin.nextRow.1 ≠ .panic := by
  intro h
  obtain ⟨c, t, _, _, _, _, _, _, _, _, _, _, _, hi, _⟩ := (C93_row ov s src fin rows ho hd).1 h
  exact ht (List.mem_of_getElem? hi)

/-- **C93 (partial).** A valid header that is cut short, by the end of the file or a failure of the medium, does not crash the reader. -/
theorem C93_cut_partial (ov : Overflow) (c p : List Byte) (h : Header) (tl : Stream) (k : IoKind) (hc : IsDcHeader c h) (hp : p <+: c) (ht : StopsWith tl k) :
    dcOpen ov (ofBytes p ++ tl) ≠ .panic := by
  intro hx
  obtain ⟨c', t, hs, hcr⟩ := (C93_open ov _).1 hx
  obtain ⟨d, rfl⟩ := (prefix_stops hs.symm ht).trans hp
  have h1 : dcOpen ov (ofBytes (c' ++ d)) = .panic := (C93_open ov _).2 ⟨c', ofBytes d, ofBytes_append _ _, hcr⟩
  rw [(dcOpen_iff (src := ⟨[], h⟩)).2 ⟨c' ++ d, by simp, hc⟩] at h1
  cases h1

/-- A header with no columns. -/
def exNoColumns : List Byte := dcStart ++ [0, 0, 0, 0] ++ [0, 0, 0, 0]

/-- **C93 is false**: a DC file with no columns crashes the reader. -/
theorem C93_counterexample : ¬ C93_full := fun h => (h .wraps (ofBytes exNoColumns)).1
  ((C93_open _ _).2 ⟨exNoColumns, [], by simp, [], 0, [], by decide, by decide, by decide +kernel, .inl ⟨rfl, rfl⟩⟩)

/-- A DC file with one text column `a` and a row of which the text is the byte FF. -/
def exBadText : List Byte := dcStart ++ [0, 0, 0, 0] ++ [0, 0, 0, 1] ++ [0, 0, 0, 1, 97] ++ [0, 0, 0, 18] ++ utf8Encode "Ljava.lang.String;".toList ++ [0, 0, 0, 0] ++
  [0, 0, 0, 0, 0, 0, 0, 7, 0, 0, 1, 0xFF]

theorem ff_notUtf8 : NotUtf8 [0xFF] := by
  intro s hs
  have := utf8Decode_encode s
  rw [← hs] at this
  exact absurd this (by rw [show utf8Decode [0xFF] = none from by decide +kernel]; simp)

/-- **C93 is false** of rows: a text that is not UTF-8 crashes the reader. -/
theorem C93_counterexample_row : ∃ (src fin : DcSource) (rows : List Row), dcOpen .wraps (ofBytes exBadText) = .ok src ∧ Delivers src rows fin ∧ fin.nextRow.1 = .panic := by
  have ho : dcOpen .wraps (ofBytes exBadText) = .ok ⟨ofBytes [0, 0, 0, 0, 0, 0, 0, 7, 0, 0, 1, 0xFF], ⟨[['a']], [.string]⟩⟩ := by decide +kernel
  refine ⟨_, _, [], ho, .nil _, ?_⟩
  rw [C93_row _ _ _ _ _ ho (.nil _)]
  refine ⟨_, [], (List.append_nil _).symm, 7, [0], 0, [], [], [0, 1, 0xFF], [0xFF], by decide, rfl, ⟨rfl, rfl, by simp⟩, rfl, by decide +kernel, ?_, ff_notUtf8, by decide +kernel⟩
  exact StoredText.short (bs := [0xFF]) (by decide)

/-! ### C94: DC files mean exactly what the format says -/

/-- **C94 (rows).** A row is delivered exactly if the next bytes are a complete row with these values, and exactly these bytes are consumed. -/
theorem C94_row (ov : Overflow) (s : Stream) (src fin : DcSource) (rows : List Row) (ho : dcOpen ov s = .ok src) (hd : Delivers src rows fin) (r : Row) (fin' : DcSource) :
    fin.nextRow = (.ok (some r), fin') ↔ fin'.header = src.header ∧ ∃ c, fin.stream = ofBytes c ++ fin'.stream ∧ IsDcRow src.header.types c r := by
  have hh := delivers_header hd
  rw [nextRow_iff (by rw [hh]; exact opened_types ho), hh]

/-- **C94 (end of data).** The end of the data is reported exactly if fewer than eight bytes are left before the file ends or the medium fails. -/
theorem C94_end (src : DcSource) : src.nextRow.1 = .ok none ↔ ∃ p tl k, src.stream = ofBytes p ++ tl ∧ StopsWith tl k ∧ p.length < 8 := nextRow_none

/-- **C94 (errors).** An error is reported exactly if the next bytes are a row up to a value of a type that is not supported, or the file ends or the medium fails after
at least eight bytes of a row, before the row is complete. -/
theorem C94_error (ov : Overflow) (s : Stream) (src fin : DcSource) (rows : List Row) (ho : dcOpen ov s = .ok src) (hd : Delivers src rows fin) (e : Err) :
    fin.nextRow.1 = .err e ↔
      (∃ c t ty, fin.stream = ofBytes c ++ t ∧ UnsupportedRow src.header.types c ty ∧
        e = .custom ("DCReader -- " ++ (if ty = .boolean then "boolean" else "ByteBuffer") ++ " field type is not supported")) ∨
      (∃ p tl k, fin.stream = ofBytes p ++ tl ∧ StopsWith tl k ∧ 8 ≤ p.length ∧ RowUnfinished src.header.types p ∧ e = .io k) := by
  have hh := delivers_header hd
  rw [nextRow_err (by rw [hh]; exact opened_types ho), hh]
  refine or_congr ⟨?_, ?_⟩ Iff.rfl
  · rintro ⟨c, t, ty, h1, h2, h3⟩
    exact ⟨c, t, ty, h1, h2, by rw [h3, unsupported_text (unsupported_type h2)]⟩
  · rintro ⟨c, t, ty, h1, h2, h3⟩
    exact ⟨c, t, ty, h1, h2, by rw [h3, unsupported_text (unsupported_type h2)]⟩

/-- **C94 (opening).** A file is opened exactly if it begins with a header. -/
theorem C94_open (ov : Overflow) (s : Stream) (src : DcSource) : dcOpen ov s = .ok src ↔ ∃ c, s = ofBytes c ++ src.stream ∧ IsDcHeader c src.header := dcOpen_iff

/-- **C94 (opening fails).** Opening fails exactly for a wrong magic number, a wrong version, a display hint outside -1..6, or a file that ends (or a medium that fails)
within the header. -/
theorem C94_open_error (ov : Overflow) (s : Stream) (e : Err) : dcOpen ov s = .err e ↔
    (∃ c t msg, s = ofBytes c ++ t ∧ RejectedHeader c msg ∧ e = .custom msg) ∨
    (∃ p tl k, s = ofBytes p ++ tl ∧ StopsWith tl k ∧ HeaderUnfinished p ∧ e = .io k) := dcOpen_err

/-- **C94 (files).** Opening a DC file by its name, or as format "dc", gives exactly the header, rows and end that the bytes have by the format. -/
theorem C94_file (env : CsvEnv) (dec : Decoders) (zip : ZipLib) (w : World) (csv : Option (CsvInputConfig env.lib)) (s : Str) (fmt : InputFormat) (inner : Inner)
    (hd : w.isDir (utf8Encode s) = false) (he : w.pathExists (utf8Encode s) = true) (hf : w.file (utf8Encode s) = some inner)
    (hh : ¬ HttpAddress s) (hz : ¬ [0x50, 0x4b, 3, 4] <+: inner.data) (hn : NoFail inner)
    (hfmt : (∃ base, lastComponent s = some (base ++ ".dc".toList) ∧ fmt = .auto) ∨ fmt = .extension "dc".toList ∨ fmt = .extension ".dc".toList)
    (h : Header) (src : Source) :
    createFromInput (newInputs env dec zip w csv [] []) w ⟨.path s, fmt⟩ = .ok ⟨h, src⟩ ↔ IsDcFile inner.data h src := by
  rw [C66_dc_file env dec zip w csv s fmt inner hd he hf hh hz hn hfmt, isDcFile_iff env.ov]
  constructor
  · intro hb
    cases ho : dcOpen env.ov (ofBytes inner.data) with
    | ok d =>
      rw [ho] at hb
      simp only [Res.bind, Res.ok.injEq] at hb
      have hr := dc_toFile_runs d
      rw [hb] at hr
      exact ⟨d, rfl, congrArg FileSource.header hb, hr⟩
    | err e => rw [ho] at hb; cases hb
    | panic => rw [ho] at hb; cases hb
    | diverge => rw [ho] at hb; cases hb
  · rintro ⟨d, ho, rfl, hr⟩
    rw [ho]
    simp only [Res.bind, Res.ok.injEq]
    have := runsAs_unique (dc_toFile_runs d) hr
    show (⟨d.header, d.toFile.source⟩ : FileSource) = _
    rw [this]

/-- The bytes of a DC file have one meaning at most. -/
theorem C94_unambiguous (bytes : List Byte) (h h' : Header) (src src' : Source) (a : IsDcFile bytes h src) (b : IsDcFile bytes h' src') : h = h' ∧ src = src' := by
  obtain ⟨d, ho, rfl, hr⟩ := (isDcFile_iff .wraps).1 a
  obtain ⟨d', ho', rfl, hr'⟩ := (isDcFile_iff .wraps).1 b
  rw [ho] at ho'
  cases ho'
  exact ⟨rfl, runsAs_unique hr hr'⟩

/-! A DC file with a number and a text column, two rows (the second with a null), and three stray bytes at the end. -/
def exTwoColumns : List Byte := dcStart ++ [0, 0, 0, 0] ++ [0, 0, 0, 2] ++ ([0, 0, 0, 1, 97] ++ [0, 0, 0, 1, 73] ++ [0, 0, 0, 0]) ++
  ([0, 0, 0, 0] ++ [0, 0, 0, 18] ++ utf8Encode "Ljava.lang.String;".toList ++ [0, 0, 0, 0])
def exRow1 : List Byte := [0, 0, 0, 0, 0, 0, 0, 7, 0, 0, 0, 1, 2, 0, 2, 104, 105]
def exRow2 : List Byte := [0, 0, 0, 0, 0, 0, 0, 9, 1, 0xFF, 0xFF, 0, 0, 0, 1, 33]

theorem two_columns_header : IsDcHeader exTwoColumns ⟨[['a'], "col_1".toList], [.int, .string]⟩ :=
  ⟨[], [⟨['a'], .int, "I", 0⟩, ⟨[], .string, "Ljava.lang.String;", 0⟩], by decide, by decide, by decide,
    by
      intro c hc
      simp only [List.mem_cons, List.not_mem_nil, or_false] at hc
      rcases hc with rfl | rfl
      · exact ⟨.int, by decide +kernel, by decide, by decide⟩
      · exact ⟨.string, by decide +kernel, by decide, by decide⟩, by decide +kernel, rfl, by decide +kernel⟩

/-- The hypotheses of `C94_file` are met and its right-hand side holds of a file with both forms of text, a null and stray bytes. -/
theorem C94_example : IsDcFile (exTwoColumns ++ exRow1 ++ exRow2 ++ [1, 2, 3]) ⟨[['a'], "col_1".toList], [.int, .string]⟩
    ⟨[⟨7, [.int 258, .string "hi".toList]⟩, ⟨9, [.none, .string "!".toList]⟩], .eof⟩ := by
  refine ⟨exTwoColumns, [exRow1, exRow2], [1, 2, 3], by simp, two_columns_header, rfl, ?_, .eof (by decide)⟩
  intro i p r hp hr
  match i with
  | 0 =>
    cases hp; cases hr
    refine ⟨[0], [[0, 0, 1, 2], [0, 2, 104, 105]], rfl, ⟨rfl, rfl, ?_⟩, by decide +kernel⟩
    intro j t q v ht hq hv
    match j with
    | 0 =>
      cases ht; cases hq; cases hv
      rw [if_neg (by decide +kernel)]
      exact StoredValue.int 258
    | 1 =>
      cases ht; cases hq; cases hv
      rw [if_neg (by decide +kernel)]
      exact .string (.short (bs := utf8Encode "hi".toList) (by decide +kernel))
    | _ + 2 => cases ht
  | 1 =>
    cases hp; cases hr
    refine ⟨[1], [[], [0xFF, 0xFF, 0, 0, 0, 1, 33]], rfl, ⟨rfl, rfl, ?_⟩, by decide +kernel⟩
    intro j t q v ht hq hv
    match j with
    | 0 =>
      cases ht; cases hq; cases hv
      rw [if_pos (by decide +kernel)]
      exact ⟨rfl, rfl⟩
    | 1 =>
      cases ht; cases hq; cases hv
      rw [if_neg (by decide +kernel)]
      exact .string (.long (bs := utf8Encode "!".toList) (by decide +kernel))
    | _ + 2 => cases ht
  | _ + 2 => cases hp

/-- The reader crashes at the end of the other example. -/
theorem C94_example_crash : IsDcFile exBadText ⟨[['a']], [.string]⟩ ⟨[], .crash⟩ := by
  refine ⟨exBadText.take (exBadText.length - 12), [], exBadText.drop (exBadText.length - 12), by simp, ?_, rfl, by simp, ?_⟩
  · exact ⟨[], [⟨['a'], .string, "Ljava.lang.String;", 0⟩], by decide, by decide, by decide,
      by intro c hc; simp at hc; subst hc; exact ⟨.string, by decide +kernel, by decide, by decide⟩, by decide +kernel, rfl, by decide +kernel⟩
  · refine .crash (List.prefix_refl _) ⟨7, [0], 0, [], [], [0, 1, 0xFF], [0xFF], by decide, rfl, ⟨rfl, rfl, by simp⟩, rfl, by decide +kernel, ?_, ff_notUtf8, by decide +kernel⟩
    exact StoredText.short (bs := [0xFF]) (by decide)

/-- A world with the first example as `d/x.dc`. -/
def exTwoWorld : World := { exDcWorld with
  file := fun p => if p = utf8Encode "d/x.dc".toList then some ⟨exTwoColumns ++ exRow1 ++ exRow2 ++ [1, 2, 3], [.bytes 3], none⟩ else none }

example : createFromInput (newInputs (recordsEnv []) ⟨fun r => r.inner, fun r => r.inner, fun r => r.inner, fun _ => none, fun _ => none⟩ exLib exTwoWorld none [] [])
    exTwoWorld ⟨.path "d/x.dc".toList, .auto⟩ = .ok ⟨⟨[['a'], "col_1".toList], [.int, .string]⟩,
      ⟨[⟨7, [.int 258, .string "hi".toList]⟩, ⟨9, [.none, .string "!".toList]⟩], .eof⟩⟩ :=
  (C94_file (recordsEnv []) _ exLib exTwoWorld none "d/x.dc".toList .auto ⟨exTwoColumns ++ exRow1 ++ exRow2 ++ [1, 2, 3], [.bytes 3], none⟩ (by decide +kernel)
    (by decide +kernel) (by decide +kernel) (by decide +kernel) (by decide +kernel) (noFail_none (by simp)) (.inl ⟨"x".toList, by decide +kernel, rfl⟩) _ _).2 C94_example

/-- Rejected headers exist: a wrong version; and a hint of 9. -/
example : dcOpen .wraps (ofBytes [0, 0, 0, 0, 0x44, 0x43, 0x41, 0x54, 0, 3, 1]) = .err (.custom "DCReader -- wrong version") :=
  (C94_open_error _ _ _).2 (.inl ⟨[0, 0, 0, 0, 0x44, 0x43, 0x41, 0x54] ++ [0, 3], ofBytes [1], _, rfl, .version rfl (by decide), rfl⟩)

/-- The first twenty bytes of a header. -/
example : dcOpen .panics (ofBytes (exTwoColumns.take 20) ++ []) ≠ .panic :=
  C93_cut_partial .panics exTwoColumns _ _ [] .unexpectedEof two_columns_header (List.take_prefix _ _) .ends

end Chopper.Props
