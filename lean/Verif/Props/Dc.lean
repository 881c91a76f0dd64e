import Verif.Proofs.Dc5

/-!
# Properties of the DC format: C36, C37, C38, C39, C40, C41
-/
namespace Chopper.Props
open Chopper Spec

/-! ### C36: round trip -/

/-- The English claim C36, for every number of columns. -/
def C36_full : Prop := ∀ (ov ov' : Overflow) (h : Header) (rows : List Row), h.names.length = h.types.length → 1 ≤ h.types.length →
  h.types.length < 2 ^ 32 → (∀ t ∈ h.types, t ≠ .boolean ∧ t ≠ .byteBuf) → (∀ n ∈ h.names, (utf8Encode n).length < 2 ^ 32) →
  (∀ r ∈ rows, RowFits h.types r) →
    (dcWriteFile ov h rows).res = .ok () ∧
    ∃ src fin, dcOpen ov' (ofBytes (dcWriteFile ov h rows).out) = .ok src ∧
      src.header.types = h.types ∧ src.header.names = h.names.mapIdx columnName ∧
      Delivers src rows fin ∧ fin.nextRow.1 = .ok none

/-- **C36 (partial).** A file written by the sink reads back as the same header (unnamed columns named `col_i`) and exactly the same rows,
then end of data; every build can read what every build wrote.  Missing: numbers of columns that are 1 modulo 8 (and 0), for which the claim
is false, see `C36_nine_columns_never` and `C36_one_column_never`; names and strings of 4 GiB and more. -/
theorem C36_roundtrip_partial (ov ov' : Overflow) (h : Header) (rows : List Row)
    (hl : h.names.length = h.types.length) (hn : 2 ≤ h.types.length) (h8 : h.types.length % 8 ≠ 1) (hn2 : h.types.length < 2 ^ 32)
    (ht : ∀ t ∈ h.types, t ≠ .boolean ∧ t ≠ .byteBuf) (hnm : ∀ n ∈ h.names, (utf8Encode n).length < 2 ^ 32)
    (hf : ∀ r ∈ rows, RowFits h.types r) :
    (dcWriteFile ov h rows).res = .ok () ∧
    ∃ src fin, dcOpen ov' (ofBytes (dcWriteFile ov h rows).out) = .ok src ∧
      src.header.types = h.types ∧ src.header.names = h.names.mapIdx columnName ∧
      Delivers src rows fin ∧ fin.nextRow.1 = .ok none := by
  obtain ⟨h1, h2⟩ := roundtrip ov ov' hl hn h8 hn2 ht hnm hf
  obtain ⟨src, fin, h3, h4, h5, rfl⟩ := h2 []
  rw [List.append_nil] at h3
  exact ⟨h1, src, _, h3, by rw [h4], by rw [h4], h5, by rw [show ([] : Stream) = ofBytes [] from rfl, (nextRow_short [] (by decide) _).1]⟩

/-- Names are kept if they are not empty. -/
theorem C36_names_kept (names : List Str) (h : ∀ n ∈ names, n ≠ []) : names.mapIdx columnName = names := by
  apply List.ext_getElem? 
  intro i
  rw [List.getElem?_mapIdx]
  cases hi : names[i]? with
  | none => rfl
  | some n => simp [columnName, h n (List.mem_of_getElem? hi)]

/-- **C36 is false** for 9, 17, 25, ... columns: whatever rows are written (at least one; strings below 2 GiB), if writing succeeds then reading
the file back does not deliver these rows. -/
theorem C36_nine_columns_never (ov ov' : Overflow) (h : Header) (rows : List Row)
    (hl : h.names.length = h.types.length) (hn : 2 ≤ h.types.length) (h8 : h.types.length % 8 = 1) (hn2 : h.types.length < 2 ^ 32)
    (ht : ∀ t ∈ h.types, t ≠ .boolean ∧ t ≠ .byteBuf) (hnm : ∀ n ∈ h.names, (utf8Encode n).length < 2 ^ 32)
    (hne : rows ≠ []) (hf : ∀ r ∈ rows, RowFits h.types r) (hs : ∀ r ∈ rows, ∀ s, .string s ∈ r.values → (utf8Encode s).length < 2 ^ 31)
    (hok : (dcWriteFile ov h rows).res = .ok ()) (src fin : DcSource)
    (ho : dcOpen ov' (ofBytes (dcWriteFile ov h rows).out) = .ok src) : ¬ Delivers src rows fin := by
  refine no_roundtrip ov ov' hl hn h8 hn2 ht hnm hne hf ?_ hok src fin ho
  intro r hr v hv
  cases v <;> first | exact trivial | exact hs r hr _ hv

/-- **C36 is false** for a single column: writing a row never succeeds. -/
theorem C36_one_column_never (ov : Overflow) (h : Header) (rows : List Row) (hl : h.names.length = h.types.length) (hn : h.types.length = 1)
    (ht : ∀ t ∈ h.types, t ≠ .boolean ∧ t ≠ .byteBuf) (hne : rows ≠ []) : (dcWriteFile ov h rows).res = .panic :=
  one_column ov hl hn ht hne

theorem C36_refuted : ¬ C36_full := fun h => by
  have h1 := (h .panics .panics ⟨[['x']], [.byte]⟩ [⟨1, [.none]⟩] rfl (by decide) (by decide) (by decide) (by decide) (by
    intro r hr
    simp only [List.mem_cons, List.not_mem_nil, or_false] at hr
    subst hr
    refine ⟨rfl, ?_⟩
    intro i t v h1 h2
    match i with
    | 0 => cases h1; cases h2; trivial
    | i + 1 => simp at h1)).1
  rw [C36_one_column_never .panics ⟨[['x']], [.byte]⟩ _ rfl rfl (by decide) (by simp)] at h1
  cases h1

/-- Unsupported column types are rejected when the header is written. -/
theorem C36_unsupported_rejected (ov : Overflow) (h : Header) (rows : List Row) (hl : h.names.length = h.types.length)
    (t : FieldType) (ht : t ∈ h.types) (hu : t = .boolean ∨ t = .byteBuf) : ∃ e, (dcWriteFile ov h rows).res = .err e := by
  have key : ∀ (l : List (Str × FieldType)), (∃ p ∈ l, p.2 = t) → ∃ e, (writeDescriptors l).res = .err e := by
    intro l
    induction l with
    | nil => rintro ⟨p, hp, _⟩; simp at hp
    | cons p l ih =>
      rintro ⟨q, hq, hqt⟩
      obtain ⟨n, t'⟩ := p
      rw [writeDescriptors]
      by_cases ht' : t' = .boolean ∨ t' = .byteBuf
      · rcases ht' with rfl | rfl
        · exact ⟨_, rfl⟩
        · exact ⟨_, rfl⟩
      · have hw : writeFieldType t' = Wr.put (sizedString (typeString t')) := by
          cases t' <;> first | rfl | exact absurd (.inl rfl) ht' | exact absurd (.inr rfl) ht'
        have hq' : q ∈ l := by
          rcases List.mem_cons.1 hq with rfl | hq
          · simp only at hqt
            rw [hqt] at ht'
            exact absurd hu ht'
          · exact hq
        obtain ⟨e, he⟩ := ih ⟨q, hq', hqt⟩
        rw [hw]
        simp only [Wr.bind, Wr.put, he]
        exact ⟨e, rfl⟩
  obtain ⟨i, hi, rfl⟩ := List.getElem_of_mem ht
  obtain ⟨e, he⟩ := key (h.names.zip h.types) ⟨(h.names[i], h.types[i]), by
    rw [List.mem_iff_getElem]
    exact ⟨i, by simp; omega, by simp⟩, rfl⟩
  refine ⟨e, ?_⟩
  have hw : (writeHeader h).res = .err e := by
    unfold writeHeader
    rw [if_neg (by simpa using hl)]
    simp only [Wr.bind, Wr.put, he]
  simp only [dcWriteFile, dcProcessHeader, Wr.bind, hw]

section Examples
/-- Two columns, one unnamed; a null, a number and a string. -/
private def exHeader : Header := ⟨["a".toList, []], [.int, .string]⟩
private def exRows : List Row := [⟨7, [.none, .string "hé".toList]⟩, ⟨9, [.int 5, .none]⟩]

example : (dcWriteFile .panics exHeader exRows).res = .ok () ∧ ∃ src fin,
    dcOpen .wraps (ofBytes (dcWriteFile .panics exHeader exRows).out) = .ok src ∧
      src.header.types = exHeader.types ∧ src.header.names = exHeader.names.mapIdx columnName ∧
      Delivers src exRows fin ∧ fin.nextRow.1 = .ok none := by
  refine C36_roundtrip_partial .panics .wraps exHeader exRows (by decide) (by decide) (by decide) (by decide) (by decide) ?_ ?_
  · intro n hn
    have : n = "a".toList ∨ n = [] := by simpa [exHeader] using hn
    rcases this with rfl | rfl <;> decide
  · intro r hr
    have : r = ⟨7, [.none, .string "hé".toList]⟩ ∨ r = ⟨9, [.int 5, .none]⟩ := by simpa [exRows] using hr
    rcases this with rfl | rfl
    · refine ⟨rfl, ?_⟩
      intro i t v h1 h2
      match i with
      | 0 => cases h1; cases h2; trivial
      | 1 => cases h1; cases h2; show (utf8Encode _).length < 2 ^ 32; decide
      | i + 2 => simp [exHeader] at h1
    · refine ⟨rfl, ?_⟩
      intro i t v h1 h2
      match i with
      | 0 => cases h1; cases h2; trivial
      | 1 => cases h1; cases h2; trivial
      | i + 2 => simp [exHeader] at h1

/-- Nine columns of bytes and what is read back instead of the row that was written. -/
private def nine : Header := ⟨List.replicate 9 "x".toList, List.replicate 9 .byte⟩
private def nineRow : Row := ⟨1, List.replicate 9 (.byte 0)⟩
example : (dcWriteFile .panics nine [nineRow]).res = .ok () ∧
    ∃ src, dcOpen .panics (ofBytes (dcWriteFile .panics nine [nineRow]).out) = .ok src ∧
      src.nextRow.1 = .err (.io .unexpectedEof) := by
  refine ⟨by decide +kernel, ?_⟩
  rcases h : dcOpen .panics (ofBytes (dcWriteFile .panics nine [nineRow]).out) with src | _ | _ | _
  · refine ⟨src, rfl, ?_⟩
    have : (match dcOpen .panics (ofBytes (dcWriteFile .panics nine [nineRow]).out) with
      | .ok src => decide (src.nextRow.1 = .err (.io .unexpectedEof)) | _ => false) = true := by decide +kernel
    rw [h] at this
    simpa using this
  all_goals
    have : (dcOpen .panics (ofBytes (dcWriteFile .panics nine [nineRow]).out)).isOk = true := by decide +kernel
    rw [h] at this
    simp [Res.isOk] at this
end Examples

/-! ### C37: strings -/

/-- **C37.** Any string below 4 GiB is read back unchanged from what was written for it, whatever follows (more data, the end, a failure), and
exactly the written bytes are used. -/
theorem C37_string_roundtrip (s : Str) (h : (utf8Encode s).length < 2 ^ 32) (t : Stream) :
    readString (ofBytes (stringValue s) ++ t) = (.ok s, t) := (uses_readString h).here t

/-- The two forms: 16-bit length up to 32767 bytes, else a marker and a 32-bit length. -/
theorem C37_forms (s : Str) :
    ((utf8Encode s).length ≤ 32767 → stringValue s = bigEndian 2 (utf8Encode s).length ++ utf8Encode s) ∧
    (32767 < (utf8Encode s).length → stringValue s = [0xFF, 0xFF] ++ bigEndian 4 (utf8Encode s).length ++ utf8Encode s) := by
  constructor
  · intro h
    unfold stringValue
    rw [if_pos (by show (utf8Encode s).length ≤ 2 ^ 15 - 1; omega), beBytes_eq]; rfl
  · intro h
    unfold stringValue
    rw [if_neg (by show ¬ (utf8Encode s).length ≤ 2 ^ 15 - 1; omega), beBytes_eq, beBytes_eq]
    rfl

example : (utf8Encode ("héllo".toList)).length < 2 ^ 32 := by decide
/-- The long form is used: 32768 bytes. -/
example : 32767 < (utf8Encode (List.replicate 32768 'x')).length := by
  have h : ∀ n, (utf8Encode (List.replicate n 'x')).length = n := by
    intro n
    induction n with
    | zero => rfl
    | succ n ih =>
      have : utf8Encode (List.replicate (n + 1) 'x') = encodeChar 'x' ++ utf8Encode (List.replicate n 'x') := by
        simp [utf8Encode, List.replicate_succ]
      rw [this, List.length_append, ih]
      have : (encodeChar 'x').length = 1 := by decide
      omega
  rw [h]; decide

/-! ### C38: truncated files -/

/-- The English claim C38: after the complete rows before the cut, a cut that is not on a row boundary is reported. -/
def C38_full : Prop := ∀ (ov : Overflow) (file : List Byte) (src fin : DcSource) (rows : List Row) (n : Nat),
  dcOpen ov (ofBytes file) = .ok src → Delivers src rows fin →
  file.length - src.stream.length ≤ n → n ≤ file.length - fin.stream.length →
    ∃ (k : Nat) (mid cut stop : DcSource), k ≤ rows.length ∧
      Delivers src (rows.take k) mid ∧ file.length - mid.stream.length ≤ n ∧
      (k < rows.length → ∀ mid', Delivers src (rows.take (k + 1)) mid' → n < file.length - mid'.stream.length) ∧
      dcOpen ov (ofBytes (file.take n)) = .ok cut ∧ cut.header = src.header ∧ Delivers cut (rows.take k) stop ∧
      (stop.nextRow.1 = .ok none ∨ ∃ err, stop.nextRow.1 = .err err) ∧
      (n ≠ file.length - mid.stream.length → ∃ err, stop.nextRow.1 = .err err)

/-- **C38 (partial).** Cutting a DC file (any file, not only one the sink wrote) at byte `n`, anywhere in the rows: the header is the same, exactly
the `k` rows that end at or before the cut are delivered, unchanged; then an unexpected end is reported if at least the 8 bytes of the next
row's timestamp are left, otherwise the data is taken to have ended.  Missing, since it is false (`C38_silent_cut`): that a cut 1 to 7 bytes into a
row is reported. -/
theorem C38_cut_partial (ov : Overflow) (file : List Byte) (src fin : DcSource) (rows : List Row) (n : Nat)
    (ho : dcOpen ov (ofBytes file) = .ok src) (hd : Delivers src rows fin)
    (h1 : file.length - src.stream.length ≤ n) (h2 : n ≤ file.length - fin.stream.length) :
    ∃ (k : Nat) (mid cut stop : DcSource), k ≤ rows.length ∧
      -- the first `k` rows of the file end at or before the cut, the next one does not
      Delivers src (rows.take k) mid ∧ file.length - mid.stream.length ≤ n ∧
      (k < rows.length → ∀ mid', Delivers src (rows.take (k + 1)) mid' → n < file.length - mid'.stream.length) ∧
      (k = rows.length → n = file.length - mid.stream.length) ∧
      -- the cut file delivers these `k` rows and then stops
      dcOpen ov (ofBytes (file.take n)) = .ok cut ∧ cut.header = src.header ∧ Delivers cut (rows.take k) stop ∧
      stop.nextRow.1 = if n - (file.length - mid.stream.length) < 8 then .ok none else .err (.io .unexpectedEof) := by
  have := rows_stop ov ho hd h1 h2 .ends
  rwa [List.append_nil] at this

/-- A cut inside the header is reported. -/
theorem C38_cut_header (ov : Overflow) (file : List Byte) (src : DcSource) (n : Nat)
    (ho : dcOpen ov (ofBytes file) = .ok src) (hn : n < file.length - src.stream.length) :
    dcOpen ov (ofBytes (file.take n)) = .err (.io .unexpectedEof) := by
  have := header_stops ov ho hn .ends
  rwa [List.append_nil] at this

/-- **C38 is false** for cuts 1 to 7 bytes into a row: they look like the end of the data. -/
theorem C38_silent_cut (p : List Byte) (h1 : 1 ≤ p.length) (h7 : p.length ≤ 7) (h : Header) :
    (DcSource.nextRow ⟨ofBytes p, h⟩).1 = .ok none := by rw [(nextRow_short p (by omega) h).1]

/-! ### C39: failing readers -/

/-- The English claim C39: a failure of the reader is always reported. -/
def C39_full : Prop := ∀ (ov : Overflow) (file : List Byte) (src fin : DcSource) (rows : List Row) (n : Nat) (e : IoKind) (t : Stream),
  dcOpen ov (ofBytes file) = .ok src → Delivers src rows fin →
  file.length - src.stream.length ≤ n → n ≤ file.length - fin.stream.length →
    ∀ cut stop k, dcOpen ov (ofBytes (file.take n) ++ .fail e :: t) = .ok cut → Delivers cut (rows.take k) stop →
      stop.nextRow.1 ≠ .ok none

/-- **C39 (partial).** If the reader fails with error `e` after `n` bytes of a DC file's rows, the rows before that point are delivered unchanged,
then `e` is reported, provided at least the 8 bytes of a timestamp were read since the last row.  Missing, since it is false
(`C39_silent_failure`): failures before that. -/
theorem C39_failure_partial (ov : Overflow) (file : List Byte) (src fin : DcSource) (rows : List Row) (n : Nat) (e : IoKind) (t : Stream)
    (ho : dcOpen ov (ofBytes file) = .ok src) (hd : Delivers src rows fin)
    (h1 : file.length - src.stream.length ≤ n) (h2 : n ≤ file.length - fin.stream.length) :
    ∃ (k : Nat) (mid cut stop : DcSource), k ≤ rows.length ∧
      Delivers src (rows.take k) mid ∧ file.length - mid.stream.length ≤ n ∧
      (k < rows.length → ∀ mid', Delivers src (rows.take (k + 1)) mid' → n < file.length - mid'.stream.length) ∧
      (k = rows.length → n = file.length - mid.stream.length) ∧
      dcOpen ov (ofBytes (file.take n) ++ .fail e :: t) = .ok cut ∧ cut.header = src.header ∧ Delivers cut (rows.take k) stop ∧
      stop.nextRow.1 = if n - (file.length - mid.stream.length) < 8 then .ok none else .err (.io e) :=
  rows_stop ov ho hd h1 h2 (.fails e t)

/-- A failure while the header is read is always reported. -/
theorem C39_failure_header (ov : Overflow) (file : List Byte) (src : DcSource) (n : Nat) (e : IoKind) (t : Stream)
    (ho : dcOpen ov (ofBytes file) = .ok src) (hn : n < file.length - src.stream.length) :
    dcOpen ov (ofBytes (file.take n) ++ .fail e :: t) = .err (.io e) := header_stops ov ho hn (.fails e t)

/-- **C39 is false** for a failure at a row boundary or within a timestamp, in particular for a checksum mismatch, which is reported by the
reader where the data ends: the source says that the data ended. -/
theorem C39_silent_failure (p : List Byte) (hp : p.length < 8) (h : Header) (e : IoKind) (t : Stream) :
    (DcSource.nextRow ⟨ofBytes p ++ .fail e :: t, h⟩).1 = .ok none := by rw [(nextRow_short p hp h).2]

section Examples
/-- The hypotheses of C38/C39 are met: the file of the example above, whose two rows are all delivered. -/
example : ∃ src fin, dcOpen .panics (ofBytes (dcWriteFile .panics exHeader exRows).out) = .ok src ∧ Delivers src exRows fin ∧
    (dcWriteFile .panics exHeader exRows).out.length - src.stream.length < (dcWriteFile .panics exHeader exRows).out.length - fin.stream.length := by
  refine ⟨⟨ofBytes (((dcWriteFile .panics exHeader exRows).out).drop 62), ⟨["a".toList, "col_1".toList], [.int, .string]⟩⟩,
    ⟨[], ⟨["a".toList, "col_1".toList], [.int, .string]⟩⟩, by decide +kernel, ?_, by decide +kernel⟩
  refine .cons (src' := ⟨ofBytes (((dcWriteFile .panics exHeader exRows).out).drop 76), ⟨["a".toList, "col_1".toList], [.int, .string]⟩⟩)
    (by decide +kernel) (.cons (src' := ⟨[], ⟨["a".toList, "col_1".toList], [.int, .string]⟩⟩) (by decide +kernel) (.nil _))

/-- The file of the example, its rows, and the source after its header and after its first row. -/
private def cutFile : List Byte := (dcWriteFile .panics exHeader exRows).out
private def cutSrc : DcSource := ⟨ofBytes (cutFile.drop 62), ⟨["a".toList, "col_1".toList], [.int, .string]⟩⟩
private def cutNext : DcSource := ⟨ofBytes (cutFile.drop 76), ⟨["a".toList, "col_1".toList], [.int, .string]⟩⟩
private def cutRow : Row := ⟨7, [.none, .string "hé".toList]⟩

theorem C38_refuted : ¬ C38_full := fun h => by
  have ho : dcOpen .panics (ofBytes cutFile) = .ok cutSrc := by decide +kernel
  have hn : cutSrc.nextRow = (.ok (some cutRow), cutNext) := by decide +kernel
  obtain ⟨k, mid, cut, stop, hk, h1, h2, h3, h4, h5, h6, _, h7⟩ := h .panics cutFile cutSrc cutNext [cutRow] 65 ho (.cons hn (.nil _))
    (by decide +kernel) (by decide +kernel)
  match k with
  | 0 =>
    cases h6
    cases h1
    obtain ⟨err, he⟩ := h7 (by decide +kernel)
    have hc : dcOpen .panics (ofBytes (cutFile.take 65)) = .ok ⟨ofBytes ((cutFile.take 65).drop 62), cutSrc.header⟩ := by decide +kernel
    rw [hc] at h4
    cases h4
    rw [show (DcSource.nextRow ⟨ofBytes ((cutFile.take 65).drop 62), cutSrc.header⟩).1 = .ok none from by decide +kernel] at he
    cases he
  | k + 1 =>
    have h1' : Delivers cutSrc [cutRow] mid := by simpa using h1
    cases h1' with
    | cons hx hrest =>
      rw [hn] at hx
      cases hx
      cases hrest
      revert h2
      decide +kernel

theorem C39_refuted : ¬ C39_full := fun h => by
  have ho : dcOpen .panics (ofBytes cutFile) = .ok cutSrc := by decide +kernel
  refine h .panics cutFile cutSrc cutSrc [] 62 .other [] ho (.nil _) (by decide +kernel) (by decide +kernel)
    ⟨[.fail .other], cutSrc.header⟩ ⟨[.fail .other], cutSrc.header⟩ 0 (by decide +kernel) (.nil _) (by decide +kernel)
end Examples

/-! ### C40: headers -/

/-- **C40.** Opening DC data succeeds exactly if it starts with a DC header (magic number, version 2, user data of any length, at least one column,
known types, display hints -1..6); the result describes that header, and what follows the header is left untouched, be it rows, garbage, the
end or a failure. -/
theorem C40_open_iff (ov : Overflow) (s : Stream) (src : DcSource) :
    dcOpen ov s = .ok src ↔ ∃ c, s = ofBytes c ++ src.stream ∧ IsDcHeader c src.header := dcOpen_iff

/-- Wrong magic number or version: an error (not a crash). -/
theorem C40_wrong_magic (ov : Overflow) (m : List Byte) (hm : m.length = 8) (hne : m ≠ [0, 0, 0, 0, 0x44, 0x43, 0x41, 0x54]) (t : Stream) :
    ∃ msg, dcOpen ov (ofBytes m ++ t) = .err (.custom msg) := by
  refine ⟨"DCReader -- wrong magic number", ?_⟩
  have h1 : readU 8 (ofBytes m ++ t) = (.ok (beVal m), t) := by
    have := uses_readU (k := 8) (n := beVal m) (hm ▸ beVal_lt m)
    rw [← hm, beBytes_beVal] at this
    rw [← hm]
    exact this.here t
  have h2 : beVal m ≠ dcMagic := by
    intro h
    apply hne
    rw [← beBytes_beVal m, hm, h, magic_bytes]
  unfold dcOpen dcHeader
  rw [Rd.bind_of_ok h1, if_pos h2]
  rfl

theorem C40_wrong_version (ov : Overflow) (v : List Byte) (hv : v.length = 2) (hne : v ≠ [0, 2]) (t : Stream) :
    ∃ msg, dcOpen ov (ofBytes ([0, 0, 0, 0, 0x44, 0x43, 0x41, 0x54] ++ v) ++ t) = .err (.custom msg) := by
  refine ⟨"DCReader -- wrong version", ?_⟩
  have h0 : readU 8 (ofBytes ([0, 0, 0, 0, 0x44, 0x43, 0x41, 0x54] ++ v) ++ t) = (.ok dcMagic, ofBytes v ++ t) := by
    rw [← magic_bytes, ofBytes_append, List.append_assoc]
    exact (uses_readU (by decide)).here _
  have h1 : readU 2 (ofBytes v ++ t) = (.ok (beVal v), t) := by
    have := uses_readU (k := 2) (n := beVal v) (hv ▸ beVal_lt v)
    rw [← hv, beBytes_beVal] at this
    rw [← hv]
    exact this.here t
  have h2 : beVal v ≠ dcVersion := by
    intro h
    apply hne
    rw [← beBytes_beVal v, hv, h, version_bytes]
  unfold dcOpen dcHeader
  rw [Rd.bind_of_ok h0, if_neg (by simp), Rd.bind_of_ok h1, if_pos h2]
  rfl

/-- A display hint outside -1..6: an error. -/
theorem C40_wrong_hint (name ty : Str) (hn : (utf8Encode name).length < 2 ^ 32) (ht : (utf8Encode ty).length < 2 ^ 32) (hint : Int)
    (hr : -2 ^ 31 ≤ hint ∧ hint < 2 ^ 31) (hbad : hint < -1 ∨ 6 < hint) (t : Stream) :
    ∃ msg, fieldDescriptor (ofBytes (sized name ++ sized ty ++ bigEndian 4 (BitVec.ofInt 32 hint).toNat) ++ t) = (.err (.custom msg), t) := by
  refine ⟨"unexpected display hint value", ?_⟩
  have u1 : Uses getSizedString name (sized name) := by
    have := uses_sizedString hn
    unfold sizedString at this
    rw [beBytes_eq] at this
    exact this
  have u2 : Uses getSizedString ty (sized ty) := by
    have := uses_sizedString ht
    unfold sizedString at this
    rw [beBytes_eq] at this
    exact this
  have hb : (BitVec.ofInt 32 hint).toNat < 2 ^ 32 := (BitVec.ofInt 32 hint).isLt
  have u3 : Uses (readU 4) (BitVec.ofInt 32 hint).toNat _ := uses_readU hb
  rw [beBytes_eq] at u3
  have hc : ¬ ((BitVec.ofInt 32 hint).toNat = 2 ^ 32 - 1 ∨ (BitVec.ofInt 32 hint).toNat ≤ 6) := by
    rw [BitVec.toNat_ofInt]
    omega
  unfold fieldDescriptor
  rw [ofBytes_append, ofBytes_append, List.append_assoc, List.append_assoc, Rd.bind_of_ok (u1.here _), Rd.bind_of_ok (u2.here _), Rd.bind_of_ok (u3.here _)]
  rw [if_neg hc]
  rfl

/-- Such a header exists: one unnamed column, three bytes of user data. -/
example : IsDcHeader ([0, 0, 0, 0, 0x44, 0x43, 0x41, 0x54, 0, 2, 0, 0, 0, 3, 1, 2, 3, 0, 0, 0, 1, 0, 0, 0, 0, 0, 0, 0, 1, 0x49, 0, 0, 0, 6])
    ⟨["col_0".toList], [.int]⟩ :=
  ⟨[1, 2, 3], [⟨[], .int, "I", 6⟩], by decide, by decide, by decide,
    fun c hc => by rw [List.mem_singleton] at hc; subst hc; exact ⟨.int, by decide, by decide, by decide⟩, by decide +kernel, rfl, by decide +kernel⟩

/-! ### C41: the null bitmap -/

/-- **C41.** What the sink writes for a row of supported values is the timestamp, then a bitmap of the `k` bytes fixed when the header was written,
then the values.  Bit `i` of the bitmap (bit `i % 8` of byte `i / 8`) is set iff field `i` is null; bits beyond the fields are zero. -/
theorem C41_bitmap (k : Nat) (hk : k < 2 ^ 48) (types : List FieldType) (r : Row) (hf : RowFits types r) :
    ∃ bitmap values : List Byte, dcWriteRow k r = ⟨bigEndian 8 r.timestamp.toNat ++ bitmap ++ values, .ok ()⟩ ∧ bitmap.length = k ∧
      ∀ i, i < 8 * k → (bitmap[i / 8]?.map fun b => b.getLsbD (i % 8)) = some (decide (r.values[i]? = some .none)) := by
  refine ⟨bitset k r.values, r.values.flatMap fun v => (writeValue v).out, ?_, bitset_length k r.values, ?_⟩
  · rw [dcWriteRow_eq hk (allFit_of_row hf.1 hf.2), beBytes_eq, List.append_assoc]
  · generalize r.values = vs
    clear hf hk
    induction k generalizing vs with
    | zero => intro i hi; omega
    | succ k ih =>
      intro i hi
      rw [bitset_succ]
      by_cases h8 : i < 8
      · rw [Nat.div_eq_of_lt h8, Nat.mod_eq_of_lt h8]
        simp only [List.getElem?_cons_zero, Option.map_some]
        rw [BitVec.getLsbD_ofNat, nullBits_bit, List.getElem?_take]
        simp [h8]
      · obtain ⟨j, rfl⟩ : ∃ j, i = j + 8 := ⟨i - 8, by omega⟩
        rw [show (j + 8) / 8 = j / 8 + 1 by omega, show (j + 8) % 8 = j % 8 by omega, List.getElem?_cons_succ, ih _ j (by omega)]
        rw [List.getElem?_drop, Nat.add_comm 8 j]

/-- The number of bitmap bytes the sink fixes: enough for all fields but, for 8m+1 columns, the last one. -/
theorem C41_bitmap_length (ov : Overflow) (h : Header) (hl : h.names.length = h.types.length) (hn : 2 ≤ h.types.length)
    (hn2 : h.types.length < 2 ^ 32) (ht : ∀ t ∈ h.types, t ≠ .boolean ∧ t ≠ .byteBuf) (hnm : ∀ n ∈ h.names, (utf8Encode n).length < 2 ^ 32) :
    ∃ k, (dcProcessHeader ov h).res = .ok k ∧ k < 2 ^ 48 ∧ 8 * k < h.types.length + 8 ∧
      (h.types.length ≤ 8 * k ↔ h.types.length % 8 ≠ 1) := by
  obtain ⟨c, hc, _⟩ := dcProcessHeader_ok ov hl hn hn2 ht hnm
  refine ⟨_, by rw [hc], ?_⟩
  unfold bitmapLen
  omega

example : (dcWriteRow 1 ⟨7, [.none, .int 5, .none]⟩).out = [0, 0, 0, 0, 0, 0, 0, 7, 5, 0, 0, 0, 5] := by decide +kernel

end Chopper.Props
