import Verif.Spec.Received
import Verif.Props.InPlace
import Verif.Props.Delivery
import Verif.Props.Gzip

/-!
# DC data of which only a part arrives (C139)
-/
namespace Chopper.Props
open Chopper Chopper.Spec

variable {env : CsvEnv} {dec : Decoders} {zip : ZipLib} {w : World}

theorem bind_ok_inv {α β : Type} {x : Res α} {f : α → Res β} {b : β} (h : x.bind f = .ok b) : ∃ a, x = .ok a ∧ f a = .ok b := by
  cases x with
  | ok a => exact ⟨a, rfl, h⟩
  | err _ => cases h
  | panic => cases h
  | diverge => cases h

theorem received_append (c : List Byte) (t : Stream) : received (ofBytes c ++ t) = c ++ received t := by
  induction c with
  | nil => simp [ofBytes]
  | cons b c ih => simpa [ofBytes, received] using ih

theorem received_split (s : Stream) : ∃ t k, s = ofBytes (received s) ++ t ∧ StopsWith t k := by
  induction s with
  | nil => exact ⟨[], _, by simp [received, ofBytes], .ends⟩
  | cons x s ih =>
    cases x with
    | byte b =>
      obtain ⟨t, k, h1, h2⟩ := ih
      refine ⟨t, k, ?_, h2⟩
      show _ = Item.byte b :: (ofBytes (received s) ++ t)
      rw [← h1]
    | fail e => exact ⟨.fail e :: s, e, by simp [received, ofBytes], .fails e s⟩

theorem yields_delivers {src fin : DcSource} {rows : List Row} : Yields DcSource.nextRow src rows fin ↔ Delivers src rows fin := by
  constructor
  · intro h
    induction h with
    | nil s => exact .nil s
    | cons h1 _ ih => exact .cons h1 ih
  · intro h
    induction h with
    | nil s => exact .nil s
    | cons h1 _ ih => exact .cons h1 ih

theorem delivers_prefix {src a b : DcSource} {rows rows' : List Row} (h : Delivers src rows a) (hs : ∀ r, a.nextRow.1 ≠ .ok (some r)) (h' : Delivers src rows' b) :
    rows' <+: rows := by
  induction h generalizing rows' with
  | nil s =>
    cases h' with
    | nil => exact List.prefix_refl _
    | cons h1 _ => exact absurd (by rw [h1]) (hs _)
  | cons h1 _ ih =>
    cases h' with
    | nil => exact List.nil_prefix
    | cons h2 h3 =>
      rw [h1] at h2
      simp only [Prod.mk.injEq, Res.ok.injEq, Option.some.injEq] at h2
      obtain ⟨rfl, rfl⟩ := h2
      obtain ⟨t, ht⟩ := ih hs h3
      exact ⟨t, by rw [← ht]; rfl⟩

/-- What is known when an open DC stream has delivered all its rows. -/
theorem dc_stream_run {ov : Overflow} {s : Stream} {d : DcSource} (ho : dcOpen ov s = .ok d) :
    ∃ (hdr : List Byte) (parts : List (List Byte)) (fin : DcSource), s = ofBytes hdr ++ (ofBytes parts.flatten ++ fin.stream) ∧ IsDcHeader hdr d.header ∧
      Delivers d d.toFile.source.rows fin ∧ (∀ r, fin.nextRow.1 ≠ .ok (some r)) ∧ parts.length = d.toFile.source.rows.length ∧
      (∀ (i : Nat) p r, parts[i]? = some p → d.toFile.source.rows[i]? = some r → IsDcRow d.header.types p r) ∧
      (match fin.nextRow.1 with
        | .ok none => d.toFile.source.ending = .eof
        | .err e => d.toFile.source.ending = .fail e
        | .panic => d.toFile.source.ending = .crash
        | .diverge => d.toFile.source.ending = .crash
        | _ => False) := by
  obtain ⟨c, hs, hc⟩ := (C94_open ov s d).1 ho
  obtain ⟨fin, hy, he⟩ := dc_toFile_runs d
  obtain ⟨_, parts, h1, h2, h3⟩ := (delivers_parts (opened_types ho)).1 (yields_delivers.1 hy)
  refine ⟨c, parts, fin, by rw [← h1, ← hs], hc, yields_delivers.1 hy, ?_, h2, h3, ?_⟩
  · intro r hr
    rw [hr] at he
    exact he
  · revert he
    rcases fin.nextRow.1 with (_ | _) | _ | _ | _ <;> exact id

/-- **C139 (streams).** However DC data arrive, completely or not, and whatever goes wrong on the way: if what arrives before the first failure is the beginning of a DC file, then
the header read is the one of that file, and the rows delivered are its first rows. -/
theorem C139_stream (ov : Overflow) (s : Stream) (d : DcSource) (whole : List Byte) (h : Header) (src : Source) (hw : IsDcFile whole h src) (hr : received s <+: whole)
    (ho : dcOpen ov s = .ok d) : d.header = h ∧ d.toFile.source.rows <+: src.rows := by
  obtain ⟨hdr, parts, fin, hs, hh, _, _, hl, hp, _⟩ := dc_stream_run ho
  have hcut : IsDcFile (hdr ++ parts.flatten) d.header ⟨d.toFile.source.rows, .eof⟩ := ⟨hdr, parts, [], by simp, hh, hl, hp, .eof (by simp)⟩
  refine C96_cut whole _ h d.header src ⟨d.toFile.source.rows, .eof⟩ hw (List.IsPrefix.trans ?_ hr) hcut
  rw [hs, received_append, received_append, ← List.append_assoc]
  exact List.prefix_append _ _

/-- **C139 (all arrived).** If all of the file arrives before the first failure, it is opened, and all its rows are delivered. -/
theorem C139_complete (ov : Overflow) (s : Stream) (whole : List Byte) (h : Header) (src : Source) (hw : IsDcFile whole h src) (hr : received s = whole) :
    ∃ d, dcOpen ov s = .ok d ∧ d.header = h ∧ d.toFile.source.rows = src.rows := by
  obtain ⟨t, k, hs, _⟩ := received_split s
  obtain ⟨hdr, parts, rest, hb, hh, hl, hp, _⟩ := hw
  have hs' : s = ofBytes hdr ++ (ofBytes parts.flatten ++ (ofBytes rest ++ t)) := by
    rw [hs, hr, hb]; simp [ofBytes_append]
  have ho : dcOpen ov s = .ok ⟨ofBytes parts.flatten ++ (ofBytes rest ++ t), h⟩ := (C94_open ov s _).2 ⟨hdr, hs', hh⟩
  obtain ⟨e1, e2⟩ := C139_stream ov s _ whole h src ⟨hdr, parts, rest, hb, hh, hl, hp, by assumption⟩ (by rw [hr]; exact List.prefix_refl _) ho
  refine ⟨_, ho, e1, List.IsPrefix.eq_of_length_le e2 ?_⟩
  obtain ⟨_, _, fin, _, _, hd, hstop, _⟩ := dc_stream_run ho
  have hall : Delivers ⟨ofBytes parts.flatten ++ (ofBytes rest ++ t), h⟩ src.rows ⟨ofBytes rest ++ t, h⟩ :=
    (delivers_parts (types_of_header hh)).2 ⟨rfl, parts, rfl, hl, hp⟩
  exact (delivers_prefix hd hstop hall).length_le

/-- **C139 (how it ends).** If the file itself ends well, then a part of it followed by a failure ends well or with an I/O error: it neither crashes the reader nor is it
taken for something else. -/
theorem C139_ending (ov : Overflow) (s : Stream) (d : DcSource) (whole : List Byte) (h : Header) (src : Source) (hw : IsDcFile whole h src) (hr : received s <+: whole)
    (he : src.ending = .eof) (ho : dcOpen ov s = .ok d) :
    d.toFile.source.ending = .eof ∨ (∃ k, d.toFile.source.ending = .fail (.io k) ∧ ∃ t, StopsWith t k ∧ s = ofBytes (received s) ++ t) := by
  obtain ⟨hdr, parts, fin, hs, hh, hd, hstop, hl, hp, hm⟩ := dc_stream_run ho
  have hrec : received s = hdr ++ parts.flatten ++ received fin.stream := by
    rw [hs, received_append, received_append, ← List.append_assoc]
  -- bytes that stop the reader are not in the file
  have hno : ∀ (c : List Byte) (t : Stream) (e : Ending), fin.stream = ofBytes c ++ t → DcEnding d.header.types c e → (∀ m, DcEnding d.header.types (c ++ m) e) → e = .eof := by
    intro c t e hc hd' hm
    have hpre : hdr ++ parts.flatten ++ c <+: whole := by
      refine List.IsPrefix.trans ?_ hr
      rw [hrec, hc, received_append]
      exact ⟨received t, by simp⟩
    obtain ⟨m, hmm⟩ := hpre
    have hf : IsDcFile whole d.header ⟨d.toFile.source.rows, e⟩ := ⟨hdr, parts, c ++ m, by rw [← hmm]; simp, hh, hl, hp, hm m⟩
    have := (C94_unambiguous whole _ _ _ _ hw hf).2
    rw [this] at he
    exact he
  revert hm
  cases hn : fin.nextRow.1 with
  | ok o =>
    cases o with
    | none => exact fun h => .inl h
    | some r => exact fun h => h.elim
  | panic =>
    obtain ⟨c, t, hc, hcr⟩ := (C93_row ov s d fin _ ho hd).1 hn
    exact absurd (hno c t .crash hc (.crash (List.prefix_refl _) hcr) fun m => .crash (List.prefix_append _ _) hcr) (by simp)
  | diverge => exact absurd hn (C93_row_ends ov s d fin _ ho hd)
  | err e =>
    intro hm
    rcases (C94_error ov s d fin _ ho hd e).1 hn with ⟨c, t, ty, hc, hu, _⟩ | ⟨p, tl, k, hp', hst, _, _, rfl⟩
    · exact absurd (hno c t _ hc (.unsupported (List.prefix_refl _) hu rfl) fun m => .unsupported (List.prefix_append _ _) hu rfl) (by simp)
    · refine .inr ⟨k, hm, tl, hst, ?_⟩
      have h0 : received tl = [] := by cases hst <;> rfl
      rw [hrec, hp', received_append, h0, hs, hp']
      simp [ofBytes_append]

theorem received_chunks (size : Nat) (sched : List ReadStep) (data : List Byte) (ending : Option IoKind) : received (chunks size sched data ending) <+: data := by
  have hend : ∀ e, received (endItems e) = [] := by intro e; cases e <;> rfl
  induction sched generalizing data with
  | nil => unfold chunks; rw [received_append, hend]; simp
  | cons x sched ih =>
    cases x with
    | fail e => unfold chunks; exact List.nil_prefix
    | bytes k =>
      unfold chunks
      by_cases hd : data = []
      · rw [if_pos hd, hend]; exact List.nil_prefix
      · rw [if_neg hd, received_append]
        conv => rhs; rw [← List.take_append_drop (min size (max 1 k)) data]
        exact (List.prefix_append_right_inj _).2 (ih _)

theorem received_previewed {inner : Inner} {p : Previewer} (h : Previewer.new defaultBufSize inner = .ok p) : received (streamOf p.reader) <+: inner.data := by
  obtain ⟨h1, h2⟩ := C136_fetched inner p h
  have hs : streamOf p.reader = ofBytes p.reader.rem ++ chunks p.reader.buf.length p.reader.inner.sched p.reader.inner.data p.reader.inner.ending := rfl
  rw [hs, received_append, h2, h1]
  conv => rhs; rw [← List.take_append_drop defaultBufSize inner.data]
  exact (List.prefix_append_right_inj _).2 (received_chunks _ _ _ _)

theorem dc_first {cfg : Option (CsvInputConfig env.lib)} (b : Str) : FirstOf (defaultFactories env cfg) (·.canFormat (b ++ ".dc".toList)) (dcFactory env.ov) := by
  have hdc : (dcFactory env.ov).canFormat (b ++ ".dc".toList) = true := (endsWith_iff _ _).2 ⟨b, rfl⟩
  cases cfg with
  | none => exact ⟨[], [], rfl, hdc, by simp⟩
  | some cfg =>
    refine ⟨[csvFactory env cfg], [], rfl, hdc, ?_⟩
    intro g hg
    simp only [List.mem_singleton] at hg
    subst hg
    show endsWith _ _ = false
    cases he : endsWith (b ++ ".dc".toList) ['.', 'c', 's', 'v'] with
    | false => rfl
    | true =>
      obtain ⟨b', hb'⟩ := (endsWith_iff _ _).1 he
      have hl := congrArg List.getLast? hb'
      simp [List.getLast?_append] at hl

/-- What is read of a part of a DC file: the header and the first rows of the file, and either a normal end or an I/O error if the file itself ends well. -/
structure PartOf (f : FileSource) (h : Header) (src : Source) : Prop where
  header : f.header = h
  rows : f.source.rows <+: src.rows
  ending : src.ending = .eof → f.source.ending = .eof ∨ ∃ k, f.source.ending = .fail (.io k)

theorem dc_created {ov : Overflow} {p : Previewer} {whole : List Byte} {h : Header} {src : Source} (hw : IsDcFile whole h src) (hr : received (streamOf p.reader) <+: whole)
    {f : FileSource} (ho : (dcFactory ov).create p = .ok f) : PartOf f h src := by
  rw [show (dcFactory ov).create p = (dcOpen ov (streamOf p.reader)).bind fun src => .ok src.toFile from rfl] at ho
  rcases hd : dcOpen ov (streamOf p.reader) with d | _ | _ | _ <;> rw [hd] at ho <;> cases ho
  obtain ⟨h1, h2⟩ := C139_stream _ _ d whole h src hw hr hd
  refine ⟨h1, h2, fun he => ?_⟩
  rcases C139_ending _ _ d whole h src hw hr he hd with h | ⟨k, h, _⟩
  · exact .inl h
  · exact .inr ⟨k, h⟩

/-- **C139 (inputs).** An input that is given as DC - a file, a page, standard input or the entry of a zip archive - of which only a part arrives, in whatever pieces and with whatever
failures: if it is opened, its header is the one of the whole file, its rows are the first rows of the whole file, and if that ends well, so does this one unless there is an I/O
error. -/
theorem C139_input (env : CsvEnv) (dec : Decoders) (zip : ZipLib) (w : World) (cfg : Option (CsvInputConfig env.lib)) (i : Input) (r : Inner) (n : Option Str)
    (hi : Delivered zip w i r n) (hn : SaysDc n i.format) (whole : List Byte) (h : Header) (src : Source) (hw : IsDcFile whole h src) (hr : r.data <+: whole) (f : FileSource)
    (ho : createFromInput (newInputs env dec zip w cfg [] []) w i = .ok f) : PartOf f h src := by
  rw [hi.opens cfg] at ho
  rcases hp : Previewer.new defaultBufSize r with p | _ | _ | _ <;> rw [hp] at ho <;> try cases ho
  replace ho : createFromPreviewer dec (defaultFactories env cfg) p n i.format = .ok f := ho
  rw [says_dc hn] at ho
  exact dc_created hw ((received_previewed hp).trans hr) ho

/-- The name or the format says that this is DC data, compressed in this way. -/
def SaysPackedDc (c : CompFormat) (name : Option Str) (fmt : InputFormat) : Prop :=
  (∃ base, name = some (base ++ ".dc".toList ++ (extension c).toList) ∧ fmt = .auto) ∨ fmt = .extension (".dc".toList ++ (extension c).toList) ∨
    fmt = .extension ("dc".toList ++ (extension c).toList)

/-- Whatever part of the compressed file the decoder gets, and however that part arrives, what it delivers before it fails or ends is a beginning of the content. -/
def DecodesInOrder (dec : Decoders) (c : CompFormat) (packed content : List Byte) : Prop :=
  ∀ (p : Previewer) (r : Inner), stillToCome p.reader <+: packed → decompressReader dec c p = .ok r → r.data <+: content

theorem dc_no_dot (x r : Str) : "dc".toList ++ x ≠ '.' :: r := by
  intro h
  change 'd' :: ('c' :: x) = '.' :: r at h
  exact absurd (List.cons.inj h).1 (by decide)

theorem dotted_dc (x : Str) : Dotted ("dc".toList ++ x) (".dc".toList ++ x) := .inr ⟨by simp, dc_no_dot x⟩

/-- **C139 (compressed inputs).** The same of a compressed DC file of which only a part arrives. -/
theorem C139_packed (env : CsvEnv) (dec : Decoders) (zip : ZipLib) (w : World) (cfg : Option (CsvInputConfig env.lib)) (c : CompFormat) (i : Input) (r : Inner) (n : Option Str)
    (hi : Delivered zip w i r n) (hn : SaysPackedDc c n i.format) (packed whole : List Byte) (h : Header) (src : Source) (hw : IsDcFile whole h src)
    (hd : DecodesInOrder dec c packed whole) (hr : r.data <+: packed) (f : FileSource)
    (ho : createFromInput (newInputs env dec zip w cfg [] []) w i = .ok f) : PartOf f h src := by
  rw [hi.opens cfg] at ho
  rcases hp : Previewer.new defaultBufSize r with p | _ | _ | _ <;> rw [hp] at ho <;> try cases ho
  replace ho : createFromPreviewer dec (defaultFactories env cfg) p n i.format = .ok f := ho
  have hstill : stillToCome p.reader = r.data := by
    obtain ⟨h1, h2⟩ := C136_fetched r p hp
    show p.reader.rem ++ p.reader.inner.data = _
    rw [h1, h2, List.take_append_drop]
  have hcreate : createFromPreviewer dec (defaultFactories env cfg) p n i.format = (decoded dec (some c) p).bind (dcFactory env.ov).create := by
    rcases hn with ⟨b, h1, h2⟩ | h2 | h2
    · rw [h1, h2]
      exact C57_name_first dec _ p _ (some c) (b ++ ".dc".toList) rfl _ (dc_first b)
    · rw [h2]
      exact (C57_explicit dec _ p _ _ _ (.inl ⟨rfl, _, rfl⟩) (some c) ".dc".toList rfl).1 _ (dc_first [])
    · rw [h2]
      exact (C57_explicit dec _ p _ _ (".dc".toList ++ (extension c).toList) (dotted_dc _) (some c) ".dc".toList rfl).1 _ (dc_first [])
  rw [hcreate, ← decompressPreview_eq] at ho
  obtain ⟨p', hpp, ho⟩ := bind_ok_inv ho
  obtain ⟨r', hr', hp'⟩ := bind_ok_inv hpp
  exact dc_created hw ((received_previewed hp').trans (hd p r' (by rw [hstill]; exact hr) hr')) ho

theorem gz_in_order {lib : GzCrate} {m : GzMember} {content : List Byte} (hd : dec.gz = gzReader lib) (hm : m.Holds lib content) (hi : m.Intact content)
    (hc : CutNoticed lib m.packed content) : DecodesInOrder dec .gz m.bytes content := by
  intro p r hs hr
  cases hr
  rw [hd]
  show (gzDecode lib (stillToCome p.reader)).1 <+: content
  by_cases he : stillToCome p.reader = m.bytes
  · have := (gzDecode_member hm []).1 hi
    rw [List.append_nil] at this
    rw [he, this]
    exact List.prefix_refl _
  · obtain ⟨part, hp, hg⟩ := gzDecode_cut hm hc hs he
    rw [hg]
    exact hp

/-- **C139 (gzip).** For gzip in particular, where the checking is modelled: an intact gzip file of DC data of which only a part arrives. -/
theorem C139_gz (env : CsvEnv) (dec : Decoders) (lib : GzCrate) (zip : ZipLib) (w : World) (cfg : Option (CsvInputConfig env.lib)) (i : Input) (r : Inner) (n : Option Str)
    (hi : Delivered zip w i r n) (hn : SaysPackedDc .gz n i.format) (m : GzMember) (whole : List Byte) (h : Header) (src : Source) (hw : IsDcFile whole h src)
    (hd : dec.gz = gzReader lib) (hm : m.Holds lib whole) (ht : m.Intact whole) (hc : CutNoticed lib m.packed whole) (hr : r.data <+: m.bytes) (f : FileSource)
    (ho : createFromInput (newInputs env dec zip w cfg [] []) w i = .ok f) : PartOf f h src :=
  C139_packed env dec zip w cfg .gz i r n hi hn m.bytes whole h src hw (gz_in_order hd hm ht hc) hr f ho

/-! The file of `C94_example`, cut within its second row. -/
def exPart : List Byte := exTwoColumns ++ exRow1 ++ exRow2.take 10

theorem exPart_prefix : exPart <+: exTwoColumns ++ exRow1 ++ exRow2 ++ [1, 2, 3] := by
  refine ⟨exRow2.drop 10 ++ [1, 2, 3], ?_⟩
  rw [exPart, List.append_assoc, ← List.append_assoc (exRow2.take 10), List.take_append_drop]
  simp

/-- It arrives and then the connection is lost: the first row is delivered, then the error. -/
example : received (ofBytes exPart ++ [.fail .other, .byte 7]) <+: exTwoColumns ++ exRow1 ++ exRow2 ++ [1, 2, 3] ∧
    ∃ d, dcOpen .wraps (ofBytes exPart ++ [.fail .other, .byte 7]) = .ok d ∧ d.toFile.source = ⟨[⟨7, [.int 258, .string "hi".toList]⟩], .fail (.io .other)⟩ := by
  constructor
  · rw [received_append]
    simpa [received] using exPart_prefix
  · refine ⟨⟨ofBytes (exRow1 ++ exRow2.take 10) ++ [.fail .other, .byte 7], ⟨[['a'], "col_1".toList], [.int, .string]⟩⟩, (C94_open _ _ _).2 ⟨exTwoColumns, ?_, two_columns_header⟩, ?_⟩
    · simp [exPart, ofBytes_append]
    · decide +kernel

/-- A file with this part. -/
example : ∃ f, createFromInput (newInputs (recordsEnv []) plainDecoders exLib (oneWorld "x.dc".toList exPart) none [] []) (oneWorld "x.dc".toList exPart) ⟨.path "x.dc".toList, .auto⟩ = .ok f ∧
    Delivered exLib (oneWorld "x.dc".toList exPart) ⟨.path "x.dc".toList, .auto⟩ ⟨exPart, [], none⟩ (lastComponent "x.dc".toList) ∧ SaysDc (lastComponent "x.dc".toList) .auto := by
  have ho := oneWorld_at "x.dc".toList exPart
  have hh : ¬ HttpAddress "x.dc".toList := by decide +kernel
  have hz : ¬ [0x50, 0x4b, 3, 4] <+: exPart := by decide +kernel
  have hl : lastComponent "x.dc".toList = some (['x'] ++ ".dc".toList) := by decide +kernel
  obtain ⟨src, hs⟩ := (C96_total exPart _).2 ⟨exTwoColumns, ⟨exRow1 ++ exRow2.take 10, by simp [exPart]⟩, two_columns_header⟩
  exact ⟨_, (C94_file _ _ _ _ none _ .auto _ ho.notDir ho.here ho.opens hh hz (by rintro k (h | h) <;> simp at h) (.inl ⟨_, hl, rfl⟩) _ src).2 hs,
    .file _ _ _ ho hh hz, .inl ⟨_, hl, rfl⟩⟩

/-- A gzip file for `C139_gz`, and a decoder for `C139_packed`. -/
example (content : List Byte) (hc : content.length < 65536) : DecodesInOrder (gzDecoders storedLib) .gz (storedMember content (Spec.crc32 content)).bytes content ∧
    SaysPackedDc .gz (lastComponent "x.dc.gz".toList) .auto :=
  ⟨gz_in_order rfl (stored_holds hc _) ⟨rfl, rfl⟩ (stored_cut hc), .inl ⟨['x'], by decide +kernel, rfl⟩⟩

end Chopper.Props
