import Verif.Proofs.Gzip
import Verif.Props.Input5

/-! # C117, C118: gzip files as inputs -/
namespace Chopper.Props
open Chopper Chopper.Spec

variable {env : CsvEnv} {dec : Decoders} {zip : ZipLib} {w : World}

theorem decByName_gz (dec : Decoders) (p : Previewer) (n : Str) :
    decompressByName dec p (n ++ ".gz".toList) = (Previewer.new defaultBufSize (dec.gz p.reader)).bind fun p' => .ok (true, p', n) :=
  decompressByName_eq (c := some .gz) (base := n) (show _ = _ from rfl)

theorem decByName_plain (dec : Decoders) (p : Previewer) (n : Str) (h : PlainName n) : decompressByName dec p n = .ok (false, p, n) := by
  have : NameSplits n none n := ⟨rfl, h⟩
  rw [decompressByName_eq this]; rfl

theorem known_first (env : CsvEnv) (cfg : CsvInputConfig env.lib) {n : Str} (h : KnownName n) :
    ∃ f, FirstOf (defaultFactories env (some cfg)) (·.canFormat n) f := by
  rcases firstOf_cases (defaultFactories env (some cfg)) (·.canFormat n) with hf | hn
  · exact hf
  · exfalso
    rcases h with ⟨b, rfl⟩ | ⟨b, rfl⟩
    · have := hn (csvFactory env cfg) (by simp [defaultFactories])
      have h2 : (csvFactory env cfg).canFormat (b ++ ".csv".toList) = true := (endsWith_iff _ _).2 ⟨b, rfl⟩
      rw [this] at h2; cases h2
    · have := hn (dcFactory env.ov) (by simp [defaultFactories])
      have h2 : (dcFactory env.ov).canFormat (b ++ ".dc".toList) = true := (endsWith_iff _ _).2 ⟨b, rfl⟩
      rw [this] at h2; cases h2

theorem unknown_none (env : CsvEnv) (cfg : CsvInputConfig env.lib) {n : Str} (h : ¬ KnownName n) :
    ∀ f ∈ defaultFactories env (some cfg), f.canFormat n = false := by
  intro f hf
  have hf' : f = csvFactory env cfg ∨ f = dcFactory env.ov := by simpa [defaultFactories] using hf
  rcases hf' with rfl | rfl
  · cases hc : (csvFactory env cfg).canFormat n with
    | false => rfl
    | true =>
      obtain ⟨b, hb⟩ := (endsWith_iff n ".csv".toList).1 hc
      exact absurd (.inl ⟨b, hb⟩) h
  · cases hc : (dcFactory env.ov).canFormat n with
    | false => rfl
    | true =>
      obtain ⟨b, hb⟩ := (endsWith_iff n ".dc".toList).1 hc
      exact absurd (.inr ⟨b, hb⟩) h

/-- Opening what is given as gzip: the decoder's bytes are opened under the name and format of the content. -/
theorem gz_previewer (cfg : CsvInputConfig env.lib) {p : Previewer} {inner : Inner} (hp : Previewer.new defaultBufSize inner = .ok p)
    {name name' : Option Str} {fmt fmt' : InputFormat} (h : GivenAsGz inner.data (dec.gz p.reader).data name fmt name' fmt') :
    createFromPreviewer dec (defaultFactories env (some cfg)) p name fmt =
      (Previewer.new defaultBufSize (dec.gz p.reader)).bind fun p' => createFromPreviewer dec (defaultFactories env (some cfg)) p' name' fmt' := by
  cases h with
  | name n hn hk =>
    unfold createFromPreviewer
    simp only
    rw [decByName_gz]
    cases hp' : Previewer.new defaultBufSize (dec.gz p.reader) with
    | ok p' =>
      simp only [Res.bind_ok, decByName_plain _ _ _ hn, if_true, Bool.false_eq_true, if_false]
      rcases hk with hk | hk
      · obtain ⟨f, hf⟩ := known_first env cfg hk
        rw [createByName_first hf, createByName_first hf]
      · have : compressionOfContent p'.trimmed = none := (C55_preview _ _ hp' none).2 hk
        unfold decompressByContent
        rw [this, Res.bind_ok]
    | err e => rfl
    | panic => rfl
    | diverge => rfl
  | format e _ _ he hn =>
    unfold createFromPreviewer
    simp only
    have hd : withDot (e ++ ".gz".toList) = withDot e ++ ".gz".toList := by
      cases e with
      | nil => exact absurd rfl he
      | cons a e =>
        by_cases ha : a = '.'
        · subst ha; rfl
        · simp [withDot, ha]
    have hn' : PlainName (withDot e) := by
      rcases (dotted_iff e (withDot e)).2 rfl with ⟨h1, r, hr⟩ | ⟨h1, _⟩
      · intro f b hb
        rw [h1] at hb
        exact hn f ('.' :: b) (by rw [hb]; rfl)
      · rw [h1]; exact hn
    rw [hd, decByName_gz]
    cases hp' : Previewer.new defaultBufSize (dec.gz p.reader) with
    | ok p' => simp only [Res.bind_ok, decByName_plain _ _ _ hn']
    | err e => rfl
    | panic => rfl
    | diverge => rfl
  | magic n hn hk hf hc =>
    unfold createFromPreviewer
    simp only [decByName_plain _ _ _ hn, Res.bind_ok, Bool.false_eq_true, if_false]
    rw [createByName_none (unknown_none env cfg hk)]
    have h1 : compressionOfContent p.trimmed = some .gz := (C55_preview _ _ hp (some .gz)).2 hf
    have e1 : decompressByContent dec p = Previewer.new defaultBufSize (dec.gz p.reader) := by
      unfold decompressByContent
      rw [h1]
      simp only [decompressPreview, decompressReader, Res.bind_ok]
    rw [e1]
    cases hp' : Previewer.new defaultBufSize (dec.gz p.reader) with
    | ok p' =>
      simp only [Res.bind_ok, createByName_none (unknown_none env cfg hk)]
      have : compressionOfContent p'.trimmed = none := (C55_preview _ _ hp' none).2 hc
      unfold decompressByContent
      rw [this, Res.bind_ok]
    | err e => rfl
    | panic => rfl
    | diverge => rfl

/-- A file given as gzip. -/
theorem gz_input {lib : GzCrate} (hd : dec.gz = gzReader lib) (cfg : CsvInputConfig env.lib) {s : Str} {file content : List Byte} {ending : Option IoKind}
    {sched : List ReadStep} (hf : FileAt w s ⟨file, sched, none⟩) (hs : ∀ e, ReadStep.fail e ∉ sched) (hh : ¬ HttpAddress s) (hz : ¬ [0x50, 0x4b, 3, 4] <+: file)
    (hg : gzDecode lib file = (content, ending)) {fmt fmt' : InputFormat} {name' : Option Str} (h : GivenAsGz file content (lastComponent s) fmt name' fmt') :
    createFromInput (newInputs env dec zip w (some cfg) [] []) w ⟨.path s, fmt⟩ =
      (Previewer.new defaultBufSize ⟨content, lib.sched file, ending⟩).bind fun p =>
        createFromPreviewer dec (defaultFactories env (some cfg)) p name' fmt' := by
  rw [C66_plain_file env dec zip w (some cfg) s fmt _ hf.notDir hf.here hf.opens hh hz]
  rcases previewer_spec defaultBufSize (by decide) ⟨file, sched, none⟩ with ⟨p, h1, _, h3, _, _, _, h7, _⟩ | ⟨e, _, h2⟩
  · have hr : dec.gz p.reader = ⟨content, lib.sched file, ending⟩ := by
      rw [hd]
      unfold gzReader
      have h3' : (p.reader.buf.drop p.reader.pos).take (p.reader.cap - p.reader.pos) ++ p.reader.inner.data = file := h3
      simp only [h3', hg, h7]
      by_cases he : ending = some .unexpectedEof
      · rw [if_pos he, he]; rfl
      · rw [if_neg he]
    rw [h1, Res.bind_ok, gz_previewer cfg h1 (by rw [hr]; exact h), hr]
  · exfalso
    rcases h2 with h2 | h2
    · exact hs e h2
    · simp at h2

theorem gz_not_zip {m : GzMember} {file tail : List Byte} (h : file <+: m.bytes ++ tail) : ¬ [0x50, 0x4b, 3, 4] <+: file := by
  intro hz
  obtain ⟨t, ht⟩ := hz.trans h
  unfold GzMember.bytes GzHeader.bytes GzHeader.main at ht
  simp only [List.append_assoc, List.cons_append, List.cons.injEq] at ht
  exact absurd ht.1 (by decide)

theorem given_mono {file content part : List Byte} {a c : Option Str} {b d : InputFormat} (h : GivenAsGz file content a b c d) (hp : part <+: content) :
    GivenAsGz file part a b c d := by
  have mono : ContentIs content none → ContentIs part none := fun h f m hm hx => h f m hm (hx.trans hp)
  cases h with
  | name n h1 h2 => exact .name n h1 (h2.imp id mono)
  | format e _ _ h1 h2 => exact .format e _ _ h1 h2
  | magic n h1 h2 h3 h4 => exact .magic n h1 h2 h3 (mono h4)

theorem says_given {file content content' : List Byte} {a c : Option Str} {b d : InputFormat} (h : GivenAsGz file content a b c d) (hs : SaysCsv c d ∨ SaysDc c d) :
    GivenAsGz file content' a b c d := by
  cases h with
  | name n h1 h2 =>
    refine .name n h1 (.inl ?_)
    rcases hs with (⟨b, hb, _⟩ | hs | hs) | (⟨b, hb, _⟩ | hs | hs)
    · exact .inl ⟨b, by injection hb⟩
    · cases hs
    · cases hs
    · exact .inr ⟨b, by injection hb⟩
    · cases hs
    · cases hs
  | format e _ _ h1 h2 => exact .format e _ _ h1 h2
  | magic n h1 h2 h3 h4 =>
    exfalso
    rcases hs with (⟨b, hb, _⟩ | hs | hs) | (⟨b, hb, _⟩ | hs | hs)
    · exact h2 (.inl ⟨b, by injection hb⟩)
    · cases hs
    · cases hs
    · exact h2 (.inr ⟨b, by injection hb⟩)
    · cases hs
    · cases hs

theorem damaged_decodes {lib : GzCrate} {file content : List Byte} (h : DamagedGz lib file content) :
    ∃ part k, part <+: content ∧ gzDecode lib file = (part, some k) ∧ ∃ m : GzMember, file <+: m.bytes ++ [] := by
  obtain ⟨m, hm, ⟨rfl, hi⟩ | ⟨h1, h2, h3⟩⟩ := h
  · have := (gzDecode_member hm []).2 hi
    rw [List.append_nil] at this
    exact ⟨content, .other, List.prefix_refl _, this, m, by simp⟩
  · obtain ⟨part, hp, hg⟩ := gzDecode_cut hm h3 h1 h2
    exact ⟨part, _, hp, hg, m, by simpa using h1⟩

/-- An intact member and anything after it is opened like the plain content. -/
theorem gz_like_plain {lib : GzCrate} (hd : dec.gz = gzReader lib) (hls : ∀ file e, ReadStep.fail e ∉ lib.sched file) (cfg : CsvInputConfig env.lib) {s : Str} {m : GzMember}
    {tail content : List Byte} (hm : m.Holds lib content) (hi : m.Intact content) {sched : List ReadStep}
    (hf : FileAt w s ⟨m.bytes ++ tail, sched, none⟩) (hs : ∀ e, ReadStep.fail e ∉ sched) (hh : ¬ HttpAddress s)
    {fmt fmt' : InputFormat} {name' : Option Str} (h : GivenAsGz (m.bytes ++ tail) content (lastComponent s) fmt name' fmt')
    {w' : World} {s' : Str} (hp : FileAt w' s' ⟨content, lib.sched (m.bytes ++ tail), none⟩) (hname : lastComponent s' = name') (hh' : ¬ HttpAddress s')
    (hz : ¬ [0x50, 0x4b, 3, 4] <+: content) :
    createFromInput (newInputs env dec zip w (some cfg) [] []) w ⟨.path s, fmt⟩ = createFromInput (newInputs env dec zip w' (some cfg) [] []) w' ⟨.path s', fmt'⟩ := by
  rw [gz_input hd cfg hf hs hh (gz_not_zip (List.prefix_refl _)) ((gzDecode_member hm tail).1 hi) h,
    C66_plain_file env dec zip w' (some cfg) s' fmt' _ hp.notDir hp.here hp.opens hh' hz, hname]

/-- **C117, stated in full.** A damaged gzip file - checksum or length do not fit, or the file breaks off - is not read like a complete input: it cannot be opened, or
reading its rows does not get to a normal end. (For CSV and DC, and every csv crate that reports the errors of its reader.) False: `C117_refuted`. -/
def C117_full : Prop :=
  ∀ (env : CsvEnv) (dec : Decoders) (lib : GzCrate) (zip : ZipLib) (w : World) (cfg : CsvInputConfig env.lib) (s : Str) (name' : Option Str) (fmt fmt' : InputFormat)
    (file content : List Byte) (sched : List ReadStep), dec.gz = gzReader lib → (∀ file e, ReadStep.fail e ∉ lib.sched file) → ReportsErrors env.csv →
    FileAt w s ⟨file, sched, none⟩ → (∀ e, ReadStep.fail e ∉ sched) → ¬ HttpAddress s → DamagedGz lib file content →
    GivenAsGz file content (lastComponent s) fmt name' fmt' → SaysCsv name' fmt' ∨ SaysDc name' fmt' →
    ∀ f, createFromInput (newInputs env dec zip w (some cfg) [] []) w ⟨.path s, fmt⟩ = .ok f → f.source.ending ≠ .eof

/-- **C117 (intact files).** An intact gzip file is read exactly like a plain file with its content, under the name or format without `.gz` (or, recognised by its first
bytes, under the same name). -/
theorem C117_intact (env : CsvEnv) (dec : Decoders) (lib : GzCrate) (zip : ZipLib) (w : World) (cfg : CsvInputConfig env.lib) (s : Str) (name' : Option Str)
    (fmt fmt' : InputFormat) (m : GzMember) (content : List Byte) (sched : List ReadStep) (hd : dec.gz = gzReader lib)
    (hls : ∀ file e, ReadStep.fail e ∉ lib.sched file) (hm : m.Holds lib content) (hi : m.Intact content)
    (hf : FileAt w s ⟨m.bytes, sched, none⟩) (hs : ∀ e, ReadStep.fail e ∉ sched) (hh : ¬ HttpAddress s)
    (h : GivenAsGz m.bytes content (lastComponent s) fmt name' fmt')
    (w' : World) (s' : Str) (hp : FileAt w' s' ⟨content, lib.sched m.bytes, none⟩) (hname : lastComponent s' = name') (hh' : ¬ HttpAddress s')
    (hz : ¬ [0x50, 0x4b, 3, 4] <+: content) :
    createFromInput (newInputs env dec zip w (some cfg) [] []) w ⟨.path s, fmt⟩ =
      createFromInput (newInputs env dec zip w' (some cfg) [] []) w' ⟨.path s', fmt'⟩ := by
  have e : m.bytes = m.bytes ++ [] := by simp
  rw [e] at hf h hp
  exact gz_like_plain hd hls cfg hm hi hf hs hh h hp hname hh' hz

/-- **C117 (small files, partial).** If the content is shorter than the preview (8192 bytes), the damage is always reported when the input is opened. -/
theorem C117_small_partial (env : CsvEnv) (dec : Decoders) (lib : GzCrate) (zip : ZipLib) (w : World) (cfg : CsvInputConfig env.lib) (s : Str) (name' : Option Str)
    (fmt fmt' : InputFormat) (file content : List Byte) (sched : List ReadStep) (hd : dec.gz = gzReader lib) (hls : ∀ file e, ReadStep.fail e ∉ lib.sched file)
    (hf : FileAt w s ⟨file, sched, none⟩) (hs : ∀ e, ReadStep.fail e ∉ sched) (hh : ¬ HttpAddress s) (hb : DamagedGz lib file content)
    (h : GivenAsGz file content (lastComponent s) fmt name' fmt') (hl : content.length < defaultBufSize) :
    ∃ k, createFromInput (newInputs env dec zip w (some cfg) [] []) w ⟨.path s, fmt⟩ = .err (.io k) := by
  obtain ⟨part, k, hp, hg, m, hmf⟩ := damaged_decodes hb
  rw [gz_input hd cfg hf hs hh (gz_not_zip hmf) hg (given_mono h hp)]
  have := hp.length_le
  rcases previewer_spec defaultBufSize (by decide) ⟨part, lib.sched file, some k⟩ with ⟨p, _, _, _, _, _, _, _, h8⟩ | ⟨e, h1, h2⟩
  · have := h8 (by show part.length < _; omega); simp at this
  · exact ⟨e, by rw [h1]; rfl⟩

/-- **C117 (CSV, partial).** A damaged gzip file with CSV never looks like a complete input, whatever its size. -/
theorem C117_csv_partial (env : CsvEnv) (dec : Decoders) (lib : GzCrate) (zip : ZipLib) (w : World) (cfg : CsvInputConfig env.lib) (s : Str) (name' : Option Str)
    (fmt fmt' : InputFormat) (file content : List Byte) (sched : List ReadStep) (hd : dec.gz = gzReader lib) (hls : ∀ file e, ReadStep.fail e ∉ lib.sched file)
    (hr : ReportsErrors env.csv)
    (hf : FileAt w s ⟨file, sched, none⟩) (hs : ∀ e, ReadStep.fail e ∉ sched) (hh : ¬ HttpAddress s) (hb : DamagedGz lib file content)
    (h : GivenAsGz file content (lastComponent s) fmt name' fmt') (hfmt : SaysCsv name' fmt') :
    ∀ f, createFromInput (newInputs env dec zip w (some cfg) [] []) w ⟨.path s, fmt⟩ = .ok f → f.source.ending ≠ .eof := by
  intro f ho
  obtain ⟨part, k, hp, hg, m, hmf⟩ := damaged_decodes hb
  rw [gz_input hd cfg hf hs hh (gz_not_zip hmf) hg (given_mono h hp)] at ho
  rcases previewer_spec defaultBufSize (by decide) ⟨part, lib.sched file, some k⟩ with ⟨p, h1, _, _, _, _, _, h7, _⟩ | ⟨e, h1, _⟩
  · rw [h1, Res.bind_ok, says_csv hfmt] at ho
    have ho' : ((csvOpen env cfg p).bind fun src => .ok (src.toFile env cfg.tz)) = .ok f := ho
    rw [Res.bind_eq_ok] at ho'
    obtain ⟨src, h2, h3⟩ := ho'
    simp only [Res.ok.injEq] at h3
    subst h3
    obtain ⟨hn, hx⟩ := csv_open_bad hr h7 h2
    exact csv_bad_ahead env cfg.tz _ src hn hx
  · rw [h1] at ho; simp [Res.bind] at ho

/-- A DC input of at least 8192 bytes that ends with an error is read like one that ends. -/
theorem dc_error_end {csv : Option (CsvInputConfig env.lib)} {name : Option Str} {fmt : InputFormat} {content : List Byte} {sched : List ReadStep} {e : IoKind}
    (hs : ∀ e, ReadStep.fail e ∉ sched) (hfmt : SaysDc name fmt) (hl : defaultBufSize ≤ content.length)
    {src fin : DcSource} {rows : List Row} (ho : dcOpen env.ov (ofBytes content) = .ok src) (hd : Delivers src rows fin) (hfin : fin.stream = []) :
    ((Previewer.new defaultBufSize ⟨content, sched, some e⟩).bind fun p => createFromPreviewer dec (defaultFactories env csv) p name fmt) =
      .ok ⟨src.header, ⟨rows, .eof⟩⟩ := by
  obtain ⟨p, h1, h3, h7⟩ := previewer_large (capacity := defaultBufSize) (by decide) (inner := ⟨content, sched, some e⟩) hl hs
  rw [h1, Res.bind_ok, says_dc hfmt]
  show (dcOpen env.ov (streamOf p.reader)).bind (fun src => .ok src.toFile) = _
  have hst : streamOf p.reader = ofBytes (content.take content.length) ++ Item.fail e :: [] := by
    rw [streamOf_eq _ (fun e he => hs e (previewer_sched h1 _ he)), h3, h7, List.take_length]
    rfl
  rw [hst]
  obtain ⟨k, mid, cut, stop, hk, g0, g1, g2, _, g4, g5, g6, g7⟩ := C39_failure_partial env.ov content src fin rows content.length e [] ho hd (by omega) (by
    rw [hfin]; simp)
  have hmid : k = rows.length := by
    rcases Nat.lt_or_ge k rows.length with hlt | hge
    · obtain ⟨mid', hmid'⟩ := delivers_take hd (k + 1)
      have := g2 hlt mid' hmid'
      omega
    · omega
  subst hmid
  rw [List.take_length] at g0 g6
  have hmf : mid = fin := delivers_unique g0 hd
  rw [hmf, hfin] at g7
  have hr : RunsAs DcSource.nextRow cut ⟨rows, .eof⟩ := by
    refine ⟨stop, delivers_yields g6, ?_⟩
    rw [g7, if_pos (by simp)]
  have heq := runsAs_unique (dc_toFile_runs cut) hr
  rw [g4, Res.bind_ok]
  show Res.ok (⟨cut.header, (cut.toFile).source⟩ : FileSource) = _
  rw [heq, g5]

/-- **C117 is false for every DC file of at least 8192 bytes** with a wrong checksum or length: it is read like an intact one - all rows and a normal end; the error at
the end of the data is taken for the end of the file (cf. C39, C83). -/
theorem C117_dc_never (env : CsvEnv) (dec : Decoders) (lib : GzCrate) (zip : ZipLib) (w : World) (cfg : CsvInputConfig env.lib) (s : Str) (name' : Option Str)
    (fmt fmt' : InputFormat) (m : GzMember) (content : List Byte) (sched : List ReadStep) (hd : dec.gz = gzReader lib)
    (hls : ∀ file e, ReadStep.fail e ∉ lib.sched file) (hm : m.Holds lib content) (hi : ¬ m.Intact content)
    (hf : FileAt w s ⟨m.bytes, sched, none⟩) (hs : ∀ e, ReadStep.fail e ∉ sched) (hh : ¬ HttpAddress s)
    (h : GivenAsGz m.bytes content (lastComponent s) fmt name' fmt') (hfmt : SaysDc name' fmt') (hl : defaultBufSize ≤ content.length)
    (src fin : DcSource) (rows : List Row) (ho : dcOpen env.ov (ofBytes content) = .ok src) (hdl : Delivers src rows fin) (hfin : fin.stream = []) :
    createFromInput (newInputs env dec zip w (some cfg) [] []) w ⟨.path s, fmt⟩ = .ok ⟨src.header, ⟨rows, .eof⟩⟩ := by
  have hg := (gzDecode_member hm []).2 hi
  rw [List.append_nil] at hg
  rw [gz_input hd cfg hf hs hh (gz_not_zip (m := m) (tail := []) (by simp)) hg h]
  exact dc_error_end (hls _) hfmt hl ho hdl hfin

/-! ## Several members -/

/-- **C118, stated in full.** A gzip file of several members (RFC 1952: "a gzip file consists of a series of members"; what appending to a compressed file, `cat` of two
compressed files and `bgzip` produce) is read like a plain file with the contents of all of them. False: `C118_refuted`. -/
def C118_full : Prop :=
  ∀ (env : CsvEnv) (dec : Decoders) (lib : GzCrate) (zip : ZipLib) (w : World) (cfg : CsvInputConfig env.lib) (s : Str) (name' : Option Str) (fmt fmt' : InputFormat)
    (members : List (GzMember × List Byte)) (file content : List Byte) (sched : List ReadStep), dec.gz = gzReader lib → (∀ file e, ReadStep.fail e ∉ lib.sched file) →
    members ≠ [] → (∀ x ∈ members, x.1.Holds lib x.2 ∧ x.1.Intact x.2) → file = members.flatMap (·.1.bytes) → content = members.flatMap (·.2) →
    FileAt w s ⟨file, sched, none⟩ → (∀ e, ReadStep.fail e ∉ sched) → ¬ HttpAddress s → GivenAsGz file content (lastComponent s) fmt name' fmt' →
    ∀ w' s', FileAt w' s' ⟨content, lib.sched file, none⟩ → lastComponent s' = name' → ¬ HttpAddress s' → ¬ [0x50, 0x4b, 3, 4] <+: content →
      createFromInput (newInputs env dec zip w (some cfg) [] []) w ⟨.path s, fmt⟩ =
        createFromInput (newInputs env dec zip w' (some cfg) [] []) w' ⟨.path s', fmt'⟩

/-- **C118 (what is true).** Only the first member is read: whatever follows it - more members, padding, anything - the file is read exactly like a plain file with the
content of the first member. Nothing is reported. -/
theorem C118_first_partial (env : CsvEnv) (dec : Decoders) (lib : GzCrate) (zip : ZipLib) (w : World) (cfg : CsvInputConfig env.lib) (s : Str) (name' : Option Str)
    (fmt fmt' : InputFormat) (m : GzMember) (content tail : List Byte) (sched : List ReadStep) (hd : dec.gz = gzReader lib)
    (hls : ∀ file e, ReadStep.fail e ∉ lib.sched file) (hm : m.Holds lib content) (hi : m.Intact content)
    (hf : FileAt w s ⟨m.bytes ++ tail, sched, none⟩) (hs : ∀ e, ReadStep.fail e ∉ sched) (hh : ¬ HttpAddress s)
    (h : GivenAsGz (m.bytes ++ tail) content (lastComponent s) fmt name' fmt')
    (w' : World) (s' : Str) (hp : FileAt w' s' ⟨content, lib.sched (m.bytes ++ tail), none⟩) (hname : lastComponent s' = name') (hh' : ¬ HttpAddress s')
    (hz : ¬ [0x50, 0x4b, 3, 4] <+: content) :
    createFromInput (newInputs env dec zip w (some cfg) [] []) w ⟨.path s, fmt⟩ =
      createFromInput (newInputs env dec zip w' (some cfg) [] []) w' ⟨.path s', fmt'⟩ :=
  gz_like_plain hd hls cfg hm hi hf hs hh h hp hname hh' hz

/-! ## Examples: members with one stored block -/

/-- Inflating, for streams of one stored block (RFC 1951, 3.2.4). -/
def storedInflate : List Byte → Inflated
  | b :: l0 :: l1 :: _ :: _ :: d =>
    if b ≠ 1 then .corrupt []
    else if d.length < leVal [l0, l1] then .cut d else .complete (d.take (leVal [l0, l1])) (d.drop (leVal [l0, l1]))
  | _ => .cut []

def storedLib : GzCrate := ⟨storedInflate, fun _ => []⟩

def storedBlock (content : List Byte) : List Byte := 1 :: (leBytes 2 content.length ++ (leBytes 2 (65535 - content.length) ++ content))

theorem two_bytes (n : Nat) : leBytes 2 n = [BitVec.ofNat 8 n, BitVec.ofNat 8 (n / 256)] := rfl

theorem stored_inflates {content : List Byte} (h : content.length < 65536) : Inflates storedLib (storedBlock content) content := by
  intro more
  have hv : leVal [BitVec.ofNat 8 content.length, BitVec.ofNat 8 (content.length / 256)] = content.length := by
    rw [← two_bytes]; exact leVal_leBytes 2 _ (by omega)
  show storedInflate (storedBlock content ++ more) = _
  rw [storedBlock, two_bytes, two_bytes]
  simp only [List.cons_append, List.nil_append, storedInflate]
  rw [if_neg (by simp), hv, if_neg (by simp)]
  simp

theorem stored_cut {content : List Byte} (h : content.length < 65536) : CutNoticed storedLib (storedBlock content) content := by
  intro q hq hne
  have hv : leVal [BitVec.ofNat 8 content.length, BitVec.ofNat 8 (content.length / 256)] = content.length := by
    rw [← two_bytes]; exact leVal_leBytes 2 _ (by omega)
  show ∃ c, c <+: content ∧ storedInflate q = .cut c
  rw [storedBlock, two_bytes, two_bytes] at hq hne
  simp only [List.cons_append, List.nil_append] at hq hne
  match q, hq, hne with
  | [], _, _ => exact ⟨[], List.nil_prefix, rfl⟩
  | [_], _, _ => exact ⟨[], List.nil_prefix, rfl⟩
  | [_, _], _, _ => exact ⟨[], List.nil_prefix, rfl⟩
  | [_, _, _], _, _ => exact ⟨[], List.nil_prefix, rfl⟩
  | [_, _, _, _], _, _ => exact ⟨[], List.nil_prefix, rfl⟩
  | b :: l0 :: l1 :: n0 :: n1 :: d, hq, hne =>
    simp only [List.cons_prefix_cons] at hq
    obtain ⟨rfl, rfl, rfl, rfl, rfl, hd⟩ := hq
    refine ⟨d, hd, ?_⟩
    unfold storedInflate
    simp only
    rw [if_neg (by simp), hv, if_pos]
    rcases Nat.lt_or_ge d.length content.length with hlt | hge
    · exact hlt
    · exfalso; apply hne
      rw [hd.eq_of_length (Nat.le_antisymm hd.length_le hge)]

/-- A header with a file name, a comment, an extra field and a checksum. -/
def exGzHeader : GzHeader := ⟨true, [1, 2, 3, 4, 0, 3], some [7, 0], some (asciiBytes "a"), some (asciiBytes "b"), true⟩
theorem exGzHeader_valid : exGzHeader.Valid := by
  refine ⟨rfl, ?_, ?_, ?_⟩ <;> intro x hx <;> simp only [exGzHeader, Option.some.injEq] at hx <;> subst hx <;> decide

def storedMember (content : List Byte) (sum : BitVec 32) : GzMember := ⟨exGzHeader, storedBlock content, sum, content.length⟩

theorem stored_holds {content : List Byte} (h : content.length < 65536) (sum : BitVec 32) : (storedMember content sum).Holds storedLib content :=
  ⟨exGzHeader_valid, stored_inflates h⟩

def gzDecoders (lib : GzCrate) : Decoders := { plainDecoders with gz := gzReader lib }
theorem storedLib_sched (file : List Byte) (e : IoKind) : ReadStep.fail e ∉ storedLib.sched file := by simp [storedLib]

theorem oneWorld_at (s : Str) (data : List Byte) : FileAt (oneWorld s data) s ⟨data, [], none⟩ := ⟨rfl, by simp [oneWorld], by simp [oneWorld]⟩

theorem plain_dc (b : Str) : PlainName (b ++ ".dc".toList) := by
  intro f b' h
  have hl := congrArg List.getLast? h
  rw [ext_last] at hl
  have : (b ++ ".dc".toList).getLast? = some 'c' := by simp [List.getLast?_append]
  rw [this] at hl
  cases f <;> simp [extLast] at hl

theorem plain_csv (b : Str) : PlainName (b ++ ".csv".toList) := by
  intro f b' h
  have hl := congrArg List.getLast? h
  rw [ext_last] at hl
  have : (b ++ ".csv".toList).getLast? = some 'v' := by simp [List.getLast?_append]
  rw [this] at hl
  cases f <;> simp [extLast] at hl

/-- **C117 is false**: this file is read like an intact one. -/
theorem C117_refuted : ¬ C117_full := by
  intro h
  have hm := stored_holds (content := bigDc) (by rw [bigDc_length]; decide) (Spec.crc32 bigDc + 1#32)
  have hi : ¬ (storedMember bigDc (Spec.crc32 bigDc + 1#32)).Intact bigDc := by
    rintro ⟨he, _⟩
    have he : Spec.crc32 bigDc + 1#32 = Spec.crc32 bigDc := he
    generalize Spec.crc32 bigDc = x at he
    have := congrArg BitVec.toNat he
    rw [BitVec.toNat_add] at this
    have := x.isLt
    simp at *
  have hs : SaysDc (some "a.dc".toList) .auto := .inl ⟨['a'], rfl, rfl⟩
  have hg : GivenAsGz (storedMember bigDc (Spec.crc32 bigDc + 1#32)).bytes bigDc (lastComponent "a.dc.gz".toList) .auto (some "a.dc".toList) .auto := by
    have : lastComponent "a.dc.gz".toList = some ("a.dc".toList ++ ".gz".toList) := by decide +kernel
    rw [this]
    exact .name _ (plain_dc ['a']) (.inl (.inr ⟨['a'], rfl⟩))
  have hh : ¬ HttpAddress "a.dc.gz".toList := by decide +kernel
  have hw := oneWorld_at "a.dc.gz".toList (storedMember bigDc (Spec.crc32 bigDc + 1#32)).bytes
  have hr := C117_dc_never strictEnv (gzDecoders storedLib) storedLib exLib _ secondsCfg _ _ .auto .auto _ bigDc [] rfl storedLib_sched hm hi hw (by simp) hh hg hs
    (by rw [bigDc_length]; decide) _ _ [] bigDc_opens (.nil _) rfl
  exact h strictEnv (gzDecoders storedLib) storedLib exLib _ secondsCfg _ _ .auto .auto _ bigDc [] rfl storedLib_sched strict_reports hw (by simp) hh
    ⟨_, hm, .inl ⟨rfl, hi⟩⟩ hg (.inr hs) _ hr rfl

/-- A DC file without rows, and a row for it. -/
def noRowsDc : List Byte := [0, 0, 0, 0, 0x44, 0x43, 0x41, 0x54] ++ [0, 2] ++ [0, 0, 0, 0] ++ bigEndian 4 1 ++ (Column.bytes ⟨['a'], .int, "I", 0⟩)
def rowDc : List Byte := [0, 0, 0, 0, 0, 0, 0, 9, 0, 0, 0, 0, 7]


/-- **C118 is false**: two members, a DC file without rows and a row for it. -/
theorem C118_refuted : ¬ C118_full := by
  intro h
  have hm1 := stored_holds (content := noRowsDc) (by decide) (Spec.crc32 noRowsDc)
  have hm2 := stored_holds (content := rowDc) (by decide) (Spec.crc32 rowDc)
  have hi1 : (storedMember noRowsDc (Spec.crc32 noRowsDc)).Intact noRowsDc := ⟨rfl, rfl⟩
  have hi2 : (storedMember rowDc (Spec.crc32 rowDc)).Intact rowDc := ⟨rfl, rfl⟩
  generalize hx1 : storedMember noRowsDc (Spec.crc32 noRowsDc) = m1 at hm1 hi1
  generalize hx2 : storedMember rowDc (Spec.crc32 rowDc) = m2 at hm2 hi2
  clear hx1 hx2
  have hl : lastComponent "a.dc.gz".toList = some ("a.dc".toList ++ ".gz".toList) := by decide +kernel
  have hl' : lastComponent "a.dc".toList = some "a.dc".toList := by decide +kernel
  have hg : ∀ c, GivenAsGz (m1.bytes ++ m2.bytes) c (lastComponent "a.dc.gz".toList) .auto (some "a.dc".toList) .auto := by
    intro c
    rw [hl]
    exact .name _ (plain_dc ['a']) (.inl (.inr ⟨['a'], rfl⟩))
  have hh : ¬ HttpAddress "a.dc.gz".toList := by decide +kernel
  have hh' : ¬ HttpAddress "a.dc".toList := by decide +kernel
  have hw := oneWorld_at "a.dc.gz".toList (m1.bytes ++ m2.bytes)
  have hz1 : ¬ [0x50, 0x4b, 3, 4] <+: noRowsDc := by decide +kernel
  have hz2 : ¬ [0x50, 0x4b, 3, 4] <+: noRowsDc ++ rowDc := by decide +kernel
  have r1 := h strictEnv (gzDecoders storedLib) storedLib exLib _ secondsCfg _ _ .auto .auto [(m1, noRowsDc), (m2, rowDc)] _ _ [] rfl storedLib_sched
    (by simp) (by intro x hx; simp only [List.mem_cons, List.not_mem_nil, or_false] at hx; rcases hx with rfl | rfl; exact ⟨hm1, hi1⟩; exact ⟨hm2, hi2⟩)
    (show m1.bytes ++ m2.bytes = _ by simp) (show noRowsDc ++ rowDc = _ by simp) hw (by simp) hh (hg _)
    _ "a.dc".toList (oneWorld_at _ _) hl' hh' hz2
  have r2 := C118_first_partial strictEnv (gzDecoders storedLib) storedLib exLib _ secondsCfg _ _ .auto .auto m1 noRowsDc m2.bytes [] rfl storedLib_sched hm1 hi1 hw (by simp) hh
    (hg _) _ "a.dc".toList (oneWorld_at _ _) hl' hh' hz1
  have hd : ∀ data, ¬ [0x50, 0x4b, 3, 4] <+: data → createFromInput (newInputs strictEnv (gzDecoders storedLib) exLib (oneWorld "a.dc".toList data) (some secondsCfg) [] [])
      (oneWorld "a.dc".toList data) ⟨.path "a.dc".toList, .auto⟩ = (dcOpen strictEnv.ov (ofBytes data)).bind fun src => .ok src.toFile := by
    intro data hz
    have hf := oneWorld_at "a.dc".toList data
    exact C66_dc_file strictEnv _ exLib _ (some secondsCfg) _ .auto _ hf.notDir hf.here hf.opens hh' hz
      (by rintro e (h | h) <;> simp at h) (.inl ⟨['a'], hl', rfl⟩)
  rw [r1, hd _ hz2, hd _ hz1] at r2
  have hcount := congrArg (fun r : Res FileSource => r.bind fun f => .ok f.source.rows.length) r2
  revert hcount
  decide +kernel

/-- The hypotheses of the theorems are met: CSV in a gzip file with all kinds of header fields, intact, with a wrong checksum, and broken off after any number of bytes;
the same content in a plain file. -/
example : FileAt (oneWorld "a.csv.gz".toList (storedMember exZipContent (Spec.crc32 exZipContent)).bytes) "a.csv.gz".toList
      ⟨(storedMember exZipContent (Spec.crc32 exZipContent)).bytes, [], none⟩ ∧
    (storedMember exZipContent (Spec.crc32 exZipContent)).Holds storedLib exZipContent ∧ (storedMember exZipContent (Spec.crc32 exZipContent)).Intact exZipContent ∧
    (∀ file content, GivenAsGz file content (lastComponent "a.csv.gz".toList) .auto (some "a.csv".toList) .auto) ∧
    (∀ file content name, GivenAsGz file content name (.extension "csv.gz".toList) name (.extension "csv".toList)) ∧
    SaysCsv (some "a.csv".toList) .auto ∧
    ¬ HttpAddress "a.csv.gz".toList ∧ FileAt (oneWorld "a.csv".toList exZipContent) "a.csv".toList ⟨exZipContent, storedLib.sched [], none⟩ := by
  refine ⟨oneWorld_at _ _, stored_holds (by decide) _, ⟨rfl, rfl⟩, ?_, ?_, .inl ⟨['a'], rfl, rfl⟩, by decide +kernel, oneWorld_at _ _⟩
  · intro file content
    have hl : lastComponent "a.csv.gz".toList = some ("a.csv".toList ++ ".gz".toList) := by decide +kernel
    rw [hl]
    exact .name _ (plain_csv ['a']) (.inl (.inl ⟨['a'], rfl⟩))
  · intro file content name
    exact .format "csv".toList _ _ (by decide) (plain_csv [])
/-- ... recognised by its first bytes, under a name that says nothing. -/
example : GivenAsGz (storedMember exZipContent (Spec.crc32 exZipContent)).bytes exZipContent (some "data".toList) .auto (some "data".toList) .auto := by
  refine .magic _ ?_ ?_ ⟨_, .gz 0x1f, by decide +kernel⟩ ((C55_magic _ none).1 (by decide +kernel))
  · have := (compressionOfName_none "data".toList).1 (by decide +kernel)
    exact this
  · rintro (⟨b, hb⟩ | ⟨b, hb⟩)
    · have hl := congrArg List.getLast? hb
      simp [List.getLast?_append] at hl
    · have hl := congrArg List.getLast? hb
      simp [List.getLast?_append] at hl
example : DamagedGz storedLib (storedMember exZipContent (Spec.crc32 exZipContent + 1)).bytes exZipContent ∧
    ∀ n, n < (storedMember exZipContent (Spec.crc32 exZipContent)).bytes.length →
      DamagedGz storedLib ((storedMember exZipContent (Spec.crc32 exZipContent)).bytes.take n) exZipContent := by
  refine ⟨⟨_, stored_holds (by decide) _, .inl ⟨rfl, ?_⟩⟩, ?_⟩
  · rintro ⟨he, _⟩
    revert he
    decide +kernel
  · intro n hn
    refine ⟨_, stored_holds (by decide) (Spec.crc32 exZipContent), .inr ⟨List.take_prefix _ _, ?_, stored_cut (by decide)⟩⟩
    intro he
    have := congrArg List.length he
    rw [List.length_take] at this
    omega
/-- ... for `C117_dc_never`, a DC file of more than 8192 bytes: see `C117_refuted`. -/
example : defaultBufSize ≤ bigDc.length := by rw [bigDc_length]; decide

end Chopper.Props
