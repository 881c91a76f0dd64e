import Verif.Proofs.ZipCut
import Verif.Props.ZipFaults
import Verif.Props.Input5
import Verif.Props.Cli7

/-!
# C138: zip archives cut short
-/
namespace Chopper.Props
open Chopper Spec

/-- **C138 (the end lost).** An archive cut anywhere before the end of its end record - whatever else is in the file, if only the signature
of the end record is found nowhere else - is not opened: an I/O error is returned. -/
theorem C138_lost_partial (lib : ZipLib) (file : List Byte) (eo n : Nat) (honly : OnlyEnd file eo) (hn : n < eo + 22) (pos : Nat) :
    ∃ e, openZip lib (file.take n) pos = .err (.io e) := by
  rcases C54_total lib (file.take n) pos with ⟨⟨⟨r, name⟩, q⟩, h⟩ | h
  · exact absurd (cut_end honly h) (by omega)
  · exact h

/-- **C138.** An archive with a single entry is cut anywhere (before, within or after the data, within the directory, the end record or the
comment): an I/O error is returned, or the entry is opened as that of the complete archive - the same name, the same packed data and the
same checksum. -/
theorem C138_cut_partial (lib : ZipLib) (file : List Byte) (L : Layout) (name : Str) (usize : Nat) (packed : List Byte)
    (h : SingleFile file L name usize packed) (honly : OnlyEnd file L.eo) (hloc : OnlyLocator file L.eo) (hoff : OffsetAgrees file L)
    (hbefore : L.lo + L.lh.bytes.length + packed.length ≤ L.eo) (hextra : ExtraHarmless file L)
    (hm : L.ch.method = 0 ∨ L.ch.method = 8 ∨ L.ch.method = 12) (n : Nat) (pos : Nat) :
    (∃ e, openZip lib (file.take n) pos = .err (.io e)) ∨ answer (openZip lib (file.take n) pos) = answer (openZip lib file 0) := by
  rcases C54_total lib (file.take n) pos with ⟨⟨⟨r, nm⟩, q⟩, ho⟩ | ho
  · right
    obtain ⟨q0, h0⟩ := openZip_single lib h hm (fun p hp => honly p (by omega)) (stops_of_layout h hextra) 0
    rw [h0, ho]
    by_cases hn : n < file.length
    · obtain ⟨rfl, rfl⟩ := cut_open h honly hloc hoff hbefore (stops_of_layout h hextra) hn ho
      rfl
    · rw [List.take_of_length_le (by omega)] at ho
      obtain ⟨q1, h1⟩ := openZip_single lib h hm (fun p hp => honly p (by omega)) (stops_of_layout h hextra) pos
      rw [ho] at h1
      cases h1
      rfl
  · exact .inl ho

/-- **C138 (the content).** Whatever is opened from an archive cut short with a single stored entry reads, in pieces of any sizes, to
exactly the content, without error: never to a part of it. -/
theorem C138_content_partial (lib : ZipLib) (hs : ∀ e, ReadStep.fail e ∉ lib.sched) (file : List Byte) (L : Layout) (name : Str) (content : List Byte)
    (h : StoredArchive file L name content) (honly : OnlyEnd file L.eo) (hloc : OnlyLocator file L.eo) (hoff : OffsetAgrees file L)
    (hbefore : L.lo + L.lh.bytes.length + content.length ≤ L.eo) (hextra : ExtraHarmless file L) (n pos : Nat) (hn : n < file.length)
    (r : CrcReader) (nm : Str) (q : Nat) (ho : openZip lib (file.take n) pos = .ok ((r, nm), q)) :
    nm = name ∧ ∀ out e, ReadsToEnd CrcReader.read r out e → out = content ∧ e = none := by
  obtain ⟨rfl, rfl⟩ := cut_open h.toSingleFile honly hloc hoff hbefore (stops_of_layout h.toSingleFile hextra) hn ho
  refine ⟨rfl, ?_⟩
  rw [h.stored, h.sum]
  intro out e hr
  have := C52_check ⟨content, lib.sched, none⟩ (noFail_none hs) _ out e hr
  simpa using this

/-- **C138 (as an input).** A file that begins like a zip archive and lacks the end of its end record is refused as an input with an I/O error:
it is neither taken for an empty input nor read as something else. -/
theorem C138_input_partial (env : CsvEnv) (dec : Decoders) (zip : ZipLib) (w : World) (csv : Option (CsvInputConfig env.lib)) (s : Str) (fmt : InputFormat)
    (inner : Inner) (hf : FileAt w s inner) (hz : [0x50, 0x4b, 3, 4] <+: inner.data) (file : List Byte) (eo n : Nat) (honly : OnlyEnd file eo)
    (hn : n < eo + 22) (hcut : inner.data = file.take n) :
    ∃ e, createFromInput (newInputs env dec zip w csv [] []) w ⟨.path s, fmt⟩ = .err (.io e) := by
  have hseek : createSeekable (newInputs env dec zip w csv [] []).seekable (utf8Encode s) = .ok (some inner.data) := by
    simp [createSeekable, newInputs, openLoop, seekableFileTransport, hf.here, hf.opens, Res.okOr]
  show ∃ e, createFromPathInput _ _ _ _ = _
  unfold createFromPathInput
  rw [hf.notDir]
  simp only [Bool.false_eq_true, if_false]
  unfold createFromPath createFromZip
  rw [hseek, Res.bind_ok]
  obtain ⟨q, hq⟩ := C55_isZip inner.data 0
  simp only [hq, Res.bind_ok]
  rw [if_pos (by simpa using hz)]
  obtain ⟨e, he⟩ := C138_lost_partial zip file eo n honly hn q
  refine ⟨e, ?_⟩
  have he' : openZip (newInputs env dec zip w csv [] []).zip inner.data q = .err (.io e) := by rw [hcut]; exact he
  rw [he']
  rfl

/-- **C138 (the tool).** With such a file among the inputs (the ones named before it can be opened), chopper ends with an error before writing
anything: no output file is touched. -/
theorem C138_tool_partial (e : CliEnv) (a : CliArgs) (st : CliSettings e.csv.lib) (hs : parseSettings e a = .ok st)
    (hu : e.userFactories = [] ∧ e.userTransports = []) (pre post : List Input) (s : Str) (fmt : InputFormat)
    (hi : st.inputs = pre ++ ⟨.path s, fmt⟩ :: post) (hp : ∀ i ∈ pre, ∃ f, opened e st i = .ok f)
    (inner : Inner) (hf : FileAt e.world s inner) (hz : [0x50, 0x4b, 3, 4] <+: inner.data) (file : List Byte) (eo n : Nat) (honly : OnlyEnd file eo)
    (hn : n < eo + 22) (hcut : inner.data = file.take n) : ∃ x, Refused (chopperCli e a) (.io x) := by
  obtain ⟨x, hx⟩ := C138_input_partial e.csv e.dec e.zip e.world (some st.inCfg) s fmt inner hf hz file eo n honly hn hcut
  refine ⟨x, C84_bad_input e a st hs pre post ⟨.path s, fmt⟩ (.io x) hi hp ?_⟩
  unfold opened
  rw [hu.1, hu.2]
  exact hx

/-- The full claim: a stored archive that is read completely when it is complete is, cut short, read completely or not at all. -/
def C138_full : Prop := ∀ (lib : ZipLib) (file : List Byte) (L : Layout) (name : Str) (content : List Byte),
  (∀ e, ReadStep.fail e ∉ lib.sched) → StoredArchive file L name content → LastEnd file L.eo → ExtraHarmless file L →
  L.lo + L.lh.bytes.length + content.length ≤ L.eo → ∀ n pos r nm q, n < file.length → openZip lib (file.take n) pos = .ok ((r, nm), q) →
  ∀ out e, ReadsToEnd CrcReader.read r out e → out = content

/-- The directory entry and the end record of an archive whose only entry is "A". -/
def innerCentral : CentralHeader :=
  ⟨[0, 0, 0, 0], 0, 0, [0, 0, 0, 0], 0xd3d99e8b#32, 1, 1, 0, [0, 0, 0, 0, 0, 0], 0, [], [], []⟩
def innerContent : List Byte := [65] ++ innerCentral.bytes ++ eocdBytes 0 0 1 1 46 31 []
def outerCentral : CentralHeader :=
  ⟨[0, 0, 0, 0], 0, 0, [0, 0, 0, 0], 0x70451813#32, 69, 69, 0, [0, 0, 0, 0, 0, 0], 0, [], [], []⟩
/-- An archive whose entry contains these. -/
def nestedZip : List Byte := emptyLocal.bytes ++ innerContent ++ outerCentral.bytes ++ eocdBytes 0 0 1 1 46 99 []
def nestedLayout : Layout := ⟨0, emptyLocal, 99, outerCentral, 145, 46, 99, []⟩

theorem innerSum : Spec.crc32 innerContent = 0x70451813#32 := by
  have h1 : (bitsOf (innerContent.take 35)).foldl crcShift (BitVec.allOnes 32) = 0x3172d1d6#32 := by decide +kernel
  have h2 : (bitsOf (innerContent.drop 35)).foldl crcShift 0x3172d1d6#32 ^^^ BitVec.allOnes 32 = 0x70451813#32 := by decide +kernel
  unfold Spec.crc32
  rw [← List.take_append_drop 35 innerContent]
  unfold bitsOf at *
  rw [List.flatMap_append, List.foldl_append, h1, h2]

theorem nestedArchive : StoredArchive nestedZip nestedLayout [] innerContent where
  localOk := ⟨by decide, by decide, by decide⟩
  localAt := by unfold At; decide +kernel
  inside := by decide +kernel
  centralOk := ⟨rfl, by decide, by decide, rfl, by decide, by decide, by decide, rfl, by decide, by decide, by decide, by simp [nestedLayout, outerCentral], by decide⟩
  centralAt := by unfold At; decide +kernel
  stored := rfl
  plain := by decide
  oneDisk := .inl rfl
  sum := innerSum.symm
  sizes := {
    once := by intro pre s post h; simp [nestedLayout, outerCentral] at h
    absent := by intro _; decide +kernel
    present := by intro s hs; simp [nestedLayout, outerCentral] at hs
    bounds := by decide +kernel }
  named := by unfold NameIs; decide +kernel
  cdSize := by decide
  cdOff32 := by decide
  comment := by decide
  endAt := by unfold At; decide +kernel
  endLast := by decide +kernel
  order := by decide +kernel
  central := .inl ⟨by unfold At; decide +kernel, rfl⟩
  size := by decide +kernel

/-- **C138 is false of the code** in general: an archive (stored) that contains the end of an archive is, cut right after it, opened with the
directory of the inner one, and a single byte of the 69 is read, without any error: the checksum verified is the inner one's. -/
theorem C138_counterexample : ¬ C138_full := by
  intro H
  have ha : answer (openZip exLib (nestedZip.take 99) 0) = .ok (CrcReader.new ⟨[65], [], none⟩ 0xd3d99e8b#32, []) := by decide +kernel
  have ho : ∃ q, openZip exLib (nestedZip.take 99) 0 = .ok ((CrcReader.new ⟨[65], [], none⟩ 0xd3d99e8b#32, []), q) := by
    revert ha
    rcases openZip exLib (nestedZip.take 99) 0 with ⟨x, q⟩ | _ | _ | _ <;> intro ha <;> cases ha
    exact ⟨q, rfl⟩
  obtain ⟨q, ho⟩ := ho
  have hr : ReadsToEnd CrcReader.read (CrcReader.new ⟨[65], [], none⟩ 0xd3d99e8b#32) ([65] ++ []) none :=
    .more (n := 1) (by omega) rfl (by simp) (.done (n := 1) (by omega) rfl)
  have := H exLib nestedZip nestedLayout [] innerContent (by simp [exLib]) nestedArchive (lastEnd_of (by decide +kernel)) (.inl rfl) (by decide +kernel)
    99 0 _ _ q (by decide +kernel) ho _ _ hr
  exact absurd this (by decide +kernel)

theorem onlyEnd_of {file : List Byte} {eo : Nat} (h : ∀ p < file.length, p ≠ eo → (file.drop p).take 4 ≠ [0x50, 0x4b, 5, 6]) : OnlyEnd file eo := by
  intro p hp ha
  have := at_len ha (by simp)
  simp only [List.length_cons, List.length_nil] at this
  exact h p (by omega) hp ha

theorem onlyLocator_of {file : List Byte} {eo : Nat} (h : ∀ p < file.length, p + 20 < eo → (file.drop p).take 4 ≠ [0x50, 0x4b, 6, 7]) : OnlyLocator file eo := by
  intro p hp ha
  have := at_len ha (by simp)
  simp only [List.length_cons, List.length_nil] at this
  exact h p (by omega) hp ha

/-- The hypotheses are met by an archive with zip64 records and a comment; cut within the comment it is still opened, cut before it is not. -/
example : StoredArchive exZipFile exZipLayout ['a', '.', 'c', 's', 'v'] exZipContent ∧ OnlyEnd exZipFile exZipLayout.eo ∧
    OnlyLocator exZipFile exZipLayout.eo ∧ OffsetAgrees exZipFile exZipLayout ∧
    exZipLayout.lo + exZipLayout.lh.bytes.length + exZipContent.length ≤ exZipLayout.eo ∧ ExtraHarmless exZipFile exZipLayout := by
  refine ⟨exArchive, onlyEnd_of (by decide +kernel), onlyLocator_of (by decide +kernel), ?_, by decide +kernel, ?_⟩
  · unfold OffsetAgrees; decide +kernel
  · right
    exact ⟨by decide, by decide +kernel, .inr (by unfold At; decide +kernel)⟩
/-- An archive (without comment) cut within the end record, as the file `z`. -/
example : FileAt (oneWorld ['z'] ((emptyFile [] [] []).take 90)) ['z'] ⟨(emptyFile [] [] []).take 90, [], none⟩ ∧
    [0x50, 0x4b, 3, 4] <+: (emptyFile [] [] []).take 90 ∧ OnlyEnd (emptyFile [] [] []) 76 ∧ 90 < 76 + 22 :=
  ⟨⟨rfl, by simp [oneWorld], by simp [oneWorld]⟩, by decide +kernel, onlyEnd_of (by decide +kernel), by decide⟩

end Chopper.Props
