import Verif.Proofs.ZipFaults
import Verif.Props.Zip

/-!
# C107: failing reads and seeks while a zip archive is opened
-/
namespace Chopper.Props
open Chopper Spec

/-- **C107 (recognising).** Whatever fails while a file is tested for being a zip archive: a failure is reported, or the answer is the
one without failures. -/
theorem C107_recognised (file : List Byte) (pos : Nat) (fs : Faults) :
    Reported fs (isZipF file (pos, fs)) ∨ answer (isZipF file (pos, fs)) = answer (isZip file pos) := by
  rcases sim_isZip file pos fs with ⟨k, hk, h⟩ | ⟨fs', _, h⟩
  · exact .inl ⟨k, hk, h⟩
  · exact .inr (by rw [h, answer_of_bind])

/-- **C107.** Whatever fails while a file without zip64 locator is opened as an archive: a failure is reported, or the file is opened (or
rejected) as without failures. -/
theorem C107_no_zip64 (lib : ZipLib) (file : List Byte) (pos : Nat) (fs : Faults) (hno : ∀ p, ¬ At file p [0x50, 0x4b, 6, 7]) :
    Reported fs (openZipF lib file (pos, fs)) ∨ answer (openZipF lib file (pos, fs)) = answer (openZip lib file pos) := by
  rcases openZipF_cases lib file pos fs with ⟨k, hk, h⟩ | h | ⟨p1, e, p2, _, h1, h2, hl, h⟩
  · exact .inl ⟨k, hk, h⟩
  · exact .inr h
  · right
    rw [h]
    have hs : ∃ q, getStartOfCentralDir file e p2 = .ok (e.cdOffset, q) := by
      rw [getStart_ok]
      left
      refine ⟨?_, rfl⟩
      rintro ⟨h3, h4⟩
      refine hno (file.length - (42 + e.commentLen)) ?_
      rw [← sigLoc64]
      exact (sig_iff (by omega)).1 ⟨by omega, h4⟩
    obtain ⟨q, hq⟩ := hs
    rw [openZip_from h1 h2 hq]

/-- **C107 (archives).** Whatever fails while an archive with a single file is opened whose end record does not contradict its zip64
records: an error is reported (one of the failures; or, if the search for the zip64 records was the one to fail, the end of the file
where the end record says the directory is), or the archive is opened (or rejected) as without failures. -/
theorem C107_archive_partial (lib : ZipLib) (file : List Byte) (L : Layout) (name : Str) (usize : Nat) (packed : List Byte)
    (h : SingleFile file L name usize packed) (hlast : LastEnd file L.eo) (hoff : OffsetAgrees file L) (pos : Nat) (fs : Faults) :
    Reported fs (openZipF lib file (pos, fs)) ∨
    (L.cdOff32 = 0xffffffff ∧ answer (openZipF lib file (pos, fs)) = .err (.io .unexpectedEof)) ∨
    answer (openZipF lib file (pos, fs)) = answer (openZip lib file pos) := by
  rcases openZipF_cases lib file pos fs with ⟨k, hk, h1⟩ | h1 | ⟨p1, e, p2, _, h1, h2, hl, h3⟩
  · exact .inl ⟨k, hk, h1⟩
  · exact .inr (.inr h1)
  · right
    obtain ⟨rfl, rfl⟩ := single_end h hlast h1 h2
    rcases hoff with hoff | ⟨hoff, hlen⟩
    · right
      obtain ⟨q, hq⟩ := single_start h
      rw [openZip_from h1 h2 hq, h3, hoff]
    · left
      refine ⟨hoff, ?_⟩
      rw [h3]
      simp only [hoff]
      rw [fromCentral_beyond lib file _ (by decide) (by omega)]
      rfl

/-- **C107 (no failures).** The two models agree when nothing fails. -/
theorem C107_without_failures (lib : ZipLib) (file : List Byte) (pos : Nat) (fs : Faults) (hfs : ∀ x ∈ fs, x = none) :
    answer (openZipF lib file (pos, fs)) = answer (openZip lib file pos) := by
  rcases openZipF_cases lib file pos fs with ⟨k, hk, _⟩ | h | ⟨_, _, _, ⟨k, hk⟩, _⟩
  · simpa using hfs _ hk
  · exact h
  · simpa using hfs _ hk

/-- The full claim: if a file can be opened as an archive, then with failures it is opened as the same archive or not at all. -/
def C107_full : Prop := ∀ (lib : ZipLib) (file : List Byte) (pos : Nat) (fs : Faults) (r : CrcReader × Str),
  answer (openZip lib file pos) = .ok r →
  (∃ e, answer (openZipF lib file (pos, fs)) = .err e) ∨ answer (openZipF lib file (pos, fs)) = .ok r

/-- Two central directory headers, of files named "a" and "b"; the zip64 records point to the second, the end record to the first. -/
def twoHeaders : List Byte :=
  emptyLocal.bytes ++ (emptyCentral [] []).fixedBytes.set 28 1 ++ [97] ++ (emptyCentral [] []).fixedBytes.set 28 1 ++ [98] ++
    eocd64Bytes (List.replicate 12 0) 0 0 1 1 47 77 ++ locatorBytes 0 124 1 ++ eocdBytes 0 0 1 1 47 30 []

/-- **C107 is false of the code** in general: `get_start_of_central_dir_offset` takes *any* error of its first seek for a sign that there are
no zip64 records, and goes on with the offset in the end record. -/
theorem C107_counterexample : ¬ C107_full := by
  intro H
  have := H exLib twoHeaders 0 (List.replicate 47 none ++ [some .other]) ⟨CrcReader.new ⟨[], [], none⟩ 0#32, ['b']⟩ (by decide +kernel)
  have h2 : answer (openZipF exLib twoHeaders (0, List.replicate 47 none ++ [some .other])) =
      .ok ⟨CrcReader.new ⟨[], [], none⟩ 0#32, ['a']⟩ := by decide +kernel
  rw [h2] at this
  rcases this with ⟨e, h⟩ | h
  · cases h
  · simp at h

/-- The hypotheses of `C107_archive_partial` are met; a failure that is reported, one that is not needed, and the one that is swallowed. -/
example : SingleFile exZipFile exZipLayout ['a', '.', 'c', 's', 'v'] exZipContent.length exZipContent ∧ LastEnd exZipFile exZipLayout.eo ∧
    OffsetAgrees exZipFile exZipLayout ∧
    openZipF exLib exZipFile (0, [none, some .other]) = .err (.io .other) ∧
    answer (openZipF exLib exZipFile (0, List.replicate 400 none ++ [some .other])) = answer (openZip exLib exZipFile 0) := by
  refine ⟨exArchive.toSingleFile, lastEnd_of (by decide +kernel), ?_, by decide +kernel, by decide +kernel⟩
  unfold OffsetAgrees
  decide +kernel

end Chopper.Props
