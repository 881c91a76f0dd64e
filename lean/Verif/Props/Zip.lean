import Verif.Proofs.Zip4

/-!
# Properties of zip archives and checksums: C50 - C54

For every content of the file, every position the file is at, every way the file chops its data up, and all decoders.
-/
namespace Chopper.Props
open Chopper Spec

/-! ### C51: the search for the end record -/

/-- **C51.** The search succeeds exactly if there is an end of central directory signature within the last MiB of the file, not at offset 0, and
then the position is right after the last one in the file. -/
theorem C51_search (file : List Byte) (pos q : Nat) : findEocdr file pos = .ok ((), q) ↔
    ∃ eo, q = eo + 4 ∧ 0 < eo ∧ file.length < eo + 2 ^ 20 ∧ At file eo [0x50, 0x4b, 5, 6] ∧ LastEnd file eo :=
  findEocdr_ok file pos q

/-- The windows: among the signatures at offsets in the window there is a last one (so the search succeeds iff there is any). -/
theorem C51_found (file : List Byte) (pos : Nat) : (∃ q, findEocdr file pos = .ok ((), q)) ↔
    ∃ eo, 0 < eo ∧ file.length < eo + 2 ^ 20 ∧ At file eo [0x50, 0x4b, 5, 6] := by
  constructor
  · rintro ⟨q, h⟩
    rw [findEocdr_ok] at h
    obtain ⟨eo, _, h1, h2, h3, _⟩ := h
    exact ⟨eo, h1, h2, h3⟩
  · rintro ⟨eo, h1, h2, h3⟩
    -- the last one
    have hmax : ∀ n eo, file.length ≤ eo + n → 0 < eo → file.length < eo + 2 ^ 20 → At file eo [0x50, 0x4b, 5, 6] →
        ∃ eo', 0 < eo' ∧ file.length < eo' + 2 ^ 20 ∧ At file eo' [0x50, 0x4b, 5, 6] ∧ LastEnd file eo' := by
      intro n
      induction n with
      | zero =>
        intro eo hl _ _ ha
        have := at_len ha (by simp)
        simp only [List.length_cons, List.length_nil] at this
        omega
      | succ n ih =>
        intro eo hl g1 g2 ha
        by_cases hlast : LastEnd file eo
        · exact ⟨eo, g1, g2, ha, hlast⟩
        · have : ∃ p, eo < p ∧ At file p [0x50, 0x4b, 5, 6] := by
            apply Classical.byContradiction
            intro hne
            exact hlast fun p hp hat => hne ⟨p, hp, hat⟩
          obtain ⟨p, hp, hat⟩ := this
          exact ih p (by omega) (by omega) (by omega) hat
    obtain ⟨eo', g1, g2, g3, g4⟩ := hmax file.length eo (by omega) h1 h2 h3
    exact ⟨eo' + 4, (findEocdr_ok _ _ _).mpr ⟨eo', rfl, g1, g2, g3, g4⟩⟩

/-- **C51 (errors).** Otherwise an error is returned; the search neither panics nor hangs. -/
theorem C51_otherwise (file : List Byte) (pos : Nat) (h : ¬ ∃ eo, 0 < eo ∧ file.length < eo + 2 ^ 20 ∧ At file eo [0x50, 0x4b, 5, 6]) :
    ∃ e, findEocdr file pos = .err (.io e) := by
  apply returns_cases (returns_find file) pos
  rintro ⟨⟨_, q⟩, hq⟩
  exact h ((C51_found file pos).mp ⟨q, hq⟩)

example : findEocdr [0x50, 0x4b, 5, 6, 0x50, 0x4b, 5, 6, 1, 2] 0 = .ok ((), 8) := by decide
example : findEocdr [0x50, 0x4b, 5, 6, 1, 2] 0 = .err (.io .invalidData) := by decide

/-! ### C52: the checksum -/

/-- The published check value of CRC-32: the checksum of the digits 1 to 9. -/
example : Spec.crc32 [0x31, 0x32, 0x33, 0x34, 0x35, 0x36, 0x37, 0x38, 0x39] = 0xCBF43926#32 := by decide +kernel

/-- The checksum computed incrementally by the program, over any division of the data into pieces, is the CRC-32. -/
theorem C52_incremental (pieces : List (List Byte)) : (pieces.foldl Hasher.update Hasher.new).finish = Spec.crc32 pieces.flatten := by
  have : ∀ (ps : List (List Byte)) (h : Hasher), ps.foldl Hasher.update h = h.update ps.flatten := by
    intro ps
    induction ps with
    | nil => intro h; simp [Hasher.update]
    | cons p ps ih => intro h; rw [List.foldl_cons, ih, update_append]; simp
  rw [this, hasher_crc32]

/-- **C52.** Reading checksummed data to the end, in whatever pieces: the client gets exactly the data; it gets to the end if the checksum is
that of the data, and an error ("invalid data") after the last byte otherwise. -/
theorem C52_check (inner : Inner) (hn : NoFail inner) (expected : BitVec 32) (out : List Byte) (e : Option Err)
    (h : ReadsToEnd CrcReader.read (CrcReader.new inner expected) out e) :
    out = inner.data ∧ e = if Spec.crc32 inner.data = expected then none else some (.io .invalidData) := by
  obtain ⟨h1, h2, h3⟩ := crc_toEnd _ hn out e h
  have h1 : out = inner.data := h1
  have h2 : e = none ↔ (Hasher.new.update out).finish = expected := h2
  rw [hasher_crc32, h1] at h2
  refine ⟨h1, ?_⟩
  by_cases hc : Spec.crc32 inner.data = expected
  · rw [if_pos hc]; exact h2.mpr hc
  · rw [if_neg hc]; exact h3 (fun he => hc (h2.mp he))

/-- **C52 (it does end).** With any positive buffer size. -/
theorem C52_ends (inner : Inner) (expected : BitVec 32) (n : Nat) (hn : 0 < n) :
    ∃ out e, ReadsToEnd CrcReader.read (CrcReader.new inner expected) out e :=
  crc_toEnd_exists n hn _ _ (Nat.le_refl _)

/-- A sequence of reads with buffers of the given sizes, going on after errors. -/
def runCrc : List Nat → CrcReader → List (Res (List Byte)) × CrcReader
  | [], r => ([], r)
  | n :: ns, r =>
    let (a, r') := r.read n
    let (as, r'') := runCrc ns r'
    (a :: as, r'')

theorem runCrc_spec : ∀ (ns : List Nat) (r : CrcReader),
    deliveredBytes (runCrc ns r).1 ++ (runCrc ns r).2.inner.data = r.inner.data ∧
    (runCrc ns r).2.hasher = r.hasher.update (deliveredBytes (runCrc ns r).1) ∧ (runCrc ns r).2.crc32 = r.crc32 ∧
    (∀ a ∈ (runCrc ns r).1, (∃ bs, a = .ok bs) ∨ ∃ e, a = .err (.io e)) ∧ (NoFail r.inner → NoFail (runCrc ns r).2.inner)
  | [], r => by simp [runCrc, deliveredBytes, Hasher.update]
  | n :: ns, r => by
    rcases crcRead_cases r n with ⟨bs, r', h1, h2, h3, h4, h5, h6, h7⟩ | ⟨e, r', h1, h2, h3, h4, h5, h6, _⟩
    · obtain ⟨i1, i2, i3, i4, i5⟩ := runCrc_spec ns r'
      simp only [runCrc, h1, deliveredBytes]
      refine ⟨by rw [List.append_assoc, i1, h2], by rw [i2, h4, update_append], by rw [i3, h5], ?_, fun hn => i5 (h7 hn)⟩
      intro a ha
      rcases List.mem_cons.mp ha with rfl | ha
      · exact .inl ⟨bs, rfl⟩
      · exact i4 a ha
    · obtain ⟨i1, i2, i3, i4, i5⟩ := runCrc_spec ns r'
      simp only [runCrc, h1, deliveredBytes]
      refine ⟨by rw [i1, h2], by rw [i2, h3], by rw [i3, h4], ?_, fun hn => i5 (h6 hn)⟩
      intro a ha
      rcases List.mem_cons.mp ha with rfl | ha
      · exact .inr ⟨e, rfl⟩
      · exact i4 a ha

/-- **C52 (any history).** Whatever sequence of reads was made before, with errors of the underlying reader in between: the bytes delivered are a
prefix of the data, every answer is bytes or an I/O error, and the end of the data is only ever reported when all bytes were delivered and
their checksum is the expected one; without errors of the underlying reader, the checksum error is reported exactly at the end of data with
a different checksum. -/
theorem C52_history (inner : Inner) (expected : BitVec 32) (ns : List Nat) :
    let (as, r) := runCrc ns (CrcReader.new inner expected)
    deliveredBytes as <+: inner.data ∧
    (∀ a ∈ as, (∃ bs, a = .ok bs) ∨ ∃ e, a = .err (.io e)) ∧
    (∀ n, 0 < n → (r.read n).1 = .ok [] → deliveredBytes as = inner.data ∧ Spec.crc32 inner.data = expected) ∧
    (NoFail inner → ∀ n, 0 < n → ((∃ e, (r.read n).1 = .err e) ↔ deliveredBytes as = inner.data ∧ Spec.crc32 inner.data ≠ expected)) := by
  obtain ⟨h1, h2, h3, h4, h5⟩ := runCrc_spec ns (CrcReader.new inner expected)
  simp only [CrcReader.new] at h1 h2 h3
  refine ⟨⟨_, h1⟩, h4, ?_, ?_⟩
  · intro n hn hr
    rcases crcRead_cases (runCrc ns (CrcReader.new inner expected)).2 n with ⟨bs, r', g1, g2, g3, g4, g5, g6, g7⟩ | ⟨e, r', g1, _⟩
    · simp only [CrcReader.new] at *
      rw [g1] at hr; simp at hr; subst hr
      obtain ⟨k1, k2⟩ := g6 hn rfl
      rw [k1.1, List.append_nil] at h1
      rw [h2, h3, hasher_crc32, h1] at k2
      exact ⟨h1, k2⟩
    · simp only [CrcReader.new] at *
      rw [g1] at hr; simp at hr
  · intro hnf n hn
    have hnf' := h5 hnf
    rcases crcRead_cases (runCrc ns (CrcReader.new inner expected)).2 n with ⟨bs, r', g1, g2, g3, g4, g5, g6, g7⟩ | ⟨e, r', g1, g2, g3, g4, g5, _⟩
    · simp only [CrcReader.new] at *
      rw [g1]
      simp only [reduceCtorEq, exists_false, false_iff]
      rintro ⟨k1, k2⟩
      rw [k1] at h1
      have hd : (runCrc ns ⟨inner, expected, Hasher.new⟩).2.inner.data = [] := by simpa using h1
      rw [hd] at g2
      have hbs : bs = [] := (List.append_eq_nil_iff.mp g2).1
      have := (g6 hn hbs).2
      rw [h2, h3, hasher_crc32, k1] at this
      exact k2 this
    · simp only [CrcReader.new] at *
      rw [g1]
      simp only [Res.err.injEq, exists_eq', true_iff]
      rcases g5 with g5 | ⟨_, _, g6, g7⟩
      · exact absurd g5 (hnf' e)
      · rw [g6, List.append_nil] at h1
        rw [h2, h3, hasher_crc32, h1] at g7
        exact ⟨h1, g7⟩

/-- Nine bytes in pieces of at most four with the right and a wrong checksum. -/
example : (runCrc [4, 4, 4, 4] (CrcReader.new ⟨[0x31, 0x32, 0x33, 0x34, 0x35, 0x36, 0x37, 0x38, 0x39], [.bytes 3], none⟩ 0xCBF43926#32)).1 =
    [.ok [0x31, 0x32, 0x33], .ok [0x34, 0x35, 0x36, 0x37], .ok [0x38, 0x39], .ok []] := by decide +kernel
example : (runCrc [4, 4, 4, 4] (CrcReader.new ⟨[0x31, 0x32, 0x33, 0x34, 0x35, 0x36, 0x37, 0x38, 0x39], [.bytes 3], none⟩ 0xCBF43927#32)).1 =
    [.ok [0x31, 0x32, 0x33], .ok [0x34, 0x35, 0x36, 0x37], .ok [0x38, 0x39], .err (.io .invalidData)] := by decide +kernel

/-! ### C53: corruption is detected -/

/-- **C53.** If the data were changed only within 32 consecutive bits, reading them to the end with the checksum of the original fails with the
checksum error. -/
theorem C53_burst (original : List Byte) (inner : Inner) (hn : NoFail inner) (hb : BurstOf 32 original inner.data) (out : List Byte) (e : Option Err)
    (h : ReadsToEnd CrcReader.read (CrcReader.new inner (Spec.crc32 original)) out e) : e = some (.io .invalidData) := by
  obtain ⟨_, h2⟩ := C52_check inner hn _ out e h
  rw [h2, if_neg (fun he => crc32_burst hb he.symm)]

/-- **C53.** In particular if one byte was changed. -/
theorem C53_byte (a b : List Byte) (x y : Byte) (hxy : x ≠ y) (sched : List ReadStep) (hn : ∀ e, ReadStep.fail e ∉ sched) (out : List Byte)
    (e : Option Err) (h : ReadsToEnd CrcReader.read (CrcReader.new ⟨a ++ y :: b, sched, none⟩ (Spec.crc32 (a ++ x :: b))) out e) :
    e = some (.io .invalidData) :=
  C53_burst _ ⟨_, sched, none⟩ (noFail_none hn) (burst_mono (by omega) (burst_byte a b hxy)) out e h

/-- **C53.** Or up to four consecutive bytes. -/
theorem C53_bytes (a b x y : List Byte) (hl : x.length = y.length) (h4 : x.length ≤ 4) (hxy : x ≠ y) (sched : List ReadStep)
    (hn : ∀ e, ReadStep.fail e ∉ sched) (out : List Byte) (e : Option Err)
    (h : ReadsToEnd CrcReader.read (CrcReader.new ⟨a ++ y ++ b, sched, none⟩ (Spec.crc32 (a ++ x ++ b))) out e) : e = some (.io .invalidData) :=
  C53_burst _ ⟨_, sched, none⟩ (noFail_none hn) (burst_bytes a b hl h4 hxy) out e h

/-- A burst that crosses byte boundaries. -/
example : BurstOf 32 [1, 2, 0x80, 4, 5, 6, 7] [1, 2, 0x00, 5, 5, 7, 7] := by
  refine ⟨bitsOf [1, 2] ++ [false, false, false, false, false, false, false], [true] ++ bitsOf [4, 5] ++ [false],
    [false] ++ bitsOf [5, 5] ++ [true], [true, true, false, false, false, false, false] ++ bitsOf [7], ?_, ?_, ?_, ?_, ?_⟩ <;> decide +kernel

/-! ### C50: well-formed archives -/

/-- The full claim: every well-formed archive is opened, and reading to the end gives the content. It is false, see the two counterexamples. -/
def C50_claim : Prop :=
  ∀ (lib : ZipLib) (file : List Byte) (L : Layout) (name : Str) (content : List Byte), StoredArchive file L name content → ∀ pos,
    ∃ r q, openZip lib file pos = .ok ((r, name), q) ∧
      ((∀ e, ReadStep.fail e ∉ lib.sched) → ∀ out e, ReadsToEnd CrcReader.read r out e → out = content ∧ e = none)

/-- The condition under which the loop over the extra field of the central directory stops in time. -/
def ExtraHarmless (file : List Byte) (L : Layout) : Prop :=
  L.ch.extra = [] ∨ (L.ch.extra.length ≤ 338 ∧ (∀ b ∈ L.ch.comment, 0x20 ≤ b.toNat) ∧
    (At file (L.cd + L.ch.bytes.length) [0x50, 0x4b, 5, 6] ∨ At file (L.cd + L.ch.bytes.length) [0x50, 0x4b, 6, 6]))

theorem stops_of_layout {file : List Byte} {L : Layout} {name : Str} {usize : Nat} {packed : List Byte} (h : SingleFile file L name usize packed)
    (hextra : ExtraHarmless file L) : StopsAt file (L.cd + 46 + L.ch.name.length + L.ch.extraBytes.length) L.ch.extra.length := by
  rcases hextra with h0 | ⟨h1, h2, h3⟩
  · left; rw [h0]; rfl
  · have hc := central_fields h.centralOk h.centralAt
    have hcom := hc.2.2.2.2.2.2.2.2.2.2.2.2.2.2
    rw [central_length _ h.centralOk] at h3
    have key : ∀ y : Byte, At file (L.cd + (46 + L.ch.name.length + L.ch.extraBytes.length + L.ch.comment.length)) [0x50, 0x4b, y, 6] →
        At file (L.cd + 46 + L.ch.name.length + L.ch.extraBytes.length) (L.ch.comment ++ [0x50, 0x4b, y, 6]) := by
      intro y hy
      rw [at_append]
      refine ⟨hcom, ?_⟩
      rw [show L.cd + 46 + L.ch.name.length + L.ch.extraBytes.length + L.ch.comment.length =
        L.cd + (46 + L.ch.name.length + L.ch.extraBytes.length + L.ch.comment.length) by omega]
      exact hy
    rcases h3 with h3 | h3
    · exact stops_of_comment (.inl rfl) (key _ h3) h2 h1
    · exact stops_of_comment (.inr rfl) (key _ h3) h2 h1

/-- **C50.** Every well-formed archive with a single stored file - with any name, content, local extra data, archive comment without an end
record signature in it, with or without zip64 records, with or without something before or between the records - is opened, and reading to the
end in any pieces gives the stored bytes; provided that the entry has no extra field in the central directory, or that it has at most 338
subfields, and is followed by an entry comment without control characters, and directly by the end record or the zip64 end record.
Missing: entries with an extra field and a comment with control characters, or with more subfields (the loop over the extra field does not count
the headers of the subfields and runs over the end of the field). -/
theorem C50_open_partial (lib : ZipLib) (file : List Byte) (L : Layout) (name : Str) (content : List Byte) (h : StoredArchive file L name content)
    (hlast : LastEnd file L.eo)
    (hextra : ExtraHarmless file L) (pos : Nat) :
    ∃ r q, openZip lib file pos = .ok ((r, name), q) ∧
      (∃ out e, ReadsToEnd CrcReader.read r out e) ∧
      ((∀ e, ReadStep.fail e ∉ lib.sched) → ∀ out e, ReadsToEnd CrcReader.read r out e → out = content ∧ e = none) := by
  have hst := stops_of_layout h.toSingleFile hextra
  obtain ⟨q, hq⟩ := openZip_single lib h.toSingleFile (.inl h.stored) hlast hst pos
  rw [h.stored, h.sum] at hq
  refine ⟨_, q, hq, C52_ends _ _ 1 (by omega), ?_⟩
  intro hn out e hr
  have := C52_check ⟨content, lib.sched, none⟩ (noFail_none hn) _ out e hr
  simpa using this

/-- **C50 (compressed entries).** The same for an entry compressed with deflate or bzip2, if the decoder turns the packed data into the content. -/
theorem C50_compressed_partial (lib : ZipLib) (file : List Byte) (L : Layout) (name : Str) (packed content : List Byte)
    (h : SingleFile file L name content.length packed) (hsum : L.ch.crc = Spec.crc32 content)
    (hm : (L.ch.method = 8 ∧ ∃ s, lib.inflate ⟨packed, lib.sched, none⟩ = ⟨content, s, none⟩ ∧ ∀ e, ReadStep.fail e ∉ s) ∨
      (L.ch.method = 12 ∧ ∃ s, lib.bunzip ⟨packed, lib.sched, none⟩ = ⟨content, s, none⟩ ∧ ∀ e, ReadStep.fail e ∉ s))
    (hlast : LastEnd file L.eo) (hextra : ExtraHarmless file L) (pos : Nat) :
    ∃ r q, openZip lib file pos = .ok ((r, name), q) ∧
      (∃ out e, ReadsToEnd CrcReader.read r out e) ∧
      (∀ out e, ReadsToEnd CrcReader.read r out e → out = content ∧ e = none) := by
  obtain ⟨q, hq⟩ := openZip_single lib h (by rcases hm with hm | hm <;> simp [hm.1]) hlast (stops_of_layout h hextra) pos
  have hu : ∃ s, unpacked lib L.ch.method packed = ⟨content, s, none⟩ ∧ ∀ e, ReadStep.fail e ∉ s := by
    unfold unpacked
    rcases hm with ⟨hm, s, h1, h2⟩ | ⟨hm, s, h1, h2⟩
    · rw [hm]; exact ⟨s, by simpa using h1, h2⟩
    · rw [hm]; exact ⟨s, by simpa using h1, h2⟩
  obtain ⟨s, hu1, hu2⟩ := hu
  rw [hu1, hsum] at hq
  refine ⟨_, q, hq, C52_ends _ _ 1 (by omega), ?_⟩
  intro out e hr
  have := C52_check ⟨content, s, none⟩ (noFail_none hu2) _ out e hr
  simpa using this

/-- **C53 (in an archive).** If the content stored in an archive was changed within 32 consecutive bits (the checksum in the archive is that of
the original), the archive is opened but reading to the end fails with the checksum error. -/
theorem C53_archive (lib : ZipLib) (hn : ∀ e, ReadStep.fail e ∉ lib.sched) (file : List Byte) (L : Layout) (name : Str) (original data : List Byte)
    (h : SingleFile file L name original.length data) (hstored : L.ch.method = 0) (hsum : L.ch.crc = Spec.crc32 original)
    (hb : BurstOf 32 original data) (hlast : LastEnd file L.eo) (hextra : ExtraHarmless file L) (pos : Nat) :
    ∃ r q, openZip lib file pos = .ok ((r, name), q) ∧
      ∀ out e, ReadsToEnd CrcReader.read r out e → e = some (.io .invalidData) := by
  obtain ⟨q, hq⟩ := openZip_single lib h (.inl hstored) hlast (stops_of_layout h hextra) pos
  rw [hstored, hsum] at hq
  refine ⟨_, q, hq, ?_⟩
  intro out e hr
  exact C53_burst original ⟨data, lib.sched, none⟩ (noFail_none hn) hb out e hr

/-! A concrete archive: some bytes in front (a self extracting stub), a local header with name and extra field, the content, a data descriptor, a
central header with a zip64 subfield for the local offset and another subfield and a comment, zip64 records, an archive comment. -/

/-- Bytes of ASCII text. -/
def asciiBytes (s : String) : List Byte := s.toList.map fun c => BitVec.ofNat 8 c.toNat

def exLocal : LocalHeader := ⟨List.replicate 22 7, asciiBytes "a.csv", [1, 2, 3]⟩
def exZipContent : List Byte := asciiBytes "123456789"
def exCentral : CentralHeader :=
  ⟨[1, 1, 1, 1], 0, 0, [2, 2, 2, 2], 0xCBF43926#32, 9, 9, 0xffff, [3, 3, 3, 3, 3, 3], 0xffffffff, asciiBytes "a.csv",
    [⟨0x5455, [9, 9, 9]⟩, ⟨1, leBytes 8 2⟩], asciiBytes "hi"⟩
def exZipStart : List Byte := [0xAA, 0xBB] ++ exLocal.bytes ++ exZipContent ++ [1, 2, 3, 4]
def exZipFile : List Byte :=
  exZipStart ++ exCentral.bytes ++ eocd64Bytes (List.replicate 12 5) 0 0 1 1 68 53 ++ locatorBytes 0 (53 + 72) 1 ++
    eocdBytes 0 0 1 1 68 0xffffffff (asciiBytes "bye")
def exZipLayout : Layout := ⟨2, exLocal, 53, exCentral, 53 + 72 + 56 + 20, 68, 0xffffffff, asciiBytes "bye"⟩

/-- No signature after `eo`, decidable form. -/
theorem lastEnd_of {file : List Byte} {eo : Nat} (h : ∀ p < file.length, eo < p → (file.drop p).take 4 ≠ [0x50, 0x4b, 5, 6]) : LastEnd file eo := by
  intro p hp ha
  have := at_len ha (by simp)
  simp only [List.length_cons, List.length_nil] at this
  exact h p (by omega) hp ha

/-- The conditions on a header that only has fields of limited size, for concrete headers. -/
theorem exCentral_ok : exCentral.Ok where
  versions := rfl
  flags := by decide
  method := by decide
  time := rfl
  csize := by decide
  usize := by decide
  disk := by decide
  attrs := rfl
  off := by decide
  name := by decide
  extra := by decide +kernel
  subs := by
    intro s hs
    simp only [exCentral, List.mem_cons, List.not_mem_nil, or_false] at hs
    rcases hs with rfl | rfl <;> exact ⟨by decide, by decide +kernel⟩
  comment := by decide

theorem exArchive : StoredArchive exZipFile exZipLayout ['a', '.', 'c', 's', 'v'] exZipContent where
  localOk := ⟨by decide, by decide, by decide⟩
  localAt := by unfold At; decide +kernel
  inside := by decide +kernel
  centralOk := exCentral_ok
  centralAt := by unfold At; decide +kernel
  stored := rfl
  plain := by decide
  oneDisk := .inr rfl
  sum := by decide +kernel
  sizes := {
    once := by
      intro pre s post h hid
      have hp : pre = [⟨0x5455, [9, 9, 9]⟩] ∧ post = [] := by
        match pre, h with
        | [], h => simp [exZipLayout, exCentral] at h; rw [← h.1] at hid; exact absurd hid (by decide)
        | [x], h => simp [exZipLayout, exCentral] at h; exact ⟨by rw [← h.1]; rfl, by simpa using h.2.2⟩
        | x :: y :: pre, h => simp [exZipLayout, exCentral] at h
      rw [hp.1, hp.2]
      intro t ht
      simp at ht
      rw [ht]; decide
    absent := by
      intro h
      exact absurd rfl (h ⟨1, leBytes 8 2⟩ (by simp [exZipLayout, exCentral]))
    present := by
      intro s hs hid
      simp only [exZipLayout, exCentral, List.mem_cons, List.not_mem_nil, or_false] at hs
      rcases hs with rfl | rfl
      · exact absurd hid (by decide)
      · refine ⟨by decide +kernel, by decide +kernel, by decide +kernel, by decide +kernel⟩
    bounds := by decide +kernel }
  named := by unfold NameIs; decide +kernel
  cdSize := by decide
  cdOff32 := by decide
  comment := by decide
  endAt := by unfold At; decide +kernel
  endLast := by decide +kernel
  order := by decide +kernel
  central := .inr ⟨by decide, 125, List.replicate 12 5, 68, rfl, by decide, by decide, by unfold At; decide +kernel, by unfold At; decide +kernel⟩
  size := by decide +kernel

/-- The hypotheses of the theorem are met. -/
example : StoredArchive exZipFile exZipLayout ['a', '.', 'c', 's', 'v'] exZipContent ∧ LastEnd exZipFile exZipLayout.eo ∧
    (exZipLayout.ch.extra.length ≤ 338 ∧ (∀ b ∈ exZipLayout.ch.comment, 0x20 ≤ b.toNat) ∧
      At exZipFile (exZipLayout.cd + exZipLayout.ch.bytes.length) [0x50, 0x4b, 6, 6]) :=
  ⟨exArchive, lastEnd_of (by decide +kernel), by decide, by decide +kernel, by unfold At; decide +kernel⟩

/-- An archive with one empty file with an empty name: what is in the extra field, in the comments. -/
def emptyCentral (subs : List Subfield) (comment : List Byte) : CentralHeader :=
  ⟨[0, 0, 0, 0], 0, 0, [0, 0, 0, 0], 0#32, 0, 0, 0, [0, 0, 0, 0, 0, 0], 0, [], subs, comment⟩
def emptyLocal : LocalHeader := ⟨List.replicate 22 0, [], []⟩
def emptyFile (subs : List Subfield) (entryComment comment : List Byte) : List Byte :=
  emptyLocal.bytes ++ (emptyCentral subs entryComment).bytes ++ eocdBytes 0 0 1 1 0 30 comment
def emptyLayout (subs : List Subfield) (entryComment comment : List Byte) : Layout :=
  ⟨0, emptyLocal, 30, emptyCentral subs entryComment, 30 + (emptyCentral subs entryComment).bytes.length, 0, 30, comment⟩

theorem emptyArchive (subs : List Subfield) (entryComment comment : List Byte) (h1 : ∀ s ∈ subs, s.Ok ∧ s.id ≠ 1)
    (h2 : (subs.flatMap Subfield.bytes).length < 65536) (h3 : entryComment.length < 65536) (h4 : comment.length < 65536)
    (h5 : ¬ At (emptyFile subs entryComment comment) (30 + (emptyCentral subs entryComment).bytes.length - 20) [0x50, 0x4b, 6, 7]) :
    StoredArchive (emptyFile subs entryComment comment) (emptyLayout subs entryComment comment) [] [] := by
  have hz : ∀ n, 0 < n → 0 < n := fun _ h => h
  have hok : (emptyCentral subs entryComment).Ok :=
    ⟨rfl, hz _ (by decide), hz _ (by decide), rfl, hz _ (by decide), hz _ (by decide), hz _ (by decide), rfl, hz _ (by decide), hz _ (by decide),
      h2, fun s hs => (h1 s hs).1, h3⟩
  have hloc : emptyLocal.bytes.length = 30 := by decide
  have hcl := central_length _ hok
  have hnil : (emptyCentral subs entryComment).name.length = 0 := rfl
  have hcom : (emptyCentral subs entryComment).comment.length = entryComment.length := rfl
  have heb : (emptyCentral subs entryComment).extraBytes.length = (subs.flatMap Subfield.bytes).length := rfl
  have hel : (eocdBytes 0 0 1 1 0 30 comment).length = 22 + comment.length := by
    simp only [eocdBytes, List.length_append, leBytes_length, List.length_cons, List.length_nil]
  have hlen : (emptyFile subs entryComment comment).length = 30 + (emptyCentral subs entryComment).bytes.length + (22 + comment.length) := by
    simp only [emptyFile, List.length_append, hloc, hel]
  have hself : ∀ (l a b : List Byte), At (a ++ l ++ b) a.length l := by
    intro l a b
    unfold At
    rw [List.append_assoc, List.drop_left, List.take_left]
  refine ⟨?_, rfl, show 0#32 = Spec.crc32 [] by decide⟩
  constructor
  · exact ⟨show emptyLocal.mid.length = 22 by decide, show emptyLocal.name.length < 65536 by decide, show emptyLocal.extra.length < 65536 by decide⟩
  · have := hself (emptyLocal.bytes ++ []) [] ((emptyCentral subs entryComment).bytes ++ eocdBytes 0 0 1 1 0 30 comment)
    simpa [emptyFile, emptyLayout] using this
  · simp only [emptyLayout, hloc, List.length_nil]; omega
  · exact hok
  · have := hself (emptyCentral subs entryComment).bytes emptyLocal.bytes (eocdBytes 0 0 1 1 0 30 comment)
    rw [hloc] at this
    exact this
  · show Nat.testBit 0 0 = false; decide
  · exact .inl rfl
  · refine ⟨?_, fun _ => ⟨rfl, rfl, rfl⟩, ?_, hz _ (by decide), hz _ (by decide), hz _ (by decide)⟩
    · intro pre s post he hid
      have hs : s ∈ subs := by
        have : s ∈ (emptyLayout subs entryComment comment).ch.extra := by rw [he]; simp
        exact this
      exact absurd hid (h1 s hs).2
    · intro s hs hid
      exact absurd hid (h1 s hs).2
  · show NameIs 0 [] []
    unfold NameIs; decide
  · exact hz _ (by decide)
  · show 30 < 2 ^ 32; decide
  · exact h4
  · have := hself (eocdBytes 0 0 1 1 0 30 comment) (emptyLocal.bytes ++ (emptyCentral subs entryComment).bytes) []
    rw [List.append_nil, List.length_append, hloc] at this
    exact this
  · show 30 + (emptyCentral subs entryComment).bytes.length + 22 + comment.length = (emptyFile subs entryComment comment).length
    omega
  · exact Nat.le_refl _
  · exact .inl ⟨h5, rfl⟩
  · rw [hlen, hcl, hnil, hcom, heb]; omega

/-- Some library; nothing of it is used. -/
def exLib : ZipLib := ⟨fun _ => [], id, id, []⟩

/-- **C50 is false of the code**: an extra field of ten empty subfields (which other zip programs accept) and an entry comment of the bytes
0, 0, 39, 0: the file cannot be opened. -/
theorem C50_counterexample_extra : ¬ C50_claim := by
  intro h
  obtain ⟨r, q, h1, _⟩ := h exLib _ _ _ _ (emptyArchive (List.replicate 10 ⟨2, []⟩) [0, 0, 39, 0] [] (by
    intro s hs
    rw [(List.mem_replicate.mp hs).2]
    exact ⟨⟨by decide, by decide⟩, by decide⟩) (by decide +kernel) (by decide) (by decide) (by unfold At; decide +kernel)) 0
  have : openZip exLib (emptyFile (List.replicate 10 ⟨2, []⟩) [0, 0, 39, 0] []) 0 = .err (.io .unexpectedEof) := by decide +kernel
  rw [this] at h1
  simp at h1

/-- **C50 is false of the code**: an archive comment of the four bytes of an end record signature: the file cannot be opened. -/
theorem C50_counterexample_comment : ¬ C50_claim := by
  intro h
  obtain ⟨r, q, h1, _⟩ := h exLib _ _ _ _ (emptyArchive [] [] [0x50, 0x4b, 5, 6] (by simp) (by decide) (by decide) (by decide)
    (by unfold At; decide +kernel)) 0
  have : openZip exLib (emptyFile [] [] [0x50, 0x4b, 5, 6]) 0 = .err (.io .unexpectedEof) := by decide +kernel
  rw [this] at h1
  simp at h1

/-! ### C54: what is not supported is rejected -/

/-- **C54.** Opening any file gives a reader or an I/O error, never a panic or an endless loop. -/
theorem C54_total (lib : ZipLib) (file : List Byte) (pos : Nat) :
    (∃ r, openZip lib file pos = .ok r) ∨ ∃ e, openZip lib file pos = .err (.io e) := returns_openZip lib file pos

/-- **C54.** If the end record says that the archive does not have exactly one entry, or consists of several parts, an error is returned. -/
theorem C54_rejects_end (lib : ZipLib) (file : List Byte) (pos eo disk diskCd entriesDisk entries cdSize cdOffset : Nat) (comment : List Byte)
    (hat : At file eo (eocdBytes disk diskCd entriesDisk entries cdSize cdOffset comment)) (h1 : disk < 65536) (h2 : diskCd < 65536)
    (h3 : entriesDisk < 65536) (h4 : entries < 65536) (h5 : cdSize < 2 ^ 32) (h6 : cdOffset < 2 ^ 32) (h7 : comment.length < 65536)
    (hlast : LastEnd file eo) (hbad : disk ≠ 0 ∨ diskCd ≠ 0 ∨ entriesDisk ≠ 1 ∨ entries ≠ 1) :
    ∃ e, openZip lib file pos = .err (.io e) := by
  apply returns_cases (returns_openZip lib file) pos
  rintro ⟨⟨⟨r, name⟩, q⟩, hq⟩
  obtain ⟨eo', _, _, g3, g4, e, p, he, _⟩ := (openZip_ok lib file pos r name).mp ⟨q, hq⟩
  obtain ⟨f1, f2, f3, f4, f5, f6, f7, f8, f9⟩ := eocd_fields hat h1 h2 h3 h4 h5 h6 h7
  have := lastEnd_unique g3 f1 g4 hlast
  subst this
  rw [eocdrRead_ok] at he
  simp only [Nat.add_assoc, Nat.reduceAdd] at he
  rw [f3, f4, f5, f6] at he
  omega

/-- **C54.** If there is a zip64 locator and it says that the archive consists of several parts, or the zip64 end record it points to says so, or
that there is not exactly one entry, or if it does not point to a zip64 end record, an error is returned. -/
theorem C54_rejects_end64 (lib : ZipLib) (file : List Byte) (pos eo a b c d cdSize cdOffset diskLoc zo disks : Nat) (comment : List Byte)
    (hat : At file eo (eocdBytes a b c d cdSize cdOffset comment)) (h1 : a < 65536) (h2 : b < 65536)
    (h3 : c < 65536) (h4 : d < 65536) (h5 : cdSize < 2 ^ 32) (h6 : cdOffset < 2 ^ 32) (h7 : comment.length < 65536)
    (hlast : LastEnd file eo) (hend : eo + 22 + comment.length = file.length) (heo : 20 ≤ eo)
    (hloc : At file (eo - 20) (locatorBytes diskLoc zo disks)) (h8 : diskLoc < 2 ^ 32) (h9 : zo < 2 ^ 64) (h10 : disks < 2 ^ 32)
    (hbad : disks ≠ 1 ∨ diskLoc ≠ 0 ∨
      (¬ ∃ pre cdSize64 cd, pre.length = 12 ∧ At file zo (eocd64Bytes pre 0 0 1 1 cdSize64 cd))) :
    ∃ e, openZip lib file pos = .err (.io e) := by
  apply returns_cases (returns_openZip lib file) pos
  rintro ⟨⟨⟨r, name⟩, q⟩, hq⟩
  obtain ⟨eo', _, _, g3, g4, e, p, he, cd, p', hs, _⟩ := (openZip_ok lib file pos r name).mp ⟨q, hq⟩
  obtain ⟨f1, f2, f3, f4, f5, f6, f7, f8, f9⟩ := eocd_fields hat h1 h2 h3 h4 h5 h6 h7
  have := lastEnd_unique g3 f1 g4 hlast
  subst this
  rw [eocdrRead_ok] at he
  simp only [Nat.add_assoc, Nat.reduceAdd] at he
  rw [f9] at he
  have hs := (getStart_ok file e p cd).mp ⟨p', hs⟩
  rw [he.2.2.2.2.2.2.1] at hs
  simp only at hs
  rw [show file.length - (42 + comment.length) = eo' - 20 by omega] at hs
  simp only [locatorBytes, at_append, List.length_append, leBytes_length, List.length_cons, List.length_nil, Nat.reduceAdd] at hloc
  obtain ⟨⟨⟨l1, l2⟩, l3⟩, l4⟩ := hloc
  rw [← sigLoc64] at l1
  have e0 := leAt_of_at l1 (by omega)
  have e1 := leAt_of_at l2 (by omega)
  have e2 := leAt_of_at l3 (by omega)
  have e3 := leAt_of_at l4 (by omega)
  rw [e0, e1, e2, e3] at hs
  rcases hs with ⟨hs, _⟩ | ⟨_, _, k1, k2, k3, k4, k5, k6, k7, k8, k9, k10⟩
  · exact hs ⟨by omega, rfl⟩
  · rcases hbad with hb | hb | hb
    · exact hb k2
    · exact hb k1
    · apply hb
      refine ⟨(file.drop (zo + 4)).take 12, leAt file (zo + 40) 8, cd, by simp; omega, ?_⟩
      have hp12 : ((file.drop (zo + 4)).take 12).length = 12 := by simp; omega
      have s1 : At file zo [0x50, 0x4b, 6, 6] := by rw [← sigEnd64]; exact (sig_iff (by omega)).mp ⟨by omega, k5⟩
      have s2 : At file (zo + 4) ((file.drop (zo + 4)).take 12) := by unfold At; rw [hp12]
      have s3 : At file (zo + 16) (leBytes 4 0) := by have := at_of_leAt (file := file) (off := zo + 16) (n := 4) (by omega); rwa [k6] at this
      have s4 : At file (zo + 20) (leBytes 4 0) := by have := at_of_leAt (file := file) (off := zo + 20) (n := 4) (by omega); rwa [k7] at this
      have s5 : At file (zo + 24) (leBytes 8 1) := by have := at_of_leAt (file := file) (off := zo + 24) (n := 8) (by omega); rwa [k8] at this
      have s6 : At file (zo + 32) (leBytes 8 1) := by have := at_of_leAt (file := file) (off := zo + 32) (n := 8) (by omega); rwa [k9] at this
      have s7 : At file (zo + 40) (leBytes 8 (leAt file (zo + 40) 8)) := at_of_leAt (by omega)
      have s8 : At file (zo + 48) (leBytes 8 cd) := by have := at_of_leAt (file := file) (off := zo + 48) (n := 8) (by omega); rwa [← k10] at this
      simp only [eocd64Bytes, at_append, List.length_append, leBytes_length, List.length_cons, List.length_nil, hp12, Nat.reduceAdd]
      exact ⟨⟨⟨⟨⟨⟨⟨s1, s2⟩, s3⟩, s4⟩, s5⟩, s6⟩, s7⟩, s8⟩

/-- **C54.** If the entry is encrypted, starts on another disk, or uses a compression method other than stored, deflate and bzip2, an error is
returned. -/
theorem C54_rejects_entry (lib : ZipLib) (file : List Byte) (pos eo a b c d cdSize cdOffset cd : Nat) (comment : List Byte)
    (hat : At file eo (eocdBytes a b c d cdSize cdOffset comment)) (h1 : a < 65536) (h2 : b < 65536)
    (h3 : c < 65536) (h4 : d < 65536) (h5 : cdSize < 2 ^ 32) (h6 : cdOffset < 2 ^ 32) (h7 : comment.length < 65536)
    (hlast : LastEnd file eo) (hend : eo + 22 + comment.length = file.length) (hsize : file.length < 2 ^ 62)
    (hcd : CentralIs file eo cdOffset cd) (h : CentralHeader) (hok : h.Ok) (hca : At file cd h.bytes)
    (hbad : h.flags.testBit 0 = true ∨ (h.disk ≠ 0 ∧ h.disk ≠ 0xffff) ∨ (h.method ≠ 0 ∧ h.method ≠ 8 ∧ h.method ≠ 12)) :
    ∃ e, openZip lib file pos = .err (.io e) := by
  apply returns_cases (returns_openZip lib file) pos
  rintro ⟨⟨⟨r, name⟩, q⟩, hq⟩
  obtain ⟨eo', _, _, g3, g4, e, p, he, cd', p', hs, _, hd, p'', hr, _, _, _, _, _, _, _, hm⟩ := (openZip_ok lib file pos r name).mp ⟨q, hq⟩
  obtain ⟨f1, f2, f3, f4, f5, f6, f7, f8, f9⟩ := eocd_fields hat h1 h2 h3 h4 h5 h6 h7
  have := lastEnd_unique g3 f1 g4 hlast
  subst this
  rw [eocdrRead_ok] at he
  simp only [Nat.add_assoc, Nat.reduceAdd] at he
  rw [f7, f8, f9] at he
  rw [he.2.2.2.2.2.2.1] at hs
  obtain ⟨c1, c2, c3, c4, c5, c6, c7, c8, c9, c10, c11, c12, c13, c14, c15⟩ := central_fields hok hca
  have hcd' := getStart_central hcd hend hsize (by omega) _ _ _ hs
  subst hcd'
  rw [cdHeader_ok, c3, c4, c11] at hr
  obtain ⟨_, _, k1, k2, k3, _⟩ := hr
  simp only at hm
  rcases hbad with hb | hb | hb
  · exact (testBit_iff h.flags 0).mpr hb k1
  · rcases k2 with k2 | k2
    · exact hb.1 k2
    · exact hb.2 k2
  · rw [k3] at hm
    rcases hm with hm | hm | hm
    · exact hb.1 hm.1
    · exact hb.2.1 hm.1
    · exact hb.2.2 hm.1

/-- **C54 (converse reading).** Whenever a file is opened, its last end record says: one entry, one disk. -/
theorem C54_opened (lib : ZipLib) (file : List Byte) (pos : Nat) (r : CrcReader) (name : Str) (q : Nat) (h : openZip lib file pos = .ok ((r, name), q)) :
    ∃ eo cdSize cdOffset clen, LastEnd file eo ∧ At file eo ([0x50, 0x4b, 5, 6] ++ leBytes 2 0 ++ leBytes 2 0 ++ leBytes 2 1 ++ leBytes 2 1 ++
      leBytes 4 cdSize ++ leBytes 4 cdOffset ++ leBytes 2 clen) := by
  obtain ⟨eo, _, _, g3, g4, e, p, he, _⟩ := (openZip_ok lib file pos r name).mp ⟨q, h⟩
  rw [eocdrRead_ok] at he
  simp only [Nat.add_assoc, Nat.reduceAdd] at he
  obtain ⟨k0, _, k1, k2, k3, k4, _⟩ := he
  refine ⟨eo, leAt file (eo + 12) 4, leAt file (eo + 16) 4, leAt file (eo + 20) 2, g4, ?_⟩
  have s : ∀ o n, eo + o + n ≤ file.length → At file (eo + o) (leBytes n (leAt file (eo + o) n)) := fun o n ho => at_of_leAt ho
  have s1 := s 4 2 (by omega); rw [k1] at s1
  have s2 := s 6 2 (by omega); rw [k2] at s2
  have s3 := s 8 2 (by omega); rw [k3] at s3
  have s4 := s 10 2 (by omega); rw [k4] at s4
  simp only [at_append, List.length_append, leBytes_length, List.length_cons, List.length_nil, Nat.reduceAdd]
  exact ⟨⟨⟨⟨⟨⟨⟨g3, s1⟩, s2⟩, s3⟩, s4⟩, s 12 4 (by omega)⟩, s 16 4 (by omega)⟩, s 20 2 (by omega)⟩

/-- Two entries. -/
example : At (emptyLocal.bytes ++ eocdBytes 0 0 2 2 0 0 []) 30 (eocdBytes 0 0 2 2 0 0 []) ∧ LastEnd (emptyLocal.bytes ++ eocdBytes 0 0 2 2 0 0 []) 30 :=
  ⟨by unfold At; decide +kernel, lastEnd_of (by decide +kernel)⟩

/-- An encrypted entry. -/
def exEncrypted : CentralHeader := { emptyCentral [] [] with flags := 1 }
example : At (emptyLocal.bytes ++ exEncrypted.bytes ++ eocdBytes 0 0 1 1 0 30 []) 30 exEncrypted.bytes ∧ exEncrypted.flags.testBit 0 = true ∧
    CentralIs (emptyLocal.bytes ++ exEncrypted.bytes ++ eocdBytes 0 0 1 1 0 30 []) 76 30 30 ∧
    openZip exLib (emptyLocal.bytes ++ exEncrypted.bytes ++ eocdBytes 0 0 1 1 0 30 []) 0 = .err (.io .invalidData) :=
  ⟨by unfold At; decide +kernel, by decide, .inl ⟨by unfold At; decide +kernel, rfl⟩, by decide +kernel⟩

/-! ### Recognising zip files -/

/-- **C55 (seekable files).** A file is taken for a zip archive exactly if it starts with a local file header signature. -/
theorem C55_isZip (file : List Byte) (pos : Nat) : ∃ q, isZip file pos = .ok (decide ([0x50, 0x4b, 3, 4] <+: file), q) := by
  have hb : skBack file 0 pos = .ok ((), file.length - 0) := by unfold skBack; rw [if_pos (by omega)]
  have hs : skStart 0 (file.length - 0) = .ok ((), 0) := rfl
  unfold isZip
  rw [sk_bind_of hb]
  have hpre : [0x50, 0x4b, 3, 4] <+: file ↔ At file 0 [0x50, 0x4b, 3, 4] := by
    rw [List.prefix_iff_eq_take]
    unfold At
    rw [List.drop_zero]
    exact eq_comm
  by_cases h : file.length < 4
  · rw [if_pos h]
    refine ⟨file.length - 0, ?_⟩
    rw [decide_eq_false]
    · rfl
    · rintro ⟨t, ht⟩
      rw [← ht] at h
      simp at h
      omega
  · rw [if_neg h, sk_bind_of hs, sk_bind_of (skLe_of (by omega) (by omega))]
    refine ⟨0 + 4, ?_⟩
    have hsig := sig_iff (file := file) (off := 0) (v := 0x04034b50) (by omega)
    rw [sigLocal, ← hpre] at hsig
    have : (leAt file 0 4 == 0x04034b50) = decide ([0x50, 0x4b, 3, 4] <+: file) := by
      rw [Bool.eq_iff_iff, beq_iff_eq, decide_eq_true_eq, ← hsig]
      constructor
      · intro hx; exact ⟨by omega, hx⟩
      · exact fun hx => hx.2
    simp only [Sk.pure, this]

example : ∃ q, isZip (asciiBytes "PK" ++ [3, 4, 9]) 2 = .ok (true, q) := ⟨4, by decide +kernel⟩

end Chopper.Props
