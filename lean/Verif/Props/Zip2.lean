import Verif.Props.Zip

/-!
# More about zip archives that are refused: C54
-/
namespace Chopper.Props
open Chopper Spec

/-- **C54 (converse reading, the entry).** Whenever a file is opened, there is a central directory header of an unencrypted entry on this disk, stored,
deflated or packed with bzip2, and a local file header; what is read are (at most) the bytes that follow the local header, and the checksum they are checked
against is the one in the central directory header. -/
theorem C54_opened_entry (lib : ZipLib) (file : List Byte) (pos : Nat) (r : CrcReader) (name : Str) (q : Nat)
    (h : openZip lib file pos = .ok ((r, name), q)) :
    ∃ cd flags method crc disk lo nameLen extraLen csize,
      At file cd [0x50, 0x4b, 1, 2] ∧ At file (cd + 8) (leBytes 2 flags) ∧ At file (cd + 10) (leBytes 2 method) ∧
      At file (cd + 16) (leBytes 4 crc) ∧ At file (cd + 34) (leBytes 2 disk) ∧
      flags.testBit 0 = false ∧ (disk = 0 ∨ disk = 0xffff) ∧
      At file lo [0x50, 0x4b, 3, 4] ∧ At file (lo + 26) (leBytes 2 nameLen) ∧ At file (lo + 28) (leBytes 2 extraLen) ∧
      let data : Inner := ⟨(file.drop (lo + 30 + nameLen + extraLen)).take csize, lib.sched, none⟩
      (method = 0 ∧ r = CrcReader.new data (BitVec.ofNat 32 crc) ∨
       method = 8 ∧ r = CrcReader.new (lib.inflate data) (BitVec.ofNat 32 crc) ∨
       method = 12 ∧ r = CrcReader.new (lib.bunzip data) (BitVec.ofNat 32 crc)) := by
  obtain ⟨eo, _, _, _, _, e, p, _, cd, p', _, _, hd, p'', hr, _, hsig, hlen, _, _, _, _, hm⟩ := (openZip_ok lib file pos r name).mp ⟨q, h⟩
  rw [cdHeader_ok] at hr
  obtain ⟨k0, k1, k2, k3, k4, k5, _, _⟩ := hr
  have s : ∀ o n v, o + n ≤ file.length → leAt file o n = v → At file o (leBytes n v) := fun o n v ho hv => hv ▸ at_of_leAt ho
  refine ⟨cd, leAt file (cd + 8) 2, leAt file (cd + 10) 2, leAt file (cd + 16) 4, leAt file (cd + 34) 2, hd.sizes.off,
    leAt file (hd.sizes.off + 26) 2, leAt file (hd.sizes.off + 28) 2, hd.sizes.csize, ?_, s _ _ _ (by omega) rfl, s _ _ _ (by omega) rfl,
    s _ _ _ (by omega) rfl, s _ _ _ (by omega) rfl, ?_, k3, ?_, s _ _ _ (by omega) rfl, s _ _ _ (by omega) rfl, ?_⟩
  · have := s cd 4 _ (by omega) k1
    simpa [leBytes] using this
  · cases hb : (leAt file (cd + 8) 2).testBit 0 with
    | false => rfl
    | true => exact absurd k2 ((testBit_iff _ 0).mpr hb)
  · have := s hd.sizes.off 4 _ (by omega) hsig
    simpa [leBytes] using this
  · rw [k4, k5] at hm
    exact hm

/-- The number of fields whose 64-bit value must be in the zip64 subfield. -/
def saturatedFields (h : CentralHeader) : Nat :=
  ([h.usize, h.csize, h.off].filter (· = 0xffffffff)).length

theorem readIfSaturated_ok {file : List Byte} {v d pos w d' q : Nat} (h : readIfSaturated file v d pos = .ok ((w, d'), q)) :
    d' = d + 8 * ([v].filter (· = 0xffffffff)).length := by
  unfold readIfSaturated at h
  by_cases hv : v = 0xffffffff
  · rw [if_pos hv, sk_le8, sk_pure] at h
    simp only [Prod.mk.injEq] at h
    simp [hv]; omega
  · rw [if_neg hv, sk_pure] at h
    simp only [Prod.mk.injEq] at h
    simp [hv]; omega

theorem readZip64Sub_ok {file : List Byte} {z z' : Sizes} {pos d q : Nat} (h : readZip64Sub file z pos = .ok ((z', d), q)) :
    d = 8 * ([z.usize, z.csize, z.off].filter (· = 0xffffffff)).length := by
  unfold readZip64Sub at h
  simp only [sk_bind_eq, sk_bind, sk_pure] at h
  obtain ⟨⟨u, r1⟩, p1, h1, ⟨c, r2⟩, p2, h2, ⟨o, r3⟩, p3, h3, h4⟩ := h
  have := readIfSaturated_ok h1
  have := readIfSaturated_ok h2
  have := readIfSaturated_ok h3
  simp only [Prod.mk.injEq] at h4
  have e : [z.usize, z.csize, z.off] = [z.usize] ++ ([z.csize] ++ [z.off]) := rfl
  rw [e, List.filter_append, List.filter_append, List.length_append, List.length_append]
  omega

/-- **C54 (zip64).** If the zip64 subfield of the entry is too short for the values that must be in it, an error is returned. -/
theorem C54_short_zip64 (lib : ZipLib) (file : List Byte) (pos eo a b c d cdSize cdOffset cd : Nat) (comment : List Byte)
    (hat : At file eo (eocdBytes a b c d cdSize cdOffset comment)) (h1 : a < 65536) (h2 : b < 65536)
    (h3 : c < 65536) (h4 : d < 65536) (h5 : cdSize < 2 ^ 32) (h6 : cdOffset < 2 ^ 32) (h7 : comment.length < 65536)
    (hlast : LastEnd file eo) (hend : eo + 22 + comment.length = file.length) (hsize : file.length < 2 ^ 62)
    (hcd : CentralIs file eo cdOffset cd) (h : CentralHeader) (hok : h.Ok) (hca : At file cd h.bytes)
    (pre post : List Subfield) (s : Subfield) (hex : h.extra = pre ++ s :: post) (hpre : ∀ t ∈ pre, t.id ≠ 1) (hid : s.id = 1)
    (hshort : s.data.length < 8 * saturatedFields h) :
    ∃ e, openZip lib file pos = .err (.io e) := by
  apply returns_cases (returns_openZip lib file) pos
  rintro ⟨⟨⟨r, name⟩, q⟩, hq⟩
  obtain ⟨eo', _, _, g3, g4, e, p, he, cd', p', hs, _, hd, p'', hr, _⟩ := (openZip_ok lib file pos r name).mp ⟨q, hq⟩
  obtain ⟨f1, f2, f3, f4, f5, f6, f7, f8, f9⟩ := eocd_fields hat h1 h2 h3 h4 h5 h6 h7
  have := lastEnd_unique g3 f1 g4 hlast
  subst this
  rw [eocdrRead_ok] at he
  simp only [Nat.add_assoc, Nat.reduceAdd] at he
  rw [f7, f8, f9] at he
  rw [he.2.2.2.2.2.2.1] at hs
  obtain ⟨c1, c2, c3, c4, c5, c6, c7, c8, c9, c10, c11, c12, c13, c14, c15⟩ := central_fields hok hca
  have hcd' := getStart_central hcd hend hsize (by omega) _ _ _ hs
  subst hcd'
  rw [cdHeader_ok, c6, c7, c8, c9, c12] at hr
  obtain ⟨_, _, _, _, _, _, _, p1, hx, _⟩ := hr
  have hm : maxOffset = 2 ^ 63 := rfl
  have hbytes : h.extraBytes = pre.flatMap Subfield.bytes ++ s.bytes ++ post.flatMap Subfield.bytes := by
    simp [CentralHeader.extraBytes, hex]
  have hlen : h.extraBytes.length = (pre.flatMap Subfield.bytes).length + (4 + s.data.length) + (post.flatMap Subfield.bytes).length := by
    rw [hbytes]; simp only [List.length_append, sub_bytes_length]
  rw [hbytes, at_append, at_append] at c14
  have hpl : pre.length ≤ file.length := by
    have := flatMap_sub_length pre
    omega
  have hfuel : file.length + 1 = pre.length + ((file.length - pre.length) + 1) := by omega
  rw [hfuel, extra_others pre _ 0 _ (fun t ht => hok.subs t (by simp [hex, ht])) hpre c14.1.1 (by omega) (by omega)] at hx
  obtain ⟨k4, e1, e2, _⟩ := at_sub (hok.subs s (by simp [hex])) c14.1.2
  have hdl := flatMap_sub_length pre
  rw [readExtraLoop] at hx
  simp only [sk_bind_eq] at hx
  rw [if_pos (by omega), sk_le2, sk_le2, sk_bind] at hx
  obtain ⟨_, _, ⟨z', dr⟩, p2, hsub, hx⟩ := hx
  simp only at hx
  rw [e1, hid] at hsub
  simp only [readSub, if_true] at hsub
  have hdr := readZip64Sub_ok hsub
  simp only at hdr
  rw [sk_ite] at hx
  simp only [sk_err, and_false, false_or] at hx
  rw [e2] at hx
  unfold saturatedFields at hshort
  omega

/-- An archive whose zip64 subfield is empty although the offset is to be found there. -/
def exShort64 : CentralHeader := { emptyCentral [⟨1, []⟩] [] with off := 0xffffffff }
example : At (emptyLocal.bytes ++ exShort64.bytes ++ eocdBytes 0 0 1 1 0 30 []) 30 exShort64.bytes ∧ 0 < 8 * saturatedFields exShort64 ∧
    openZip exLib (emptyLocal.bytes ++ exShort64.bytes ++ eocdBytes 0 0 1 1 0 30 []) 0 = .err (.io .invalidData) :=
  ⟨by unfold At; decide +kernel, by decide, by decide +kernel⟩

end Chopper.Props
