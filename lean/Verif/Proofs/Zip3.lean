import Verif.Proofs.Zip2

namespace Chopper
open Spec

theorem central_fixed_length (h : CentralHeader) (hok : h.Ok) : h.fixedBytes.length = 46 := by
  simp [CentralHeader.fixedBytes, leBytes_length, hok.versions, hok.time, hok.attrs]

theorem central_length (h : CentralHeader) (hok : h.Ok) :
    h.bytes.length = 46 + h.name.length + h.extraBytes.length + h.comment.length := by
  simp only [CentralHeader.bytes, List.length_append, central_fixed_length h hok]

/-- The fields of a central directory header found in a file. -/
theorem central_fields {file : List Byte} {cd : Nat} {h : CentralHeader} (hok : h.Ok) (hat : At file cd h.bytes) :
    cd + 46 + h.name.length + h.extraBytes.length + h.comment.length ≤ file.length ∧ leAt file cd 4 = 0x02014b50 ∧
    leAt file (cd + 8) 2 = h.flags ∧ leAt file (cd + 10) 2 = h.method ∧ leAt file (cd + 16) 4 = h.crc.toNat ∧ leAt file (cd + 20) 4 = h.csize ∧
    leAt file (cd + 24) 4 = h.usize ∧ leAt file (cd + 28) 2 = h.name.length ∧ leAt file (cd + 30) 2 = h.extraBytes.length ∧
    leAt file (cd + 32) 2 = h.comment.length ∧ leAt file (cd + 34) 2 = h.disk ∧ leAt file (cd + 42) 4 = h.off ∧
    At file (cd + 46) h.name ∧ At file (cd + 46 + h.name.length) h.extraBytes ∧
    At file (cd + 46 + h.name.length + h.extraBytes.length) h.comment := by
  have hl := at_len hat (by simp [CentralHeader.bytes, CentralHeader.fixedBytes])
  rw [central_length h hok] at hl
  have hsig : (fun l => At file cd l) [0x50, 0x4b, 1, 2] → leAt file cd 4 = 0x02014b50 := by
    intro hx
    rw [← sigCentral] at hx
    exact leAt_of_at hx (by omega)
  simp only [CentralHeader.bytes, at_append, List.length_append, central_fixed_length h hok] at hat
  obtain ⟨⟨⟨hf, hn⟩, he⟩, hc⟩ := hat
  simp only [CentralHeader.fixedBytes, at_append, List.length_append, leBytes_length, hok.versions, hok.time, hok.attrs, List.length_cons,
    List.length_nil, Nat.reduceAdd] at hf
  obtain ⟨⟨⟨⟨⟨⟨⟨⟨⟨⟨⟨⟨⟨f1, f2⟩, f3⟩, f4⟩, f5⟩, f6⟩, f7⟩, f8⟩, f9⟩, f10⟩, f11⟩, f12⟩, f13⟩, f14⟩ := hf
  have := h.crc.isLt
  refine ⟨by omega, hsig f1, leAt_of_at f3 hok.flags, leAt_of_at f4 hok.method, leAt_of_at f6 (by omega), leAt_of_at f7 ?_, leAt_of_at f8 ?_,
    leAt_of_at f9 hok.name, leAt_of_at f10 hok.extra, leAt_of_at f11 hok.comment, leAt_of_at f12 hok.disk, leAt_of_at f14 ?_, hn, ?_, ?_⟩
  · have := hok.csize; omega
  · have := hok.usize; omega
  · have := hok.off; omega
  · rw [Nat.add_assoc]; exact he
  · rw [Nat.add_assoc, Nat.add_assoc]; rw [Nat.add_assoc] at hc; exact hc

/-- The fields of the end record. -/
theorem eocd_fields {file : List Byte} {eo disk diskCd entriesDisk entries cdSize cdOffset : Nat} {comment : List Byte}
    (hat : At file eo (eocdBytes disk diskCd entriesDisk entries cdSize cdOffset comment)) (h1 : disk < 65536) (h2 : diskCd < 65536)
    (h3 : entriesDisk < 65536) (h4 : entries < 65536) (h5 : cdSize < 2 ^ 32) (h6 : cdOffset < 2 ^ 32) (h7 : comment.length < 65536) :
    At file eo [0x50, 0x4b, 5, 6] ∧ eo + 22 + comment.length ≤ file.length ∧ leAt file (eo + 4) 2 = disk ∧ leAt file (eo + 6) 2 = diskCd ∧
    leAt file (eo + 8) 2 = entriesDisk ∧ leAt file (eo + 10) 2 = entries ∧ leAt file (eo + 12) 4 = cdSize ∧ leAt file (eo + 16) 4 = cdOffset ∧
    leAt file (eo + 20) 2 = comment.length := by
  have hl := at_len hat (by simp [eocdBytes])
  simp only [eocdBytes, at_append, List.length_append, leBytes_length, List.length_cons, List.length_nil, Nat.reduceAdd] at hat hl
  obtain ⟨⟨⟨⟨⟨⟨⟨⟨f1, f2⟩, f3⟩, f4⟩, f5⟩, f6⟩, f7⟩, f8⟩, _⟩ := hat
  exact ⟨f1, by omega, leAt_of_at f2 h1, leAt_of_at f3 h2, leAt_of_at f4 h3, leAt_of_at f5 h4, leAt_of_at f6 (by omega), leAt_of_at f7 (by omega),
    leAt_of_at f8 h7⟩

/-- Everything that is read when an archive is opened. -/
theorem openZip_ok (lib : ZipLib) (file : List Byte) (pos : Nat) (r : CrcReader) (name : Str) :
    (∃ q, openZip lib file pos = .ok ((r, name), q)) ↔
    ∃ eo, 0 < eo ∧ file.length < eo + 2 ^ 20 ∧ At file eo [0x50, 0x4b, 5, 6] ∧ LastEnd file eo ∧
    ∃ e p, eocdrRead file (eo + 4) = .ok (e, p) ∧
    ∃ cd p', getStartOfCentralDir file e p = .ok (cd, p') ∧ cd < maxOffset ∧
    ∃ h p'', cdHeaderRead lib file cd = .ok (h, p'') ∧ h.sizes.off < maxOffset ∧ leAt file h.sizes.off 4 = 0x04034b50 ∧
      h.sizes.off + 30 ≤ file.length ∧ h.sizes.off + 26 < maxOffset ∧
      h.sizes.off + 30 + leAt file (h.sizes.off + 26) 2 < maxOffset ∧
      h.sizes.off + 30 + leAt file (h.sizes.off + 26) 2 + leAt file (h.sizes.off + 28) 2 < maxOffset ∧
      name = h.name ∧
      let data := (file.drop (h.sizes.off + 30 + leAt file (h.sizes.off + 26) 2 + leAt file (h.sizes.off + 28) 2)).take h.sizes.csize
      (h.method = 0 ∧ r = CrcReader.new ⟨data, lib.sched, none⟩ (BitVec.ofNat 32 h.crc32) ∨
       h.method = 8 ∧ r = CrcReader.new (lib.inflate ⟨data, lib.sched, none⟩) (BitVec.ofNat 32 h.crc32) ∨
       h.method = 12 ∧ r = CrcReader.new (lib.bunzip ⟨data, lib.sched, none⟩) (BitVec.ofNat 32 h.crc32)) := by
  have hfin : ∀ (h : CdHeader) (p q : Nat),
      zipReader lib file h p = .ok ((r, name), q) ↔
      name = h.name ∧ q = p ∧
      (h.method = 0 ∧ r = CrcReader.new ⟨(file.drop p).take h.sizes.csize, lib.sched, none⟩ (BitVec.ofNat 32 h.crc32) ∨
       h.method = 8 ∧ r = CrcReader.new (lib.inflate ⟨(file.drop p).take h.sizes.csize, lib.sched, none⟩) (BitVec.ofNat 32 h.crc32) ∨
       h.method = 12 ∧ r = CrcReader.new (lib.bunzip ⟨(file.drop p).take h.sizes.csize, lib.sched, none⟩) (BitVec.ofNat 32 h.crc32)) := by
    intro h p q
    unfold zipReader
    simp only []
    split
    · rename_i hm
      simp only [hm, Res.ok.injEq, Prod.mk.injEq]
      constructor
      · rintro ⟨⟨rfl, rfl⟩, rfl⟩; simp
      · rintro ⟨rfl, rfl, h⟩; simpa [eq_comm] using h
    · rename_i hm
      simp only [hm, Res.ok.injEq, Prod.mk.injEq]
      constructor
      · rintro ⟨⟨rfl, rfl⟩, rfl⟩; simp
      · rintro ⟨rfl, rfl, h⟩; simpa [eq_comm] using h
    · rename_i hm
      simp only [hm, Res.ok.injEq, Prod.mk.injEq]
      constructor
      · rintro ⟨⟨rfl, rfl⟩, rfl⟩; simp
      · rintro ⟨rfl, rfl, h⟩; simpa [eq_comm] using h
    · rename_i h0 h8 h12
      simp only [reduceCtorEq, false_iff]
      rintro ⟨_, _, h | h | h⟩
      · exact h0 h.1
      · exact h8 h.1
      · exact h12 h.1
  unfold openZip
  simp only [sk_bind_eq]
  constructor
  · rintro ⟨q, h⟩
    rw [sk_bind] at h
    obtain ⟨_, p0, h0, h⟩ := h
    rw [findEocdr_ok] at h0
    obtain ⟨eo, rfl, g1, g2, g3, g4⟩ := h0
    rw [sk_bind] at h
    obtain ⟨e, p, h1, h⟩ := h
    rw [sk_bind] at h
    obtain ⟨cd, p', h2, h⟩ := h
    rw [sk_start] at h
    obtain ⟨hcd, h⟩ := h
    rw [sk_bind] at h
    obtain ⟨hd, p'', h3, h⟩ := h
    rw [sk_start, sk_le4, sk_ite] at h
    simp only [sk_err, and_false, false_or] at h
    obtain ⟨k1, k2, k3, h⟩ := h
    rw [sk_forward, sk_le2, sk_le2, sk_forward, sk_forward] at h
    simp only [Nat.add_assoc, Nat.reduceAdd] at h
    obtain ⟨k4, k5, k6, k7, k8, h⟩ := h
    rw [hfin] at h
    refine ⟨eo, g1, g2, g3, g4, e, p, h1, cd, p', h2, hcd, hd, p'', h3, k1, by omega, by omega, k4, by simpa only [Nat.add_assoc] using k7,
      by simpa only [Nat.add_assoc] using k8, h.1, ?_⟩
    simp only [Nat.add_assoc]
    exact h.2.2
  · rintro ⟨eo, g1, g2, g3, g4, e, p, h1, cd, p', h2, hcd, h, p'', h3, k1, k2, k3, k4, k5, k6, hn, hr⟩
    refine ⟨h.sizes.off + (30 + (leAt file (h.sizes.off + 26) 2 + leAt file (h.sizes.off + 28) 2)), ?_⟩
    rw [sk_bind]
    refine ⟨(), eo + 4, (findEocdr_ok _ _ _).mpr ⟨eo, rfl, g1, g2, g3, g4⟩, ?_⟩
    rw [sk_bind]
    refine ⟨e, p, h1, ?_⟩
    rw [sk_bind]
    refine ⟨cd, p', h2, ?_⟩
    rw [sk_start]
    refine ⟨hcd, ?_⟩
    rw [sk_bind]
    refine ⟨h, p'', h3, ?_⟩
    rw [sk_start, sk_le4, sk_ite]
    simp only [sk_err, and_false, false_or]
    refine ⟨k1, by omega, fun hx => hx k2, ?_⟩
    rw [sk_forward, sk_le2, sk_le2, sk_forward, sk_forward]
    simp only [Nat.add_assoc, Nat.reduceAdd]
    simp only [Nat.add_assoc] at k5 k6 hr
    refine ⟨k4, by omega, by omega, k5, k6, ?_⟩
    rw [hfin]
    exact ⟨hn, rfl, hr⟩

/-- The underlying reader for an entry. -/
def unpacked (lib : ZipLib) (method : Nat) (packed : List Byte) : Inner :=
  if method = 0 then ⟨packed, lib.sched, none⟩ else if method = 8 then lib.inflate ⟨packed, lib.sched, none⟩ else lib.bunzip ⟨packed, lib.sched, none⟩

/-- Opening a well-formed archive with a single file. -/
theorem openZip_single (lib : ZipLib) {file : List Byte} {L : Layout} {name : Str} {usize : Nat} {content : List Byte}
    (h : SingleFile file L name usize content) (hmeth : L.ch.method = 0 ∨ L.ch.method = 8 ∨ L.ch.method = 12)
    (hlast : LastEnd file L.eo) (hst : StopsAt file (L.cd + 46 + L.ch.name.length + L.ch.extraBytes.length) L.ch.extra.length) (pos : Nat) :
    ∃ q, openZip lib file pos = .ok ((CrcReader.new (unpacked lib L.ch.method content) L.ch.crc, name), q) := by
  rw [openZip_ok]
  have hsize := h.size
  have hmax : maxOffset = 2 ^ 63 := rfl
  obtain ⟨e1, e2, e3, e4, e5, e6, e7, e8, e9⟩ := eocd_fields h.endAt (by omega) (by omega) (by omega) (by omega) h.cdSize h.cdOff32 h.comment
  obtain ⟨c1, c2, c3, c4, c5, c6, c7, c8, c9, c10, c11, c12, c13, c14, c15⟩ := central_fields h.centralOk h.centralAt
  have hord := h.order
  rw [central_length _ h.centralOk] at hord
  have hcl := h.endLast
  have hcb := h.comment
  have hcc := h.centralOk.comment
  refine ⟨L.eo, by omega, by omega, e1, hlast, ⟨L.cdSize, L.cdOff32, L.comment.length⟩, L.eo + 4 + 18 + L.comment.length, ?_, ?_⟩
  · rw [eocdrRead_ok]
    simp only [Nat.add_assoc, Nat.reduceAdd]
    rw [e3, e4, e5, e6, e7, e8, e9]
    exact ⟨by omega, by omega, rfl, rfl, rfl, rfl, rfl, rfl⟩
  have hstart : ∃ q, getStartOfCentralDir file ⟨L.cdSize, L.cdOff32, L.comment.length⟩ (L.eo + 4 + 18 + L.comment.length) = .ok (L.cd, q) := by
    rw [getStart_ok]
    simp only
    have hlo : file.length - (42 + L.comment.length) = L.eo - 20 := by omega
    rw [hlo]
    rcases h.central with ⟨hno, hoff⟩ | ⟨hge, zo, pre, cs, hpre, hcs, hzo, hloc, hz⟩
    · left
      refine ⟨?_, hoff.symm⟩
      rintro ⟨_, hx⟩
      apply hno
      rw [← sigLoc64]
      exact (sig_iff (by omega)).mp ⟨by omega, hx⟩
    · right
      have hl1 := at_len hloc (by simp [locatorBytes])
      simp only [locatorBytes, at_append, List.length_append, leBytes_length, List.length_cons, List.length_nil, Nat.reduceAdd] at hloc hl1
      obtain ⟨⟨⟨l1, l2⟩, l3⟩, l4⟩ := hloc
      have hl2 := at_len hz (by simp [eocd64Bytes])
      simp only [eocd64Bytes, at_append, List.length_append, leBytes_length, List.length_cons, List.length_nil, hpre, Nat.reduceAdd] at hz hl2
      obtain ⟨⟨⟨⟨⟨⟨⟨z1, z2⟩, z3⟩, z4⟩, z5⟩, z6⟩, z7⟩, z8⟩ := hz
      have hzo' : leAt file (L.eo - 20 + 8) 8 = zo := leAt_of_at l3 (by omega)
      rw [hzo']
      refine ⟨by omega, ?_, leAt_of_at l2 (by omega), leAt_of_at l4 (by omega), by omega, by omega, ?_, leAt_of_at z3 (by omega),
        leAt_of_at z4 (by omega), leAt_of_at z5 (by omega), leAt_of_at z6 (by omega), (leAt_of_at z8 (by omega)).symm⟩
      · rw [← sigLoc64] at l1; exact leAt_of_at l1 (by omega)
      · rw [← sigEnd64] at z1; exact leAt_of_at z1 (by omega)
  obtain ⟨q, hq⟩ := hstart
  refine ⟨L.cd, q, hq, by omega, ?_⟩
  obtain ⟨p, hp1, hp2⟩ := extra_all h.centralOk h.sizes c14 (by omega) hsize hst
  refine ⟨⟨L.ch.method, L.ch.crc.toNat, ⟨usize, content.length, L.lo⟩, name⟩, p + L.ch.comment.length, ?_, ?_⟩
  · rw [cdHeader_ok, c2, c3, c4, c5, c6, c7, c8, c9, c10, c11, c12]
    refine ⟨by omega, rfl, ?_, h.oneDisk, rfl, rfl, ?_, p, hp1, by omega, rfl⟩
    · have := testBit_iff L.ch.flags 0
      rw [h.plain] at this
      simpa using this
    · have : (file.drop (L.cd + 46)).take L.ch.name.length = L.ch.name := c13
      rw [this]
      exact (zipName_of h.named).symm
  · have hla := h.localAt
    have hin := h.inside
    simp only [LocalHeader.bytes, at_append, List.length_append, leBytes_length, h.localOk.mid, List.length_cons, List.length_nil, Nat.reduceAdd] at hla hin
    obtain ⟨⟨⟨⟨⟨⟨a1, a2⟩, a3⟩, a4⟩, a5⟩, a6⟩, a7⟩ := hla
    have hn : leAt file (L.lo + 26) 2 = L.lh.name.length := leAt_of_at a3 h.localOk.name
    have he : leAt file (L.lo + 28) 2 = L.lh.extra.length := leAt_of_at a4 h.localOk.extra
    have := h.localOk.name
    have := h.localOk.extra
    simp only
    rw [hn, he]
    have hdata : (file.drop (L.lo + 30 + L.lh.name.length + L.lh.extra.length)).take content.length = content := by
      rw [show L.lo + 30 + L.lh.name.length + L.lh.extra.length = L.lo + (30 + L.lh.name.length + L.lh.extra.length) by omega]
      exact a7
    refine ⟨by omega, ?_, by omega, by omega, by omega, by omega, trivial, ?_⟩
    · rw [← sigLocal] at a1; exact leAt_of_at a1 (by omega)
    · rw [hdata]
      simp only [BitVec.ofNat_toNat, BitVec.setWidth_eq]
      rcases hmeth with hm | hm | hm
      · left; exact ⟨hm, by rw [hm]; rfl⟩
      · right; left; exact ⟨hm, by rw [hm]; rfl⟩
      · right; right; exact ⟨hm, by rw [hm]; rfl⟩

end Chopper
