import Verif.Spec.ZipCut
import Verif.Proofs.Zip4

/-!
# Zip archives cut short
-/
namespace Chopper
open Chopper.Spec

theorem take_drop_take {α : Type} {l : List α} {n p k : Nat} (h : p + k ≤ n) : ((l.take n).drop p).take k = (l.drop p).take k := by
  rw [List.drop_take, List.take_take, Nat.min_eq_left (by omega)]

theorem cut_leAt {file : List Byte} {n p k : Nat} (h : p + k ≤ (file.take n).length) : leAt (file.take n) p k = leAt file p k := by
  unfold leAt
  rw [take_drop_take (by simp only [List.length_take] at h; omega)]

theorem cut_at {file bs : List Byte} {n p : Nat} (hb : bs ≠ []) (h : At (file.take n) p bs) : At file p bs := by
  have hl := at_len h hb
  simp only [List.length_take] at hl
  unfold At at h ⊢
  rwa [take_drop_take (by omega)] at h

theorem cut_skLe {file : List Byte} {n k pos : Nat} {r : Nat × Nat} (hk : k ≠ 0) (h : skLe (file.take n) k pos = .ok r) : skLe file k pos = .ok r := by
  rw [skLe_eq _ _ _ hk] at h ⊢
  by_cases hp : pos + k ≤ (file.take n).length
  · rw [if_pos hp, cut_leAt hp] at h
    rw [if_pos (by simp only [List.length_take] at hp; omega)]
    exact h
  · rw [if_neg hp] at h; cases h

theorem cut_saturated {file : List Byte} {n v d pos : Nat} {r : (Nat × Nat) × Nat} (h : readIfSaturated (file.take n) v d pos = .ok r) :
    readIfSaturated file v d pos = .ok r := by
  unfold readIfSaturated at h ⊢
  by_cases hv : v = 0xffffffff
  · rw [if_pos hv] at h ⊢
    rw [sk_bind] at h ⊢
    obtain ⟨a, p, h1, h2⟩ := h
    exact ⟨a, p, cut_skLe (by omega) h1, h2⟩
  · rw [if_neg hv] at h ⊢; exact h

theorem cut_zip64Sub {file : List Byte} {n pos : Nat} {z : Sizes} {r : (Sizes × Nat) × Nat} (h : readZip64Sub (file.take n) z pos = .ok r) :
    readZip64Sub file z pos = .ok r := by
  unfold readZip64Sub at h ⊢
  simp only [sk_bind_eq, sk_bind] at h ⊢
  obtain ⟨⟨u, r1⟩, p1, h1, ⟨c, r2⟩, p2, h2, ⟨o, r3⟩, p3, h3, h4⟩ := h
  exact ⟨_, _, cut_saturated h1, _, _, cut_saturated h2, _, _, cut_saturated h3, h4⟩

theorem cut_sub {file : List Byte} {n id pos : Nat} {z : Sizes} {r : (Sizes × Nat) × Nat} (h : readSub (file.take n) id z pos = .ok r) :
    readSub file id z pos = .ok r := by
  unfold readSub at h ⊢
  by_cases hi : id = 1
  · rw [if_pos hi] at h ⊢; exact cut_zip64Sub h
  · rw [if_neg hi] at h ⊢; exact h

theorem cut_extra {file : List Byte} {n len : Nat} : ∀ (fuel fuel' total : Nat) (z : Sizes) (pos : Nat) (r : Sizes × Nat), fuel ≤ fuel' →
    readExtraLoop (file.take n) len fuel total z pos = .ok r → readExtraLoop file len fuel' total z pos = .ok r
  | 0, _, _, _, _, _, _, h => by simp [readExtraLoop] at h
  | fuel + 1, 0, _, _, _, _, hf, _ => by omega
  | fuel + 1, fuel' + 1, total, z, pos, r, hf, h => by
    unfold readExtraLoop at h ⊢
    by_cases ht : total < len
    · rw [if_pos ht] at h ⊢
      simp only [sk_bind_eq, sk_bind] at h ⊢
      obtain ⟨id, p1, h1, ds, p2, h2, ⟨z', dr⟩, p3, h3, h4⟩ := h
      refine ⟨id, p1, cut_skLe (by omega) h1, ds, p2, cut_skLe (by omega) h2, (z', dr), p3, cut_sub h3, ?_⟩
      simp only at h4 ⊢
      by_cases hd : dr > ds
      · rw [if_pos hd] at h4 ⊢; exact h4
      · rw [if_neg hd] at h4 ⊢
        rw [sk_forward] at h4 ⊢
        exact ⟨h4.1, cut_extra fuel fuel' _ _ _ _ (by omega) h4.2⟩
    · rw [if_neg ht] at h ⊢; exact h

theorem cut_cdHeader {lib : ZipLib} {file : List Byte} {n cd : Nat} {h : CdHeader} {q : Nat} (hr : cdHeaderRead lib (file.take n) cd = .ok (h, q)) :
    cdHeaderRead lib file cd = .ok (h, q) := by
  rw [cdHeader_ok] at hr ⊢
  obtain ⟨k0, k1, k2, k3, k4, k5, k6, p, k7, k8, k9⟩ := hr
  have hl : cd + 46 ≤ (file.take n).length := by omega
  have e : ∀ o k, o + k ≤ 46 → leAt (file.take n) (cd + o) k = leAt file (cd + o) k := fun o k ho => cut_leAt (by omega)
  have e0 := e 0 4 (by omega)
  rw [Nat.add_zero] at e0
  rw [e 28 2 (by omega)] at k0 k6 k7
  rw [e0] at k1
  rw [e 8 2 (by omega)] at k2 k6
  rw [e 34 2 (by omega)] at k3
  rw [e 10 2 (by omega)] at k4
  rw [e 16 4 (by omega)] at k5
  rw [e 30 2 (by omega), e 24 4 (by omega), e 20 4 (by omega), e 42 4 (by omega)] at k7
  rw [e 32 2 (by omega)] at k8 k9
  have hlen : (file.take n).length ≤ file.length := by simp only [List.length_take]; omega
  refine ⟨by omega, k1, k2, k3, k4, k5, ?_, p, cut_extra _ _ _ _ _ _ (by omega) k7, k8, k9⟩
  rw [k6, take_drop_take (by simp only [List.length_take] at k0; omega)]

/-- An end record is found in the cut file only if it was not cut. -/
theorem cut_end {lib : ZipLib} {file : List Byte} {eo n pos : Nat} (honly : OnlyEnd file eo) {r : CrcReader} {name : Str} {q : Nat}
    (h : openZip lib (file.take n) pos = .ok ((r, name), q)) : eo + 22 ≤ n := by
  obtain ⟨eo', _, _, g3, _, e, p, he, _⟩ := (openZip_ok lib (file.take n) pos r name).mp ⟨q, h⟩
  have h1 : eo' = eo := by
    by_cases hc : eo' = eo
    · exact hc
    · exact absurd (cut_at (by simp) g3) (honly eo' hc)
  rw [eocdrRead_ok] at he
  have := he.1
  simp only [List.length_take] at this
  omega

/-- What is read of the central directory of a well-formed archive. -/
theorem cdHeader_single (lib : ZipLib) {file : List Byte} {L : Layout} {name : Str} {usize : Nat} {content : List Byte}
    (h : SingleFile file L name usize content) (hst : StopsAt file (L.cd + 46 + L.ch.name.length + L.ch.extraBytes.length) L.ch.extra.length) :
    ∃ p, cdHeaderRead lib file L.cd = .ok (⟨L.ch.method, L.ch.crc.toNat, ⟨usize, content.length, L.lo⟩, name⟩, p) := by
  have hsize := h.size
  have hmax : maxOffset = 2 ^ 63 := rfl
  obtain ⟨c1, c2, c3, c4, c5, c6, c7, c8, c9, c10, c11, c12, c13, c14, c15⟩ := central_fields h.centralOk h.centralAt
  have hord := h.order
  rw [central_length _ h.centralOk] at hord
  have hcl := h.endLast
  have hcc := h.centralOk.comment
  obtain ⟨p, hp1, hp2⟩ := extra_all h.centralOk h.sizes c14 (by omega) hsize hst
  refine ⟨p + L.ch.comment.length, ?_⟩
  rw [cdHeader_ok, c2, c3, c4, c5, c6, c7, c8, c9, c10, c11, c12]
  refine ⟨by omega, rfl, ?_, h.oneDisk, rfl, rfl, ?_, p, hp1, by omega, rfl⟩
  · have := testBit_iff L.ch.flags 0
    rw [h.plain] at this
    simpa using this
  · have : (file.drop (L.cd + 46)).take L.ch.name.length = L.ch.name := c13
    rw [this]
    exact (zipName_of h.named).symm

/-- A cut archive that is opened gives the complete entry. -/
theorem cut_open {lib : ZipLib} {file : List Byte} {L : Layout} {name : Str} {usize : Nat} {packed : List Byte}
    (h : SingleFile file L name usize packed) (honly : OnlyEnd file L.eo) (hloc : OnlyLocator file L.eo) (hoff : OffsetAgrees file L)
    (hbefore : L.lo + L.lh.bytes.length + packed.length ≤ L.eo)
    (hst : StopsAt file (L.cd + 46 + L.ch.name.length + L.ch.extraBytes.length) L.ch.extra.length) {n pos : Nat} (hn : n < file.length) {r : CrcReader} {nm : Str} {q : Nat}
    (ho : openZip lib (file.take n) pos = .ok ((r, nm), q)) :
    nm = name ∧ r = CrcReader.new (unpacked lib L.ch.method packed) L.ch.crc := by
  have hend := cut_end honly ho
  have hlen : (file.take n).length = n := by simp only [List.length_take]; omega
  obtain ⟨eo', _, _, g3, _, e, p, he, cd, p', hstart, hcd, hd, p'', hhd, ho1, ho2, ho3, ho4, ho5, ho6, hname, hm⟩ :=
    (openZip_ok lib (file.take n) pos r nm).mp ⟨q, ho⟩
  have h1 : eo' = L.eo := by
    by_cases hc : eo' = L.eo
    · exact hc
    · exact absurd (cut_at (by simp) g3) (honly eo' hc)
  subst h1
  obtain ⟨e1, e2, e3, e4, e5, e6, e7, e8, e9⟩ := eocd_fields h.endAt (by omega) (by omega) (by omega) (by omega) h.cdSize h.cdOff32 h.comment
  rw [eocdrRead_ok] at he
  obtain ⟨_, _, _, _, _, _, hee, _⟩ := he
  rw [cut_leAt (by rw [hlen]; omega), cut_leAt (by rw [hlen]; omega), cut_leAt (by rw [hlen]; omega)] at hee
  simp only [Nat.add_assoc, Nat.reduceAdd] at hee
  rw [e7, e8, e9] at hee
  subst hee
  have hcl := h.endLast
  -- the place of the central directory
  have hcd32 : cd = L.cdOff32 := by
    have hs := (getStart_ok (file.take n) ⟨L.cdSize, L.cdOff32, L.comment.length⟩ p cd).mp ⟨p', hstart⟩
    simp only [hlen] at hs
    rcases hs with ⟨_, hs⟩ | ⟨s1, s2, _⟩
    · exact hs
    · exfalso
      have hx : At (file.take n) (n - (42 + L.comment.length)) [0x50, 0x4b, 6, 7] := by
        rw [← sigLoc64]
        exact (sig_iff (by omega)).mp ⟨by rw [hlen]; omega, s2⟩
      exact hloc _ (by omega) (cut_at (by simp) hx)
  have hh := cut_cdHeader hhd
  have hcdEq : cd = L.cd := by
    rcases hoff with ho | ⟨ho, hl⟩
    · omega
    · exfalso
      rw [cdHeader_ok] at hh
      have := hh.1
      omega
  rw [hcdEq] at hh
  obtain ⟨pp, hp⟩ := cdHeader_single lib h hst
  rw [hp] at hh
  simp only [Res.ok.injEq, Prod.mk.injEq] at hh
  obtain ⟨hdEq, _⟩ := hh
  subst hdEq
  simp only at hname hm ho3
  refine ⟨hname, ?_⟩
  have hla := h.localAt
  have hin := h.inside
  simp only [LocalHeader.bytes, at_append, List.length_append, leBytes_length, h.localOk.mid, List.length_cons, List.length_nil, Nat.reduceAdd] at hla hin hbefore
  obtain ⟨⟨⟨⟨⟨⟨a1, a2⟩, a3⟩, a4⟩, a5⟩, a6⟩, a7⟩ := hla
  have hnl : leAt file (L.lo + 26) 2 = L.lh.name.length := leAt_of_at a3 h.localOk.name
  have hel : leAt file (L.lo + 28) 2 = L.lh.extra.length := leAt_of_at a4 h.localOk.extra
  have hdata : ((file.take n).drop (L.lo + 30 + leAt (file.take n) (L.lo + 26) 2 + leAt (file.take n) (L.lo + 28) 2)).take packed.length = packed := by
    rw [cut_leAt (by omega), cut_leAt (by omega), hnl, hel, take_drop_take (by omega),
      show L.lo + 30 + L.lh.name.length + L.lh.extra.length = L.lo + (30 + L.lh.name.length + L.lh.extra.length) by omega]
    exact a7
  rw [hdata] at hm
  simp only [BitVec.ofNat_toNat, BitVec.setWidth_eq] at hm
  rcases hm with ⟨hm, hr⟩ | ⟨hm, hr⟩ | ⟨hm, hr⟩ <;> rw [hr, hm] <;> rfl

end Chopper
