import Verif.Proofs.Zip

namespace Chopper
open Spec

/-! ## The extra field -/

theorem sub_bytes_length (s : Subfield) : s.bytes.length = 4 + s.data.length := by
  simp only [Subfield.bytes, List.length_append, leBytes_length]

theorem at_sub {file : List Byte} {pos : Nat} {s : Subfield} (hok : s.Ok) (h : At file pos s.bytes) :
    pos + 4 ≤ file.length ∧ leAt file pos 2 = s.id ∧ leAt file (pos + 2) 2 = s.data.length ∧ At file (pos + 4) s.data := by
  have hl := at_len h (by simp [Subfield.bytes, leBytes])
  rw [sub_bytes_length] at hl
  unfold Subfield.bytes at h
  rw [at_append, at_append] at h
  simp only [List.length_append, leBytes_length, Nat.reduceAdd] at h
  exact ⟨by omega, leAt_of_at h.1.1 hok.id, leAt_of_at h.1.2 hok.data, h.2⟩

theorem skForward_of {n pos : Nat} (h : pos + n < maxOffset) : skForward n pos = .ok ((), pos + n) := by
  unfold skForward; rw [if_pos h]

/-- A subfield that is not the zip64 one is skipped. -/
theorem extra_other {file : List Byte} {len fuel total pos : Nat} {z : Sizes} {size : Nat} (ht : total < len) (h4 : pos + 4 ≤ file.length)
    (hid : leAt file pos 2 ≠ 1) (hs : leAt file (pos + 2) 2 = size) (hm : pos + 4 + size < maxOffset) :
    readExtraLoop file len (fuel + 1) total z pos = readExtraLoop file len fuel (total + size) z (pos + 4 + size) := by
  rw [readExtraLoop]
  simp only [sk_bind_eq]
  rw [if_pos ht, sk_bind_of (skLe_of (by omega) (by omega)), sk_bind_of (skLe_of (by omega) (by omega)),
    sk_bind_of (a := (z, 0)) (p := pos + 2 + 2) (by unfold readSub; rw [if_neg hid]; rfl), hs]
  simp only [Nat.not_lt_zero, gt_iff_lt, if_false, Nat.sub_zero]
  rw [sk_bind_of (skForward_of (by omega))]

theorem readIfSaturated_of {file : List Byte} {v w d pos : Nat} (h : At file pos (zip64Data v w)) (hv : v ≠ 0xffffffff → w = v) (hw : w < 2 ^ 64) :
    readIfSaturated file v d pos = .ok ((w, d + (zip64Data v w).length), pos + (zip64Data v w).length) := by
  unfold readIfSaturated
  unfold zip64Data at *
  by_cases he : v = 0xffffffff
  · rw [if_pos he] at h
    rw [if_pos he, if_pos he, leBytes_length]
    have hl := at_len h (by simp [leBytes])
    rw [leBytes_length] at hl
    rw [sk_bind_of (skLe_of (by omega) hl), leAt_of_at h hw]; rfl
  · rw [if_neg he, if_neg he, hv he]; rfl

/-- The zip64 subfield. -/
theorem extra_zip64 {file : List Byte} {len fuel total pos u c o : Nat} {z : Sizes} {s : Subfield} (hok : s.Ok) (ht : total < len)
    (hat : At file pos s.bytes) (hid : s.id = 1) (hm : pos + 4 + s.data.length < maxOffset)
    (hpre : zip64Data z.usize u ++ zip64Data z.csize c ++ zip64Data z.off o <+: s.data)
    (hu : z.usize ≠ 0xffffffff → u = z.usize) (hc : z.csize ≠ 0xffffffff → c = z.csize) (ho : z.off ≠ 0xffffffff → o = z.off)
    (hb : u < 2 ^ 64 ∧ c < 2 ^ 64 ∧ o < 2 ^ 64) :
    readExtraLoop file len (fuel + 1) total z pos =
      readExtraLoop file len fuel (total + s.data.length) ⟨u, c, o⟩ (pos + 4 + s.data.length) := by
  obtain ⟨h4, e1, e2, hd⟩ := at_sub hok hat
  obtain ⟨rest, hrest⟩ := hpre
  rw [← hrest, at_append, at_append, at_append] at hd
  obtain ⟨⟨⟨d1, d2⟩, d3⟩, _⟩ := hd
  simp only [List.length_append] at d3
  rw [readExtraLoop]
  simp only [sk_bind_eq]
  rw [if_pos ht, sk_bind_of (skLe_of (by omega) (by omega)), sk_bind_of (skLe_of (by omega) (by omega)), e1, e2]
  have hlen : s.data.length = (zip64Data z.usize u).length + (zip64Data z.csize c).length + (zip64Data z.off o).length + rest.length := by
    rw [← hrest]; simp only [List.length_append]
  have hsub : readSub file s.id z (pos + 2 + 2) = .ok ((⟨u, c, o⟩, (zip64Data z.usize u).length + (zip64Data z.csize c).length +
      (zip64Data z.off o).length), pos + 4 + ((zip64Data z.usize u).length + (zip64Data z.csize c).length + (zip64Data z.off o).length)) := by
    unfold readSub
    rw [if_pos hid]
    unfold readZip64Sub
    simp only [sk_bind_eq]
    rw [sk_bind_of (readIfSaturated_of d1 hu hb.1)]
    simp only []
    rw [sk_bind_of (readIfSaturated_of d2 hc hb.2.1)]
    simp only []
    rw [Nat.add_assoc (pos + 4), sk_bind_of (readIfSaturated_of d3 ho hb.2.2)]
    simp only [Sk.pure, Nat.zero_add, Nat.add_assoc]
  rw [sk_bind_of hsub]
  simp only []
  rw [if_neg (by omega), sk_bind_of (skForward_of (by omega))]
  congr 1
  omega

/-- Total size of the data of subfields. -/
def dataLen (subs : List Subfield) : Nat := (subs.map fun s => s.data.length).sum

theorem flatMap_sub_length (subs : List Subfield) : (subs.flatMap Subfield.bytes).length = 4 * subs.length + dataLen subs := by
  induction subs with
  | nil => rfl
  | cons s subs ih =>
    simp only [List.flatMap_cons, List.length_append, sub_bytes_length, ih, dataLen, List.map_cons, List.sum_cons, List.length_cons]
    omega

/-- Subfields none of which is the zip64 one. -/
theorem extra_others {file : List Byte} {len : Nat} {z : Sizes} : ∀ (subs : List Subfield) (fuel total pos : Nat),
    (∀ s ∈ subs, s.Ok) → (∀ s ∈ subs, s.id ≠ 1) → At file pos (subs.flatMap Subfield.bytes) →
    total + (subs.flatMap Subfield.bytes).length ≤ len → pos + (subs.flatMap Subfield.bytes).length < maxOffset →
    readExtraLoop file len (subs.length + fuel) total z pos =
      readExtraLoop file len fuel (total + dataLen subs) z (pos + (subs.flatMap Subfield.bytes).length)
  | [], fuel, total, pos, _, _, _, _, _ => by simp [dataLen]
  | s :: subs, fuel, total, pos, hok, hid, hat, ht, hm => by
    have ih := extra_others (file := file) (len := len) (z := z) subs fuel
    simp only [List.flatMap_cons, List.length_append, sub_bytes_length] at ht hm
    rw [List.flatMap_cons, at_append, sub_bytes_length] at hat
    obtain ⟨h4, e1, e2, _⟩ := at_sub (hok s (by simp)) hat.1
    rw [List.length_cons, show subs.length + 1 + fuel = (subs.length + fuel) + 1 by omega,
      extra_other (by omega) h4 (by rw [e1]; exact hid s (by simp)) e2 (by omega)]
    rw [ih _ _ (fun t ht => hok t (by simp [ht])) (fun t ht => hid t (by simp [ht])) (by rw [Nat.add_assoc]; exact hat.2) (by omega) (by omega)]
    simp only [List.flatMap_cons, List.length_append, sub_bytes_length, dataLen, List.map_cons, List.sum_cons, Nat.add_assoc]

/-- The bytes that follow the extra field end the loop: the loop does not count the headers of the subfields, so it takes them for another
subfield. -/
def StopsAt (file : List Byte) (pos subs : Nat) : Prop :=
  subs = 0 ∨ (pos + 4 ≤ file.length ∧ leAt file pos 2 ≠ 1 ∧ 4 * subs ≤ leAt file (pos + 2) 2)

/-- The whole extra field. -/
theorem extra_all {file : List Byte} {h : CentralHeader} (hok : h.Ok) {u c o pos : Nat} (hm : h.Means u c o)
    (hat : At file pos h.extraBytes) (hl : pos + h.extraBytes.length ≤ file.length) (hs : file.length < 2 ^ 62)
    (hst : StopsAt file (pos + h.extraBytes.length) h.extra.length) :
    ∃ p, readExtraLoop file h.extraBytes.length (file.length + 1) 0 ⟨h.usize, h.csize, h.off⟩ pos = .ok (⟨u, c, o⟩, p) ∧ p < 2 ^ 62 + 65536 := by
  have hmax : maxOffset = 2 ^ 63 := rfl
  have hlen : h.extraBytes.length = 4 * h.extra.length + dataLen h.extra := flatMap_sub_length _
  -- after the subfields
  have tail : ∀ fuel z, ∃ p, readExtraLoop file h.extraBytes.length (fuel + 2) (dataLen h.extra) z (pos + h.extraBytes.length) = .ok (z, p) ∧
      p < 2 ^ 62 + 65536 := by
    intro fuel z
    have hpure : ∀ f t p, ¬ t < h.extraBytes.length → readExtraLoop file h.extraBytes.length (f + 1) t z p = .ok (z, p) := by
      intro f t p ht
      rw [readExtraLoop]
      rw [if_neg ht]; rfl
    rcases hst with h0 | ⟨h1, h2, h3⟩
    · exact ⟨_, hpure _ _ _ (by omega), by omega⟩
    · have hb : leAt file (pos + h.extraBytes.length + 2) 2 < 256 ^ 2 := leAt_lt (by omega)
      by_cases h0 : h.extra.length = 0
      · exact ⟨_, hpure _ _ _ (by omega), by omega⟩
      · refine ⟨pos + h.extraBytes.length + 4 + leAt file (pos + h.extraBytes.length + 2) 2, ?_, by omega⟩
        rw [show fuel + 2 = (fuel + 1) + 1 from rfl, extra_other (by omega) h1 h2 rfl (by omega)]
        exact hpure _ _ _ (by omega)
  have hk : h.extra.length + 2 ≤ file.length + 1 ∨ h.extra.length = 0 := by
    rcases Nat.eq_zero_or_pos h.extra.length with h | h
    · exact .inr h
    · left; omega
  by_cases hz : ∃ s ∈ h.extra, s.id = 1
  · obtain ⟨s, hs1, hs2⟩ := hz
    obtain ⟨pre, post, hsplit⟩ := List.append_of_mem hs1
    have hone := hm.once pre s post hsplit hs2
    obtain ⟨m1, m2, m3, m4⟩ := hm.present s hs1 hs2
    have hbytes : h.extraBytes = pre.flatMap Subfield.bytes ++ (s.bytes ++ post.flatMap Subfield.bytes) := by
      unfold CentralHeader.extraBytes; rw [hsplit]; simp
    have hdl : dataLen h.extra = dataLen pre + s.data.length + dataLen post := by
      rw [hsplit]; simp [dataLen]; omega
    have hel : h.extra.length = pre.length + 1 + post.length := by rw [hsplit]; simp; omega
    have lpre := flatMap_sub_length pre
    have lpost := flatMap_sub_length post
    have hat' := hat
    rw [hbytes, at_append, at_append, sub_bytes_length] at hat'
    obtain ⟨a1, a2, a3⟩ := hat'
    have hsok : ∀ t ∈ h.extra, t.Ok := hok.subs
    have hfuel : file.length + 1 = pre.length + ((post.length + (file.length + 1 - h.extra.length - 2 + 2)) + 1) := by omega
    rw [hfuel]
    rw [extra_others pre _ _ _ (fun t ht => hsok t (by rw [hsplit]; simp [ht])) (fun t ht => hone t (by simp [ht])) a1 (by omega) (by omega)]
    rw [extra_zip64 (hsok s hs1) (by omega) a2 hs2 (by omega) m1 m2 m3 m4 hm.bounds]
    rw [extra_others post _ _ _ (fun t ht => hsok t (by rw [hsplit]; simp [ht])) (fun t ht => hone t (by simp [ht]))
      (by rw [Nat.add_assoc]; exact a3) (by omega) (by omega)]
    have e1 : 0 + dataLen pre + s.data.length + dataLen post = dataLen h.extra := by omega
    have e2 : pos + (List.flatMap Subfield.bytes pre).length + 4 + s.data.length + (List.flatMap Subfield.bytes post).length =
        pos + h.extraBytes.length := by rw [lpre, lpost, hlen]; omega
    rw [e1, e2]
    exact tail _ _
  · have hn : ∀ s ∈ h.extra, s.id ≠ 1 := fun s h1 h2 => hz ⟨s, h1, h2⟩
    obtain ⟨rfl, rfl, rfl⟩ := hm.absent hn
    rcases hk with hk | hk
    · have hfuel : file.length + 1 = h.extra.length + (file.length + 1 - h.extra.length - 2 + 2) := by omega
      rw [hfuel]
      rw [extra_others h.extra _ _ _ hok.subs hn hat (by unfold CentralHeader.extraBytes; omega) (by unfold CentralHeader.extraBytes at hl; omega)]
      have e := tail (file.length + 1 - h.extra.length - 2) ⟨h.usize, h.csize, h.off⟩
      unfold CentralHeader.extraBytes at *
      rw [Nat.zero_add]
      exact e
    · have : h.extraBytes.length = 0 := by
        have : h.extra = [] := List.length_eq_zero_iff.mp hk
        unfold CentralHeader.extraBytes; rw [this]; rfl
      refine ⟨pos, ?_, by omega⟩
      rw [readExtraLoop, if_neg (by omega)]; rfl

/-! ## Names -/

theorem testBit_iff (n : Nat) (i : Nat) : (n &&& (1 <<< i) ≠ 0) ↔ n.testBit i = true := by
  rw [Nat.one_shiftLeft]
  constructor
  · intro h
    cases ht : n.testBit i
    · exfalso; apply h
      apply Nat.eq_of_testBit_eq
      intro j
      rw [Nat.testBit_and, Nat.testBit_two_pow]
      by_cases hj : i = j
      · subst hj; simp [ht]
      · simp [hj]
    · rfl
  · intro h he
    have : (n &&& 2 ^ i).testBit i = false := by rw [he]; simp
    rw [Nat.testBit_and, Nat.testBit_two_pow, h] at this
    simp at this

theorem zipName_of {lib : ZipLib} {flags : Nat} {bs : List Byte} {name : Str} (h : NameIs flags bs name) : zipName lib flags bs = name := by
  unfold NameIs at h
  unfold zipName
  by_cases hb : flags.testBit 11 = true
  · rw [if_pos hb] at h
    rw [if_pos ((testBit_iff _ _).mpr hb), h, utf8Decode_encode]
  · rw [if_neg hb] at h
    rw [if_neg (fun hx => hb ((testBit_iff _ _).mp hx)), h]
    apply List.map_congr_left
    intro b _
    by_cases hb : b.toNat < 128
    · rw [if_pos hb, if_pos (by omega)]
    · rw [if_neg hb, if_neg (by omega)]

end Chopper
