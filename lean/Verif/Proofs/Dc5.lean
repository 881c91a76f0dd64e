import Verif.Proofs.Dc4

/-!
# Proofs about the DC format: data that ends or fails early
-/
namespace Chopper
open Spec

theorem header_stops (ov : Overflow) {file : List Byte} {src : DcSource} (ho : dcOpen ov (ofBytes file) = .ok src) {n : Nat}
    (hn : n < file.length - src.stream.length) {tl : Stream} {e : IoKind} (ht : StopsWith tl e) :
    dcOpen ov (ofBytes (file.take n) ++ tl) = .err (.io e) := by
  obtain ⟨c, hs, hh⟩ := dcOpen_iff.1 ho
  obtain ⟨body, rfl, hb⟩ := ofBytes_eq_append hs
  have u := uses_dcHeader ov hh
  have hl : n < c.length := by rw [hb] at hn; simp at hn; omega
  have e1 : (c ++ body).take n = c.take n := List.take_append_of_le_length (by omega)
  have e2 : c = c.take n ++ c.drop n := by simp
  have e3 : c.drop n ≠ [] := by intro h; have := congrArg List.length h; simp at this; omega
  rw [e1]
  unfold dcOpen
  cases ht with
  | ends => rw [List.append_nil, u.eof _ _ e2 e3]
  | fails e t => rw [u.fail _ _ e2 e3]

theorem rows_stop (ov : Overflow) {file : List Byte} {src fin : DcSource} {rows : List Row} (ho : dcOpen ov (ofBytes file) = .ok src)
    (hd : Delivers src rows fin) {n : Nat} (h1 : file.length - src.stream.length ≤ n) (h2 : n ≤ file.length - fin.stream.length)
    {tl : Stream} {e : IoKind} (ht : StopsWith tl e) :
    ∃ (k : Nat) (mid cut stop : DcSource), k ≤ rows.length ∧
      Delivers src (rows.take k) mid ∧ file.length - mid.stream.length ≤ n ∧
      (k < rows.length → ∀ mid', Delivers src (rows.take (k + 1)) mid' → n < file.length - mid'.stream.length) ∧
      (k = rows.length → n = file.length - mid.stream.length) ∧
      dcOpen ov (ofBytes (file.take n) ++ tl) = .ok cut ∧ cut.header = src.header ∧ Delivers cut (rows.take k) stop ∧
      stop.nextRow.1 = if n - (file.length - mid.stream.length) < 8 then .ok none else .err (.io e) := by
  obtain ⟨hdr, hs, hh⟩ := dcOpen_iff.1 ho
  obtain ⟨body, rfl, hb⟩ := ofBytes_eq_append hs
  obtain ⟨c, hc, hfh, hall, hcut⟩ := delivers_cut hd
  obtain ⟨rest, rfl, hr⟩ := ofBytes_eq_append (hb.symm.trans hc)
  have ls : src.stream.length = c.length + rest.length := by rw [hb]; simp
  have lf : fin.stream.length = rest.length := by rw [hr]; simp
  have e1 : (hdr ++ (c ++ rest)).length - src.stream.length = hdr.length := by rw [ls]; simp
  have e2 : (hdr ++ (c ++ rest)).length - fin.stream.length = hdr.length + c.length := by rw [lf]; simp; omega
  rw [e1] at h1
  rw [e2] at h2
  obtain ⟨k, d, p, hdp, hk, hdel, hpk, h8, hmax⟩ := hcut (n - hdr.length) (by omega)
  have hcl : (d ++ p).length = n - hdr.length := by rw [← hdp]; simp; omega
  have hcs : c = d ++ (p ++ c.drop (n - hdr.length)) := by
    rw [← List.append_assoc, ← hdp, List.take_append_drop]
  have htake : (hdr ++ (c ++ rest)).take n = hdr ++ (d ++ p) := by
    rw [List.take_append, List.take_of_length_le h1, List.take_append_of_le_length (by omega), hdp]
  have hmid : Delivers src (rows.take k) ⟨ofBytes (p ++ c.drop (n - hdr.length)) ++ fin.stream, src.header⟩ := by
    have : src = ⟨ofBytes d ++ (ofBytes (p ++ c.drop (n - hdr.length)) ++ fin.stream), src.header⟩ := by
      rw [← List.append_assoc, ← ofBytes_append, ← hcs, ← hc]
    rw [this]
    exact hdel _
  have lm : (hdr ++ (c ++ rest)).length - (ofBytes (p ++ c.drop (n - hdr.length)) ++ fin.stream).length = hdr.length + d.length := by
    simp only [List.length_append, ofBytes_length, lf]
    have := congrArg List.length hcs
    simp only [List.length_append] at this
    omega
  have hdl : d.length + p.length = n - hdr.length := by simpa using hcl
  refine ⟨k, _, ⟨ofBytes d ++ (ofBytes p ++ tl), src.header⟩, ⟨ofBytes p ++ tl, src.header⟩, hk, hmid, ?_, ?_, ?_, ?_, rfl, hdel _, ?_⟩
  · simp only [lm]; omega
  · intro hk' mid' hd'
    have := hmax mid' hd' hk'
    rw [ls] at this
    simp only [List.length_append]
    omega
  · intro hk'
    simp only [lm]
    rcases hpk with rfl | h
    · simp at hdl; omega
    · omega
  · rw [htake]
    exact dcOpen_iff.2 ⟨hdr, by simp, hh⟩
  · simp only [lm]
    rw [show n - (hdr.length + d.length) = p.length by omega]
    by_cases hp : p.length < 8
    · rw [if_pos hp]
      cases ht with
      | ends => rw [List.append_nil, (nextRow_short p hp _).1]
      | fails e t => rw [(nextRow_short p hp _).2]
    · rw [if_neg hp]
      obtain ⟨x1, x2⟩ := h8 (by omega)
      cases ht with
      | ends => rw [List.append_nil, x1]
      | fails e t => rw [x2]

end Chopper
