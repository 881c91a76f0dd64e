import Verif.Proofs.Zip3

namespace Chopper
open Spec

theorem leAt_list {file bs : List Byte} {off : Nat} (h : At file off bs) : leAt file off bs.length = leVal bs := by
  unfold leAt; rw [h]

/-- The loop over the extra field stops after an entry comment without control characters in front of an end record. -/
theorem stops_of_comment {file : List Byte} {x k : Nat} {comment : List Byte} {y : Byte} (hy : y = 5 ∨ y = 6) (h : At file x (comment ++ [0x50, 0x4b, y, 6]))
    (hc : ∀ b ∈ comment, 0x20 ≤ b.toNat) (hk : k ≤ 338) : StopsAt file x k := by
  -- the first four bytes
  have key : ∃ b0 b1 b2 b3 rest, comment ++ [0x50, 0x4b, y, 6] = [b0, b1] ++ ([b2, b3] ++ rest) ∧ b0.toNat + 256 * b1.toNat ≠ 1 ∧
      1352 ≤ b2.toNat + 256 * b3.toNat := by
    have hy5 : y.toNat = 5 ∨ y.toNat = 6 := by rcases hy with rfl | rfl <;> simp
    match comment, hc with
    | [], _ => exact ⟨0x50, 0x4b, y, 6, [], rfl, by decide, by show 1352 ≤ y.toNat + 256 * 6; omega⟩
    | [a], hc => exact ⟨a, 0x50, 0x4b, y, [6], rfl, by show a.toNat + 256 * 80 ≠ 1; omega, by show 1352 ≤ 75 + 256 * y.toNat; omega⟩
    | [a, b], hc =>
      have := hc a (by simp)
      exact ⟨a, b, 0x50, 0x4b, [y, 6], rfl, by omega, by decide⟩
    | [a, b, c], hc =>
      have := hc a (by simp)
      exact ⟨a, b, c, 0x50, [0x4b, y, 6], rfl, by omega, by show 1352 ≤ c.toNat + 256 * 80; omega⟩
    | a :: b :: c :: d :: rest, hc =>
      have := hc a (by simp)
      have := hc d (by simp)
      exact ⟨a, b, c, d, rest ++ [0x50, 0x4b, y, 6], rfl, by omega, by omega⟩
  obtain ⟨b0, b1, b2, b3, rest, he, h1, h2⟩ := key
  rw [he, at_append, at_append] at h
  have e1 := leAt_list h.1
  have e2 := leAt_list h.2.1
  have hl := at_len h.2.1 (by simp)
  simp only [List.length_cons, List.length_nil, Nat.reduceAdd, leVal] at e1 e2 hl
  right
  exact ⟨by omega, by omega, by omega⟩

theorem lastEnd_unique {file : List Byte} {a b : Nat} (ha : At file a [0x50, 0x4b, 5, 6]) (hb : At file b [0x50, 0x4b, 5, 6])
    (la : LastEnd file a) (lb : LastEnd file b) : a = b := by
  rcases Nat.lt_trichotomy a b with h | h | h
  · exact absurd hb (la b h)
  · exact h
  · exact absurd ha (lb a h)

/-- What `CentralIs` says is what the code finds. -/
theorem getStart_central {file : List Byte} {eo cdSize cdOff clen cd : Nat} (hc : CentralIs file eo cdOff cd) (hend : eo + 22 + clen = file.length)
    (hsize : file.length < 2 ^ 62) (hcd : cd < 2 ^ 64) (pos cd' q : Nat) (h : getStartOfCentralDir file ⟨cdSize, cdOff, clen⟩ pos = .ok (cd', q)) : cd' = cd := by
  have hmax : maxOffset = 2 ^ 63 := rfl
  have h' := (getStart_ok file ⟨cdSize, cdOff, clen⟩ pos cd').mp ⟨q, h⟩
  simp only at h'
  have hlo : file.length - (42 + clen) = eo - 20 := by omega
  rw [hlo] at h'
  rcases hc with ⟨hno, hoff⟩ | ⟨hge, zo, pre, cs, hpre, hcs, hzo, hloc, hz⟩
  · rcases h' with ⟨_, h'⟩ | ⟨h1, h2, _⟩
    · omega
    · exfalso; apply hno
      rw [← sigLoc64]
      exact (sig_iff (by omega)).mp ⟨by omega, h2⟩
  · simp only [locatorBytes, at_append, List.length_append, leBytes_length, List.length_cons, List.length_nil, Nat.reduceAdd] at hloc
    obtain ⟨⟨⟨l1, l2⟩, l3⟩, l4⟩ := hloc
    simp only [eocd64Bytes, at_append, List.length_append, leBytes_length, List.length_cons, List.length_nil, hpre, Nat.reduceAdd] at hz
    obtain ⟨⟨⟨⟨⟨⟨⟨z1, z2⟩, z3⟩, z4⟩, z5⟩, z6⟩, z7⟩, z8⟩ := hz
    have hzo' : leAt file (eo - 20 + 8) 8 = zo := leAt_of_at l3 (by omega)
    rw [hzo'] at h'
    rcases h' with ⟨h1, _⟩ | h'
    · exfalso; apply h1
      rw [← sigLoc64] at l1
      exact ⟨by omega, leAt_of_at l1 (by omega)⟩
    · rw [h'.2.2.2.2.2.2.2.2.2.2.2]; exact leAt_of_at z8 (by omega)

theorem returns_cases {α : Type} {x : Sk α} (h : Returns x) (pos : Nat) (hn : ¬ ∃ r, x pos = .ok r) : ∃ e, x pos = .err (.io e) := by
  rcases h pos with h | h
  · exact absurd h hn
  · exact h

end Chopper
