import Verif.Proofs.Input

namespace Chopper
open Spec

/-! ## A checking reader as a plain reader -/

theorem asInner_read (r : CrcReader) (n : Nat) :
    (r.asInner.read n).1 = (r.read n).1 ∧ (r.asInner.read n).2 = (r.read n).2.asInner := by
  have key : ∀ (m : Nat) (s : List ReadStep), m ≤ n → (n ≠ 0 → m ≠ 0) → r.inner.read n = r.inner.deliver m s → r.asInner.read n = r.asInner.deliver m s →
      (r.asInner.read n).1 = (r.read n).1 ∧ (r.asInner.read n).2 = (r.read n).2.asInner := by
    intro m s hmn hm h1 h2
    rw [h2]
    unfold CrcReader.read
    rw [h1]
    obtain ⟨⟨data, sched, ending⟩, crc, hasher⟩ := r
    cases ending with
    | some e =>
      simp only [CrcReader.asInner, Inner.deliver]
      by_cases hd : data = [] ∧ m ≠ 0
      · simp [hd]
      · simp only [if_neg hd]
        have hc : ¬ ((data.take m).length = 0 ∧ n ≠ 0 ∧ hasher.finish ≠ crc) := by
          rintro ⟨a1, a2, _⟩
          have : data.take m = [] := List.length_eq_zero_iff.mp a1
          rw [List.take_eq_nil_iff] at this
          have hm0 := hm a2
          rcases this with h | h
          · exact hm0 h
          · exact hd ⟨h, hm0⟩
        simp only [if_neg hc]
        by_cases hd1 : data = []
        · have hm0 : m = 0 := Classical.byContradiction fun h => hd ⟨hd1, h⟩
          simp [hm0]
        · simp [hd1]
    | none =>
      simp only [CrcReader.asInner, Inner.deliver]
      have hup : ∀ x : List Byte, (hasher.update x).update (data.drop m) = (⟨(x ++ data.drop m).foldl crcByte hasher.state⟩ : Hasher) := by
        intro x; simp [Hasher.update]
      by_cases hd : data = []
      · subst hd
        by_cases hf : hasher.finish = crc
        · simp [hf, Hasher.update]
        · by_cases hm0 : m = 0
          · have hn0 : n = 0 := Classical.byContradiction fun h => hm h hm0
            subst hm0; subst hn0
            have hf' : ¬ (Hasher.update hasher []).finish = crc := hf
            simp [hf', Hasher.update]
            simp [hf]
          · have hn0 : n ≠ 0 := by intro h; omega
            have hf' : ¬ (Hasher.update hasher []).finish = crc := hf
            simp [hf', hm0, hn0, hf, Hasher.update]
      · have hc : ¬ ((data.take m).length = 0 ∧ n ≠ 0 ∧ hasher.finish ≠ crc) := by
          rintro ⟨a1, a2, _⟩
          have : data.take m = [] := List.length_eq_zero_iff.mp a1
          rw [List.take_eq_nil_iff] at this
          rcases this with h | h
          · exact hm a2 h
          · exact hd h
        simp only [if_neg hc]
        have hu : (hasher.update (data.take m)).update (data.drop m) = hasher.update data := by
          rw [hup, List.take_append_drop]; rfl
        rw [hu]
        by_cases hf : (hasher.update data).finish = crc
        · simp [hf]
        · simp [hf, hd]
  have hs : r.asInner.sched = r.inner.sched := rfl
  cases hsc : r.inner.sched with
  | nil =>
    exact key n [] (by omega) id (by unfold Inner.read; rw [hsc]) (by unfold Inner.read; rw [hs, hsc])
  | cons x s =>
    cases x with
    | bytes k => exact key (min n (max 1 k)) s (Nat.min_le_left _ _) (by omega) (by unfold Inner.read; rw [hsc]) (by unfold Inner.read; rw [hs, hsc])
    | fail e =>
      have h1 : r.inner.read n = (.err (.io e), { r.inner with sched := s }) := by unfold Inner.read; rw [hsc]
      have h2 : r.asInner.read n = (.err (.io e), { r.asInner with sched := s }) := by unfold Inner.read; rw [hs, hsc]
      unfold CrcReader.read
      rw [h1, h2]
      exact ⟨rfl, rfl⟩

end Chopper
