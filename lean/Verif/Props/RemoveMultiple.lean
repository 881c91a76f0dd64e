import Verif.Model.RemoveMultiple

/-!
# C04: `remove_multiple`
-/
namespace Chopper.Spec

/-- The elements whose position is not listed, in order. The first element has position `off`. -/
def unlistedFrom {α : Type} (off : Nat) (indices : List Nat) (l : List α) : List α :=
  ((l.zipIdx off).filter (fun p => decide (p.2 ∉ indices))).map (·.1)

end Chopper.Spec

namespace Chopper
open Spec

theorem unlistedFrom_cons {α : Type} (off : Nat) (indices : List Nat) (x : α) (l : List α) :
    unlistedFrom off indices (x :: l) = if off ∈ indices then unlistedFrom (off + 1) indices l else x :: unlistedFrom (off + 1) indices l := by
  unfold unlistedFrom
  rw [List.zipIdx_cons]
  by_cases h : off ∈ indices <;> simp [h]

theorem unlistedFrom_append {α : Type} (indices : List Nat) (a b : List α) : ∀ off,
    unlistedFrom off indices (a ++ b) = unlistedFrom off indices a ++ unlistedFrom (off + a.length) indices b := by
  induction a with
  | nil => intro off; simp [unlistedFrom]
  | cons x a ih =>
    intro off
    rw [List.cons_append, unlistedFrom_cons, unlistedFrom_cons, ih]
    simp only [List.length_cons, show off + 1 + a.length = off + (a.length + 1) by omega]
    split <;> simp

theorem unlistedFrom_none {α : Type} (indices : List Nat) (a : List α) : ∀ off, (∀ i ∈ indices, i < off ∨ off + a.length ≤ i) →
    unlistedFrom off indices a = a := by
  induction a with
  | nil => intro off _; simp [unlistedFrom]
  | cons x a ih =>
    intro off h
    rw [unlistedFrom_cons, if_neg (by intro hm; have := h off hm; simp at this; omega), ih (off + 1)]
    intro i hi
    have := h i hi
    simp only [List.length_cons] at this
    omega

/-- Positions below `off` do not matter. -/
theorem unlistedFrom_drop {α : Type} (c : Nat) (indices : List Nat) (a : List α) : ∀ off, c < off →
    unlistedFrom off (c :: indices) a = unlistedFrom off indices a := by
  induction a with
  | nil => intro off _; simp [unlistedFrom]
  | cons x a ih =>
    intro off h
    rw [unlistedFrom_cons, unlistedFrom_cons, ih (off + 1) (by omega)]
    have : off ∈ c :: indices ↔ off ∈ indices := by simp; omega
    simp only [this]

theorem rotate_step {α : Type} (K J M T : List α) (x : α) :
    rotateRange (K ++ J ++ x :: (M ++ T)) K.length (K.length + J.length + 1 + M.length) (J.length + 1) =
      .ok (K ++ M ++ (J ++ [x]) ++ T) := by
  unfold rotateRange
  rw [if_pos (by simp; omega)]
  have e0 : K ++ J ++ x :: (M ++ T) = K ++ ((J ++ [x] ++ M) ++ T) := by simp
  have e1 : K.length + J.length + 1 + M.length - K.length = (J ++ [x] ++ M).length := by simp; omega
  have e2 : K.length + J.length + 1 + M.length = K.length + (J ++ [x] ++ M).length := by simp; omega
  have e3 : J.length + 1 = (J ++ [x]).length := by simp
  simp only [e1]
  rw [e0, List.drop_left, List.take_left, List.take_left, e2, e3, List.drop_left, List.take_left, ← List.drop_drop, List.drop_left,
    List.drop_left]
  simp

theorem removeLoop_ok {α : Type} : ∀ (rest : List Nat) (K J D : List α) (x : α), (rest.Pairwise (· < ·)) →
    (∀ i ∈ rest, K.length + J.length < i ∧ i < K.length + J.length + 1 + D.length) →
    removeLoop (K ++ J ++ x :: D) (K.length + J.length) (J.length + 1) rest =
      .ok (K ++ unlistedFrom (K.length + J.length + 1) rest D)
  | [], K, J, D, x, _, _ => by
    simp only [removeLoop]
    rw [if_neg (by omega), Nat.add_sub_cancel, Nat.add_sub_cancel]
    have := rotate_step K J D [] x
    rw [List.append_nil] at this
    have e : (K ++ J ++ x :: D).length = K.length + J.length + 1 + D.length := by simp; omega
    rw [e, this]
    simp only [List.append_nil, Res.bind_ok]
    rw [if_neg (by simp; omega), unlistedFrom_none _ _ _ (by simp)]
    congr 1
    have : (K ++ D ++ (J ++ [x])).length - (J.length + 1) = (K ++ D).length := by simp; omega
    rw [this, List.take_left]
  | c :: rest, K, J, D, x, hp, hb => by
    simp only [removeLoop]
    rw [if_neg (by omega), Nat.add_sub_cancel, Nat.add_sub_cancel]
    obtain ⟨h1, h2⟩ := hb c (by simp)
    obtain ⟨hp1, hp2⟩ := List.pairwise_cons.1 hp
    obtain ⟨M, y, T, rfl, hM⟩ : ∃ M y T, D = M ++ y :: T ∧ K.length + J.length + 1 + M.length = c := by
      refine ⟨D.take (c - (K.length + J.length + 1)), D[c - (K.length + J.length + 1)], D.drop (c - (K.length + J.length + 1) + 1), ?_, ?_⟩
      · simp
      · simp; omega
    have := rotate_step K J M (y :: T) x
    rw [hM] at this
    rw [this]
    simp only [Res.bind_ok]
    have ih := removeLoop_ok rest (K ++ M) (J ++ [x]) T y hp2 (by
      intro i hi
      have a1 := hp1 i hi
      have a2 := (hb i (by simp [hi])).2
      simp only [List.length_append, List.length_cons, List.length_nil] at a2 ⊢
      omega)
    have el : (K ++ M).length + (J ++ [x]).length = c := by simp; omega
    have er : (J ++ [x]).length + 1 = J.length + 1 + 1 := by simp
    rw [el, er] at ih
    rw [ih]
    congr 1
    rw [unlistedFrom_append, unlistedFrom_none _ M _ (by
      intro i hi
      rcases List.mem_cons.1 hi with rfl | hi
      · right; omega
      · right; have := hp1 i hi; omega)]
    rw [hM, unlistedFrom_cons, if_pos (by simp), unlistedFrom_drop c rest T _ (by omega)]
    simp

theorem rotateRange_len {α : Type} {l l' : List α} {a b k : Nat} (h : rotateRange l a b k = .ok l') : l'.length = l.length := by
  unfold rotateRange at h
  split at h
  · simp at h; subst h; simp; omega
  · simp at h

/-- If the positions are not strictly ascending after `prev` or one of them is out of range, the loop panics. -/
theorem removeLoop_bad {α : Type} : ∀ (rest : List Nat) (slice : List α) (prev removed : Nat), 1 ≤ removed →
    ¬ ((prev :: rest).Pairwise (· < ·) ∧ ∀ i ∈ prev :: rest, i < slice.length) → removeLoop slice prev removed rest = .panic
  | [], slice, prev, removed, hr, h => by
    simp only [removeLoop]
    split
    · rfl
    · have : ¬ prev < slice.length := by intro hlt; apply h; simp [hlt]
      unfold rotateRange
      rw [if_neg (by omega)]; rfl
  | c :: rest, slice, prev, removed, hr, h => by
    simp only [removeLoop]
    split
    · rfl
    · rename_i hu
      cases hrot : rotateRange slice (prev - (removed - 1)) c removed with
      | ok slice' =>
        simp only [Res.bind_ok]
        have hl := rotateRange_len hrot
        have hc : prev < c := by
          unfold rotateRange at hrot
          split at hrot
          · omega
          · simp at hrot
        apply removeLoop_bad rest slice' c (removed + 1) (by omega)
        intro ⟨g1, g2⟩
        apply h
        rw [hl] at g2
        refine ⟨List.pairwise_cons.2 ⟨?_, g1⟩, ?_⟩
        · intro i hi
          rcases List.mem_cons.1 hi with rfl | hi
          · exact hc
          · exact Nat.lt_trans hc ((List.pairwise_cons.1 g1).1 i hi)
        · intro i hi
          rcases List.mem_cons.1 hi with rfl | hi
          · exact Nat.lt_trans hc (g2 c (by simp))
          · exact g2 i hi
      | err e => unfold rotateRange at hrot; split at hrot <;> simp at hrot
      | panic => rfl
      | diverge => unfold rotateRange at hrot; split at hrot <;> simp at hrot

namespace Props

/-- **C04.** Given strictly ascending in-range positions, exactly the elements whose position is not listed remain, in order. -/
theorem C04_removes_listed {α : Type} (l : List α) (indices : List Nat) (hasc : indices.Pairwise (· < ·)) (hin : ∀ i ∈ indices, i < l.length) :
    removeMultiple l indices = .ok (unlistedFrom 0 indices l) := by
  cases indices with
  | nil => rw [unlistedFrom_none _ _ _ (by simp)]; rfl
  | cons i rest =>
    obtain ⟨M, y, T, rfl, hM⟩ : ∃ M y T, l = M ++ y :: T ∧ M.length = i := by
      have := hin i (by simp)
      exact ⟨l.take i, l[i], l.drop (i + 1), by simp, by simp; omega⟩
    obtain ⟨hp1, hp2⟩ := List.pairwise_cons.1 hasc
    have := removeLoop_ok rest M [] T y hp2 (by
      intro j hj
      have h1 := hp1 j hj
      have h2 := hin j (by simp [hj])
      simp at h2 ⊢; omega)
    simp only [List.append_nil, List.length_nil, Nat.add_zero, Nat.zero_add, hM] at this
    simp only [removeMultiple, this]
    rw [unlistedFrom_append, unlistedFrom_none _ M _ (by
      intro j hj
      rcases List.mem_cons.1 hj with rfl | hj
      · right; omega
      · right; have := hp1 j hj; omega)]
    rw [unlistedFrom_cons, if_pos (by simp; omega), Nat.zero_add, hM, unlistedFrom_drop i rest T _ (by omega)]

/-- **C04 (bad positions).** If the positions are not strictly ascending (a duplicate, a wrong order) or one is out of range, it panics. -/
theorem C04_bad_positions_panic {α : Type} (l : List α) (indices : List Nat)
    (h : ¬ (indices.Pairwise (· < ·) ∧ ∀ i ∈ indices, i < l.length)) : removeMultiple l indices = .panic := by
  cases indices with
  | nil => simp at h
  | cons i rest => exact removeLoop_bad rest l i 1 (by omega) h

example : removeMultiple [10, 11, 12, 13, 14, 15] [0, 2, 3, 5] = .ok [11, 14] := by decide
example : [0, 2, 3, 5].Pairwise (· < ·) ∧ (∀ i ∈ [0, 2, 3, 5], i < [10, 11, 12, 13, 14, 15].length) ∧
    unlistedFrom 0 [0, 2, 3, 5] [10, 11, 12, 13, 14, 15] = [11, 14] := by decide
example : removeMultiple [10, 11, 12] [1, 1] = .panic ∧ removeMultiple [10, 11, 12] [1, 3] = .panic := by decide

end Props
end Chopper
