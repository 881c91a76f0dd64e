import Verif.Proofs.Cli3

/-! # Laws of merging (C90, C91, C92) -/
namespace Chopper
open Chopper.Spec

theorem filter_of_perm_flatMap {α β : Type} {l l' : List α} (h : l.Perm l') (f : α → List β) : (l.flatMap f).Perm (l'.flatMap f) := h.flatMap_right f

/-- Merging the rows before `m` and those from `m` on is merging all. -/
theorem isMerge_chop {b : Option Nanos} {m : Nanos} {e : Option Nanos} (hb : ∀ x, b = some x → x ≤ m) (he : ∀ x, e = some x → m ≤ x) {ins : List (List Row)} {r1 r2 : List Row}
    (h1 : IsMerge ⟨b, some m⟩ ins r1) (h2 : IsMerge ⟨some m, e⟩ ins r2) : IsMerge ⟨b, e⟩ ins (r1 ++ r2) := by
  have m1 : ∀ r ∈ r1, r.timestamp < m := by
    intro r hr
    have := (merge_mem h1 hr).1
    simp [inRange, beforeEnd] at this
    exact this.2
  have m2 : ∀ r ∈ r2, m ≤ r.timestamp := by
    intro r hr
    have := (merge_mem h2 hr).1
    simp [inRange, notBefore] at this
    exact this.1
  refine ⟨List.pairwise_append.2 ⟨h1.sorted, h2.sorted, fun x hx y hy => ?_⟩, fun t => ?_⟩
  · have h1 := m1 x hx
    have h2 := m2 y hy
    simp only [BitVec.lt_def, BitVec.le_def] at *; omega
  · by_cases ht : t < m
    · have e2 : r2.filter (fun r => r.timestamp == t) = [] := by
        rw [List.filter_eq_nil_iff]
        intro r hr hc
        have := m2 r hr
        simp only [beq_iff_eq] at hc
        rw [hc] at this
        simp only [BitVec.lt_def, BitVec.le_def] at *; omega
      rw [List.filter_append, e2, List.append_nil, h1.rowsAt]
      congr 1
      funext i
      apply List.filter_congr
      intro r _
      by_cases hc : r.timestamp = t
      · simp only [hc, beq_self_eq_true, Bool.true_and]
        have hm : beforeEnd ⟨b, some m⟩ t = true := by simp [beforeEnd, ht]
        have hm' : beforeEnd ⟨b, e⟩ t = true := by
          cases e with
          | none => rfl
          | some x =>
            have := he x rfl
            have : t < x := by simp only [BitVec.lt_def, BitVec.le_def] at *; omega
            simpa [beforeEnd] using this
        unfold inRange
        rw [hm, hm']
        rfl
      · have hf : (r.timestamp == t) = false := by simpa using hc
        simp only [hf, Bool.false_and]
    · have ht : m ≤ t := by simp only [BitVec.lt_def, BitVec.le_def] at *; omega
      have e1 : r1.filter (fun r => r.timestamp == t) = [] := by
        rw [List.filter_eq_nil_iff]
        intro r hr hc
        have := m1 r hr
        simp only [beq_iff_eq] at hc
        rw [hc] at this
        simp only [BitVec.lt_def, BitVec.le_def] at *; omega
      rw [List.filter_append, e1, List.nil_append, h2.rowsAt]
      congr 1
      funext i
      apply List.filter_congr
      intro r _
      by_cases hc : r.timestamp = t
      · simp only [hc, beq_self_eq_true, Bool.true_and]
        have hm : notBefore ⟨some m, e⟩ t = true := by simp [notBefore, ht]
        have hm' : notBefore ⟨b, e⟩ t = true := by
          cases b with
          | none => rfl
          | some x =>
            have := hb x rfl
            have : x ≤ t := by simp only [BitVec.le_def] at *; omega
            simpa [notBefore] using this
        unfold inRange
        rw [hm, hm']
        rfl
      · have hf : (r.timestamp == t) = false := by simpa using hc
        simp only [hf, Bool.false_and]

/-- Some of the inputs may be merged beforehand, in a range that contains the final one. -/
theorem isMerge_stage {range range1 : TimestampRange} (hr : ∀ t, inRange range t = true → inRange range1 t = true) {A B C : List (List Row)} {mid rows : List Row}
    (h1 : IsMerge range1 B mid) (h2 : IsMerge range (A ++ [mid] ++ C) rows) : IsMerge range (A ++ B ++ C) rows := by
  refine ⟨h2.sorted, fun t => ?_⟩
  rw [h2.rowsAt t]
  simp only [List.reverse_append, List.flatMap_append, List.reverse_singleton, List.flatMap_cons, List.flatMap_nil, List.append_nil]
  congr 2
  have e1 : mid.filter (fun r => r.timestamp == t && inRange range r.timestamp) = (mid.filter (fun r => r.timestamp == t)).filter (fun r => inRange range r.timestamp) := by
    rw [List.filter_filter]
    apply List.filter_congr
    intro r _
    rw [Bool.and_comm]
  rw [e1, h1.rowsAt t]
  rw [List.filter_flatMap]
  congr 1
  funext i
  rw [List.filter_filter]
  apply List.filter_congr
  intro r _
  cases hi : inRange range r.timestamp with
  | false => simp
  | true => simp [hr _ hi]

/-- All rows of a merge. -/
theorem isMerge_count {range : TimestampRange} {ins : List (List Row)} {rows : List Row} (h : IsMerge range ins rows) :
    rows.Perm (ins.flatMap fun i => i.filter fun r => inRange range r.timestamp) := by
  rw [List.perm_iff_count]
  intro r
  have hc : ∀ l : List Row, l.count r = (l.filter fun x => x.timestamp == r.timestamp).count r := by
    intro l
    rw [List.count_filter (by simp)]
  rw [hc rows, h.rowsAt, hc (ins.flatMap _)]
  rw [List.filter_flatMap]
  apply List.Perm.count_eq
  have : (fun i : List Row => (i.filter fun r => inRange range r.timestamp).filter fun x => x.timestamp == r.timestamp) =
      fun i => i.filter fun x => x.timestamp == r.timestamp && inRange range x.timestamp := by
    funext i
    rw [List.filter_filter]
  rw [this]
  exact (List.reverse_perm ins).flatMap_right _

/-- Merging in another order of the inputs gives the same rows. -/
theorem isMerge_perm {range : TimestampRange} {ins ins' : List (List Row)} (hp : ins.Perm ins') {rows rows' : List Row} (h : IsMerge range ins rows) (h' : IsMerge range ins' rows') :
    rows.Perm rows' :=
  (isMerge_count h).trans ((hp.flatMap_right _).trans (isMerge_count h').symm)

/-- ... in the same order if no two inputs have a row at the same time. -/
theorem isMerge_perm_eq {range : TimestampRange} {ins ins' : List (List Row)} (hp : ins.Perm ins')
    (hd : ins.Pairwise fun i j => ∀ x ∈ i, ∀ y ∈ j, inRange range x.timestamp = true → x.timestamp ≠ y.timestamp) {rows rows' : List Row} (h : IsMerge range ins rows)
    (h' : IsMerge range ins' rows') : rows = rows' := by
  refine isMerge_unique h ⟨h'.sorted, fun t => ?_⟩
  rw [h'.rowsAt]
  -- at most one input has rows at time t
  have key : ∀ {l l' : List (List Row)}, l.Perm l' → (l.Pairwise fun a b => a = [] ∨ b = []) → l.flatMap id = l'.flatMap id := by
    intro l l' h
    induction h with
    | nil => intro _; rfl
    | cons x _ ih => intro hpw; simp only [List.flatMap_cons]; rw [ih (List.pairwise_cons.1 hpw).2]
    | swap x y l =>
      intro hpw
      have := (List.pairwise_cons.1 hpw).1 x (.head _)
      simp only [List.flatMap_cons, id]
      rcases this with rfl | rfl <;> simp
    | trans h1 h2 ih1 ih2 =>
      intro hpw
      rw [ih1 hpw]
      exact ih2 (h1.pairwise hpw (fun h => h.symm))
  have := key ((((List.reverse_perm ins').trans hp.symm).trans (List.reverse_perm ins).symm).map fun i => i.filter fun r => r.timestamp == t && inRange range r.timestamp).symm (by
    rw [List.pairwise_map]
    refine (List.reverse_perm ins).symm.pairwise (hd.imp ?_) (fun h => h.symm)
    intro i j hij
    cases hi : i.filter (fun r => r.timestamp == t && inRange range r.timestamp) with
    | nil => exact .inl rfl
    | cons x xs =>
      refine .inr (List.filter_eq_nil_iff.2 ?_)
      intro y hy hc
      have hx : x ∈ i.filter (fun r => r.timestamp == t && inRange range r.timestamp) := by rw [hi]; exact .head _
      obtain ⟨hx1, hx2⟩ := List.mem_filter.1 hx
      simp only [Bool.and_eq_true, beq_iff_eq] at hx2 hc
      exact hij x hx1 y hy hx2.2 (by rw [hx2.1, hc.1]))
  rw [List.flatMap_map, List.flatMap_map] at this
  exact this.symm

end Chopper
