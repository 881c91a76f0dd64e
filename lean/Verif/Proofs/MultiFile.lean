import Verif.Spec.MultiFile

/-!
# Proofs about multi-file inputs
-/
namespace Chopper
open Spec

theorem swapAt_ok {α : Type} {l : List α} {i j : Nat} (hi : i < l.length) (hj : j < l.length) : swapAt l i j = .ok ((l.set i l[j]).set j l[i]) := by
  simp [swapAt, hi, hj]

theorem swapAt_length {α : Type} {l l' : List α} {i j : Nat} (h : swapAt l i j = .ok l') : l'.length = l.length := by
  unfold swapAt at h
  split at h
  · simp only [Res.ok.injEq] at h; subst h; simp
  · simp at h

theorem swapAt_self {α : Type} {l : List α} {i : Nat} (hi : i < l.length) : swapAt l i i = .ok l := by
  rw [swapAt_ok hi hi]; simp

theorem swapAt_map {α β : Type} (f : α → β) (l : List α) (i j : Nat) : swapAt (l.map f) i j = (swapAt l i j).map (List.map f) := by
  unfold swapAt
  simp only [List.getElem?_map]
  cases l[i]? <;> cases l[j]? <;> simp [Res.map]

theorem applySwaps_map {α β : Type} (f : α → β) : ∀ (m : List Nat) (idx : Nat) (l : List α), applySwaps idx m (l.map f) = (applySwaps idx m l).map (List.map f)
  | [], _, l => rfl
  | j :: m, idx, l => by
    rw [applySwaps, applySwaps, swapAt_map]
    cases swapAt l idx j <;> simp [Res.map]
    rename_i l'
    rw [applySwaps_map f m (idx + 1) l']
    rfl

theorem applySwaps_length {α : Type} : ∀ (m : List Nat) (idx : Nat) (l l' : List α), applySwaps idx m l = .ok l' → l'.length = l.length
  | [], _, l, l', h => by simp only [applySwaps, Res.ok.injEq] at h; rw [h]
  | j :: m, idx, l, l', h => by
    obtain ⟨x, h1, h2⟩ := Res.bind_eq_ok.1 h
    rw [applySwaps_length m (idx + 1) x l' h2, swapAt_length h1]

theorem applySwaps_ok {α : Type} : ∀ (m : List Nat) (idx : Nat) (l : List α), (∀ j ∈ m, j < l.length) → idx + m.length ≤ l.length → ∃ l', applySwaps idx m l = .ok l'
  | [], _, l, _, _ => ⟨l, rfl⟩
  | j :: m, idx, l, h, hl => by
    simp only [List.length_cons] at hl
    have h1 := swapAt_ok (l := l) (i := idx) (j := j) (by omega) (h j (by simp))
    rw [applySwaps, h1]
    exact applySwaps_ok m (idx + 1) _ (fun x hx => by simpa using h x (by simp [hx])) (by simp; omega)

theorem nodup_iff_get? {α : Type} {l : List α} : l.Nodup ↔ ∀ a b : Nat, a < b → b < l.length → l[a]? ≠ l[b]? := by
  unfold List.Nodup
  rw [List.pairwise_iff_getElem]
  constructor
  · intro h a b hab hb
    rw [List.getElem?_eq_getElem hb, List.getElem?_eq_getElem (by omega : a < l.length)]
    intro e
    exact h a b (by omega) hb hab (by simpa using e)
  · intro h a b ha hb hab e
    exact h a b hab hb (by rw [List.getElem?_eq_getElem hb, List.getElem?_eq_getElem ha, e])

/-- Positions after a swap. -/
theorem swapped_get {α : Type} {l : List α} {i j k : Nat} (hi : i < l.length) (hj : j < l.length) :
    ((l.set i l[j]).set j l[i])[k]? = if k = i then l[j]? else if k = j then l[i]? else l[k]? := by
  rw [List.getElem?_set, List.getElem?_set]
  by_cases h1 : j = k
  · subst h1
    by_cases h2 : j = i
    · subst h2; simp [hj]
    · simp [h2, hi, hj]
  · have h1' : ¬ k = j := fun e => h1 e.symm
    by_cases h2 : i = k
    · subst h2; simp [h1, hi, hj]
    · have h2' : ¬ k = i := fun e => h2 e.symm
      simp [h1, h1', h2, h2']

/-- What the loop returns. -/
theorem swapLoop_spec (refTypes : List FieldType) : ∀ (rest : List Str) (idx : Nat) (names : List Str) (types : List FieldType),
    types.length = names.length → refTypes.length = idx + rest.length → idx + rest.length ≤ names.length →
    (∃ e, swapLoop refTypes idx rest names types = .err (.custom e)) ∨
    ∃ m ident, swapLoop refTypes idx rest names types = .ok (m, ident) ∧ m.length = rest.length ∧ (∀ j ∈ m, idx ≤ j ∧ j < names.length) ∧
      (ident = true → ∀ (α : Type) (l : List α), l.length = names.length → applySwaps idx m l = .ok l) ∧
      (ident = false → m ≠ []) ∧
      ∃ names' types', applySwaps idx m names = .ok names' ∧ applySwaps idx m types = .ok types' ∧
        (∀ k : Nat, k < idx → names'[k]? = names[k]? ∧ types'[k]? = types[k]?) ∧
        (∀ k : Nat, k < rest.length → names'[idx + k]? = rest[k]? ∧ types'[idx + k]? = refTypes[idx + k]?)
  | [], idx, names, types, _, _, _ => .inr ⟨[], true, rfl, rfl, by simp, fun _ _ _ _ => rfl, by simp, names, types, rfl, rfl, fun _ _ => ⟨rfl, rfl⟩, by simp⟩
  | name :: rest, idx, names, types, ht, hr, hl => by
    simp only [List.length_cons] at hr hl
    rw [swapLoop]
    rcases hf : (names.drop idx).findIdx? (· == name) with _ | off
    · exact .inl ⟨_, rfl⟩
    · obtain ⟨hoff, hname, _⟩ := List.findIdx?_eq_some_iff_getElem.1 hf
      simp only [beq_iff_eq, List.getElem_drop] at hname
      rw [List.length_drop] at hoff
      have hnew : idx + off < names.length := by omega
      have hidx : idx < names.length := by omega
      simp only
      rw [List.getElem?_eq_getElem (by omega : idx < refTypes.length), List.getElem?_eq_getElem (by omega : idx + off < types.length)]
      simp only [Res.unwrap_some, Res.bind_ok]
      by_cases hty : refTypes[idx] ≠ types[idx + off]
      · rw [if_pos hty]; exact .inl ⟨_, rfl⟩
      · rw [if_neg hty]
        have hty : refTypes[idx] = types[idx + off] := Classical.not_not.1 hty
        by_cases hid : idx ≠ idx + off
        · rw [if_pos hid, swapAt_ok hidx hnew, swapAt_ok (l := types) (by omega : idx < types.length) (by omega : idx + off < types.length)]
          simp only [Res.bind_ok]
          rcases swapLoop_spec refTypes rest (idx + 1) ((names.set idx names[idx + off]).set (idx + off) names[idx]) ((types.set idx types[idx + off]).set (idx + off) types[idx])
            (by simp [ht]) (by omega) (by simp; omega) with ⟨e, h⟩ | ⟨m, ident, h, h1, h2, h3, h3', names', types', h4, h5, h6, h7⟩
          · exact .inl ⟨e, by rw [h]; rfl⟩
          · refine .inr ⟨(idx + off) :: m, false, by rw [h]; rfl, by simp [h1], ?_, by simp, by simp, names', types', ?_, ?_, ?_, ?_⟩
            · intro j hj
              rcases List.mem_cons.1 hj with rfl | hj
              · omega
              · have := h2 j hj; simp at this; omega
            · rw [applySwaps, swapAt_ok hidx hnew]; exact h4
            · rw [applySwaps, swapAt_ok (by omega) (by omega)]; exact h5
            · intro k hk
              obtain ⟨g1, g2⟩ := h6 k (by omega)
              rw [g1, g2, swapped_get hidx hnew, swapped_get (by omega) (by omega)]
              rw [if_neg (by omega), if_neg (by omega), if_neg (by omega), if_neg (by omega)]
              exact ⟨rfl, rfl⟩
            · intro k hk
              cases k with
              | zero =>
                obtain ⟨g1, g2⟩ := h6 idx (by omega)
                rw [Nat.add_zero, g1, g2, swapped_get hidx hnew, swapped_get (by omega) (by omega), if_pos rfl, if_pos rfl, List.getElem?_eq_getElem hnew,
                  List.getElem?_eq_getElem (by omega : idx + off < types.length), List.getElem?_eq_getElem (by omega : idx < refTypes.length), hname, hty]
                exact ⟨rfl, rfl⟩
              | succ k =>
                have := h7 k (by simp at hk; omega)
                rw [show idx + (k + 1) = idx + 1 + k from by omega]
                simpa using this
        · rw [if_neg hid]
          obtain rfl : off = 0 := by omega
          simp only [Nat.add_zero] at *
          rcases swapLoop_spec refTypes rest (idx + 1) names types ht (by omega) (by omega) with ⟨e, h⟩ | ⟨m, ident, h, h1, h2, h3, h3', names', types', h4, h5, h6, h7⟩
          · exact .inl ⟨e, by rw [h]; rfl⟩
          · refine .inr ⟨idx :: m, ident, by rw [h]; rfl, by simp [h1], ?_, ?_, by simp, names', types', ?_, ?_, ?_, ?_⟩
            · intro j hj
              rcases List.mem_cons.1 hj with rfl | hj
              · omega
              · have := h2 j hj; omega
            · intro hi α l hl'
              rw [applySwaps, swapAt_self (by omega)]
              exact h3 hi α l hl'
            · rw [applySwaps, swapAt_self hidx]; exact h4
            · rw [applySwaps, swapAt_self (by omega)]; exact h5
            · intro k hk; exact h6 k (by omega)
            · intro k hk
              cases k with
              | zero =>
                obtain ⟨g1, g2⟩ := h6 idx (by omega)
                rw [Nat.add_zero, g1, g2, List.getElem?_eq_getElem hidx, List.getElem?_eq_getElem (by omega : idx < types.length),
                  List.getElem?_eq_getElem (by omega : idx < refTypes.length), hname, hty]
                exact ⟨rfl, rfl⟩
              | succ k =>
                have := h7 k (by simp at hk; omega)
                rw [show idx + (k + 1) = idx + 1 + k from by omega]
                simpa using this

/-- The meaning of a swap map: there is an injective assignment of file columns. -/
theorem swapMap_spec {ref file : Header} (hr : WellFormed ref) (hf : WellFormed file) :
    (∃ e, swapMap ref file = .err (.custom e)) ∨
    ∃ m, swapMap ref file = .ok m ∧ (m = [] ∨ m.length = ref.names.length) ∧ ref.names.length ≤ file.names.length ∧
      ∃ p : List Nat, (∀ (i j : Nat), p[i]? = some j → j < file.names.length ∧ (i < ref.names.length → file.names[j]? = ref.names[i]? ∧ file.types[j]? = ref.types[i]?)) ∧
        p.length = file.names.length ∧
        ∀ (row : Row), row.values.length = file.names.length → ∃ row', alignRow m row = .ok row' ∧ row'.timestamp = row.timestamp ∧
          row'.values.length = (if m = [] then file.names.length else ref.names.length) ∧
          ∀ (i j : Nat), i < ref.names.length → p[i]? = some j → row'.values[i]? = row.values[j]? := by
  unfold swapMap
  by_cases hlt : file.names.length < ref.names.length
  · rw [if_pos hlt]; exact .inl ⟨_, rfl⟩
  rw [if_neg hlt]
  rcases swapLoop_spec ref.types ref.names 0 file.names file.types hf (by simpa [WellFormed] using hr) (by omega) with ⟨e, h⟩ | ⟨m, ident, h, h1, h2, h3, h3', names', types', h4, h5, h6, h7⟩
  · exact .inl ⟨e, by rw [h]; rfl⟩
  refine .inr ⟨if ident then [] else m, by rw [h]; rfl, by cases ident <;> simp [h1], by omega, ?_⟩
  obtain ⟨p, hp⟩ := applySwaps_ok m 0 (List.range file.names.length) (fun j hj => by have := h2 j hj; simpa using this.2) (by simp; omega)
  have hplen : p.length = file.names.length := by simpa using applySwaps_length _ _ _ _ hp
  -- every list of that width is permuted by p
  have key : ∀ {α : Type} (l : List α), l.length = file.names.length → ∃ l', applySwaps 0 m l = .ok l' ∧ l'.length = l.length ∧
      ∀ (i j : Nat), p[i]? = some j → l'[i]? = l[j]? := by
    intro α l hl
    obtain ⟨l', hl'⟩ := applySwaps_ok m 0 l (fun j hj => by have := h2 j hj; omega) (by omega)
    refine ⟨l', hl', applySwaps_length _ _ _ _ hl', ?_⟩
    have e1 : l.map some = (List.range file.names.length).map (fun i => l[i]?) := by
      apply List.ext_getElem?
      intro k
      by_cases hk : k < l.length
      · simp [hk, ← hl]
      · simp only [List.getElem?_map, List.getElem?_eq_none (show l.length ≤ k by omega), List.getElem?_eq_none (show (List.range file.names.length).length ≤ k by simp; omega), Option.map_none]
    have e2 := congrArg (applySwaps 0 m) e1
    rw [applySwaps_map, applySwaps_map, hl', hp] at e2
    simp only [Res.map, Res.ok.injEq] at e2
    intro i j hij
    have e3 := congrArg (·[i]?) e2
    simp only [List.getElem?_map, hij, Option.map_some] at e3
    have hil : i < l'.length := by
      have := (List.getElem?_eq_some_iff.1 hij).1
      rw [applySwaps_length _ _ _ _ hl']; omega
    rw [List.getElem?_eq_getElem hil] at e3 ⊢
    simpa using e3
  obtain ⟨n', g1, g2, g3⟩ := key file.names rfl
  obtain ⟨t', g4, g5, g6⟩ := key file.types hf
  rw [h4] at g1; rw [h5] at g4
  simp only [Res.ok.injEq] at g1 g4
  subst g1 g4
  have hbound : ∀ (i j : Nat), p[i]? = some j → j < file.names.length := by
    intro i j hij
    -- p is a rearrangement of the range: its entries come from it
    have : ∀ (m : List Nat) (idx : Nat) (l l' : List Nat), applySwaps idx m l = .ok l' → ∀ x ∈ l', x ∈ l := by
      intro m
      induction m with
      | nil => intro idx l l' h x hx; simp only [applySwaps, Res.ok.injEq] at h; rw [h]; exact hx
      | cons a m ih =>
        intro idx l l' h x hx
        obtain ⟨y, w1, w2⟩ := Res.bind_eq_ok.1 h
        have := ih (idx + 1) y l' w2 x hx
        unfold swapAt at w1
        split at w1
        · rename_i u v hu hv
          simp only [Res.ok.injEq] at w1
          subst w1
          rcases List.mem_or_eq_of_mem_set this with this | rfl
          · rcases List.mem_or_eq_of_mem_set this with this | rfl
            · exact this
            · exact List.mem_of_getElem? hv
          · exact List.mem_of_getElem? hu
        · simp at w1
    have := this m 0 _ p hp j (List.mem_of_getElem? hij)
    simpa using this
  refine ⟨p, ?_, hplen, ?_⟩
  · intro i j hij
    refine ⟨hbound i j hij, fun hi => ?_⟩
    have := h7 i hi
    simp only [Nat.zero_add] at this
    rw [← this.1, ← this.2, g3 i j hij, g6 i j hij]
    exact ⟨rfl, rfl⟩
  · intro row hrow
    obtain ⟨vs, q1, q2, q3⟩ := key row.values hrow
    cases ident with
    | true =>
      refine ⟨row, rfl, rfl, by simp [hrow], ?_⟩
      intro i j hi hij
      have := h3 rfl _ row.values hrow
      rw [q1] at this
      simp only [Res.ok.injEq] at this
      rw [← q3 i j hij, this]
    | false =>
      have hne := h3' rfl
      refine ⟨⟨row.timestamp, vs.take m.length⟩, ?_, rfl, ?_, ?_⟩
      · simp only [Bool.false_eq_true, if_false]
        unfold alignRow
        rw [if_neg (by simpa using hne), q1]
        rfl
      · simp [hne]; omega
      · intro i j hi hij
        simp only
        rw [List.getElem?_take, if_pos (by omega), q3 i j hij]

theorem swapMap_ok_compatible {ref file : Header} (hr : WellFormed ref) (hf : WellFormed file) {m : List Nat} (h : swapMap ref file = .ok m) : Compatible ref file := by
  rcases swapMap_spec hr hf with ⟨e, h'⟩ | ⟨m', h', _, hle, p, hp, hpl, _⟩
  · rw [h] at h'; simp at h'
  · intro i name ty h1 h2
    have hi : i < ref.names.length := (List.getElem?_eq_some_iff.1 h1).1
    obtain ⟨j, hj⟩ : ∃ j, p[i]? = some j := ⟨p[i]'(by omega), List.getElem?_eq_getElem _⟩
    obtain ⟨_, h3⟩ := hp i j hj
    exact ⟨j, by rw [(h3 hi).1, h1], by rw [(h3 hi).2, h2]⟩

/-- With distinct names a compatible header is accepted. -/
theorem swapLoop_accepts (refTypes : List FieldType) : ∀ (rest : List Str) (idx : Nat) (names : List Str) (types : List FieldType),
    types.length = names.length → refTypes.length = idx + rest.length → idx + rest.length ≤ names.length → rest.Nodup → (names.drop idx).Nodup →
    (∀ (k : Nat) name ty, rest[k]? = some name → refTypes[idx + k]? = some ty → ∃ j : Nat, idx ≤ j ∧ names[j]? = some name ∧ types[j]? = some ty) →
    ∃ x, swapLoop refTypes idx rest names types = .ok x
  | [], _, _, _, _, _, _, _, _, _ => ⟨([], true), rfl⟩
  | name :: rest, idx, names, types, ht, hr, hl, hnd, hnd', hc => by
    simp only [List.length_cons] at hr hl
    have hidx : idx < names.length := by omega
    obtain ⟨j0, hj0, hj1, hj2⟩ := hc 0 name refTypes[idx] rfl (by rw [Nat.add_zero, List.getElem?_eq_getElem (by omega)])
    have hj0l : j0 < names.length := (List.getElem?_eq_some_iff.1 hj1).1
    rw [swapLoop]
    -- the search finds position j0
    have hfound : (names.drop idx).findIdx? (· == name) = some (j0 - idx) := by
      rw [List.findIdx?_eq_some_iff_getElem]
      have hlen : j0 - idx < (names.drop idx).length := by rw [List.length_drop]; omega
      have hget : (names.drop idx)[j0 - idx] = name := by
        rw [List.getElem_drop]
        have := (List.getElem?_eq_some_iff.1 hj1).2
        simp only [show idx + (j0 - idx) = j0 from by omega, this]
      refine ⟨hlen, by simp [hget], ?_⟩
      intro k hk hk'
      simp only [beq_iff_eq] at hk'
      have := (List.getElem_inj (xs := names.drop idx) (h₀ := by omega) (h₁ := hlen) hnd').1 (hk'.trans hget.symm)
      omega
    rw [hfound]
    simp only [show idx + (j0 - idx) = j0 from by omega]
    rw [List.getElem?_eq_getElem (by omega : idx < refTypes.length), hj2]
    simp only [Res.unwrap_some, Res.bind_ok, ne_eq, not_true, if_false]
    have hotherj : ∀ (k : Nat) n ty, rest[k]? = some n → refTypes[idx + 1 + k]? = some ty → ∃ j : Nat, idx ≤ j ∧ names[j]? = some n ∧ types[j]? = some ty ∧ j ≠ j0 := by
      intro k n ty h1 h2
      obtain ⟨j, h3, h4, h5⟩ := hc (k + 1) n ty (by simpa using h1) (by rw [show idx + (k + 1) = idx + 1 + k from by omega]; exact h2)
      refine ⟨j, h3, h4, h5, ?_⟩
      rintro rfl
      rw [hj1] at h4
      simp only [Option.some.injEq] at h4
      subst h4
      exact (List.nodup_cons.1 hnd).1 (List.mem_of_getElem? h1)
    by_cases hid : idx = j0
    · rw [if_neg (by simpa using hid)]
      obtain ⟨⟨m, ident⟩, hx⟩ := swapLoop_accepts refTypes rest (idx + 1) names types ht (by omega) (by omega) (List.nodup_cons.1 hnd).2
        (by have : names.drop idx = names[idx] :: names.drop (idx + 1) := (List.drop_eq_getElem_cons hidx)
            rw [this] at hnd'; exact (List.nodup_cons.1 hnd').2)
        (fun k n ty h1 h2 => by
          obtain ⟨j, h3, h4, h5, h6⟩ := hotherj k n ty h1 h2
          exact ⟨j, by omega, h4, h5⟩)
      exact ⟨_, by rw [hx]; rfl⟩
    · rw [if_pos (by simpa using hid), swapAt_ok hidx hj0l, swapAt_ok (l := types) (by omega : idx < types.length) (by omega : j0 < types.length)]
      simp only [Res.bind_ok]
      obtain ⟨⟨m, ident⟩, hx⟩ := swapLoop_accepts refTypes rest (idx + 1) ((names.set idx names[j0]).set j0 names[idx]) ((types.set idx types[j0]).set j0 types[idx])
        (by simp [ht]) (by omega) (by simp; omega) (List.nodup_cons.1 hnd).2
        (by
          rw [nodup_iff_get?]
          intro a b hab hb
          have hb' : idx + 1 + b < names.length := by simp at hb; omega
          have gk : ∀ k : Nat, ((names.set idx names[j0]).set j0 names[idx])[idx + 1 + k]? = if idx + 1 + k = j0 then names[idx]? else names[idx + 1 + k]? := by
            intro k; rw [swapped_get hidx hj0l, if_neg (by omega : ¬ idx + 1 + k = idx)]
          rw [List.getElem?_drop, List.getElem?_drop, gk, gk]
          have hn := nodup_iff_get?.1 hnd'
          have hne : ∀ {x y : Nat}, idx ≤ x → idx ≤ y → x < names.length → y < names.length → x ≠ y → names[x]? ≠ names[y]? := by
            intro x y hx hy hxl hyl hxy
            rcases Nat.lt_or_gt_of_ne hxy with hlt | hlt
            · have := hn (x - idx) (y - idx) (by omega) (by rw [List.length_drop]; omega)
              rw [List.getElem?_drop, List.getElem?_drop] at this
              simpa [show idx + (x - idx) = x from by omega, show idx + (y - idx) = y from by omega] using this
            · have := hn (y - idx) (x - idx) (by omega) (by rw [List.length_drop]; omega)
              rw [List.getElem?_drop, List.getElem?_drop] at this
              have this : names[y]? ≠ names[x]? := by simpa [show idx + (x - idx) = x from by omega, show idx + (y - idx) = y from by omega] using this
              exact fun e => this e.symm
          split
          · rw [if_neg (by omega)]
            exact hne (by omega) (by omega) (by omega) (by omega) (by omega)
          · split
            · exact hne (by omega) (by omega) (by omega) (by omega) (by omega)
            · exact hne (by omega) (by omega) (by omega) (by omega) (by omega))
        (fun k n ty h1 h2 => by
          obtain ⟨j, h3, h4, h5, h6⟩ := hotherj k n ty h1 h2
          by_cases hji : j = idx
          · subst hji
            refine ⟨j0, by omega, ?_, ?_⟩
            · rw [swapped_get hidx hj0l, if_neg (by omega), if_pos rfl, h4]
            · rw [swapped_get (by omega) (by omega), if_neg (by omega), if_pos rfl, h5]
          · refine ⟨j, by omega, ?_, ?_⟩
            · rw [swapped_get hidx hj0l, if_neg hji, if_neg h6, h4]
            · rw [swapped_get (by omega) (by omega), if_neg hji, if_neg h6, h5])
      exact ⟨_, by rw [hx]; rfl⟩

end Chopper
