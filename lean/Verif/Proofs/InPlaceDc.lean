import Verif.Proofs.InPlace
import Verif.Props.DcRow

/-!
# DC rows are not longer when they are written than they were when they were read
-/
namespace Chopper
open Spec

theorem bind_len {α β : Type} (x : Wr α) (f : α → Wr β) (m n : Nat) (h1 : x.out.length ≤ m) (h2 : ∀ a, (f a).out.length ≤ n) : (Wr.bind x f).out.length ≤ m + n := by
  unfold Wr.bind
  cases x.res with
  | ok a => simp only [List.length_append]; have := h2 a; omega
  | err e => simp only; omega
  | panic => simp only; omega
  | diverge => simp only; omega

theorem bigEndian_len (k n : Nat) : (bigEndian k n).length = k := by rw [← beBytes_eq, beBytes_length]

theorem text_len {enc : List Byte} {s : Str} (h : StoredText enc (utf8Encode s)) (hl : enc.length < 2 ^ 31) : (stringValue s).length ≤ enc.length := by
  unfold stringValue
  have hu : utf8Len s = (utf8Encode s).length := rfl
  rw [hu]
  generalize utf8Encode s = bs at h ⊢
  cases h with
  | short h => rw [if_pos (by omega)]; simp only [List.length_append, beBytes_length, bigEndian_len]; omega
  | long h =>
    simp only [List.length_append, bigEndian_len]
    split
    · simp only [beBytes_length]; simp
    · simp only [List.length_append, beBytes_length]; exact Nat.le_refl _
  | negative h1 h2 => simp only [List.length_append, bigEndian_len] at hl; omega

theorem value_len {t : FieldType} {p : List Byte} {v : FieldValue} (h : StoredValue t p v) (hl : p.length < 2 ^ 31) : (writeValue v).out.length ≤ p.length := by
  cases h with
  | string h => exact text_len h hl
  | _ => simp [writeValue, Wr.put, beBytes_length, bigEndian_len]

theorem values_len (bitmap : List Byte) : ∀ (types : List FieldType) (parts : List (List Byte)) (vs : List FieldValue) (i : Nat), parts.length = types.length → vs.length = types.length →
    (∀ (j : Nat) (t : FieldType) (p : List Byte) (v : FieldValue), types[j]? = some t → parts[j]? = some p → vs[j]? = some v →
      if bitOf bitmap (i + j) then p = [] ∧ v = .none else StoredValue t p v) →
    parts.flatten.length < 2 ^ 31 → (writeValues vs).out.length ≤ parts.flatten.length
  | [], [], [], _, _, _, _, _ => Nat.le_refl _
  | t :: types, p :: parts, v :: vs, i, h1, h2, h, hl => by
    rw [writeValues, List.flatten_cons, List.length_append]
    rw [List.flatten_cons, List.length_append] at hl
    refine bind_len _ _ _ _ ?_ fun _ => values_len bitmap types parts vs (i + 1) (by simpa using h1) (by simpa using h2) ?_ (by omega)
    · have h3 := h 0 t p v rfl rfl rfl
      split at h3
      · rw [h3.2]; exact Nat.zero_le _
      · exact value_len h3 (by omega)
    · intro j t' p' v' ht hp hv
      have := h (j + 1) t' p' v' ht hp hv
      rw [show i + (j + 1) = i + 1 + j by omega] at this
      exact this
  | [], _ :: _, _, _, h, _, _, _ => by simp at h
  | [], [], _ :: _, _, _, h, _, _ => by simp at h
  | _ :: _, [], _, _, h, _, _, _ => by simp at h
  | _ :: _, _ :: _, [], _, _, h, _, _ => by simp at h

/-- A row takes no more bytes when it is written than it took in the file it was read from. -/
theorem row_len {types : List FieldType} {p : List Byte} {r : Row} (h : IsDcRow types p r) (hl : p.length < 2 ^ 31) {k : Nat} (hk : k ≤ (types.length + 7) / 8 ∨ 2 ^ 48 ≤ k) :
    (dcWriteRow k r).out.length ≤ p.length := by
  obtain ⟨bitmap, parts, h1, ⟨h2, h3, h4⟩, rfl⟩ := h
  simp only [List.length_append, bigEndian_len] at hl ⊢
  rw [h1] at hl ⊢
  rcases hk with hk | hk
  · refine Nat.le_trans (bind_len _ _ 8 (0 + (k + parts.flatten.length)) (by simp [Wr.put, beBytes_length]) fun _ => ?_) (by omega)
    refine bind_len _ _ 0 _ (Nat.le_refl _) fun _ => ?_
    refine bind_len _ _ k _ (by simp [Wr.put, bitset_length]) fun _ => ?_
    exact values_len bitmap types parts r.values 0 h2 h3 (by simpa using h4) (by omega)
  · have ha : allocBytes k = .panic := by unfold allocBytes; rw [if_neg (by omega)]
    unfold dcWriteRow
    rw [ha]
    refine Nat.le_trans (bind_len _ _ 8 0 (by simp [Wr.put, beBytes_length]) fun _ => ?_) (by omega)
    exact Nat.le_refl _

theorem rows_len (types : List FieldType) {k : Nat} (hk : k ≤ (types.length + 7) / 8 ∨ 2 ^ 48 ≤ k) : ∀ (parts : List (List Byte)) (rows : List Row), parts.length = rows.length →
    (∀ (i : Nat) p r, parts[i]? = some p → rows[i]? = some r → IsDcRow types p r) → parts.flatten.length < 2 ^ 31 →
    ∀ rows' : List Row, List.Sublist rows' rows → (dcWriteRows k rows').out.length ≤ parts.flatten.length
  | _, [], _, _, _, rows', hs => by
    rw [List.sublist_nil.1 hs]
    exact Nat.zero_le _
  | [], _ :: _, h, _, _, _, _ => by simp at h
  | p :: parts, r :: rows, h1, h2, h3, rows', hs => by
    rw [List.flatten_cons, List.length_append] at h3 ⊢
    have ih := rows_len types hk parts rows (by simpa using h1) (fun i p r hp hr => h2 (i + 1) p r hp hr) (by omega)
    cases hs with
    | cons _ hs => exact Nat.le_trans (ih rows' hs) (by omega)
    | @cons_cons l _ _ hs =>
      rw [dcWriteRows]
      exact bind_len _ _ _ _ (row_len (h2 0 p r rfl rfl) (by omega) hk) fun _ => ih l hs

/-- The number of bytes of the bitmap of a row, when written. -/
theorem bitmap_len {ov : Overflow} {h : Header} {k : Nat} (hk : (dcProcessHeader ov h).res = .ok k) : k ≤ (h.types.length + 7) / 8 ∨ 2 ^ 48 ≤ k := by
  unfold dcProcessHeader Wr.bind at hk
  cases hw : (writeHeader h).res with
  | ok u =>
    rw [hw] at hk
    simp only at hk
    unfold lenMinusOne at hk
    split at hk
    · cases ov with
      | panics => simp [Res.bind] at hk
      | wraps =>
        simp only [Res.bind, getBitsetBytes, Nat.reducePow, Nat.reduceSub, Nat.reduceDiv, Nat.reduceAdd] at hk
        cases hk
        right; decide
    · simp only [Res.bind, getBitsetBytes] at hk
      split at hk
      · cases ov with
        | panics => simp at hk
        | wraps => cases hk; right; decide
      · cases hk; left; omega
  | err e => rw [hw] at hk; simp at hk
  | panic => rw [hw] at hk; simp at hk
  | diverge => rw [hw] at hk; simp at hk

/-! ### One input -/

theorem match_sublist (range : TimestampRange) : ∀ (rows : List Row) (e : Ending) (r : Row) (src : Source), matchNextRow range rows e = (.ok (some r), src) →
    List.Sublist (r :: src.rows) rows
  | [], e, r, src, h => by cases e <;> simp [matchNextRow] at h
  | x :: rows, e, r, src, h => by
    rw [matchNextRow] at h
    cases hf : filterDataRange range x.timestamp with
    | stop => rw [hf] at h; simp at h
    | write => rw [hf] at h; simp only [Prod.mk.injEq, Res.ok.injEq, Option.some.injEq] at h; obtain ⟨rfl, rfl⟩ := h; exact List.Sublist.refl _
    | skip => rw [hf] at h; exact (match_sublist range rows e r src h).cons x

theorem loop_single (range : TimestampRange) : ∀ (fuel : Nat) (b : RowBuffer), List.Sublist ((fed (loopCalls range fuel [b])).map (·.2)) (b.row.toList ++ b.source.rows) := by
  intro fuel
  induction fuel with
  | zero => intro b; exact List.nil_sublist _
  | succ fuel ih =>
    intro b
    unfold loopCalls
    rw [driveLoop]
    have hi : nextBufferIndex [b] = some 0 := rfl
    rw [hi]
    simp only [List.getElem?_cons_zero]
    cases hr : b.row with
    | none => exact List.nil_sublist _
    | some row =>
      simp only [Option.toList_some, List.nil_append]
      rcases hn : b.hasNext range with ⟨(_ | _) | _ | _ | _, b'⟩ <;> simp only
      · have h0 : ([b] : List RowBuffer).eraseIdx 0 = [] := rfl
        rw [h0]
        cases fuel <;> simp [driveLoop, fed, nextBufferIndex, Call.fed?, List.filterMap_cons]
      · have h0 : ([b] : List RowBuffer).set 0 b' = [b'] := rfl
        rw [h0, loopCalls_from]
        have h2 := ih b'
        have h3 : List.Sublist (b'.row.toList ++ b'.source.rows) b.source.rows := by
          unfold RowBuffer.hasNext at hn
          rcases hm : matchNextRow range b.source.rows b.source.ending with ⟨(_ | r) | _ | _ | _, src⟩ <;> rw [hm] at hn <;> simp only [Prod.mk.injEq, Res.ok.injEq, Bool.true_eq_false, Bool.false_eq_true, false_and, reduceCtorEq] at hn
          obtain ⟨_, rfl⟩ := hn
          exact match_sublist range _ _ _ _ hm
        have h4 : (fed ([Call.feed b.chain row] ++ loopCalls range fuel [b'])).map (·.2) = row :: (fed (loopCalls range fuel [b'])).map (·.2) := by simp [fed, Call.fed?]
        rw [h4]
        exact (h2.trans h3).cons_cons row
      all_goals simp [fed, Call.fed?]

/-- With one input the rows processed are rows of it, in order. -/
theorem fed_single (range : TimestampRange) (fuel : Nat) (s : Source) : List.Sublist ((fed (calls range fuel [s]).1).map (·.2)) s.rows := by
  unfold calls drive getRowBuffers
  have h0 : ([s] : List Source).reverse = [s] := rfl
  rw [h0]
  rcases hb : getRowBuffersFrom range 0 [s] with bufs | e | _ | _ <;> simp only
  · have : ∃ b, bufs = [b] ∧ (b.row = none ∨ List.Sublist (b.row.toList ++ b.source.rows) s.rows) := by
      unfold getRowBuffersFrom getRowBuffersFrom at hb
      unfold RowBuffer.new at hb
      rcases hm : matchNextRow range s.rows s.ending with ⟨(_ | r) | _ | _ | _, src⟩ <;> rw [hm] at hb <;> cases hb
      · exact ⟨_, rfl, .inl rfl⟩
      · exact ⟨_, rfl, .inr (match_sublist range _ _ _ _ hm)⟩
    obtain ⟨b, rfl, h1 | h1⟩ := this
    · have h2 : loopCalls range fuel [b] = [] := by
        unfold loopCalls
        cases fuel with
        | zero => rfl
        | succ fuel =>
          have hi : nextBufferIndex [b] = some 0 := rfl
          rw [driveLoop, hi]
          simp only [List.getElem?_cons_zero, h1]
      show List.Sublist ((fed (loopCalls range fuel [b])).map (·.2)) s.rows
      rw [h2]
      exact List.nil_sublist _
    · exact (loop_single range fuel b).trans h1
  all_goals exact List.nil_sublist _

end Chopper
