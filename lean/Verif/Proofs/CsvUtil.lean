import Verif.Proofs.Text

namespace Chopper
open Spec

/-! ## Delimiter -/

theorem insert_head (count : Byte → Nat) (x : Byte) (l : List Byte) :
    (insertByCount count x l)[0]? = some (match l[0]? with | some y => if count y ≤ count x then x else y | none => x) := by
  cases l with
  | nil => rfl
  | cons y ys =>
    simp only [insertByCount]
    by_cases h : count y ≤ count x <;> simp [h]

theorem sort_head (count : Byte → Nat) : ∀ (l : List Byte), l ≠ [] → ∃ (d : Byte) (i : Nat), (sortByCount count l)[0]? = some d ∧ l[i]? = some d ∧
    ∀ (j : Nat) (e : Byte), l[j]? = some e → count e ≤ count d ∧ (count e = count d → i ≤ j)
  | [], h => absurd rfl h
  | [x], _ => by
    refine ⟨x, 0, rfl, rfl, ?_⟩
    intro j e he
    cases j with
    | zero => simp at he; subst he; simp
    | succ j => simp at he
  | x :: y :: ys, _ => by
    obtain ⟨d, i, h1, h2, h3⟩ := sort_head count (y :: ys) (by simp)
    rw [sortByCount, insert_head, h1]
    simp only
    by_cases h : count d ≤ count x
    · rw [if_pos h]
      refine ⟨x, 0, rfl, rfl, ?_⟩
      intro j e he
      cases j with
      | zero => simp at he; subst he; simp
      | succ j =>
        rw [List.getElem?_cons_succ] at he
        have := (h3 j e he).1
        exact ⟨by omega, by omega⟩
    · rw [if_neg h]
      refine ⟨d, i + 1, rfl, by rw [List.getElem?_cons_succ]; exact h2, ?_⟩
      intro j e he
      cases j with
      | zero => simp at he; subst he; constructor <;> omega
      | succ j =>
        rw [List.getElem?_cons_succ] at he
        have := h3 j e he
        refine ⟨this.1, fun hc => ?_⟩
        have := this.2 hc
        omega

theorem ofNat_byte (d : Byte) : (Char.ofNat d.toNat).toNat = d.toNat := by
  have hd := d.isLt
  have hv : d.toNat.isValidChar := Or.inl (by omega)
  simp only [Char.ofNat, hv, dif_pos]
  show (Char.ofNatAux _ _).val.toNat = _
  simp [Char.ofNatAux]

theorem char_ext {a b : Char} (h : a.toNat = b.toNat) : a = b := by
  apply Char.ext
  exact UInt32.toNat_inj.1 h

theorem asU8_latin {c : Char} (h : c.toNat < 256) (d : Byte) : (BitVec.ofNat 8 c.toNat == d) = (c == Char.ofNat d.toNat) := by
  rw [Bool.eq_iff_iff, beq_iff_eq, beq_iff_eq]
  constructor
  · intro e
    subst e
    apply char_ext
    rw [ofNat_byte, BitVec.toNat_ofNat, Nat.mod_eq_of_lt h]
  · intro e
    have : c.toNat = d.toNat := by rw [e, ofNat_byte]
    rw [this]; simp

theorem count_latin {row : Str} (h : ∀ c ∈ row, c.toNat < 256) (d : Byte) : countAsU8 row d = occurrences d row := by
  unfold countAsU8 occurrences List.count
  apply List.countP_congr
  intro c hc
  rw [asU8_latin (h c hc) d]

theorem utf8Len_one (c : Char) (cs : Str) : utf8Len (c :: cs) = 1 ↔ c.toNat < 128 ∧ cs = [] := by
  have e : utf8Len (c :: cs) = (encodeChar c).length + utf8Len cs := by simp [utf8Len, utf8Encode]
  rw [e]
  have h0 : utf8Len cs = 0 ↔ cs = [] := by
    cases cs with
    | nil => simp [utf8Len, utf8Encode]
    | cons x xs =>
      have := encodeChar_len x
      simp [utf8Len, utf8Encode, encodeChar_ne]
  have h1 : (encodeChar c).length = 1 ↔ c.toNat < 128 := by
    unfold encodeChar
    simp only
    split
    · rename_i h; simp; exact h
    · rename_i h
      split
      · simp; omega
      · split <;> (simp; omega)
  have := encodeChar_len c
  rw [← h0, ← h1]
  omega

/-! ## Types -/

theorem upconvert_cases (t : FieldType) : typeUpconvert t = .string ∨ typeUpconvert t = .double ∨ typeUpconvert t = .long := by
  cases t <;> simp [typeUpconvert]

theorem loop_spec : ∀ (ts : List FieldType) (g : FieldType), g = .string ∨ g = .double ∨ g = .long →
    commonTypeLoop g ts = if g = .string ∨ ∃ t ∈ ts, typeUpconvert t = .string then .string
      else if g = .double ∨ ∃ t ∈ ts, typeUpconvert t = .double then .double else .long
  | [], g, h => by rcases h with rfl | rfl | rfl <;> simp [commonTypeLoop]
  | t :: ts, g, h => by
    simp only [commonTypeLoop]
    by_cases hg : g = .string
    · simp [hg]
    · rw [if_neg hg]
      rcases upconvert_cases t with ht | ht | ht
      · simp [ht]
      · simp only [ht]
        rw [loop_spec ts _ (by simp)]
        simp [ht, hg]
      · simp only [ht]
        rw [loop_spec ts g h]
        simp [ht, hg]

end Chopper
