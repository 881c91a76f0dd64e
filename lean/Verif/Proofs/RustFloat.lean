import Verif.Model.RustFloat
import Verif.Spec.RustFloat
import Verif.Proofs.Filter

/-! # Which texts are numbers: lemmas -/
namespace Chopper
open Chopper Chopper.Spec

theorem isDigit10_iff {c : Char} : isDigit10 c = true ↔ 48 ≤ c.toNat ∧ c.toNat ≤ 57 := by
  unfold isDigit10
  exact decide_eq_true_iff

theorem skipDigits_append {ds r : Str} (hd : OnlyDigits ds) (hr : ∀ c, r.head? = some c → isDigit10 c = false) : skipDigits (ds ++ r) = r := by
  induction ds with
  | nil =>
    cases r with
    | nil => rfl
    | cons c r => simp only [List.nil_append, skipDigits, hr c rfl, Bool.false_eq_true, if_false]
  | cons c ds ih =>
    simp only [List.cons_append, skipDigits, isDigit10_iff.2 (hd c (by simp)), if_true]
    exact ih fun x hx => hd x (List.mem_cons_of_mem _ hx)

theorem skipDigits_spec (s : Str) : ∃ ds, s = ds ++ skipDigits s ∧ OnlyDigits ds ∧ ∀ c, (skipDigits s).head? = some c → isDigit10 c = false := by
  induction s with
  | nil => exact ⟨[], rfl, (fun c hc => by cases hc), (fun c hc => by cases hc)⟩
  | cons c s ih =>
    by_cases h : isDigit10 c = true
    · obtain ⟨ds, h1, h2, h3⟩ := ih
      refine ⟨c :: ds, ?_, ?_, ?_⟩
      · simp only [skipDigits, h, if_true, List.cons_append]
        rw [← h1]
      · intro x hx
        rcases List.mem_cons.1 hx with rfl | hx
        · exact isDigit10_iff.1 h
        · exact h2 x hx
      · simp only [skipDigits, h, if_true]
        exact h3
    · rw [Bool.not_eq_true] at h
      refine ⟨[], ?_, (fun c hc => by cases hc), ?_⟩
      · simp only [skipDigits, h, Bool.false_eq_true, if_false, List.nil_append]
      · intro x hx
        simp only [skipDigits, h, Bool.false_eq_true, if_false, List.head?_cons, Option.some.injEq] at hx
        rw [← hx]
        exact h

theorem skipDigits_nil {s : Str} : skipDigits s = [] ↔ OnlyDigits s := by
  constructor
  · intro h
    obtain ⟨ds, h1, h2, _⟩ := skipDigits_spec s
    rw [h, List.append_nil] at h1
    rw [h1]
    exact h2
  · intro h
    have := skipDigits_append (r := []) h (fun c hc => by cases hc)
    rwa [List.append_nil] at this

theorem parseScientific_nil (s : Str) : parseScientific s = some [] ↔ ∃ sign digits, OptionalSign sign ∧ Digits digits ∧ s = sign ++ digits := by
  have key : ∀ t : Str, someDigits t = some [] ↔ Digits t := by
    intro t
    unfold someDigits
    cases t with
    | nil => simp [Digits]
    | cons c u =>
      by_cases h : isDigit10 c = true
      · simp only [h, if_true, Option.some.injEq, skipDigits_nil]
        rw [isDigit10_iff] at h
        unfold Digits OnlyDigits
        simp [h]
      · simp only [h, Bool.false_eq_true, if_false]
        rw [isDigit10_iff] at h
        constructor
        · intro e; cases e
        · intro e; exact absurd (e.2 c (by simp)) h
  have nosign : ∀ c (t : Str), Digits (c :: t) → c ≠ '-' ∧ c ≠ '+' := by
    intro c t h
    have := h.2 c (by simp)
    refine ⟨?_, ?_⟩ <;> (rintro rfl; revert this; decide)
  unfold parseScientific
  cases s with
  | nil =>
    simp only [someDigits, reduceCtorEq, false_iff, not_exists, not_and]
    rintro sign digits hs hd he
    cases sign with
    | nil => exact hd.1 he.symm
    | cons a b => cases he
  | cons c t =>
    by_cases hc : c = '-' ∨ c = '+'
    · simp only [hc, if_true]
      rw [key]
      constructor
      · intro h
        exact ⟨[c], t, by rcases hc with rfl | rfl <;> simp [OptionalSign], h, rfl⟩
      · rintro ⟨sign, digits, hs, hd, he⟩
        rcases hs with rfl | rfl | rfl
        · rw [List.nil_append] at he
          subst he
          obtain ⟨h1, h2⟩ := nosign c t hd
          rcases hc with h | h
          · exact absurd h h1
          · exact absurd h h2
        · cases he; exact hd
        · cases he; exact hd
    · simp only [hc, if_false]
      rw [key]
      constructor
      · intro h
        exact ⟨[], c :: t, .inl rfl, h, rfl⟩
      · rintro ⟨sign, digits, hs, hd, he⟩
        rcases hs with rfl | rfl | rfl
        · rw [List.nil_append] at he
          rw [he]; exact hd
        · cases he; simp at hc
        · cases he; simp at hc

theorem parseExponent_nil (s : Str) : parseExponent s = some [] ↔ s = [] ∨ Exponent s := by
  unfold parseExponent
  cases s with
  | nil => simp
  | cons c t =>
    by_cases hc : c = 'e' ∨ c = 'E'
    · simp only [hc, if_true, parseScientific_nil, reduceCtorEq, false_or]
      constructor
      · rintro ⟨sign, digits, h1, h2, rfl⟩
        exact ⟨c, sign, digits, hc, h1, h2, rfl⟩
      · rintro ⟨e, sign, digits, _, h1, h2, he⟩
        cases he
        exact ⟨sign, digits, h1, h2, rfl⟩
    · simp only [hc, if_false, Option.some.injEq, reduceCtorEq, false_or, false_iff]
      rintro ⟨e, sign, digits, h, _, _, he⟩
      cases he
      exact hc h

theorem exponent_head {e : Str} (h : e = [] ∨ Exponent e) : ∀ c, e.head? = some c → isDigit10 c = false ∧ c ≠ '.' := by
  intro c hc
  rcases h with rfl | ⟨x, sign, digits, hx, _, _, rfl⟩
  · cases hc
  · simp only [List.cons_append, List.head?_cons, Option.some.injEq] at hc
    subst hc
    rcases hx with rfl | rfl <;> exact ⟨by decide, by decide⟩

/-- The number part: a decimal number and possibly an exponent. -/
theorem parsePartialNumber_nil (s : Str) : parsePartialNumber s = some [] ↔ ∃ m e, s = m ++ e ∧ Mantissa m ∧ (e = [] ∨ Exponent e) := by
  have len : ∀ a b : Str, (a ++ b).length - b.length = a.length := by
    intro a b
    rw [List.length_append]
    omega
  constructor
  · intro h
    obtain ⟨ds, h1, h2, h3⟩ := skipDigits_spec s
    unfold parsePartialNumber at h
    simp only at h
    have hl : s.length - (skipDigits s).length = ds.length := by
      conv => lhs; arg 1; rw [h1]
      exact len _ _
    rw [hl] at h
    generalize skipDigits s = s1 at h h1 h3
    split at h
    · rename_i s2
      obtain ⟨fs, g1, g2, g3⟩ := skipDigits_spec s2
      have hl2 : s2.length - (skipDigits s2).length = fs.length := by
        conv => lhs; arg 1; rw [g1]
        exact len _ _
      rw [hl2] at h
      split at h
      · cases h
      · rename_i hne
        rw [parseExponent_nil] at h
        refine ⟨ds ++ '.' :: fs, skipDigits s2, ?_, .fraction h2 g2 ?_, h⟩
        · rw [h1, List.append_assoc, List.cons_append, ← g1]
        · cases ds with
          | nil =>
            right
            rintro rfl
            exact hne rfl
          | cons => left; simp
    · split at h
      · cases h
      · rename_i hne
        rw [parseExponent_nil] at h
        refine ⟨ds, s1, h1, .whole ⟨?_, h2⟩, h⟩
        rintro rfl
        exact hne rfl
  · rintro ⟨m, e, rfl, hm, he⟩
    have hh := exponent_head he
    cases hm with
    | whole hi =>
      unfold parsePartialNumber
      rw [skipDigits_append hi.2 fun c hc => (hh c hc).1]
      simp only [len]
      have hne : ¬ m.length = 0 := fun h => hi.1 (List.length_eq_zero_iff.1 h)
      split
      · exact absurd rfl (hh '.' rfl).2
      · rw [if_neg hne]
        exact (parseExponent_nil e).2 he
    | @fraction i f hi hf hne =>
      unfold parsePartialNumber
      rw [List.append_assoc, List.cons_append, skipDigits_append hi (by
        intro c hc
        simp only [List.head?_cons, Option.some.injEq] at hc
        subst hc
        decide)]
      simp only [len]
      rw [skipDigits_append hf fun c hc => (hh c hc).1, len]
      have : ¬ i.length + f.length = 0 := by
        intro h
        rcases hne with h1 | h1
        · exact h1 (List.length_eq_zero_iff.1 (by omega))
        · exact h1 (List.length_eq_zero_iff.1 (by omega))
      rw [if_neg this]
      exact (parseExponent_nil e).2 he

theorem isInfNan_iff (s : Str) : isInfNan s = true ↔ SameName s "inf".toList ∨ SameName s "infinity".toList ∨ SameName s "nan".toList := by
  unfold isInfNan
  simp only [Bool.or_eq_true, sameName_iff]
  constructor
  · rintro ((h | h) | h)
    · exact .inl h
    · exact .inr (.inr h)
    · exact .inr (.inl h)
  · rintro (h | h | h)
    · exact .inl (.inl h)
    · exact .inr h
    · exact .inl (.inr h)

/-- What follows the sign. -/
def Unsigned (s : Str) : Prop :=
  (∃ m e, s = m ++ e ∧ Mantissa m ∧ (e = [] ∨ Exponent e)) ∨ (SameName s "inf".toList ∨ SameName s "infinity".toList ∨ SameName s "nan".toList)

theorem floatText_iff (s : Str) : FloatText s ↔ ∃ sign t, OptionalSign sign ∧ Unsigned t ∧ s = sign ++ t := by
  constructor
  · intro h
    cases h with
    | number hs hm => exact ⟨_, _, hs, .inl ⟨_, [], by simp, hm, .inl rfl⟩, rfl⟩
    | scientific hs hm he => exact ⟨_, _, hs, .inl ⟨_, _, rfl, hm, .inr he⟩, by simp⟩
    | word hs hw => exact ⟨_, _, hs, .inr hw, rfl⟩
  · rintro ⟨sign, t, hs, ⟨m, e, rfl, hm, rfl | he⟩ | hw, rfl⟩
    · rw [List.append_nil]; exact .number hs hm
    · rw [← List.append_assoc]; exact .scientific hs hm he
    · exact .word hs hw

theorem mantissa_head {m : Str} (h : Mantissa m) : ∃ c t, m = c :: t ∧ c ≠ '-' ∧ c ≠ '+' := by
  have digit : ∀ c : Char, 48 ≤ c.toNat ∧ c.toNat ≤ 57 → c ≠ '-' ∧ c ≠ '+' := by
    intro c h
    refine ⟨?_, ?_⟩ <;> (rintro rfl; revert h; decide)
  cases h with
  | whole hi =>
    obtain ⟨h1, h2⟩ := hi
    cases m with
    | nil => exact absurd rfl h1
    | cons c t => exact ⟨c, t, rfl, digit c (h2 c (by simp))⟩
  | @fraction i f hi hf hne =>
    cases i with
    | nil => exact ⟨'.', f, rfl, by decide, by decide⟩
    | cons c t => exact ⟨c, _, rfl, digit c (hi c (by simp))⟩

theorem unsigned_head {s : Str} (h : Unsigned s) : ∃ c t, s = c :: t ∧ c ≠ '-' ∧ c ≠ '+' := by
  rcases h with ⟨m, e, rfl, hm, _⟩ | hw
  · obtain ⟨c, t, rfl, h1, h2⟩ := mantissa_head hm
    exact ⟨c, t ++ e, rfl, h1, h2⟩
  · have key : ∀ (b : Char) (bs : Str), asciiLower '-' ≠ asciiLower b → asciiLower '+' ≠ asciiLower b → SameName s (b :: bs) → ∃ c t, s = c :: t ∧ c ≠ '-' ∧ c ≠ '+' := by
      intro b bs h1 h2 h
      cases h with
      | cons hab _ =>
        rw [sameLetter_iff] at hab
        refine ⟨_, _, rfl, ?_, ?_⟩
        · rintro rfl; exact h1 hab
        · rintro rfl; exact h2 hab
    rcases hw with h | h | h
    · exact key 'i' _ (by decide) (by decide) h
    · exact key 'i' _ (by decide) (by decide) h
    · exact key 'n' _ (by decide) (by decide) h

theorem rustIsF64_iff (s : Str) : rustIsF64 s = true ↔ FloatText s := by
  have key : ∀ t : Str, (if t = [] then false else parsePartialNumber t == some [] || isInfNan t) = true ↔ Unsigned t := by
    intro t
    by_cases ht : t = []
    · rw [if_pos ht]
      constructor
      · intro h; cases h
      · intro h
        obtain ⟨c, u, hcu, _⟩ := unsigned_head h
        rw [ht] at hcu
        cases hcu
    · rw [if_neg ht, Bool.or_eq_true, beq_iff_eq, parsePartialNumber_nil, isInfNan_iff]
      exact Iff.rfl
  rw [floatText_iff]
  unfold rustIsF64
  cases s with
  | nil =>
    constructor
    · intro h; cases h
    · rintro ⟨sign, t, _, hu, he⟩
      obtain ⟨c, u, rfl, _⟩ := unsigned_head hu
      cases sign <;> cases he
  | cons c t =>
    simp only
    by_cases hc : c = '-' ∨ c = '+'
    · simp only [hc, if_true]
      rw [key]
      constructor
      · intro h
        exact ⟨[c], t, by rcases hc with rfl | rfl <;> simp [OptionalSign], h, rfl⟩
      · rintro ⟨sign, u, hs, hu, he⟩
        rcases hs with rfl | rfl | rfl
        · obtain ⟨a, b, rfl, h1, h2⟩ := unsigned_head hu
          cases he
          rcases hc with h | h
          · exact absurd h h1
          · exact absurd h h2
        · cases he; exact hu
        · cases he; exact hu
    · simp only [hc, if_false]
      rw [key]
      constructor
      · intro h
        exact ⟨[], c :: t, .inl rfl, h, rfl⟩
      · rintro ⟨sign, u, hs, hu, he⟩
        rcases hs with rfl | rfl | rfl
        · rw [List.nil_append] at he
          rw [he]; exact hu
        · cases he; simp at hc
        · cases he; simp at hc

end Chopper
