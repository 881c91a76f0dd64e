import Verif.Spec.CsvUtil
import Verif.Proofs.Utf8

namespace Chopper
open Spec

/-! ## Fields -/

theorem splitChar_ne (d : Char) (s : Str) : splitChar d s ≠ [] := by
  cases s with
  | nil => simp [splitChar]
  | cons c cs =>
    simp only [splitChar]
    split
    · simp
    · split <;> simp

theorem splitChar_single {d : Char} {p : Str} (h : d ∉ p) : splitChar d p = [p] := by
  induction p with
  | nil => rfl
  | cons c p ih =>
    simp only [List.mem_cons, not_or] at h
    simp only [splitChar]
    rw [if_neg (fun e => h.1 e.symm), ih h.2]

theorem splitChar_cons {d : Char} {p : Str} (h : d ∉ p) (rest : Str) : splitChar d (p ++ d :: rest) = p :: splitChar d rest := by
  induction p with
  | nil => simp [splitChar]
  | cons c p ih =>
    simp only [List.mem_cons, not_or] at h
    simp only [List.cons_append, splitChar]
    rw [if_neg (fun e => h.1 e.symm), ih h.2]

theorem splitChar_join {d : Char} : ∀ {fields : List Str}, fields ≠ [] → (∀ f ∈ fields, d ∉ f) → splitChar d (joinChar d fields) = fields
  | [], h, _ => absurd rfl h
  | [p], _, h => splitChar_single (h p (by simp))
  | p :: q :: ps, _, h => by
    simp only [joinChar]
    rw [splitChar_cons (h p (by simp)), splitChar_join (by simp) (fun f hf => h f (by simp [hf]))]

theorem splitChar_isFields (d : Char) (line : Str) : IsFields d line (splitChar d line) := by
  refine ⟨splitChar_ne d line, ?_, ?_⟩
  · induction line with
    | nil => rfl
    | cons c cs ih =>
      simp only [splitChar]
      have hne := splitChar_ne d cs
      split
      · rename_i h; subst h
        cases hs : splitChar c cs with
        | nil => exact absurd hs hne
        | cons p ps => rw [hs] at ih; simp [joinChar, ih]
      · cases hs : splitChar d cs with
        | nil => exact absurd hs hne
        | cons p ps =>
          rw [hs] at ih
          cases ps with
          | nil => simp [joinChar] at ih ⊢; exact ih
          | cons q ps => simp [joinChar] at ih ⊢; exact ih
  · induction line with
    | nil => intro f hf; simp [splitChar] at hf; subst hf; simp
    | cons c cs ih =>
      simp only [splitChar]
      have hne := splitChar_ne d cs
      split
      · intro f hf
        rcases List.mem_cons.1 hf with rfl | hf
        · simp
        · exact ih f hf
      · rename_i h
        cases hs : splitChar d cs with
        | nil => exact absurd hs hne
        | cons p ps =>
          rw [hs] at ih
          intro f hf
          rcases List.mem_cons.1 hf with rfl | hf
          · have := ih p (by simp)
            simp [this]; exact fun e => h e.symm
          · exact ih f (by simp [hf])

theorem isFields_unique {d : Char} {line : Str} {fields : List Str} (h : IsFields d line fields) : splitChar d line = fields := by
  rw [← h.2.1]; exact splitChar_join h.1 h.2.2

/-! ## Trimming -/

theorem dropWhile_split {p : Char → Bool} (s : Str) : ∃ a, s = a ++ s.dropWhile p ∧ a.all p = true ∧
    ∀ c, (s.dropWhile p).head? = some c → p c = false := by
  induction s with
  | nil => exact ⟨[], by simp⟩
  | cons c s ih =>
    rw [List.dropWhile_cons]
    split
    · rename_i h
      obtain ⟨a, h1, h2, h3⟩ := ih
      exact ⟨c :: a, by rw [List.cons_append, ← h1], by simp [h, h2], h3⟩
    · rename_i h
      exact ⟨[], by simp, by simp, by intro c' hc; simp at hc; subst hc; simpa using h⟩

theorem isSpace_iff (c : Char) : IsSpace c ↔ isWhite c = true := by
  unfold IsSpace spaceCodes isWhite
  simp only [List.mem_cons, List.not_mem_nil, or_false, Bool.or_eq_true, Bool.and_eq_true, decide_eq_true_eq, beq_iff_eq]
  omega

theorem isTrimmed_white (s t : Str) : IsTrimmed s t ↔ ∃ a b, s = a ++ t ++ b ∧ a.all isWhite = true ∧ b.all isWhite = true ∧
    (∀ c, t.head? = some c → isWhite c = false) ∧ (∀ c, t.getLast? = some c → isWhite c = false) := by
  unfold IsTrimmed
  simp only [isSpace_iff, List.all_eq_true, Bool.not_eq_true]

theorem trim_spec (s : Str) : IsTrimmed s (trim s) := by
  rw [isTrimmed_white]
  unfold trim
  obtain ⟨a, h1, h2, h3⟩ := dropWhile_split (p := isWhite) s
  obtain ⟨b, g1, g2, g3⟩ := dropWhile_split (p := isWhite) (s.dropWhile isWhite).reverse
  generalize ht : (s.dropWhile isWhite).reverse.dropWhile isWhite = t at *
  have e : s.dropWhile isWhite = t.reverse ++ b.reverse := by
    have := congrArg List.reverse g1
    simpa using this
  refine ⟨a, b.reverse, by rw [List.append_assoc, ← e]; exact h1, h2, by simpa using g2, ?_, ?_⟩
  · intro c hc
    cases hr : t.reverse with
    | nil => rw [hr] at hc; simp at hc
    | cons x xs =>
      rw [hr] at hc; simp at hc; subst hc
      exact h3 x (by rw [e, hr]; simp)
  · intro c hc
    rw [List.getLast?_reverse] at hc
    exact g3 c hc

/-- Every text has exactly one trimmed form. -/
theorem isTrimmed_unique {s a b : Str} (ha : IsTrimmed s a) (hb : IsTrimmed s b) : a = b := by
  rw [isTrimmed_white] at ha hb
  obtain ⟨p, q, h1, h2, h3, h4, h5⟩ := ha
  obtain ⟨p', q', g1, g2, g3, g4, g5⟩ := hb
  have hw : ∀ {u : Str}, u.all isWhite = true → ∀ c ∈ u, isWhite c = true := fun h => List.all_eq_true.1 h
  -- left ends agree
  have left : ∀ (p p' a b q q' : Str), p ++ (a ++ q) = p' ++ (b ++ q') → p.all isWhite = true → p'.all isWhite = true →
      q.all isWhite = true → q'.all isWhite = true →
      (∀ c, a.head? = some c → isWhite c = false) → (∀ c, b.head? = some c → isWhite c = false) →
      (a = [] ∧ b = []) ∨ (a ++ q = b ++ q') := by
    intro p
    induction p with
    | nil =>
      intro p' a b q q' h _ hp' hq hq' ha hb
      cases p' with
      | nil => exact .inr (by simpa using h)
      | cons x p' =>
        have hx : isWhite x = true := hw hp' x (by simp)
        cases a with
        | cons y a => simp at h; have := ha y (by simp); rw [h.1, hx] at this; simp at this
        | nil =>
          refine .inl ⟨rfl, ?_⟩
          cases b with
          | nil => rfl
          | cons y b =>
            have h1 := hb y (by simp)
            have : y ∈ q := by simp at h; rw [h]; simp
            rw [hw hq y this] at h1; simp at h1
    | cons x p ih =>
      intro p' a b q q' h hp hp' hq hq' ha hb
      have hx : isWhite x = true := hw hp x (by simp)
      cases p' with
      | nil =>
        cases b with
        | cons y b => simp at h; have := hb y (by simp); rw [← h.1, hx] at this; simp at this
        | nil =>
          refine .inl ⟨?_, rfl⟩
          cases a with
          | nil => rfl
          | cons y a =>
            have h1 := ha y (by simp)
            have : y ∈ q' := by simp at h; rw [← h]; simp
            rw [hw hq' y this] at h1; simp at h1
      | cons x' p' =>
        simp only [List.cons_append, List.cons.injEq] at h
        refine ih p' a b q q' h.2 ?_ ?_ hq hq' ha hb
        · rw [List.all_cons, Bool.and_eq_true] at hp; exact hp.2
        · rw [List.all_cons, Bool.and_eq_true] at hp'; exact hp'.2
  have e : p ++ (a ++ q) = p' ++ (b ++ q') := by
    rw [← List.append_assoc, ← List.append_assoc, ← h1, ← g1]
  rcases left p p' a b q q' e h2 g2 h3 g3 h4 g4 with ⟨rfl, rfl⟩ | e2
  · rfl
  · have e3 : q.reverse ++ (a.reverse ++ []) = q'.reverse ++ (b.reverse ++ []) := by
      have := congrArg List.reverse e2
      simpa using this
    rcases left q.reverse q'.reverse a.reverse b.reverse [] [] e3 (by simpa using h3) (by simpa using g3) rfl rfl
      (by intro c hc; rw [List.head?_reverse] at hc; exact h5 c hc) (by intro c hc; rw [List.head?_reverse] at hc; exact g5 c hc) with ⟨ea, eb⟩ | e4
    · have : a.reverse.reverse = b.reverse.reverse := by rw [ea, eb]
      simpa using this
    · simpa using e4

/-! ## Numbers -/

theorem digitsVal_acc (s : Str) : ∀ acc, digitsVal acc s = acc * 10 ^ s.length + decimalValue s := by
  induction s with
  | nil => intro acc; show acc = acc * 1 + 0; omega
  | cons c cs ih =>
    intro acc
    show digitsVal (acc * 10 + digitVal c) cs = acc * 10 ^ (cs.length + 1) + (digitVal c * 10 ^ cs.length + decimalValue cs)
    rw [ih, Nat.add_mul, Nat.mul_assoc, ← Nat.pow_succ', Nat.add_assoc]

theorem isDigit_iff (c : Char) : isDigit c = true ↔ 48 ≤ c.toNat ∧ c.toNat ≤ 57 := by simp [isDigit]

theorem parseDigits_iff (s : Str) (n : Nat) : parseDigits s = some n ↔ Digits s ∧ n = decimalValue s := by
  unfold parseDigits Digits
  have e : (s.all isDigit = true) ↔ ∀ c ∈ s, 48 ≤ c.toNat ∧ c.toNat ≤ 57 := by
    rw [List.all_eq_true]
    simp only [isDigit_iff]
  rw [digitsVal_acc]
  split
  · rename_i h
    simp only [Option.some.injEq, Nat.zero_mul, Nat.zero_add]
    constructor
    · intro h'; exact ⟨⟨h.1, e.1 h.2⟩, h'.symm⟩
    · intro h'; exact h'.2.symm
  · rename_i h
    simp only [reduceCtorEq, false_iff]
    rintro ⟨⟨h1, h2⟩, _⟩
    exact h ⟨h1, e.2 h2⟩

theorem parseDigits_none (s : Str) : parseDigits s = none ↔ ¬ Digits s := by
  cases h : parseDigits s with
  | none => simp; intro hd; rw [(parseDigits_iff s _).2 ⟨hd, rfl⟩] at h; simp at h
  | some n => simp; exact ((parseDigits_iff s n).1 h).1

theorem Digits.head {s : Str} (h : Digits s) : ∃ c t, s = c :: t ∧ 48 ≤ c.toNat ∧ c.toNat ≤ 57 := by
  cases s with
  | nil => exact absurd rfl h.1
  | cons c t => exact ⟨c, t, rfl, h.2 c (by simp)⟩

theorem not_digits_minus (t : Str) : ¬ Digits ('-' :: t) := by
  intro h; have := h.2 '-' (by simp); revert this; decide
theorem not_digits_plus (t : Str) : ¬ Digits ('+' :: t) := by
  intro h; have := h.2 '+' (by simp); revert this; decide

theorem parseI64_isSome (s : Str) : (parseI64 s).isSome = true ↔ DenotesI64 s := by
  unfold DenotesI64
  have gen : ∀ s : Str, ((parsePos63 s).isSome = true) ↔ (Digits s ∧ decimalValue s < 2 ^ 63) := by
    intro s
    first | unfold parsePos63 | unfold parseNeg63
    cases h : parseDigits s with
    | none => simp; intro hd; exact absurd hd ((parseDigits_none s).1 h)
    | some n =>
      obtain ⟨h1, rfl⟩ := (parseDigits_iff s n).1 h
      by_cases hl : decimalValue s < 2 ^ 63 <;> simp [hl, h1]
  have genN : ∀ s : Str, ((parseNeg63 s).isSome = true) ↔ (Digits s ∧ decimalValue s ≤ 2 ^ 63) := by
    intro s
    first | unfold parsePos63 | unfold parseNeg63
    cases h : parseDigits s with
    | none => simp; intro hd; exact absurd hd ((parseDigits_none s).1 h)
    | some n =>
      obtain ⟨h1, rfl⟩ := (parseDigits_iff s n).1 h
      by_cases hl : decimalValue s ≤ 2 ^ 63 <;> simp [hl, h1]
  unfold parseI64
  split
  · rename_i t
    rw [genN]
    constructor
    · rintro ⟨h1, h2⟩; exact .inr ⟨t, rfl, h1, h2⟩
    · rintro (⟨u, rfl | h, h1, _⟩ | ⟨u, h, h1, h2⟩)
      · exact absurd h1 (not_digits_minus t)
      · simp at h
      · simp at h; subst h; exact ⟨h1, h2⟩
  · rename_i t
    rw [gen]
    constructor
    · rintro ⟨h1, h2⟩; exact .inl ⟨t, .inr rfl, h1, h2⟩
    · rintro (⟨u, rfl | h, h1, h2⟩ | ⟨u, h, h1, h2⟩)
      · exact absurd h1 (not_digits_plus t)
      · simp at h; subst h; exact ⟨h1, h2⟩
      · simp at h
  · rename_i n1 n2
    rw [gen]
    constructor
    · rintro ⟨h1, h2⟩; exact .inl ⟨s, .inl rfl, h1, h2⟩
    · rintro (⟨u, rfl | h, h1, h2⟩ | ⟨u, h, h1, h2⟩)
      · exact ⟨h1, h2⟩
      · exact absurd h (n2 u)
      · exact absurd h (n1 u)

/-! ## Printing numbers -/

theorem ofNat_digit {n : Nat} (h : n < 10) : (Char.ofNat (48 + n)).toNat = 48 + n := by
  have : (48 + n).isValidChar := Or.inl (by omega)
  simp only [Char.ofNat, this, dif_pos]
  show (Char.ofNatAux _ _).val.toNat = _
  simp [Char.ofNatAux]; omega

theorem decimalValue_append (a b : Str) : decimalValue (a ++ b) = decimalValue a * 10 ^ b.length + decimalValue b := by
  induction a with
  | nil => simp [decimalValue]
  | cons c a ih =>
    simp only [List.cons_append, decimalValue, ih, List.length_append, Nat.pow_add]
    rw [Nat.add_mul, Nat.mul_assoc, Nat.add_assoc]

theorem natDigitsAux_spec : ∀ (fuel n : Nat) (acc : Str), n < fuel → ∃ p, natDigitsAux fuel n acc = p ++ acc ∧ Digits p ∧ decimalValue p = n ∧
    (n ≠ 0 → p.head? ≠ some '0') ∧ (n = 0 → p = ['0'])
  | 0, n, acc, h => by omega
  | fuel + 1, n, acc, h => by
    simp only [natDigitsAux]
    have hd := ofNat_digit (n := n % 10) (by omega)
    by_cases hn : n / 10 = 0
    · rw [if_pos hn]
      refine ⟨[Char.ofNat (48 + n % 10)], rfl, ⟨by simp, ?_⟩, ?_, ?_, ?_⟩
      · intro c hc; simp at hc; subst hc; rw [hd]; omega
      · simp [decimalValue, hd]; omega
      · intro h0 h1
        simp at h1
        have := congrArg Char.toNat h1
        rw [hd] at this
        have e : '0'.toNat = 48 := rfl
        omega
      · intro h0; subst h0; rfl
    · rw [if_neg hn]
      obtain ⟨p, h1, h2, h3, h4, h5⟩ := natDigitsAux_spec fuel (n / 10) (Char.ofNat (48 + n % 10) :: acc) (by omega)
      refine ⟨p ++ [Char.ofNat (48 + n % 10)], by rw [h1]; simp, ⟨by simp, ?_⟩, ?_, ?_, ?_⟩
      · intro c hc
        rcases List.mem_append.1 hc with hc | hc
        · exact h2.2 c hc
        · simp at hc; subst hc; rw [hd]; omega
      · rw [decimalValue_append, h3]; simp [decimalValue, hd]; omega
      · intro _
        cases p with
        | nil => exact absurd rfl h2.1
        | cons x xs => simpa using h4 hn
      · intro h0; omega

theorem natToStr_spec (n : Nat) : Digits (natToStr n) ∧ decimalValue (natToStr n) = n := by
  obtain ⟨p, h1, h2, h3, _⟩ := natDigitsAux_spec (n + 1) n [] (by omega)
  unfold natToStr
  rw [h1, List.append_nil]; exact ⟨h2, h3⟩

theorem parseU64_digits {s : Str} (h : Digits s) : parseU64 s = if decimalValue s < 2 ^ 64 then some (BitVec.ofNat 64 (decimalValue s)) else none := by
  have hb : stripPlus s = s := by
    unfold stripPlus
    split
    · exact absurd h (not_digits_plus _)
    · rfl
  unfold parseU64
  simp only [hb, (parseDigits_iff s _).2 ⟨h, rfl⟩, Option.bind_some]

theorem parseU64_natToStr (n : Nat) (h : n < 2 ^ 64) : parseU64 (natToStr n) = some (BitVec.ofNat 64 n) := by
  obtain ⟨h1, h2⟩ := natToStr_spec n
  rw [parseU64_digits h1, h2, if_pos h]

theorem natDigitsAux_core : ∀ (fuel n : Nat) (acc : Str), natDigitsAux fuel n acc = Nat.toDigitsCore 10 fuel n acc
  | 0, n, acc => rfl
  | fuel + 1, n, acc => by
    have hd : Char.ofNat (48 + n % 10) = Nat.digitChar (n % 10) := by
      have : ∀ m < 10, Char.ofNat (48 + m) = Nat.digitChar m := by decide
      exact this _ (Nat.mod_lt _ (by decide))
    unfold natDigitsAux Nat.toDigitsCore
    rw [hd]
    simp only [natDigitsAux_core fuel]

/-- Numbers are printed as Lean prints them. -/
theorem natToStr_repr (n : Nat) : natToStr n = (toString n).toList := by
  show _ = (Nat.repr n).toList
  unfold natToStr Nat.repr Nat.toDigits
  rw [natDigitsAux_core]
  simp

end Chopper
