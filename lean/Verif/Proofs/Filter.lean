import Verif.Spec.Filter
import Verif.Proofs.HeaderGraph4

namespace Chopper
open Spec

/-! ## Names -/

theorem char_toNat_inj {a b : Char} (h : a.toNat = b.toNat) : a = b := by
  apply Char.ext; apply UInt32.toNat_inj.1; exact h

theorem asciiLower_toNat (c : Char) : (asciiLower c).toNat = if 65 ≤ c.toNat ∧ c.toNat ≤ 90 then c.toNat + 32 else c.toNat := by
  unfold asciiLower
  have e : ('A' ≤ c ∧ c ≤ 'Z') ↔ (65 ≤ c.toNat ∧ c.toNat ≤ 90) := by
    rw [Char.le_def, Char.le_def]; exact Iff.rfl
  simp only [e]
  split
  · rename_i h
    have hv : (c.toNat + 32).isValidChar := Or.inl (by omega)
    simp only [Char.ofNat, hv, dif_pos]
    show (Char.ofNatAux (c.toNat + 32) hv).val.toNat = _
    simp [Char.ofNatAux]; omega
  · rfl

theorem sameLetter_iff (a b : Char) : SameLetter a b ↔ asciiLower a = asciiLower b := by
  constructor
  · rintro (rfl | ⟨k, hk, h | h⟩)
    · rfl
    · apply char_toNat_inj; rw [asciiLower_toNat, asciiLower_toNat, if_pos (by omega), if_neg (by omega)]; omega
    · apply char_toNat_inj; rw [asciiLower_toNat, asciiLower_toNat, if_neg (by omega), if_pos (by omega)]; omega
  · intro h
    have h' : (asciiLower a).toNat = (asciiLower b).toNat := by rw [h]
    rw [asciiLower_toNat, asciiLower_toNat] at h'
    by_cases ha : 65 ≤ a.toNat ∧ a.toNat ≤ 90
    · rw [if_pos ha] at h'
      by_cases hb : 65 ≤ b.toNat ∧ b.toNat ≤ 90
      · rw [if_pos hb] at h'; left; apply char_toNat_inj; omega
      · rw [if_neg hb] at h'; right; exact ⟨a.toNat - 65, by omega, .inl (by omega)⟩
    · rw [if_neg ha] at h'
      by_cases hb : 65 ≤ b.toNat ∧ b.toNat ≤ 90
      · rw [if_pos hb] at h'; right; exact ⟨b.toNat - 65, by omega, .inr (by omega)⟩
      · rw [if_neg hb] at h'; left; apply char_toNat_inj; omega

theorem sameName_iff (a b : Str) : SameName a b ↔ eqIgnoreAsciiCase a b = true := by
  unfold eqIgnoreAsciiCase
  induction a generalizing b with
  | nil =>
    cases b with
    | nil => simp; exact .nil
    | cons b bs => simp; intro h; cases h
  | cons a as ih =>
    cases b with
    | nil => simp; intro h; cases h
    | cons b bs =>
      have := ih bs
      simp only [beq_iff_eq] at this
      simp only [List.map_cons, beq_iff_eq, List.cons.injEq, ← sameLetter_iff, ← this]
      constructor
      · intro h; cases h with | cons h1 h2 => exact ⟨h1, h2⟩
      · rintro ⟨h1, h2⟩; exact .cons h1 h2

theorem findCol_some {name : Str} : ∀ {names : List Str} {k i : Nat}, findCol name names k = some i →
    k ≤ i ∧ FirstCol name names (i - k) := by
  intro names
  induction names with
  | nil => intro k i h; simp [findCol] at h
  | cons n ns ih =>
    intro k i h
    simp only [findCol] at h
    split at h
    · rename_i hn
      simp at h; subst h
      refine ⟨Nat.le_refl _, ?_⟩
      rw [Nat.sub_self]
      exact ⟨⟨n, by simp, (sameName_iff n name).2 hn⟩, by omega⟩
    · rename_i hn
      obtain ⟨h1, ⟨m, h2, h3⟩, h4⟩ := ih h
      refine ⟨by omega, ?_⟩
      rw [show i - k = (i - (k + 1)) + 1 by omega]
      refine ⟨⟨m, by simpa using h2, h3⟩, ?_⟩
      intro j m' hj hm
      cases j with
      | zero => simp at hm; subst hm; rw [sameName_iff]; exact hn
      | succ j => exact h4 j m' (by omega) (by simpa using hm)

theorem findCol_none {name : Str} : ∀ {names : List Str} {k : Nat}, findCol name names k = none → NoCol name names := by
  intro names
  induction names with
  | nil => intro k h; intro n hn; simp at hn
  | cons n ns ih =>
    intro k h
    simp only [findCol] at h
    split at h
    · simp at h
    · rename_i hn
      intro m hm
      rcases List.mem_cons.1 hm with rfl | hm
      · rw [sameName_iff]; exact hn
      · exact ih h m hm

theorem firstCol_unique {name : Str} {names : List Str} {i j : Nat} (hi : FirstCol name names i) (hj : FirstCol name names j) : i = j := by
  rcases Nat.lt_trichotomy i j with h | h | h
  · obtain ⟨n, h1, h2⟩ := hi.1; exact absurd h2 (hj.2 i n h h1)
  · exact h
  · obtain ⟨n, h1, h2⟩ := hj.1; exact absurd h2 (hi.2 j n h h1)

theorem findCol_of_firstCol {name : Str} {names : List Str} {i : Nat} (h : FirstCol name names i) : findCol name names 0 = some i := by
  cases hf : findCol name names 0 with
  | none =>
    obtain ⟨n, h1, h2⟩ := h.1
    exact absurd h2 (findCol_none hf n (List.mem_of_getElem? h1))
  | some j =>
    have := (findCol_some hf).2
    rw [Nat.sub_zero] at this
    rw [firstCol_unique h this]

theorem findCol_of_noCol {name : Str} {names : List Str} (h : NoCol name names) : findCol name names 0 = none := by
  cases hf : findCol name names 0 with
  | none => rfl
  | some j =>
    obtain ⟨n, h1, h2⟩ := (findCol_some hf).2.1
    exact absurd h2 (h n (List.mem_of_getElem? h1))

/-! ## Comparison laws -/

theorem cmpNat_swap (a b : Nat) : compare b a = (compare a b).swap := (Nat.compare_swap a b).symm
theorem cmpInt_swap (a b : Int) : compare b a = (compare a b).swap := by
  simp only [compare, compareOfLessAndEq]
  rcases Int.lt_trichotomy a b with h | h | h
  · rw [if_neg (by omega), if_neg (by omega), if_pos h]; rfl
  · subst h; simp
  · rw [if_pos h, if_neg (by omega), if_neg (by omega)]; rfl

theorem cmpNat_lt (a b : Nat) : compare a b = .lt ↔ a < b := Nat.compare_eq_lt
theorem cmpNat_eq (a b : Nat) : compare a b = .eq ↔ a = b := Nat.compare_eq_eq
theorem cmpInt_lt (a b : Int) : compare a b = .lt ↔ a < b := by
  simp only [compare, compareOfLessAndEq]
  split
  · simp [*]
  · split <;> simp [*]
theorem cmpInt_eq (a b : Int) : compare a b = .eq ↔ a = b := by
  simp only [compare, compareOfLessAndEq]
  split
  · simp; omega
  · split <;> simp [*]

theorem strCmp_swap : ∀ a b : Str, strCmp b a = (strCmp a b).swap
  | [], [] => rfl
  | [], _ :: _ => rfl
  | _ :: _, [] => rfl
  | a :: as, b :: bs => by
    simp only [strCmp]
    rw [cmpNat_swap a.toNat b.toNat]
    cases compare a.toNat b.toNat <;> simp [strCmp_swap as bs]

theorem strCmp_eq : ∀ a b : Str, strCmp a b = .eq ↔ a = b
  | [], [] => by simp [strCmp]
  | [], _ :: _ => by simp [strCmp]
  | _ :: _, [] => by simp [strCmp]
  | a :: as, b :: bs => by
    simp only [strCmp, List.cons.injEq]
    have h := cmpNat_eq a.toNat b.toNat
    cases hc : compare a.toNat b.toNat with
    | eq =>
      have hab : a = b := char_toNat_inj (h.1 hc)
      simp [strCmp_eq as bs, hab]
    | lt => simp; intro e; subst e; rw [h.2 rfl] at hc; simp at hc
    | gt => simp; intro e; subst e; rw [h.2 rfl] at hc; simp at hc

theorem strCmp_lt_trans : ∀ {a b c : Str}, strCmp a b = .lt → strCmp b c = .lt → strCmp a c = .lt
  | a, [], c, h, _ => by cases a <;> simp [strCmp] at h
  | a, b :: bs, [], _, h => by simp [strCmp] at h
  | [], b :: bs, c :: cs, _, _ => rfl
  | a :: as, b :: bs, c :: cs, h1, h2 => by
    simp only [strCmp] at *
    cases e1 : compare a.toNat b.toNat with
    | gt => simp [e1] at h1
    | lt =>
      have l1 := (cmpNat_lt _ _).1 e1
      cases e2 : compare b.toNat c.toNat with
      | gt => simp [e2] at h2
      | lt => have l2 := (cmpNat_lt _ _).1 e2; rw [(cmpNat_lt _ _).2 (Nat.lt_trans l1 l2)]
      | eq => have l2 := (cmpNat_eq _ _).1 e2; rw [(cmpNat_lt _ _).2 (by omega)]
    | eq =>
      have l1 := (cmpNat_eq _ _).1 e1
      simp [e1] at h1
      rw [l1]
      cases e2 : compare b.toNat c.toNat with
      | gt => simp [e2] at h2
      | lt => simp
      | eq => simp [e2] at h2; simp; exact strCmp_lt_trans h1 h2

theorem fcmp_swap {w m : Nat} (a b : BitVec w) : fcmp w m b a = (fcmp w m a b).map Ordering.swap := by
  unfold fcmp
  rw [Bool.or_comm]
  split
  · rfl
  · simp only [Option.map_some, Option.some.injEq]; exact cmpInt_swap _ _

theorem feq_iff_fcmp {w m : Nat} (a b : BitVec w) : feq w m a b = true ↔ fcmp w m a b = some .eq := by
  unfold feq fcmp
  cases fnan w m a <;> cases fnan w m b <;> simp [cmpInt_eq]

theorem fcmp_lt_trans {w m : Nat} {a b c : BitVec w} (h1 : fcmp w m a b = some .lt) (h2 : fcmp w m b c = some .lt) :
    fcmp w m a c = some .lt := by
  unfold fcmp at *
  cases ha : fnan w m a <;> cases hb : fnan w m b <;> cases hc : fnan w m c <;> simp [ha, hb, hc, cmpInt_lt] at *
  omega

theorem fcmp_eq_lt {w m : Nat} {a b c : BitVec w} (h1 : fcmp w m a b = some .eq) : fcmp w m a c = fcmp w m b c := by
  unfold fcmp at *
  cases ha : fnan w m a <;> cases hb : fnan w m b <;> cases hc : fnan w m c <;> simp [ha, hb, cmpInt_eq] at *
  rw [h1]

theorem isNaN_double (b : BitVec 64) : IsNaN (.double b) ↔ fnan 64 52 b = true :=
  (decide_eq_true_iff (p := 2 ^ (64 - 1) - 2 ^ 52 < b.toNat % 2 ^ (64 - 1))).symm
theorem isNaN_float (b : BitVec 32) : IsNaN (.float b) ↔ fnan 32 23 b = true :=
  (decide_eq_true_iff (p := 2 ^ (32 - 1) - 2 ^ 23 < b.toNat % 2 ^ (32 - 1))).symm

/-! ### The sign-magnitude order is the order of the numbers the patterns denote -/

theorem ieeeMag_step (m g : Nat) : ieeeMag m g < ieeeMag m (g + 1) := by
  unfold ieeeMag
  have hp : 0 < 2 ^ m := Nat.two_pow_pos m
  have hd := Nat.div_add_mod g (2 ^ m)
  have hl := Nat.mod_lt g hp
  generalize hM : 2 ^ m = M at *
  generalize g / M = e at *
  generalize g % M = f at *
  by_cases hf : f + 1 < M
  · have e1 : (g + 1) / M = e := by
      rw [← hd, show M * e + f + 1 = (f + 1) + M * e by omega, Nat.add_mul_div_left _ _ hp, Nat.div_eq_of_lt hf]; omega
    have e2 : (g + 1) % M = f + 1 := by
      rw [← hd, show M * e + f + 1 = (f + 1) + M * e by omega, Nat.add_mul_mod_self_left, Nat.mod_eq_of_lt hf]
    rw [e1, e2]
    split
    · omega
    · exact Nat.mul_lt_mul_of_pos_right (by omega) (Nat.two_pow_pos _)
  · have hf' : f + 1 = M := by omega
    have e1 : (g + 1) / M = e + 1 := by
      rw [← hd, show M * e + f + 1 = 0 + M * (e + 1) by rw [Nat.mul_add, Nat.mul_one]; omega, Nat.add_mul_div_left _ _ hp]; simp
    have e2 : (g + 1) % M = 0 := by
      rw [← hd, show M * e + f + 1 = 0 + M * (e + 1) by rw [Nat.mul_add, Nat.mul_one]; omega, Nat.add_mul_mod_self_left]; simp
    rw [e1, e2, if_neg (Nat.succ_ne_zero e)]
    split
    · rename_i h; rw [h]; simp; omega
    · rename_i h
      obtain ⟨k, rfl⟩ : ∃ k, e = k + 1 := ⟨e - 1, by omega⟩
      simp only [Nat.add_sub_cancel, Nat.pow_succ, Nat.add_zero]
      rw [Nat.mul_comm (2 ^ k) 2, ← Nat.mul_assoc]
      exact Nat.mul_lt_mul_of_pos_right (by omega) (Nat.two_pow_pos _)

theorem ieeeMag_lt (m : Nat) {a b : Nat} (h : a < b) : ieeeMag m a < ieeeMag m b := by
  induction b with
  | zero => omega
  | succ b ih =>
    rcases Nat.lt_or_ge a b with h' | h'
    · exact Nat.lt_trans (ih h') (ieeeMag_step m b)
    · have : a = b := by omega
      subst this; exact ieeeMag_step m a

theorem ieeeMag_zero (m : Nat) : ieeeMag m 0 = 0 := by simp [ieeeMag]

theorem fkey_cmp (w m : Nat) (a b : BitVec w) :
    compare (fkey w a) (fkey w b) = compare (ieeeVal w m a) (ieeeVal w m b) := by
  have key : fkey w a < fkey w b → ieeeVal w m a < ieeeVal w m b := mono a b
  have key' : fkey w b < fkey w a → ieeeVal w m b < ieeeVal w m a := mono b a
  rcases Int.lt_trichotomy (fkey w a) (fkey w b) with h | h | h
  · rw [(cmpInt_lt _ _).2 h, (cmpInt_lt _ _).2 (key h)]
  · have : ieeeVal w m a = ieeeVal w m b := by
      unfold fkey fneg fmag at h
      unfold ieeeVal
      simp only [decide_eq_true_eq] at h
      split at h <;> split at h
      · rw [if_pos ‹_›, if_pos ‹_›]; congr 3; omega
      · rw [if_pos ‹_›, if_neg ‹_›]
        have h1 : a.toNat % 2 ^ (w - 1) = 0 := by omega
        have h2 : b.toNat % 2 ^ (w - 1) = 0 := by omega
        rw [h1, h2, ieeeMag_zero]; rfl
      · rw [if_neg ‹_›, if_pos ‹_›]
        have h1 : a.toNat % 2 ^ (w - 1) = 0 := by omega
        have h2 : b.toNat % 2 ^ (w - 1) = 0 := by omega
        rw [h1, h2, ieeeMag_zero]; rfl
      · rw [if_neg ‹_›, if_neg ‹_›]; congr 2; omega
    rw [(cmpInt_eq _ _).2 h, (cmpInt_eq _ _).2 this]
  · rw [cmpInt_swap (fkey w b), cmpInt_swap (ieeeVal w m b), (cmpInt_lt _ _).2 h, (cmpInt_lt _ _).2 (key' h)]
where
  mono (a b : BitVec w) (h : fkey w a < fkey w b) : ieeeVal w m a < ieeeVal w m b := by
    unfold fkey fneg fmag at h
    unfold ieeeVal
    simp only [decide_eq_true_eq] at h
    have z := ieeeMag_zero m
    split at h <;> split at h
    · rw [if_pos ‹_›, if_pos ‹_›]
      have := ieeeMag_lt m (a := b.toNat % 2 ^ (w - 1)) (b := a.toNat % 2 ^ (w - 1)) (by omega)
      omega
    · rw [if_pos ‹_›, if_neg ‹_›]
      rcases Nat.eq_zero_or_pos (a.toNat % 2 ^ (w - 1)) with h0 | h0
      · have := ieeeMag_lt m (a := 0) (b := b.toNat % 2 ^ (w - 1)) (by omega)
        rw [h0]; omega
      · have := ieeeMag_lt m h0
        omega
    · omega
    · rw [if_neg ‹_›, if_neg ‹_›]
      have := ieeeMag_lt m (a := a.toNat % 2 ^ (w - 1)) (b := b.toNat % 2 ^ (w - 1)) (by omega)
      omega

/-! ### The comparison functions against the specification -/

theorem strCmp_lt : ∀ a b : Str, strCmp a b = .lt ↔ a < b
  | [], [] => by simp [strCmp]
  | [], _ :: _ => by simp [strCmp]
  | _ :: _, [] => by simp [strCmp]
  | a :: as, b :: bs => by
    rw [List.cons_lt_cons_iff]
    simp only [strCmp]
    have e1 : a < b ↔ a.toNat < b.toNat := Iff.rfl
    have h := cmpNat_eq a.toNat b.toNat
    have h' := cmpNat_lt a.toNat b.toNat
    cases hc : compare a.toNat b.toNat with
    | lt => simp only [true_iff]; left; exact e1.2 (h'.1 hc)
    | eq =>
      have hab : a = b := char_toNat_inj (h.1 hc)
      simp only [strCmp_lt as bs]
      constructor
      · intro h; exact .inr ⟨hab, h⟩
      · rintro (h | ⟨_, h⟩)
        · rw [hab] at h; exact absurd (e1.1 (hab ▸ h)) (by rw [hab]; omega)
        · exact h
    | gt =>
      simp only [reduceCtorEq, false_iff]
      rintro (hl | ⟨he, _⟩)
      · rw [h'.2 (e1.1 hl)] at hc; simp at hc
      · rw [h.2 (by rw [he])] at hc; simp at hc

theorem fcmp_some {w m : Nat} (a b : BitVec w) (o : Ordering) :
    fcmp w m a b = some o ↔ fnan w m a = false ∧ fnan w m b = false ∧ compare (ieeeVal w m a) (ieeeVal w m b) = o := by
  unfold fcmp
  rw [← fkey_cmp]
  cases fnan w m a <;> cases fnan w m b <;> simp

theorem bnot_iff {p : Prop} {b : Bool} (h : p ↔ b = true) : b = false ↔ ¬ p := by
  rw [h]; cases b <;> simp

/-- `FieldValue.eq`, first matched on the left operand (only for the proofs: the equation lemmas of the overlapping match are slow). -/
def FieldValue.eq' : FieldValue → FieldValue → Res Bool
  | .boolean _, y => match y with | .boolean _ => .panic | _ => .ok false
  | .byte x, y => match y with | .byte y => .ok (x == y) | _ => .ok false
  | .byteBuf _, y => match y with | .byteBuf _ => .panic | _ => .ok false
  | .char x, y => match y with | .char y => .ok (x == y) | _ => .ok false
  | .double x, y => match y with | .double y => .ok (feq 64 52 x y) | _ => .ok false
  | .float x, y => match y with | .float y => .ok (feq 32 23 x y) | _ => .ok false
  | .int x, y => match y with | .int y => .ok (x == y) | _ => .ok false
  | .long x, y => match y with | .long y => .ok (x == y) | _ => .ok false
  | .short x, y => match y with | .short y => .ok (x == y) | _ => .ok false
  | .string x, y => match y with | .string y => .ok (x == y) | _ => .ok false
  | .none, y => match y with | .none => .ok true | _ => .ok false

/-- `FieldValue.partialCmp`, likewise. -/
def FieldValue.partialCmp' : FieldValue → FieldValue → Res (Option Ordering)
  | .boolean _, y => match y with | .boolean _ => .panic | _ => .panic
  | .byte x, y => match y with | .byte y => .ok (some (compare x.toNat y.toNat)) | _ => .panic
  | .byteBuf _, y => match y with | .byteBuf _ => .panic | _ => .panic
  | .char x, y => match y with | .char y => .ok (some (compare x.toNat y.toNat)) | _ => .panic
  | .double x, y => match y with | .double y => .ok (fcmp 64 52 x y) | _ => .panic
  | .float x, y => match y with | .float y => .ok (fcmp 32 23 x y) | _ => .panic
  | .int x, y => match y with | .int y => .ok (some (compare x.toInt y.toInt)) | _ => .panic
  | .long x, y => match y with | .long y => .ok (some (compare x.toInt y.toInt)) | _ => .panic
  | .short x, y => match y with | .short y => .ok (some (compare x.toInt y.toInt)) | _ => .panic
  | .string x, y => match y with | .string y => .ok (some (strCmp x y)) | _ => .panic
  | .none, y => match y with | .none => .ok (some .eq) | _ => .panic

theorem eq_eq' (x y : FieldValue) : x.eq y = x.eq' y := by
  cases x <;> cases y <;> rfl

theorem cmp_eq' (x y : FieldValue) : x.partialCmp y = x.partialCmp' y := by
  cases x <;> cases y <;> rfl

theorem eq_true_iff (x y : FieldValue) : x.eq y = .ok true ↔ EqualValues x y := by
  rw [eq_eq']
  constructor
  · intro h
    cases x <;> cases y <;> simp [FieldValue.eq'] at h
    case byte.byte => subst h; constructor
    case char.char => subst h; constructor
    case int.int => subst h; constructor
    case long.long => subst h; constructor
    case short.short => subst h; constructor
    case string.string => subst h; constructor
    case none.none => constructor
    case double.double a b =>
      obtain ⟨h1, h2, h3⟩ := (fcmp_some a b _).1 ((feq_iff_fcmp a b).1 h)
      exact .double a b ((bnot_iff (isNaN_double a)).1 h1) ((bnot_iff (isNaN_double b)).1 h2) ((cmpInt_eq _ _).1 h3)
    case float.float a b =>
      obtain ⟨h1, h2, h3⟩ := (fcmp_some a b _).1 ((feq_iff_fcmp a b).1 h)
      exact .float a b ((bnot_iff (isNaN_float a)).1 h1) ((bnot_iff (isNaN_float b)).1 h2) ((cmpInt_eq _ _).1 h3)
  · intro h
    cases h with
    | double a b h1 h2 h3 =>
      simp only [FieldValue.eq', Res.ok.injEq]
      exact (feq_iff_fcmp a b).2 ((fcmp_some a b _).2 ⟨(bnot_iff (isNaN_double a)).2 h1, (bnot_iff (isNaN_double b)).2 h2, (cmpInt_eq _ _).2 h3⟩)
    | float a b h1 h2 h3 =>
      simp only [FieldValue.eq', Res.ok.injEq]
      exact (feq_iff_fcmp a b).2 ((fcmp_some a b _).2 ⟨(bnot_iff (isNaN_float a)).2 h1, (bnot_iff (isNaN_float b)).2 h2, (cmpInt_eq _ _).2 h3⟩)
    | _ => simp [FieldValue.eq']

theorem eq_panic_iff (x y : FieldValue) : x.eq y = .panic ↔ kindOf x = kindOf y ∧ ¬ Supported x := by
  rw [eq_eq']
  cases x <;> cases y <;> simp [FieldValue.eq', kindOf, Supported]

theorem eq_total (x y : FieldValue) : x.eq y = .ok true ∨ x.eq y = .ok false ∨ x.eq y = .panic := by
  rcases h : x.eq y with (_ | _) | _ | _ | _ <;> simp
  all_goals (rw [eq_eq'] at h; cases x <;> cases y <;> simp [FieldValue.eq'] at h)

theorem cmp_panic_iff (x y : FieldValue) : x.partialCmp y = .panic ↔ kindOf x ≠ kindOf y ∨ ¬ Supported x := by
  rw [cmp_eq']
  cases x <;> cases y <;> simp [FieldValue.partialCmp', kindOf, Supported]

theorem cmp_total (x y : FieldValue) : (∃ o, x.partialCmp y = .ok o) ∨ x.partialCmp y = .panic := by
  rw [cmp_eq']
  cases x <;> cases y <;> simp [FieldValue.partialCmp']

theorem cmp_eq_iff (x y : FieldValue) : x.partialCmp y = .ok (some .eq) ↔ EqualValues x y := by
  rw [← eq_true_iff, cmp_eq', eq_eq']
  cases x <;> cases y <;>
    simp [FieldValue.partialCmp', FieldValue.eq', cmpNat_eq, cmpInt_eq, feq_iff_fcmp, strCmp_eq, BitVec.toNat_inj, BitVec.toInt_inj]

theorem cmp_lt_iff (x y : FieldValue) : x.partialCmp y = .ok (some .lt) ↔ LessThan x y := by
  rw [cmp_eq']
  constructor
  · intro h
    cases x <;> cases y <;> simp [FieldValue.partialCmp', cmpNat_lt, cmpInt_lt, strCmp_lt, fcmp_some] at h
    case byte.byte => exact .byte h
    case char.char => exact .char h
    case int.int => exact .int h
    case long.long => exact .long h
    case short.short => exact .short h
    case string.string => exact .string h
    case double.double a b =>
      exact .double ((bnot_iff (isNaN_double a)).1 h.1) ((bnot_iff (isNaN_double b)).1 h.2.1) h.2.2
    case float.float a b =>
      exact .float ((bnot_iff (isNaN_float a)).1 h.1) ((bnot_iff (isNaN_float b)).1 h.2.1) h.2.2
  · intro h
    cases h with
    | @double a b h1 h2 h3 =>
      simp only [FieldValue.partialCmp', Res.ok.injEq, fcmp_some, cmpInt_lt]
      exact ⟨(bnot_iff (isNaN_double a)).2 h1, (bnot_iff (isNaN_double b)).2 h2, h3⟩
    | @float a b h1 h2 h3 =>
      simp only [FieldValue.partialCmp', Res.ok.injEq, fcmp_some, cmpInt_lt]
      exact ⟨(bnot_iff (isNaN_float a)).2 h1, (bnot_iff (isNaN_float b)).2 h2, h3⟩
    | string h => simpa [FieldValue.partialCmp', strCmp_lt] using h
    | _ h => simpa [FieldValue.partialCmp', cmpNat_lt, cmpInt_lt] using h

theorem cmp_swap (x y : FieldValue) (o : Option Ordering) (h : x.partialCmp y = .ok o) :
    y.partialCmp x = .ok (o.map Ordering.swap) := by
  rw [cmp_eq'] at h ⊢
  cases x <;> cases y <;> simp [FieldValue.partialCmp'] at h ⊢ <;> subst h <;>
    first
      | rfl
      | (simp only [Option.map_some, Option.some.injEq]; first | exact (cmpNat_swap _ _) | exact (cmpInt_swap _ _) | exact (strCmp_swap _ _))
      | exact fcmp_swap _ _

theorem cmp_gt_iff (x y : FieldValue) : x.partialCmp y = .ok (some .gt) ↔ LessThan y x := by
  rw [← cmp_lt_iff]
  constructor
  · intro h; simpa using cmp_swap _ _ _ h
  · intro h; simpa using cmp_swap _ _ _ h

end Chopper
