import Verif.Model.Utf8

namespace Chopper

theorem char_valid (c : Char) : c.toNat.isValidChar := by
  exact c.valid

theorem char_lt (c : Char) : c.toNat < 0x110000 := by
  rcases char_valid c with h | h <;> omega

theorem char_notSurr (c : Char) : c.toNat < 0xD800 ∨ 0xE000 ≤ c.toNat := by
  rcases char_valid c with h | h <;> omega

theorem mkChar_toNat {lo : Nat} (c : Char) (h : lo ≤ c.toNat) : mkChar lo c.toNat = some c := by
  unfold mkChar
  rw [dif_pos ⟨h, char_valid c⟩]
  congr 1
  apply Char.ext
  apply UInt32.toNat_inj.1
  have := char_lt c
  simp; omega

theorem mkChar_some {lo n : Nat} {c : Char} (h : mkChar lo n = some c) : c.toNat = n ∧ lo ≤ n := by
  unfold mkChar at h
  split at h
  · rename_i hh
    simp only [Option.some.injEq] at h
    subst h
    refine ⟨?_, hh.1⟩
    have : n < 4294967296 := by rcases hh.2 with h | h <;> omega
    simp [Char.toNat, Nat.mod_eq_of_lt this]
  · simp at h

theorem ofNat8 {n : Nat} (h : n < 256) : (BitVec.ofNat 8 n).toNat = n := by
  simp; omega

theorem contByte_mk {n : Nat} (h : n < 64) : contByte (BitVec.ofNat 8 (0x80 + n)) = some n := by
  unfold contByte
  rw [ofNat8 (by omega), if_pos (by omega)]
  simp

theorem contByte_some {b : Byte} {n : Nat} (h : contByte b = some n) : n < 64 ∧ b = BitVec.ofNat 8 (0x80 + n) := by
  unfold contByte at h
  split at h
  · simp at h; subst h
    refine ⟨by omega, ?_⟩
    apply BitVec.eq_of_toNat_eq
    rw [ofNat8 (by omega)]; omega
  · simp at h

/-- Decoding the first scalar value of an encoding gives it back. -/
theorem decodeOne_encode (c : Char) (rest : List Byte) : decodeOne (encodeChar c ++ rest) = some (c, rest) := by
  have hlt := char_lt c
  unfold encodeChar
  simp only
  split
  · rename_i h1
    simp only [List.cons_append, List.nil_append, decodeOne]
    rw [ofNat8 (by omega), if_pos h1, mkChar_toNat c (by omega)]
    rfl
  · rename_i h1
    split
    · rename_i h2
      simp only [List.cons_append, List.nil_append, decodeOne]
      rw [ofNat8 (by omega), if_neg (by omega), if_neg (by omega), if_pos (by omega), contByte_mk (by omega)]
      have : (0xC0 + c.toNat / 64 - 0xC0) * 64 + c.toNat % 64 = c.toNat := by omega
      simp only [Option.bind_eq_bind, Option.bind_some, this]
      rw [mkChar_toNat c (by omega)]; rfl
    · rename_i h2
      split
      · rename_i h3
        simp only [List.cons_append, List.nil_append, decodeOne]
        rw [ofNat8 (by omega), if_neg (by omega), if_neg (by omega), if_neg (by omega), if_pos (by omega), contByte_mk (by omega),
          contByte_mk (by omega)]
        have : (0xE0 + c.toNat / 4096 - 0xE0) * 4096 + c.toNat / 64 % 64 * 64 + c.toNat % 64 = c.toNat := by omega
        simp only [Option.bind_eq_bind, Option.bind_some, this]
        rw [mkChar_toNat c (by omega)]; rfl
      · rename_i h3
        simp only [List.cons_append, List.nil_append, decodeOne]
        rw [ofNat8 (by omega), if_neg (by omega), if_neg (by omega), if_neg (by omega), if_neg (by omega), if_pos (by omega),
          contByte_mk (by omega), contByte_mk (by omega), contByte_mk (by omega)]
        have : (0xF0 + c.toNat / 262144 - 0xF0) * 262144 + c.toNat / 4096 % 64 * 4096 + c.toNat / 64 % 64 * 64 + c.toNat % 64 = c.toNat := by
          omega
        simp only [Option.bind_eq_bind, Option.bind_some, this]
        rw [mkChar_toNat c (by omega)]; rfl

theorem byte_ofNat (b : Byte) {n : Nat} (h : b.toNat = n) : b = BitVec.ofNat 8 n := by
  subst h; simp

/-- Only encodings decode. -/
theorem decodeOne_some {bs rest : List Byte} {c : Char} (h : decodeOne bs = some (c, rest)) : bs = encodeChar c ++ rest := by
  cases bs with
  | nil => simp [decodeOne] at h
  | cons b0 bs =>
    have hb0 : b0.toNat < 256 := b0.isLt
    simp only [decodeOne] at h
    split at h
    · rename_i h1
      simp only [Option.map_eq_some_iff, Prod.mk.injEq] at h
      obtain ⟨c', hc, rfl, rfl⟩ := h
      obtain ⟨h2, _⟩ := mkChar_some hc
      unfold encodeChar
      simp only [h2, h1, if_true]
      simp
    · split at h
      · simp at h
      · split at h
        · match bs, h with
          | b1 :: bs, h =>
            simp only [Option.bind_eq_bind, Option.bind_eq_some_iff] at h
            obtain ⟨x1, hx1, c', hc, h⟩ := h
            simp at h; obtain ⟨rfl, rfl⟩ := h
            obtain ⟨l1, rfl⟩ := contByte_some hx1
            obtain ⟨h2, h3⟩ := mkChar_some hc
            unfold encodeChar
            simp only [h2]
            rw [if_neg (by omega), if_pos (by omega)]
            have e0 : b0 = BitVec.ofNat 8 (0xC0 + ((b0.toNat - 0xC0) * 64 + x1) / 64) := byte_ofNat b0 (by omega)
            have e1 : ((b0.toNat - 0xC0) * 64 + x1) % 64 = x1 := by omega
            rw [← e0, e1]; rfl
          | [], h => simp at h
        · split at h
          · match bs, h with
            | b1 :: b2 :: bs, h =>
              simp only [Option.bind_eq_bind, Option.bind_eq_some_iff] at h
              obtain ⟨x1, hx1, x2, hx2, c', hc, h⟩ := h
              simp at h; obtain ⟨rfl, rfl⟩ := h
              obtain ⟨l1, rfl⟩ := contByte_some hx1
              obtain ⟨l2, rfl⟩ := contByte_some hx2
              obtain ⟨h2, h3⟩ := mkChar_some hc
              unfold encodeChar
              simp only [h2]
              rw [if_neg (by omega), if_neg (by omega), if_pos (by omega)]
              have e0 : b0 = BitVec.ofNat 8 (0xE0 + ((b0.toNat - 0xE0) * 4096 + x1 * 64 + x2) / 4096) := byte_ofNat b0 (by omega)
              have e1 : ((b0.toNat - 0xE0) * 4096 + x1 * 64 + x2) / 64 % 64 = x1 := by omega
              have e2 : ((b0.toNat - 0xE0) * 4096 + x1 * 64 + x2) % 64 = x2 := by omega
              rw [← e0, e1, e2]; rfl
            | [b1], h => simp at h
            | [], h => simp at h
          · split at h
            · match bs, h with
              | b1 :: b2 :: b3 :: bs, h =>
                simp only [Option.bind_eq_bind, Option.bind_eq_some_iff] at h
                obtain ⟨x1, hx1, x2, hx2, x3, hx3, c', hc, h⟩ := h
                simp at h; obtain ⟨rfl, rfl⟩ := h
                obtain ⟨l1, rfl⟩ := contByte_some hx1
                obtain ⟨l2, rfl⟩ := contByte_some hx2
                obtain ⟨l3, rfl⟩ := contByte_some hx3
                obtain ⟨h2, h3⟩ := mkChar_some hc
                unfold encodeChar
                simp only [h2]
                rw [if_neg (by omega), if_neg (by omega), if_neg (by omega)]
                have e0 : b0 = BitVec.ofNat 8 (0xF0 + ((b0.toNat - 0xF0) * 262144 + x1 * 4096 + x2 * 64 + x3) / 262144) :=
                  byte_ofNat b0 (by omega)
                have e1 : ((b0.toNat - 0xF0) * 262144 + x1 * 4096 + x2 * 64 + x3) / 4096 % 64 = x1 := by omega
                have e2 : ((b0.toNat - 0xF0) * 262144 + x1 * 4096 + x2 * 64 + x3) / 64 % 64 = x2 := by omega
                have e3 : ((b0.toNat - 0xF0) * 262144 + x1 * 4096 + x2 * 64 + x3) % 64 = x3 := by omega
                rw [← e0, e1, e2, e3]; rfl
              | [b1, b2], h => simp at h
              | [b1], h => simp at h
              | [], h => simp at h
            · simp at h

theorem encodeChar_ne (c : Char) : encodeChar c ≠ [] := by
  unfold encodeChar; simp only; split
  · simp
  · split
    · simp
    · split <;> simp

theorem encodeChar_len (c : Char) : 1 ≤ (encodeChar c).length := by
  have := encodeChar_ne c
  cases h : encodeChar c with
  | nil => exact absurd h this
  | cons a as => simp

theorem utf8DecodeAux_encode : ∀ (s : Str) (n : Nat), (utf8Encode s).length ≤ n → utf8DecodeAux n (utf8Encode s) = some s := by
  intro s
  induction s with
  | nil => intro n _; cases n <;> rfl
  | cons c s ih =>
    intro n hn
    have hl := encodeChar_len c
    have e : utf8Encode (c :: s) = encodeChar c ++ utf8Encode s := by simp [utf8Encode]
    rw [e] at hn ⊢
    rw [List.length_append] at hn
    cases n with
    | zero => omega
    | succ n =>
      cases hh : encodeChar c ++ utf8Encode s with
      | nil => simp [encodeChar_ne] at hh
      | cons b bs =>
        simp only [utf8DecodeAux]
        rw [← hh, decodeOne_encode]
        simp only
        rw [ih n (by omega)]; rfl

theorem utf8Decode_encode (s : Str) : utf8Decode (utf8Encode s) = some s :=
  utf8DecodeAux_encode s _ (Nat.le_refl _)

theorem utf8DecodeAux_some : ∀ (n : Nat) (bs : List Byte) (s : Str), utf8DecodeAux n bs = some s → bs = utf8Encode s := by
  intro n
  induction n with
  | zero =>
    intro bs s h
    cases bs with
    | nil => simp [utf8DecodeAux] at h; subst h; rfl
    | cons b bs => simp [utf8DecodeAux] at h
  | succ n ih =>
    intro bs s h
    cases bs with
    | nil => simp [utf8DecodeAux] at h; subst h; rfl
    | cons b bs =>
      simp only [utf8DecodeAux] at h
      cases hd : decodeOne (b :: bs) with
      | none => simp [hd] at h
      | some p =>
        obtain ⟨c, rest⟩ := p
        simp only [hd, Option.map_eq_some_iff] at h
        obtain ⟨s', hs, rfl⟩ := h
        rw [decodeOne_some hd, ih _ _ hs]
        simp [utf8Encode]

/-- `utf8Decode` accepts exactly the encodings, and inverts encoding. -/
theorem utf8Decode_iff {bs : List Byte} {s : Str} : utf8Decode bs = some s ↔ bs = utf8Encode s :=
  ⟨utf8DecodeAux_some _ _ _, fun h => by rw [h]; exact utf8Decode_encode s⟩

theorem utf8Encode_append (a b : Str) : utf8Encode (a ++ b) = utf8Encode a ++ utf8Encode b := by simp [utf8Encode]

theorem utf8Encode_inj {a b : Str} (h : utf8Encode a = utf8Encode b) : a = b := by
  have := utf8Decode_encode a
  rw [h, utf8Decode_encode] at this
  simpa using this.symm

/-! ## Byte order is code point order -/

theorem bytesCmp_append (p a b : List Byte) : bytesCmp (p ++ a) (p ++ b) = bytesCmp a b := by
  induction p with
  | nil => rfl
  | cons x p ih => simp [bytesCmp, ih]

theorem bytesCmp_cons (a b : Nat) (ha : a < 256) (hb : b < 256) (as bs : List Byte) :
    bytesCmp (BitVec.ofNat 8 a :: as) (BitVec.ofNat 8 b :: bs) =
      if a < b then .lt else if a = b then bytesCmp as bs else .gt := by
  simp only [bytesCmp, ofNat8 ha, ofNat8 hb]
  by_cases h1 : a < b
  · rw [if_pos h1, Nat.compare_eq_lt.2 h1]
  · by_cases h2 : a = b
    · subst h2; simp
    · rw [if_neg h1, if_neg h2, Nat.compare_eq_gt.2 (by omega)]

theorem encodeChar_lt {a b : Char} (h : a.toNat < b.toNat) (as bs : List Byte) :
    bytesCmp (encodeChar a ++ as) (encodeChar b ++ bs) = .lt := by
  have ha := char_lt a
  have hb := char_lt b
  unfold encodeChar
  simp only
  generalize a.toNat = m at *
  generalize b.toNat = n at *
  split <;> rename_i h1
  · split <;> rename_i h1'
    · simp only [List.cons_append, List.nil_append]
      rw [bytesCmp_cons _ _ (by omega) (by omega), if_pos h]
    · split
      · simp only [List.cons_append, List.nil_append]
        rw [bytesCmp_cons _ _ (by omega) (by omega), if_pos (by omega)]
      · split
        · simp only [List.cons_append, List.nil_append]
          rw [bytesCmp_cons _ _ (by omega) (by omega), if_pos (by omega)]
        · simp only [List.cons_append, List.nil_append]
          rw [bytesCmp_cons _ _ (by omega) (by omega), if_pos (by omega)]
  · rw [if_neg (by omega : ¬ n < 0x80)]
    split <;> rename_i h2
    · split <;> rename_i h2'
      · simp only [List.cons_append, List.nil_append]
        rw [bytesCmp_cons _ _ (by omega) (by omega)]
        split
        · rfl
        · rw [if_pos (by omega), bytesCmp_cons _ _ (by omega) (by omega), if_pos (by omega)]
      · split
        · simp only [List.cons_append, List.nil_append]
          rw [bytesCmp_cons _ _ (by omega) (by omega), if_pos (by omega)]
        · simp only [List.cons_append, List.nil_append]
          rw [bytesCmp_cons _ _ (by omega) (by omega), if_pos (by omega)]
    · rw [if_neg (by omega : ¬ n < 0x800)]
      split <;> rename_i h3
      · split <;> rename_i h3'
        · simp only [List.cons_append, List.nil_append]
          rw [bytesCmp_cons _ _ (by omega) (by omega)]
          split
          · rfl
          · rw [if_pos (by omega), bytesCmp_cons _ _ (by omega) (by omega)]
            split
            · rfl
            · rw [if_pos (by omega), bytesCmp_cons _ _ (by omega) (by omega), if_pos (by omega)]
        · simp only [List.cons_append, List.nil_append]
          rw [bytesCmp_cons _ _ (by omega) (by omega), if_pos (by omega)]
      · rw [if_neg (by omega : ¬ n < 0x10000)]
        simp only [List.cons_append, List.nil_append]
        rw [bytesCmp_cons _ _ (by omega) (by omega)]
        split
        · rfl
        · rw [if_pos (by omega), bytesCmp_cons _ _ (by omega) (by omega)]
          split
          · rfl
          · rw [if_pos (by omega), bytesCmp_cons _ _ (by omega) (by omega)]
            split
            · rfl
            · rw [if_pos (by omega), bytesCmp_cons _ _ (by omega) (by omega), if_pos (by omega)]

theorem bytesCmp_swap : ∀ a b, bytesCmp b a = (bytesCmp a b).swap
  | [], [] => rfl
  | [], _ :: _ => rfl
  | _ :: _, [] => rfl
  | a :: as, b :: bs => by
    simp only [bytesCmp]
    rw [← Nat.compare_swap a.toNat b.toNat]
    cases compare a.toNat b.toNat with
    | eq => exact bytesCmp_swap as bs
    | lt => rfl
    | gt => rfl

/-- Comparing the UTF-8 bytes (what `str::cmp` does) is comparing the scalar values. -/
theorem bytesCmp_utf8 : ∀ a b : Str, bytesCmp (utf8Encode a) (utf8Encode b) = strCmp a b
  | [], [] => rfl
  | [], b :: bs => by
    have e : utf8Encode (b :: bs) = encodeChar b ++ utf8Encode bs := by simp [utf8Encode]
    cases h : encodeChar b with
    | nil => exact absurd h (encodeChar_ne b)
    | cons x xs => rw [e, h]; rfl
  | b :: bs, [] => by
    have e : utf8Encode (b :: bs) = encodeChar b ++ utf8Encode bs := by simp [utf8Encode]
    cases h : encodeChar b with
    | nil => exact absurd h (encodeChar_ne b)
    | cons x xs => rw [e, h]; rfl
  | a :: as, b :: bs => by
    have ea : utf8Encode (a :: as) = encodeChar a ++ utf8Encode as := by simp [utf8Encode]
    have eb : utf8Encode (b :: bs) = encodeChar b ++ utf8Encode bs := by simp [utf8Encode]
    rw [ea, eb]
    simp only [strCmp]
    rcases Nat.lt_trichotomy a.toNat b.toNat with h | h | h
    · rw [Nat.compare_eq_lt.2 h, encodeChar_lt h]
    · have : a = b := by
        apply Char.ext; apply UInt32.toNat_inj.1; exact h
      subst this
      simp only [Nat.compare_eq_eq.2 rfl]
      rw [bytesCmp_append]; exact bytesCmp_utf8 as bs
    · rw [Nat.compare_eq_gt.2 h, bytesCmp_swap, encodeChar_lt h]; rfl

end Chopper
