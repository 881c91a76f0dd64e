import Verif.Spec.Input
import Verif.Proofs.Reader
import Verif.Proofs.Dc2
import Verif.Proofs.Crc

namespace Chopper
open Spec

/-! ## Magic numbers -/

theorem and_mask (n : Nat) (h : n < 2 ^ 32) : n &&& 0xFFFFFF00 = n / 256 * 256 := by
  have e : (0xFFFFFF00 : Nat) = (2 ^ 24 - 1) <<< 8 := by decide
  rw [e, show n / 256 * 256 = (n >>> 8) <<< 8 by rw [Nat.shiftRight_eq_div_pow, Nat.shiftLeft_eq]]
  apply Nat.eq_of_testBit_eq
  intro i
  simp only [Nat.testBit_and, Nat.testBit_shiftLeft, Nat.testBit_two_pow_sub_one, Nat.testBit_shiftRight]
  by_cases h8 : 8 ≤ i
  · simp only [ge_iff_le, h8, decide_true, Bool.true_and]
    rw [show 8 + (i - 8) = i by omega]
    by_cases h32 : i < 32
    · simp [show i - 8 < 24 by omega]
    · rw [Nat.testBit_lt_two_pow (x := n) (i := i) (Nat.lt_of_lt_of_le h (Nat.pow_le_pow_right (by omega) (by omega)))]
      simp
  · simp [h8]

theorem readU4 (b0 b1 b2 b3 : Byte) (rest : List Byte) :
    readU 4 (ofBytes (b0 :: b1 :: b2 :: b3 :: rest)) =
      (.ok (((b0.toNat * 256 + b1.toNat) * 256 + b2.toNat) * 256 + b3.toNat), ofBytes rest) := by
  simp [readU, ofBytes, Rd.bind, readN, Rd.pure, beVal]

theorem readU4_short {buf : List Byte} (h : buf.length < 4) : ∃ e s, readU 4 (ofBytes buf) = (.err e, s) := by
  have : readN 4 (ofBytes buf) = (.err (.io .unexpectedEof), []) := by
    have := readN_eof buf (4 - buf.length - 1)
    rwa [show buf.length + (4 - buf.length - 1 + 1) = 4 by omega] at this
  exact ⟨_, _, by unfold readU; simp only [Rd.bind, this]; rfl⟩

theorem byte_eq {b : Byte} {n : Nat} (hn : n < 256) : b = BitVec.ofNat 8 n ↔ b.toNat = n := by
  constructor
  · rintro rfl; exact ofNat8 hn
  · exact byte_ofNat b

theorem nextIsLock_iff (rest : List Byte) : nextIsLock (ofBytes rest) = true ↔ [0x6C, 0x6F, 0x63, 0x6B] <+: rest := by
  match rest with
  | b0 :: b1 :: b2 :: b3 :: rest =>
    simp only [nextIsLock, readU4, beq_iff_eq]
    have h0 := b0.isLt; have h1 := b1.isLt; have h2 := b2.isLt; have h3 := b3.isLt
    simp only [List.cons_prefix_cons, List.nil_prefix, and_true]
    rw [eq_comm (a := (0x6C : Byte)), eq_comm (a := (0x6F : Byte)), eq_comm (a := (0x63 : Byte)), eq_comm (a := (0x6B : Byte))]
    show _ ↔ b0 = BitVec.ofNat 8 0x6C ∧ b1 = BitVec.ofNat 8 0x6F ∧ b2 = BitVec.ofNat 8 0x63 ∧ b3 = BitVec.ofNat 8 0x6B
    rw [byte_eq (by omega), byte_eq (by omega), byte_eq (by omega), byte_eq (by omega)]
    omega
  | [] => simp [nextIsLock, readU, Rd.bind, readN, ofBytes]
  | [a] => simp [nextIsLock, readU, Rd.bind, readN, ofBytes]
  | [a, b] => simp [nextIsLock, readU, Rd.bind, readN, ofBytes]
  | [a, b, c] => simp [nextIsLock, readU, Rd.bind, readN, ofBytes]

/-- The four bytes as numbers. -/
theorem magic4 {n0 n1 n2 n3 : Nat} (h0 : n0 < 256) (h1 : n1 < 256) (h2 : n2 < 256) (h3 : n3 < 256) (b0 b1 b2 b3 : Byte) (rest : List Byte) :
    [BitVec.ofNat 8 n0, BitVec.ofNat 8 n1, BitVec.ofNat 8 n2, BitVec.ofNat 8 n3] <+: b0 :: b1 :: b2 :: b3 :: rest ↔
      b0.toNat = n0 ∧ b1.toNat = n1 ∧ b2.toNat = n2 ∧ b3.toNat = n3 := by
  simp only [List.cons_prefix_cons, List.nil_prefix, and_true]
  rw [eq_comm (a := BitVec.ofNat 8 n0), eq_comm (a := BitVec.ofNat 8 n1), eq_comm (a := BitVec.ofNat 8 n2), eq_comm (a := BitVec.ofNat 8 n3),
    byte_eq h0, byte_eq h1, byte_eq h2, byte_eq h3]

theorem magic_iff (f : CompFormat) (b0 b1 b2 b3 : Byte) (rest : List Byte) :
    (∃ m, Magic f m ∧ m <+: b0 :: b1 :: b2 :: b3 :: rest) ↔
      match f with
      | .gz => b0.toNat = 0x1F ∧ b1.toNat = 0x8B ∧ b2.toNat = 8
      | .lz4 => (b0.toNat = 0x04 ∧ b1.toNat = 0x22 ∧ b2.toNat = 0x4D ∧ b3.toNat = 0x18) ∨
          ((b0.toNat = 0x4C ∧ b1.toNat = 0x5A ∧ b2.toNat = 0x34 ∧ b3.toNat = 0x42) ∧ [0x6C, 0x6F, 0x63, 0x6B] <+: rest)
      | .lzf => b0.toNat = 0x5A ∧ b1.toNat = 0x56 ∧ (b2.toNat = 0 ∨ b2.toNat = 1)
      | .zip => b0.toNat = 0x50 ∧ b1.toNat = 0x4B ∧ b2.toNat = 3 ∧ b3.toNat = 4
      | .zst => b0.toNat = 0x28 ∧ b1.toNat = 0xB5 ∧ b2.toNat = 0x2F ∧ b3.toNat = 0xFD := by
  have any : ∀ {n0 n1 n2 : Nat}, n0 < 256 → n1 < 256 → n2 < 256 →
      ((∃ x, [BitVec.ofNat 8 n0, BitVec.ofNat 8 n1, BitVec.ofNat 8 n2, x] <+: b0 :: b1 :: b2 :: b3 :: rest) ↔
        b0.toNat = n0 ∧ b1.toNat = n1 ∧ b2.toNat = n2) := by
    intro n0 n1 n2 h0 h1 h2
    simp only [List.cons_prefix_cons, List.nil_prefix, and_true]
    rw [← byte_eq h0, ← byte_eq h1, ← byte_eq h2]
    constructor
    · rintro ⟨x, rfl, rfl, rfl, _⟩; exact ⟨rfl, rfl, rfl⟩
    · rintro ⟨rfl, rfl, rfl⟩; exact ⟨b3, rfl, rfl, rfl, rfl⟩
  cases f with
  | gz =>
    rw [← any (by omega) (by omega) (by omega)]
    constructor
    · rintro ⟨m, hm, hp⟩; cases hm; exact ⟨_, hp⟩
    · rintro ⟨x, hx⟩; exact ⟨_, .gz x, hx⟩
  | zip =>
    show _ ↔ (b0.toNat = 0x50 ∧ b1.toNat = 0x4B ∧ b2.toNat = 3 ∧ b3.toNat = 4)
    rw [← magic4 (by omega) (by omega) (by omega) (by omega) b0 b1 b2 b3 rest]
    constructor
    · rintro ⟨m, hm, hp⟩; cases hm; exact hp
    · intro h; exact ⟨_, .zip, h⟩
  | zst =>
    show _ ↔ (b0.toNat = 0x28 ∧ b1.toNat = 0xB5 ∧ b2.toNat = 0x2F ∧ b3.toNat = 0xFD)
    rw [← magic4 (by omega) (by omega) (by omega) (by omega) b0 b1 b2 b3 rest]
    constructor
    · rintro ⟨m, hm, hp⟩; cases hm; exact hp
    · intro h; exact ⟨_, .zst, h⟩
  | lzf =>
    have a0 := any (n0 := 0x5A) (n1 := 0x56) (n2 := 0) (by omega) (by omega) (by omega)
    have a1 := any (n0 := 0x5A) (n1 := 0x56) (n2 := 1) (by omega) (by omega) (by omega)
    constructor
    · rintro ⟨m, hm, hp⟩
      cases hm with
      | lzf0 x => have := a0.1 ⟨x, hp⟩; exact ⟨this.1, this.2.1, .inl this.2.2⟩
      | lzf1 x => have := a1.1 ⟨x, hp⟩; exact ⟨this.1, this.2.1, .inr this.2.2⟩
    · rintro ⟨h0, h1, h2 | h2⟩
      · obtain ⟨x, hx⟩ := a0.2 ⟨h0, h1, h2⟩; exact ⟨_, .lzf0 x, hx⟩
      · obtain ⟨x, hx⟩ := a1.2 ⟨h0, h1, h2⟩; exact ⟨_, .lzf1 x, hx⟩
  | lz4 =>
    have a0 := magic4 (n0 := 0x04) (n1 := 0x22) (n2 := 0x4D) (n3 := 0x18) (by omega) (by omega) (by omega) (by omega) b0 b1 b2 b3 rest
    have a1 := magic4 (n0 := 0x4C) (n1 := 0x5A) (n2 := 0x34) (n3 := 0x42) (by omega) (by omega) (by omega) (by omega) b0 b1 b2 b3 rest
    have e : lz4BlockMagic <+: b0 :: b1 :: b2 :: b3 :: rest ↔
        [BitVec.ofNat 8 0x4C, BitVec.ofNat 8 0x5A, BitVec.ofNat 8 0x34, BitVec.ofNat 8 0x42] <+: b0 :: b1 :: b2 :: b3 :: rest ∧
          [0x6C, 0x6F, 0x63, 0x6B] <+: rest := by
      simp only [lz4BlockMagic, List.cons_prefix_cons, List.nil_prefix, and_true]
      constructor
      · rintro ⟨h0, h1, h2, h3, h4⟩; exact ⟨⟨h0, h1, h2, h3⟩, h4⟩
      · rintro ⟨⟨h0, h1, h2, h3⟩, h4⟩; exact ⟨h0, h1, h2, h3, h4⟩
    show _ ↔ _ ∨ _
    rw [← a0, ← a1, ← e]
    constructor
    · rintro ⟨m, hm, hp⟩
      cases hm with
      | lz4Frame => exact .inl hp
      | lz4Block => exact .inr hp
    · rintro (h | h)
      · exact ⟨_, .lz4Frame, h⟩
      · exact ⟨_, .lz4Block, h⟩

theorem magic_length {f : CompFormat} {m : List Byte} (h : Magic f m) : 4 ≤ m.length := by cases h <;> simp

theorem div_mul_256 (a b : Nat) (h : b < 256) : (a * 256 + b) / 256 * 256 = a * 256 := by omega

theorem compressionOfContent_iff (buf : List Byte) (f : CompFormat) :
    compressionOfContent buf = some f ↔ ∃ m, Magic f m ∧ m <+: buf := by
  by_cases hl : buf.length < 4
  · obtain ⟨e, s, h⟩ := readU4_short hl
    simp only [compressionOfContent, h]
    constructor
    · intro h; simp at h
    · rintro ⟨m, hm, hp⟩
      have := magic_length hm
      have := hp.length_le
      omega
  · match buf, hl with
    | [], h => simp at h
    | [_], h => simp at h
    | [_, _], h => simp at h
    | [_, _, _], h => simp at h
    | b0 :: b1 :: b2 :: b3 :: rest, _ =>
      rw [magic_iff]
      have h0 := b0.isLt; have h1 := b1.isLt; have h2 := b2.isLt; have h3 := b3.isLt
      simp only [compressionOfContent, readU4]
      generalize hhd : ((b0.toNat * 256 + b1.toNat) * 256 + b2.toNat) * 256 + b3.toNat = hd
      simp only [nextIsLock_iff]
      have hdiv : hd / 256 * 256 = ((b0.toNat * 256 + b1.toNat) * 256 + b2.toNat) * 256 := by
        rw [← hhd]; exact div_mul_256 _ _ h3
      have hmask := and_mask hd (by omega)
      rw [hdiv] at hmask
      rw [hmask]
      clear hmask
      split
      · rename_i c1
        cases f <;> simp <;> omega
      · rename_i c1
        split
        · rename_i c2
          cases f <;> simp <;> omega
        · rename_i c2
          split
          · rename_i c3
            obtain ⟨c3, c3'⟩ := c3
            cases f <;> simp <;> first | omega | exact .inr ⟨by omega, c3'⟩
          · rename_i c3
            have c3' : ¬ ((b0.toNat = 0x4C ∧ b1.toNat = 0x5A ∧ b2.toNat = 0x34 ∧ b3.toNat = 0x42) ∧ [0x6C, 0x6F, 0x63, 0x6B] <+: rest) := by
              rintro ⟨h, h'⟩
              exact c3 ⟨by omega, h'⟩
            split
            · rename_i c4
              cases f <;> simp only [Option.some.injEq, reduceCtorEq, false_iff, true_iff] <;> first | omega | (rintro (h | h); omega; exact c3' h)
            · rename_i c4
              split
              · rename_i c5
                cases f <;> simp only [Option.some.injEq, reduceCtorEq, false_iff, true_iff] <;> first | omega | (rintro (h | h); omega; exact c3' h)
              · rename_i c5
                split
                · rename_i c6
                  cases f <;> simp only [Option.some.injEq, reduceCtorEq, false_iff, true_iff] <;> first | omega | (rintro (h | h); omega; exact c3' h)
                · rename_i c6
                  cases f <;> simp only [reduceCtorEq, false_iff] <;> first | omega | (rintro (h | h); omega; exact c3' h)

theorem contentIs_iff (buf : List Byte) (c : Option CompFormat) : ContentIs buf c ↔ compressionOfContent buf = c := by
  cases c with
  | some f => exact (compressionOfContent_iff buf f).symm
  | none =>
    simp only [ContentIs]
    constructor
    · intro h
      cases hc : compressionOfContent buf with
      | none => rfl
      | some f =>
        obtain ⟨m, hm, hp⟩ := (compressionOfContent_iff buf f).1 hc
        exact absurd hp (h f m hm)
    · intro h f m hm hp
      have := (compressionOfContent_iff buf f).2 ⟨m, hm, hp⟩
      rw [h] at this; simp at this

/-! ## Names -/

theorem endsWith_iff (s suf : Str) : endsWith s suf = true ↔ ∃ b, s = b ++ suf := by
  unfold endsWith
  rw [List.isSuffixOf_iff_suffix]
  constructor
  · rintro ⟨b, h⟩; exact ⟨b, h.symm⟩
  · rintro ⟨b, h⟩; exact ⟨b, h.symm⟩

theorem cutSuffix_append (b suf : Str) : cutSuffix (b ++ suf) suf = b := by
  unfold cutSuffix
  rw [show (b ++ suf).length - suf.length = b.length by simp]
  exact List.take_left

/-- The last character of the extension. -/
def extLast : CompFormat → Char
  | .gz => 'z'
  | .lz4 => '4'
  | .lzf => 'f'
  | .zip => 'p'
  | .zst => 't'

theorem ext_last (b : Str) (f : CompFormat) : (b ++ (extension f).toList).getLast? = some (extLast f) := by
  cases f <;> simp [extension, extLast, List.getLast?_append]

theorem ext_unique {b b' : Str} {f f' : CompFormat} (h : b ++ (extension f).toList = b' ++ (extension f').toList) : f = f' ∧ b = b' := by
  have hl := congrArg List.getLast? h
  rw [ext_last, ext_last] at hl
  have hf : f = f' := by
    revert hl
    cases f <;> cases f' <;> simp [extLast]
  subst hf
  exact ⟨rfl, List.append_cancel_right h⟩

theorem compressionOfName_iff (name : Str) (f : CompFormat) (base : Str) :
    compressionOfName name = some (f, base) ↔ name = base ++ (extension f).toList := by
  have step : ∀ (g : CompFormat) (rest : Option (CompFormat × Str)),
      ((∀ b, name ≠ b ++ (extension g).toList) → (rest = some (f, base) ↔ name = base ++ (extension f).toList)) →
      ((if endsWith name (extension g).toList then some (g, cutSuffix name (extension g).toList) else rest) = some (f, base) ↔
        name = base ++ (extension f).toList) := by
    intro g rest hr
    by_cases he : endsWith name (extension g).toList = true
    · rw [if_pos he]
      obtain ⟨b, hb⟩ := (endsWith_iff _ _).1 he
      subst hb
      rw [cutSuffix_append]
      simp only [Option.some.injEq, Prod.mk.injEq]
      constructor
      · rintro ⟨rfl, rfl⟩; rfl
      · intro h; exact ext_unique h
    · rw [if_neg he]
      exact hr fun b hb => he ((endsWith_iff _ _).2 ⟨b, hb⟩)
  show (if endsWith name (extension .gz).toList then some (.gz, cutSuffix name (extension .gz).toList)
    else if endsWith name (extension .lz4).toList then some (.lz4, cutSuffix name (extension .lz4).toList)
    else if endsWith name (extension .lzf).toList then some (.lzf, cutSuffix name (extension .lzf).toList)
    else if endsWith name (extension .zip).toList then some (.zip, cutSuffix name (extension .zip).toList)
    else if endsWith name (extension .zst).toList then some (.zst, cutSuffix name (extension .zst).toList)
    else none) = some (f, base) ↔ _
  refine step _ _ fun n1 => step _ _ fun n2 => step _ _ fun n3 => step _ _ fun n4 => step _ _ fun n5 => ?_
  simp only [reduceCtorEq, false_iff]
  cases f
  · exact n1 base
  · exact n2 base
  · exact n3 base
  · exact n4 base
  · exact n5 base

theorem compressionOfName_none (name : Str) : compressionOfName name = none ↔ ∀ f b, name ≠ b ++ (extension f).toList := by
  constructor
  · intro h f b hb
    rw [(compressionOfName_iff name f b).2 hb] at h; simp at h
  · intro h
    cases hc : compressionOfName name with
    | none => rfl
    | some x => exact absurd ((compressionOfName_iff name x.1 x.2).1 hc) (h _ _)

theorem nameSplits_iff (name : Str) (c : Option CompFormat) (base : Str) :
    NameSplits name c base ↔ compressionOfName name = c.map (fun f => (f, base)) ∧ (c = none → base = name) := by
  cases c with
  | some f => simp [NameSplits, compressionOfName_iff]
  | none =>
    simp only [NameSplits, Option.map_none, compressionOfName_none]
    constructor
    · rintro ⟨h1, h2⟩; exact ⟨h2, fun _ => h1⟩
    · rintro ⟨h1, h2⟩; exact ⟨h2 trivial, h1⟩

/-! ## Factories -/

variable {α : Type}

theorem firstOf_cases (fs : List (Factory α)) (test : Factory α → Bool) : (∃ f, FirstOf fs test f) ∨ ∀ f ∈ fs, test f = false := by
  induction fs with
  | nil => right; simp
  | cons g fs ih =>
    cases hg : test g with
    | true => left; exact ⟨g, [], fs, rfl, hg, by simp⟩
    | false =>
      rcases ih with ⟨f, b, a, h1, h2, h3⟩ | h
      · left
        refine ⟨f, g :: b, a, by simp [h1], h2, ?_⟩
        intro x hx
        rcases List.mem_cons.1 hx with rfl | hx
        · exact hg
        · exact h3 x hx
      · right
        intro x hx
        rcases List.mem_cons.1 hx with rfl | hx
        · exact hg
        · exact h x hx

theorem firstOf_cons {fs : List (Factory α)} {test : Factory α → Bool} {g f : Factory α} (h : FirstOf (g :: fs) test f) :
    (test g = true ∧ f = g) ∨ (test g = false ∧ FirstOf fs test f) := by
  obtain ⟨b, a, h1, h2, h3⟩ := h
  cases b with
  | nil => simp at h1; left; rw [h1.1]; exact ⟨h2, rfl⟩
  | cons x b =>
    simp at h1
    right
    refine ⟨by rw [h1.1]; exact h3 x (by simp), b, a, h1.2, h2, fun y hy => h3 y (by simp [hy])⟩

theorem createByName_first {fs : List (Factory α)} {p : Previewer} {format : Str} {o : Res α} {f : Factory α} (h : FirstOf fs (·.canFormat format) f) :
    createByName p format o fs = f.create p := by
  induction fs with
  | nil => obtain ⟨b, a, h, _⟩ := h; simp at h
  | cons g fs ih =>
    rcases firstOf_cons h with ⟨h1, rfl⟩ | ⟨h1, h2⟩
    · simp [createByName, h1]
    · simp [createByName, h1, ih h2]

theorem createByName_none {fs : List (Factory α)} {p : Previewer} {format : Str} {o : Res α} (h : ∀ f ∈ fs, f.canFormat format = false) :
    createByName p format o fs = o := by
  induction fs with
  | nil => rfl
  | cons g fs ih => simp [createByName, h g (by simp), ih fun f hf => h f (by simp [hf])]

theorem createFromFormat_eq (fs : List (Factory α)) (p : Previewer) (format : Str) :
    createFromFormat p format fs = createByName p format (.err (.custom "Cannot find source factory for file format")) fs := by
  induction fs with
  | nil => rfl
  | cons g fs ih => simp [createByName, createFromFormat, ih]

theorem createFromContent_first {fs : List (Factory α)} {p : Previewer} {f : Factory α} (h : FirstOf fs (·.canPreview p) f) :
    createFromContent p fs = f.create p := by
  induction fs with
  | nil => obtain ⟨b, a, h, _⟩ := h; simp at h
  | cons g fs ih =>
    rcases firstOf_cons h with ⟨h1, rfl⟩ | ⟨h1, h2⟩
    · simp [createFromContent, h1]
    · simp [createFromContent, h1, ih h2]

theorem createFromContent_none {fs : List (Factory α)} {p : Previewer} (h : ∀ f ∈ fs, f.canPreview p = false) :
    IsCustomError (createFromContent p fs) := by
  induction fs with
  | nil => exact ⟨_, rfl⟩
  | cons g fs ih =>
    simp [createFromContent, h g (by simp)]
    exact ih fun f hf => h f (by simp [hf])

/-! ## Decoding -/

theorem decompressPreview_eq (dec : Decoders) (f : CompFormat) (p : Previewer) : decompressPreview dec f p = decoded dec (some f) p := by
  cases f with
  | lz4 =>
    simp only [decompressPreview, decompressReader, decompressLz4, decoded]
    have : (8 ≤ p.trimmed.length ∧ p.trimmed.take 8 = lz4BlockMagic) ↔ lz4BlockMagic <+: p.trimmed := by
      constructor
      · rintro ⟨_, h⟩; rw [← h]; exact List.take_prefix 8 _
      · intro h
        have hl := h.length_le
        refine ⟨hl, ?_⟩
        obtain ⟨t, ht⟩ := h
        rw [← ht]
        show (lz4BlockMagic ++ t).take lz4BlockMagic.length = _
        exact List.take_left
    have hm : lz4BlockMagic = [0x4C, 0x5A, 0x34, 0x42, 0x6C, 0x6F, 0x63, 0x6B] := rfl
    rw [← hm]
    by_cases h : lz4BlockMagic <+: p.trimmed
    · rw [if_pos (this.2 h), if_pos h, Res.bind_ok]
    · rw [if_neg (fun x => h (this.1 x)), if_neg h]
      cases dec.lz4Frame p.reader <;> simp only [Res.okOr, Res.bind_ok, Res.bind_err]
  | zst =>
    simp only [decompressPreview, decompressReader, decoded]
    cases dec.zst p.reader <;> simp only [Res.okOr, Res.bind_ok, Res.bind_err]
  | gz => simp only [decompressPreview, decompressReader, decoded, Res.bind_ok]
  | lzf => simp only [decompressPreview, decompressReader, decoded, Res.bind_ok]
  | zip => simp only [decompressPreview, decompressReader, decoded, Res.bind_err]

theorem decompressByContent_eq (dec : Decoders) (p : Previewer) : decompressByContent dec p = decoded dec (compressionOfContent p.trimmed) p := by
  unfold decompressByContent
  cases compressionOfContent p.trimmed with
  | none => rfl
  | some f => exact decompressPreview_eq dec f p

theorem decompressByName_eq {dec : Decoders} {p : Previewer} {name : Str} {c : Option CompFormat} {base : Str} (h : NameSplits name c base) :
    decompressByName dec p name = (decoded dec c p).bind fun p' => .ok (c.isSome, p', base) := by
  obtain ⟨h1, h2⟩ := (nameSplits_iff _ _ _).1 h
  unfold decompressByName
  rw [h1]
  cases c with
  | none => simp [decoded, h2 rfl]
  | some f => simp [decompressPreview_eq]

end Chopper
