import Verif.Proofs.CsvUtil

/-!
# Properties of CSV guessing: C05, C06, C07, C08
-/
namespace Chopper.Props
open Chopper Spec

/-! ### C05: the delimiter -/

/-- The full property C05: the guessed delimiter is a candidate with the most occurrences in the row, the first listed one among equally
frequent ones. -/
def C05_full : Prop := ∀ (row : Str) (cands : List Byte), cands ≠ [] →
  ∃ (d : Byte) (i : Nat), guessDelimiter row cands = .ok d ∧ cands[i]? = some d ∧
    ∀ (j : Nat) (e : Byte), cands[j]? = some e → occurrences e row ≤ occurrences d row ∧ (occurrences e row = occurrences d row → i ≤ j)

/-- **C05, partial.** What `C05_full` says, for rows of characters below 256.  Missing: rows with other characters, for which the
property is false, see `C05_counterexample`. -/
theorem C05_most_frequent_partial (row : Str) (cands : List Byte) (hne : cands ≠ []) (hrow : ∀ c ∈ row, c.toNat < 256) :
    ∃ (d : Byte) (i : Nat), guessDelimiter row cands = .ok d ∧ cands[i]? = some d ∧
      ∀ (j : Nat) (e : Byte), cands[j]? = some e → occurrences e row ≤ occurrences d row ∧ (occurrences e row = occurrences d row → i ≤ j) := by
  obtain ⟨d, i, h1, h2, h3⟩ := sort_head (countAsU8 row) cands hne
  refine ⟨d, i, ?_, h2, ?_⟩
  · unfold guessDelimiter
    rw [if_neg (by simpa using hne), h1]; rfl
  · intro j e he
    have := h3 j e he
    rwa [count_latin hrow, count_latin hrow] at this

/-- **C05 (for every row).** Whatever characters the row has, the answer is the leftmost candidate that is most frequent when every
character is counted as its low 8 bits; the only panic is the empty candidate list. -/
theorem C05_always_a_candidate (row : Str) (cands : List Byte) :
    (guessDelimiter row cands = .panic ↔ cands = []) ∧
    (cands ≠ [] → ∃ (d : Byte) (i : Nat), guessDelimiter row cands = .ok d ∧ cands[i]? = some d ∧
      ∀ (j : Nat) (e : Byte), cands[j]? = some e →
        let low := fun (b : Byte) => (row.filter (fun c => c.toNat % 256 = b.toNat)).length
        low e ≤ low d ∧ (low e = low d → i ≤ j)) := by
  have hmain : cands ≠ [] → ∃ (d : Byte) (i : Nat), guessDelimiter row cands = .ok d ∧ cands[i]? = some d ∧
      ∀ (j : Nat) (e : Byte), cands[j]? = some e →
        let low := fun (b : Byte) => (row.filter (fun c => c.toNat % 256 = b.toNat)).length
        low e ≤ low d ∧ (low e = low d → i ≤ j) := by
    intro hne
    obtain ⟨d, i, h1, h2, h3⟩ := sort_head (countAsU8 row) cands hne
    refine ⟨d, i, ?_, h2, ?_⟩
    · unfold guessDelimiter
      rw [if_neg (by simpa using hne), h1]; rfl
    · intro j e he
      have hl : ∀ b : Byte, (row.filter (fun c => c.toNat % 256 = b.toNat)).length = countAsU8 row b := by
        intro b
        unfold countAsU8
        rw [List.countP_eq_length_filter]
        congr 1
        apply List.filter_congr
        intro c _
        rw [Bool.eq_iff_iff, decide_eq_true_iff, beq_iff_eq, ← BitVec.toNat_inj, BitVec.toNat_ofNat]
      simp only [hl]
      exact h3 j e he
  refine ⟨?_, hmain⟩
  constructor
  · intro h
    by_cases hne : cands = []
    · exact hne
    · obtain ⟨d, i, h1, _⟩ := hmain hne
      rw [h1] at h; simp at h
  · rintro rfl; rfl

/-- **C05 is false of the code**: characters are truncated to 8 bits before counting, so `Ĭ` (U+012C) counts as a comma. -/
theorem C05_counterexample : ¬ C05_full := by
  intro h
  obtain ⟨d, i, h1, h2, h3⟩ := h ['Ĭ', 'Ĭ', ';'] [44, 59] (by simp)
  have hd : guessDelimiter ['Ĭ', 'Ĭ', ';'] [44, 59] = .ok 44 := by decide +kernel
  rw [hd] at h1
  cases h1
  exact absurd (h3 1 59 rfl).1 (by decide +kernel)

example : guessDelimiter "a;b;c,d".toList [44, 59] = .ok 59 := by decide +kernel
example : guessDelimiter "a;b,c|d".toList [44, 59, 124] = .ok 44 := by decide +kernel

/-! ### C06: the common type -/

/-- **C06.** The common type is String when there is no type or one that only converts to text, otherwise Double when there is a floating
point type, otherwise Long. -/
theorem C06_join (types : List FieldType) :
    guessCommonType types =
      if types = [] ∨ .string ∈ types ∨ .boolean ∈ types ∨ .byteBuf ∈ types then .string
      else if .float ∈ types ∨ .double ∈ types then .double
      else .long := by
  have hs : (∃ t ∈ types, typeUpconvert t = .string) ↔ (.string ∈ types ∨ .boolean ∈ types ∨ .byteBuf ∈ types) := by
    constructor
    · rintro ⟨t, ht, h⟩
      cases t <;> simp [typeUpconvert] at h
      · exact .inr (.inl ht)
      · exact .inr (.inr ht)
      · exact .inl ht
    · rintro (h | h | h) <;> exact ⟨_, h, rfl⟩
  have hd : (∃ t ∈ types, typeUpconvert t = .double) ↔ (.float ∈ types ∨ .double ∈ types) := by
    constructor
    · rintro ⟨t, ht, h⟩
      cases t <;> simp [typeUpconvert] at h
      · exact .inr ht
      · exact .inl ht
    · rintro (h | h) <;> exact ⟨_, h, rfl⟩
  simp only [← hs, ← hd]
  cases types with
  | nil => simp [guessCommonType]
  | cons t ts =>
    simp only [guessCommonType]
    rw [loop_spec (t :: ts) _ (upconvert_cases t)]
    simp

/-- **C06 (corollary).** The answer depends only on which types occur, not on their order or number. -/
theorem C06_order_and_multiplicity (a b : List FieldType) (h : ∀ t, t ∈ a ↔ t ∈ b) : guessCommonType a = guessCommonType b := by
  have he : a = [] ↔ b = [] := by
    constructor
    · rintro rfl
      cases b with
      | nil => rfl
      | cons x xs => have := (h x).2 (by simp); simp at this
    · rintro rfl
      cases a with
      | nil => rfl
      | cons x xs => have := (h x).1 (by simp); simp at this
  rw [C06_join, C06_join]
  simp only [h, he]

example : guessCommonType [.int, .float, .byte] = .double ∧ guessCommonType [.byte, .int] = .long ∧ guessCommonType [.double, .boolean] = .string :=
  ⟨rfl, rfl, rfl⟩
example : ∀ t, t ∈ [FieldType.int, .float, .int] ↔ t ∈ [FieldType.float, .int] := by intro t; cases t <;> decide

/-! ### C07: the header -/

/-- **C07 (type of a text).** The guessed type is long exactly for texts of 64-bit integers, double exactly for other texts the library
accepts as floating point, string otherwise. -/
theorem C07_type_of_text (isF64 : Str → Bool) (s : Str) : ∀ t, TypeOfText isF64 s t ↔ guessType isF64 s = t := by
  have hI := parseI64_isSome s
  intro t
  unfold guessType
  by_cases h : DenotesI64 s
  · rw [if_pos (hI.2 h)]
    cases t <;> simp [TypeOfText, h]
  · rw [if_neg (fun h' => h (hI.1 h'))]
    cases hf : isF64 s <;> cases t <;> simp [TypeOfText, h, hf]

/-- Every line has exactly one sequence of types, the one the code computes. -/
theorem typesOfLine_iff (isF64 : Str → Bool) (d : Byte) (line : Str) (types : List FieldType) :
    TypesOfLine isF64 (Char.ofNat d.toNat) line types ↔ lineTypes isF64 d line = types := by
  unfold TypesOfLine lineTypes
  constructor
  · rintro ⟨parts, h1, rfl, h3⟩
    rw [isFields_unique h1, List.map_map]
    apply List.map_congr_left
    rintro ⟨f, t, ty⟩ hp
    obtain ⟨g1, g2⟩ := h3 f t ty hp
    show guessType isF64 (trim f) = ty
    rw [isTrimmed_unique (trim_spec f) g1]
    exact (C07_type_of_text isF64 _ _).1 g2
  · intro h
    refine ⟨(splitChar (Char.ofNat d.toNat) line).map (fun f => (f, trim f, guessType isF64 (trim f))), ?_, ?_, ?_⟩
    · rw [List.map_map]
      have : (splitChar (Char.ofNat d.toNat) line).map ((fun x => x.1) ∘ fun f => (f, trim f, guessType isF64 (trim f))) =
          splitChar (Char.ofNat d.toNat) line := by
        conv => rhs; rw [← List.map_id (splitChar (Char.ofNat d.toNat) line)]
        rfl
      rw [this]
      exact splitChar_isFields _ _
    · rw [← h, List.map_map]; rfl
    · intro f t ty hm
      rw [List.mem_map] at hm
      obtain ⟨g, _, hg⟩ := hm
      cases hg
      exact ⟨trim_spec f, (C07_type_of_text isF64 _ _).2 rfl⟩

/-- **C07.** A header is reported exactly when there are two lines whose sequences of trimmed-field types differ. -/
theorem C07_header (isF64 : Str → Bool) (l1 l2 : Option Str) (d : Byte) :
    guessHasHeader isF64 l1 l2 d = true ↔
      ∃ a b ta tb, l1 = some a ∧ l2 = some b ∧ TypesOfLine isF64 (Char.ofNat d.toNat) a ta ∧ TypesOfLine isF64 (Char.ofNat d.toNat) b tb ∧ ta ≠ tb := by
  constructor
  · intro h
    unfold guessHasHeader at h
    cases l1 with
    | none => simp at h
    | some a =>
      cases l2 with
      | none => simp at h
      | some b => exact ⟨a, b, _, _, rfl, rfl, (typesOfLine_iff _ _ _ _).2 rfl, (typesOfLine_iff _ _ _ _).2 rfl, by simpa using h⟩
  · rintro ⟨a, b, ta, tb, rfl, rfl, h1, h2, h3⟩
    rw [typesOfLine_iff] at h1 h2
    subst h1; subst h2
    simpa [guessHasHeader] using h3

/-- **C07 (conservative).** Fewer than two lines, or two identical lines, are never taken as having a header. -/
theorem C07_conservative (isF64 : Str → Bool) (l : Option Str) (d : Byte) :
    guessHasHeader isF64 l none d = false ∧ guessHasHeader isF64 none l d = false ∧ guessHasHeader isF64 l l d = false := by
  cases l <;> simp [guessHasHeader]

example : guessHasHeader (fun _ => false) (some "time,size".toList) (some " 12 ,+3".toList) 44 = true := by decide +kernel
example : guessHasHeader (fun _ => false) (some "time,size".toList) (some "a,b".toList) 44 = false := by decide +kernel
example : TypesOfLine (fun _ => false) ',' " -12,x".toList [.long, .string] := by
  have := (typesOfLine_iff (fun _ => false) 44 " -12,x".toList [.long, .string]).2 (by decide +kernel)
  exact this

/-! ### C08: the delimiter argument -/

/-- **C08.** Exactly the text `\t` (meaning TAB) and one-character ASCII texts (meaning themselves) are accepted; everything else is an error
and nothing panics. -/
theorem C08_delimiter (s : Str) :
    (∀ b : Byte, parseIntoDelimiter s = .ok b ↔ (s = ['\\', 't'] ∧ b = 9) ∨ (∃ c, s = [c] ∧ c.toNat < 128 ∧ b.toNat = c.toNat)) ∧
    ((∃ b, parseIntoDelimiter s = .ok b) ∨ (∃ e, parseIntoDelimiter s = .err e)) := by
  unfold parseIntoDelimiter
  by_cases ht : s = ['\\', 't']
  · subst ht
    refine ⟨?_, .inl ⟨9, rfl⟩⟩
    intro b
    simp
    exact ⟨fun h => h.symm, fun h => h.symm⟩
  · rw [if_neg ht]
    cases s with
    | nil =>
      refine ⟨?_, .inr ⟨_, rfl⟩⟩
      intro b
      rw [if_pos (by decide)]
      simp
    | cons c cs =>
      by_cases hl : utf8Len (c :: cs) = 1
      · rw [if_neg (by simpa using hl)]
        obtain ⟨hc, rfl⟩ := (utf8Len_one c cs).1 hl
        simp only [if_pos hc]
        refine ⟨?_, .inl ⟨_, rfl⟩⟩
        intro b
        simp [hc]
        rw [← BitVec.toNat_inj]; simp; omega
      · rw [if_pos (by simpa using hl)]
        refine ⟨?_, .inr ⟨_, rfl⟩⟩
        intro b
        simp only [reduceCtorEq, false_iff, not_or, not_and, not_exists]
        refine ⟨fun h => absurd h ht, ?_⟩
        intro x hx hx2
        exact absurd ((utf8Len_one c cs).2 (by cases hx; exact ⟨hx2, rfl⟩)) hl

example : parseIntoDelimiter [';'] = .ok 59 ∧ parseIntoDelimiter ['\\', 't'] = .ok 9 ∧ (parseIntoDelimiter ['é']).isOk = false ∧
    (parseIntoDelimiter []).isOk = false := by decide +kernel

end Chopper.Props
