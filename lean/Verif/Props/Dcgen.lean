import Verif.Proofs.Dcgen
import Verif.Props.Input

/-! # C87: the generator of example files -/
namespace Chopper.Props
open Chopper Chopper.Spec

/-- The bytes are a DC file with the four columns of the generator and `n` rows: row `i` has time `i`, its values are `i` as floating point number, twice as integer (of 32 bits) and
in decimal. -/
def IsGenerated (ov : Overflow) (toF64 : BitVec 64 → BitVec 64) (n : Nat) (bytes : List Byte) : Prop :=
  ∃ src fin rows, dcOpen ov (ofBytes bytes) = .ok src ∧
    src.header = ⟨["a_double".toList, "an_int".toList, "an_int_timestamp".toList, "a_string".toList], [.double, .int, .int, .string]⟩ ∧
    Delivers src rows fin ∧ fin.nextRow.1 = .ok none ∧ rows.length = n ∧
    ∀ i, i < n → ∃ t : Str, Digits t ∧ decimalValue t = i ∧
      rows[i]? = some ⟨BitVec.ofNat 64 i, [.double (toF64 (BitVec.ofNat 64 i)), .int (BitVec.ofNat 32 i), .int (BitVec.ofNat 32 i), .string t]⟩

/-- **C87, stated in full**: whatever the file does, the generator panics or the file is complete. -/
def C87_full : Prop := ∀ (ov : Overflow) (toF64 : BitVec 64 → BitVec 64) (n : Nat) (d : Device), n ≤ 2 ^ 64 → d.taken = [] →
  (dgFile toF64 n d).2 = .panic ∨ (dgFile toF64 n d).2 = .ok () ∧ IsGenerated ov toF64 n (dgFile toF64 n d).1.taken

theorem gen_isGenerated (ov : Overflow) (toF64 : BitVec 64 → BitVec 64) (n : Nat) (h : n ≤ 2 ^ 64) : IsGenerated ov toF64 n (genBytes toF64 n) := by
  obtain ⟨src, fin, h1, h2, h3, h4⟩ := gen_reads ov toF64 n h
  refine ⟨src, fin, _, h1, h2, h3, h4, by simp, ?_⟩
  intro i hi
  exact ⟨natToStr i, (natToStr_spec i).1, (natToStr_spec i).2, by simp [hi, genRow]⟩

/-- **C87 (partial).** True of files that take at least 20 bytes in every write: the run panics (only if a write failed; then the file is the beginning of a complete one) or
the file is complete. Missing, since false (`C87_counterexample`): files that take less. -/
theorem C87_complete_partial (ov : Overflow) (toF64 : BitVec 64 → BitVec 64) (n : Nat) (d : Device) (hn : n ≤ 2 ^ 64) (he : d.taken = [])
    (hs : ∀ k, WriteStep.take k ∈ d.sched → 20 ≤ k + 1) :
    ((dgFile toF64 n d).2 = .panic ∧ (∃ k, WriteStep.fail k ∈ d.sched) ∧ ∃ rest, IsGenerated ov toF64 n ((dgFile toF64 n d).1.taken ++ rest)) ∨
    (dgFile toF64 n d).2 = .ok () ∧ IsGenerated ov toF64 n (dgFile toF64 n d).1.taken := by
  rcases (appends_file toF64 n hn).1 d hs with ⟨d', h1, h2, _⟩ | ⟨d', p, h1, h2, ⟨q, hq⟩, h4⟩
  · right
    rw [h1]
    refine ⟨rfl, ?_⟩
    rw [h2, he, List.nil_append]
    exact gen_isGenerated ov toF64 n hn
  · left
    rw [h1]
    refine ⟨rfl, h4, q, ?_⟩
    rw [h2, he, List.nil_append, hq]
    exact gen_isGenerated ov toF64 n hn

/-- **C87 (any file).** Whatever the file does, what is written differs from a complete file only by missing bytes, the run panics only if a write failed, and if it does not panic the file is complete
exactly if no byte is missing; and then its length is that of the complete file. -/
theorem C87_missing_bytes_partial (ov : Overflow) (toF64 : BitVec 64 → BitVec 64) (n : Nat) (hn : n ≤ 2 ^ 64) :
    ∃ complete, IsGenerated ov toF64 n complete ∧ ∀ d : Device, d.taken = [] →
      List.Sublist (dgFile toF64 n d).1.taken complete ∧ ((dgFile toF64 n d).2 = .ok () ∨ (dgFile toF64 n d).2 = .panic ∧ ∃ k, WriteStep.fail k ∈ d.sched) ∧
      ((dgFile toF64 n d).1.taken.length = complete.length → (dgFile toF64 n d).1.taken = complete) := by
  refine ⟨genBytes toF64 n, gen_isGenerated ov toF64 n hn, ?_⟩
  intro d he
  obtain ⟨d', p, h1, h2, _, h4⟩ := (appends_file toF64 n hn).2 d
  rw [he, List.nil_append] at h1
  rcases h4 with h4 | ⟨h4, h5⟩
  · rw [h4]; exact ⟨h1 ▸ h2, .inl rfl, fun hl => h1 ▸ h2.eq_of_length (h1 ▸ hl)⟩
  · rw [h4]; exact ⟨h1 ▸ h2, .inr ⟨rfl, h5⟩, fun hl => h1 ▸ h2.eq_of_length (h1 ▸ hl)⟩

/-- **C87 (good files, partial).** The program itself: 100 rows on a file that never fails and takes at least 20 bytes in every write. -/
theorem C87_program_partial (ov : Overflow) (toF64 : BitVec 64 → BitVec 64) (d : Device) (he : d.taken = [])
    (hs : ∀ k, WriteStep.take k ∈ d.sched → 20 ≤ k + 1) (hf : ∀ k, WriteStep.fail k ∉ d.sched) :
    (dcgen toF64 d).2 = .ok () ∧ IsGenerated ov toF64 100 (dcgen toF64 d).1.taken := by
  rcases C87_complete_partial ov toF64 100 d (by decide) he hs with ⟨_, ⟨k, hk⟩, _⟩ | h
  · exact absurd hk (hf k)
  · exact h

/-- A file that takes one byte of the fourth write. -/
def oneByte : Device := ⟨[], [.take 99, .take 99, .take 99, .take 0], 0⟩

/-- **C87 is false**: the single `write` calls of the generator do not notice that only a part was taken. -/
theorem C87_counterexample : ¬ C87_full := by
  intro h
  have e1 : (dgFile id 0 oneByte).2 = .ok () := by decide +kernel
  have e2 : dcOpen .panics (ofBytes (dgFile id 0 oneByte).1.taken) = .err (.io .unexpectedEof) := by decide +kernel
  rcases h .panics id 0 oneByte (by decide) rfl with h | ⟨_, _, _, _, h, _⟩
  · rw [e1] at h; cases h
  · rw [e2] at h; cases h

/-- The generated file is found to be a DC file from its content alone (if it is smaller than the preview). -/
theorem C87_opened_partial (env : CsvEnv) (dec : Decoders) (csv : Option (CsvInputConfig env.lib)) (toF64 : BitVec 64 → BitVec 64) (n : Nat) (d : Device)
    (hn : n ≤ 2 ^ 64) (he : d.taken = []) (hs : ∀ k, WriteStep.take k ∈ d.sched → 20 ≤ k + 1) (hf : ∀ k, WriteStep.fail k ∉ d.sched)
    (sched : List ReadStep) (p : Previewer) (hp : Previewer.new defaultBufSize ⟨(dgFile toF64 n d).1.taken, sched, none⟩ = .ok p)
    (hlen : (dgFile toF64 n d).1.taken.length < defaultBufSize) :
    createFromPreviewer dec (defaultFactories env csv) p none .auto = (dcFactory env.ov).create p := by
  have hb : (dgFile toF64 n d).1.taken = genBytes toF64 n := by
    rcases (appends_file toF64 n hn).1 d hs with ⟨d', h1, h2, _⟩ | ⟨_, _, _, _, _, k, hk⟩
    · rw [h1, h2, he, List.nil_append]
    · exact absurd hk (hf k)
  have hff : (0xFF : Byte) ∈ (genBytes toF64 n).take defaultBufSize := by
    rw [List.take_of_length_le (by rw [← hb]; omega)]
    unfold genBytes
    rw [List.mem_append]
    exact .inl (by decide +kernel)
  obtain ⟨pre, post, hpp⟩ := List.append_of_mem hff
  refine C58_opened_partial env dec csv _ p hp ?_ pre post (by simp only [hb, hpp]) (.inl hlen)
  simp only [hb]
  exact ⟨_, by simp [genBytes, genHeaderBytes, dcStart]; rfl⟩

/-- The hypotheses are met. -/
example : (dcgen id ⟨[], [.take 19, .take 500], 0⟩).2 = .ok () ∧ IsGenerated .wraps id 100 (dcgen id ⟨[], [.take 19, .take 500], 0⟩).1.taken := by
  refine C87_program_partial .wraps id _ rfl ?_ ?_
  · intro k hk
    simp at hk
    omega
  · intro k hk
    simp at hk

example : (dgFile id 5 ⟨[], [], 0⟩).1.taken.length < defaultBufSize := by decide +kernel
example : (dcgen id ⟨[], [.take 30, .take 40, .fail .other], 0⟩).2 = .panic := by decide +kernel

end Chopper.Props
