import Verif.Proofs.CsvRead
import Verif.Props.Reader
import Verif.Props.Csv2

/-! # Reading CSV back with automatic settings: lemmas -/
namespace Chopper
open Chopper Chopper.Spec

theorem ascii_mem_encode {c : Char} {b : Byte} (hb : b.toNat < 128) (h : b ∈ encodeChar c) : c.toNat = b.toNat := by
  have key : ∀ n, 128 ≤ n → n < 256 → b ≠ BitVec.ofNat 8 n := by
    intro n h1 h2 he
    rw [he, BitVec.toNat_ofNat, Nat.mod_eq_of_lt (by omega)] at hb
    omega
  have hc : c.toNat < 0x110000 := by
    have := c.valid
    rcases this with h | ⟨_, h⟩
    · have : c.toNat < 0xd800 := h
      omega
    · exact h
  unfold encodeChar at h
  simp only at h
  split at h
  · rename_i hn
    simp only [List.mem_cons, List.not_mem_nil, or_false] at h
    rw [h, BitVec.toNat_ofNat, Nat.mod_eq_of_lt (by omega)]
  · split at h
    · simp only [List.mem_cons, List.not_mem_nil, or_false] at h
      rcases h with h | h
      · exact absurd h (key _ (by omega) (by omega))
      · exact absurd h (key _ (by omega) (by omega))
    · split at h
      · simp only [List.mem_cons, List.not_mem_nil, or_false] at h
        rcases h with h | h | h
        · exact absurd h (key _ (by omega) (by omega))
        · exact absurd h (key _ (by omega) (by omega))
        · exact absurd h (key _ (by omega) (by omega))
      · simp only [List.mem_cons, List.not_mem_nil, or_false] at h
        rcases h with h | h | h | h
        · exact absurd h (key _ (by omega) (by omega))
        · exact absurd h (key _ (by omega) (by omega))
        · exact absurd h (key _ (by omega) (by omega))
        · exact absurd h (key _ (by omega) (by omega))

theorem ascii_notin_encode {d : Char} {b : Byte} (hb : b.toNat < 128) (hd : d.toNat = b.toNat) {s : Str} (h : d ∉ s) : b ∉ utf8Encode s := by
  intro hm
  obtain ⟨c, hc, hbc⟩ := List.mem_flatMap.1 hm
  have : c.toNat = d.toNat := by rw [ascii_mem_encode hb hbc, hd]
  have : c = d := by rw [← Char.ofNat_toNat c, this, Char.ofNat_toNat]
  exact h (this ▸ hc)

/-- The first bytes of terminated lines: some whole lines and a rest. -/
theorem take_lines : ∀ (L : List (List Byte)) (c : Nat), (∀ x ∈ L, (10 : Byte) ∉ x) →
    ∃ k rest, IsLines ((L.flatMap (· ++ [10])).take c) (L.take k) rest ∧ k ≤ L.length ∧ (k = L.length → rest = []) ∧ (k < L.length → c ≤ (L.flatMap (· ++ [10])).length) ∧
      ∀ j, j ≤ L.length → ((L.take j).flatMap (· ++ [10])).length ≤ c → j ≤ k
  | [], c, _ => ⟨0, [], ⟨by simp, by simp, by simp⟩, by simp, by simp, by simp, by intro j hj _; simpa using hj⟩
  | x :: L, c, h => by
    by_cases hx : (x ++ [(10 : Byte)]).length ≤ c
    · obtain ⟨k, rest, ⟨h1, h2, h3⟩, h4, h5, h6, h7⟩ := take_lines L (c - (x ++ [10]).length) (fun y hy => h y (by simp [hy]))
      refine ⟨k + 1, rest, ⟨?_, ?_, h3⟩, by simpa using h4, fun he => h5 (by simpa using he), ?_, ?_⟩
      · rw [List.flatMap_cons, List.take_append, h1, List.take_of_length_le hx]
        simp
      · intro p hp
        rw [List.take_succ_cons, List.mem_cons] at hp
        rcases hp with rfl | hp
        · exact h _ (by simp)
        · exact h2 p hp
      · intro hk
        have := h6 (by simpa using hk)
        rw [List.flatMap_cons, List.length_append]
        omega
      · intro j hj hl
        cases j with
        | zero => omega
        | succ j =>
          have := h7 j (by simpa using hj) (by
            rw [List.take_succ_cons, List.flatMap_cons, List.length_append] at hl
            omega)
          omega
    · refine ⟨0, x.take c, ⟨?_, by simp, fun hm => h x (by simp) (List.mem_of_mem_take hm)⟩, by simp, by simp, ?_, ?_⟩
      · have : c ≤ x.length := by simp at hx; omega
        rw [List.flatMap_cons, List.append_assoc, List.take_append, Nat.sub_eq_zero_of_le this]
        simp
      · intro _
        rw [List.flatMap_cons, List.length_append]
        omega
      · intro j hj hl
        cases j with
        | zero => omega
        | succ j =>
          rw [List.take_succ_cons, List.flatMap_cons, List.length_append] at hl
          omega

theorem csvText_bytes (d : Char) (lines : List (List Str)) :
    utf8Encode (csvText d lines) = (lines.map fun l => utf8Encode (joinChar d l)).flatMap (· ++ [10]) := by
  induction lines with
  | nil => rfl
  | cons l ls ih =>
    have : csvText d (l :: ls) = joinChar d l ++ ['\n'] ++ csvText d ls := by simp [csvText]
    rw [this, utf8Encode_append, utf8Encode_append, ih]
    rfl

theorem decodeAll_encode (ls : List Str) : decodeAll (ls.map utf8Encode) = some ls := (Props.C02_decodeAll _ _).2 rfl

/-- The preview of a CSV text consists of its lines that fit. -/
theorem preview_lines {d : Char} (hd : d ≠ '\n') (hd' : d ≠ '\r') {lines : List (List Str)} (hp : ∀ l ∈ lines, ∀ t ∈ l, '\n' ∉ t ∧ '\r' ∉ t) {inner : Inner} {p : Previewer}
    (hdata : inner.data = utf8Encode (csvText d lines))
    (hlines : ∀ pieces rest, IsLines (inner.data.take defaultBufSize) pieces rest →
        p.lines = decodeAll ((pieces ++ if rest = [] ∨ defaultBufSize ≤ inner.data.length then [] else [rest]).map dropCr)) :
    ∃ k, p.lines = some ((lines.map (joinChar d)).take k) ∧
      ∀ j, j ≤ lines.length → (utf8Encode (csvText d (lines.take j))).length ≤ defaultBufSize → j ≤ k := by
  have hno : ∀ l ∈ lines, (10 : Byte) ∉ utf8Encode (joinChar d l) ∧ (13 : Byte) ∉ utf8Encode (joinChar d l) := fun l hl =>
    ⟨ascii_notin_encode (d := '\n') (by decide) (by decide) (joinChar_notin hd.symm fun t ht => (hp l hl t ht).1),
     ascii_notin_encode (d := '\r') (by decide) (by decide) (joinChar_notin hd'.symm fun t ht => (hp l hl t ht).2)⟩
  obtain ⟨k, rest, h1, h2, h3, h4, h5⟩ := take_lines (lines.map fun l => utf8Encode (joinChar d l)) defaultBufSize (by
    intro x hx
    obtain ⟨l, hl, rfl⟩ := List.mem_map.1 hx
    exact (hno l hl).1)
  rw [← csvText_bytes, ← hdata] at h1 h4
  refine ⟨k, ?_, ?_⟩
  · rw [hlines _ _ h1, if_pos]
    · rw [List.append_nil]
      have : ((lines.map fun l => utf8Encode (joinChar d l)).take k).map dropCr = ((lines.map (joinChar d)).take k).map utf8Encode := by
        rw [← List.map_take, ← List.map_take, List.map_map, List.map_map]
        apply List.map_congr_left
        intro l hl
        simp only [Function.comp_apply, dropCr]
        rw [if_neg]
        intro he
        exact (hno l (List.mem_of_mem_take hl)).2 (List.mem_of_getLast? he)
      rw [this, decodeAll_encode]
    · rcases Nat.lt_or_ge k (lines.map fun l => utf8Encode (joinChar d l)).length with h | h
      · exact .inr (h4 h)
      · exact .inl (h3 (by omega))
  · intro j hj hl
    exact h5 j (by simpa using hj) (by rw [← List.map_take, ← csvText_bytes]; exact hl)

end Chopper
