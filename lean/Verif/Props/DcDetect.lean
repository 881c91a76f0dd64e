import Verif.Props.Input
import Verif.Proofs.CsvCrate

/-! # C58: exactly when a DC file without a recognised name is read as DC -/
namespace Chopper.Props
open Chopper Chopper.Spec

/-- Behind a character of one byte a text can be cut. -/
theorem encode_split {a : Byte} (ha : a.toNat < 128) : ∀ (s : Str) (p q : List Byte), utf8Encode s = p ++ a :: q → ∃ s1 s2, p = utf8Encode s1 ∧ q = utf8Encode s2
  | [], p, q, h => by
    exfalso
    have := congrArg List.length h
    simp [utf8Encode] at this
  | c :: s, p, q, h => by
    have e : utf8Encode (c :: s) = encodeChar c ++ utf8Encode s := by simp [utf8Encode]
    rw [e] at h
    rcases List.append_eq_append_iff.1 h with ⟨a', e1, e2⟩ | ⟨c', e1, e2⟩
    · obtain ⟨s1, s2, h1, h2⟩ := encode_split ha s a' q e2
      exact ⟨c :: s1, s2, by rw [e1, h1]; simp [utf8Encode], h2⟩
    · cases c' with
      | nil =>
        obtain ⟨s1, s2, h1, h2⟩ := encode_split ha s [] q e2.symm
        refine ⟨[c], s2, ?_, h2⟩
        rw [List.append_nil] at e1
        rw [← e1]
        simp [utf8Encode]
      | cons x c' =>
        rw [List.cons_append, List.cons.injEq] at e2
        obtain ⟨rfl, rfl⟩ := e2
        have hm : a ∈ encodeChar c := by rw [e1]; simp
        by_cases hc : c.toNat < 128
        · have hl := congrArg List.length e1
          rw [encode_ascii hc] at hl
          simp only [List.length_cons, List.length_nil, List.length_append] at hl
          have : p = [] := List.eq_nil_of_length_eq_zero (by omega)
          have : c' = [] := List.eq_nil_of_length_eq_zero (by omega)
          subst_vars
          exact ⟨[], s, rfl, rfl⟩
        · exact absurd (encode_high (by omega) a hm) (by omega)

/-- The bytes are a text in UTF-8. -/
def IsUtf8 (bs : List Byte) : Prop := ∃ s : Str, bs = utf8Encode s

theorem isUtf8_cut {a : Byte} {c : Char} (ha : a.toNat < 128) (hc : encodeChar c = [a]) (p q : List Byte) : IsUtf8 (p ++ a :: q) ↔ IsUtf8 p ∧ IsUtf8 q := by
  constructor
  · rintro ⟨s, h⟩
    obtain ⟨s1, s2, h1, h2⟩ := encode_split ha s p q h.symm
    exact ⟨⟨s1, h1⟩, ⟨s2, h2⟩⟩
  · rintro ⟨⟨s1, rfl⟩, ⟨s2, rfl⟩⟩
    exact ⟨s1 ++ c :: s2, by simp [utf8Encode, hc]⟩

theorem isUtf8_nil : IsUtf8 [] := ⟨[], rfl⟩

theorem isUtf8_dropCr (p : List Byte) : IsUtf8 (dropCr p) ↔ IsUtf8 p := by
  unfold dropCr
  split
  · rename_i h
    obtain ⟨ys, rfl⟩ := List.getLast?_eq_some_iff.1 h
    rw [List.dropLast_concat]
    have := isUtf8_cut (a := 13) (c := '\r') (by decide) (by decide) ys []
    rw [this]
    exact ⟨fun h => ⟨h, isUtf8_nil⟩, fun h => h.1⟩
  · exact Iff.rfl

theorem isUtf8_lines (rest : List Byte) : ∀ pieces : List (List Byte), IsUtf8 (pieces.flatMap (· ++ [10]) ++ rest) ↔ (∀ p ∈ pieces, IsUtf8 p) ∧ IsUtf8 rest
  | [] => by simp
  | p :: ps => by
    have e : (p :: ps).flatMap (· ++ [10]) ++ rest = p ++ 10 :: (ps.flatMap (· ++ [10]) ++ rest) := by simp
    rw [e, isUtf8_cut (c := '\n') (by decide) (by decide), isUtf8_lines rest ps]
    simp [and_assoc]

theorem decodeAll_isSome : ∀ ls : List (List Byte), (decodeAll ls).isSome = true ↔ ∀ l ∈ ls, IsUtf8 l := by
  intro ls
  rw [Option.isSome_iff_exists]
  constructor
  · rintro ⟨ss, h⟩ l hl
    rw [(C02_decodeAll ls ss).1 h] at hl
    obtain ⟨s, _, rfl⟩ := List.mem_map.1 hl
    exact ⟨s, rfl⟩
  · intro h
    have : ∃ ss : List Str, ls = ss.map utf8Encode := by
      induction ls with
      | nil => exact ⟨[], rfl⟩
      | cons l ls ih =>
        obtain ⟨ss, h1⟩ := ih fun l hl => h l (.tail _ hl)
        obtain ⟨s, h2⟩ := h l (.head _)
        exact ⟨s :: ss, by rw [h1, h2]; rfl⟩
    obtain ⟨ss, h⟩ := this
    exact ⟨ss, (C02_decodeAll ls ss).2 h⟩

/-- The part of the content the preview looks at: all of it if it is shorter than the buffer; otherwise the first 8192 bytes without the unfinished last line. -/
def Inspected (data head : List Byte) : Prop :=
  if data.length < 8192 then head = data
  else ∃ tail, data.take 8192 = head ++ tail ∧ (10 : Byte) ∉ tail ∧ (head = [] ∨ ∃ h, head = h ++ [10])

/-- There are preview lines exactly if the inspected part is UTF-8. -/
theorem preview_iff (inner : Inner) (p : Previewer) (hp : Previewer.new defaultBufSize inner = .ok p) (head : List Byte) (hh : Inspected inner.data head) :
    p.lines.isSome = true ↔ IsUtf8 head := by
  obtain ⟨_, _, hl⟩ := C02_lines defaultBufSize (by decide) inner p hp
  unfold Inspected at hh
  split at hh
  · rename_i hlen
    subst hh
    obtain ⟨pieces, rest, h⟩ := isLines_exists (inner.data.take defaultBufSize)
    rw [hl pieces rest h, decodeAll_isSome]
    have e : inner.data.take defaultBufSize = inner.data := List.take_of_length_le (by unfold defaultBufSize; omega)
    rw [e] at h
    have hne : ¬ defaultBufSize ≤ inner.data.length := by unfold defaultBufSize; omega
    rw [h.1, isUtf8_lines]
    constructor
    · intro g
      refine ⟨fun q hq => (isUtf8_dropCr q).1 (g _ (List.mem_map.2 ⟨q, List.mem_append_left _ hq, rfl⟩)), ?_⟩
      by_cases hr : rest = []
      · subst hr; exact isUtf8_nil
      · exact (isUtf8_dropCr rest).1 (g _ (List.mem_map.2 ⟨rest, by rw [if_neg (by simp only [not_or]; exact ⟨hr, h.1 ▸ hne⟩)]; simp, rfl⟩))
    · rintro ⟨g1, g2⟩ l hm
      obtain ⟨q, hq, rfl⟩ := List.mem_map.1 hm
      rw [isUtf8_dropCr]
      rcases List.mem_append.1 hq with hq | hq
      · exact g1 q hq
      · split at hq
        · cases hq
        · rw [List.mem_singleton] at hq; exact hq ▸ g2
  · rename_i hlen
    obtain ⟨tail, ht, hn, hend⟩ := hh
    obtain ⟨pieces, rest, h⟩ := isLines_exists head
    have hr : rest = [] := by
      rcases hend with rfl | ⟨h', rfl⟩
      · have := congrArg List.length h.1
        simp only [List.length_nil, List.length_append] at this
        exact List.eq_nil_of_length_eq_zero (by omega)
      · rcases List.eq_nil_or_concat rest with e | ⟨r, b, rfl⟩
        · exact e
        · exfalso
          have := h.1
          rw [List.concat_eq_append, ← List.append_assoc] at this
          have hb := (List.append_inj' this rfl).2
          apply h.2.2
          simp only [List.cons.injEq, and_true] at hb
          rw [← hb]; simp
    subst hr
    unfold IsLines at h
    rw [List.append_nil] at h
    have hle : defaultBufSize ≤ inner.data.length := by unfold defaultBufSize; omega
    have hI : IsLines (inner.data.take defaultBufSize) pieces tail := ⟨by
      show inner.data.take 8192 = _
      rw [ht, h.1], h.2.1, hn⟩
    rw [hl pieces tail hI, decodeAll_isSome, if_pos (.inr hle), List.append_nil]
    have := isUtf8_lines [] pieces
    rw [List.append_nil] at this
    rw [h.1, this]
    constructor
    · intro g
      exact ⟨fun q hq => (isUtf8_dropCr q).1 (g _ (List.mem_map.2 ⟨q, hq, rfl⟩)), isUtf8_nil⟩
    · rintro ⟨g, _⟩ l hm
      obtain ⟨q, hq, rfl⟩ := List.mem_map.1 hm
      exact (isUtf8_dropCr q).2 (g q hq)

/-- **C58 (exactly).** A file that begins like a DC file, whose name says nothing about its format, with a CSV configuration at hand: it is read as DC if the inspected part is not UTF-8, and as CSV
if it is. -/
theorem C58_exact (env : CsvEnv) (dec : Decoders) (cfg : CsvInputConfig env.lib) (inner : Inner) (p : Previewer)
    (hp : Previewer.new defaultBufSize inner = .ok p) (hd : dcStart <+: inner.data) (head : List Byte) (hh : Inspected inner.data head) :
    (¬ IsUtf8 head → createFromPreviewer dec (defaultFactories env (some cfg)) p none .auto = (dcFactory env.ov).create p) ∧
    (IsUtf8 head → createFromPreviewer dec (defaultFactories env (some cfg)) p none .auto = (csvFactory env cfg).create p) := by
  have key := preview_iff inner p hp head hh
  rw [(C58_chosen env dec cfg inner p hp hd).1]
  constructor
  · intro h
    rw [if_neg (fun g => h (key.1 g))]
  · intro h
    rw [if_pos (key.2 h)]

/-- There is always an inspected part. -/
theorem C58_inspected (data : List Byte) : ∃ head, Inspected data head := by
  unfold Inspected
  by_cases h : data.length < 8192
  · exact ⟨data, by rw [if_pos h]⟩
  · obtain ⟨pieces, rest, hl⟩ := isLines_exists (data.take 8192)
    refine ⟨pieces.flatMap (· ++ [10]), ?_⟩
    rw [if_neg h]
    refine ⟨rest, hl.1, hl.2.2, ?_⟩
    rcases List.eq_nil_or_concat pieces with rfl | ⟨ps, q, rfl⟩
    · exact .inl rfl
    · exact .inr ⟨ps.flatMap (· ++ [10]) ++ q, by simp⟩

/-- A file with a byte FF: read as DC. -/
example (env : CsvEnv) (dec : Decoders) (cfg : CsvInputConfig env.lib) (sched : List ReadStep) (p : Previewer)
    (hp : Previewer.new defaultBufSize ⟨dcStart ++ [0xFF], sched, none⟩ = .ok p) :
    createFromPreviewer dec (defaultFactories env (some cfg)) p none .auto = (dcFactory env.ov).create p :=
  (C58_exact env dec cfg _ p hp ⟨[0xFF], rfl⟩ (dcStart ++ [0xFF]) (by
    show if (dcStart ++ [0xFF]).length < 8192 then _ else _
    rw [if_pos (by decide)])).1 (by
    rintro ⟨s, hs⟩
    have := utf8Decode_iff.2 hs
    rw [show utf8Decode (dcStart ++ [0xFF]) = none by decide] at this
    cases this)

end Chopper.Props
