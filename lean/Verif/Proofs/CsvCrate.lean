import Verif.Model.CsvCrate
import Verif.Spec.CsvCrate
import Verif.Proofs.CsvRead

/-! # The csv crate's reader: lemmas -/
namespace Chopper
open Chopper Chopper.Spec

theorem encode_ascii {c : Char} (h : c.toNat < 128) : encodeChar c = [BitVec.ofNat 8 c.toNat] := by
  unfold encodeChar
  rw [if_pos (by omega)]

theorem encode_high {c : Char} (h : 128 ≤ c.toNat) : ∀ b ∈ encodeChar c, 128 ≤ b.toNat := by
  intro b hb
  have hl := char_lt c
  unfold encodeChar at hb
  rw [if_neg (by omega)] at hb
  have key : ∀ n : Nat, 128 ≤ n → n < 256 → 128 ≤ (BitVec.ofNat 8 n).toNat := by
    intro n h1 h2
    rw [ofNat8 h2]; exact h1
  split at hb
  · simp only [List.mem_cons, List.not_mem_nil, or_false] at hb
    rcases hb with rfl | rfl <;> exact key _ (by omega) (by omega)
  · split at hb
    · simp only [List.mem_cons, List.not_mem_nil, or_false] at hb
      rcases hb with rfl | rfl | rfl <;> exact key _ (by omega) (by omega)
    · simp only [List.mem_cons, List.not_mem_nil, or_false] at hb
      rcases hb with rfl | rfl | rfl | rfl <;> exact key _ (by omega) (by omega)

/-- An ASCII byte in the encoding of a text stands for itself. -/
theorem encode_mem {t : Str} {b : Byte} {c : Char} (hc : c.toNat < 128) (hb : b.toNat = c.toNat) (h : b ∈ utf8Encode t) : c ∈ t := by
  obtain ⟨x, hx, hbx⟩ := List.mem_flatMap.1 h
  by_cases hl : x.toNat < 128
  · rw [encode_ascii hl, List.mem_singleton] at hbx
    rw [hbx, ofNat8 (by omega)] at hb
    have : x = c := by
      apply Char.ext
      apply UInt32.toNat_inj.1
      exact hb
    rwa [← this]
  · have := encode_high (by omega) b hbx
    omega

theorem copy_run {d : Byte} {st : CsvState} : ∀ (bs : List Byte) (cur : List Byte) (fields : List (List Byte)) (s : Stream), (∀ c ∈ bs, csvStep d c st = (st, .copy)) →
    csvScan d st cur fields (ofBytes bs ++ s) = csvScan d st (cur ++ bs) fields s
  | [], cur, fields, s, _ => by simp [ofBytes]
  | c :: bs, cur, fields, s, h => by
    have ih := copy_run bs (cur ++ [c]) fields s (fun x hx => h x (by simp [hx]))
    have : csvScan d st cur fields (ofBytes (c :: bs) ++ s) = csvScan d st (cur ++ [c]) fields (ofBytes bs ++ s) := by
      show csvScan d st cur fields (.byte c :: (ofBytes bs ++ s)) = _
      have hstep := h c (by simp)
      cases st <;> (conv => lhs; unfold csvScan) <;> rw [hstep]
    rw [this, ih]
    simp

/-- States at the end of a field. -/
def FieldEnd (st : CsvState) : Prop := st = .startField ∨ st = .inField ∨ st = .quoteSeen

theorem fieldEnd_delim {d : Byte} {st : CsvState} (h : FieldEnd st) (hq : d ≠ 34) (cur : List Byte) (fields : List (List Byte)) (s : Stream) :
    csvScan d st cur fields (.byte d :: s) = csvScan d .startField [] (fields ++ [cur]) s := by
  rcases h with rfl | rfl | rfl <;> (conv => lhs; unfold csvScan) <;> simp only [csvStep, csvFieldStart, hq, if_false, if_true]

theorem fieldEnd_term {d c : Byte} {st : CsvState} (h : FieldEnd st) (hc : csvTerm c = true) (hcd : c ≠ d) (cur : List Byte) (fields : List (List Byte)) (s : Stream) :
    csvScan d st cur fields (.byte c :: s) = .ok (fields ++ [cur]) :: csvScan d .startRecord [] [] s := by
  have hq : c ≠ 34 := by rintro rfl; revert hc; decide
  rcases h with rfl | rfl | rfl <;> (conv => lhs; unfold csvScan) <;> simp only [csvStep, csvFieldStart, hq, hcd, hc, if_false, if_true]

theorem fieldEnd_eof {d : Byte} {st : CsvState} (h : FieldEnd st) (cur : List Byte) (fields : List (List Byte)) : csvScan d st cur fields [] = [.ok (fields ++ [cur])] := by
  rcases h with rfl | rfl | rfl <;> unfold csvScan <;> rfl

/-- Inside quotes. -/
theorem quoted_run {d : Byte} : ∀ (t : Str) (cur : List Byte) (fields : List (List Byte)) (s : Stream),
    csvScan d .inQuoted cur fields (ofBytes (utf8Encode (doubled t)) ++ s) = csvScan d .inQuoted (cur ++ utf8Encode t) fields s
  | [], cur, fields, s => by simp [doubled, utf8Encode, ofBytes]
  | c :: t, cur, fields, s => by
    have hd : doubled (c :: t) = (if c = '"' then ['"', '"'] else [c]) ++ doubled t := rfl
    have he : utf8Encode (c :: t) = encodeChar c ++ utf8Encode t := by simp [utf8Encode]
    rw [hd, utf8Encode_append, ofBytes_append, List.append_assoc, he]
    by_cases hq : c = '"'
    · subst hq
      have e : utf8Encode ['"', '"'] = [34, 34] := by decide +kernel
      have e' : encodeChar '"' = [34] := by decide +kernel
      rw [if_pos rfl, e, e', ofBytes_cons, ofBytes_cons]
      conv => lhs; unfold csvScan
      simp only [csvStep, if_true, List.cons_append]
      conv => lhs; unfold csvScan
      simp only [csvStep, if_true, ofBytes, List.map_nil, List.nil_append]
      have := quoted_run (d := d) t (cur ++ [34]) fields s
      unfold ofBytes at this
      rw [this, List.append_assoc]
      rfl
    · rw [if_neg hq]
      have : utf8Encode [c] = encodeChar c := by simp [utf8Encode]
      rw [this, copy_run, quoted_run t, List.append_assoc]
      intro b hb
      have : b ≠ 34 := by
        rintro rfl
        have := encode_mem (t := [c]) (b := 34) (c := '"') (by decide) (by decide) (by simpa [utf8Encode] using hb)
        simp at this
        exact hq this.symm
      simp only [csvStep, this, if_false]

/-- A field. -/
theorem field_run {d : Char} {b : Byte} (hd : d.toNat < 128) (hb : b.toNat = d.toNat) {value text : Str} (h : FieldText d value text)
    (fields : List (List Byte)) (s : Stream) :
    ∃ st, FieldEnd st ∧ csvScan b .startField [] fields (ofBytes (utf8Encode text) ++ s) = csvScan b st (utf8Encode value) fields s := by
  cases h with
  | plain h1 h2 h3 h4 =>
    cases value with
    | nil => exact ⟨.startField, .inl rfl, by simp [utf8Encode, ofBytes]⟩
    | cons c t =>
      have hne : ∀ x ∈ utf8Encode (c :: t), x ≠ b ∧ csvTerm x = false := by
        intro x hx
        refine ⟨?_, ?_⟩
        · rintro rfl
          exact h1 (encode_mem hd hb hx)
        · rw [Bool.eq_false_iff]
          intro ht
          simp only [csvTerm, Bool.or_eq_true, beq_iff_eq] at ht
          rcases ht with rfl | rfl
          · exact h3 (encode_mem (c := '\r') (by decide) (by decide) hx)
          · exact h2 (encode_mem (c := '\n') (by decide) (by decide) hx)
      have hcq : c ≠ '"' := by simpa using h4
      obtain ⟨x, xs, hx⟩ := List.exists_cons_of_ne_nil (encodeChar_ne c)
      have hx34 : x ≠ 34 := by
        rintro rfl
        have := encode_mem (t := [c]) (b := 34) (c := '"') (by decide) (by decide) (by simp [utf8Encode, hx])
        simp at this
        exact hcq this.symm
      have he : utf8Encode (c :: t) = x :: (xs ++ utf8Encode t) := by simp [utf8Encode, hx]
      rw [he] at hne ⊢
      refine ⟨.inField, .inr (.inl rfl), ?_⟩
      rw [ofBytes_cons, List.cons_append]
      conv => lhs; unfold csvScan
      obtain ⟨n1, n2⟩ := hne x (by simp)
      simp only [csvStep, csvFieldStart, hx34, n1, n2, if_false, List.nil_append, Bool.false_eq_true]
      rw [copy_run]
      · rfl
      · intro y hy
        obtain ⟨m1, m2⟩ := hne y (by simp [hy])
        simp [csvStep, m1, m2]
  | quoted =>
    refine ⟨.quoteSeen, .inr (.inr rfl), ?_⟩
    have e : utf8Encode ('"' :: doubled value ++ ['"']) = 34 :: (utf8Encode (doubled value) ++ [34]) := by
      have e' : encodeChar '"' = [34] := by decide +kernel
      simp [utf8Encode, e']
    rw [e, ofBytes_cons, ofBytes_append, List.cons_append, List.append_assoc]
    conv => lhs; unfold csvScan
    simp only [csvStep, csvFieldStart, if_true]
    rw [quoted_run]
    simp only [List.nil_append]
    show csvScan b .inQuoted (utf8Encode value) fields (.byte 34 :: ([] ++ s)) = _
    conv => lhs; unfold csvScan
    simp only [csvStep, if_true, List.nil_append]

/-- The fields of a line. -/
theorem fields_run {d : Char} {b : Byte} (hd : d.toNat < 128) (hb : b.toNat = d.toNat) (hq : d ≠ '"') : ∀ (record texts : List Str) (fields : List (List Byte)) (s : Stream), record ≠ [] →
    texts.length = record.length → (∀ (i : Nat) v t, record[i]? = some v → texts[i]? = some t → FieldText d v t) →
    ∃ st init last, FieldEnd st ∧ record.map utf8Encode = init ++ [last] ∧
      csvScan b .startField [] fields (ofBytes (utf8Encode (joinChar d texts)) ++ s) = csvScan b st last (fields ++ init) s
  | [], _, _, _, h, _, _ => absurd rfl h
  | [v], texts, fields, s, _, hl, h => by
    match texts, hl, h with
    | [t], _, h =>
      obtain ⟨st, h1, h2⟩ := field_run hd hb (h 0 v t rfl rfl) fields s
      exact ⟨st, [], utf8Encode v, h1, rfl, by simpa [joinChar] using h2⟩
  | v :: w :: record, texts, fields, s, _, hl, h => by
    match texts, hl, h with
    | t :: u :: texts, hl, h =>
      obtain ⟨st, init, last, h1, h2, h3⟩ := fields_run hd hb hq (w :: record) (u :: texts) (fields ++ [utf8Encode v]) s (by simp) (by simpa using hl)
        (fun i x y hx hy => h (i + 1) x y (by simpa using hx) (by simpa using hy))
      obtain ⟨st', g1, g2⟩ := field_run hd hb (h 0 v t rfl rfl) fields (ofBytes (utf8Encode (d :: joinChar d (u :: texts))) ++ s)
      refine ⟨st, utf8Encode v :: init, last, h1, by rw [List.map_cons, h2]; rfl, ?_⟩
      have hbyte : encodeChar d = [b] := by
        rw [encode_ascii hd, ← hb]
        congr 1
        exact BitVec.eq_of_toNat_eq (by rw [ofNat8 (by omega)])
      have e : utf8Encode (d :: joinChar d (u :: texts)) = b :: utf8Encode (joinChar d (u :: texts)) := by
        simp [utf8Encode, hbyte]
      have hbq : b ≠ 34 := by
        rintro rfl
        apply hq
        apply Char.ext
        apply UInt32.toNat_inj.1
        exact hb.symm
      have ej : joinChar d (t :: u :: texts) = t ++ d :: joinChar d (u :: texts) := rfl
      rw [ej, utf8Encode_append, ofBytes_append, List.append_assoc, g2, e, ofBytes_cons, List.cons_append, fieldEnd_delim g1 hbq, h3, List.append_assoc]
      rfl

theorem start_field {b c : Byte} (h : csvTerm c = false) (s : Stream) : csvScan b .startRecord [] [] (.byte c :: s) = csvScan b .startField [] [] (.byte c :: s) := by
  conv => lhs; unfold csvScan
  conv => rhs; unfold csvScan
  simp [csvStep, h]

theorem field_head {d : Char} {v t : Str} {c : Char} (h : FieldText d v t) (hc : t.head? = some c) : c ≠ '\n' ∧ c ≠ '\r' := by
  cases h with
  | plain _ h2 h3 _ =>
    have := List.mem_of_mem_head? hc
    exact ⟨fun e => h2 (e ▸ this), fun e => h3 (e ▸ this)⟩
  | quoted =>
    simp at hc
    subst hc
    decide

/-- A line. -/
theorem line_run {d : Char} {b : Byte} (hd : d.toNat < 128) (hb : b.toNat = d.toNat) (hq : d ≠ '"') (hn : d ≠ '\n') (hr : d ≠ '\r') {record : List Str} {line : Str} (h : LineText d record line)
    (s : Stream) : ∃ st init last, FieldEnd st ∧ record.map utf8Encode = init ++ [last] ∧
      csvScan b .startRecord [] [] (ofBytes (utf8Encode line) ++ s) = csvScan b st last init s := by
  obtain ⟨hne, texts, h1, h2, h3, rfl⟩ := h
  obtain ⟨st, init, last, g1, g2, g3⟩ := fields_run hd hb hq record texts [] s h1 h2 h3
  refine ⟨st, init, last, g1, g2, ?_⟩
  rw [List.nil_append] at g3
  rw [← g3]
  obtain ⟨c, cs, hc⟩ := List.exists_cons_of_ne_nil hne
  have hcn : c ≠ '\n' ∧ c ≠ '\r' := by
    match record, texts, h1, h2, h3, hc with
    | v :: record, [t], _, _, h3, hc => exact field_head (h3 0 v t rfl rfl) (by rw [show t = c :: cs from hc]; rfl)
    | v :: record, t :: u :: texts, _, _, h3, hc =>
      have ej : joinChar d (t :: u :: texts) = t ++ d :: joinChar d (u :: texts) := rfl
      rw [ej] at hc
      cases t with
      | nil =>
        simp at hc
        rw [← hc.1]
        exact ⟨hn, hr⟩
      | cons x t =>
        simp at hc
        exact field_head (h3 0 v (x :: t) rfl rfl) (by rw [← hc.1]; rfl)
  obtain ⟨x, xs, hx⟩ := List.exists_cons_of_ne_nil (encodeChar_ne c)
  have hterm : csvTerm x = false := by
    rw [Bool.eq_false_iff]
    intro ht
    simp only [csvTerm, Bool.or_eq_true, beq_iff_eq] at ht
    rcases ht with rfl | rfl
    · have := encode_mem (t := [c]) (b := 13) (c := '\r') (by decide) (by decide) (by simp [utf8Encode, hx])
      simp at this
      exact hcn.2 this.symm
    · have := encode_mem (t := [c]) (b := 10) (c := '\n') (by decide) (by decide) (by simp [utf8Encode, hx])
      simp at this
      exact hcn.1 this.symm
  rw [hc]
  have e : utf8Encode (c :: cs) = x :: (xs ++ utf8Encode cs) := by simp [utf8Encode, hx]
  rw [e, ofBytes_cons, List.cons_append, start_field hterm]

/-- The scan of a file, and of what follows it, if its last line is ended. -/
theorem file_run {d : Char} {b : Byte} (hd : d.toNat < 128) (hb : b.toNat = d.toNat) (hq : d ≠ '"') (hn : d ≠ '\n') (hr : d ≠ '\r') {records : List (List Str)} {text : Str}
    (h : FileText d records text) : csvScan b .startRecord [] [] (ofBytes (utf8Encode text)) = records.map (fun r => .ok (r.map utf8Encode)) := by
  have term : ∀ c : Char, c = '\n' ∨ c = '\r' → ∃ x : Byte, encodeChar c = [x] ∧ csvTerm x = true ∧ x ≠ b := by
    rintro c (rfl | rfl)
    · refine ⟨10, by decide +kernel, by decide, ?_⟩
      rintro rfl
      exact hn (Char.ext (UInt32.toNat_inj.1 hb.symm))
    · refine ⟨13, by decide +kernel, by decide, ?_⟩
      rintro rfl
      exact hr (Char.ext (UInt32.toNat_inj.1 hb.symm))
  induction h with
  | done => rfl
  | @empty records rest c hc _ ih =>
    obtain ⟨x, hx, ht, _⟩ := term c hc
    have e : utf8Encode (c :: rest) = x :: utf8Encode rest := by simp [utf8Encode, hx]
    rw [e, ofBytes_cons]
    conv => lhs; unfold csvScan
    simp only [csvStep, ht, if_true]
    exact ih
  | @line record records line rest c hl hc _ ih =>
    obtain ⟨x, hx, ht, hxb⟩ := term c hc
    have e : utf8Encode (line ++ c :: rest) = utf8Encode line ++ x :: utf8Encode rest := by simp [utf8Encode, hx]
    obtain ⟨st, init, last, g1, g2, g3⟩ := line_run hd hb hq hn hr hl (ofBytes (x :: utf8Encode rest))
    rw [e, ofBytes_append, g3, ofBytes_cons, fieldEnd_term g1 ht hxb, ih, List.map_cons, g2]
  | @last record line hl =>
    obtain ⟨st, init, last, g1, g2, g3⟩ := line_run hd hb hq hn hr hl []
    rw [List.append_nil] at g3
    rw [g3, fieldEnd_eof g1, List.map_singleton, g2]

/-- The scan of a file, a line feed and whatever follows. -/
theorem file_run_tail {d : Char} {b : Byte} (hd : d.toNat < 128) (hb : b.toNat = d.toNat) (hq : d ≠ '"') (hn : d ≠ '\n') (hr : d ≠ '\r') {records : List (List Str)} {text : Str}
    (h : FileText d records text) (s : Stream) : csvScan b .startRecord [] [] (ofBytes (utf8Encode text) ++ .byte 10 :: s) =
      records.map (fun r => .ok (r.map utf8Encode)) ++ csvScan b .startRecord [] [] s := by
  have b10 : (10 : Byte) ≠ b := by
    rintro rfl
    exact hn (Char.ext (UInt32.toNat_inj.1 hb.symm))
  have term : ∀ c : Char, c = '\n' ∨ c = '\r' → ∃ x : Byte, encodeChar c = [x] ∧ csvTerm x = true ∧ x ≠ b := by
    rintro c (rfl | rfl)
    · exact ⟨10, by decide +kernel, by decide, b10⟩
    · refine ⟨13, by decide +kernel, by decide, ?_⟩
      rintro rfl
      exact hr (Char.ext (UInt32.toNat_inj.1 hb.symm))
  induction h with
  | done =>
    show csvScan b .startRecord [] [] (.byte 10 :: s) = _
    conv => lhs; unfold csvScan
    simp [csvStep, csvTerm]
  | @empty records rest c hc _ ih =>
    obtain ⟨x, hx, ht, _⟩ := term c hc
    have e : utf8Encode (c :: rest) = x :: utf8Encode rest := by simp [utf8Encode, hx]
    rw [e, ofBytes_cons, List.cons_append]
    conv => lhs; unfold csvScan
    simp only [csvStep, ht, if_true]
    exact ih
  | @line record records line rest c hl hc _ ih =>
    obtain ⟨x, hx, ht, hxb⟩ := term c hc
    have e : utf8Encode (line ++ c :: rest) = utf8Encode line ++ x :: utf8Encode rest := by simp [utf8Encode, hx]
    obtain ⟨st, init, last, g1, g2, g3⟩ := line_run hd hb hq hn hr hl (ofBytes (x :: utf8Encode rest) ++ .byte 10 :: s)
    rw [e, ofBytes_append, List.append_assoc, g3, ofBytes_cons, List.cons_append, fieldEnd_term g1 ht hxb, ih, List.map_cons, g2]
    rfl
  | @last record line hl =>
    obtain ⟨st, init, last, g1, g2, g3⟩ := line_run hd hb hq hn hr hl (.byte 10 :: s)
    rw [g3, fieldEnd_term g1 (by decide) b10, List.map_singleton, g2]
    rfl

theorem mapM_decode : ∀ ts : List Str, (ts.map utf8Encode).mapM utf8Decode = some ts
  | [] => rfl
  | t :: ts => by simp [mapM_decode ts, utf8Decode_encode]

theorem stringRecord_encode (ts : List Str) : stringRecord (ts.map utf8Encode) = .ok (ts.map trim) := by
  unfold stringRecord
  rw [mapM_decode]

end Chopper
