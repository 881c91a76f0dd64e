import Verif.Proofs.CsvCrate

/-! # When nothing is quoted: lemmas -/
namespace Chopper
open Chopper Chopper.Spec

/-- The quotes in the answers. -/
def quotesIn : List (Res (List (List Byte))) → Nat
  | [] => 0
  | .ok fields :: rest => fields.flatten.count 34 + quotesIn rest
  | _ :: rest => quotesIn rest

/-- A field as it is when read without quotes. -/
def Bare (d : Byte) (f : List Byte) : Prop := f.head? ≠ some 34 ∧ d ∉ f ∧ 10 ∉ f ∧ 13 ∉ f

theorem scan_quotes {d : Byte} : ∀ (bs : List Byte) (st : CsvState) (cur : List Byte) (fields : List (List Byte)),
    quotesIn (csvScan d st cur fields (ofBytes bs)) ≤ cur.count 34 + fields.flatten.count 34 + bs.count 34
  | [], st, cur, fields => by
    cases st <;> simp [csvScan, ofBytes, quotesIn]
    all_goals omega
  | c :: bs, st, cur, fields => by
    have key : ∀ st' act, csvStep d c st = (st', act) → quotesIn (csvScan d st cur fields (.byte c :: ofBytes bs)) ≤ cur.count 34 + fields.flatten.count 34 + (c :: bs).count 34 := by
      intro st' act ha
      have hle : bs.count 34 ≤ (c :: bs).count 34 := by rw [List.count_cons]; omega
      cases act with
      | drop =>
        have := scan_quotes (d := d) bs st' cur fields
        cases st <;> (conv => lhs; unfold csvScan) <;> rw [ha] <;> simp only <;> omega
      | copy =>
        have := scan_quotes (d := d) bs st' (cur ++ [c]) fields
        have e : (cur ++ [c]).count 34 + bs.count 34 = cur.count 34 + (c :: bs).count 34 := by
          rw [List.count_append, List.count_singleton, List.count_cons]; omega
        cases st <;> (conv => lhs; unfold csvScan) <;> rw [ha] <;> simp only <;> omega
      | endField =>
        have := scan_quotes (d := d) bs st' [] (fields ++ [cur])
        simp only [List.flatten_append, List.count_append, List.flatten_cons, List.flatten_nil, List.append_nil, List.count_nil] at this
        cases st <;> (conv => lhs; unfold csvScan) <;> rw [ha] <;> simp only <;> omega
      | endRecord =>
        have := scan_quotes (d := d) bs st' [] []
        simp only [List.flatten_nil, List.count_nil] at this
        cases st <;> (conv => lhs; unfold csvScan) <;> rw [ha] <;>
          simp only [quotesIn, List.flatten_append, List.count_append, List.flatten_cons, List.flatten_nil, List.append_nil] <;> omega
    exact key _ _ rfl

/-- Where no quote gets lost, no field began with one, and no field has a delimiter or line end. -/
theorem scan_bare {d : Byte} (hd : d ≠ 34) : ∀ (bs : List Byte) (st : CsvState) (cur : List Byte) (fields : List (List Byte)),
    (st = .startRecord ∧ cur = [] ∧ fields = []) ∨ (st = .startField ∧ cur = []) ∨ (st = .inField ∧ cur ≠ []) → Bare d cur → (∀ f ∈ fields, Bare d f) →
    quotesIn (csvScan d st cur fields (ofBytes bs)) < cur.count 34 + fields.flatten.count 34 + bs.count 34 ∨
    ∀ rec, .ok rec ∈ csvScan d st cur fields (ofBytes bs) → ∀ f ∈ rec, Bare d f
  | [], st, cur, fields, hst, hc, hf => by
    right
    intro rec hr f hm
    rcases hst with ⟨rfl, rfl, rfl⟩ | ⟨rfl, rfl⟩ | ⟨rfl, _⟩
    · simp [csvScan, ofBytes] at hr
    all_goals
      simp [csvScan, ofBytes] at hr
      subst hr
      rcases List.mem_append.1 hm with hm | hm
      · exact hf f hm
      · rw [List.mem_singleton.1 hm]; exact hc
  | c :: bs, st, cur, fields, hst, hc, hf => by
    have bare_nil : Bare d [] := ⟨by simp, by simp, by simp, by simp⟩
    rw [ofBytes_cons]
    by_cases hq : c = 34 ∧ st ≠ .inField
    · obtain ⟨rfl, hne⟩ := hq
      left
      have hstep : csvStep d 34 st = (.inQuoted, .drop) := by
        rcases hst with ⟨rfl, _, _⟩ | ⟨rfl, _⟩ | ⟨rfl, _⟩
        · rfl
        · rfl
        · exact absurd rfl hne
      have := scan_quotes (d := d) bs .inQuoted cur fields
      have e : (34 :: bs).count (34 : Byte) = bs.count 34 + 1 := by simp
      rw [e]
      have e0 : csvScan d st cur fields (.byte 34 :: ofBytes bs) = csvScan d .inQuoted cur fields (ofBytes bs) := by
        cases st <;> (conv => lhs; unfold csvScan) <;> rw [hstep]
      rw [e0]
      omega
    · have fields' : ∀ f ∈ fields ++ [cur], Bare d f := by
        intro f hm
        rcases List.mem_append.1 hm with hm | hm
        · exact hf f hm
        · rw [List.mem_singleton.1 hm]; exact hc
      have cdelim : c = d → FieldEnd st → quotesIn (csvScan d st cur fields (.byte c :: ofBytes bs)) < cur.count 34 + fields.flatten.count 34 + (c :: bs).count 34 ∨
          ∀ rec, .ok rec ∈ csvScan d st cur fields (.byte c :: ofBytes bs) → ∀ f ∈ rec, Bare d f := by
        rintro rfl he
        rw [fieldEnd_delim he hd]
        have := scan_bare hd bs .startField [] (fields ++ [cur]) (.inr (.inl ⟨rfl, rfl⟩)) bare_nil fields'
        simp only [List.flatten_append, List.count_append, List.flatten_cons, List.flatten_nil, List.append_nil, List.count_nil] at this
        refine this.imp (fun h => ?_) id
        have : bs.count 34 ≤ (c :: bs).count 34 := by rw [List.count_cons]; omega
        omega
      have cterm : csvTerm c = true → c ≠ d → FieldEnd st → quotesIn (csvScan d st cur fields (.byte c :: ofBytes bs)) < cur.count 34 + fields.flatten.count 34 + (c :: bs).count 34 ∨
          ∀ rec, .ok rec ∈ csvScan d st cur fields (.byte c :: ofBytes bs) → ∀ f ∈ rec, Bare d f := by
        intro ht hcd he
        rw [fieldEnd_term he ht hcd]
        have := scan_bare hd bs .startRecord [] [] (.inl ⟨rfl, rfl, rfl⟩) bare_nil (by simp)
        simp only [List.flatten_nil, List.count_nil] at this
        refine this.imp (fun h => ?_) fun h => ?_
        · simp only [quotesIn, List.flatten_append, List.count_append, List.flatten_cons, List.flatten_nil, List.append_nil]
          have : bs.count 34 ≤ (c :: bs).count 34 := by rw [List.count_cons]; omega
          omega
        · intro rec hr
          rcases List.mem_cons.1 hr with hr | hr
          · obtain rfl := Res.ok.inj hr
            exact fields'
          · exact h rec hr
      have ccopy : csvStep d c st = (.inField, .copy) → c ≠ d → csvTerm c = false → quotesIn (csvScan d st cur fields (.byte c :: ofBytes bs)) < cur.count 34 + fields.flatten.count 34 + (c :: bs).count 34 ∨
          ∀ rec, .ok rec ∈ csvScan d st cur fields (.byte c :: ofBytes bs) → ∀ f ∈ rec, Bare d f := by
        intro hstep hcd ht
        have e0 : csvScan d st cur fields (.byte c :: ofBytes bs) = csvScan d .inField (cur ++ [c]) fields (ofBytes bs) := by
          cases st <;> (conv => lhs; unfold csvScan) <;> rw [hstep]
        have e : (cur ++ [c]).count 34 + bs.count 34 = cur.count 34 + (c :: bs).count 34 := by
          rw [List.count_append, List.count_singleton, List.count_cons]; omega
        rw [e0]
        have hb : Bare d (cur ++ [c]) := by
          obtain ⟨h1, h2, h3, h4⟩ := hc
          have hc10 : (10 : Byte) ≠ c := by rintro rfl; exact absurd ht (by decide)
          have hc13 : (13 : Byte) ≠ c := by rintro rfl; exact absurd ht (by decide)
          have app : ∀ x : Byte, x ∉ cur → x ≠ c → x ∉ cur ++ [c] := by
            intro x g1 g2 g
            rcases List.mem_append.1 g with g | g
            · exact g1 g
            · exact g2 (List.mem_singleton.1 g)
          refine ⟨?_, app _ h2 (fun h => hcd h.symm), app _ h3 hc10, app _ h4 hc13⟩
          cases cur with
          | nil =>
            intro h
            have h34 : c = 34 := by
              rw [List.nil_append, List.head?_cons] at h
              exact Option.some.inj h
            refine hq ⟨h34, ?_⟩
            rintro rfl
            rcases hst with ⟨h, _⟩ | ⟨h, _⟩ | ⟨_, h⟩
            · cases h
            · cases h
            · exact h rfl
          | cons x xs => exact h1
        have := scan_bare hd bs .inField (cur ++ [c]) fields (.inr (.inr ⟨rfl, by simp⟩)) hb hf
        refine this.imp (fun h => ?_) id
        omega
      by_cases hterm : csvTerm c = true
      · by_cases hcd : c = d
        · rcases hst with ⟨rfl, rfl, rfl⟩ | ⟨rfl, rfl⟩ | ⟨rfl, _⟩
          · -- a line end before a record is dropped
            have e0 : csvScan d .startRecord [] [] (.byte c :: ofBytes bs) = csvScan d .startRecord [] [] (ofBytes bs) := by
              conv => lhs; unfold csvScan
              simp [csvStep, hterm]
            rw [e0]
            have := scan_bare hd bs .startRecord [] [] (.inl ⟨rfl, rfl, rfl⟩) bare_nil (by simp)
            refine this.imp (fun h => ?_) id
            have : bs.count 34 ≤ (c :: bs).count 34 := by rw [List.count_cons]; omega
            omega
          · exact cdelim hcd (.inl rfl)
          · exact cdelim hcd (.inr (.inl rfl))
        · rcases hst with ⟨rfl, rfl, rfl⟩ | ⟨rfl, rfl⟩ | ⟨rfl, _⟩
          · have e0 : csvScan d .startRecord [] [] (.byte c :: ofBytes bs) = csvScan d .startRecord [] [] (ofBytes bs) := by
              conv => lhs; unfold csvScan
              simp [csvStep, hterm]
            rw [e0]
            have := scan_bare hd bs .startRecord [] [] (.inl ⟨rfl, rfl, rfl⟩) bare_nil (by simp)
            refine this.imp (fun h => ?_) id
            have : bs.count 34 ≤ (c :: bs).count 34 := by rw [List.count_cons]; omega
            omega
          · exact cterm hterm hcd (.inl rfl)
          · exact cterm hterm hcd (.inr (.inl rfl))
      · have hterm' : csvTerm c = false := by simpa using hterm
        by_cases hcd : c = d
        · rcases hst with ⟨rfl, rfl, rfl⟩ | ⟨rfl, rfl⟩ | ⟨rfl, _⟩
          · have := cdelim
            subst hcd
            rw [start_field hterm']
            have := scan_bare hd bs .startField [] ([] ++ [[]]) (.inr (.inl ⟨rfl, rfl⟩)) bare_nil fields'
            rw [fieldEnd_delim (.inl rfl) hd]
            refine this.imp (fun h => ?_) id
            have h34 : bs.count 34 ≤ (c :: bs).count 34 := by rw [List.count_cons]; omega
            simp only [List.nil_append, List.flatten_cons, List.flatten_nil, List.append_nil, List.count_nil, Nat.zero_add] at h ⊢
            omega
          · exact cdelim hcd (.inl rfl)
          · exact cdelim hcd (.inr (.inl rfl))
        · rcases hst with ⟨rfl, rfl, rfl⟩ | ⟨rfl, rfl⟩ | ⟨rfl, _⟩
          · have : c ≠ 34 := fun h => hq ⟨h, by decide⟩
            exact ccopy (by simp only [csvStep, csvFieldStart, hterm', this, hcd, if_false, Bool.false_eq_true]) hcd hterm'
          · have : c ≠ 34 := fun h => hq ⟨h, by decide⟩
            exact ccopy (by simp only [csvStep, csvFieldStart, hterm', this, hcd, if_false, Bool.false_eq_true]) hcd hterm'
          · exact ccopy (by simp only [csvStep, hterm', hcd, if_false, Bool.false_eq_true]) hcd hterm'

theorem count_join {d : Char} {b : Byte} (hd : encodeChar d = [b]) (hb : b ≠ 34) : ∀ ts : List Str, (utf8Encode (joinChar d ts)).count 34 = (ts.map utf8Encode).flatten.count 34
  | [] => by simp [joinChar, utf8Encode]
  | [t] => by simp [joinChar]
  | t :: u :: ts => by
    have ej : joinChar d (t :: u :: ts) = t ++ d :: joinChar d (u :: ts) := rfl
    have e : utf8Encode (d :: joinChar d (u :: ts)) = b :: utf8Encode (joinChar d (u :: ts)) := by simp [utf8Encode, hd]
    have hb' : (b == 34) = false := by simpa using hb
    rw [ej, utf8Encode_append, e, List.count_append, List.count_cons, count_join hd hb (u :: ts), hb', List.map_cons, List.flatten_cons, List.count_append]
    simp

theorem count_text {d : Char} {b : Byte} (hd : encodeChar d = [b]) (hb : b ≠ 34) : ∀ lines : List (List Str),
    (utf8Encode (csvText d lines)).count 34 = quotesIn (lines.map fun r => .ok (r.map utf8Encode))
  | [] => rfl
  | l :: lines => by
    have e : csvText d (l :: lines) = joinChar d l ++ '\n' :: csvText d lines := by simp [csvText]
    have e' : utf8Encode ('\n' :: csvText d lines) = 10 :: utf8Encode (csvText d lines) := by
      simp [utf8Encode, show encodeChar '\n' = [10] by decide +kernel]
    rw [e, utf8Encode_append, e', List.count_append, count_join hd hb, List.count_cons, count_text hd hb lines, List.map_cons, quotesIn]
    rfl

end Chopper
