import Verif.Proofs.Csv

/-!
# Proofs about the CSV sink
-/
namespace Chopper
open Spec

theorem splitTimestamp_eq (ts : Nanos) : splitTimestamp ts = (((ts.toNat / 10 ^ 9 : Nat) : Int), ts.toNat % 10 ^ 9) := by
  unfold splitTimestamp
  have hlt := ts.isLt
  have e1 : (ts / 1000000000 : Nanos).toNat = ts.toNat / 1000000000 := by rw [BitVec.toNat_udiv]; rfl
  have e2 : (ts % 1000000000 : Nanos).toNat = ts.toNat % 1000000000 := by rw [BitVec.toNat_umod]; rfl
  have e3 : (ts / 1000000000 : Nanos).toInt = (ts.toNat / 1000000000 : Nat) := by
    rw [BitVec.toInt_eq_toNat_of_lt (by rw [e1]; omega), e1]
  have e4 : ((ts % 1000000000 : Nanos).setWidth 32).toNat = ts.toNat % 1000000000 := by
    rw [BitVec.toNat_setWidth, e2]; omega
  rw [e3, e4]

theorem signedText_intToStr (z : Int) : SignedText (intToStr z) z := by
  cases z with
  | ofNat n => exact .inl ⟨by simp, (natToStr_spec n).1, by rw [intToStr, (natToStr_spec n).2]; rfl⟩
  | negSucc n =>
    refine .inr ⟨by omega, natToStr (n + 1), rfl, (natToStr_spec _).1, ?_⟩
    rw [(natToStr_spec _).2]; omega

theorem valueText_cases (ff : FloatFmt) (v : FieldValue) : (Unprintable v ∧ ∃ m, valueText ff v = .err (.custom m)) ∨
    (¬ Unprintable v ∧ ∃ t, valueText ff v = .ok t ∧ ValueText ff v t) := by
  have hn := fun n => natToStr_spec n
  cases v with
  | boolean b => exact .inl ⟨.inl ⟨b, rfl⟩, _, rfl⟩
  | byteBuf b => exact .inl ⟨.inr ⟨b, rfl⟩, _, rfl⟩
  | byte x => exact .inr ⟨by simp [Unprintable], _, rfl, .byte (hn _).1 (hn _).2⟩
  | char x => exact .inr ⟨by simp [Unprintable], _, rfl, .char (hn _).1 (hn _).2⟩
  | double x => exact .inr ⟨by simp [Unprintable], _, rfl, .double⟩
  | float x => exact .inr ⟨by simp [Unprintable], _, rfl, .float⟩
  | int x => exact .inr ⟨by simp [Unprintable], _, rfl, .int (signedText_intToStr _)⟩
  | long x => exact .inr ⟨by simp [Unprintable], _, rfl, .long (signedText_intToStr _)⟩
  | short x => exact .inr ⟨by simp [Unprintable], _, rfl, .short (signedText_intToStr _)⟩
  | string x => exact .inr ⟨by simp [Unprintable], _, rfl, .string⟩
  | none => exact .inr ⟨by simp [Unprintable], _, rfl, .none⟩

/-- Columns joined by a delimiter text. -/
def joinStr (d : Str) : List Str → Str
  | [] => []
  | [p] => p
  | p :: q :: ps => p ++ d ++ joinStr d (q :: ps)

/-- Columns each preceded by the delimiter. -/
def tailStr (d : Str) : List Str → Str
  | [] => []
  | p :: ps => d ++ p ++ tailStr d ps

theorem joinStr_cons (d p : Str) : ∀ ps, joinStr d (p :: ps) = p ++ tailStr d ps
  | [] => by simp [joinStr, tailStr]
  | q :: ps => by rw [joinStr, joinStr_cons d q ps]; simp [tailStr]

theorem joinStr_char (d : Char) : ∀ ps, joinStr [d] ps = joinChar d ps
  | [] => rfl
  | [p] => rfl
  | p :: q :: ps => by rw [joinStr, joinStr_char d (q :: ps)]; simp [joinChar]

theorem valueTexts_nil (ff : FloatFmt) : ValueTexts ff [] [] := ⟨rfl, by simp⟩

theorem valueTexts_cons {ff : FloatFmt} {v : FieldValue} {vs : List FieldValue} {t : Str} {ts : List Str} (h : ValueText ff v t) (hs : ValueTexts ff vs ts) :
    ValueTexts ff (v :: vs) (t :: ts) := by
  refine ⟨by simp [hs.1], ?_⟩
  intro i v' t' h1 h2
  cases i with
  | zero =>
    simp only [List.getElem?_cons_zero, Option.some.injEq] at h1 h2
    subst h1 h2; exact h
  | succ i => exact hs.2 i v' t' (by simpa using h1) (by simpa using h2)

theorem csvValues_ok (ff : FloatFmt) (d : Str) : ∀ (vs : List FieldValue), (∀ v ∈ vs, ¬ Unprintable v) →
    ∃ ts, ValueTexts ff vs ts ∧ csvValues ff d false vs = (tailStr d ts, .ok ()) ∧ csvValues ff d true vs = (joinStr d ts, .ok ())
  | [], _ => ⟨[], valueTexts_nil ff, rfl, rfl⟩
  | v :: vs, h => by
    obtain ⟨ts, h1, h2, h3⟩ := csvValues_ok ff d vs (fun w hw => h w (by simp [hw]))
    rcases valueText_cases ff v with ⟨hv, _⟩ | ⟨_, t, ht, hvt⟩
    · exact absurd hv (h v (by simp))
    · refine ⟨t :: ts, valueTexts_cons hvt h1, ?_, ?_⟩
      · rw [csvValues]; simp only [ht, h2, tailStr]; rfl
      · rw [csvValues]; simp only [ht, h2, joinStr_cons]; simp

theorem csvValues_bad (ff : FloatFmt) (d : Str) : ∀ (vs : List FieldValue) (first : Bool), (∃ v ∈ vs, Unprintable v) →
    ∃ out m, csvValues ff d first vs = (out, .err (.custom m))
  | [], _, h => by simp at h
  | v :: vs, first, h => by
    rcases valueText_cases ff v with ⟨_, m, hm⟩ | ⟨hv, t, ht, _⟩
    · exact ⟨if first then [] else d, m, by rw [csvValues]; simp only [hm]⟩
    · obtain ⟨out, m, ho⟩ := csvValues_bad ff d vs false (by
        obtain ⟨w, hw, hb⟩ := h
        rcases List.mem_cons.1 hw with rfl | hw
        · exact absurd hb hv
        · exact ⟨w, hw, hb⟩)
      exact ⟨_, m, by rw [csvValues]; simp only [ht, ho]; rfl⟩

/-- Whether the time column can be printed. -/
def TimePrintable (cfg : CsvOutputConfig) : Prop := cfg.printTimeCol = true → cfg.style = .humanReadable → cfg.zone ≠ none

theorem humanFormat_eq (u : TimestampUnits) : humanFormat u = isoPattern u := by cases u <;> decide

theorem timeCol_ok {cfg : CsvOutputConfig} (h : TimePrintable cfg) (hp : cfg.printTimeCol = true) (ts : Nanos) :
    ∃ t, timeText cfg ts = .ok t ∧ TimeCol cfg ts [t] := by
  unfold timeText TimeCol
  simp only [hp, if_true]
  cases hs : cfg.style with
  | epoch =>
    refine ⟨_, rfl, _, rfl, ?_⟩
    simp only
    rw [epochText_eq]
    exact natToStr_spec _
  | humanReadable =>
    cases hz : cfg.zone with
    | none => exact absurd hz (h hp hs)
    | some z =>
      refine ⟨_, rfl, _, rfl, z, rfl, ?_⟩
      rw [splitTimestamp_eq, humanFormat_eq]

theorem timeText_bad {cfg : CsvOutputConfig} (h : ¬ TimePrintable cfg) (ts : Nanos) : ∃ m, timeText cfg ts = .err (.custom m) ∧ cfg.printTimeCol = true := by
  unfold TimePrintable at h
  simp only [Classical.not_imp, Classical.not_not] at h
  obtain ⟨h1, h2, h3⟩ := h
  unfold timeText
  rw [h2, h3]
  exact ⟨_, rfl, h1⟩

theorem csvRowText_ok {ff : FloatFmt} {cfg : CsvOutputConfig} {row : Row} (ht : TimePrintable cfg) (hv : ∀ v ∈ row.values, ¬ Unprintable v) :
    ∃ col texts, TimeCol cfg row.timestamp col ∧ ValueTexts ff row.values texts ∧
      csvRowText ff cfg row = (joinStr cfg.delimiter (col ++ texts) ++ ['\n'], .ok ()) := by
  obtain ⟨ts, h1, h2, h3⟩ := csvValues_ok ff cfg.delimiter row.values hv
  by_cases hp : cfg.printTimeCol = true
  · obtain ⟨t, h4, h5⟩ := timeCol_ok ht hp row.timestamp
    refine ⟨[t], ts, h5, h1, ?_⟩
    unfold csvRowText
    simp only [hp, if_true, h4, h2]
    rw [List.singleton_append, joinStr_cons]
  · refine ⟨[], ts, by simp [TimeCol, hp], h1, ?_⟩
    unfold csvRowText
    simp only [hp, h3]
    simp

theorem csvRowText_bad {ff : FloatFmt} {cfg : CsvOutputConfig} {row : Row} (h : ¬ TimePrintable cfg ∨ ∃ v ∈ row.values, Unprintable v) :
    ∃ out m, csvRowText ff cfg row = (out, .err (.custom m)) := by
  unfold csvRowText
  by_cases ht : TimePrintable cfg
  · have hb : ∃ v ∈ row.values, Unprintable v := h.resolve_left (fun h => h ht)
    by_cases hp : cfg.printTimeCol = true
    · obtain ⟨t, h4, _⟩ := timeCol_ok ht hp row.timestamp
      obtain ⟨out, m, ho⟩ := csvValues_bad ff cfg.delimiter row.values false hb
      exact ⟨t ++ out, m, by simp only [hp, if_true, h4, ho]⟩
    · obtain ⟨out, m, ho⟩ := csvValues_bad ff cfg.delimiter row.values true hb
      exact ⟨[] ++ out, m, by simp only [hp, ho]; rfl⟩
  · obtain ⟨m, hm, hp⟩ := timeText_bad ht row.timestamp
    exact ⟨[], m, by simp only [hp, if_true, hm]⟩

/-- Which rows are printed. -/
theorem csvRowText_iff (ff : FloatFmt) (cfg : CsvOutputConfig) (row : Row) :
    (csvRowText ff cfg row).2 = .ok () ↔ TimePrintable cfg ∧ ∀ v ∈ row.values, ¬ Unprintable v := by
  constructor
  · intro h
    by_cases hb : ¬ TimePrintable cfg ∨ ∃ v ∈ row.values, Unprintable v
    · obtain ⟨out, m, ho⟩ := csvRowText_bad (ff := ff) hb
      rw [ho] at h; simp at h
    · simp only [not_or, Classical.not_not, not_exists, not_and] at hb
      exact hb
  · rintro ⟨h1, h2⟩
    obtain ⟨_, _, _, _, h⟩ := csvRowText_ok (ff := ff) h1 h2
    rw [h]

theorem csvHeaderNames_false : ∀ ns, csvHeaderNames false ns = tailStr [','] ns
  | [] => rfl
  | n :: ns => by rw [csvHeaderNames]; simp [tailStr, csvHeaderNames_false ns]

theorem csvHeaderNames_true : ∀ ns, csvHeaderNames true ns = joinChar ',' ns
  | [] => rfl
  | n :: ns => by rw [csvHeaderNames]; simp [csvHeaderNames_false ns, ← joinStr_char, joinStr_cons]

theorem csvHeaderText_eq {cfg : CsvOutputConfig} {names : List Str} (h : ¬ (cfg.printTimeCol = true ∧ names = [])) :
    csvHeaderText cfg names = joinChar ',' ((if cfg.printTimeCol then [cfg.timeColName] else []) ++ names) ++ ['\n'] := by
  unfold csvHeaderText
  rw [csvHeaderNames_true]
  by_cases hp : cfg.printTimeCol = true
  · simp only [hp, if_true, List.singleton_append]
    cases names with
    | nil => exact absurd ⟨hp, rfl⟩ h
    | cons n ns => simp [joinChar]
  · simp [hp]

theorem joinChar_mem {d c : Char} : ∀ {ps : List Str}, c ∈ joinChar d ps → c = d ∨ ∃ p ∈ ps, c ∈ p
  | [], h => by simp [joinChar] at h
  | [p], h => .inr ⟨p, by simp, h⟩
  | p :: q :: ps, h => by
    simp only [joinChar, List.mem_append, List.mem_cons] at h
    rcases h with h | h | h
    · exact .inr ⟨p, by simp, h⟩
    · exact .inl h
    · rcases joinChar_mem h with h | ⟨p', h1, h2⟩
      · exact .inl h
      · exact .inr ⟨p', by simp [h1], h2⟩

end Chopper
