import Verif.Spec.CsvRead
import Verif.Proofs.Text
import Verif.Proofs.Utf8
import Verif.Proofs.Reader
import Verif.Proofs.CsvSink
import Verif.Proofs.Cli3
import Verif.Props.Csv
import Verif.Props.Timestamp
import Verif.Props.Timestamp2
import Verif.Proofs.Input2

/-! # Reading CSV back: lemmas -/
namespace Chopper
open Chopper Chopper.Spec

/-- A simple CSV reader: no quotes. -/
def plainCsv : CsvLib :=
  ⟨fun d hh r =>
    let recs := match utf8Decode (stillToCome r) with
      | some text => ((splitChar '\n' text).filter (· ≠ [])).map fun l => (splitChar (Char.ofNat d.toNat) l).map trim
      | none => []
    if hh then ⟨.ok (recs.headD []), recs.tail.map .ok⟩ else ⟨.ok [], recs.map .ok⟩⟩

theorem joinChar_notin {d c : Char} (hc : c ≠ d) : ∀ {ts : List Str}, (∀ t ∈ ts, c ∉ t) → c ∉ joinChar d ts
  | [], _ => by simp [joinChar]
  | [t], h => by simpa [joinChar] using h t (by simp)
  | t :: u :: ts, h => by
    have := joinChar_notin hc (ts := u :: ts) (fun x hx => h x (by simp [hx]))
    simp only [joinChar, List.mem_append, List.mem_cons, not_or]
    exact ⟨h t (by simp), hc, this⟩

theorem split_csvText {d : Char} (hd : d ≠ '\n') : ∀ {lines : List (List Str)}, (∀ l ∈ lines, ∀ t ∈ l, '\n' ∉ t) →
    splitChar '\n' (csvText d lines) = lines.map (joinChar d) ++ [[]]
  | [], _ => rfl
  | l :: ls, h => by
    have ih := split_csvText hd (lines := ls) (fun x hx => h x (by simp [hx]))
    have : csvText d (l :: ls) = joinChar d l ++ '\n' :: csvText d ls := by simp [csvText]
    rw [this, splitChar_cons (joinChar_notin hd.symm (h l (by simp))), ih]
    rfl

theorem trim_self {t : Str} (h : IsTrimmed t t) : trim t = t := isTrimmed_unique (trim_spec t) h

theorem plainCsv_reads : ReadsPlain plainCsv := by
  intro d b lines r hd hb hq hn hr hp h1 h2 h3 h4
  have hrecs : ((splitChar '\n' (csvText d lines)).filter (· ≠ [])).map (fun l => (splitChar (Char.ofNat b.toNat) l).map trim) = lines := by
    rw [split_csvText hn (fun l hl t ht => (hp.plain l hl t ht).noLf), hb, Char.ofNat_toNat, List.filter_append]
    have e1 : (lines.map (joinChar d)).filter (· ≠ []) = lines.map (joinChar d) := by
      rw [List.filter_eq_self]
      intro x hx
      obtain ⟨l, hl, rfl⟩ := List.mem_map.1 hx
      simpa using hp.nonempty l hl
    rw [e1]
    simp only [ne_eq, not_true_eq_false, decide_false, Bool.false_eq_true, not_false_eq_true, List.filter_cons_of_neg, List.filter_nil, List.append_nil, List.map_map]
    have : ∀ l ∈ lines, ((fun l => (splitChar d l).map trim) ∘ joinChar d) l = l := by
      intro l hl
      have hne : l ≠ [] := by
        rintro rfl
        exact hp.nonempty _ hl rfl
      simp only [Function.comp_apply]
      rw [splitChar_join hne (fun t ht => (hp.plain l hl t ht).noDelim)]
      have : ∀ t ∈ l, trim t = t := fun t ht => trim_self (hp.plain l hl t ht).trimmed
      clear hne hl
      induction l with
      | nil => rfl
      | cons t l ih => rw [List.map_cons, this t (by simp), ih fun x hx => this x (by simp [hx])]
    rw [List.map_congr_left this, List.map_id']
  constructor
  · simp only [plainCsv, h4, utf8Decode_encode, hrecs, Bool.false_eq_true, if_false]
  · intro h t hl
    subst hl
    simp only [plainCsv, h4, utf8Decode_encode, hrecs, if_true]
    rfl

theorem isTrimmed_self {t : Str} (h : ∀ c ∈ t, isWhite c = false) : IsTrimmed t t :=
  (isTrimmed_white _ _).2 ⟨[], [], by simp, rfl, rfl, fun c hc => h c (List.mem_of_mem_head? hc), fun c hc => h c (List.mem_of_getLast? hc)⟩

theorem digit_notWhite {c : Char} (h : 48 ≤ c.toNat ∧ c.toNat ≤ 57) : isWhite c = false := by
  unfold isWhite
  simp only [Bool.or_eq_false_iff, Bool.and_eq_false_iff, decide_eq_false_iff_not, beq_eq_false_iff_ne]
  omega

/-- The characters of printed numbers. -/
def numChar (c : Char) : Prop := c = '-' ∨ (48 ≤ c.toNat ∧ c.toNat ≤ 57)

theorem numChars_plain {t : Str} (h : ∀ c ∈ t, numChar c) : PlainField ',' t := by
  refine ⟨?_, ?_, ?_, ?_, isTrimmed_self ?_⟩
  · intro hc; rcases h _ hc with h | h <;> revert h <;> decide
  · intro hc; rcases h _ hc with h | h <;> revert h <;> decide
  · intro hc; rcases h _ hc with h | h <;> revert h <;> decide
  · intro hc; rcases h _ hc with h | h <;> revert h <;> decide
  · intro c hc
    rcases h c hc with rfl | h
    · decide
    · exact digit_notWhite h

theorem digits_plain {t : Str} (h : Digits t) : PlainField ',' t := numChars_plain fun c hc => .inr (h.2 c hc)

theorem signed_plain {t : Str} {z : Int} (h : SignedText t z) : PlainField ',' t := by
  rcases h with ⟨_, h, _⟩ | ⟨_, d, rfl, h, _⟩
  · exact digits_plain h
  · refine numChars_plain fun c hc => ?_
    rcases List.mem_cons.1 hc with rfl | hc
    · exact .inl rfl
    · exact .inr (h.2 c hc)

theorem valueText_plain {ff : FloatFmt} {v : FieldValue} {t : Str} (h : ValueText ff v t) (hp : PlainValue ff ',' v) : PlainField ',' t := by
  cases h with
  | byte h _ => exact digits_plain h
  | char h _ => exact digits_plain h
  | double => exact hp
  | float => exact hp
  | int h => exact signed_plain h
  | long h => exact signed_plain h
  | short h => exact signed_plain h
  | string => exact hp
  | none => exact numChars_plain fun c hc => by cases hc

theorem valueTexts_plain {ff : FloatFmt} {vs : List FieldValue} {ts : List Str} (h : ValueTexts ff vs ts) (hp : ∀ v ∈ vs, PlainValue ff ',' v) :
    ∀ t ∈ ts, PlainField ',' t := by
  intro t ht
  obtain ⟨i, hi, rfl⟩ := List.getElem_of_mem ht
  have hi' : i < vs.length := by rw [← h.1]; exact hi
  exact valueText_plain (h.2 i vs[i] ts[i] (List.getElem?_eq_getElem hi') (List.getElem?_eq_getElem hi)) (hp _ (List.getElem_mem hi'))

/-- The record of a row in a CSV file with times in units `u`. -/
def RecordOf (ff : FloatFmt) (u : TimestampUnits) (r : Row) (record : List Str) : Prop :=
  ∃ t texts, Digits t ∧ decimalValue t = r.timestamp.toNat / nanosPer u ∧ ValueTexts ff r.values texts ∧ record = t :: texts

theorem csvLines_records {ff : FloatFmt} {cfg : CsvOutputConfig} (hd : cfg.delimiter = [',']) (hp : cfg.printTimeCol = true) (hs : cfg.style = .epoch) {rows : List Row}
    {body : Str} (h : CsvLines ff cfg rows body) :
    ∃ recs, body = csvText ',' recs ∧ recs.length = rows.length ∧ ∀ (i : Nat) r rec, rows[i]? = some r → recs[i]? = some rec → RecordOf ff cfg.units r rec := by
  induction h with
  | nil => exact ⟨[], rfl, rfl, by intro i r rec h; simp at h⟩
  | cons htc hv _ ih =>
    obtain ⟨recs, h1, h2, h3⟩ := ih
    unfold TimeCol at htc
    rw [hp, hs] at htc
    simp only [if_true] at htc
    obtain ⟨t, rfl, ht⟩ := htc
    rename_i rs0 texts0 rest0 _
    refine ⟨(t :: texts0) :: recs, ?_, by simp [h2], ?_⟩
    · rw [h1, joinWith_eq, hd, joinStr_char]
      simp [csvText]
    · intro i r rec hr hrec
      cases i with
      | zero =>
        simp only [List.getElem?_cons_zero, Option.some.injEq] at hr hrec
        subst hr hrec
        exact ⟨t, _, ht.1, ht.2, hv, rfl⟩
      | succ i => exact h3 i r rec (by simpa using hr) (by simpa using hrec)

theorem joinChar_head {d : Char} {t : Str} (ht : t ≠ []) : ∀ ts : List Str, joinChar d (t :: ts) ≠ [] ∧ (joinChar d (t :: ts)).head? = t.head?
  | [] => ⟨ht, rfl⟩
  | u :: ts => by
    cases t with
    | nil => exact absurd rfl ht
    | cons c t => simp [joinChar]

theorem colAndFmt_first {lib : DateLib} {cfg : CsvOutputConfig} {cfg2 : CsvInputConfig lib} (h : ReadsAs cfg cfg2) (lower : Str → Str) (names first : List Str) :
    getTimestampColAndFmt lower lib cfg2.tz (cfg.timeColName :: names) first cfg2.tsCol cfg2.tsFmt = .ok (.index 0, .units cfg.units) := by
  unfold getTimestampColAndFmt
  rw [h.format]
  rcases h.column with hc | hc
  · rw [hc]; rfl
  · rw [hc]
    have : getFieldIndex (cfg.timeColName :: names) cfg.timeColName = .ok 0 := by
      unfold getFieldIndex
      simp [List.findIdx?_cons, Res.okOr]
    simp only [getTimestampCol, this, Res.bind_ok]

theorem record_time (ov : Overflow) (lib : DateLib) (tz : ChopperTz lib) {ff : FloatFmt} {u : TimestampUnits} {r : Row} {rec : List Str} (h : RecordOf ff u r rec) :
    ∃ ts : Nanos, getTimestamp ov lib tz rec (.index 0) (.units u) = .ok ts ∧ ts.toNat = r.timestamp.toNat / nanosPer u * nanosPer u := by
  obtain ⟨t, texts, h1, h2, _, rfl⟩ := h
  have hle := Nat.div_mul_le_self r.timestamp.toNat (nanosPer u)
  have hlt := r.timestamp.isLt
  obtain ⟨ts, h3, h4⟩ := (Props.C11_units_partial ov lib tz u (t :: texts) 0 t rfl).1 t (.inl rfl) h1 (by rw [h2]; omega)
  exact ⟨ts, h3, by rw [h4, h2]⟩

theorem overlay_all (l : List Str) : overlay (List.replicate l.length .none) l = l.map .string := by
  unfold overlay
  rw [List.drop_eq_nil_of_le (by simp), List.append_nil]

theorem csv_written (env : CsvEnv) (hc : ReadsPlain env.csv) {ff : FloatFmt} {cfg : CsvOutputConfig}
    (hd : cfg.delimiter = [',']) (hp : cfg.printTimeCol = true) (hs : cfg.style = .epoch) (names : List Str) (rows : List Row) (body : Str)
    (hl : CsvLines ff cfg rows body) (hn : names ≠ []) (ht : PlainField ',' cfg.timeColName ∧ cfg.timeColName ≠ [] ∧ cfg.timeColName.head? ≠ some '\uFEFF')
    (hnp : ∀ n ∈ names, PlainField ',' n) (hv : ∀ r ∈ rows, ∀ v ∈ r.values, PlainValue ff ',' v) (inner : Inner) (hi : NoFail inner)
    (hdata : inner.data = utf8Encode (csvHeaderText cfg names ++ body)) :
    ∃ recs p, inner.data = utf8Encode (csvText ',' ((cfg.timeColName :: names) :: recs)) ∧ PlainTable ',' ((cfg.timeColName :: names) :: recs) ∧ recs.length = rows.length ∧
      (∀ (i : Nat) r rec, rows[i]? = some r → recs[i]? = some rec → RecordOf ff cfg.units r rec) ∧ Previewer.new defaultBufSize inner = .ok p ∧
      (∀ pieces rest, IsLines (inner.data.take defaultBufSize) pieces rest →
        p.lines = decodeAll ((pieces ++ if rest = [] ∨ defaultBufSize ≤ inner.data.length then [] else [rest]).map dropCr)) ∧
      env.csv.parse 44 true p.reader = ⟨.ok (cfg.timeColName :: names), recs.map .ok⟩ := by
  obtain ⟨recs, hb, hrl, hrec⟩ := csvLines_records hd hp hs hl
  -- the text is a plain table
  have htext : csvHeaderText cfg names ++ body = csvText ',' ((cfg.timeColName :: names) :: recs) := by
    rw [csvHeaderText_eq (by simp [hn]), hb, hp]
    simp [csvText]
  have hrow : ∀ rec ∈ recs, ∃ r ∈ rows, RecordOf ff cfg.units r rec := by
    intro rec hm
    obtain ⟨i, hi, rfl⟩ := List.getElem_of_mem hm
    have hi' : i < rows.length := by omega
    exact ⟨rows[i], List.getElem_mem hi', hrec i _ _ (List.getElem?_eq_getElem hi') (List.getElem?_eq_getElem hi)⟩
  have hplain : PlainTable ',' ((cfg.timeColName :: names) :: recs) := by
    refine ⟨?_, ?_, ?_⟩
    · intro l hl t htl
      rcases List.mem_cons.1 hl with rfl | hl
      · rcases List.mem_cons.1 htl with rfl | htl
        · exact ht.1
        · exact hnp t htl
      · obtain ⟨r, hr, t', texts, h1, _, h3, rfl⟩ := hrow l hl
        rcases List.mem_cons.1 htl with rfl | htl
        · exact digits_plain h1
        · exact valueTexts_plain h3 (hv r hr) t htl
    · intro l hl
      rcases List.mem_cons.1 hl with rfl | hl
      · exact (joinChar_head ht.2.1 names).1
      · obtain ⟨r, hr, t', texts, h1, _, h3, rfl⟩ := hrow l hl
        exact (joinChar_head h1.1 texts).1
    · have h0 := joinChar_head (d := ',') ht.2.1 names
      have : (csvText ',' ((cfg.timeColName :: names) :: recs)).head? = cfg.timeColName.head? := by
        rw [← h0.2]
        simp only [csvText, List.flatMap_cons]
        cases hj : joinChar ',' (cfg.timeColName :: names) with
        | nil => exact absurd hj h0.1
        | cons c cs => rfl
      rw [this]
      exact ht.2.2
  -- the library reads it
  obtain ⟨p, hpn, hinv, hpend, _, hlines, hnf, _⟩ : ∃ p, Previewer.new defaultBufSize inner = .ok p ∧ p.reader.Inv ∧ p.reader.pending = inner.data ∧ p.trimmed = inner.data.take defaultBufSize ∧
      (∀ pieces rest, IsLines (inner.data.take defaultBufSize) pieces rest →
        p.lines = decodeAll ((pieces ++ if rest = [] ∨ defaultBufSize ≤ inner.data.length then [] else [rest]).map dropCr)) ∧
      (NoFail inner → NoFail p.reader.inner) ∧ p.reader.inner.ending = inner.ending ∧ (inner.data.length < defaultBufSize → inner.ending = none) := by
    rcases previewer_spec defaultBufSize (by decide) inner with h | ⟨e, _, he⟩
    · exact h
    · exact absurd he (hi e)
  have hparse := (hc ',' 44 _ p.reader (by decide) (by decide) (by decide) (by decide) (by decide) hplain hinv.pos hinv.cap (hnf hi)
    (by rw [← htext, ← hdata, ← hpend]; rfl)).2 _ _ rfl
  exact ⟨recs, p, by rw [← htext]; exact hdata, hplain, hrl, hrec, hpn, hlines, hparse⟩

theorem csv_read_again (env : CsvEnv) (hc : ReadsPlain env.csv) {ff : FloatFmt} {cfg : CsvOutputConfig} {cfg2 : CsvInputConfig env.lib} (h2 : ReadsAs cfg cfg2)
    (hd : cfg.delimiter = [',']) (hp : cfg.printTimeCol = true) (hs : cfg.style = .epoch) (names : List Str) (rows : List Row) (body : Str)
    (hl : CsvLines ff cfg rows body) (hn : names ≠ []) (hr : rows ≠ []) (hw : ∀ r ∈ rows, r.values.length = names.length)
    (ht : PlainField ',' cfg.timeColName ∧ cfg.timeColName ≠ [] ∧ cfg.timeColName.head? ≠ some '\uFEFF') (hnp : ∀ n ∈ names, PlainField ',' n)
    (hv : ∀ r ∈ rows, ∀ v ∈ r.values, PlainValue ff ',' v) (inner : Inner) (hi : NoFail inner) (hdata : inner.data = utf8Encode (csvHeaderText cfg names ++ body)) :
    ∃ p src rows', Previewer.new defaultBufSize inner = .ok p ∧ csvOpen env cfg2 p = .ok src ∧
      src.toFile env cfg2.tz = ⟨⟨cfg.timeColName :: names, List.replicate (names.length + 1) .string⟩, ⟨rows', .eof⟩⟩ ∧ ReadAgain ff cfg.units rows rows' := by
  obtain ⟨recs, p, _, _, hrl, hrec, hpn, _, hparse⟩ := csv_written env hc hd hp hs names rows body hl hn ht hnp hv inner hi hdata
  have hrow : ∀ rec ∈ recs, ∃ r ∈ rows, RecordOf ff cfg.units r rec := by
    intro rec hm
    obtain ⟨i, hi, rfl⟩ := List.getElem_of_mem hm
    have hi' : i < rows.length := by omega
    exact ⟨rows[i], List.getElem_mem hi', hrec i _ _ (List.getElem?_eq_getElem hi') (List.getElem?_eq_getElem hi)⟩
  have hne : recs ≠ [] := by
    intro h
    rw [h] at hrl
    exact hr (List.length_eq_zero_iff.1 hrl.symm)
  obtain ⟨first, rest, rfl⟩ := List.exists_cons_of_ne_nil hne
  have hreads : ReadsRecords env cfg2 p (.ok (cfg.timeColName :: names)) (.ok first :: rest.map .ok) := by
    refine ⟨44, by rw [h2.delimiter]; rfl, ?_⟩
    rw [h2.header]
    exact hparse
  have hwid : ∀ rec ∈ first :: rest, rec.length = names.length + 1 := by
    intro rec hm
    obtain ⟨r, hr, t', texts, _, _, h3, rfl⟩ := hrow rec hm
    rw [List.length_cons, h3.1, hw r hr]
  -- opening
  obtain ⟨r1, _, hr1⟩ := hrow first (by simp)
  obtain ⟨ts1, hts1, _⟩ := record_time env.ov env.lib cfg2.tz hr1
  have hopen : csvOpen env cfg2 p = .ok ⟨rest.map .ok, ⟨cfg.timeColName :: names, List.replicate first.length .string⟩, .index 0, .units cfg.units,
      ⟨ts1, first.map .string⟩, true⟩ := by
    unfold csvOpen
    simp only [h2.delimiter, csvDelimiter, Res.bind_ok, h2.header, csvHasHeader, hparse]
    simp only [csvStart, List.map_cons, Res.bind_ok, csvNames, if_true, colAndFmt_first h2]
    unfold updateRow
    simp only [setValues_eq, List.length_replicate, Nat.le_refl, if_true, hts1, Res.bind_ok]
    rw [overlay_all]
  let time (rec : List Str) : Nanos := match getTimestamp env.ov env.lib cfg2.tz rec (.index 0) (.units cfg.units) with | .ok t => t | _ => 0
  have htime : ∀ rec ∈ first :: rest, getTimestamp env.ov env.lib cfg2.tz rec (.index 0) (.units cfg.units) = .ok (time rec) := by
    intro rec hm
    obtain ⟨r, hr, h⟩ := hrow rec hm
    obtain ⟨ts, h3, _⟩ := record_time env.ov env.lib cfg2.tz h
    simp only [time, h3]
  obtain ⟨ts, hts, fin, hy, hend⟩ := Props.C44_own_fields_partial env cfg2 p _ first (rest.map fun rec => (rec, time rec)) _ (by rw [List.map_map]; exact hreads) hopen (by
    intro r hm
    obtain ⟨rec, hm', rfl⟩ := List.mem_map.1 hm
    exact ⟨by rw [hwid rec (List.mem_cons_of_mem _ hm'), hwid first (by simp)], htime rec (List.mem_cons_of_mem _ hm')⟩)
  have htsv : ts = time first := by
    have := htime first (by simp)
    rw [hts] at this
    exact (Res.ok.inj this)
  subst htsv
  refine ⟨p, _, (first :: rest).map fun rec => ⟨time rec, rec.map .string⟩, hpn, hopen, ?_, by simpa using hrl, ?_⟩
  · have hruns := csv_toFile_runs env cfg2.tz (⟨rest.map .ok, ⟨cfg.timeColName :: names, List.replicate first.length .string⟩, .index 0, .units cfg.units,
      ⟨ts1, first.map .string⟩, true⟩ : CsvSource)
    have hmine : RunsAs (CsvSource.nextRow env cfg2.tz) (⟨rest.map .ok, ⟨cfg.timeColName :: names, List.replicate first.length .string⟩, .index 0, .units cfg.units,
      ⟨ts1, first.map .string⟩, true⟩ : CsvSource) ⟨(first :: rest).map fun rec => ⟨time rec, rec.map .string⟩, .eof⟩ := by
      refine ⟨fin, ?_, ?_⟩
      · rw [List.map_map] at hy; exact hy
      · simp only [hend]
    have hu := runsAs_unique hruns hmine
    have hf : first.length = names.length + 1 := hwid first (by simp)
    unfold CsvSource.toFile at hu ⊢
    simp only at hu ⊢
    rw [hu, hf]
  · intro i r r' hri hr'i
    have hr'2 : ∃ rec, (first :: rest)[i]? = some rec ∧ r' = ⟨time rec, rec.map .string⟩ := by
      rw [List.getElem?_map] at hr'i
      cases h : (first :: rest)[i]? with
      | none => rw [h] at hr'i; cases hr'i
      | some rec => rw [h] at hr'i; exact ⟨rec, rfl, (Option.some.inj hr'i).symm⟩
    obtain ⟨rec, hreci, rfl⟩ := hr'2
    have hro := hrec i r rec hri hreci
    obtain ⟨ts, h3, h4⟩ := record_time env.ov env.lib cfg2.tz hro
    have := htime rec (List.mem_of_getElem? hreci)
    rw [h3] at this
    have := Res.ok.inj this
    refine ⟨by simp only [← this, h4], ?_⟩
    obtain ⟨t, texts, g1, g2, g3, rfl⟩ := hro
    exact ⟨t, texts, g1, g2, g3, rfl⟩

end Chopper
