import Verif.Spec.CsvIso
import Verif.Proofs.CsvRead2
import Verif.Proofs.CsvCopy

/-! # Reading back CSV with human readable times: lemmas -/
namespace Chopper
open Chopper Chopper.Spec

theorem previewer_opens (inner : Inner) (hi : NoFail inner) :
    ∃ p, Previewer.new defaultBufSize inner = .ok p ∧ p.reader.pos ≤ p.reader.cap ∧ p.reader.cap ≤ p.reader.buf.length ∧ NoFail p.reader.inner ∧
      stillToCome p.reader = inner.data ∧
      (∀ pieces rest, IsLines (inner.data.take defaultBufSize) pieces rest →
        p.lines = decodeAll ((pieces ++ if rest = [] ∨ defaultBufSize ≤ inner.data.length then [] else [rest]).map dropCr)) := by
  rcases previewer_spec defaultBufSize (by decide) inner with ⟨p, hpn, hinv, hpend, _, hl, hnf, _⟩ | ⟨e, _, he⟩
  · exact ⟨p, hpn, hinv.pos, hinv.cap, hnf hi, by rw [← hpend]; rfl, hl⟩
  · exact absurd he (hi e)

/-- A table of equally long records read with a known column and format. -/
theorem csv_records_read (env : CsvEnv) (cfg : CsvInputConfig env.lib) (p : Previewer) {names first : List Str} {rest : List (List Str)} {col : TimestampCol} {fmt : TimestampFmt}
    {b : Byte} (hdel : cfg.delimiter = some b) (hhead : cfg.hasHeader = .yes)
    (hparse : env.csv.parse b true p.reader = ⟨.ok names, (first :: rest).map .ok⟩)
    (hcf : getTimestampColAndFmt env.lower env.lib cfg.tz names first cfg.tsCol cfg.tsFmt = .ok (col, fmt))
    (hw : ∀ rec ∈ first :: rest, rec.length = names.length) {time : List Str → Nanos}
    (hget : ∀ rec ∈ first :: rest, getTimestamp env.ov env.lib cfg.tz rec col fmt = .ok (time rec)) :
    ∃ src, csvOpen env cfg p = .ok src ∧
      src.toFile env cfg.tz = ⟨⟨names, List.replicate names.length .string⟩, ⟨(first :: rest).map fun rec => ⟨time rec, rec.map .string⟩, .eof⟩⟩ := by
  have hreads : ReadsRecords env cfg p (.ok names) (.ok first :: rest.map .ok) := by
    refine ⟨b, by rw [hdel]; rfl, ?_⟩
    rw [hhead]
    exact hparse
  have hts1 := hget first (by simp)
  have hopen : csvOpen env cfg p = .ok ⟨rest.map .ok, ⟨names, List.replicate first.length .string⟩, col, fmt, ⟨time first, first.map .string⟩, true⟩ := by
    unfold csvOpen
    simp only [hdel, csvDelimiter, Res.bind_ok, hhead, csvHasHeader, hparse]
    simp only [csvStart, List.map_cons, Res.bind_ok, csvNames, if_true, hcf]
    unfold updateRow
    simp only [setValues_eq, List.length_replicate, Nat.le_refl, if_true, hts1, Res.bind_ok]
    rw [overlay_all]
  obtain ⟨ts, hts, fin, hy, hend⟩ := Props.C44_own_fields_partial env cfg p _ first (rest.map fun rec => (rec, time rec)) _ (by rw [List.map_map]; exact hreads) hopen (by
    intro r hm
    obtain ⟨rec, hm', rfl⟩ := List.mem_map.1 hm
    exact ⟨by rw [hw rec (List.mem_cons_of_mem _ hm'), hw first (by simp)], hget rec (List.mem_cons_of_mem _ hm')⟩)
  have htsv : ts = time first := by
    rw [hts1] at hts
    exact (Res.ok.inj hts).symm
  subst htsv
  refine ⟨_, hopen, ?_⟩
  have hruns := csv_toFile_runs env cfg.tz (⟨rest.map .ok, ⟨names, List.replicate first.length .string⟩, col, fmt, ⟨time first, first.map .string⟩, true⟩ : CsvSource)
  have hmine : RunsAs (CsvSource.nextRow env cfg.tz) (⟨rest.map .ok, ⟨names, List.replicate first.length .string⟩, col, fmt, ⟨time first, first.map .string⟩, true⟩ : CsvSource)
      ⟨(first :: rest).map fun rec => ⟨time rec, rec.map .string⟩, .eof⟩ := by
    refine ⟨fin, ?_, ?_⟩
    · rw [List.map_map] at hy; exact hy
    · simp only [hend]
  have hu := runsAs_unique hruns hmine
  have hf : first.length = names.length := hw first (by simp)
  unfold CsvSource.toFile at hu ⊢
  simp only at hu ⊢
  rw [hu, hf]

/-- The record of a row in a CSV file with human readable times. -/
def IsoRecordOf (ff : FloatFmt) (z : Int → Nat → Str → Str) (u : TimestampUnits) (r : Row) (record : List Str) : Prop :=
  ∃ texts, ValueTexts ff r.values texts ∧ record = isoText z u r.timestamp :: texts

theorem csvLines_iso {ff : FloatFmt} {cfg : CsvOutputConfig} {z : Int → Nat → Str → Str} (hd : cfg.delimiter = [',']) (hp : cfg.printTimeCol = true) (hs : cfg.style = .humanReadable)
    (hz : cfg.zone = some z) {rows : List Row} {body : Str} (h : CsvLines ff cfg rows body) :
    ∃ recs, body = csvText ',' recs ∧ recs.length = rows.length ∧ ∀ (i : Nat) r rec, rows[i]? = some r → recs[i]? = some rec → IsoRecordOf ff z cfg.units r rec := by
  induction h with
  | nil => exact ⟨[], rfl, rfl, by intro i r rec h; simp at h⟩
  | cons htc hv _ ih =>
    obtain ⟨recs, h1, h2, h3⟩ := ih
    unfold TimeCol at htc
    rw [hp, hs] at htc
    simp only [if_true] at htc
    obtain ⟨t, rfl, z', hz', ht⟩ := htc
    rw [hz] at hz'
    cases hz'
    rename_i rs0 texts0 rest0 _
    refine ⟨(t :: texts0) :: recs, ?_, by simp [h2], ?_⟩
    · rw [h1, joinWith_eq, hd, joinStr_char]
      simp [csvText]
    · intro i r rec hr hrec
      cases i with
      | zero =>
        simp only [List.getElem?_cons_zero, Option.some.injEq] at hr hrec
        subst hr hrec
        exact ⟨_, hv, by rw [ht]; rfl⟩
      | succ i => exact h3 i r rec (by simpa using hr) (by simpa using hrec)

/-- What is in a written file with human readable times. -/
theorem iso_written {ff : FloatFmt} {cfg : CsvOutputConfig} {z : Int → Nat → Str → Str}
    (hd : cfg.delimiter = [',']) (hp : cfg.printTimeCol = true) (hs : cfg.style = .humanReadable) (hz : cfg.zone = some z) (names : List Str) (rows : List Row) (body : Str)
    (hl : CsvLines ff cfg rows body) (hn : names ≠ []) (ht : PlainField ',' cfg.timeColName ∧ cfg.timeColName ≠ [] ∧ cfg.timeColName.head? ≠ some '\uFEFF')
    (hnp : ∀ n ∈ names, PlainField ',' n) (hv : ∀ r ∈ rows, ∀ v ∈ r.values, PlainValue ff ',' v)
    (hiso : ∀ r ∈ rows, PlainField ',' (isoText z cfg.units r.timestamp) ∧ isoText z cfg.units r.timestamp ≠ []) :
    ∃ recs, csvHeaderText cfg names ++ body = csvText ',' ((cfg.timeColName :: names) :: recs) ∧ PlainTable ',' ((cfg.timeColName :: names) :: recs) ∧ recs.length = rows.length ∧
      (∀ (i : Nat) r rec, rows[i]? = some r → recs[i]? = some rec → IsoRecordOf ff z cfg.units r rec) ∧
      (∀ rec ∈ recs, ∃ r ∈ rows, IsoRecordOf ff z cfg.units r rec) := by
  obtain ⟨recs, hb, hrl, hrec⟩ := csvLines_iso hd hp hs hz hl
  have htext : csvHeaderText cfg names ++ body = csvText ',' ((cfg.timeColName :: names) :: recs) := by
    rw [csvHeaderText_eq (by simp [hn]), hb, hp]
    simp [csvText]
  have hrow : ∀ rec ∈ recs, ∃ r ∈ rows, IsoRecordOf ff z cfg.units r rec := by
    intro rec hm
    obtain ⟨i, hi, rfl⟩ := List.getElem_of_mem hm
    have hi' : i < rows.length := by omega
    exact ⟨rows[i], List.getElem_mem hi', hrec i _ _ (List.getElem?_eq_getElem hi') (List.getElem?_eq_getElem hi)⟩
  refine ⟨recs, htext, ⟨?_, ?_, ?_⟩, hrl, hrec, hrow⟩
  · intro l hl t htl
    rcases List.mem_cons.1 hl with rfl | hl
    · rcases List.mem_cons.1 htl with rfl | htl
      · exact ht.1
      · exact hnp t htl
    · obtain ⟨r, hr, texts, h3, rfl⟩ := hrow l hl
      rcases List.mem_cons.1 htl with rfl | htl
      · exact (hiso r hr).1
      · exact valueTexts_plain h3 (hv r hr) t htl
  · intro l hl
    rcases List.mem_cons.1 hl with rfl | hl
    · exact (joinChar_head ht.2.1 names).1
    · obtain ⟨r, hr, texts, h3, rfl⟩ := hrow l hl
      exact (joinChar_head (hiso r hr).2 texts).1
  · have h0 := joinChar_head (d := ',') ht.2.1 names
    have : (csvText ',' ((cfg.timeColName :: names) :: recs)).head? = cfg.timeColName.head? := by
      rw [← h0.2]
      simp only [csvText, List.flatMap_cons]
      cases hj : joinChar ',' (cfg.timeColName :: names) with
      | nil => exact absurd hj h0.1
      | cons c cs => rfl
    rw [this]
    exact ht.2.2

/-- The time read from a printed time. -/
theorem iso_time {ov : Overflow} {lib : DateLib} {z : Int → Nat → Str → Str} {u : TimestampUnits} {f : Str} {ts : Nanos} (h : IsoReadable lib z u f ts)
    (hov : ov = .wraps ∨ ts.toNat < 2 ^ 63) (tz : ChopperTz lib) (texts : List Str) :
    ∃ t : Nanos, getTimestamp ov lib tz (isoText z u ts :: texts) (.index 0) (.dateTimeIncludesTz f) = .ok t ∧ t.toNat = ts.toNat / nanosPer u * nanosPer u := by
  obtain ⟨i, h1, h2, h3⟩ := h.reads
  have hle := Nat.div_mul_le_self ts.toNat (nanosPer u)
  have hlt := ts.isLt
  have hval : (BitVec.ofInt 64 i.ns).toNat = ts.toNat / nanosPer u * nanosPer u := by
    rw [h3, BitVec.ofInt_natCast, BitVec.toNat_ofNat, Nat.mod_eq_of_lt (by omega)]
  refine ⟨BitVec.ofInt 64 i.ns, ?_, hval⟩
  have e : getTimestamp ov lib tz (isoText z u ts :: texts) (.index 0) (.dateTimeIncludesTz f) = (Res.okOr .timeParsing (lib.parseTz f (isoText z u ts))).bind (timestampNanos ov) := rfl
  rw [e, h1]
  show timestampNanos ov i = _
  unfold timestampNanos
  rcases hov with rfl | hov
  · rfl
  · cases ov with
    | wraps => rfl
    | panics =>
      have : i.ns = i.secs * 1000000000 + i.nsec := rfl
      have hfit : (fitsI64 (i.secs * 1000000000) && fitsI64 i.ns) = true := by
        simp only [fitsI64, Bool.and_eq_true, decide_eq_true_eq]
        omega
      simp only [hfit, if_true]

theorem unitSuffix_none {n : Str} (h : UnitAtEnd n none) : unitSuffixOf n = none := by
  unfold unitSuffixOf
  rw [Option.map_eq_none_iff, List.find?_eq_none]
  intro p hp
  have hu : ∃ u, p.2 = unitName u := by
    simp only [timestampUnits, List.mem_cons, List.not_mem_nil, or_false] at hp
    rcases hp with rfl | rfl | rfl | rfl
    · exact ⟨.seconds, by decide⟩
    · exact ⟨.millis, by decide⟩
    · exact ⟨.micros, by decide⟩
    · exact ⟨.nanos, by decide⟩
  obtain ⟨u, hu⟩ := hu
  rw [List.isSuffixOf_iff_suffix, hu]
  exact h u

/-- Column and format found for such a file with a header line. -/
theorem iso_colAndFmt {lib : DateLib} {cfg : CsvOutputConfig} {cfg2 : CsvInputConfig lib} {f : Str} (h : ReadsIsoAs cfg cfg2 f) (lower : Str → Str) (names : List Str)
    {z : Int → Nat → Str → Str} {u : TimestampUnits} {ts : Nanos} (hr : IsoReadable lib z u f ts) (texts : List Str) :
    getTimestampColAndFmt lower lib cfg2.tz (cfg.timeColName :: names) (isoText z u ts :: texts) cfg2.tsCol cfg2.tsFmt = .ok (.index 0, .dateTimeIncludesTz f) := by
  obtain ⟨i, h1, _⟩ := hr.reads
  have hcol : getTimestampCol lower (cfg.timeColName :: names) cfg2.tsCol = .ok (.index 0, unitSuffixOf cfg.timeColName) := by
    rcases h.column with hc | hc
    · rw [hc]; rfl
    · rw [hc]
      have : getFieldIndex (cfg.timeColName :: names) cfg.timeColName = .ok 0 := by
        unfold getFieldIndex
        simp [List.findIdx?_cons, Res.okOr]
      simp only [getTimestampCol, this, Res.bind_ok]
  unfold getTimestampColAndFmt
  rw [hcol, Res.bind_ok]
  rcases h.format with hf | ⟨hf, rfl, hu⟩
  · rw [hf]
    have : getTimestampFmtFromUserSpec lib cfg2.tz (isoText z u ts :: texts) (.index 0) f = .ok (.dateTimeIncludesTz f) := by
      have e : getTimestampString (isoText z u ts :: texts) (.index 0) = .ok (isoText z u ts) := rfl
      unfold getTimestampFmtFromUserSpec
      rw [e, Res.bind_ok, if_pos (by rw [h1]; rfl)]
    simp only [this, Res.bind_ok]
  · rw [hf, unitSuffix_none hu]
    have : getTimestampFmtAuto lib cfg2.tz (isoText z u ts :: texts) none (.index 0) = .ok (.dateTimeIncludesTz "%+".toList) := by
      have e : getTimestampFmtAuto lib cfg2.tz (isoText z u ts :: texts) none (.index 0) = detectFmt lib cfg2.tz (isoText z u ts) := rfl
      have e2 : fmtIso = "%+".toList := rfl
      rw [e]
      unfold detectFmt
      rw [e2, if_pos (by rw [h1]; rfl)]
    simp only [this, Res.bind_ok]

end Chopper

namespace Chopper
open Chopper Chopper.Spec

/-- Rows with human readable times, found again once delimiter, header line, column and format are known. -/
theorem iso_rows_read (env : CsvEnv) {ff : FloatFmt} {u : TimestampUnits} {z : Int → Nat → Str → Str} {f : Str} (cfg2 : CsvInputConfig env.lib) (p : Previewer)
    {names : List Str} {rows : List Row} {recs : List (List Str)} (hdel : cfg2.delimiter = some 44) (hhead : cfg2.hasHeader = .yes)
    (hparse : env.csv.parse 44 true p.reader = ⟨.ok names, recs.map .ok⟩) (hr : rows ≠ [])
    (hcf : ∀ r ∈ rows, ∀ texts, getTimestampColAndFmt env.lower env.lib cfg2.tz names (isoText z u r.timestamp :: texts) cfg2.tsCol cfg2.tsFmt = .ok (.index 0, .dateTimeIncludesTz f))
    (hw : ∀ r ∈ rows, r.values.length + 1 = names.length) (hrl : recs.length = rows.length)
    (hrec : ∀ (i : Nat) r rec, rows[i]? = some r → recs[i]? = some rec → IsoRecordOf ff z u r rec)
    (hrow : ∀ rec ∈ recs, ∃ r ∈ rows, IsoRecordOf ff z u r rec)
    (hiso : ∀ r ∈ rows, IsoReadable env.lib z u f r.timestamp) (hov : env.ov = .wraps ∨ ∀ r ∈ rows, r.timestamp.toNat < 2 ^ 63) :
    ∃ src rows', csvOpen env cfg2 p = .ok src ∧
      src.toFile env cfg2.tz = ⟨⟨names, List.replicate names.length .string⟩, ⟨rows', .eof⟩⟩ ∧ ReadIso ff z u rows rows' := by
  have hone : ∀ r ∈ rows, ∀ rec, IsoRecordOf ff z u r rec →
      ∃ t : Nanos, getTimestamp env.ov env.lib cfg2.tz rec (.index 0) (.dateTimeIncludesTz f) = .ok t ∧ t.toNat = r.timestamp.toNat / nanosPer u * nanosPer u := by
    rintro r hr rec ⟨texts, _, rfl⟩
    exact iso_time (hiso r hr) (hov.imp id fun h => h r hr) cfg2.tz texts
  obtain ⟨first, rest, rfl⟩ := List.exists_cons_of_ne_nil (fun h => hr (by rw [h] at hrl; exact List.length_eq_zero_iff.1 hrl.symm) : recs ≠ [])
  let time (rec : List Str) : Nanos := match getTimestamp env.ov env.lib cfg2.tz rec (.index 0) (.dateTimeIncludesTz f) with | .ok t => t | _ => 0
  have htime : ∀ rec ∈ first :: rest, getTimestamp env.ov env.lib cfg2.tz rec (.index 0) (.dateTimeIncludesTz f) = .ok (time rec) := by
    intro rec hm
    obtain ⟨r, hr, h⟩ := hrow rec hm
    obtain ⟨ts, h3, _⟩ := hone r hr rec h
    simp only [time, h3]
  obtain ⟨src, h1, h2⟩ := csv_records_read env cfg2 p hdel hhead hparse (col := .index 0) (fmt := .dateTimeIncludesTz f) (by
      obtain ⟨r, hr, texts, _, rfl⟩ := hrow first (by simp)
      exact hcf r hr texts) (by
      intro rec hm
      obtain ⟨r, hr, texts, h3, rfl⟩ := hrow rec hm
      rw [List.length_cons, h3.1, hw r hr]) htime
  refine ⟨src, _, h1, h2, by simpa using hrl, ?_⟩
  intro i r r' hri hr'i
  have hr'2 : ∃ rec, (first :: rest)[i]? = some rec ∧ r' = ⟨time rec, rec.map .string⟩ := by
    rw [List.getElem?_map] at hr'i
    cases h : (first :: rest)[i]? with
    | none => rw [h] at hr'i; cases hr'i
    | some rec => rw [h] at hr'i; exact ⟨rec, rfl, (Option.some.inj hr'i).symm⟩
  obtain ⟨rec, hreci, rfl⟩ := hr'2
  have hro := hrec i r rec hri hreci
  obtain ⟨ts, h3, h4⟩ := hone r (List.mem_of_getElem? hri) rec hro
  have := htime rec (List.mem_of_getElem? hreci)
  rw [h3] at this
  have := Res.ok.inj this
  refine ⟨by simp only [← this, h4], ?_⟩
  obtain ⟨texts, g3, rfl⟩ := hro
  exact ⟨texts, g3, rfl⟩

end Chopper
