import Verif.Spec.CsvCopy
import Verif.Proofs.CsvRead
import Verif.Props.Cli
import Verif.Props.Input3

/-! # Copying CSV files: lemmas -/
namespace Chopper
open Chopper Chopper.Spec

/-- With these settings a file with these bytes is read as a table with these names and records, however the reads are chopped up; `time` is the time of a record. -/
def ReadsBytes (env : CsvEnv) (cfg : CsvInputConfig env.lib) (data : List Byte) (names : List Str) (time : List Str → Nanos) (recs : List (List Str)) : Prop :=
  ∀ inner : Inner, NoFail inner → inner.data = data → ∃ p src, Previewer.new defaultBufSize inner = .ok p ∧ csvOpen env cfg p = .ok src ∧
    src.toFile env cfg.tz = ⟨⟨names, List.replicate names.length .string⟩, ⟨recs.map fun rec => ⟨time rec, rec.map .string⟩, .eof⟩⟩

/-- With these settings a file with these names and records, separated by `d`, is read as such, however the reads are chopped up; `time` is the time of a record. -/
def ReadsTable (env : CsvEnv) (cfg : CsvInputConfig env.lib) (d : Char) (names : List Str) (time : List Str → Nanos) (recs : List (List Str)) : Prop :=
  ReadsBytes env cfg (utf8Encode (csvText d (names :: recs))) names time recs

/-- The previewer of a reader that does not fail. -/
theorem preview_ok {inner : Inner} (hi : NoFail inner) : ∃ p, Previewer.new defaultBufSize inner = .ok p ∧ p.reader.Inv ∧ p.reader.pending = inner.data ∧
      (∀ pieces rest, IsLines (inner.data.take defaultBufSize) pieces rest →
        p.lines = decodeAll ((pieces ++ if rest = [] ∨ defaultBufSize ≤ inner.data.length then [] else [rest]).map dropCr)) ∧ NoFail p.reader.inner := by
  rcases previewer_spec defaultBufSize (by decide) inner with ⟨p, h1, h2, h3, _, h4, h5, _⟩ | ⟨e, _, he⟩
  · exact ⟨p, h1, h2, h3, h4, h5 hi⟩
  · exact absurd he (hi e)

/-- A file for which delimiter and whether there is a header line are known, that is parsed as these records, whose time column is found and whose times can be read. -/
theorem reads_parsed_as (env : CsvEnv) (cfg : CsvInputConfig env.lib) {b : Byte} {hh : Bool} {data : List Byte} {first : List Str} {rest : List (List Str)} {names : List Str}
    (hset : ∀ (inner : Inner) (p : Previewer), inner.data = data → (∀ pieces rest, IsLines (inner.data.take defaultBufSize) pieces rest →
        p.lines = decodeAll ((pieces ++ if rest = [] ∨ defaultBufSize ≤ inner.data.length then [] else [rest]).map dropCr)) →
      csvOpen env cfg p = csvOpen env ⟨some b, if hh then .yes else .no, cfg.tsCol, cfg.tsFmt, cfg.tz⟩ p)
    (hp : ∀ (inner : Inner) (p : Previewer), NoFail inner → inner.data = data → Previewer.new defaultBufSize inner = .ok p →
      (env.csv.parse b hh p.reader).records = (first :: rest).map .ok ∧ csvNames hh (env.csv.parse b hh p.reader).headers first.length = .ok names)
    (hw : ∀ rec ∈ first :: rest, rec.length = names.length) {time : List Str → Nanos} {col : TimestampCol} {fmt : TimestampFmt}
    (hcf : getTimestampColAndFmt env.lower env.lib cfg.tz names first cfg.tsCol cfg.tsFmt = .ok (col, fmt))
    (hget : ∀ rec ∈ first :: rest, getTimestamp env.ov env.lib cfg.tz rec col fmt = .ok (time rec)) : ReadsBytes env cfg data names time (first :: rest) := by
  intro inner hi hdata
  obtain ⟨p, hpn, hinv, hpend, hlines, hnf⟩ := preview_ok hi
  obtain ⟨hrecs, hnames⟩ := hp inner p hi hdata hpn
  have hopen0 := hset inner p hdata hlines
  have hhh : ∀ l1 l2, csvHasHeader env.isF64 (if hh then .yes else .no) l1 l2 b = hh := by
    intro l1 l2
    cases hh <;> rfl
  have hreads : ReadsRecords env ⟨some b, if hh then .yes else .no, cfg.tsCol, cfg.tsFmt, cfg.tz⟩ p (env.csv.parse b hh p.reader).headers (.ok first :: rest.map .ok) := by
    refine ⟨b, rfl, ?_⟩
    rw [hhh]
    exact (show env.csv.parse b hh p.reader = ⟨(env.csv.parse b hh p.reader).headers, (env.csv.parse b hh p.reader).records⟩ from rfl).trans (by rw [hrecs]; rfl)
  have hts1 := hget first (by simp)
  have hopen : csvOpen env ⟨some b, if hh then .yes else .no, cfg.tsCol, cfg.tsFmt, cfg.tz⟩ p =
      .ok ⟨rest.map .ok, ⟨names, List.replicate first.length .string⟩, col, fmt, ⟨time first, first.map .string⟩, true⟩ := by
    unfold csvOpen
    simp only [csvDelimiter, Res.bind_ok, hhh]
    unfold csvStart
    simp only [hrecs, List.map_cons, Res.bind_ok, hnames, hcf]
    unfold updateRow
    simp only [setValues_eq, List.length_replicate, Nat.le_refl, if_true, hts1, Res.bind_ok]
    rw [overlay_all]
  obtain ⟨ts, hts, fin, hy, hend⟩ := Props.C44_own_fields_partial env ⟨some b, if hh then .yes else .no, cfg.tsCol, cfg.tsFmt, cfg.tz⟩ p _ first (rest.map fun rec => (rec, time rec)) _
    (by rw [List.map_map]; exact hreads) hopen (by
    intro r hm
    obtain ⟨rec, hm', rfl⟩ := List.mem_map.1 hm
    exact ⟨by rw [hw rec (List.mem_cons_of_mem _ hm'), hw first (by simp)], hget rec (List.mem_cons_of_mem _ hm')⟩)
  have htsv : ts = time first := by
    simp only [hts1] at hts
    exact (Res.ok.inj hts).symm
  subst htsv
  refine ⟨p, _, hpn, hopen0.trans hopen, ?_⟩
  have hruns := csv_toFile_runs env cfg.tz (⟨rest.map .ok, ⟨names, List.replicate first.length .string⟩, col, fmt, ⟨time first, first.map .string⟩, true⟩ : CsvSource)
  have hmine : RunsAs (CsvSource.nextRow env cfg.tz) (⟨rest.map .ok, ⟨names, List.replicate first.length .string⟩, col, fmt, ⟨time first, first.map .string⟩, true⟩ : CsvSource)
      ⟨(first :: rest).map fun rec => ⟨time rec, rec.map .string⟩, .eof⟩ := by
    refine ⟨fin, ?_, ?_⟩
    · rw [List.map_map] at hy; exact hy
    · simp only [hend]
  have hu := runsAs_unique hruns hmine
  have hf : first.length = names.length := hw first (by simp)
  unfold CsvSource.toFile at hu ⊢
  simp only at hu ⊢
  rw [hu, hf]

/-- A file with a header line whose delimiter is known, that is parsed as these records, whose time column is found and whose times can be read. -/
theorem reads_parsed (env : CsvEnv) (cfg : CsvInputConfig env.lib) {b : Byte} {data : List Byte} {first : List Str} {rest : List (List Str)} {names : List Str}
    (hset : ∀ (inner : Inner) (p : Previewer), inner.data = data → (∀ pieces rest, IsLines (inner.data.take defaultBufSize) pieces rest →
        p.lines = decodeAll ((pieces ++ if rest = [] ∨ defaultBufSize ≤ inner.data.length then [] else [rest]).map dropCr)) →
      csvOpen env cfg p = csvOpen env ⟨some b, .yes, cfg.tsCol, cfg.tsFmt, cfg.tz⟩ p)
    (hp : ∀ (inner : Inner) (p : Previewer), NoFail inner → inner.data = data → Previewer.new defaultBufSize inner = .ok p → env.csv.parse b true p.reader = ⟨.ok names, (first :: rest).map .ok⟩)
    (hw : ∀ rec ∈ first :: rest, rec.length = names.length) {time : List Str → Nanos} {col : TimestampCol} {fmt : TimestampFmt}
    (hcf : getTimestampColAndFmt env.lower env.lib cfg.tz names first cfg.tsCol cfg.tsFmt = .ok (col, fmt))
    (hget : ∀ rec ∈ first :: rest, getTimestamp env.ov env.lib cfg.tz rec col fmt = .ok (time rec)) : ReadsBytes env cfg data names time (first :: rest) := by
  refine reads_parsed_as env cfg (hh := true) hset (fun inner p hi hdata hpn => ?_) hw hcf hget
  rw [hp inner p hi hdata hpn]
  exact ⟨rfl, rfl⟩

/-- A plain table whose delimiter and header line are known, whose time column is found and whose times can be read. -/
theorem reads_table (env : CsvEnv) (hc : ReadsPlain env.csv) (cfg : CsvInputConfig env.lib) {d : Char} {b : Byte} (hd : d.toNat < 128) (hb : b.toNat = d.toNat) (hq : d ≠ '"')
    (hn : d ≠ '\n') (hr : d ≠ '\r') {first : List Str} {rest : List (List Str)} {names : List Str}
    (hset : ∀ (inner : Inner) (p : Previewer), inner.data = utf8Encode (csvText d (names :: first :: rest)) → (∀ pieces rest, IsLines (inner.data.take defaultBufSize) pieces rest →
        p.lines = decodeAll ((pieces ++ if rest = [] ∨ defaultBufSize ≤ inner.data.length then [] else [rest]).map dropCr)) →
      csvOpen env cfg p = csvOpen env ⟨some b, .yes, cfg.tsCol, cfg.tsFmt, cfg.tz⟩ p) (hplain : PlainTable d (names :: first :: rest))
    (hw : ∀ rec ∈ first :: rest, rec.length = names.length) {time : List Str → Nanos} {col : TimestampCol} {fmt : TimestampFmt}
    (hcf : getTimestampColAndFmt env.lower env.lib cfg.tz names first cfg.tsCol cfg.tsFmt = .ok (col, fmt))
    (hget : ∀ rec ∈ first :: rest, getTimestamp env.ov env.lib cfg.tz rec col fmt = .ok (time rec)) : ReadsTable env cfg d names time (first :: rest) := by
  refine reads_parsed env cfg hset (fun inner p hi hdata hpn => ?_) hw hcf hget
  obtain ⟨p', hpn', hinv, hpend, _, hnf⟩ := preview_ok hi
  obtain rfl : p' = p := Res.ok.inj (hpn'.symm.trans hpn)
  exact (hc d b _ p'.reader hd hb hq hn hr hplain hinv.pos hinv.cap hnf (by rw [← hdata, ← hpend]; rfl)).2 _ _ rfl

/-- A plain table, read with explicit settings, gives its header and one row per record. -/
theorem csv_table_read (env : CsvEnv) (hc : ReadsPlain env.csv) (cfg : CsvInputConfig env.lib) {d : Char} {b : Byte} (hd : d.toNat < 128) (hb : b.toNat = d.toNat) (hq : d ≠ '"')
    (hn : d ≠ '\n') (hr : d ≠ '\r') (hdel : cfg.delimiter = some b) (hhead : cfg.hasHeader = .yes) {c : Nat} {u : TimestampUnits} (hcol : cfg.tsCol = .index c) (hfmt : cfg.tsFmt = .epoch u)
    {names : List Str} {recs : List (List Str)} (hplain : PlainTable d (names :: recs)) (hne : recs ≠ []) (hw : ∀ rec ∈ recs, rec.length = names.length) {time : List Str → Nanos}
    (htime : ∀ rec ∈ recs, TimeIn c u rec (time rec)) : ReadsTable env cfg d names time recs := by
  obtain ⟨first, rest, rfl⟩ := List.exists_cons_of_ne_nil hne
  refine reads_table env hc cfg hd hb hq hn hr ?_ hplain hw (col := .index c) (fmt := .units u) ?_ ?_
  · intro _ p _ _
    rw [← hdel, ← hhead]
  · unfold getTimestampColAndFmt
    rw [hcol, hfmt]
    rfl
  · intro rec hm
    obtain ⟨t, h1, h2, h3⟩ := htime rec hm
    obtain ⟨ts, h4, h5⟩ := (Props.C11_units_partial env.ov env.lib cfg.tz u rec c t h1).1 t (.inl rfl) h2 (by rw [h3]; exact (time rec).isLt)
    rw [h4, BitVec.eq_of_toNat_eq (h5.trans h3)]

theorem valueText_string {ff : FloatFmt} {s t : Str} (h : ValueText ff (.string s) t) : t = s := by
  cases h
  rfl

/-- Rows of strings are printed as they are. -/
theorem csvLines_strings {ff : FloatFmt} {cfg : CsvOutputConfig} (hd : cfg.delimiter = [',']) (hp : cfg.printTimeCol = false) {rows : List Row} {body : Str}
    (h : CsvLines ff cfg rows body) : ∀ {recs : List (List Str)} {time : List Str → Nanos}, rows = recs.map (fun rec => ⟨time rec, rec.map .string⟩) → body = csvText ',' recs := by
  induction h with
  | nil =>
    intro recs time he
    cases recs with
    | nil => rfl
    | cons r rs => simp at he
  | cons htc hv _ ih =>
    intro recs time he
    cases recs with
    | nil => simp at he
    | cons rec recs =>
      rw [List.map_cons, List.cons.injEq] at he
      obtain ⟨rfl, he⟩ := he
      rw [ih he]
      unfold TimeCol at htc
      rw [hp] at htc
      simp only [Bool.false_eq_true, if_false] at htc
      subst htc
      rename_i texts _ _
      have : texts = rec := by
        obtain ⟨hl, hv⟩ := hv
        refine List.ext_getElem (by simpa using hl) fun i h1 h2 => ?_
        exact valueText_string (hv i (.string rec[i]) texts[i] (by simp [h2]) (by simp [h1]))
      subst this
      rw [joinWith_eq, hd, joinStr_char]
      simp [csvText]

/-- The strings of a row. -/
def textsOf (r : Row) : List Str := r.values.map fun v => match v with | .string s => s | _ => []

theorem textsOf_row (ts : Nanos) (rec : List Str) : textsOf ⟨ts, rec.map .string⟩ = rec := by
  simp only [textsOf, List.map_map]
  exact List.map_id'' (fun _ => rfl) rec

end Chopper
