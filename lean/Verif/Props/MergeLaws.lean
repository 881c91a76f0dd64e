import Verif.Proofs.Merge
import Verif.Props.Cli3
import Verif.Props.CsvCopy

/-!
# Laws of merging: ranges, stages and the order of inputs (C89, C90, C91)
-/
namespace Chopper.Props
open Chopper Chopper.Spec

/-! ### C89: a range may be processed in two parts -/

/-- Three runs that differ only in their range and output: the whole range, its part before `m` and its part from `m` on. -/
structure Chopped (e : CliEnv) (a a1 a2 : CliArgs) (st st1 st2 : CliSettings e.csv.lib) (m : Nanos) : Prop where
  whole : parseSettings e a = .ok st
  first : parseSettings e a1 = .ok st1
  second : parseSettings e a2 = .ok st2
  inputs : st1.inputs = st.inputs ∧ st2.inputs = st.inputs
  inCfg : st1.inCfg = st.inCfg ∧ st2.inCfg = st.inCfg
  outCfg : st1.outCfg = st.outCfg ∧ st2.outCfg = st.outCfg
  ranges : st1.range = ⟨st.range.beginTs, some m⟩ ∧ st2.range = ⟨some m, st.range.endTs⟩
  between : (∀ x, st.range.beginTs = some x → x ≤ m) ∧ (∀ x, st.range.endTs = some x → m ≤ x)

theorem Chopped.opens {e : CliEnv} {a a1 a2 : CliArgs} {st st1 st2 : CliSettings e.csv.lib} {m : Nanos} (h : Chopped e a a1 a2 st st1 st2 m) {files : List FileSource}
    (ho : Opens e st files) : Opens e st1 files ∧ Opens e st2 files := by
  unfold Opens at *
  rw [h.inputs.1, h.inputs.2, h.inCfg.1, h.inCfg.2]
  exact ⟨ho, ho⟩

theorem Chopped.good {e : CliEnv} {a a1 a2 : CliArgs} {st st1 st2 : CliSettings e.csv.lib} {m : Nanos} (h : Chopped e a a1 a2 st st1 st2 m) {hd : Header} {files : List FileSource}
    (h1 : GoodInputs st1.range hd files) (h2 : GoodInputs st2.range hd files) : GoodInputs st.range hd files := by
  refine ⟨h1.header, h1.sorted, fun f hf => ?_, fun f hf => ?_⟩
  · obtain ⟨r, hr, hi⟩ := h2.some f hf
    refine ⟨r, hr, ?_⟩
    rw [h.ranges.2] at hi
    simp only [inRange, Bool.and_eq_true] at *
    refine ⟨?_, hi.2⟩
    have := hi.1
    unfold notBefore at *
    cases hb : st.range.beginTs with
    | none => rfl
    | some x =>
      have hx := h.between.1 x hb
      have : m ≤ r.timestamp := by simpa using this
      have : x ≤ r.timestamp := by simp only [BitVec.le_def] at *; omega
      simpa using this
  · have := h2.readable f hf
    rw [h.ranges.2] at this
    exact this

theorem csvRowsText_append (ff : FloatFmt) (cfg : CsvOutputConfig) : ∀ (r1 r2 : List Row), (csvRowsText ff cfg r1).2 = .ok () →
    (csvRowsText ff cfg (r1 ++ r2)).1 = (csvRowsText ff cfg r1).1 ++ (csvRowsText ff cfg r2).1
  | [], r2, _ => by simp [csvRowsText]
  | r :: r1, r2, h => by
    simp only [List.cons_append, csvRowsText] at *
    rcases hr : csvRowText ff cfg r with ⟨out, _ | _ | _ | _⟩
    · rw [hr] at h
      simp only at h ⊢
      rw [csvRowsText_append ff cfg r1 r2 h, List.append_assoc]
    · rw [hr] at h; simp at h
    · rw [hr] at h; simp at h
    · rw [hr] at h; simp at h

theorem dcWriteRows_append (k : Nat) : ∀ (r1 r2 : List Row), (dcWriteRows k r1).res = .ok () → (dcWriteRows k (r1 ++ r2)).out = (dcWriteRows k r1).out ++ (dcWriteRows k r2).out
  | [], r2, _ => by simp [dcWriteRows, Wr.put]
  | r :: r1, r2, h => by
    simp only [List.cons_append, dcWriteRows, Wr.bind] at *
    cases hr : (dcWriteRow k r).res with
    | ok u =>
      rw [hr] at h
      simp only at h ⊢
      rw [dcWriteRows_append k r1 r2 h, List.append_assoc]
    | err x => rw [hr] at h; simp at h
    | panic => rw [hr] at h; simp at h
    | diverge => rw [hr] at h; simp at h

theorem dcWriteFile_append (ov : Overflow) (h : Header) (r1 r2 : List Row) (h1 : (dcWriteFile ov h r1).res = .ok ()) :
    ∃ b1 b2, (dcWriteFile ov h r1).out = (dcWriteFile ov h []).out ++ b1 ∧ (dcWriteFile ov h r2).out = (dcWriteFile ov h []).out ++ b2 ∧
      (dcWriteFile ov h (r1 ++ r2)).out = (dcWriteFile ov h []).out ++ b1 ++ b2 := by
  unfold dcWriteFile Wr.bind at *
  cases hk : (dcProcessHeader ov h).res with
  | ok k =>
    rw [hk] at h1
    simp only at h1 ⊢
    refine ⟨(dcWriteRows k r1).out, (dcWriteRows k r2).out, ?_, ?_, ?_⟩
    · simp [dcWriteRows, Wr.put]
    · simp [dcWriteRows, Wr.put]
    · rw [dcWriteRows_append k r1 r2 h1]; simp [dcWriteRows, Wr.put]
  | err x => rw [hk] at h1; simp at h1
  | panic => rw [hk] at h1; simp at h1
  | diverge => rw [hk] at h1; simp at h1

/-- **C89 (CSV).** The output of a run over a range is the header line followed by the row lines of the run over its first part, then those of the run over its second part. -/
theorem C89_csv (e : CliEnv) (a a1 a2 : CliArgs) (st st1 st2 : CliSettings e.csv.lib) (m : Nanos) (files : List FileSource) (h : Header) (d d1 d2 : Device)
    (hc : Chopped e a a1 a2 st st1 st2 m) (ho : Opens e st files) (hg1 : GoodInputs st1.range h files) (hg2 : GoodInputs st2.range h files)
    (hd : CsvTo e.out a.output d ∧ CsvTo e.out a1.output d1 ∧ CsvTo e.out a2.output d2) (hr : Reliable d ∧ Reliable d1 ∧ Reliable d2)
    (ht : st.outCfg.printTimeCol = true → st.outCfg.style = .humanReadable → st.outCfg.zone ≠ none)
    (hv : ∀ f ∈ files, ∀ r ∈ f.source.rows, ∀ v ∈ r.values, ¬ Unprintable v) :
    ∃ out out1 out2 body1 body2, (chopperCli e a).result = .ok () ∧ (chopperCli e a1).result = .ok () ∧ (chopperCli e a2).result = .ok () ∧
      (chopperCli e a).output = some out ∧ (chopperCli e a1).output = some out1 ∧ (chopperCli e a2).output = some out2 ∧
      out1.taken = d1.taken ++ utf8Encode (csvHeaderText st.outCfg h.names ++ body1) ∧ out2.taken = d2.taken ++ utf8Encode (csvHeaderText st.outCfg h.names ++ body2) ∧
      out.taken = d.taken ++ utf8Encode (csvHeaderText st.outCfg h.names ++ body1 ++ body2) := by
  obtain ⟨o1, o2⟩ := hc.opens ho
  obtain ⟨out, rows, p1, p2, p3, p4, p5, p6⟩ := csv_run_rows e a st files h d hc.whole ho (hc.good hg1 hg2) hd.1 hr.1 ht (fun f hf r hr _ => hv f hf r hr)
  obtain ⟨out1, rows1, q1, q2, q3, q4, q5, q6⟩ := csv_run_rows e a1 st1 files h d1 hc.first o1 hg1 hd.2.1 hr.2.1 (by rw [hc.outCfg.1]; exact ht) (fun f hf r hr _ => hv f hf r hr)
  obtain ⟨out2, rows2, s1, s2, s3, s4, s5, s6⟩ := csv_run_rows e a2 st2 files h d2 hc.second o2 hg2 hd.2.2 hr.2.2 (by rw [hc.outCfg.2]; exact ht) (fun f hf r hr _ => hv f hf r hr)
  rw [hc.outCfg.1] at q6 q4
  rw [hc.outCfg.2] at s6 s4
  rw [hc.ranges.1] at q3
  rw [hc.ranges.2] at s3
  have hm := isMerge_unique p3 (isMerge_chop hc.between.1 hc.between.2 q3 s3)
  refine ⟨out, out1, out2, _, _, p1, q1, s1, p2, q2, s2, q6, s6, ?_⟩
  rw [p6, hm, csvRowsText_append _ _ _ _ q4, List.append_assoc]

/-- **C89 (DC).** The same for DC output, with the DC header in place of the header line. -/
theorem C89_dc (e : CliEnv) (a a1 a2 : CliArgs) (st st1 st2 : CliSettings e.csv.lib) (m : Nanos) (files : List FileSource) (h : Header) (d d1 d2 : Device)
    (hc : Chopped e a a1 a2 st st1 st2 m) (ho : Opens e st files) (hg1 : GoodInputs st1.range h files) (hg2 : GoodInputs st2.range h files)
    (hd : DcTo e.out a.output d ∧ DcTo e.out a1.output d1 ∧ DcTo e.out a2.output d2) (hr : Reliable d ∧ Reliable d1 ∧ Reliable d2)
    (hl : h.names.length = h.types.length) (hn : 2 ≤ h.types.length) (hn2 : h.types.length < 2 ^ 32) (ht : ∀ t ∈ h.types, t ≠ .boolean ∧ t ≠ .byteBuf)
    (hnm : ∀ n ∈ h.names, (utf8Encode n).length < 2 ^ 32) (hf : ∀ f ∈ files, ∀ r ∈ f.source.rows, RowFits h.types r) :
    ∃ out out1 out2 body1 body2, (chopperCli e a).result = .ok () ∧ (chopperCli e a1).result = .ok () ∧ (chopperCli e a2).result = .ok () ∧
      (chopperCli e a).output = some out ∧ (chopperCli e a1).output = some out1 ∧ (chopperCli e a2).output = some out2 ∧
      out1.taken = d1.taken ++ ((dcWriteFile e.csv.ov h []).out ++ body1) ∧ out2.taken = d2.taken ++ ((dcWriteFile e.csv.ov h []).out ++ body2) ∧
      out.taken = d.taken ++ ((dcWriteFile e.csv.ov h []).out ++ body1 ++ body2) := by
  obtain ⟨o1, o2⟩ := hc.opens ho
  obtain ⟨out, rows, p1, p2, p3, p4, p5, p6⟩ := C61_dc e a st files h d hc.whole ho (hc.good hg1 hg2) hd.1 hr.1 hl hn hn2 ht hnm (fun f hf' r hr _ => hf f hf' r hr)
  obtain ⟨out1, rows1, q1, q2, q3, q4, q5, q6⟩ := C61_dc e a1 st1 files h d1 hc.first o1 hg1 hd.2.1 hr.2.1 hl hn hn2 ht hnm (fun f hf' r hr _ => hf f hf' r hr)
  obtain ⟨out2, rows2, s1, s2, s3, s4, s5, s6⟩ := C61_dc e a2 st2 files h d2 hc.second o2 hg2 hd.2.2 hr.2.2 hl hn hn2 ht hnm (fun f hf' r hr _ => hf f hf' r hr)
  rw [hc.ranges.1] at q3
  rw [hc.ranges.2] at s3
  have hm := isMerge_unique p3 (isMerge_chop hc.between.1 hc.between.2 q3 s3)
  obtain ⟨b1, b2, e1, e2, e3⟩ := dcWriteFile_append e.csv.ov h rows1 rows2 q5
  exact ⟨out, out1, out2, b1, b2, p1, q1, s1, p2, q2, s2, by rw [q6, e1], by rw [s6, e2], by rw [p6, hm, e3]⟩

/-! ### C90: merging in stages -/

theorem plainTable_inj {t1 t2 : List (List Str)} (h1 : PlainTable ',' t1) (h2 : PlainTable ',' t2) (h : utf8Encode (csvText ',' t1) = utf8Encode (csvText ',' t2)) : t1 = t2 := by
  have key : ∀ t, PlainTable ',' t → utf8Encode (csvText ',' t) = utf8Encode (csvText ',' t1) →
      (plainCsv.parse 44 false ⟨⟨utf8Encode (csvText ',' t1), [], none⟩, [], 0, 0⟩).records = t.map .ok := by
    intro t ht he
    exact (plainCsv_reads ',' 44 t ⟨⟨utf8Encode (csvText ',' t1), [], none⟩, [], 0, 0⟩ (by decide) (by decide) (by decide) (by decide) (by decide) ht (Nat.le_refl _) (Nat.le_refl _)
      (by rintro k (h | h) <;> cases h) (by simp [stillToCome, he])).1
  have e := (key t1 h1 rfl).symm.trans (key t2 h2 h.symm)
  exact (List.map_inj_right (fun _ _ h => Res.ok.inj h)).1 e

/-- **C90.** Some of the inputs may be merged beforehand into a file that takes their place: if the first run merges the tables `B` (over a range that contains the final one), `mid` is
what its output file contains, and the second run merges `A`, `mid` and `C`, then the second run writes exactly what a single run over all the tables writes. -/
theorem C90_stages (e1 e2 e : CliEnv) (a1 a2 a : CliArgs) (st1 : CliSettings e1.csv.lib) (st2 : CliSettings e2.csv.lib) (st : CliSettings e.csv.lib) (d : Char) (c : Nat)
    (u : TimestampUnits) (names : List Str) (A B C : List (List (List Str))) (mid : List (List Str)) (time : List Str → Nanos) (dev1 dev2 dev : Device)
    (h1 : CopyRun e1 a1 st1 d c u names B time dev1) (hmid : ∃ out, (chopperCli e1 a1).output = some out ∧ out.taken = utf8Encode (csvText ',' (names :: mid)))
    (h0 : dev1.taken = []) (hplain : ∀ recs ∈ B, PlainTable ',' (names :: recs))
    (h2 : CopyRun e2 a2 st2 ',' c u names (A ++ [mid] ++ C) time dev2) (h : CopyRun e a st ',' c u names (A ++ B ++ C) time dev)
    (hr2 : st2.range = st.range) (hr1 : ∀ t, inRange st.range t = true → inRange st1.range t = true) (hdev : dev2.taken = dev.taken) :
    ∃ out2 out, (chopperCli e2 a2).result = .ok () ∧ (chopperCli e2 a2).output = some out2 ∧ (chopperCli e a).result = .ok () ∧ (chopperCli e a).output = some out ∧
      out2.taken = out.taken := by
  obtain ⟨o1, recs1, _, p2, p3, p4⟩ := copy_run h1
  obtain ⟨out2, recs2, q1, q2, q3, q4⟩ := copy_run h2
  obtain ⟨out, recs, s1, s2, s3, s4⟩ := copy_run h
  obtain ⟨o1', r1, r2⟩ := hmid
  rw [p2] at r1
  cases r1
  have hp1 : PlainTable ',' (names :: mid) := h2.plain mid (by simp)
  -- the lines of the merged file are lines of the inputs
  have hmem : ∀ rec ∈ recs1, ∃ t ∈ B, rec ∈ t := by
    intro rec hrec
    obtain ⟨_, i, hi, hri⟩ := merge_mem p4 (List.mem_map.2 ⟨rec, hrec, rfl⟩)
    obtain ⟨t, ht, rfl⟩ := List.mem_map.1 hi
    obtain ⟨rec', hrec', heq⟩ := List.mem_map.1 hri
    have := congrArg textsOf heq
    rw [textsOf_row, textsOf_row] at this
    exact ⟨t, ht, this ▸ hrec'⟩
  have hp2 : PlainTable ',' (names :: recs1) := by
    refine ⟨?_, ?_, ?_⟩
    · intro l hl
      rcases List.mem_cons.1 hl with rfl | hl
      · exact hp1.plain l (.head _)
      · obtain ⟨t, ht, hlt⟩ := hmem l hl
        exact (hplain t ht).plain l (.tail _ hlt)
    · intro l hl
      rcases List.mem_cons.1 hl with rfl | hl
      · exact hp1.nonempty l (.head _)
      · obtain ⟨t, ht, hlt⟩ := hmem l hl
        exact (hplain t ht).nonempty l (.tail _ hlt)
    · have := hp1.noBom
      have hne := hp1.nonempty names (.head _)
      simp only [csvText, List.flatMap_cons] at this ⊢
      cases hj : joinChar ',' names with
      | nil => exact absurd hj hne
      | cons x xs => rw [hj] at this; simpa using this
  have heq : names :: recs1 = names :: mid := plainTable_inj hp2 hp1 (by rw [← r2, p3, h0, List.nil_append])
  obtain rfl : recs1 = mid := (List.cons.inj heq).2
  rw [hr2] at q4
  simp only [List.map_append, List.map_cons, List.map_nil] at q4 s4
  have hrows := congrArg (List.map textsOf) (isMerge_unique s4 (isMerge_stage hr1 p4 q4))
  rw [List.map_map, List.map_map, texts_rows, texts_rows] at hrows
  exact ⟨out2, out, q1, q2, s1, s2, by rw [q3, s3, hrows, hdev]⟩

/-! ### C91: the order of the inputs -/

theorem csvLines_all {ff : FloatFmt} {cfg : CsvOutputConfig} (ht : TimePrintable cfg) (rows : List Row) (h : ∀ r ∈ rows, ∀ v ∈ r.values, ¬ Unprintable v) :
    (csvRowsText ff cfg rows).1 = rows.flatMap fun r => (csvRowsText ff cfg [r]).1 := by
  induction rows with
  | nil => rfl
  | cons r rs ih =>
    have h1 := (csvRows_lines ff cfg ht [r] (by intro x hx; rw [List.mem_singleton] at hx; subst hx; exact h x (.head _))).1
    have := csvRowsText_append ff cfg [r] rs h1
    rw [List.singleton_append] at this
    rw [this, ih (fun x hx => h x (.tail _ hx)), List.flatMap_cons]

theorem csvLines_single {ff : FloatFmt} {cfg : CsvOutputConfig} {rows : List Row} {body : Str} (h : CsvLines ff cfg rows body) {r : Row} (hr : rows = [r]) : ∃ t, body = t ++ ['\n'] := by
  cases h with
  | nil => cases hr
  | cons _ _ hrest =>
    cases hr
    cases hrest
    exact ⟨_, List.append_nil _⟩

/-- **C91.** Giving the same inputs in another order gives the same output up to the order of the row lines; exactly the same output if no two inputs have rows at the same time. -/
theorem C91_order (e : CliEnv) (a a' : CliArgs) (st st' : CliSettings e.csv.lib) (files files' : List FileSource) (h : Header) (d d' : Device)
    (hs : parseSettings e a = .ok st) (hs' : parseSettings e a' = .ok st') (hcfg : st'.range = st.range ∧ st'.outCfg = st.outCfg)
    (ho : Opens e st files) (ho' : Opens e st' files') (hp : files.Perm files') (hg : GoodInputs st.range h files)
    (hd : CsvTo e.out a.output d) (hd' : CsvTo e.out a'.output d') (hr : Reliable d) (hr' : Reliable d')
    (ht : st.outCfg.printTimeCol = true → st.outCfg.style = .humanReadable → st.outCfg.zone ≠ none)
    (hv : ∀ f ∈ files, ∀ r ∈ f.source.rows, inRange st.range r.timestamp = true → ∀ v ∈ r.values, ¬ Unprintable v) :
    ∃ out out' lines lines', (chopperCli e a).result = .ok () ∧ (chopperCli e a').result = .ok () ∧ (chopperCli e a).output = some out ∧ (chopperCli e a').output = some out' ∧
      out.taken = d.taken ++ utf8Encode (csvHeaderText st.outCfg h.names ++ List.flatten lines) ∧
      out'.taken = d'.taken ++ utf8Encode (csvHeaderText st.outCfg h.names ++ List.flatten lines') ∧ lines.Perm lines' ∧ (∀ l ∈ lines, ∃ t, l = t ++ ['\n']) ∧
      ((files.Pairwise fun f g => ∀ x ∈ f.source.rows, ∀ y ∈ g.source.rows, inRange st.range x.timestamp = true → x.timestamp ≠ y.timestamp) → lines = lines') := by
  have hg' : GoodInputs st'.range h files' := by
    rw [hcfg.1]
    exact ⟨fun f hf => hg.header f (hp.mem_iff.2 hf), fun f hf => hg.sorted f (hp.mem_iff.2 hf), fun f hf => hg.some f (hp.mem_iff.2 hf), fun f hf => hg.readable f (hp.mem_iff.2 hf)⟩
  obtain ⟨out, rows, p1, p2, p3, p4, p5, p6⟩ := csv_run_rows e a st files h d hs ho hg hd hr ht hv
  obtain ⟨out', rows', q1, q2, q3, q4, q5, q6⟩ := csv_run_rows e a' st' files' h d' hs' ho' hg' hd' hr' (by rw [hcfg.2]; exact ht) (by
    rw [hcfg.1]; exact fun f hf => hv f (hp.mem_iff.2 hf))
  rw [hcfg.2] at q6
  rw [hcfg.1] at q3
  have hvr : ∀ r ∈ rows, ∀ v ∈ r.values, ¬ Unprintable v := by
    intro r hr v hv'
    obtain ⟨h1, i, hi, h2⟩ := merge_mem p3 hr
    obtain ⟨f, hf, rfl⟩ := List.mem_map.1 hi
    exact hv f hf r h2 h1 v hv'
  have hperm := isMerge_perm (hp.map _) p3 q3
  have hvr' : ∀ r ∈ rows', ∀ v ∈ r.values, ¬ Unprintable v := fun r hr => hvr r (hperm.mem_iff.2 hr)
  refine ⟨out, out', rows.map fun r => (csvRowsText e.ff st.outCfg [r]).1, rows'.map fun r => (csvRowsText e.ff st.outCfg [r]).1, p1, q1, p2, q2, ?_, ?_, hperm.map _, ?_, ?_⟩
  · rw [p6, csvLines_all ht rows hvr, List.flatMap_def]
  · rw [q6, csvLines_all ht rows' hvr', List.flatMap_def]
  · intro l hl
    obtain ⟨r, hr, rfl⟩ := List.mem_map.1 hl
    have := (csvRows_lines e.ff st.outCfg ht [r] (by intro x hx; rw [List.mem_singleton] at hx; subst hx; exact hvr x hr)).2
    exact csvLines_single this rfl
  · intro hd
    rw [isMerge_perm_eq (hp.map _) (List.pairwise_map.2 hd) p3 q3]

/-! ### Examples: files with the columns `t` (seconds) and `v` -/

def lawTime (rec : List Str) : Nanos := BitVec.ofNat 64 (decimalValue (rec.headD []) * 10 ^ 9)
/-- A world with these files, each read in one piece, and every output file can be created. -/
def lawWorld (fs : List (Str × List (List Str))) : World :=
  ⟨fun p => (fs.find? fun x => utf8Encode x.1 == p).isSome, fun _ => false,
   fun p => (fs.find? fun x => utf8Encode x.1 == p).map fun x => ⟨utf8Encode (csvText ',' (copyNames :: x.2)), [], none⟩,
   fun _ => none, fun _ => .err (.io .other), ⟨[], [], none⟩⟩
def lawEnv (fs : List (Str × List (List Str))) : CliEnv := { copyEnv with world := lawWorld fs }
def lawArgs (ins : List Str) (b e : Option Str) : CliArgs :=
  { inputs := some ins, output := some "o.csv".toList, beginTs := b, endTs := e, inDelimiter := some [','], hasHeader := .yes, tsCol := some ['0'], inEpoch := some ['s'],
    printTime := ['n', 'o'], outEpoch := true }
def lawSettings (ins : List Str) (range : TimestampRange) : CliSettings noLib :=
  ⟨ins.map fun s => ⟨.path s, .auto⟩, range, ⟨some 44, .yes, .index 0, .epoch .seconds, none⟩, .new [','] false none .epoch .nanos none⟩

theorem law_settings (fs : List (Str × List (List Str))) (ins : List Str) (b e : Option Str) (range : TimestampRange) (h : TimestampRange.new .panics noLib none b e = .ok range)
    (hi : parseInputs (lawArgs ins none none) = .ok (ins.map fun s => ⟨.path s, .auto⟩)) : parseSettings (lawEnv fs) (lawArgs ins b e) = .ok (lawSettings ins range) := by
  have e1 : parseSettings (lawEnv fs) (lawArgs ins b e) = (TimestampRange.new .panics noLib none b e).bind fun range =>
      (parseInputs (lawArgs ins none none)).bind fun inputs => (.ok ⟨inputs, range, ⟨some 44, .yes, .index 0, .epoch .seconds, none⟩, .new [','] false none .epoch .nanos none⟩) := rfl
  rw [e1, h, hi]
  rfl

/-- The conditions on a table, checkable. -/
def LawTable (range : TimestampRange) (recs : List (List Str)) : Prop :=
  (∀ l ∈ copyNames :: recs, ∀ t ∈ l, t.all (fun c => decide (c ≠ ',' ∧ c ≠ '"' ∧ c ≠ '\n' ∧ c ≠ '\r' ∧ isWhite c = false)) = true) ∧ (∀ l ∈ copyNames :: recs, joinChar ',' l ≠ []) ∧
  (∀ rec ∈ recs, rec.length = 2 ∧ rec[0]? = some (rec.headD []) ∧ (rec.headD [] ≠ [] ∧ ∀ c ∈ rec.headD [], 48 ≤ c.toNat ∧ c.toNat ≤ 57) ∧
    decimalValue (rec.headD []) * 10 ^ 9 = (lawTime rec).toNat) ∧
  recs.Pairwise (fun x y => lawTime x ≤ lawTime y) ∧ ∃ rec ∈ recs, inRange range (lawTime rec) = true

instance (range : TimestampRange) (recs : List (List Str)) : Decidable (LawTable range recs) := by unfold LawTable; infer_instance

theorem law_run (fs : List (Str × List (List Str))) (ins : List (Str × List (List Str))) (b e : Option Str) (range : TimestampRange)
    (hs : parseSettings (lawEnv fs) (lawArgs (ins.map (·.1)) b e) = .ok (lawSettings (ins.map (·.1)) range))
    (hin : ∀ x ∈ ins, (fs.find? fun y => utf8Encode y.1 == utf8Encode x.1) = some x) (hname : ∀ x ∈ ins, ¬ HttpAddress x.1 ∧ ∃ base, lastComponent x.1 = some (base ++ ".csv".toList))
    (htab : ∀ x ∈ ins, LawTable range x.2) :
    CopyRun (lawEnv fs) (lawArgs (ins.map (·.1)) b e) (lawSettings (ins.map (·.1)) range) ',' 0 .seconds copyNames (ins.map (·.2)) lawTime exDev where
  settings := hs
  contract := plainCsv_reads
  noUser := ⟨rfl, rfl⟩
  delimiter := ⟨by decide, by decide, by decide, by decide, 44, by decide, rfl⟩
  header := rfl
  column := rfl
  format := rfl
  outDelimiter := rfl
  outTime := rfl
  inputs := by
    refine ⟨by simp [lawSettings], ?_⟩
    intro i inp recs h1 h2
    simp only [lawSettings, List.map_map, List.getElem?_map] at h1 h2
    cases hx : ins[i]? with
    | none => rw [hx] at h1; cases h1
    | some x =>
      rw [hx] at h1 h2
      cases h1; cases h2
      have hm := List.mem_of_getElem? hx
      have hf := hin x hm
      obtain ⟨n1, base, n2⟩ := hname x hm
      refine ⟨x.1, .auto, [], rfl, ⟨rfl, ?_, ?_⟩, by simp, n1, ?_, .inl ⟨base, n2, rfl⟩⟩
      · show (fs.find? fun y => utf8Encode y.1 == utf8Encode x.1).isSome = true
        rw [hf]; rfl
      · show (fs.find? fun y => utf8Encode y.1 == utf8Encode x.1).map _ = _
        rw [hf]; rfl
      · rintro ⟨t, ht⟩
        have : utf8Encode (csvText ',' (copyNames :: x.2)) = utf8Encode "t,v\n".toList ++ utf8Encode (csvText ',' x.2) := by
          rw [← utf8Encode_append]
          rfl
        rw [this] at ht
        have h0 := congrArg List.head? ht
        have : (utf8Encode "t,v\n".toList).head? = some 0x74 := by decide +kernel
        rw [List.head?_append, List.head?_append, this] at h0
        simp at h0
  plain := by
    intro recs hr
    obtain ⟨x, hx, rfl⟩ := List.mem_map.1 hr
    obtain ⟨h1, h2, _⟩ := htab x hx
    exact ⟨fun l hl t ht => plain_text t (h1 l hl t ht), h2, by simp [csvText, copyNames, joinChar]⟩
  widths := by
    intro recs hr rec hrec
    obtain ⟨x, hx, rfl⟩ := List.mem_map.1 hr
    exact ((htab x hx).2.2.1 rec hrec).1
  times := by
    intro recs hr rec hrec
    obtain ⟨x, hx, rfl⟩ := List.mem_map.1 hr
    obtain ⟨_, h2, h3, h4⟩ := (htab x hx).2.2.1 rec hrec
    exact ⟨_, h2, h3, h4⟩
  sorted := by
    intro recs hr
    obtain ⟨x, hx, rfl⟩ := List.mem_map.1 hr
    exact (htab x hx).2.2.2.1
  some := by
    intro recs hr
    obtain ⟨x, hx, rfl⟩ := List.mem_map.1 hr
    exact (htab x hx).2.2.2.2
  device := .inr ⟨"o.csv".toList, rfl, by decide +kernel, rfl⟩
  reliable := by intro k; simp [exDev]

def lawA : Str × List (List Str) := ("a.csv".toList, [["1600000001".toList, ['x']], ["1600000003".toList, ['y']]])
def lawB : Str × List (List Str) := ("b.csv".toList, [["1600000002".toList, ['z']], ["1600000004".toList, []]])
def lawC : Str × List (List Str) := ("c.csv".toList, [["1600000001".toList, ['c']], ["1600000004".toList, ['d']]])
/-- The merge of the first two. -/
def lawM : Str × List (List Str) :=
  ("m.csv".toList, [["1600000001".toList, ['x']], ["1600000002".toList, ['z']], ["1600000003".toList, ['y']], ["1600000004".toList, []]])
def lawFiles : List (Str × List (List Str)) := [lawA, lawB, lawC, lawM]
def lawMid : Str := "1600000003".toList

theorem law_name {x : Str × List (List Str)} (h : x ∈ lawFiles) : ¬ HttpAddress x.1 ∧ ∃ base, lastComponent x.1 = some (base ++ ".csv".toList) := by
  simp only [lawFiles, List.mem_cons, List.not_mem_nil, or_false] at h
  rcases h with rfl | rfl | rfl | rfl
  · exact ⟨by decide +kernel, ['a'], by decide +kernel⟩
  · exact ⟨by decide +kernel, ['b'], by decide +kernel⟩
  · exact ⟨by decide +kernel, ['c'], by decide +kernel⟩
  · exact ⟨by decide +kernel, ['m'], by decide +kernel⟩

theorem law_found {x : Str × List (List Str)} (h : x ∈ lawFiles) : (lawFiles.find? fun y => utf8Encode y.1 == utf8Encode x.1) = some x := by
  simp only [lawFiles, List.mem_cons, List.not_mem_nil, or_false] at h
  rcases h with rfl | rfl | rfl | rfl <;> decide +kernel

/-- Three runs over the first two files: everything, the part before 1600000003 s and the part from then on. -/
example : Chopped (lawEnv lawFiles) (lawArgs ["a.csv".toList, "b.csv".toList] none none) (lawArgs ["a.csv".toList, "b.csv".toList] none (some lawMid))
      (lawArgs ["a.csv".toList, "b.csv".toList] (some lawMid) none) (lawSettings ["a.csv".toList, "b.csv".toList] ⟨none, none⟩)
      (lawSettings ["a.csv".toList, "b.csv".toList] ⟨none, some 1600000003000000000⟩) (lawSettings ["a.csv".toList, "b.csv".toList] ⟨some 1600000003000000000, none⟩) 1600000003000000000 ∧
    Opens (lawEnv lawFiles) (lawSettings ["a.csv".toList, "b.csv".toList] ⟨none, none⟩) ([lawA.2, lawB.2].map (tableFile copyNames lawTime)) ∧
    GoodInputs ⟨none, some 1600000003000000000⟩ ⟨copyNames, [.string, .string]⟩ ([lawA.2, lawB.2].map (tableFile copyNames lawTime)) ∧
    GoodInputs ⟨some 1600000003000000000, none⟩ ⟨copyNames, [.string, .string]⟩ ([lawA.2, lawB.2].map (tableFile copyNames lawTime)) := by
  have sub : ∀ x ∈ [lawA, lawB], x ∈ lawFiles := by decide +kernel
  have h0 := law_run lawFiles [lawA, lawB] none none ⟨none, none⟩ (law_settings _ _ _ _ _ rfl rfl) (fun x hx => law_found (sub x hx)) (fun x hx => law_name (sub x hx)) (by decide +kernel)
  have h1 := law_run lawFiles [lawA, lawB] none (some lawMid) ⟨none, some 1600000003000000000⟩ (law_settings _ _ _ _ _ (by decide +kernel) rfl) (fun x hx => law_found (sub x hx)) (fun x hx => law_name (sub x hx)) (by decide +kernel)
  have h2 := law_run lawFiles [lawA, lawB] (some lawMid) none ⟨some 1600000003000000000, none⟩ (law_settings _ _ _ _ _ (by decide +kernel) rfl) (fun x hx => law_found (sub x hx)) (fun x hx => law_name (sub x hx)) (by decide +kernel)
  refine ⟨⟨h0.settings, h1.settings, h2.settings, ⟨rfl, rfl⟩, ⟨rfl, rfl⟩, ⟨rfl, rfl⟩, ⟨rfl, rfl⟩, (by intro _ h; cases h), (by intro _ h; cases h)⟩, copy_opens h0, copy_good h1, copy_good h2⟩

/-- The first two files are merged into `m.csv`, which is then merged with the third (C90). -/
example : ∃ out, (chopperCli (lawEnv lawFiles) (lawArgs ["a.csv".toList, "b.csv".toList] none none)).output = some out ∧
    out.taken = utf8Encode (csvText ',' (copyNames :: lawM.2)) ∧
    CopyRun (lawEnv lawFiles) (lawArgs ["m.csv".toList, "c.csv".toList] none none) (lawSettings ["m.csv".toList, "c.csv".toList] ⟨none, none⟩) ',' 0 .seconds copyNames
      ([] ++ [lawM.2] ++ [lawC.2]) lawTime exDev ∧
    CopyRun (lawEnv lawFiles) (lawArgs ["a.csv".toList, "b.csv".toList, "c.csv".toList] none none) (lawSettings ["a.csv".toList, "b.csv".toList, "c.csv".toList] ⟨none, none⟩) ',' 0 .seconds
      copyNames ([] ++ [lawA.2, lawB.2] ++ [lawC.2]) lawTime exDev := by
  have s0 : ∀ x ∈ [lawA, lawB], x ∈ lawFiles := by decide +kernel
  have s1 : ∀ x ∈ [lawM, lawC], x ∈ lawFiles := by decide +kernel
  have s2 : ∀ x ∈ [lawA, lawB, lawC], x ∈ lawFiles := by decide +kernel
  have h0 := law_run lawFiles [lawA, lawB] none none ⟨none, none⟩ (law_settings _ _ _ _ _ rfl rfl) (fun x hx => law_found (s0 x hx)) (fun x hx => law_name (s0 x hx)) (by decide +kernel)
  have h1 := law_run lawFiles [lawM, lawC] none none ⟨none, none⟩ (law_settings _ _ _ _ _ rfl rfl) (fun x hx => law_found (s1 x hx)) (fun x hx => law_name (s1 x hx)) (by decide +kernel)
  have h2 := law_run lawFiles [lawA, lawB, lawC] none none ⟨none, none⟩ (law_settings _ _ _ _ _ rfl rfl) (fun x hx => law_found (s2 x hx)) (fun x hx => law_name (s2 x hx)) (by decide +kernel)
  obtain ⟨out, recs, _, g2, g3, g4⟩ := copy_run h0
  refine ⟨out, g2, ?_, h1, h2⟩
  have hm : IsMerge ⟨none, none⟩ ([lawA.2, lawB.2].map fun t => t.map fun rec => (⟨lawTime rec, rec.map .string⟩ : Row)) (lawM.2.map fun rec => ⟨lawTime rec, rec.map .string⟩) := by
    refine ⟨by unfold Sorted; decide +kernel, fun t => ?_⟩
    have sel : ∀ (l : List (List Str)), (∀ rec ∈ l, lawTime rec ≠ t) → (l.map fun rec => (⟨lawTime rec, rec.map .string⟩ : Row)).filter (fun r => r.timestamp == t) = [] ∧
        (l.map fun rec => (⟨lawTime rec, rec.map .string⟩ : Row)).filter (fun r => r.timestamp == t && inRange ⟨none, none⟩ r.timestamp) = [] := by
      intro l hl
      refine ⟨List.filter_eq_nil_iff.2 ?_, List.filter_eq_nil_iff.2 ?_⟩
      · intro r hr hc
        obtain ⟨rec, hrec, rfl⟩ := List.mem_map.1 hr
        exact hl rec hrec (by simpa using hc)
      · intro r hr hc
        obtain ⟨rec, hrec, rfl⟩ := List.mem_map.1 hr
        simp only [Bool.and_eq_true, beq_iff_eq] at hc
        exact hl rec hrec hc.1
    by_cases ht : t ∈ lawM.2.map lawTime
    · clear sel
      simp only [lawM, List.map_cons, List.map_nil, List.mem_cons, List.not_mem_nil, or_false] at ht
      rcases ht with rfl | rfl | rfl | rfl <;> decide +kernel
    · have hM : ∀ rec ∈ lawM.2, lawTime rec ≠ t := by
        rintro rec hrec rfl
        exact ht (List.mem_map.2 ⟨rec, hrec, rfl⟩)
      have sA : ∀ rec ∈ lawA.2, rec ∈ lawM.2 := by decide +kernel
      have sB : ∀ rec ∈ lawB.2, rec ∈ lawM.2 := by decide +kernel
      rw [(sel _ hM).1]
      simp only [List.map_cons, List.map_nil, List.reverse_cons, List.reverse_nil, List.nil_append, List.cons_append, List.flatMap_cons, List.flatMap_nil]
      rw [(sel _ fun rec h => hM rec (sA rec h)).2, (sel _ fun rec h => hM rec (sB rec h)).2]
      rfl
  have heq := congrArg (List.map textsOf) (isMerge_unique g4 hm)
  rw [List.map_map, List.map_map, texts_rows, texts_rows] at heq
  rw [g3, heq, show exDev.taken = [] from rfl, List.nil_append]

/-- The first two files in either order (C91); they have no time in common. -/
example : Opens (lawEnv lawFiles) (lawSettings ["a.csv".toList, "b.csv".toList] ⟨none, none⟩) ([lawA.2, lawB.2].map (tableFile copyNames lawTime)) ∧
    Opens (lawEnv lawFiles) (lawSettings ["b.csv".toList, "a.csv".toList] ⟨none, none⟩) ([lawB.2, lawA.2].map (tableFile copyNames lawTime)) ∧
    ([lawA.2, lawB.2].map (tableFile copyNames lawTime)).Perm ([lawB.2, lawA.2].map (tableFile copyNames lawTime)) ∧
    ([lawA.2, lawB.2].map (tableFile copyNames lawTime)).Pairwise fun f g => ∀ x ∈ f.source.rows, ∀ y ∈ g.source.rows, inRange ⟨none, none⟩ x.timestamp = true → x.timestamp ≠ y.timestamp := by
  have sub : ∀ x ∈ [lawA, lawB], x ∈ lawFiles := by decide +kernel
  have sub' : ∀ x ∈ [lawB, lawA], x ∈ lawFiles := by decide +kernel
  have h0 := law_run lawFiles [lawA, lawB] none none ⟨none, none⟩ (law_settings _ _ _ _ _ rfl rfl) (fun x hx => law_found (sub x hx)) (fun x hx => law_name (sub x hx)) (by decide +kernel)
  have h1 := law_run lawFiles [lawB, lawA] none none ⟨none, none⟩ (law_settings _ _ _ _ _ rfl rfl) (fun x hx => law_found (sub' x hx)) (fun x hx => law_name (sub' x hx)) (by decide +kernel)
  exact ⟨copy_opens h0, copy_opens h1, List.Perm.swap _ _ _, by decide +kernel⟩

end Chopper.Props
