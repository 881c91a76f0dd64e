import Verif.Props.CsvReceived
import Verif.Props.CsvQuoted
import Verif.Proofs.Reader2

/-!
# C143: the last row of a CSV file of which only a part arrives, and examples
-/
namespace Chopper.Props
open Chopper Chopper.Spec

/-- Nothing is on the disk; standard input is this. -/
def pipedWorld (r : Inner) : World := ⟨fun _ => false, fun _ => false, fun _ => none, fun _ => none, fun _ => .err (.io .other), r⟩

/-- Standard input, read as CSV. -/
def pipedCsv : Input := ⟨.stdIn, .extension "csv".toList⟩

theorem piped_delivered (r : Inner) : Delivered exLib (pipedWorld r) pipedCsv r none := .standardInput (w := pipedWorld r) _

theorem piped_says : SaysCsv none pipedCsv.format := .inr (.inl rfl)

theorem previewed_stream {r : Inner} {p : Previewer} (hp : Previewer.new defaultBufSize r = .ok p) (hs : r.sched = []) (hb : ¬ bom <+: r.data) :
    crateRecords 44 p.reader = csvScan 44 .startRecord [] [] (ofBytes r.data ++ endItems r.ending) := by
  have hsched := previewer_sched hp
  rcases previewer_spec defaultBufSize (by decide) r with ⟨q, h1, _, h3, _, _, h6, h7, _⟩ | ⟨e, h1, _⟩
  · obtain rfl : q = p := Res.ok.inj (h1.symm.trans hp)
    have hstream : streamOf q.reader = ofBytes r.data ++ endItems r.ending := by
      rw [streamOf_eq q.reader (fun e he => by have := hsched _ he; rw [hs] at this; exact absurd this (by simp)), h3, h7]
    unfold crateRecords
    rw [dropBom_none, hstream]
    rw [hstream, received_append]
    intro hx
    cases hr : r.ending <;> rw [hr] at hx <;> exact hb (by simpa [endItems, received] using hx)
  · rw [h1] at hp; cases hp

/-- Two columns without names. -/
def pairHeader : Header := ⟨["col_0".toList, "col_1".toList], [.string, .string]⟩

theorem pair_col : ColumnFor ["col_0".toList, "col_1".toList] (.index 0) (.index 0) none := .index (n := "col_0".toList) (by decide +kernel) (by intro u; cases u <;> decide +kernel)

theorem nano_time (f : Str) (rest : List Str) (t : Nanos) (h : getTimestamp .panics noLib none (f :: rest) (.index 0) (.units .nanos) = .ok t) :
    TimeOf .panics noLib none (.index 0) (.units .nanos) (f :: rest) (.ok t) := (C97_time _ _ _ _ _ _ _).1 h

/-- How two records without a header line are read. -/
theorem pair_meaning {d : CsvData} {a a' : Str} {b b' : Str} {more : List Str} {t t' : Nanos} (hd : d.records = [.ok [a, b], .ok (a' :: more)]) (hm : (more = [] ∧ b' = b) ∨ more = [b'])
    (ht : getTimestamp .panics noLib none [a, b] (.index 0) (.units .nanos) = .ok t) (ht' : getTimestamp .panics noLib none (a' :: more) (.index 0) (.units .nanos) = .ok t') :
    IsCsvInput .panics noLib none false (.index 0) .nanos d pairHeader ⟨[⟨t, [.string a, .string b]⟩, ⟨t', [.string a', .string b']⟩], .eof⟩ := by
  have t1 := nano_time _ _ _ ht
  have t2 := nano_time _ _ _ ht'
  refine ⟨[a, b], _, ["col_0".toList, "col_1".toList], .index 0, none, hd, ?_, pair_col, rfl, ?_⟩
  · show ["col_0".toList, "col_1".toList] = (List.range 2).map fun i => "col_".toList ++ decimal i
    decide +kernel
  rw [hd]
  refine ⟨[a, b], [a' :: more], [], rfl, ?_, ?_, .inl ⟨rfl, rfl, rfl⟩⟩
  · intro rec hr
    simp only [List.mem_cons, List.not_mem_nil, or_false] at hr
    rcases hr with rfl | rfl
    · exact ⟨by simp, _, t1⟩
    · exact ⟨by rcases hm with ⟨rfl, _⟩ | rfl <;> simp, _, t2⟩
  · intro k row hk
    match k with
    | 0 =>
      cases hk
      refine ⟨rfl, ⟨_, rfl, t1⟩, ?_⟩
      intro i hi
      match i with
      | 0 => exact ⟨a, rfl, rfl⟩
      | 1 => exact ⟨b, rfl, rfl⟩
      | i + 2 => simp at hi; omega
    | 1 =>
      cases hk
      refine ⟨rfl, ⟨_, rfl, t2⟩, ?_⟩
      intro i hi
      match i with
      | 0 => exact ⟨a', by rcases hm with ⟨rfl, _⟩ | rfl <;> rfl, rfl⟩
      | 1 => exact ⟨b', by rcases hm with ⟨rfl, rfl⟩ | rfl <;> rfl, rfl⟩
      | i + 2 => simp at hi; omega
    | k + 2 => simp at hk

/-- Two lines of text at standard input. -/
theorem pair_read {data : List Byte} {a a' b b' : Str} {more : List Str} {t t' : Nanos} (hb : ¬ bom <+: data)
    (hscan : (csvScan 44 .startRecord [] [] (ofBytes data ++ [])).map (fun x => x.bind stringRecord) = [.ok [a, b], .ok (a' :: more)]) (hm : (more = [] ∧ b' = b) ∨ more = [b'])
    (ht : getTimestamp .panics noLib none [a, b] (.index 0) (.units .nanos) = .ok t) (ht' : getTimestamp .panics noLib none (a' :: more) (.index 0) (.units .nanos) = .ok t') :
    createFromInput (newInputs crateEnv anyDec exLib (pipedWorld ⟨data, [], none⟩) (some nanosCfg) [] []) (pipedWorld ⟨data, [], none⟩) pipedCsv =
      .ok ⟨pairHeader, ⟨[⟨t, [.string a, .string b]⟩, ⟨t', [.string a', .string b']⟩], .eof⟩⟩ := by
  obtain ⟨p, hp, _⟩ := preview_ok (inner := ⟨data, [], none⟩) (noFail_none (by simp))
  refine (csv_opened (env := crateEnv) nanos_explicit (piped_delivered _) piped_says _ _).2 ⟨p, hp, pair_meaning ?_ hm ht ht'⟩
  show (csvCrate.parse 44 false p.reader).records = _
  simp only [csvCrate, Bool.false_eq_true, if_false, previewed_stream hp rfl hb, endItems]
  exact hscan

/-- `1,x` and `12,y`, a line each. -/
def twoLines : List Byte := asciiBytes "1,x\n12,y\n"

theorem two_read : createFromInput (newInputs crateEnv anyDec exLib (pipedWorld ⟨twoLines, [], none⟩) (some nanosCfg) [] []) (pipedWorld ⟨twoLines, [], none⟩) pipedCsv =
    .ok ⟨pairHeader, ⟨[⟨1, [.string ['1'], .string ['x']]⟩, ⟨12, [.string ['1', '2'], .string ['y']]⟩], .eof⟩⟩ :=
  pair_read (by decide +kernel) (by decide +kernel) (.inr rfl) (by decide +kernel) (by decide +kernel)

/-- The same, cut within the second line. -/
theorem cut_read : createFromInput (newInputs crateEnv anyDec exLib (pipedWorld ⟨twoLines.take 5, [], none⟩) (some nanosCfg) [] []) (pipedWorld ⟨twoLines.take 5, [], none⟩) pipedCsv =
    .ok ⟨pairHeader, ⟨[⟨1, [.string ['1'], .string ['x']]⟩, ⟨1, [.string ['1'], .string ['x']]⟩], .eof⟩⟩ :=
  pair_read (more := []) (by decide +kernel) (by decide +kernel) (.inl ⟨rfl, rfl⟩) (by decide +kernel) (by decide +kernel)

/-- **The last row may be wrong**: of a file with the lines `1,x` and `12,y`, the first five bytes are read as rows at the times 1 and 1, both with `x`, without any error. -/
theorem C143_counterexample : ¬ C143_full := by
  intro hfull
  obtain ⟨f', h1, _, h2⟩ := hfull crateEnv anyDec exLib _ _ nanosCfg 44 false .nanos pipedCsv pipedCsv _ _ none none rfl nanos_explicit (by decide) (piped_delivered ⟨twoLines.take 5, [], none⟩)
    (piped_delivered ⟨twoLines, [], none⟩) piped_says piped_says (List.take_prefix _ _) (noFail_none (by simp)) _ cut_read
  rw [two_read] at h1
  cases h1
  obtain ⟨z, hz⟩ := h2
  simp at hz

/-- The hypotheses of `C143_cut_partial` are met. -/
example : ∃ f', createFromInput (newInputs crateEnv anyDec exLib (pipedWorld ⟨twoLines, [], none⟩) (some nanosCfg) [] []) (pipedWorld ⟨twoLines, [], none⟩) pipedCsv = .ok f' ∧
    f'.header = pairHeader ∧ [] <+: f'.source.rows ∧ (f'.source.ending = .eof → [⟨1, [.string ['1'], .string ['x']]⟩] <+: f'.source.rows) :=
  C143_cut_partial crateEnv rfl anyDec exLib _ _ nanosCfg 44 false .nanos nanos_explicit (by decide) pipedCsv pipedCsv _ _ none none (piped_delivered ⟨twoLines.take 5, [], none⟩)
    (piped_delivered ⟨twoLines, [], none⟩) piped_says piped_says (List.take_prefix _ _) (noFail_none (by simp)) _ cut_read (by decide)

/-! ### A failing read -/

/-- Many lines `1`. -/
def ones (n : Nat) : List Byte := (List.replicate n [0x31, 0x0A]).flatten

theorem ones_run (n : Nat) (s : Stream) : csvScan 44 .startRecord [] [] (ofBytes (ones n) ++ s) = List.replicate n (.ok [[0x31]]) ++ csvScan 44 .startRecord [] [] s := by
  induction n with
  | zero => rfl
  | succ n ih =>
    have : ones (n + 1) = [0x31, 0x0A] ++ ones n := by simp [ones, List.replicate_succ]
    rw [this, ofBytes_append, List.append_assoc, scan_append]
    show [Res.ok [[0x31]]] ++ csvScan 44 .startRecord [] [] _ = _
    rw [ih]
    rfl

theorem ones_length (n : Nat) : (ones n).length = 2 * n := by
  simp [ones, Nat.mul_comm]

theorem fill_big (c : Nat) (hc : 0 < c) (data : List Byte) (e : Option IoKind) (hd : c ≤ data.length) :
    (BufReader.withCapacity c ⟨data, [], e⟩).fillBuffer = (.ok (), ⟨⟨data.drop c, [], e⟩, overwrite (BufReader.withCapacity c ⟨data, [], e⟩).buf 0 (data.take c), 0, c⟩) := by
  have hl : (BufReader.withCapacity c ⟨data, [], e⟩).buf.length = c := by simp [BufReader.withCapacity]
  have hne : data ≠ [] := by rintro rfl; simp at hd; omega
  have h0 : (BufReader.withCapacity c ⟨data, [], e⟩).cap = 0 := rfl
  have hp : (BufReader.withCapacity c ⟨data, [], e⟩).pos = 0 := rfl
  have hi : (BufReader.withCapacity c ⟨data, [], e⟩).inner = ⟨data, [], e⟩ := rfl
  generalize BufReader.withCapacity c ⟨data, [], e⟩ = r at *
  have hread : r.inner.read (r.buf.length - r.cap) = (.ok (data.take c), ⟨data.drop c, [], e⟩) := by
    rw [hi, hl, h0]
    cases e <;> simp [Inner.read, Inner.deliver, hne]
  have hone : r.oneShot = (.ok c, ⟨⟨data.drop c, [], e⟩, overwrite r.buf 0 (data.take c), 0, c⟩) := by
    unfold BufReader.oneShot
    rw [if_neg (by omega), hread]
    simp [h0, hp, hd]
  unfold BufReader.fillBuffer
  rw [if_neg (by simp [h0, hp]), BufReader.fillLoop, hone]
  have hlen : (overwrite r.buf 0 (data.take c)).length = c := by
    simp [overwrite, hl]; omega
  simp [hlen]

theorem opened_big (data : List Byte) (e : IoKind) (hd : defaultBufSize ≤ data.length) : ∃ p, Previewer.new defaultBufSize ⟨data, [], some e⟩ = .ok p := by
  have hc : 0 < defaultBufSize := by decide
  obtain ⟨p, hp, _⟩ := preview_ok (inner := ⟨data, [], none⟩) (noFail_none (by simp))
  generalize defaultBufSize = c at *
  unfold Previewer.new at hp ⊢
  rw [fill_big c hc data _ hd] at hp ⊢
  obtain ⟨a, h1, h2⟩ := bind_ok_inv hp
  obtain ⟨l, h3, _⟩ := bind_ok_inv h2
  have hb : (BufReader.withCapacity c ⟨data, [], some e⟩).buf = (BufReader.withCapacity c ⟨data, [], none⟩).buf := rfl
  rw [hb]
  dsimp only at h1 h3 ⊢
  rw [h1, Res.bind_ok, h3, Res.bind_ok]
  exact ⟨_, rfl⟩

/-- The hypotheses of `C143_failed` are met: standard input with many lines that fails after them is opened, and all the rows but one are read. -/
theorem ones_read {dec : Decoders} (n : Nat) (hn : defaultBufSize ≤ 2 * n) (hn2 : 0 < n) : ∃ f, createFromInput (newInputs crateEnv dec exLib (pipedWorld ⟨ones n, [], some .other⟩) (some nanosCfg) [] [])
    (pipedWorld ⟨ones n, [], some .other⟩) pipedCsv = .ok f ∧ f.source.rows.length = n - 1 ∧ f.source.ending = .fail (.io .other) := by
  obtain ⟨p, hp⟩ : ∃ p, Previewer.new defaultBufSize ⟨ones n, [], some .other⟩ = .ok p := by
    exact opened_big (ones n) .other (by rw [ones_length]; exact hn)
  have hrec : (csvCrate.parse 44 false p.reader).records = .ok [['1']] :: ((List.replicate (n - 1) (Res.ok [['1']]) ++ [.err (.io .other)])) := by
    have hb : ¬ bom <+: ones n := by
      obtain ⟨m, rfl⟩ : ∃ m, n = m + 1 := ⟨n - 1, by omega⟩
      rintro ⟨z, hz⟩
      have := congrArg List.head? hz
      simp [ones, List.replicate_succ, bom] at this
    simp only [csvCrate, Bool.false_eq_true, if_false]
    rw [previewed_stream hp rfl hb, ones_run]
    obtain ⟨m, rfl⟩ : ∃ m, n = m + 1 := ⟨n - 1, by omega⟩
    have h1 : (Res.ok [[0x31]] : Res (List (List Byte))).bind stringRecord = .ok [['1']] := by decide +kernel
    simp only [List.map_append, List.map_replicate, h1, List.replicate_succ, Nat.add_sub_cancel, List.cons_append, List.map_cons]
    rfl
  have ht := nano_time ['1'] [] 1 (by decide +kernel)
  have hall : ∀ rec ∈ [['1']] :: List.replicate (n - 1) [['1']], rec = [['1']] := by
    intro rec hr
    rcases List.mem_cons.1 hr with rfl | hr
    · rfl
    · exact (List.mem_replicate.1 hr).2
  obtain ⟨rows, hl, hrows⟩ := rows_exist (first := [['1']]) (good := List.replicate (n - 1) [['1']]) (fun rec hr => by rw [hall rec hr]; exact ⟨_, ht⟩) (n - 1) (by simp)
  refine ⟨⟨⟨["col_0".toList], [.string]⟩, ⟨rows, .fail (.io .other)⟩⟩, (csv_opened (env := crateEnv) nanos_explicit (piped_delivered _) piped_says _ _).2 ⟨p, hp, ?_⟩, hl, rfl⟩
  refine ⟨[['1']], _, ["col_0".toList], .index 0, none, hrec, ?_, .index (n := "col_0".toList) (by decide +kernel) (by intro u; cases u <;> decide +kernel), rfl, ?_⟩
  · show ["col_0".toList] = (List.range 1).map fun i => "col_".toList ++ decimal i
    decide +kernel
  · show CsvMeaning _ _ _ _ _ (csvCrate.parse 44 false p.reader).records _
    rw [hrec]
    refine ⟨[['1']], List.replicate (n - 1) [['1']], [.err (.io .other)], by simp, fun rec hr => by rw [hall rec hr]; exact ⟨by simp, _, ht⟩, hrows, .inr ⟨_, [], rfl, .library, by simpa using hl⟩⟩

/-- With twenty thousand bytes before the failure, and without: the complete input begins with the rows read. -/
example : ∃ f f', createFromInput (newInputs crateEnv anyDec exLib (pipedWorld ⟨ones 10000, [], some .other⟩) (some nanosCfg) [] []) (pipedWorld ⟨ones 10000, [], some .other⟩) pipedCsv = .ok f ∧
    createFromInput (newInputs crateEnv anyDec exLib (pipedWorld ⟨ones 10000 ++ ones 7, [], none⟩) (some nanosCfg) [] []) (pipedWorld ⟨ones 10000 ++ ones 7, [], none⟩) pipedCsv = .ok f' ∧
    f'.header = f.header ∧ f.source.rows <+: f'.source.rows ∧ f.source.rows.length = 9999 := by
  obtain ⟨f, h1, h2, _⟩ := ones_read 10000 (by simp [defaultBufSize]) (by omega)
  obtain ⟨f', h3, h4, h5, _⟩ := C143_failed crateEnv rfl anyDec exLib _ _ nanosCfg 44 false .nanos nanos_explicit (by decide) pipedCsv pipedCsv _ _ none none
    (piped_delivered ⟨ones 10000, [], some .other⟩) (piped_delivered ⟨ones 10000 ++ ones 7, [], none⟩) piped_says piped_says (List.prefix_append _ _) (noFail_none (by simp)) (by simp) f h1
  exact ⟨f, f', h1, h3, h4, h5, h2⟩

end Chopper.Props
