import Verif.Proofs.SharedOut
import Verif.Props.Cli

/-! # C116: two outputs on standard output -/
namespace Chopper.Props
open Chopper Chopper.Spec

theorem interleaved_left {α : Type} {xs ys whole : List α} : ∀ (a : List α), Interleaved xs ys whole → Interleaved (a ++ xs) ys (a ++ whole)
  | [], h => h
  | _ :: a, h => .left (interleaved_left a h)

theorem interleaved_right {α : Type} {xs ys whole : List α} : ∀ (a : List α), Interleaved xs ys whole → Interleaved xs (a ++ ys) (a ++ whole)
  | [], h => h
  | _ :: a, h => .right (interleaved_right a h)

theorem rows_cons {ff : FloatFmt} {cfg : CsvOutputConfig} {r : Row} {rs : List Row} (h : (csvRowsText ff cfg (r :: rs)).2 = .ok ()) :
    (csvRowText ff cfg r).2 = .ok () ∧ (csvRowsText ff cfg rs).2 = .ok () ∧ (csvRowsText ff cfg (r :: rs)).1 = (csvRowText ff cfg r).1 ++ (csvRowsText ff cfg rs).1 := by
  rw [csvRowsText] at h ⊢
  rcases hr : csvRowText ff cfg r with ⟨out, res⟩
  rw [hr] at h
  cases res with
  | ok u => exact ⟨rfl, h, rfl⟩
  | err e => cases h
  | panic => cases h
  | diverge => cases h

/-- The rows, then the flush: what is in the buffers at the beginning and the rows of both outputs, mixed. If what the second output has to write fits into its buffer it comes last. -/
theorem two_perform (e : SinkEnv) (cfg1 cfg2 : CsvOutputConfig) : ∀ (rows : List Row) (b1 b2 : List Byte) (log : List Event) (d : Device), Reliable d →
    (csvRowsText e.ff cfg1 rows).2 = .ok () → (csvRowsText e.ff cfg2 rows).2 = .ok () →
    ∃ log' d' s, perform (fun c r g => processRowIO (stdoutOps e) 4 c 0 r g) (fun c g => flushFromIO (stdoutOps e) 4 c 0 g) (rows.map (Call.feed 0) ++ [.flush 0]) (.ok ())
        (twoOut cfg1 cfg2 b1 b2 log, d) = ((twoOut cfg1 cfg2 [] [] log', d'), .ok ()) ∧ d'.taken = d.taken ++ s ∧
      Interleaved (b1 ++ utf8Encode (csvRowsText e.ff cfg1 rows).1) (b2 ++ utf8Encode (csvRowsText e.ff cfg2 rows).1) s ∧
      ((b2 ++ utf8Encode (csvRowsText e.ff cfg2 rows).1).length < defaultBufSize → s = b1 ++ utf8Encode (csvRowsText e.ff cfg1 rows).1 ++ (b2 ++ utf8Encode (csvRowsText e.ff cfg2 rows).1))
  | [], b1, b2, log, d, hd, _, _ => by
    obtain ⟨log', d', h1, h2, h3⟩ := two_flush e cfg1 cfg2 b1 b2 log d hd
    refine ⟨log', d', b1 ++ b2, ?_, by rw [h2, List.append_assoc], ?_, ?_⟩
    · simp only [List.map_nil, List.nil_append, perform, h1]
    · have : Interleaved (b1 ++ []) (b2 ++ []) (b1 ++ (b2 ++ [])) := interleaved_left b1 (interleaved_right b2 .done)
      simpa [csvRowsText, utf8Encode] using this
    · intro _; simp [csvRowsText, utf8Encode]
  | r :: rs, b1, b2, log, d, hd, o1, o2 => by
    obtain ⟨p1, q1, t1⟩ := rows_cons o1
    obtain ⟨p2, q2, t2⟩ := rows_cons o2
    obtain ⟨b1', b2', log1, d1, d2, h, ⟨r1, _, s1, x1, y1, _⟩, ⟨r2, _, s2, x2, y2, z2⟩⟩ := two_row e cfg1 cfg2 b1 b2 log d hd r p1 p2
    simp only at r1 r2 x1 x2 y1 y2 z2
    obtain ⟨log', d', s, g1, g2, g3, g4⟩ := two_perform e cfg1 cfg2 rs b1' b2' log1 d2 r2 q1 q2
    refine ⟨log', d', s1 ++ (s2 ++ s), ?_, ?_, ?_, ?_⟩
    · simp only [List.map_cons, List.cons_append, perform, h]
      exact g1
    · rw [g2, x2, x1, List.append_assoc, List.append_assoc]
    · rw [t1, t2, utf8Encode_append, utf8Encode_append, ← List.append_assoc, ← y1, ← List.append_assoc, ← y2, List.append_assoc, List.append_assoc]
      exact interleaved_left s1 (interleaved_right s2 g3)
    · intro hl
      rw [t2, utf8Encode_append] at hl
      have e2 : s2 = [] := z2 (by simp only [List.length_append] at hl; omega)
      subst e2
      rw [List.nil_append] at y2
      have := g4 (by rw [y2]; simp only [List.length_append] at hl ⊢; omega)
      rw [this, t1, t2, utf8Encode_append, utf8Encode_append, y2]
      rw [show s1 ++ ([] ++ (b1' ++ utf8Encode (csvRowsText e.ff cfg1 rs).1 ++ (b2 ++ utf8Encode (csvRowText e.ff cfg2 r).1 ++ utf8Encode (csvRowsText e.ff cfg2 rs).1))) =
        (s1 ++ b1') ++ utf8Encode (csvRowsText e.ff cfg1 rs).1 ++ (b2 ++ utf8Encode (csvRowText e.ff cfg2 r).1 ++ utf8Encode (csvRowsText e.ff cfg2 rs).1) by simp [List.append_assoc], y1]
      simp [List.append_assoc]

theorem close_nil (cfg : CsvOutputConfig) (d : Device) : (StdoutSink.csv cfg []).close d = d := by
  rcases d with ⟨t, ss, fl⟩
  cases ss <;> simp [StdoutSink.close, BufWriter.close, BufWriter.flushBuf, Device.writeAll, devWrite]

/-- The header lines. -/
theorem two_headers (e : SinkEnv) (cfg1 cfg2 : CsvOutputConfig) (t1 t2 : List Byte) (d : Device) (hd : Reliable d) :
    ∃ b1 b2 d1 d2, writeHeaders e (twoOut cfg1 cfg2 t1 t2 []).chains d = ((twoOut cfg1 cfg2 b1 b2 []).chains, d2, .ok ()) ∧
      Passed ⟨defaultBufSize, [], d⟩ t1 ⟨defaultBufSize, b1, d1⟩ ∧ Passed ⟨defaultBufSize, [], d1⟩ t2 ⟨defaultBufSize, b2, d2⟩ := by
  obtain ⟨w1, e1, p1⟩ := reliable_emit e.ch (w := BufWriter.new d) hd t1 (.ok ())
  obtain ⟨w2, e2, p2⟩ := reliable_emit e.ch (w := BufWriter.new w1.dev) p1.1 t2 (.ok ())
  have c1 : w1 = ⟨defaultBufSize, w1.buf, w1.dev⟩ := by
    have := p1.2.1
    simp only [BufWriter.new] at this
    rw [← this]
  have c2 : w2 = ⟨defaultBufSize, w2.buf, w2.dev⟩ := by
    have := p2.2.1
    simp only [BufWriter.new] at this
    rw [← this]
  refine ⟨w1.buf, w2.buf, w1.dev, w2.dev, ?_, c1 ▸ p1, c2 ▸ p2⟩
  simp [writeHeaders, writeHeaderNodes, twoOut, e1, e2]

/-- **C116 (traversal).** Rows and flushes take the same way through nodes that share a state as through nodes that do not: with nodes that ignore the shared state the two are the same. -/
theorem C116_traversal {S : Type} (ops : SinkOps S) (fuel c i : Nat) (row : Row) (g : DGraph S) :
    processRowIO (.ofPure ops) fuel c i row (g, ()) = (((processRow ops fuel c i row g).1, ()), (processRow ops fuel c i row g).2) ∧
    flushFromIO (.ofPure ops) fuel c i (g, ()) = (((flushFrom ops fuel c i g).1, ()), (flushFrom ops fuel c i g).2) :=
  ⟨processRowIO_pure ops fuel c i row g, flushFromIO_pure ops fuel c i g⟩

/-- **C116.** A run of the example (any input that can be opened, with rows, all of which can be printed; two outputs with any configurations on the same reliable standard output) succeeds. Behind what
was there before, standard output holds the CSV texts of both outputs, each complete and in order, mixed in some way; if both texts are shorter than 8192 bytes they come one after the other. -/
theorem C116_both_partial (e : SinkEnv) (cfg1 cfg2 : CsvOutputConfig) (f : FileSource) (stdout : Device) (hd : Reliable stdout)
    (hrows : f.source.rows ≠ [] ∧ f.source.ending = .eof)
    (ht : ∀ cfg, cfg = cfg1 ∨ cfg = cfg2 → cfg.printTimeCol = true → cfg.style = .humanReadable → cfg.zone ≠ none)
    (hv : ∀ r ∈ f.source.rows, ∀ v ∈ r.values, ¬ Unprintable v) :
    ∃ out s body1 body2, splitOutputs e cfg1 cfg2 f stdout = (out, .ok ()) ∧ out.taken = stdout.taken ++ s ∧
      CsvLines e.ff cfg1 f.source.rows body1 ∧ CsvLines e.ff cfg2 f.source.rows body2 ∧
      Interleaved (utf8Encode (csvHeaderText cfg1 f.header.names ++ body1)) (utf8Encode (csvHeaderText cfg2 f.header.names ++ body2)) s ∧
      ((utf8Encode (csvHeaderText cfg2 f.header.names ++ body2)).length < 8192 →
        s = utf8Encode (csvHeaderText cfg1 f.header.names ++ body1) ++ utf8Encode (csvHeaderText cfg2 f.header.names ++ body2)) := by
  obtain ⟨o1, c1⟩ := csvRows_lines e.ff cfg1 (ht cfg1 (.inl rfl)) f.source.rows hv
  obtain ⟨o2, c2⟩ := csvRows_lines e.ff cfg2 (ht cfg2 (.inr rfl)) f.source.rows hv
  obtain ⟨b1, b2, d1, d2, hh, ⟨r1, _, s1, x1, y1, _⟩, ⟨r2, _, s2, x2, y2, z2⟩⟩ :=
    two_headers e cfg1 cfg2 (utf8Encode (csvHeaderText cfg1 f.header.names)) (utf8Encode (csvHeaderText cfg2 f.header.names)) stdout hd
  simp only [List.nil_append, List.length_nil, Nat.zero_add] at r1 r2 x1 x2 y1 y2 z2
  obtain ⟨log, d', s, h1, h2, h3, h4⟩ := two_perform e cfg1 cfg2 f.source.rows b1 b2 [] d2 r2 o1 o2
  have hsrc : f.source = ⟨f.source.rows, .eof⟩ := by rw [← hrows.2]
  have hrun : driveGraphIO (stdoutOps e) .all 4 (f.source.rows.length + 1) [f.source] (twoOut cfg1 cfg2 b1 b2 [], d2) = ((twoOut cfg1 cfg2 [] [] log, d'), .ok ()) := by
    unfold driveGraphIO
    rw [hsrc]
    rw [drive_source _ _ _ hrows.1 _ _ (Nat.le_refl _)]
    exact h1
  refine ⟨d', s1 ++ (s2 ++ s), _, _, ?_, ?_, c1, c2, ?_, ?_⟩
  · unfold splitOutputs
    rw [two_setup]
    simp only [hh]
    have : ({ twoOut cfg1 cfg2 (utf8Encode (csvHeaderText cfg1 f.header.names)) (utf8Encode (csvHeaderText cfg2 f.header.names)) [] with chains := (twoOut cfg1 cfg2 b1 b2 []).chains } : DGraph StdoutSink) =
      twoOut cfg1 cfg2 b1 b2 [] := rfl
    rw [this, hrun]
    simp [closeAll, twoOut, close_nil]
  · rw [h2, x2, x1, List.append_assoc, List.append_assoc]
  · rw [utf8Encode_append, utf8Encode_append, ← y1, ← y2, List.append_assoc, List.append_assoc]
    exact interleaved_left s1 (interleaved_right s2 h3)
  · intro hl
    rw [utf8Encode_append, List.length_append] at hl
    have e2 : s2 = [] := z2 (by unfold defaultBufSize; omega)
    subst e2
    rw [List.nil_append] at y2
    rw [h4 (by rw [y2, List.length_append]; unfold defaultBufSize; omega), utf8Encode_append, utf8Encode_append, ← y1, y2]
    simp [List.append_assoc]

/-- The example itself, given that the input can be opened. -/
theorem C116_example_partial (env : CsvEnv) (dec : Decoders) (zip : ZipLib) (w : World) (e : SinkEnv) (path : Str) (cfg1 cfg2 : CsvOutputConfig) (f : FileSource) (stdout : Device) (hd : Reliable stdout)
    (hopen : createFromInput (newInputs env dec zip w none [] []) w ⟨.path path, .auto⟩ = .ok f)
    (hrows : f.source.rows ≠ [] ∧ f.source.ending = .eof)
    (ht : ∀ cfg, cfg = cfg1 ∨ cfg = cfg2 → cfg.printTimeCol = true → cfg.style = .humanReadable → cfg.zone ≠ none)
    (hv : ∀ r ∈ f.source.rows, ∀ v ∈ r.values, ¬ Unprintable v) :
    ∃ out s body1 body2, splitExample env dec zip w e path cfg1 cfg2 stdout = (out, .ok ()) ∧ out.taken = stdout.taken ++ s ∧
      CsvLines e.ff cfg1 f.source.rows body1 ∧ CsvLines e.ff cfg2 f.source.rows body2 ∧
      Interleaved (utf8Encode (csvHeaderText cfg1 f.header.names ++ body1)) (utf8Encode (csvHeaderText cfg2 f.header.names ++ body2)) s := by
  obtain ⟨out, s, body1, body2, h1, h2, h3, h4, h5, _⟩ := C116_both_partial e cfg1 cfg2 f stdout hd hrows ht hv
  refine ⟨out, s, body1, body2, ?_, h2, h3, h4, h5⟩
  unfold splitExample
  rw [hopen]
  exact h1

/-! ## Lines do not arrive whole -/

/-- The full claim: both outputs arrive line by line, that is, every line of one output is written without a piece of the other output in between. -/
def C116_full : Prop :=
  ∀ (e : SinkEnv) (cfg1 cfg2 : CsvOutputConfig) (f : FileSource) (stdout : Device), Reliable stdout → f.source.rows ≠ [] ∧ f.source.ending = .eof →
    (∀ cfg, cfg = cfg1 ∨ cfg = cfg2 → cfg.printTimeCol = true → cfg.style = .humanReadable → cfg.zone ≠ none) →
    (∀ r ∈ f.source.rows, ∀ v ∈ r.values, ¬ Unprintable v) →
    ∀ lines1 lines2, RowLines e.ff cfg1 f.source.rows lines1 → RowLines e.ff cfg2 f.source.rows lines2 →
    ∃ whole, Interleaved (csvHeaderText cfg1 f.header.names :: lines1) (csvHeaderText cfg2 f.header.names :: lines2) whole ∧
      (splitOutputs e cfg1 cfg2 f stdout).1.taken = stdout.taken ++ utf8Encode whole.flatten

/-- A comma or a line feed. -/
def isSep (b : Byte) : Bool := b == 44 || b == 10

def sepCut : List Byte → List Byte → List (List Byte)
  | cur, [] => [cur]
  | cur, b :: bs => if isSep b then cur :: [b] :: sepCut [] bs else sepCut (cur ++ [b]) bs

theorem sepCut_flat : ∀ cur bs, (sepCut cur bs).flatten = cur ++ bs
  | cur, [] => by simp [sepCut]
  | cur, b :: bs => by
    rw [sepCut]
    split
    · simp [sepCut_flat]
    · rw [sepCut_flat]; simp

/-- The way `write_row` writes a row with the default delimiter: each value, each comma and each line feed with one `write!`. -/
def sepChunking : Chunking := ⟨sepCut [], fun bs => by rw [sepCut_flat]; rfl⟩

theorem sepCut_run (v : Byte) (hv : isSep v = false) : ∀ (n : Nat) (cur rest : List Byte), sepCut cur (List.replicate n v ++ rest) = sepCut (cur ++ List.replicate n v) rest
  | 0, cur, rest => by simp
  | n + 1, cur, rest => by
    rw [List.replicate_succ, List.cons_append, sepCut, if_neg (by simp [hv]), sepCut_run v hv n]
    simp

theorem long_chunks (V t : List Byte) (fl : Nat) (hV : V.length = 8188) :
    BufWriter.writeChunks ⟨defaultBufSize, [97, 44, 98, 10], ⟨t, [], fl⟩⟩ [V, [44], [120], [10], []] = (⟨defaultBufSize, [44, 120, 10], ⟨t ++ ([97, 44, 98, 10] ++ V), [], fl⟩⟩, .ok ()) := by
  have hw : ∀ (b : Byte) (bs : List Byte), devWrite [] (b :: bs) = (b :: bs, [], none) := fun _ _ => rfl
  simp [BufWriter.writeChunks, BufWriter.writeAll, BufWriter.put, BufWriter.flushBuf, Device.writeAll, hV, defaultBufSize, hw, ioRes]

theorem encode_run : ∀ n, utf8Encode (List.replicate n 'v') = List.replicate n 118
  | 0 => rfl
  | n + 1 => by
    rw [List.replicate_succ, List.replicate_succ, show 'v' :: List.replicate n 'v' = ['v'] ++ List.replicate n 'v' from rfl, utf8Encode_append, encode_run n]
    rfl

/-- Comma separated values without time column. -/
def bareCsv : CsvOutputConfig := ⟨[','], false, [], .epoch, .nanos, none⟩

/-- A table with the columns `a` and `b` and one row with the given text in the first column and an `x` in the second. -/
def wideTable (t : Str) : FileSource := ⟨⟨[['a'], ['b']], [.string, .string]⟩, ⟨[⟨0, [.string t, .string ['x']]⟩], .eof⟩⟩

/-- The sinks write values and separators one at a time. -/
def sepEnv : SinkEnv := ⟨plainFloats, sepChunking, .wraps⟩

theorem wide_row (ff : FloatFmt) (t : Str) : csvRowText ff bareCsv ⟨0, [.string t, .string ['x']]⟩ = (t ++ [',', 'x', '\n'], .ok ()) := by
  simp [csvRowText, bareCsv, csvValues, valueText]

/-- The value: as bytes it has 8188 bytes, none of which is a comma or a line feed. -/
structure WideText (t : Str) (V : List Byte) : Prop where
  enc : utf8Encode t = V
  len : V.length = 8188
  cut : ∀ rest, sepCut [] (V ++ rest) = sepCut V rest
  head : ∃ V', V = 118 :: V'

theorem wide_encoded {t : Str} {V : List Byte} (hw : WideText t V) : utf8Encode (t ++ [',', 'x', '\n']) = V ++ [44, 120, 10] := by
  rw [utf8Encode_append, hw.enc]
  rfl

theorem wide_exists : ∃ t V, WideText t V :=
  ⟨List.replicate 8188 'v', List.replicate 8188 118, encode_run 8188, List.length_replicate .., fun rest => by rw [sepCut_run 118 rfl, List.nil_append], List.replicate 8187 118, List.replicate_succ⟩

theorem sep_tail (V : List Byte) : sepCut V [44, 120, 10] = [V, [44], [120], [10], []] := rfl

/-- One row through the graph, given what the two sinks do. -/
theorem two_row_eq (e : SinkEnv) (cfg1 cfg2 : CsvOutputConfig) (b1 b2 b1' b2' : List Byte) (d d1 d2 : Device) (row : Row)
    (h1 : StdoutSink.write e (.csv cfg1 b1) row d = (.csv cfg1 b1', d1, .ok [row])) (h2 : StdoutSink.write e (.csv cfg2 b2) row d1 = (.csv cfg2 b2', d2, .ok [row])) :
    processRowIO (stdoutOps e) 4 0 0 row (twoOut cfg1 cfg2 b1 b2 [], d) = ((twoOut cfg1 cfg2 b1' b2' [.write 1 0 row, .write 2 0 row], d2), .ok ()) := by
  have s1 : (stdoutOps e).write = StdoutSink.write e := rfl
  simp [processRowIO, twoOut, runAll, DGraph.setSink, s1, h1, h2]

theorem wide_write {t : Str} {V : List Byte} (hw : WideText t V) (d : List Byte) (fl : Nat) :
    StdoutSink.write sepEnv (.csv bareCsv [97, 44, 98, 10]) ⟨0, [.string t, .string ['x']]⟩ ⟨d, [], fl⟩ =
      (.csv bareCsv [44, 120, 10], ⟨d ++ ([97, 44, 98, 10] ++ V), [], fl⟩, .ok [⟨0, [.string t, .string ['x']]⟩]) := by
  have hc : sepChunking.cut (V ++ [44, 120, 10]) = [V, [44], [120], [10], []] := by
    simp only [sepChunking]
    rw [hw.cut, sep_tail]
  simp only [StdoutSink.write, sepEnv, wide_row, wide_encoded hw, BufWriter.emit, hc]
  rw [long_chunks _ _ _ hw.len]
  rfl

theorem wide_out {t : Str} {V : List Byte} (hw : WideText t V) :
    (splitOutputs sepEnv bareCsv bareCsv (wideTable t) ⟨[], [], 0⟩).1.taken =
      ([97, 44, 98, 10] ++ V) ++ ([97, 44, 98, 10] ++ V) ++ [44, 120, 10] ++ [44, 120, 10] := by
  have hh : writeHeaders sepEnv (twoOut bareCsv bareCsv (utf8Encode (csvHeaderText bareCsv [['a'], ['b']])) (utf8Encode (csvHeaderText bareCsv [['a'], ['b']])) []).chains ⟨[], [], 0⟩ =
      ((twoOut bareCsv bareCsv [97, 44, 98, 10] [97, 44, 98, 10] []).chains, ⟨[], [], 0⟩, .ok ()) := by
    simp only [twoOut]
    rfl
  have w1 := wide_write hw [] 0
  have w2 := wide_write hw ([] ++ ([97, 44, 98, 10] ++ V)) 0
  unfold splitOutputs
  rw [two_setup]
  simp only [wideTable, hh]
  unfold driveGraphIO
  rw [drive_source _ _ _ (by simp) _ _ (Nat.le_refl _)]
  simp only [List.map_cons, List.map_nil, List.cons_append, List.nil_append, perform]
  have hrow : processRowIO (stdoutOps sepEnv) 4 0 0 ⟨0, [.string t, .string ['x']]⟩ (twoOut bareCsv bareCsv [97, 44, 98, 10] [97, 44, 98, 10] [], ⟨[], [], 0⟩) =
      ((twoOut bareCsv bareCsv [44, 120, 10] [44, 120, 10] [.write 1 0 ⟨0, [.string t, .string ['x']]⟩, .write 2 0 ⟨0, [.string t, .string ['x']]⟩],
        ⟨[] ++ ([97, 44, 98, 10] ++ V) ++ ([97, 44, 98, 10] ++ V), [], 0⟩), .ok ()) := two_row_eq _ _ _ _ _ _ _ _ _ _ _ w1 w2
  have e : ({ twoOut bareCsv bareCsv (utf8Encode (csvHeaderText bareCsv [['a'], ['b']])) (utf8Encode (csvHeaderText bareCsv [['a'], ['b']])) [] with
      chains := (twoOut bareCsv bareCsv [97, 44, 98, 10] [97, 44, 98, 10] []).chains } : DGraph StdoutSink) = twoOut bareCsv bareCsv [97, 44, 98, 10] [97, 44, 98, 10] [] := rfl
  rw [e, hrow]
  simp only
  obtain ⟨log, d', h1, h2, _⟩ := two_flush sepEnv bareCsv bareCsv [44, 120, 10] [44, 120, 10] [.write 1 0 ⟨0, [.string t, .string ['x']]⟩, .write 2 0 ⟨0, [.string t, .string ['x']]⟩]
    ⟨[] ++ ([97, 44, 98, 10] ++ V) ++ ([97, 44, 98, 10] ++ V), [], 0⟩ (by intro k h; cases h)
  rw [h1]
  simp only [closeAll, twoOut, List.flatten_cons, List.flatten_nil, List.cons_append, List.nil_append, List.append_nil, List.foldl_cons, List.foldl_nil, close_nil]
  rw [h2]
  rfl

theorem wide_lines (ff : FloatFmt) (t : Str) : RowLines ff bareCsv (wideTable t).source.rows [t ++ [',', 'x', '\n']] := by
  refine .cons ?_ .nil
  have h : CsvLines ff bareCsv [⟨0, [.string t, .string ['x']]⟩] (joinWith bareCsv.delimiter ([] ++ [t, ['x']]) ++ ['\n'] ++ []) := by
    refine .cons ?_ ⟨rfl, ?_⟩ .nil
    · exact rfl
    · intro i v u hv hu
      match i with
      | 0 => simp at hv hu; subst hv hu; exact .string
      | 1 => simp at hv hu; subst hv hu; exact .string
      | i + 2 => simp at hv
  simpa [joinWith, bareCsv] using h

/-- The full claim is false: with a value of 8188 bytes the first output's buffer is full in the middle of a line, and its first half goes out before the other output's first half. -/
theorem C116_counterexample : ¬ C116_full := by
  intro h
  obtain ⟨t, V, hw⟩ := wide_exists
  obtain ⟨whole, hi, ho⟩ := h sepEnv bareCsv bareCsv (wideTable t) ⟨[], [], 0⟩ (by intro k h; cases h) ⟨by simp [wideTable], rfl⟩
    (by intro cfg hc; rcases hc with rfl | rfl <;> simp [bareCsv])
    (by intro r hr v hv; simp only [wideTable, List.mem_singleton] at hr; subst hr; simp only [List.mem_cons, List.not_mem_nil, or_false] at hv
        rcases hv with rfl | rfl <;> rintro (⟨b, h⟩ | ⟨b, h⟩) <;> cases h)
    _ _ (wide_lines _ t) (wide_lines _ t)
  rw [wide_out hw] at ho
  have hhead : utf8Encode (csvHeaderText bareCsv [['a'], ['b']]) = [97, 44, 98, 10] := rfl
  have hline := wide_encoded hw
  have hnames : (wideTable t).header.names = [['a'], ['b']] := rfl
  rw [hnames] at hi
  have hfirst : ∃ rest, utf8Encode whole.flatten = [97, 44, 98, 10] ++ rest ∧
      ((∃ more, rest = V ++ [44, 120, 10] ++ more) ∨ ∃ more, rest = [97, 44, 98, 10] ++ more) := by
    cases hi with
    | left h1 =>
      refine ⟨_, by rw [List.flatten_cons, utf8Encode_append, hhead], ?_⟩
      cases h1 with
      | left h2 => exact .inl ⟨_, by rw [List.flatten_cons, utf8Encode_append, hline]⟩
      | right h2 => exact .inr ⟨_, by rw [List.flatten_cons, utf8Encode_append, hhead]⟩
    | right h1 =>
      refine ⟨_, by rw [List.flatten_cons, utf8Encode_append, hhead], ?_⟩
      cases h1 with
      | left h2 => exact .inr ⟨_, by rw [List.flatten_cons, utf8Encode_append, hhead]⟩
      | right h2 => exact .inl ⟨_, by rw [List.flatten_cons, utf8Encode_append, hline]⟩
  obtain ⟨rest, h1, h2⟩ := hfirst
  rw [h1, List.nil_append] at ho
  rcases h2 with ⟨more, rfl⟩ | ⟨more, rfl⟩
  · simp only [List.append_assoc] at ho
    have := List.append_cancel_left (List.append_cancel_left ho)
    simp at this
  · obtain ⟨V', rfl⟩ := hw.head
    simp at ho

/-- A small case: two rows, two outputs. -/
example : splitOutputs sepEnv bareCsv bareCsv ⟨⟨[['a']], [.int]⟩, ⟨[⟨0, [.int 1]⟩, ⟨5, [.int 2]⟩], .eof⟩⟩ ⟨[], [], 0⟩ = (⟨[97, 10, 49, 10, 50, 10, 97, 10, 49, 10, 50, 10], [], 12⟩, .ok ()) := by decide

end Chopper.Props
