import Verif.Model.SharedOut
import Verif.Spec.SharedOut
import Verif.Proofs.Cli3
import Verif.Props.Driver

/-! # Outputs that share standard output: lemmas -/
namespace Chopper
open Chopper Chopper.Spec

/-- Sinks that share nothing. -/
def IoOps.ofPure {S : Type} (ops : SinkOps S) : IoOps S Unit := ⟨fun s r u => let o := ops.write s r; (o.1, u, o.2), fun s u => let o := ops.flush s; (o.1, u, o.2)⟩

theorem runAll_pair {α G H : Type} {f : α → G × H → (G × H) × Res Unit} {f' : α → G → G × Res Unit} (h : H) (hf : ∀ a g, f a (g, h) = (((f' a g).1, h), (f' a g).2)) :
    ∀ (l : List α) (g : G), runAll f l (g, h) = (((runAll f' l g).1, h), (runAll f' l g).2)
  | [], _ => rfl
  | a :: l, g => by
    rw [runAll, runAll, hf]
    rcases hr : f' a g with ⟨g', r⟩
    cases r with
    | ok u => exact runAll_pair h hf l g'
    | err e => rfl
    | panic => rfl
    | diverge => rfl

/-- With nothing shared the traversal is that of `Model/Graph`. -/
theorem processRowIO_pure {S : Type} (ops : SinkOps S) : ∀ (fuel c i : Nat) (row : Row) (g : DGraph S),
    processRowIO (.ofPure ops) fuel c i row (g, ()) = (((processRow ops fuel c i row g).1, ()), (processRow ops fuel c i row g).2)
  | 0, _, _, _, _ => rfl
  | fuel + 1, c, i, row, g => by
    rw [processRowIO, processRow]
    simp only
    cases g.chains[c]? with
    | none => rfl
    | some ch =>
      simp only
      cases ch[i]? with
      | none => rfl
      | some n =>
        cases n with
        | sink s =>
          have hw : (IoOps.ofPure ops).write s row () = ((ops.write s row).1, (), (ops.write s row).2) := rfl
          simp only [hw]
          rcases h : ops.write s row with ⟨s', r⟩
          have h' : ops.1 s row = (s', r) := h
          simp only [h']
          cases r with
          | ok rows => exact runAll_pair () (fun a g => processRowIO_pure ops fuel c (i + 1) a g) rows _
          | err e => rfl
          | panic => rfl
          | diverge => rfl
        | merge d =>
          simp only
          rw [processRowIO_pure ops fuel d 0 row g]
          rcases processRow ops fuel d 0 row g with ⟨g', r⟩
          cases r with
          | ok u => exact processRowIO_pure ops fuel c (i + 1) row g'
          | err e => rfl
          | panic => rfl
          | diverge => rfl
        | split ds =>
          simp only
          rw [runAll_pair () (fun a g => processRowIO_pure ops fuel a 0 row g) ds g]
          rcases runAll (fun d g => processRow ops fuel d 0 row g) ds g with ⟨g', r⟩
          cases r with
          | ok u => exact processRowIO_pure ops fuel c (i + 1) row g'
          | err e => rfl
          | panic => rfl
          | diverge => rfl

theorem flushFromIO_pure {S : Type} (ops : SinkOps S) : ∀ (fuel c i : Nat) (g : DGraph S),
    flushFromIO (.ofPure ops) fuel c i (g, ()) = (((flushFrom ops fuel c i g).1, ()), (flushFrom ops fuel c i g).2)
  | 0, _, _, _ => rfl
  | fuel + 1, c, i, g => by
    rw [flushFromIO, flushFrom]
    simp only
    cases g.chains[c]? with
    | none => rfl
    | some ch =>
      simp only
      cases ch[i]? with
      | none => rfl
      | some n =>
        cases n with
        | sink s =>
          have hw : (IoOps.ofPure ops).flush s () = ((ops.flush s).1, (), (ops.flush s).2) := rfl
          simp only [hw]
          rcases h : ops.flush s with ⟨s', r⟩
          have h' : ops.2 s = (s', r) := h
          simp only [h']
          cases r with
          | ok u => exact flushFromIO_pure ops fuel c (i + 1) _
          | err e => rfl
          | panic => rfl
          | diverge => rfl
        | merge d =>
          simp only
          rw [flushFromIO_pure ops fuel d 0 g]
          rcases flushFrom ops fuel d 0 g with ⟨g', r⟩
          cases r with
          | ok u => exact flushFromIO_pure ops fuel c (i + 1) g'
          | err e => rfl
          | panic => rfl
          | diverge => rfl
        | split ds =>
          simp only
          rw [runAll_pair () (fun a g => flushFromIO_pure ops fuel a 0 g) ds g]
          rcases runAll (fun d g => flushFrom ops fuel d 0 g) ds g with ⟨g', r⟩
          cases r with
          | ok u => exact flushFromIO_pure ops fuel c (i + 1) g'
          | err e => rfl
          | panic => rfl
          | diverge => rfl

/-! ## A reliable device -/

theorem reliable_writeAll {d : Device} (h : Reliable d) (bs : List Byte) :
    ∃ d', d.writeAll bs = (d', [], .ok ()) ∧ d'.taken = d.taken ++ bs ∧ Reliable d' := by
  obtain ⟨a, h1, h2, h3, h4⟩ := dev_writeAll d bs
  rcases h4 with ⟨h4, h5, rfl⟩ | ⟨k, _, h5⟩
  · refine ⟨(d.writeAll a).1, ?_, h1, fun k hk => h k (h3 k hk)⟩
    rw [← h4, ← h5]
  · exact absurd h5 (h k)

/-- What one call appends to a reliable device: together with what stays in the buffer it is what was in the buffer and what is written. -/
def Passed (w : BufWriter) (bs : List Byte) (w' : BufWriter) : Prop :=
  Reliable w'.dev ∧ w'.cap = w.cap ∧ ∃ s, w'.dev.taken = w.dev.taken ++ s ∧ s ++ w'.buf = w.buf ++ bs ∧ (w.buf.length + bs.length < w.cap → s = [])

theorem reliable_write {w : BufWriter} (h : Reliable w.dev) (bs : List Byte) : ∃ w', w.writeAll bs = (w', .ok ()) ∧ Passed w bs w' := by
  have hput : ∀ w : BufWriter, Reliable w.dev → (w.cap ≤ bs.length → w.buf = []) → ∃ w', w.put bs = (w', .ok ()) ∧ Passed w bs w' := by
    intro w h hb
    unfold BufWriter.put
    by_cases hl : w.cap ≤ bs.length
    · obtain ⟨d', h1, h2, h3⟩ := reliable_writeAll h bs
      simp only [hl, if_true, h1]
      exact ⟨_, rfl, h3, rfl, bs, h2, by simp [hb hl], fun hlt => by omega⟩
    · simp only [hl, if_false]
      exact ⟨_, rfl, h, rfl, [], by simp, by simp, fun _ => rfl⟩
  unfold BufWriter.writeAll
  by_cases hc : w.cap < w.buf.length + bs.length
  · simp only [hc, if_true]
    obtain ⟨d', h1, h2, h3⟩ := reliable_writeAll h w.buf
    have hf : w.flushBuf = (⟨w.cap, [], d'⟩, .ok ()) := by
      unfold BufWriter.flushBuf
      rw [h1]
    rw [hf]
    obtain ⟨w', g1, g2, g3, s, g4, g5, _⟩ := hput ⟨w.cap, [], d'⟩ h3 fun _ => rfl
    refine ⟨w', g1, g2, g3, w.buf ++ s, ?_, ?_, fun hlt => by omega⟩
    · rw [g4, h2, List.append_assoc]
    · rw [List.append_assoc, g5]; rfl
  · simp only [hc, if_false]
    exact hput w h fun hl => List.eq_nil_of_length_eq_zero (by omega)

theorem reliable_chunks : ∀ (cs : List (List Byte)) {w : BufWriter}, Reliable w.dev → ∃ w', w.writeChunks cs = (w', .ok ()) ∧ Passed w cs.flatten w'
  | [], w, h => ⟨w, rfl, h, rfl, [], by simp, by simp, fun _ => rfl⟩
  | c :: cs, w, h => by
    obtain ⟨w1, h1, h2, h3, s, h4, h5, h6⟩ := reliable_write h c
    obtain ⟨w2, g1, g2, g3, t, g4, g5, g6⟩ := reliable_chunks cs h2
    refine ⟨w2, ?_, g2, g3.trans h3, s ++ t, ?_, ?_, ?_⟩
    · rw [BufWriter.writeChunks, h1]; exact g1
    · rw [g4, h4, List.append_assoc]
    · rw [List.append_assoc, g5, ← List.append_assoc, h5, List.flatten_cons, List.append_assoc]
    · intro hl
      rw [List.flatten_cons, List.length_append] at hl
      have hs := h6 (by omega)
      have hb : w1.buf = w.buf ++ c := by rw [← h5, hs]; rfl
      rw [hs, g6 (by rw [hb, List.length_append, h3]; omega)]
      rfl

theorem reliable_emit {α : Type} (ch : Chunking) {w : BufWriter} (h : Reliable w.dev) (bs : List Byte) (res : Res α) : ∃ w', w.emit ch bs res = (w', res) ∧ Passed w bs w' := by
  obtain ⟨w', h1, h2⟩ := reliable_chunks (ch.cut bs) h
  rw [ch.flat] at h2
  refine ⟨w', ?_, h2⟩
  unfold BufWriter.emit
  rw [h1]

theorem reliable_flush {w : BufWriter} (h : Reliable w.dev) : ∃ w', w.flush = (w', .ok ()) ∧ w'.buf = [] ∧ w'.dev.taken = w.dev.taken ++ w.buf ∧ Reliable w'.dev := by
  obtain ⟨d', h1, h2, h3⟩ := reliable_writeAll h w.buf
  have hf : w.flushBuf = (⟨w.cap, [], d'⟩, .ok ()) := by
    unfold BufWriter.flushBuf
    rw [h1]
  obtain ⟨g1, g2, g3⟩ := dev_flush d'
  have g4 : d'.flush.2 = .ok () := g3.resolve_right fun ⟨k, _, hk⟩ => h3 k hk
  refine ⟨⟨w.cap, [], d'.flush.1⟩, ?_, rfl, g1.trans h2, fun k hk => h3 k (g2 k hk)⟩
  unfold BufWriter.flush
  rw [hf]
  simp only [g4]

/-! ## One input, everything selected -/

theorem drive_one {G : Type} (process : ChainId → Row → G → G × Res Unit) (flush : ChainId → G → G × Res Unit) : ∀ (rs : List Row) (r : Row) (ts : Nanos) (fuel : Nat) (g : G),
    rs.length + 2 ≤ fuel →
    driveLoop process flush .all fuel [⟨⟨rs, .eof⟩, 0, ts, some r⟩] g = perform process flush ((r :: rs).map (Call.feed 0) ++ [.flush 0]) (.ok ()) g
  | rs, r, ts, fuel + 1, g, hf => by
    rw [driveLoop]
    simp only [nextBufferIndex, minIndexFrom, List.getElem?_cons_zero, List.map_cons, List.cons_append, perform]
    rcases process 0 r g with ⟨g', res⟩
    cases res with
    | ok u =>
      cases rs with
      | nil =>
        simp only [RowBuffer.hasNext, matchNextRow, List.map_nil, List.nil_append, perform]
        rcases flush 0 g' with ⟨g'', res⟩
        cases res with
        | ok u =>
          cases fuel <;> simp [driveLoop, nextBufferIndex]
        | err e => rfl
        | panic => rfl
        | diverge => rfl
      | cons r' rs =>
        simp only [RowBuffer.hasNext, matchNextRow, filterDataRange, TimestampRange.all, List.set_cons_zero]
        exact drive_one process flush rs r' _ fuel g' (by simp only [List.length_cons] at hf; omega)
    | err e => rfl
    | panic => rfl
    | diverge => rfl

theorem drive_source {G : Type} (process : ChainId → Row → G → G × Res Unit) (flush : ChainId → G → G × Res Unit) (rows : List Row) (hne : rows ≠ []) (fuel : Nat) (g : G)
    (hf : rows.length + 1 ≤ fuel) :
    drive process flush .all fuel [⟨rows, .eof⟩] g = perform process flush (rows.map (Call.feed 0) ++ [.flush 0]) (.ok ()) g := by
  obtain ⟨r, rs, rfl⟩ := List.exists_cons_of_ne_nil hne
  have : getRowBuffers .all [⟨r :: rs, .eof⟩] = .ok [⟨⟨rs, .eof⟩, 0, r.timestamp, some r⟩] := rfl
  rw [drive, this]
  exact drive_one process flush rs r _ fuel g (by simp only [List.length_cons] at hf; omega)

/-! ## The graph with two outputs -/

/-- The graph of the example: a split to two outputs whose buffers hold `b1` and `b2`. -/
def twoOut (cfg1 cfg2 : CsvOutputConfig) (b1 b2 : List Byte) (log : List Event) : DGraph StdoutSink :=
  ⟨[[.split [1, 2]], [.sink (.csv cfg1 b1)], [.sink (.csv cfg2 b2)]], log⟩

theorem two_setup (checks : Bool) (cfg1 cfg2 : CsvOutputConfig) (h : Header) :
    newDriver checks .mergeJoin 3 1 (splitExampleChains cfg1 cfg2) [h] =
      .ok (twoOut cfg1 cfg2 (utf8Encode (csvHeaderText cfg1 h.names)) (utf8Encode (csvHeaderText cfg2 h.names)) []) := rfl

theorem two_row (e : SinkEnv) (cfg1 cfg2 : CsvOutputConfig) (b1 b2 : List Byte) (log : List Event) (d : Device) (hd : Reliable d) (row : Row)
    (h1 : (csvRowText e.ff cfg1 row).2 = .ok ()) (h2 : (csvRowText e.ff cfg2 row).2 = .ok ()) :
    ∃ b1' b2' log' d1 d2, processRowIO (stdoutOps e) 4 0 0 row (twoOut cfg1 cfg2 b1 b2 log, d) = ((twoOut cfg1 cfg2 b1' b2' log', d2), .ok ()) ∧
      Passed ⟨defaultBufSize, b1, d⟩ (utf8Encode (csvRowText e.ff cfg1 row).1) ⟨defaultBufSize, b1', d1⟩ ∧
      Passed ⟨defaultBufSize, b2, d1⟩ (utf8Encode (csvRowText e.ff cfg2 row).1) ⟨defaultBufSize, b2', d2⟩ := by
  obtain ⟨w1, e1, p1⟩ := reliable_emit e.ch (w := ⟨defaultBufSize, b1, d⟩) hd (utf8Encode (csvRowText e.ff cfg1 row).1) ((csvRowText e.ff cfg1 row).2.map fun _ => [row])
  obtain ⟨w2, e2, p2⟩ := reliable_emit e.ch (w := ⟨defaultBufSize, b2, w1.dev⟩) p1.1 (utf8Encode (csvRowText e.ff cfg2 row).1) ((csvRowText e.ff cfg2 row).2.map fun _ => [row])
  have c1 : w1 = ⟨defaultBufSize, w1.buf, w1.dev⟩ := by
    have := p1.2.1
    simp only at this
    rw [← this]
  have c2 : w2 = ⟨defaultBufSize, w2.buf, w2.dev⟩ := by
    have := p2.2.1
    simp only at this
    rw [← this]
  refine ⟨w1.buf, w2.buf, log ++ [.write 1 0 row] ++ [.write 2 0 row], w1.dev, w2.dev, ?_, c1 ▸ p1, c2 ▸ p2⟩
  have s1 : (stdoutOps e).write (.csv cfg1 b1) row d = (.csv cfg1 w1.buf, w1.dev, .ok [row]) := by
    rw [h1] at e1
    simp only [stdoutOps, StdoutSink.write, h1, e1]
    rfl
  have s2 : (stdoutOps e).write (.csv cfg2 b2) row w1.dev = (.csv cfg2 w2.buf, w2.dev, .ok [row]) := by
    rw [h2] at e2
    simp only [stdoutOps, StdoutSink.write, h2, e2]
    rfl
  simp [processRowIO, twoOut, runAll, DGraph.setSink, s1, s2]

theorem two_flush (e : SinkEnv) (cfg1 cfg2 : CsvOutputConfig) (b1 b2 : List Byte) (log : List Event) (d : Device) (hd : Reliable d) :
    ∃ log' d', flushFromIO (stdoutOps e) 4 0 0 (twoOut cfg1 cfg2 b1 b2 log, d) = ((twoOut cfg1 cfg2 [] [] log', d'), .ok ()) ∧ d'.taken = d.taken ++ b1 ++ b2 ∧ Reliable d' := by
  obtain ⟨w1, e1, n1, t1, r1⟩ := reliable_flush (w := ⟨defaultBufSize, b1, d⟩) hd
  obtain ⟨w2, e2, n2, t2, r2⟩ := reliable_flush (w := ⟨defaultBufSize, b2, w1.dev⟩) r1
  refine ⟨log ++ [.flush 1 0] ++ [.flush 2 0], w2.dev, ?_, by rw [t2, t1], r2⟩
  have s1 : (stdoutOps e).flush (.csv cfg1 b1) d = (.csv cfg1 [], w1.dev, .ok ()) := by
    simp only [stdoutOps, StdoutSink.flush, e1, n1]
  have s2 : (stdoutOps e).flush (.csv cfg2 b2) w1.dev = (.csv cfg2 [], w2.dev, .ok ()) := by
    simp only [stdoutOps, StdoutSink.flush, e2, n2]
  simp [flushFromIO, twoOut, runAll, DGraph.setSink, s1, s2]

end Chopper
