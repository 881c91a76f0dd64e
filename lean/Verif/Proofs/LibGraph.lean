import Verif.Spec.LibGraph
import Verif.Proofs.Moments
import Verif.Proofs.Cli4
import Verif.Proofs.Writer2
import Verif.Props.Routes
import Verif.Props.Cycles

/-!
# Output files in any graph: what single outputs do
-/
namespace Chopper
open Spec

theorem rowsOut_snoc {row : Row → Wr Unit} (r : Row) : ∀ (a : List Row), (rowsOut row a).res = .ok () →
    rowsOut row (a ++ [r]) = ⟨(rowsOut row a).out ++ (row r).out, (row r).res⟩
  | [], _ => by
    simp only [List.nil_append, rowsOut, Wr.bind, Wr.put]
    cases (row r).res <;> simp
  | x :: a, h => by
    simp only [rowsOut, List.cons_append, Wr.bind] at *
    cases hx : (row x).res with
    | ok u =>
      rw [hx] at h
      simp only at h
      simp only [rowsOut_snoc r a h, List.append_assoc]
    | err e => rw [hx] at h; simp at h
    | panic => rw [hx] at h; simp at h
    | diverge => rw [hx] at h; simp at h

/-! ### The device only ever grows -/

theorem devAll_grows (d : Device) (bs : List Byte) : d.taken <+: (d.writeAll bs).1.taken := ⟨(devWrite d.sched bs).1, rfl⟩

theorem flushBuf_grows (w : BufWriter) : w.dev.taken <+: w.flushBuf.1.dev.taken := devAll_grows _ _

theorem put_grows (w : BufWriter) (bs : List Byte) : w.dev.taken <+: (w.put bs).1.dev.taken := by
  unfold BufWriter.put
  split
  · exact devAll_grows _ _
  · exact List.prefix_refl _

theorem writeAll_grows (w : BufWriter) (bs : List Byte) : w.dev.taken <+: (w.writeAll bs).1.dev.taken := by
  unfold BufWriter.writeAll
  split
  · have h := flushBuf_grows w
    rcases hw : w.flushBuf with ⟨w', _ | _ | _ | _⟩ <;> rw [hw] at h
    · exact h.trans (put_grows w' bs)
    all_goals exact h
  · exact put_grows w bs

theorem writeChunks_grows : ∀ (cs : List (List Byte)) (w : BufWriter), w.dev.taken <+: (w.writeChunks cs).1.dev.taken
  | [], w => List.prefix_refl _
  | c :: cs, w => by
    rw [BufWriter.writeChunks]
    have h := writeAll_grows w c
    rcases hw : w.writeAll c with ⟨w', _ | _ | _ | _⟩ <;> rw [hw] at h
    · exact h.trans (writeChunks_grows cs w')
    all_goals exact h

theorem emit_grows {α : Type} (ch : Chunking) (w : BufWriter) (bs : List Byte) (res : Res α) : w.dev.taken <+: (w.emit ch bs res).1.dev.taken := by
  unfold BufWriter.emit
  have h := writeChunks_grows (ch.cut bs) w
  rcases hw : w.writeChunks (ch.cut bs) with ⟨w', _ | _ | _ | _⟩ <;> rw [hw] at h <;> exact h

theorem flush_grows (w : BufWriter) : w.dev.taken <+: w.flush.1.dev.taken := by
  unfold BufWriter.flush
  have h := flushBuf_grows w
  rcases hw : w.flushBuf with ⟨w', _ | _ | _ | _⟩ <;> rw [hw] at h
  · simp only
    rw [(dev_flush w'.dev).1]
    exact h
  all_goals exact h

/-! ### One output -/

theorem lib_write {e : SinkEnv} {mk : BufWriter → CliSink} {row : Row → Wr Unit} (hm : WritesRows e mk row) (w : BufWriter) (r : Row) :
    (libOps e).write (.out (mk w)) r =
      (.out (mk (w.emit e.ch (row r).out ((row r).res.map fun _ => [r])).1), (w.emit e.ch (row r).out ((row r).res.map fun _ => [r])).2) := by
  have h := hm.write w r
  show (LibSink.out (CliSink.write e (mk w) r).1, (CliSink.write e (mk w) r).2) = _
  rw [h]

theorem lib_flush {e : SinkEnv} {mk : BufWriter → CliSink} {row : Row → Wr Unit} (hm : WritesRows e mk row) (w : BufWriter) :
    (libOps e).flush (.out (mk w)) = (.out (mk w.flush.1), w.flush.2) := by
  have h := hm.flush w
  show (LibSink.out (CliSink.flush (mk w)).1, (CliSink.flush (mk w)).2) = _
  rw [h]

theorem did_writer {e : SinkEnv} {mk : BufWriter → CliSink} {row : Row → Wr Unit} (hm : WritesRows e mk row) {s s' : LibSink} {ts : List (Option Row)}
    (h : Did (libOps e) s ts s') : ∀ {w : BufWriter} {b : List Byte}, s = .out (mk w) → Holds w b →
    ∃ w', s' = .out (mk w') ∧ Holds w' (b ++ (rowsOut row (rowTurns ts)).out) ∧ (rowsOut row (rowTurns ts)).res = .ok () ∧
      (∀ k, CanFail w'.dev k → CanFail w.dev k) ∧ w.dev.taken <+: w'.dev.taken ∧
      (ts.getLast? = some none → w'.buf = [] ∧ w'.dev.flushed = w'.dev.taken.length) := by
  induction h with
  | start => intro w b hs hb; exact ⟨w, hs, by simpa [rowTurns, rowsOut, Wr.put] using hb, rfl, fun k h => h, List.prefix_refl _, by simp⟩
  | @write s1 s2 ts r out hd hw ih =>
    intro w b hs hb
    obtain ⟨w1, rfl, h1, h2, h3, h4, _⟩ := ih hs hb
    rw [lib_write hm] at hw
    obtain ⟨h5, h6⟩ := emit_step e.ch (row r).out ((row r).res.map fun _ => [r]) h1
    have h7 := emit_grows e.ch w1 (row r).out ((row r).res.map fun _ => [r])
    rcases hx : w1.emit e.ch (row r).out ((row r).res.map fun _ => [r]) with ⟨w2, x⟩
    rw [hx] at hw h5 h6 h7
    cases hw
    rcases h6 with ⟨h8, h9⟩ | ⟨k, h8, _⟩
    · have hr : (row r).res = .ok () := by
        cases hr : (row r).res with
        | ok u => rfl
        | err x => rw [hr] at h8; simp [Res.map] at h8
        | panic => rw [hr] at h8; simp [Res.map] at h8
        | diverge => rw [hr] at h8; simp [Res.map] at h8
      rw [rowTurns_append, show rowTurns [some r] = [r] from rfl, rowsOut_snoc r _ h2]
      refine ⟨w2, rfl, ?_, hr, fun k hk => h3 k (h5 k hk), h4.trans h7, by simp⟩
      rw [← List.append_assoc]; exact h9
    · simp at h8
  | @flush s1 s2 ts hd hw ih =>
    intro w b hs hb
    obtain ⟨w1, rfl, h1, h2, h3, h4, _⟩ := ih hs hb
    rw [lib_flush hm] at hw
    obtain ⟨h5, h6⟩ := flush_step h1
    have h7 := flush_grows w1
    have h10 := flush_clean (w := w1)
    rcases hx : w1.flush with ⟨w2, x⟩
    rw [hx] at hw h5 h6 h7 h10
    cases hw
    rw [rowTurns_append, show rowTurns [none] = [] from rfl, List.append_nil]
    rcases h6 with ⟨_, h8, h9⟩ | ⟨k, h8, _⟩
    · exact ⟨w2, rfl, h8, h2, fun k hk => h3 k (h5 k hk), h4.trans h7, fun _ => ⟨h9, (h10 rfl).2⟩⟩
    · simp at h8

theorem tried_writer {e : SinkEnv} {mk : BufWriter → CliSink} {row : Row → Wr Unit} (hm : WritesRows e mk row) {s s' : LibSink} {ts : List (Option Row)}
    (h : Tried (libOps e) s ts s') {w : BufWriter} {b : List Byte} (hs : s = .out (mk w)) (hb : Holds w b) :
    ∃ w', s' = .out (mk w') ∧ HoldsPrefix w' (b ++ (rowsOut row (rowTurns ts)).out) ∧ w.dev.taken <+: w'.dev.taken ∧ (∀ k, CanFail w'.dev k → CanFail w.dev k) ∧
      ((∀ k, ¬ CanFail w.dev k) → Holds w' (b ++ (rowsOut row (rowTurns ts)).out)) := by
  cases h with
  | did hd =>
    obtain ⟨w', h1, h2, _, h3, h4, _⟩ := did_writer hm hd hs hb
    exact ⟨w', h1, ⟨[], by rw [List.append_nil]; exact h2⟩, h4, h3, fun _ => h2⟩
  | @write s1 _ ts r x hd hw =>
    obtain ⟨w1, rfl, h1, h2, h3, h4, _⟩ := did_writer hm hd hs hb
    rw [lib_write hm] at hw
    obtain ⟨h5, h6⟩ := emit_step e.ch (row r).out ((row r).res.map fun _ => [r]) h1
    have h7 := emit_grows e.ch w1 (row r).out ((row r).res.map fun _ => [r])
    rcases hx : w1.emit e.ch (row r).out ((row r).res.map fun _ => [r]) with ⟨w2, y⟩
    rw [hx] at hw h5 h6 h7
    cases hw
    rw [rowTurns_append, show rowTurns [some r] = [r] from rfl, rowsOut_snoc r _ h2]
    simp only
    rw [← List.append_assoc]
    refine ⟨w2, rfl, ?_, h4.trans h7, fun k hk => h3 k (h5 k hk), ?_⟩
    · rcases h6 with ⟨_, h9⟩ | ⟨k, _, _, h9⟩
      · exact ⟨[], by rw [List.append_nil]; exact h9⟩
      · exact h9
    · intro hn
      rcases h6 with ⟨_, h9⟩ | ⟨k, _, h9, _⟩
      · exact h9
      · exact absurd (h3 k h9) (hn k)
  | @flush s1 _ ts x hd hw =>
    obtain ⟨w1, rfl, h1, h2, h3, h4, _⟩ := did_writer hm hd hs hb
    rw [lib_flush hm] at hw
    obtain ⟨h5, h6⟩ := flush_step h1
    have h7 := flush_grows w1
    rcases hx : w1.flush with ⟨w2, y⟩
    rw [hx] at hw h5 h6 h7
    cases hw
    rw [rowTurns_append, show rowTurns [none] = [] from rfl, List.append_nil]
    have h9 : Holds w2 (b ++ (rowsOut row (rowTurns ts)).out) := by
      rcases h6 with ⟨_, h9, _⟩ | ⟨k, _, _, h9⟩ <;> exact h9
    exact ⟨w2, rfl, ⟨[], by rw [List.append_nil]; exact h9⟩, h4.trans h7, fun k hk => h3 k (h5 k hk), fun _ => h9⟩

theorem close_holds {w : BufWriter} {b : List Byte} (h : Holds w b) (hn : ∀ k, ¬ CanFail w.dev k) : w.close.taken = b := by
  obtain ⟨_, _, h3, h4⟩ := flushBuf_step h
  unfold BufWriter.close
  rcases h4 with ⟨_, h5⟩ | ⟨k, _, h5⟩
  · rw [h5, List.append_nil] at h3; exact h3
  · exact absurd h5 (hn k)

/-! ### An output as it was made -/

theorem dc_header_no {e : SinkEnv} {d : Device} {h : Header} {x : Res Nat} {p} (hn : (dcProcessHeader e.ov h).res = x) (hx : ∀ n, x ≠ .ok n) :
    dcSinkHeader e d h ≠ .ok p := by
  intro hh
  unfold dcSinkHeader at hh
  simp only [Res.bind_eq_ok] at hh
  obtain ⟨n, h1, _⟩ := hh
  obtain ⟨_, h2⟩ := emit_step e.ch (dcProcessHeader e.ov h).out (dcProcessHeader e.ov h).res (holds_new d)
  rcases h2 with ⟨h3, _⟩ | ⟨k, h3, _⟩
  · rw [h1, hn] at h3; exact hx n h3.symm
  · rw [h1] at h3; cases h3

/-- An output as it was made: how it writes rows. -/
theorem writes_shape {e : SinkEnv} {s : CliSink} {d : Device} {text : List Row → List Byte × Res Unit} (h : Writes e s d text) :
    ∃ mk row w b, WritesRows e mk row ∧ s = mk w ∧ Holds w (d.taken ++ b) ∧ (∀ k, CanFail w.dev k → CanFail d k) ∧
      (∀ w, deviceNow (mk w) = some w.dev) ∧ (∀ rows, text rows = (b ++ (rowsOut row rows).out, (rowsOut row rows).res)) := by
  cases h with
  | @csv cfg d h s h' hh =>
    rcases csv_header_ok e cfg d h with ⟨w, h1, h2, h3⟩ | ⟨k, h1, _⟩
    · rw [h1] at hh
      cases hh
      refine ⟨_, _, w, _, csv_writes e cfg, rfl, h2, h3, fun _ => rfl, fun rows => ?_⟩
      rw [rowsOut_csv]
      simp only [csvFile, utf8Encode, List.flatMap_append]
    · rw [h1] at hh; cases hh
  | @dc d h s h' hh =>
    cases hn : (dcProcessHeader e.ov h).res with
    | ok n =>
      rcases dc_header_ok e d h n hn with ⟨w, h1, h2, h3⟩ | ⟨k, h1, _⟩
      · rw [h1] at hh
        cases hh
        refine ⟨_, _, w, _, dc_writes e n, rfl, h2, h3, fun _ => rfl, fun rows => ?_⟩
        rw [rowsOut_dc]
        simp only [dcWriteFile, Wr.bind, hn]
      · rw [h1] at hh; cases hh
    | err x => exact absurd hh (dc_header_no hn (by simp))
    | panic => exact absurd hh (dc_header_no hn (by simp))
    | diverge => exact absurd hh (dc_header_no hn (by simp))

/-! ### The sinks of a library graph as `Acts` -/

/-- The states of a sink during a run: outputs change, filters do not. -/
def libInv (chains : List (DChain LibSink)) (p : Place) (s : LibSink) : Prop :=
  ∃ s0, sinkAt chains p.1 p.2 = some s0 ∧ ((∃ a b, s = .out a ∧ s0 = .out b) ∨ ∃ a b, s = .node a ∧ s0 = .node b ∧ (a = b ∨ ∃ x y, a = .writer x ∧ b = .writer y))

theorem writeOut_passes (e : SinkEnv) (s : CliSink) (row : Row) {x : List Row} (h : (s.write e row).2 = .ok x) : x = [row] := by
  have key : ∀ (w : BufWriter) (bs : List Byte) (res : Res Unit), (w.emit e.ch bs (res.map fun _ => [row])).2 = .ok x → x = [row] := by
    intro w bs res h
    unfold BufWriter.emit at h
    rcases hc : w.writeChunks (e.ch.cut bs) with ⟨w', _ | _ | _ | _⟩ <;> rw [hc] at h
    · cases res with
      | ok u => simp only [Res.map, Res.ok.injEq] at h; exact h.symm
      | err x => simp [Res.map] at h
      | panic => simp [Res.map] at h
      | diverge => simp [Res.map] at h
    all_goals simp at h
  cases s with
  | mergeJoin => simp only [CliSink.write, Res.ok.injEq] at h; exact h.symm
  | csv cfg w => exact key _ _ _ h
  | dc k w => exact key _ _ _ h

theorem node_same (b : BSink) (row : Row) : (b.write row).1 = b ∨ ∃ x y, (b.write row).1 = .writer x ∧ b = .writer y := by
  cases b with
  | writer w => exact .inr ⟨_, _, rfl, rfl⟩
  | _ => exact .inl rfl

theorem writer_passes (x y : List Row) (row : Row) : ((BSink.writer x).write row).2 = ((BSink.writer y).write row).2 := rfl

theorem lib_acts (e : SinkEnv) (chains : List (DChain LibSink)) : Acts (libOps e) (libInv chains) (libAt chains) where
  write := by
    rintro p s row s' rows ⟨s0, h0, h1⟩ hw
    rcases h1 with ⟨a, b, rfl, rfl⟩ | ⟨a, b, rfl, rfl, h1⟩
    · have hw' : (LibSink.out (a.write e row).1, (a.write e row).2) = (s', .ok rows) := hw
      obtain ⟨h2, h3⟩ := Prod.mk.inj hw'
      refine ⟨?_, _, h0, .inl ⟨_, _, h2.symm, rfl⟩⟩
      unfold libAt
      rw [h0]
      exact writeOut_passes e a row h3
    · have hw' : (LibSink.node (a.write row).1, (a.write row).2) = (s', .ok rows) := hw
      obtain ⟨h2, h3⟩ := Prod.mk.inj hw'
      refine ⟨?_, _, h0, .inr ⟨_, _, h2.symm, rfl, ?_⟩⟩
      · have : (b.write row).2 = .ok rows := by
          rcases h1 with rfl | ⟨x, y, rfl, rfl⟩
          · exact h3
          · rw [← writer_passes x y]; exact h3
        unfold libAt
        rw [h0]
        simp only [this]
      · rcases h1 with rfl | ⟨x, y, rfl, rfl⟩
        · exact node_same a row
        · exact .inr ⟨_, _, rfl, rfl⟩
  flush := by
    rintro p s s' ⟨s0, h0, h1⟩ hf
    rcases h1 with ⟨a, b, rfl, rfl⟩ | ⟨a, b, rfl, rfl, h1⟩
    · have hf' : (LibSink.out a.flush.1, a.flush.2) = (s', .ok ()) := hf
      exact ⟨_, h0, .inl ⟨_, _, (Prod.mk.inj hf').1.symm, rfl⟩⟩
    · have hf' : (LibSink.node a, Res.ok ()) = (s', .ok ()) := hf
      exact ⟨_, h0, .inr ⟨_, _, (Prod.mk.inj hf').1.symm, rfl, h1⟩⟩

theorem lib_inv (chains : List (DChain LibSink)) : AllInv (libInv chains) chains := by
  intro c i s hs
  refine ⟨s, hs, ?_⟩
  cases s with
  | node b => exact .inr ⟨b, b, rfl, rfl, .inl rfl⟩
  | out a => exact .inl ⟨a, a, rfl, rfl⟩

theorem lib_one (chains : List (DChain LibSink)) (p : Place) (row : Row) : (libAt chains p row).length ≤ 1 := by
  unfold libAt
  cases sinkAt chains p.1 p.2 with
  | none => simp
  | some s =>
    cases s with
    | out a => simp
    | node b =>
      have := Props.builtin_one [[.sink b]] (0, 0) row
      unfold Props.builtinAt at this
      exact this

end Chopper
