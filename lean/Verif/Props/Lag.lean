import Verif.Props.LibGraph

/-!
# C129, C130: how far an output file lags behind
-/
namespace Chopper.Props
open Chopper Spec

/-- The buffer of a writer never holds more than it has room for. -/
def Capped (w : BufWriter) : Prop := w.cap = defaultBufSize ∧ w.buf.length ≤ defaultBufSize

theorem capped_new (d : Device) : Capped (BufWriter.new d) := ⟨rfl, Nat.zero_le _⟩

theorem capped_flushBuf {w : BufWriter} (h : Capped w) : Capped w.flushBuf.1 :=
  ⟨h.1, by
    have : w.flushBuf.1.buf = w.buf.drop (devWrite w.dev.sched w.buf).1.length := rfl
    rw [this, List.length_drop]
    have := h.2
    omega⟩

theorem flushBuf_empty {w : BufWriter} (h : w.flushBuf.2 = .ok ()) : w.flushBuf.1.buf = [] := by
  obtain ⟨_, _, _, h4⟩ := flushBuf_step (w := w) rfl
  rcases h4 with ⟨_, h5⟩ | ⟨k, h5, _⟩
  · exact h5
  · rw [h] at h5; cases h5

theorem capped_put {w : BufWriter} (h : Capped w) {bs : List Byte} (hl : w.buf.length + bs.length ≤ defaultBufSize ∨ w.buf = []) : Capped (w.put bs).1 := by
  obtain ⟨h1, h2⟩ := h
  unfold BufWriter.put
  split
  · exact ⟨h1, h2⟩
  · next hc =>
    refine ⟨h1, ?_⟩
    simp only [List.length_append]
    rcases hl with hl | hl
    · exact hl
    · rw [hl, List.length_nil]; omega

theorem capped_writeAll {w : BufWriter} (h : Capped w) (bs : List Byte) : Capped (w.writeAll bs).1 := by
  unfold BufWriter.writeAll
  split
  · have h1 := capped_flushBuf h
    have h2 := flushBuf_empty (w := w)
    rcases hw : w.flushBuf with ⟨w', _ | _ | _ | _⟩ <;> rw [hw] at h1 h2
    · exact capped_put h1 (.inr (h2 rfl))
    all_goals exact h1
  · next hc => exact capped_put h (.inl (by rw [h.1] at hc; omega))

theorem capped_writeChunks : ∀ (cs : List (List Byte)) {w : BufWriter}, Capped w → Capped (w.writeChunks cs).1
  | [], _, h => h
  | c :: cs, w, h => by
    rw [BufWriter.writeChunks]
    have h1 := capped_writeAll h c
    rcases hw : w.writeAll c with ⟨w', _ | _ | _ | _⟩ <;> rw [hw] at h1
    · exact capped_writeChunks cs h1
    all_goals exact h1

theorem capped_emit {α : Type} (ch : Chunking) {w : BufWriter} (h : Capped w) (bs : List Byte) (res : Res α) : Capped (w.emit ch bs res).1 := by
  unfold BufWriter.emit
  have h1 := capped_writeChunks (ch.cut bs) h
  rcases hw : w.writeChunks (ch.cut bs) with ⟨w', _ | _ | _ | _⟩ <;> rw [hw] at h1 <;> exact h1

theorem capped_flush {w : BufWriter} (h : Capped w) : Capped w.flush.1 := by
  unfold BufWriter.flush
  have h1 := capped_flushBuf h
  rcases hw : w.flushBuf with ⟨w', _ | _ | _ | _⟩ <;> rw [hw] at h1 <;> exact h1

theorem capped_did {e : SinkEnv} {mk : BufWriter → CliSink} {row : Row → Wr Unit} (hm : WritesRows e mk row) {s s' : LibSink} {ts : List (Option Row)}
    (h : Did (libOps e) s ts s') : ∀ {w : BufWriter}, s = .out (mk w) → Capped w → ∃ w', s' = .out (mk w') ∧ Capped w' := by
  induction h with
  | start => intro w hs hc; exact ⟨w, hs, hc⟩
  | @write s1 s2 ts r out hd hw ih =>
    intro w hs hc
    obtain ⟨w1, rfl, h1⟩ := ih hs hc
    rw [lib_write hm] at hw
    exact ⟨_, (Prod.mk.inj hw).1.symm, capped_emit _ h1 _ _⟩
  | @flush s1 s2 ts hd hw ih =>
    intro w hs hc
    obtain ⟨w1, rfl, h1⟩ := ih hs hc
    rw [lib_flush hm] at hw
    exact ⟨_, (Prod.mk.inj hw).1.symm, capped_flush h1⟩

theorem capped_tried {e : SinkEnv} {mk : BufWriter → CliSink} {row : Row → Wr Unit} (hm : WritesRows e mk row) {s s' : LibSink} {ts : List (Option Row)}
    (h : Tried (libOps e) s ts s') {w : BufWriter} (hs : s = .out (mk w)) (hc : Capped w) : ∃ w', s' = .out (mk w') ∧ Capped w' := by
  cases h with
  | did hd => exact capped_did hm hd hs hc
  | @write s1 _ ts r x hd hw =>
    obtain ⟨w1, rfl, h1⟩ := capped_did hm hd hs hc
    rw [lib_write hm] at hw
    exact ⟨_, (Prod.mk.inj hw).1.symm, capped_emit _ h1 _ _⟩
  | @flush s1 _ ts x hd hw =>
    obtain ⟨w1, rfl, h1⟩ := capped_did hm hd hs hc
    rw [lib_flush hm] at hw
    exact ⟨_, (Prod.mk.inj hw).1.symm, capped_flush h1⟩

/-! ### Nothing reaches the device before the buffer is full -/

/-- Everything is still in the buffer, the device is as it was. -/
def Still (d : Device) (w : BufWriter) (b : List Byte) : Prop := w = ⟨defaultBufSize, b, d⟩

theorem still_writeAll {d : Device} {w : BufWriter} {b : List Byte} (h : Still d w b) (bs : List Byte) (hl : (b ++ bs).length < defaultBufSize) :
    w.writeAll bs = (⟨defaultBufSize, b ++ bs, d⟩, .ok ()) := by
  subst h
  rw [List.length_append] at hl
  unfold BufWriter.writeAll BufWriter.put
  have h1 : ¬ defaultBufSize < b.length + bs.length := by omega
  have h2 : ¬ defaultBufSize ≤ bs.length := by omega
  simp only [h1, h2, if_false]

theorem still_writeChunks {d : Device} : ∀ (cs : List (List Byte)) {w : BufWriter} {b : List Byte}, Still d w b → (b ++ cs.flatten).length < defaultBufSize →
    w.writeChunks cs = (⟨defaultBufSize, b ++ cs.flatten, d⟩, .ok ())
  | [], w, b, h, _ => by rw [BufWriter.writeChunks, List.flatten_nil, List.append_nil, h]
  | c :: cs, w, b, h, hl => by
    rw [List.flatten_cons, ← List.append_assoc] at hl ⊢
    rw [BufWriter.writeChunks, still_writeAll h c (by rw [List.length_append] at hl; omega)]
    exact still_writeChunks cs rfl hl

theorem still_emit {α : Type} (ch : Chunking) {d : Device} {w : BufWriter} {b : List Byte} (h : Still d w b) (bs : List Byte) (res : Res α)
    (hl : (b ++ bs).length < defaultBufSize) : w.emit ch bs res = (⟨defaultBufSize, b ++ bs, d⟩, res) := by
  unfold BufWriter.emit
  rw [still_writeChunks (ch.cut bs) h (by rw [ch.flat]; exact hl), ch.flat]

theorem still_did {e : SinkEnv} {mk : BufWriter → CliSink} {row : Row → Wr Unit} (hm : WritesRows e mk row) {d : Device} {s s' : LibSink} {ts : List (Option Row)}
    (h : Did (libOps e) s ts s') : ∀ {w : BufWriter} {b : List Byte}, s = .out (mk w) → Still d w b → none ∉ ts →
    (b ++ (rowsOut row (rowTurns ts)).out).length < defaultBufSize →
    ∃ w', s' = .out (mk w') ∧ Still d w' (b ++ (rowsOut row (rowTurns ts)).out) ∧ (rowsOut row (rowTurns ts)).res = .ok () := by
  induction h with
  | start =>
    intro w b hs hb _ _
    exact ⟨w, hs, by simpa [rowTurns, rowsOut, Wr.put] using hb, rfl⟩
  | @write s1 s2 ts r out hd hw ih =>
    intro w b hs hb hn hl
    rw [rowTurns_append, show rowTurns [some r] = [r] from rfl] at hl ⊢
    have hpre : (rowsOut row (rowTurns ts)).out.length ≤ (rowsOut row (rowTurns ts ++ [r])).out.length := (rowsOut_prefix _ _).length_le
    rw [List.length_append] at hl
    obtain ⟨w1, rfl, h1, h2⟩ := ih hs hb (fun h => hn (List.mem_append_left _ h)) (by rw [List.length_append]; omega)
    rw [lib_write hm] at hw
    rw [rowsOut_snoc r _ h2] at hl ⊢
    have hl' : (b ++ (rowsOut row (rowTurns ts)).out ++ (row r).out).length < defaultBufSize := by
      simp only [List.length_append] at hl ⊢; omega
    rw [still_emit e.ch h1 (row r).out _ hl'] at hw
    obtain ⟨h3, h4⟩ := Prod.mk.inj hw
    refine ⟨_, h3.symm, ?_, ?_⟩
    · show _ = _
      rw [List.append_assoc]
    · cases hr : (row r).res with
      | ok u => rfl
      | err x => simp [hr, Res.map] at h4
      | panic => simp [hr, Res.map] at h4
      | diverge => simp [hr, Res.map] at h4
  | flush hd hw ih =>
    intro w b hs hb hn
    exact absurd (by simp) hn

theorem still_tried {e : SinkEnv} {mk : BufWriter → CliSink} {row : Row → Wr Unit} (hm : WritesRows e mk row) {d : Device} {s s' : LibSink} {ts : List (Option Row)}
    (h : Tried (libOps e) s ts s') {w : BufWriter} {b : List Byte} (hs : s = .out (mk w)) (hb : Still d w b) (hn : none ∉ ts)
    (hl : (b ++ (rowsOut row (rowTurns ts)).out).length < defaultBufSize) : ∃ w', s' = .out (mk w') ∧ Still d w' (b ++ (rowsOut row (rowTurns ts)).out) := by
  cases h with
  | did hd =>
    obtain ⟨w', h1, h2, _⟩ := still_did hm hd hs hb hn hl
    exact ⟨w', h1, h2⟩
  | @write s1 _ ts r x hd hw =>
    rw [rowTurns_append, show rowTurns [some r] = [r] from rfl] at hl ⊢
    have hpre : (rowsOut row (rowTurns ts)).out.length ≤ (rowsOut row (rowTurns ts ++ [r])).out.length := (rowsOut_prefix _ _).length_le
    rw [List.length_append] at hl
    obtain ⟨w1, rfl, h1, h2⟩ := still_did hm hd hs hb (fun h => hn (List.mem_append_left _ h)) (by rw [List.length_append]; omega)
    rw [lib_write hm] at hw
    rw [rowsOut_snoc r _ h2] at hl ⊢
    have hl' : (b ++ (rowsOut row (rowTurns ts)).out ++ (row r).out).length < defaultBufSize := by
      simp only [List.length_append] at hl ⊢; omega
    rw [still_emit e.ch h1 (row r).out _ hl'] at hw
    refine ⟨_, (Prod.mk.inj hw).1.symm, ?_⟩
    show _ = _
    rw [List.append_assoc]
  | flush hd hw => exact absurd (by simp) hn

/-! ### Outputs as they are made -/

theorem csv_capped {e : SinkEnv} {cfg : CsvOutputConfig} {d : Device} {h h' : Header} {w : BufWriter} (hh : csvSinkHeader e cfg d h = .ok (.csv cfg w, h')) :
    w = ((BufWriter.new d).emit e.ch (utf8Encode (csvHeaderText cfg h.names)) (.ok ())).1 := by
  unfold csvSinkHeader at hh
  simp only [Res.bind_eq_ok] at hh
  obtain ⟨_, _, hh⟩ := hh
  simp only [Res.ok.injEq, Prod.mk.injEq, CliSink.csv.injEq] at hh
  exact hh.1.2.symm

theorem dc_capped {e : SinkEnv} {d : Device} {h h' : Header} {n : Nat} {w : BufWriter} (hh : dcSinkHeader e d h = .ok (.dc n w, h')) :
    w = ((BufWriter.new d).emit e.ch (dcProcessHeader e.ov h).out (dcProcessHeader e.ov h).res).1 := by
  unfold dcSinkHeader at hh
  simp only [Res.bind_eq_ok] at hh
  obtain ⟨_, _, hh⟩ := hh
  simp only [Res.ok.injEq, Prod.mk.injEq, CliSink.dc.injEq] at hh
  exact hh.1.2.symm

/-- An output as it was made: how it writes rows, and what its buffer holds. -/
theorem writes_buffer {e : SinkEnv} {s : CliSink} {d : Device} {text : List Row → List Byte × Res Unit} (h : Writes e s d text) :
    ∃ mk row w b, WritesRows e mk row ∧ s = mk w ∧ Holds w (d.taken ++ b) ∧ (∀ k, CanFail w.dev k → CanFail d k) ∧
      (∀ w, deviceNow (mk w) = some w.dev) ∧ (∀ rows, text rows = (b ++ (rowsOut row rows).out, (rowsOut row rows).res)) ∧
      Capped w ∧ (b.length < defaultBufSize → Still d w b) ∧ (∀ w w', mk w = mk w' → w = w') := by
  cases h with
  | @csv cfg d h s h' hh =>
    rcases csv_header_ok e cfg d h with ⟨w, h1, h2, h3⟩ | ⟨k, h1, _⟩
    · have hw := csv_capped h1
      rw [h1] at hh
      cases hh
      refine ⟨_, _, w, _, csv_writes e cfg, rfl, h2, h3, fun _ => rfl, fun rows => ?_, ?_, fun hl => ?_, fun _ _ h => by cases h; rfl⟩
      · rw [rowsOut_csv]
        simp only [csvFile, utf8Encode, List.flatMap_append]
      · rw [hw]; exact capped_emit _ (capped_new d) _ _
      · rw [hw, still_emit (b := []) e.ch (show Still d (BufWriter.new d) [] from rfl) (utf8Encode (csvHeaderText cfg h.names)) _ (by simpa using hl)]
        rfl
    · rw [h1] at hh; cases hh
  | @dc d h s h' hh =>
    cases hn : (dcProcessHeader e.ov h).res with
    | ok n =>
      rcases dc_header_ok e d h n hn with ⟨w, h1, h2, h3⟩ | ⟨k, h1, _⟩
      · have hw := dc_capped h1
        rw [h1] at hh
        cases hh
        refine ⟨_, _, w, _, dc_writes e n, rfl, h2, h3, fun _ => rfl, fun rows => ?_, ?_, fun hl => ?_, fun _ _ h => by cases h; rfl⟩
        · rw [rowsOut_dc]
          simp only [dcWriteFile, Wr.bind, hn]
        · rw [hw]; exact capped_emit _ (capped_new d) _ _
        · rw [hw, still_emit (b := []) e.ch (show Still d (BufWriter.new d) [] from rfl) (dcProcessHeader e.ov h).out _ (by simpa using hl)]
          rfl
      · rw [h1] at hh; cases hh
    | err x => exact absurd hh (dc_header_no hn (by simp))
    | panic => exact absurd hh (dc_header_no hn (by simp))
    | diverge => exact absurd hh (dc_header_no hn (by simp))

/-- **C129 (never far behind).** Any graph of filters, merges, splits and output files, any inputs, devices that do not fail. At every moment of every run, whatever stops it,
the file holds the text of the header and of the rows handed to the output so far, but for at most 8192 bytes at the end. -/
theorem C129_lag (e : SinkEnv) (range : TimestampRange) (gfuel fuel : Nat) (sources : List Source) (g : DGraph LibSink) (t : Place) (s : CliSink) (d : Device)
    (text : List Row → List Byte × Res Unit) (R : Nat → List (List Place)) (hs : sinkAt g.chains t.1 t.2 = some (.out s)) (hw : Writes e s d text)
    (hr : ∀ c, c < sources.length → Routes g.chains t c 0 (R c)) (hd : ∀ kind, WriteStep.fail kind ∉ d.sched) (k : Nat) :
    ∃ s' now rest ev, sinkAt (after (libOps e) gfuel (calls range fuel sources).1 k g).chains t.1 t.2 = some (.out s') ∧ deviceNow s' = some now ∧
      (after (libOps e) gfuel (calls range fuel sources).1 k g).log = g.log ++ ev ∧ written t.1 t.2 ev <+: routed g.chains R (calls range fuel sources).1 ∧
      now.taken ++ rest = d.taken ++ (text (written t.1 t.2 ev)).1 ∧ rest.length ≤ 8192 := by
  obtain ⟨ev, ⟨hsh, hlog, hg⟩, hp, _⟩ := after_reaches e gfuel ((calls range fuel sources).1.take k) (fed_chains (fun x hx => List.mem_of_mem_take hx)) (.ok ()) g g t R
    (lib_inv g.chains) hr
  obtain ⟨mk, row, w, b, hm, rfl, h1, h2, hnow, htext, hcap, _, hinj⟩ := writes_buffer hw
  obtain ⟨s', h3, h4, _⟩ := hg t.1 t.2 _ hs
  obtain ⟨w', rfl, hc'⟩ := capped_tried hm h4 rfl hcap
  obtain ⟨w'', h8, _, _, h5, h6⟩ := tried_writer hm h4 rfl h1
  obtain rfl : w' = w'' := hinj _ _ (LibSink.out.inj h8)
  refine ⟨mk w', w'.dev, w'.buf, ev, h3, hnow w', hlog, hp.trans (routed_take _ _ _ k), ?_, by have := hc'.2; unfold defaultBufSize at this; exact this⟩
  rw [htext, ← List.append_assoc, ← rowTurns_turns]
  exact h6 (fun k hk => hd k (h2 k hk))

/-! ### Only the end of an input flushes -/

/-- The log went on without a flush. -/
def OnlyRows {S : Type} (g g' : DGraph S) : Prop := ∃ ev, g'.log = g.log ++ ev ∧ ∀ c i, Event.flush c i ∉ ev

theorem onlyRows_refl {S : Type} (g : DGraph S) : OnlyRows g g := ⟨[], by simp⟩

theorem onlyRows_trans {S : Type} {a b c : DGraph S} : OnlyRows a b → OnlyRows b c → OnlyRows a c := by
  rintro ⟨x, h1, h2⟩ ⟨y, h3, h4⟩
  refine ⟨x ++ y, by rw [h3, h1, List.append_assoc], fun c i h => ?_⟩
  rcases List.mem_append.1 h with h | h
  · exact h2 c i h
  · exact h4 c i h

theorem runAll_onlyRows {S α : Type} {f : α → DGraph S → DGraph S × Res Unit} (hf : ∀ a g, OnlyRows g (f a g).1) : ∀ (xs : List α) (g : DGraph S),
    OnlyRows g (runAll f xs g).1
  | [], g => onlyRows_refl g
  | x :: xs, g => by
    rw [runAll]
    have h := hf x g
    rcases hx : f x g with ⟨g', _ | _ | _ | _⟩ <;> rw [hx] at h
    · exact onlyRows_trans h (runAll_onlyRows hf xs g')
    all_goals exact h

theorem processRow_onlyRows {S : Type} (ops : SinkOps S) : ∀ (fuel c i : Nat) (row : Row) (g : DGraph S), OnlyRows g (processRow ops fuel c i row g).1 := by
  intro fuel
  induction fuel with
  | zero => intro c i row g; exact onlyRows_refl g
  | succ fuel ih =>
    intro c i row g
    rw [processRow]
    split
    · exact onlyRows_refl g
    · split
      · exact onlyRows_refl g
      · next s _ =>
        have hset : ∀ s', OnlyRows g (g.setSink c i s' (.write c i row)) := fun s' => ⟨[.write c i row], rfl, by simp⟩
        rcases ops.write s row with ⟨s', _ | _ | _ | _⟩
        · exact onlyRows_trans (hset s') (runAll_onlyRows (fun r g => ih c (i + 1) r g) _ _)
        all_goals exact hset s'
      · next d _ =>
        have h := ih d 0 row g
        rcases hx : processRow ops fuel d 0 row g with ⟨g', _ | _ | _ | _⟩ <;> rw [hx] at h
        · exact onlyRows_trans h (ih c (i + 1) row g')
        all_goals exact h
      · next ds _ =>
        have h := runAll_onlyRows (fun d g => ih d 0 row g) ds g
        rcases hx : runAll (fun d g => processRow ops fuel d 0 row g) ds g with ⟨g', _ | _ | _ | _⟩ <;> rw [hx] at h
        · exact onlyRows_trans h (ih c (i + 1) row g')
        all_goals exact h

theorem perform_onlyRows {S : Type} (ops : SinkOps S) (gfuel : Nat) (out : Res Unit) : ∀ (cs : List Call) (g : DGraph S), (∀ c, Call.flush c ∉ cs) →
    OnlyRows g (perform (fun c r g => processRow ops gfuel c 0 r g) (fun c g => flushFrom ops gfuel c 0 g) cs out g).1
  | [], g, _ => onlyRows_refl g
  | .feed c r :: cs, g, hn => by
    rw [perform]
    have h := processRow_onlyRows ops gfuel c 0 r g
    rcases hx : processRow ops gfuel c 0 r g with ⟨g', _ | _ | _ | _⟩ <;> rw [hx] at h
    · exact onlyRows_trans h (perform_onlyRows ops gfuel out cs g' (fun c h => hn c (List.mem_cons_of_mem _ h)))
    all_goals exact h
  | .flush c :: cs, g, hn => absurd (List.mem_cons_self) (hn c)

/-- **C130 (nothing at first).** As long as no input has ended and the text of the header and of the rows handed to an output is shorter than 8192 bytes, its file is exactly as
it was made: not one byte, not even of the header, has been written to it; whatever the device, whatever stops the run, however long the inputs go on. -/
theorem C130_quiet (e : SinkEnv) (range : TimestampRange) (gfuel fuel : Nat) (sources : List Source) (g : DGraph LibSink) (t : Place) (s : CliSink) (d : Device)
    (text : List Row → List Byte × Res Unit) (R : Nat → List (List Place)) (hs : sinkAt g.chains t.1 t.2 = some (.out s)) (hw : Writes e s d text)
    (hr : ∀ c, c < sources.length → Routes g.chains t c 0 (R c)) (k : Nat) (hgoes : ∀ c, Call.flush c ∉ (calls range fuel sources).1.take k) :
    ∃ s' now ev, sinkAt (after (libOps e) gfuel (calls range fuel sources).1 k g).chains t.1 t.2 = some (.out s') ∧ deviceNow s' = some now ∧
      (after (libOps e) gfuel (calls range fuel sources).1 k g).log = g.log ++ ev ∧
      ((text (written t.1 t.2 ev)).1.length < 8192 → now = d) := by
  obtain ⟨ev, ⟨hsh, hlog, hg⟩, hp, _⟩ := after_reaches e gfuel ((calls range fuel sources).1.take k) (fed_chains (fun x hx => List.mem_of_mem_take hx)) (.ok ()) g g t R
    (lib_inv g.chains) hr
  obtain ⟨mk, row, w, b, hm, rfl, h1, h2, hnow, htext, hcap, hstill, hinj⟩ := writes_buffer hw
  obtain ⟨s', h3, h4, _⟩ := hg t.1 t.2 _ hs
  obtain ⟨w', rfl, _⟩ := capped_tried hm h4 rfl hcap
  refine ⟨mk w', w'.dev, ev, h3, hnow w', hlog, fun hl => ?_⟩
  obtain ⟨ev', hlog', hf'⟩ := perform_onlyRows (libOps e) gfuel (.ok ()) _ g hgoes
  obtain rfl : ev = ev' := List.append_cancel_left (hlog.symm.trans hlog')
  have hf := hf' t.1 t.2
  rw [htext, ← rowTurns_turns] at hl
  have hl' : (b ++ (rowsOut row (rowTurns (turns t.1 t.2 ev))).out).length < defaultBufSize := by unfold defaultBufSize; exact hl
  have hn : none ∉ turns t.1 t.2 ev := by
    intro hmem
    obtain ⟨x, hx, he⟩ := List.mem_filterMap.1 hmem
    cases x with
    | write c i r =>
      simp only at he
      split at he <;> simp at he
    | flush c i =>
      simp only at he
      split at he
      · next hh => obtain ⟨rfl, rfl⟩ := hh; exact hf hx
      · simp at he
  obtain ⟨w'', h8, h9⟩ := still_tried hm h4 rfl (hstill (by rw [List.length_append] at hl'; omega)) hn hl'
  obtain rfl : w' = w'' := hinj _ _ (LibSink.out.inj h8)
  rw [h9]

theorem lost_routes : ∀ c, c < [lostSource].length → Routes lostGraph.chains (0, 1) c 0 [[(0, 0)]] := by
  intro c hc
  obtain rfl : c = 0 := by simpa using hc
  exact .sink rfl rfl (.sink (s := LibSink.out lostSink) rfl rfl (.done rfl rfl))

/-- One row has been handed to the output of `C122_counterexample`, the input goes on: the file is still empty, although the text so far has 27 bytes. -/
example : written 0 1 (after (libOps fileEnv) 9 (calls .all 9 [lostSource]).1 1 lostGraph).log = [⟨1, [.int 7, .string ['x']]⟩] ∧
    (utf8Encode (csvFile fileEnv.ff fileCfg fileHdr [⟨1, [.int 7, .string ['x']]⟩]).1).length = 27 ∧
    ∃ s', sinkAt (after (libOps fileEnv) 9 (calls .all 9 [lostSource]).1 1 lostGraph).chains 0 1 = some (.out s') ∧ deviceNow s' = some {} := by
  have h0 : written 0 1 (after (libOps fileEnv) 9 (calls .all 9 [lostSource]).1 1 lostGraph).log = [⟨1, [.int 7, .string ['x']]⟩] := by decide +kernel
  have h1 : (utf8Encode (csvFile fileEnv.ff fileCfg fileHdr [⟨1, [.int 7, .string ['x']]⟩]).1).length = 27 := by decide +kernel
  refine ⟨h0, h1, ?_⟩
  obtain ⟨s', now, ev, h2, h3, h4, h5⟩ := C130_quiet fileEnv .all 9 9 [lostSource] lostGraph (0, 1) lostSink {} _ (fun _ => [[(0, 0)]]) rfl (.csv lost_header) lost_routes 1
    (by intro c hc; have : (calls .all 9 [lostSource]).1.take 1 = [.feed 0 ⟨1, [.int 7, .string ['x']]⟩] := by decide +kernel
        rw [this] at hc; simp at hc)
  refine ⟨s', h2, ?_⟩
  rw [h3, h5 (by rw [show lostGraph.log = [] from rfl, List.nil_append] at h4; rw [← h4]; simp only [h0]; rw [h1]; decide)]

end Chopper.Props
