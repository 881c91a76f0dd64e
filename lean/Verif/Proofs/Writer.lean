import Verif.Model.Writer

/-!
# `BufWriter` over a device that may fail
-/
namespace Chopper

/-- Everything handed to the writer is on the device or in the buffer. -/
def Holds (w : BufWriter) (bs : List Byte) : Prop := w.dev.taken ++ w.buf = bs

/-- What is on the device and in the buffer is the beginning of `bs`. -/
def HoldsPrefix (w : BufWriter) (bs : List Byte) : Prop := w.dev.taken ++ w.buf <+: bs

/-- The device was able to fail in this way. -/
def CanFail (d : Device) (k : IoKind) : Prop := WriteStep.fail k ∈ d.sched

theorem devWrite_spec : ∀ (ss : List WriteStep) (bs : List Byte),
    (devWrite ss bs).1 ++ bs.drop (devWrite ss bs).1.length = bs ∧ ((devWrite ss bs).2.2 = none → (devWrite ss bs).1 = bs) ∧
    (∀ k, (devWrite ss bs).2.2 = some k → .fail k ∈ ss) ∧ (∀ x ∈ (devWrite ss bs).2.1, x ∈ ss)
  | ss, [] => by cases ss <;> simp [devWrite]
  | [], b :: bs => by simp [devWrite]
  | .take n :: ss, b :: bs => by
    obtain ⟨h1, h2, h3, h4⟩ := devWrite_spec ss (bs.drop n)
    simp only [devWrite]
    refine ⟨?_, ?_, ?_, ?_⟩
    · simp only [List.cons_append, List.length_cons, List.drop_succ_cons, List.length_append, List.length_take, List.cons.injEq, true_and, List.append_assoc]
      by_cases hn : n ≤ bs.length
      · rw [Nat.min_eq_left hn, ← List.drop_drop, h1]; exact List.take_append_drop n bs
      · have : bs.drop n = [] := List.drop_eq_nil_of_le (by omega)
        rw [this] at h1 ⊢
        have h0 : (devWrite ss []).1 = [] := by cases ss <;> rfl
        rw [h0]
        simp [List.take_of_length_le (show bs.length ≤ n by omega), Nat.min_eq_right (show bs.length ≤ n by omega)]
    · intro h
      rw [h2 h]
      simp
    · intro k h
      exact List.mem_cons_of_mem _ (h3 k h)
    · intro x hx
      exact List.mem_cons_of_mem _ (h4 x hx)
  | .fail k :: ss, b :: bs => by
    simp only [devWrite, List.nil_append, List.length_nil, List.drop_zero, reduceCtorEq, false_imp_iff, true_and, Option.some.injEq]
    exact ⟨fun k' h => by rw [h]; exact .head _, fun x hx => List.mem_cons_of_mem _ hx⟩

theorem dev_writeAll (d : Device) (bs : List Byte) :
    ∃ a, (d.writeAll bs).1.taken = d.taken ++ a ∧ a ++ (d.writeAll bs).2.1 = bs ∧ (∀ k, CanFail (d.writeAll bs).1 k → CanFail d k) ∧
      (((d.writeAll bs).2.2 = .ok () ∧ (d.writeAll bs).2.1 = [] ∧ a = bs) ∨ ∃ k, (d.writeAll bs).2.2 = .err (.io k) ∧ CanFail d k) := by
  obtain ⟨h1, h2, h3, h4⟩ := devWrite_spec d.sched bs
  refine ⟨_, rfl, h1, fun k h => h4 _ h, ?_⟩
  unfold Device.writeAll
  cases he : (devWrite d.sched bs).2.2 with
  | none => left; exact ⟨by simp only [he, ioRes], by show bs.drop _ = []; rw [h2 he]; simp, h2 he⟩
  | some k => right; exact ⟨k, by simp only [he, ioRes], h3 k he⟩

/-- The three possible outcomes of a writing step, starting from `Holds w b` and adding `bs`. -/
def Step (w : BufWriter) (total : List Byte) (o : BufWriter × Res Unit) : Prop :=
  (∀ k, CanFail o.1.dev k → CanFail w.dev k) ∧
  ((o.2 = .ok () ∧ Holds o.1 total) ∨ ∃ k, o.2 = .err (.io k) ∧ CanFail w.dev k ∧ HoldsPrefix o.1 total)

theorem flushBuf_step {w : BufWriter} {b : List Byte} (h : Holds w b) :
    (∀ k, CanFail w.flushBuf.1.dev k → CanFail w.dev k) ∧ w.flushBuf.1.cap = w.cap ∧
    w.flushBuf.1.dev.taken ++ w.flushBuf.1.buf = b ∧ ((w.flushBuf.2 = .ok () ∧ w.flushBuf.1.buf = []) ∨ ∃ k, w.flushBuf.2 = .err (.io k) ∧ CanFail w.dev k) := by
  obtain ⟨a, h1, h2, h3, h4⟩ := dev_writeAll w.dev w.buf
  unfold BufWriter.flushBuf
  refine ⟨h3, rfl, ?_, ?_⟩
  · simp only [h1]
    rw [List.append_assoc, h2]; exact h
  · rcases h4 with ⟨h5, h6, _⟩ | ⟨k, h5, h6⟩
    · exact .inl ⟨h5, h6⟩
    · exact .inr ⟨k, h5, h6⟩

theorem put_step {w : BufWriter} {b bs : List Byte} (h : Holds w b) (hc : w.cap ≤ bs.length → w.buf = []) : Step w (b ++ bs) (w.put bs) := by
  unfold BufWriter.put
  by_cases hl : w.cap ≤ bs.length
  · rw [if_pos hl]
    obtain ⟨a, h1, h2, h3, h4⟩ := dev_writeAll w.dev bs
    have hb : w.dev.taken = b := by have := h; unfold Holds at this; rw [hc hl, List.append_nil] at this; exact this
    refine ⟨h3, ?_⟩
    rcases h4 with ⟨h5, _, h6⟩ | ⟨k, h5, h6⟩
    · left
      refine ⟨h5, ?_⟩
      show _ ++ _ = _
      simp only [h1, h6, hc hl, hb, List.append_nil]
    · right
      refine ⟨k, h5, h6, ?_⟩
      show _ ++ _ <+: _
      simp only [h1, hc hl, hb, List.append_nil]
      rw [← h2]
      exact ⟨(w.dev.writeAll bs).2.1, by simp⟩
  · rw [if_neg hl]
    refine ⟨fun k h => h, .inl ⟨rfl, ?_⟩⟩
    show _ ++ (_ ++ _) = _
    rw [← List.append_assoc, h]

theorem writeAll_step {w : BufWriter} {b : List Byte} (bs : List Byte) (h : Holds w b) : Step w (b ++ bs) (w.writeAll bs) := by
  unfold BufWriter.writeAll
  by_cases hc : w.cap < w.buf.length + bs.length
  · rw [if_pos hc]
    obtain ⟨h1, h2, h3, h4⟩ := flushBuf_step h
    rcases hf : w.flushBuf with ⟨w', r⟩
    rw [hf] at h1 h2 h3 h4
    simp only at h1 h2 h3 h4
    rcases h4 with ⟨rfl, h5⟩ | ⟨k, rfl, h5⟩
    · simp only
      obtain ⟨h6, h7⟩ := put_step (w := w') (b := b) (bs := bs) h3 (fun _ => h5)
      refine ⟨fun k hk => h1 k (h6 k hk), ?_⟩
      rcases h7 with h7 | ⟨k, h7, h8, h9⟩
      · exact .inl h7
      · exact .inr ⟨k, h7, h1 k h8, h9⟩
    · simp only
      exact ⟨h1, .inr ⟨k, rfl, h5, by show _ <+: _; rw [h3]; exact ⟨bs, rfl⟩⟩⟩
  · rw [if_neg hc]
    exact put_step h (fun hl => List.eq_nil_of_length_eq_zero (by omega))

theorem writeChunks_step : ∀ (cs : List (List Byte)) {w : BufWriter} {b : List Byte}, Holds w b → Step w (b ++ cs.flatten) (w.writeChunks cs)
  | [], w, b, h => ⟨fun k h => h, .inl ⟨rfl, by simpa [BufWriter.writeChunks] using h⟩⟩
  | c :: cs, w, b, h => by
    obtain ⟨h1, h2⟩ := writeAll_step c h
    rw [BufWriter.writeChunks]
    rcases hw : w.writeAll c with ⟨w', r⟩
    rw [hw] at h1 h2
    simp only at h1 h2
    rcases h2 with ⟨rfl, h3⟩ | ⟨k, rfl, h3, h4⟩
    · simp only
      obtain ⟨h5, h6⟩ := writeChunks_step cs h3
      rw [List.flatten_cons, ← List.append_assoc]
      refine ⟨fun k hk => h1 k (h5 k hk), ?_⟩
      rcases h6 with h6 | ⟨k, h6, h7, h8⟩
      · exact .inl h6
      · exact .inr ⟨k, h6, h1 k h7, h8⟩
    · simp only
      refine ⟨h1, .inr ⟨k, rfl, h3, h4.trans ?_⟩⟩
      rw [List.flatten_cons, ← List.append_assoc]
      exact ⟨_, rfl⟩

theorem emit_step {α : Type} (ch : Chunking) {w : BufWriter} {b : List Byte} (bs : List Byte) (res : Res α) (h : Holds w b) :
    (∀ k, CanFail (w.emit ch bs res).1.dev k → CanFail w.dev k) ∧
    (((w.emit ch bs res).2 = res ∧ Holds (w.emit ch bs res).1 (b ++ bs)) ∨
     ∃ k, (w.emit ch bs res).2 = .err (.io k) ∧ CanFail w.dev k ∧ HoldsPrefix (w.emit ch bs res).1 (b ++ bs)) := by
  obtain ⟨h1, h2⟩ := writeChunks_step (ch.cut bs) h
  rw [ch.flat] at h2
  unfold BufWriter.emit
  rcases hw : w.writeChunks (ch.cut bs) with ⟨w', r⟩
  rw [hw] at h1 h2
  simp only at h1 h2
  rcases h2 with ⟨rfl, h3⟩ | ⟨k, rfl, h3, h4⟩
  · exact ⟨h1, .inl ⟨rfl, h3⟩⟩
  · exact ⟨h1, .inr ⟨k, rfl, h3, h4⟩⟩

theorem dev_flush (d : Device) : d.flush.1.taken = d.taken ∧ (∀ k, CanFail d.flush.1 k → CanFail d k) ∧
    (d.flush.2 = .ok () ∨ ∃ k, d.flush.2 = .err (.io k) ∧ CanFail d k) := by
  unfold Device.flush CanFail
  rcases hs : d.sched with _ | ⟨_ | k, ss⟩
  · simp [hs]
  · simp
  · simp; exact fun k h => .inr h

theorem flush_step {w : BufWriter} {b : List Byte} (h : Holds w b) :
    (∀ k, CanFail w.flush.1.dev k → CanFail w.dev k) ∧
    ((w.flush.2 = .ok () ∧ Holds w.flush.1 b ∧ w.flush.1.buf = []) ∨ ∃ k, w.flush.2 = .err (.io k) ∧ CanFail w.dev k ∧ Holds w.flush.1 b) := by
  obtain ⟨h1, h2, h3, h4⟩ := flushBuf_step h
  unfold BufWriter.flush
  rcases hf : w.flushBuf with ⟨w', r⟩
  rw [hf] at h1 h2 h3 h4
  simp only at h1 h2 h3 h4
  rcases h4 with ⟨rfl, h5⟩ | ⟨k, rfl, h5⟩
  · simp only
    obtain ⟨h6, h7, h8⟩ := dev_flush w'.dev
    refine ⟨fun k hk => h1 k (h7 k hk), ?_⟩
    have hg : Holds (⟨w'.cap, w'.buf, w'.dev.flush.1⟩ : BufWriter) b := by show _ ++ _ = _; simp only [h6]; exact h3
    rcases h8 with h8 | ⟨k, h8, h9⟩
    · exact .inl ⟨h8, hg, h5⟩
    · exact .inr ⟨k, h8, h1 k h9, hg⟩
  · simp only
    exact ⟨h1, .inr ⟨k, rfl, h5, h3⟩⟩

theorem close_prefix {w : BufWriter} {b : List Byte} (h : HoldsPrefix w b) : w.close.taken <+: b := by
  obtain ⟨a, h1, h2, _⟩ := dev_writeAll w.dev w.buf
  show (w.dev.writeAll w.buf).1.taken <+: b
  rw [h1]
  refine List.IsPrefix.trans ?_ h
  exact ⟨(w.dev.writeAll w.buf).2.1, by rw [List.append_assoc, h2]⟩

theorem close_all {w : BufWriter} {b : List Byte} (h : Holds w b) (hb : w.buf = []) : w.close.taken = b := by
  obtain ⟨a, h1, h2, _⟩ := dev_writeAll w.dev w.buf
  show (w.dev.writeAll w.buf).1.taken = b
  rw [h1, ← h, hb]
  rw [hb] at h2
  have : a = [] := by simpa using List.append_eq_nil_iff.1 h2 |>.1
  rw [this]

end Chopper
