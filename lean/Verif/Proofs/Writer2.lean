import Verif.Proofs.Writer

/-!
# Successful writing makes no failing call
-/
namespace Chopper

/-- All calls made to the device between the two states succeeded. -/
def Clean (d d' : Device) : Prop := ∃ used, d.sched = used ++ d'.sched ∧ ∀ k, WriteStep.fail k ∉ used

theorem Clean.refl (d : Device) : Clean d d := ⟨[], rfl, by simp⟩

theorem Clean.trans {a b c : Device} (h1 : Clean a b) (h2 : Clean b c) : Clean a c := by
  obtain ⟨u, h1, h3⟩ := h1
  obtain ⟨v, h2, h4⟩ := h2
  refine ⟨u ++ v, by rw [h1, h2, List.append_assoc], fun k hk => ?_⟩
  rcases List.mem_append.1 hk with h | h
  · exact h3 k h
  · exact h4 k h

theorem devWrite_clean : ∀ (ss : List WriteStep) (bs : List Byte), (devWrite ss bs).2.2 = none →
    ∃ used, ss = used ++ (devWrite ss bs).2.1 ∧ ∀ k, WriteStep.fail k ∉ used
  | ss, [], _ => ⟨[], by cases ss <;> rfl, by simp⟩
  | [], b :: bs, _ => ⟨[], rfl, by simp⟩
  | .take n :: ss, b :: bs, h => by
    obtain ⟨used, h1, h2⟩ := devWrite_clean ss (bs.drop n) h
    refine ⟨.take n :: used, ?_, ?_⟩
    · simp only [devWrite, List.cons_append, ← h1]
    · intro k hk
      rcases List.mem_cons.1 hk with h3 | h3
      · cases h3
      · exact h2 k h3
  | .fail k :: ss, b :: bs, h => by simp [devWrite] at h

theorem dev_writeAll_clean {d : Device} {bs : List Byte} (h : (d.writeAll bs).2.2 = .ok ()) : Clean d (d.writeAll bs).1 := by
  refine devWrite_clean d.sched bs ?_
  unfold Device.writeAll at h
  simp only at h
  cases hs : (devWrite d.sched bs).2.2 with
  | none => rfl
  | some k => rw [hs] at h; simp [ioRes] at h

theorem flushBuf_clean {w : BufWriter} (h : w.flushBuf.2 = .ok ()) : Clean w.dev w.flushBuf.1.dev := dev_writeAll_clean h

theorem put_clean {w : BufWriter} {bs : List Byte} (h : (w.put bs).2 = .ok ()) : Clean w.dev (w.put bs).1.dev := by
  unfold BufWriter.put at h ⊢
  by_cases hl : w.cap ≤ bs.length
  · rw [if_pos hl] at h ⊢; exact dev_writeAll_clean h
  · rw [if_neg hl]; exact .refl _

theorem writeAll_clean {w : BufWriter} {bs : List Byte} (h : (w.writeAll bs).2 = .ok ()) : Clean w.dev (w.writeAll bs).1.dev := by
  unfold BufWriter.writeAll at h ⊢
  by_cases hc : w.cap < w.buf.length + bs.length
  · rw [if_pos hc] at h ⊢
    have hf := flushBuf_clean (w := w)
    rcases hw : w.flushBuf with ⟨w', r⟩
    rw [hw] at h hf
    cases r with
    | ok u => exact (hf rfl).trans (put_clean h)
    | err e => simp at h
    | panic => simp at h
    | diverge => simp at h
  · rw [if_neg hc] at h ⊢; exact put_clean h

theorem writeChunks_clean : ∀ (cs : List (List Byte)) {w : BufWriter}, (w.writeChunks cs).2 = .ok () → Clean w.dev (w.writeChunks cs).1.dev
  | [], w, _ => .refl _
  | c :: cs, w, h => by
    rw [BufWriter.writeChunks] at h ⊢
    have hf := writeAll_clean (w := w) (bs := c)
    rcases hw : w.writeAll c with ⟨w', r⟩
    rw [hw] at h hf
    cases r with
    | ok u => exact (hf rfl).trans (writeChunks_clean cs h)
    | err e => simp at h
    | panic => simp at h
    | diverge => simp at h

theorem emit_clean {α : Type} {ch : Chunking} {w : BufWriter} {bs : List Byte} {res : Res α} {x : α} (h : (w.emit ch bs res).2 = .ok x) :
    Clean w.dev (w.emit ch bs res).1.dev := by
  unfold BufWriter.emit at h ⊢
  have hf := writeChunks_clean (ch.cut bs) (w := w)
  rcases hw : w.writeChunks (ch.cut bs) with ⟨w', r⟩
  rw [hw] at h hf
  cases r with
  | ok u => exact hf rfl
  | err e => simp at h
  | panic => simp at h
  | diverge => simp at h

theorem dev_flush_clean {d : Device} (h : d.flush.2 = .ok ()) : Clean d d.flush.1 ∧ d.flush.1.flushed = d.flush.1.taken.length := by
  unfold Device.flush at h ⊢
  rcases hs : d.sched with _ | ⟨n | k, ss⟩
  · exact ⟨⟨[], by simp [hs], by simp⟩, rfl⟩
  · exact ⟨⟨[.take n], by simp [hs], by simp⟩, rfl⟩
  · rw [hs] at h; simp at h

theorem flush_clean {w : BufWriter} (h : w.flush.2 = .ok ()) : Clean w.dev w.flush.1.dev ∧ w.flush.1.dev.flushed = w.flush.1.dev.taken.length := by
  unfold BufWriter.flush at h ⊢
  have hf := flushBuf_clean (w := w)
  rcases hw : w.flushBuf with ⟨w', r⟩
  rw [hw] at h hf
  cases r with
  | ok u =>
    obtain ⟨h1, h2⟩ := dev_flush_clean (d := w'.dev) h
    exact ⟨(hf rfl).trans h1, h2⟩
  | err e => simp at h
  | panic => simp at h
  | diverge => simp at h

theorem close_empty {w : BufWriter} (h : w.buf = []) : w.close.sched = w.dev.sched ∧ w.close.taken = w.dev.taken ∧ w.close.flushed = w.dev.flushed := by
  have h0 : devWrite w.dev.sched [] = ([], w.dev.sched, none) := by cases w.dev.sched <;> rfl
  unfold BufWriter.close BufWriter.flushBuf Device.writeAll
  simp only [h, h0, List.append_nil, and_self]

end Chopper
