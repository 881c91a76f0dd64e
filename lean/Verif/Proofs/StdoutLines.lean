import Verif.Proofs.Stdout

/-!
# The line buffer holds no complete line

If the system always takes all it is given, the buffer of standard output contains at most the beginning of a line.
-/
namespace Chopper.Props
open Chopper Chopper.Spec

/-- The descriptor takes everything; the buffer holds no line break. -/
def Open (l : BufWriter) : Prop := l.dev.sched = [] ∧ (10 : Byte) ∉ l.buf

theorem takeWhile_true {α} (p : α → Bool) : ∀ l : List α, ∀ x ∈ l.takeWhile p, p x = true
  | [], _, h => by cases h
  | a :: l, x, h => by
    rw [List.takeWhile_cons] at h
    cases hp : p a
    · simp [hp] at h
    · simp only [hp, if_true] at h
      rcases List.mem_cons.1 h with rfl | h
      · exact hp
      · exact takeWhile_true p l x h

/-- No line break after the last one. -/
theorem after_lines (bs : List Byte) : (10 : Byte) ∉ bs.drop (linesLength bs) := by
  intro h
  have h1 : (bs.drop (linesLength bs)).reverse = bs.reverse.takeWhile (· != 10) := by
    rw [List.reverse_drop]
    have : (bs.length - linesLength bs) = (bs.reverse.takeWhile (· != 10)).length := by
      have := (List.takeWhile_prefix (· != (10 : Byte)) (l := bs.reverse)).length_le
      rw [List.length_reverse] at this
      unfold linesLength
      omega
    rw [this]
    exact ((List.prefix_iff_eq_take).1 (List.takeWhile_prefix _)).symm
  have h2 := takeWhile_true (· != (10 : Byte)) _ _ (h1 ▸ List.mem_reverse.2 h)
  simp at h2

theorem no_lines {bs : List Byte} (h : linesLength bs = 0) : (10 : Byte) ∉ bs := by
  have := after_lines bs
  rwa [h, List.drop_zero] at this

theorem dev_writeAll_all (d : Device) (h : d.sched = []) (bs : List Byte) : d.writeAll bs = ({ d with taken := d.taken ++ bs }, [], .ok ()) := by
  obtain ⟨t, f, s⟩ := d
  cases h
  cases bs <;> simp [Device.writeAll, devWrite, ioRes]

theorem dev_write_all (d : Device) (h : d.sched = []) (bs : List Byte) : d.write bs = ({ d with taken := d.taken ++ bs }, .ok bs.length) := by
  obtain ⟨t, f, s⟩ := d
  cases h
  cases bs <;> simp [Device.write]

theorem open_flushBuf {l : BufWriter} (h : l.dev.sched = []) : l.flushBuf = (⟨l.cap, [], { l.dev with taken := l.dev.taken ++ l.buf }⟩, .ok ()) := by
  unfold BufWriter.flushBuf
  rw [dev_writeAll_all _ h]

theorem open_writeAll {l : BufWriter} (h : l.dev.sched = []) {bs : List Byte} (hb : (10 : Byte) ∉ bs) (hl : (10 : Byte) ∉ l.buf) : Open (l.writeAll bs).1 := by
  unfold BufWriter.writeAll
  split
  · rw [open_flushBuf h]
    simp only [BufWriter.put]
    split
    · rw [dev_writeAll_all { l.dev with taken := l.dev.taken ++ l.buf } h]; exact ⟨h, by simp⟩
    · exact ⟨h, by simpa using hb⟩
  · unfold BufWriter.put
    split
    · rw [dev_writeAll_all _ h]; exact ⟨h, hl⟩
    · exact ⟨h, fun hm => (List.mem_append.1 hm).elim hl hb⟩

theorem open_write {l : BufWriter} (h : l.dev.sched = []) {bs : List Byte} (hb : (10 : Byte) ∉ bs) (hl : (10 : Byte) ∉ l.buf) : Open (l.write bs).1 := by
  unfold BufWriter.write
  simp only
  split
  · rw [open_flushBuf h]
    simp only
    split
    · rw [dev_write_all { l.dev with taken := l.dev.taken ++ l.buf } h]; exact ⟨h, by simp⟩
    · exact ⟨h, by simpa using hb⟩
  · split
    · rw [dev_write_all _ h]; exact ⟨h, hl⟩
    · exact ⟨h, fun hm => (List.mem_append.1 hm).elim hl hb⟩

theorem open_completed {l : BufWriter} (h : Open l) : flushCompleted l = (l, .ok ()) := by
  unfold flushCompleted
  rw [if_neg]
  intro hl
  exact h.2 (List.mem_of_getLast? hl)

theorem writeAll_sched {l : BufWriter} (h : l.dev.sched = []) (bs : List Byte) : (l.writeAll bs).2 = .ok () ∧ (l.writeAll bs).1.dev.sched = [] := by
  unfold BufWriter.writeAll BufWriter.put
  split
  · rw [open_flushBuf h]
    simp only
    split
    · rw [dev_writeAll_all { l.dev with taken := l.dev.taken ++ l.buf } h]; exact ⟨rfl, h⟩
    · exact ⟨rfl, h⟩
  · split
    · rw [dev_writeAll_all _ h]; exact ⟨rfl, h⟩
    · exact ⟨rfl, h⟩

theorem open_lineWrite {l : BufWriter} (h : Open l) (bs : List Byte) : Open (lineWrite l bs).1 := by
  unfold lineWrite
  simp only
  split
  case isTrue h0 =>
    rw [open_completed h]
    exact open_write h.1 (no_lines h0) h.2
  case isFalse h0 =>
    rw [open_flushBuf h.1]
    simp only
    rw [dev_write_all { l.dev with taken := l.dev.taken ++ l.buf } h.1]
    simp only
    split
    · exact ⟨h.1, by simp⟩
    · refine ⟨h.1, ?_⟩
      have hl : (bs.take (linesLength bs)).length = linesLength bs := by rw [List.length_take]; exact Nat.min_eq_left (linesLength_le _)
      rw [hl, lineTail, if_pos (Nat.le_refl _), List.nil_append]
      intro hm
      exact after_lines bs (List.mem_of_mem_take hm)

theorem open_lineWriteAll {l : BufWriter} (h : Open l) (bs : List Byte) : Open (lineWriteAll l bs).1 := by
  unfold lineWriteAll
  simp only
  split
  case isTrue h0 =>
    rw [open_completed h]
    exact open_writeAll h.1 (no_lines h0) h.2
  case isFalse h0 =>
    by_cases hb : l.buf = []
    · rw [if_pos hb, dev_writeAll_all _ h.1]
      exact open_writeAll (l := ⟨l.cap, l.buf, { l.dev with taken := l.dev.taken ++ bs.take (linesLength bs) }⟩) h.1 (after_lines bs) h.2
    · rw [if_neg hb]
      obtain ⟨h1, h2⟩ := writeAll_sched h.1 (bs.take (linesLength bs))
      rcases hw : l.writeAll (bs.take (linesLength bs)) with ⟨w', r⟩
      rw [hw] at h1 h2
      simp only at h1 h2
      subst h1
      simp only
      rw [open_flushBuf h2]
      exact open_writeAll (l := ⟨w'.cap, [], { w'.dev with taken := w'.dev.taken ++ w'.buf }⟩) h2 (after_lines bs) (by simp)

theorem open_lineLoop : ∀ (fuel : Nat) {l : BufWriter}, Open l → ∀ bs : List Byte, Open (lineLoop fuel l bs).1
  | fuel, l, h, [] => by
    rw [show lineLoop fuel l [] = (l, [], .ok ()) by cases fuel <;> rfl]
    exact h
  | 0, l, h, _ :: _ => h
  | fuel + 1, l, h, b :: bs => by
    have h1 := open_lineWrite h (b :: bs)
    rw [lineLoop]
    rotate_left
    · simp
    rcases hw : lineWrite l (b :: bs) with ⟨l', r⟩
    rw [hw] at h1
    rcases r with n | _ | _ | _
    · cases n with
      | zero => exact h1
      | succ n => exact open_lineLoop fuel h1 _
    all_goals exact h1

theorem open_stdout_writeAll {w : StdoutWriter} (h : Open w.line) (bs : List Byte) : Open (w.writeAll bs).1.line := by
  have h1 : Open w.flushBuf.1.line := open_lineLoop _ h _
  have hp : ∀ w : StdoutWriter, Open w.line → Open (w.put bs).1.line := by
    intro w h
    unfold StdoutWriter.put
    split
    · exact open_lineWriteAll h _
    · exact h
  unfold StdoutWriter.writeAll
  split
  · rcases hw : w.flushBuf with ⟨w', r⟩
    rw [hw] at h1
    rcases r with _ | _ | _ | _
    · exact hp _ h1
    all_goals exact h1
  · exact hp _ h

theorem open_stdout_flush {w : StdoutWriter} (h : Open w.line) : Open w.flush.1.line := by
  have h1 : Open w.flushBuf.1.line := open_lineLoop _ h _
  unfold StdoutWriter.flush
  rcases hw : w.flushBuf with ⟨w', r⟩
  rw [hw] at h1
  rcases r with _ | _ | _ | _
  · simp only
    unfold BufWriter.flush
    rw [open_flushBuf h1.1]
    refine ⟨?_, by simp⟩
    show (Device.flush { w'.line.dev with taken := w'.line.dev.taken ++ w'.line.buf }).1.sched = []
    have h2 := h1.1
    simp only at h2
    unfold Device.flush
    simp only [h2]
  all_goals exact h1

theorem open_runOps (out : Res Unit) : ∀ (ops : List Op) {w : StdoutWriter}, Open w.line → Open (w.runOps ops out).1.line
  | [], _, h => h
  | .write bs :: ops, w, h => by
    have h1 := open_stdout_writeAll h bs
    rw [StdoutWriter.runOps]
    rcases hw : w.writeAll bs with ⟨w', r⟩
    rw [hw] at h1
    rcases r with _ | _ | _ | _
    · exact open_runOps out ops h1
    all_goals exact h1
  | .flush :: ops, w, h => by
    have h1 := open_stdout_flush h
    rw [StdoutWriter.runOps]
    rcases hw : w.flush with ⟨w', r⟩
    rw [hw] at h1
    rcases r with _ | _ | _ | _
    · exact open_runOps out ops h1
    all_goals exact h1

end Chopper.Props
