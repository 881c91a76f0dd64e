import Verif.Spec.Stdout
import Verif.Proofs.Writer
import Verif.Proofs.Cli

/-!
# Standard output: nothing is lost, doubled or exchanged by the line buffer
-/
namespace Chopper
open Spec

/-- The bytes a `LineWriter` has taken: on the descriptor or in its buffer. -/
def got (l : BufWriter) : List Byte := l.dev.taken ++ l.buf

/-- A step that was given `bs`: it takes a beginning of it (everything if it succeeds), or fails because the descriptor can. -/
def Took (l : BufWriter) (bs : List Byte) (o : BufWriter × Res Unit) : Prop :=
  (∀ k, CanFail o.1.dev k → CanFail l.dev k) ∧ o.1.cap = l.cap ∧
  ((o.2 = .ok () ∧ got o.1 = got l ++ bs) ∨ ∃ k m, o.2 = .err (.io k) ∧ CanFail l.dev k ∧ got o.1 = got l ++ bs.take m)

/-- A single call that was given `bs`: it takes a beginning of at least one byte, or nothing and fails. -/
def TookSome (l : BufWriter) (bs : List Byte) (o : BufWriter × Res Nat) : Prop :=
  (∀ k, CanFail o.1.dev k → CanFail l.dev k) ∧ o.1.cap = l.cap ∧
  ((∃ n, o.2 = .ok n ∧ 1 ≤ n ∧ n ≤ bs.length ∧ got o.1 = got l ++ bs.take n) ∨ ∃ k, o.2 = .err (.io k) ∧ CanFail l.dev k ∧ got o.1 = got l)

theorem dev_write (d : Device) (bs : List Byte) (hne : bs ≠ []) :
    (∀ k, CanFail (d.write bs).1 k → CanFail d k) ∧
    ((∃ n, (d.write bs).2 = .ok n ∧ 1 ≤ n ∧ n ≤ bs.length ∧ (d.write bs).1.taken = d.taken ++ bs.take n) ∨
      ∃ k, (d.write bs).2 = .err (.io k) ∧ CanFail d k ∧ (d.write bs).1.taken = d.taken) := by
  obtain ⟨taken, sched, fl⟩ := d
  match bs, hne with
  | b :: bs, _ =>
    match sched with
    | [] => exact ⟨fun k h => h, .inl ⟨_, rfl, by omega, by simp, by simp [Device.write]⟩⟩
    | .take n :: ss =>
      refine ⟨fun k h => List.mem_cons_of_mem _ h, .inl ⟨_, rfl, by omega, by simp; omega, ?_⟩⟩
      simp only [Device.write, List.take_succ_cons, List.length_take]
      rw [List.take_eq_take_min]
    | .fail k :: ss => exact ⟨fun k h => List.mem_cons_of_mem _ h, .inr ⟨k, rfl, .head _, rfl⟩⟩

theorem flushBuf_took (l : BufWriter) : Took l [] l.flushBuf ∧ (l.flushBuf.2 = .ok () → l.flushBuf.1.buf = []) := by
  obtain ⟨a, h1, h2, h3, h4⟩ := dev_writeAll l.dev l.buf
  have hg : got l.flushBuf.1 = got l := by
    show (l.dev.writeAll l.buf).1.taken ++ (l.dev.writeAll l.buf).2.1 = l.dev.taken ++ l.buf
    rw [h1, List.append_assoc, h2]
  rcases h4 with ⟨h4, h5, _⟩ | ⟨k, h4, h5⟩
  · exact ⟨⟨h3, rfl, .inl ⟨h4, by rw [hg, List.append_nil]⟩⟩, fun _ => h5⟩
  · refine ⟨⟨h3, rfl, .inr ⟨k, 0, h4, h5, by rw [hg]; simp⟩⟩, fun h => ?_⟩
    have : (l.dev.writeAll l.buf).2.2 = .ok () := h
    rw [h4] at this
    cases this

theorem put_took (l : BufWriter) (bs : List Byte) (hc : l.cap ≤ bs.length → l.buf = []) : Took l bs (l.put bs) := by
  unfold BufWriter.put
  split
  · next h =>
    obtain ⟨a, h1, h2, h3, h4⟩ := dev_writeAll l.dev bs
    refine ⟨h3, rfl, ?_⟩
    rcases h4 with ⟨h4, _, rfl⟩ | ⟨k, h4, h5⟩
    · exact .inl ⟨h4, by simp only [got, h1, hc h, List.append_nil]⟩
    · refine .inr ⟨k, a.length, h4, h5, ?_⟩
      simp only [got, h1, hc h, List.append_nil]
      rw [← h2, List.take_left]
  · exact ⟨fun _ h => h, rfl, .inl ⟨rfl, by simp [got]⟩⟩

theorem writeAll_took (l : BufWriter) (bs : List Byte) : Took l bs (l.writeAll bs) := by
  unfold BufWriter.writeAll
  split
  · obtain ⟨⟨h1, h2, h3⟩, h4⟩ := flushBuf_took l
    rcases hf : l.flushBuf with ⟨l', r⟩
    rw [hf] at h1 h2 h3 h4
    rcases h3 with ⟨h3, h5⟩ | ⟨k, m, h3, h5, h6⟩
    · simp only at h3 h5 h1 h2 h4
      subst h3
      have h6 := put_took l' bs (fun _ => h4 rfl)
      rw [List.append_nil] at h5
      refine ⟨fun k hk => h1 k (h6.1 k hk), h6.2.1.trans h2, ?_⟩
      rcases h6.2.2 with ⟨h7, h8⟩ | ⟨k, m, h7, h8, h9⟩
      · exact .inl ⟨h7, by rw [h8, h5]⟩
      · exact .inr ⟨k, m, h7, h1 k h8, by rw [h9, h5]⟩
    · simp only at h3 h6 h1 h2
      subst h3
      exact ⟨h1, h2, .inr ⟨k, 0, rfl, h5, by simpa using h6⟩⟩
  · next h => exact put_took l bs (fun hc => List.eq_nil_of_length_eq_zero (by omega))

theorem write_took (l : BufWriter) (bs : List Byte) (hne : bs ≠ []) : TookSome l bs (l.write bs) := by
  have hpos : 0 < bs.length := List.length_pos_iff.2 hne
  have put : ∀ l : BufWriter, (l.cap ≤ bs.length → l.buf = []) →
      TookSome l bs (if l.cap ≤ bs.length then (⟨l.cap, l.buf, (l.dev.write bs).1⟩, (l.dev.write bs).2) else (⟨l.cap, l.buf ++ bs, l.dev⟩, .ok bs.length)) := by
    intro l hc
    split
    · next h =>
      obtain ⟨h1, h2⟩ := dev_write l.dev bs hne
      refine ⟨h1, rfl, ?_⟩
      rcases h2 with ⟨n, h2, h3, h4, h5⟩ | ⟨k, h2, h3, h4⟩
      · exact .inl ⟨n, h2, h3, h4, by simp only [got, h5, hc h, List.append_nil]⟩
      · exact .inr ⟨k, h2, h3, by simp only [got, h4]⟩
    · exact ⟨fun _ h => h, rfl, .inl ⟨_, rfl, hpos, Nat.le_refl _, by simp [got]⟩⟩
  unfold BufWriter.write
  simp only
  split
  · obtain ⟨⟨h1, h2, h3⟩, h4⟩ := flushBuf_took l
    rcases hf : l.flushBuf with ⟨l', r⟩
    rw [hf] at h1 h2 h3 h4
    rcases h3 with ⟨h3, h5⟩ | ⟨k, m, h3, h5, h6⟩
    · simp only at h3 h5 h1 h2 h4
      subst h3
      have h6 := put l' (fun _ => h4 rfl)
      rw [List.append_nil] at h5
      refine ⟨fun k hk => h1 k (h6.1 k hk), h6.2.1.trans h2, ?_⟩
      rcases h6.2.2 with ⟨n, h7, h8, h9, h10⟩ | ⟨k, h7, h8, h9⟩
      · exact .inl ⟨n, h7, h8, h9, by rw [h10, h5]⟩
      · exact .inr ⟨k, h7, h1 k h8, by rw [h9, h5]⟩
    · simp only at h3 h6 h1 h2
      subst h3
      exact ⟨h1, h2, .inr ⟨k, rfl, h5, by simpa using h6⟩⟩
  · next h => exact put l (fun hc => List.eq_nil_of_length_eq_zero (by omega))

theorem linesLength_le (bs : List Byte) : linesLength bs ≤ bs.length := Nat.sub_le _ _

theorem lineTail_prefix (cap idx n : Nat) (bs : List Byte) : lineTail cap idx n bs <+: bs.drop n := by
  unfold lineTail
  split
  · exact List.prefix_refl _
  · split
    · rw [List.drop_take]; exact List.take_prefix _ _
    · simp only
      split
      · exact List.take_prefix _ _
      · exact (List.take_prefix _ _).trans (List.take_prefix _ _)

theorem flushCompleted_took (l : BufWriter) : Took l [] (flushCompleted l) := by
  unfold flushCompleted
  split
  · exact (flushBuf_took l).1
  · exact ⟨fun _ h => h, rfl, .inl ⟨rfl, by simp⟩⟩

theorem took_nothing {l l' : BufWriter} {r : Res Unit} (h : Took l [] (l', r)) :
    (∀ k, CanFail l'.dev k → CanFail l.dev k) ∧ l'.cap = l.cap ∧ got l' = got l ∧ (r = .ok () ∨ ∃ k, r = .err (.io k) ∧ CanFail l.dev k) := by
  refine ⟨h.1, h.2.1, ?_⟩
  rcases h.2.2 with ⟨h1, h2⟩ | ⟨k, m, h1, h2, h3⟩
  · exact ⟨by simpa using h2, .inl h1⟩
  · exact ⟨by simpa using h3, .inr ⟨k, h1, h2⟩⟩

/-- A single `write` of standard output. -/
theorem lineWrite_took (l : BufWriter) (bs : List Byte) (hne : bs ≠ []) : TookSome l bs (lineWrite l bs) := by
  unfold lineWrite
  simp only
  split
  · have h0 := flushCompleted_took l
    rcases hf : flushCompleted l with ⟨l', r⟩
    rw [hf] at h0
    obtain ⟨h1, h2, h3, rfl | ⟨k, rfl, h4⟩⟩ := took_nothing h0
    · have h6 := write_took l' bs hne
      refine ⟨fun k hk => h1 k (h6.1 k hk), h6.2.1.trans h2, ?_⟩
      rcases h6.2.2 with ⟨n, h7, h8, h9, h10⟩ | ⟨k, h7, h8, h9⟩
      · exact .inl ⟨n, h7, h8, h9, by rw [h10, h3]⟩
      · exact .inr ⟨k, h7, h1 k h8, by rw [h9, h3]⟩
    · exact ⟨h1, h2, .inr ⟨k, rfl, h4, h3⟩⟩
  · next hidx =>
    have h0 := (flushBuf_took l).1
    have hb := (flushBuf_took l).2
    rcases hf : l.flushBuf with ⟨l', r⟩
    rw [hf] at h0 hb
    obtain ⟨h1, h2, h3, rfl | ⟨k, rfl, h4⟩⟩ := took_nothing h0
    · have hb : l'.buf = [] := hb rfl
      have hle := linesLength_le bs
      have hl : (bs.take (linesLength bs)).length = linesLength bs := by rw [List.length_take]; omega
      have hne' : bs.take (linesLength bs) ≠ [] := by
        intro h
        rw [h] at hl
        exact hidx hl.symm
      obtain ⟨h5, h6⟩ := dev_write l'.dev _ hne'
      rcases hw : l'.dev.write (bs.take (linesLength bs)) with ⟨d, x⟩
      rw [hw] at h5 h6
      rcases h6 with ⟨n, h6, h7, h8, h9⟩ | ⟨k, h6, h7, h8⟩
      · simp only at h6 h9
        subst h6
        rw [hl] at h8
        simp only [hw]
        rw [if_neg (by omega), hb]
        refine ⟨fun k hk => h1 k (h5 k hk), h2, .inl ⟨_, rfl, by omega, ?_, ?_⟩⟩
        · have h10 := ((List.take_prefix (l'.cap - ([] : List Byte).length) (lineTail l'.cap (linesLength bs) n bs)).trans (lineTail_prefix _ _ _ _)).length_le
          rw [List.length_drop] at h10
          omega
        · have h10 := (List.take_prefix (l'.cap - ([] : List Byte).length) (lineTail l'.cap (linesLength bs) n bs)).trans (lineTail_prefix l'.cap (linesLength bs) n bs)
          rw [← h3]
          simp only [got, h9, hb, List.append_nil, List.nil_append]
          rw [List.take_take, Nat.min_eq_left h8, List.append_assoc, List.take_add]
          congr 2
          simp only [List.length_nil] at h10 ⊢
          exact List.prefix_iff_eq_take.1 h10
      · simp only at h6 h8
        subst h6
        simp only [hw]
        exact ⟨fun k hk => h1 k (h5 k hk), h2, .inr ⟨k, rfl, h1 k h7, by rw [← h3]; simp only [got, h8, hb]⟩⟩
    · exact ⟨h1, h2, .inr ⟨k, rfl, h4, h3⟩⟩

/-- `write_all` of standard output. -/
theorem lineWriteAll_took (l : BufWriter) (bs : List Byte) : Took l bs (lineWriteAll l bs) := by
  have chain : ∀ (l l' : BufWriter) (x y : List Byte) (o : BufWriter × Res Unit), (∀ k, CanFail l'.dev k → CanFail l.dev k) → l'.cap = l.cap → got l' = got l ++ x →
      Took l' y o → Took l (x ++ y) o := by
    intro l l' x y o h1 h2 h3 h4
    refine ⟨fun k hk => h1 k (h4.1 k hk), h4.2.1.trans h2, ?_⟩
    rcases h4.2.2 with ⟨h5, h6⟩ | ⟨k, m, h5, h6, h7⟩
    · exact .inl ⟨h5, by rw [h6, h3, List.append_assoc]⟩
    · refine .inr ⟨k, x.length + m, h5, h1 k h6, ?_⟩
      rw [h7, h3, List.append_assoc, List.take_length_add_append]
  have stop : ∀ (l : BufWriter) (x y : List Byte) (o : BufWriter × Res Unit) (k : IoKind), o.2 = .err (.io k) → Took l x o → Took l (x ++ y) o := by
    intro l x y o k hk h
    refine ⟨h.1, h.2.1, ?_⟩
    rcases h.2.2 with ⟨h5, h6⟩ | ⟨k, m, h5, h6, h7⟩
    · rw [hk] at h5; cases h5
    · refine .inr ⟨k, min m x.length, h5, h6, ?_⟩
      rw [h7, List.take_append_of_le_length (Nat.min_le_right _ _), ← List.take_eq_take_min]
  unfold lineWriteAll
  simp only
  split
  · have h0 := flushCompleted_took l
    rcases hf : flushCompleted l with ⟨l', r⟩
    rw [hf] at h0
    obtain ⟨h1, h2, h3, rfl | ⟨k, rfl, h4⟩⟩ := took_nothing h0
    · have := chain l l' [] bs _ h1 h2 (by rw [h3, List.append_nil]) (writeAll_took l' bs)
      rwa [List.nil_append] at this
    · have := stop l [] bs _ k rfl h0
      rwa [List.nil_append] at this
  · have hlines : Took l (bs.take (linesLength bs)) (if l.buf = [] then (⟨l.cap, l.buf, (l.dev.writeAll (bs.take (linesLength bs))).1⟩, (l.dev.writeAll (bs.take (linesLength bs))).2.2)
        else match l.writeAll (bs.take (linesLength bs)) with
          | (w', .ok ()) => w'.flushBuf
          | r => r) := by
      split
      · next hb =>
        obtain ⟨a, h1, h2, h3, h4⟩ := dev_writeAll l.dev (bs.take (linesLength bs))
        refine ⟨h3, rfl, ?_⟩
        rcases h4 with ⟨h4, _, h5⟩ | ⟨k, h4, h5⟩
        · exact .inl ⟨h4, by simp only [got, h1, hb, List.append_nil, h5]⟩
        · refine .inr ⟨k, a.length, h4, h5, ?_⟩
          simp only [got, h1, hb, List.append_nil]
          rw [← h2, List.take_left]
      · have h0 := writeAll_took l (bs.take (linesLength bs))
        rcases hw : l.writeAll (bs.take (linesLength bs)) with ⟨l', r⟩
        rw [hw] at h0
        rcases h0.2.2 with ⟨h1, h2⟩ | ⟨k, m, h1, h2, h3⟩
        · simp only at h1 h2
          subst h1
          have := chain l l' _ [] _ h0.1 h0.2.1 h2 (flushBuf_took l').1
          rwa [List.append_nil] at this
        · simp only at h1 h3
          subst h1
          exact h0
    generalize (if l.buf = [] then (⟨l.cap, l.buf, (l.dev.writeAll (bs.take (linesLength bs))).1⟩, (l.dev.writeAll (bs.take (linesLength bs))).2.2)
        else match l.writeAll (bs.take (linesLength bs)) with
          | (w', .ok ()) => w'.flushBuf
          | r => r : BufWriter × Res Unit) = o at hlines ⊢
    obtain ⟨l', r⟩ := o
    have hsplit : bs = bs.take (linesLength bs) ++ bs.drop (linesLength bs) := (List.take_append_drop _ _).symm
    rcases hlines.2.2 with ⟨h1, h2⟩ | ⟨k, m, h1, h2, h3⟩
    · simp only at h1 h2
      subst h1
      have := chain l l' _ (bs.drop (linesLength bs)) _ hlines.1 hlines.2.1 h2 (writeAll_took l' _)
      rwa [List.take_append_drop] at this
    · simp only at h1 h3
      subst h1
      have := stop l _ (bs.drop (linesLength bs)) _ k rfl hlines
      rwa [List.take_append_drop] at this

theorem lineLoop_took : ∀ (fuel : Nat) (l : BufWriter) (bs : List Byte), bs.length ≤ fuel →
    (∀ k, CanFail (lineLoop fuel l bs).1.dev k → CanFail l.dev k) ∧ got (lineLoop fuel l bs).1 ++ (lineLoop fuel l bs).2.1 = got l ++ bs ∧
    (((lineLoop fuel l bs).2.2 = .ok () ∧ (lineLoop fuel l bs).2.1 = []) ∨ ∃ k, (lineLoop fuel l bs).2.2 = .err (.io k) ∧ CanFail l.dev k)
  | fuel, l, [], _ => by
    rw [show lineLoop fuel l [] = (l, [], .ok ()) by cases fuel <;> rfl]
    exact ⟨fun _ h => h, rfl, .inl ⟨rfl, rfl⟩⟩
  | 0, _, _ :: _, h => by simp at h
  | fuel + 1, l, b :: bs, h => by
    have h0 := lineWrite_took l (b :: bs) (by simp)
    rw [lineLoop]
    rotate_left
    · simp
    rcases hw : lineWrite l (b :: bs) with ⟨l', r⟩
    rw [hw] at h0
    rcases h0.2.2 with ⟨n, h1, h2, h3, h4⟩ | ⟨k, h1, h2, h3⟩
    · simp only at h1 h4
      subst h1
      match n, h2 with
      | n + 1, _ =>
        simp only
        obtain ⟨h5, h6, h7⟩ := lineLoop_took fuel l' ((b :: bs).drop (n + 1)) (by rw [List.length_drop, List.length_cons] at *; omega)
        refine ⟨fun k hk => h0.1 k (h5 k hk), ?_, ?_⟩
        · rw [h6, h4, List.append_assoc, List.take_append_drop]
        · rcases h7 with h7 | ⟨k, h7, h8⟩
          · exact .inl h7
          · exact .inr ⟨k, h7, h0.1 k h8⟩
    · simp only at h1 h3
      subst h1
      exact ⟨h0.1, by rw [h3], .inr ⟨k, rfl, h2⟩⟩

/-- Everything that the program has handed over and that is not lost. -/
def held (w : StdoutWriter) : List Byte := got w.line ++ w.buf

/-- A step of the whole writer that was given `bs`. -/
def Wrote (w : StdoutWriter) (bs : List Byte) (o : StdoutWriter × Res Unit) : Prop :=
  (∀ k, CanFail o.1.line.dev k → CanFail w.line.dev k) ∧ o.1.cap = w.cap ∧
  ((o.2 = .ok () ∧ held o.1 = held w ++ bs) ∨ ∃ k m, o.2 = .err (.io k) ∧ CanFail w.line.dev k ∧ held o.1 = held w ++ bs.take m)

theorem stdout_flushBuf (w : StdoutWriter) : Wrote w [] w.flushBuf ∧ (w.flushBuf.2 = .ok () → w.flushBuf.1.buf = []) := by
  obtain ⟨h1, h2, h3⟩ := lineLoop_took w.buf.length w.line w.buf (Nat.le_refl _)
  have hh : held w.flushBuf.1 = held w := h2
  rcases h3 with ⟨h3, h4⟩ | ⟨k, h3, h4⟩
  · exact ⟨⟨h1, rfl, .inl ⟨h3, by rw [hh, List.append_nil]⟩⟩, fun _ => h4⟩
  · refine ⟨⟨h1, rfl, .inr ⟨k, 0, h3, h4, by rw [hh]; simp⟩⟩, fun h => ?_⟩
    have : (lineLoop w.buf.length w.line w.buf).2.2 = .ok () := h
    rw [h3] at this
    cases this

theorem stdout_put (w : StdoutWriter) (bs : List Byte) (hc : w.cap ≤ bs.length → w.buf = []) : Wrote w bs (w.put bs) := by
  unfold StdoutWriter.put
  split
  · next h =>
    have h0 := lineWriteAll_took w.line bs
    refine ⟨h0.1, rfl, ?_⟩
    rcases h0.2.2 with ⟨h1, h2⟩ | ⟨k, m, h1, h2, h3⟩
    · exact .inl ⟨h1, by simp only [held, h2, hc h, List.append_nil]⟩
    · exact .inr ⟨k, m, h1, h2, by simp only [held, h3, hc h, List.append_nil]⟩
  · exact ⟨fun _ h => h, rfl, .inl ⟨rfl, by simp [held]⟩⟩

theorem stdout_writeAll (w : StdoutWriter) (bs : List Byte) : Wrote w bs (w.writeAll bs) := by
  unfold StdoutWriter.writeAll
  split
  · obtain ⟨⟨h1, h2, h3⟩, h4⟩ := stdout_flushBuf w
    rcases hf : w.flushBuf with ⟨w', r⟩
    rw [hf] at h1 h2 h3 h4
    rcases h3 with ⟨h3, h5⟩ | ⟨k, m, h3, h5, h6⟩
    · simp only at h3 h5 h1 h2 h4
      subst h3
      have h6 := stdout_put w' bs (fun _ => h4 rfl)
      rw [List.append_nil] at h5
      refine ⟨fun k hk => h1 k (h6.1 k hk), h6.2.1.trans h2, ?_⟩
      rcases h6.2.2 with ⟨h7, h8⟩ | ⟨k, m, h7, h8, h9⟩
      · exact .inl ⟨h7, by rw [h8, h5]⟩
      · exact .inr ⟨k, m, h7, h1 k h8, by rw [h9, h5]⟩
    · simp only at h3 h6 h1 h2
      subst h3
      exact ⟨h1, h2, .inr ⟨k, 0, rfl, h5, by simpa using h6⟩⟩
  · next h => exact stdout_put w bs (fun hc => List.eq_nil_of_length_eq_zero (by omega))

theorem lineFlush_took (l : BufWriter) : Took l [] l.flush ∧ (l.flush.2 = .ok () → l.flush.1.buf = []) := by
  unfold BufWriter.flush
  obtain ⟨h0, hb⟩ := flushBuf_took l
  rcases hf : l.flushBuf with ⟨l', r⟩
  rw [hf] at h0 hb
  obtain ⟨h1, h2, h3, rfl | ⟨k, rfl, h4⟩⟩ := took_nothing h0
  · obtain ⟨h4, h5, h6⟩ := dev_flush l'.dev
    refine ⟨⟨fun k hk => h1 k (h5 k hk), h2, ?_⟩, fun _ => hb rfl⟩
    have hg : got ⟨l'.cap, l'.buf, l'.dev.flush.1⟩ = got l := by rw [← h3]; simp only [got, h4]
    rcases h6 with h6 | ⟨k, h6, h7⟩
    · exact .inl ⟨h6, by rw [List.append_nil]; exact hg⟩
    · exact .inr ⟨k, 0, h6, h1 k h7, by rw [List.take_zero, List.append_nil]; exact hg⟩
  · exact ⟨h0, fun h => by cases h⟩

theorem stdout_flush (w : StdoutWriter) : Wrote w [] w.flush ∧ (w.flush.2 = .ok () → w.flush.1.buf = [] ∧ w.flush.1.line.buf = []) := by
  unfold StdoutWriter.flush
  obtain ⟨⟨h1, h2, h3⟩, h4⟩ := stdout_flushBuf w
  rcases hf : w.flushBuf with ⟨w', r⟩
  rw [hf] at h1 h2 h3 h4
  rcases h3 with ⟨h3, h5⟩ | ⟨k, m, h3, h5, h6⟩
  · simp only at h3 h5 h1 h2 h4
    subst h3
    obtain ⟨h6, h7⟩ := lineFlush_took w'.line
    obtain ⟨h8, h9, h10, h11⟩ := took_nothing (l' := w'.line.flush.1) (r := w'.line.flush.2) h6
    have hh : held ⟨w'.cap, w'.buf, w'.line.flush.1⟩ = held w ++ [] := by rw [← h5]; simp only [held, h10]
    refine ⟨⟨fun k hk => h1 k (h8 k hk), h2, ?_⟩, fun h => ⟨h4 rfl, h7 h⟩⟩
    rcases h11 with h11 | ⟨k, h11, h12⟩
    · exact .inl ⟨h11, hh⟩
    · exact .inr ⟨k, 0, h11, h1 k h12, by rw [List.take_zero]; exact hh⟩
  · simp only at h3 h6 h1 h2
    subst h3
    exact ⟨⟨h1, h2, .inr ⟨k, 0, rfl, h5, by simpa using h6⟩⟩, fun h => by cases h⟩

/-- A run of operations. -/
theorem stdout_runOps (out : Res Unit) : ∀ (ops : List Op) (w : StdoutWriter),
    (∀ k, CanFail (w.runOps ops out).1.line.dev k → CanFail w.line.dev k) ∧ held w <+: held (w.runOps ops out).1 ∧
    (((w.runOps ops out).2 = out ∧ held (w.runOps ops out).1 = held w ++ opBytes ops) ∨
      ∃ k, (w.runOps ops out).2 = .err (.io k) ∧ CanFail w.line.dev k ∧ held (w.runOps ops out).1 <+: held w ++ opBytes ops)
  | [], w => ⟨fun _ h => h, List.prefix_refl _, .inl ⟨rfl, by simp [StdoutWriter.runOps, opBytes]⟩⟩
  | .write bs :: ops, w => by
    have h0 := stdout_writeAll w bs
    rw [StdoutWriter.runOps, opBytes]
    rcases hw : w.writeAll bs with ⟨w', r⟩
    rw [hw] at h0
    rcases h0.2.2 with ⟨h1, h2⟩ | ⟨k, m, h1, h2, h3⟩
    · simp only at h1 h2
      subst h1
      simp only
      obtain ⟨h4, h5, h6⟩ := stdout_runOps out ops w'
      refine ⟨fun k hk => h0.1 k (h4 k hk), (by rw [h2] at h5; exact (List.prefix_append _ _).trans h5), ?_⟩
      rw [← List.append_assoc, ← h2]
      rcases h6 with h6 | ⟨k, h6, h7, h8⟩
      · exact .inl h6
      · exact .inr ⟨k, h6, h0.1 k h7, h8⟩
    · simp only at h1 h3
      subst h1
      refine ⟨h0.1, by rw [h3]; exact List.prefix_append _ _, .inr ⟨k, rfl, h2, ?_⟩⟩
      rw [h3, List.prefix_append_right_inj]
      exact (List.take_prefix _ _).trans (List.prefix_append _ _)
  | .flush :: ops, w => by
    have h0 := (stdout_flush w).1
    rw [StdoutWriter.runOps, opBytes]
    rcases hw : w.flush with ⟨w', r⟩
    rw [hw] at h0
    rcases h0.2.2 with ⟨h1, h2⟩ | ⟨k, m, h1, h2, h3⟩
    · simp only at h1 h2
      subst h1
      rw [List.append_nil] at h2
      simp only
      obtain ⟨h4, h5, h6⟩ := stdout_runOps out ops w'
      refine ⟨fun k hk => h0.1 k (h4 k hk), (by rw [h2] at h5; exact h5), ?_⟩
      rw [← h2]
      rcases h6 with h6 | ⟨k, h6, h7, h8⟩
      · exact .inl h6
      · exact .inr ⟨k, h6, h0.1 k h7, h8⟩
    · simp only at h1 h3
      subst h1
      simp only [List.take_nil, List.append_nil] at h3
      exact ⟨h0.1, by rw [h3]; exact List.prefix_refl _, .inr ⟨k, rfl, h2, by rw [h3]; exact List.prefix_append _ _⟩⟩

/-- The end of the process. -/
theorem stdout_exit (w : StdoutWriter) : w.exit.taken <+: held w ∧ ((∀ k, ¬ CanFail w.line.dev k) → w.exit.taken = held w) ∧
    (w.buf = [] → w.line.buf = [] → w.exit.taken = w.line.dev.taken) := by
  obtain ⟨⟨h1, _, h3⟩, h4⟩ := stdout_flushBuf w
  have hh : held w.flushBuf.1 = held w := by
    rcases h3 with ⟨_, h3⟩ | ⟨k, m, _, _, h3⟩ <;> simpa using h3
  obtain ⟨h5, h6⟩ := flushBuf_took w.flushBuf.1.line
  obtain ⟨h7, _, h8, h9⟩ := took_nothing (l' := w.flushBuf.1.line.flushBuf.1) (r := w.flushBuf.1.line.flushBuf.2) h5
  have hg : held w = w.exit.taken ++ w.flushBuf.1.line.flushBuf.1.buf ++ w.flushBuf.1.buf := by
    rw [← hh, held, ← h8]; rfl
  refine ⟨by rw [hg, List.append_assoc]; exact List.prefix_append _ _, ?_, ?_⟩
  · intro hr
    have h10 : w.flushBuf.2 = .ok () := by
      rcases h3 with ⟨h3, _⟩ | ⟨k, _, _, h3, _⟩
      · exact h3
      · exact absurd h3 (hr k)
    have h11 : w.flushBuf.1.line.flushBuf.2 = .ok () := by
      rcases h9 with h9 | ⟨k, _, h9⟩
      · exact h9
      · exact absurd (h1 k h9) (hr k)
    rw [hg, h4 h10, h6 h11, List.append_nil, List.append_nil]
  · intro hb hl
    have e1 : w.flushBuf.1.line = w.line := by
      unfold StdoutWriter.flushBuf
      rw [hb]
      rfl
    unfold StdoutWriter.exit
    rw [e1]
    unfold BufWriter.flushBuf Device.writeAll
    rw [hl]
    have : (devWrite w.line.dev.sched []).1 = [] := by cases w.line.dev.sched <;> rfl
    simp [this]

theorem runOps_append (out : Res Unit) : ∀ (a b : List Op) (w : StdoutWriter), w.runOps (a ++ b) out =
    match w.runOps a (.ok ()) with
    | (w', .ok ()) => w'.runOps b out
    | r => r
  | [], b, w => rfl
  | .write bs :: a, b, w => by
    simp only [List.cons_append, StdoutWriter.runOps]
    rcases hw : w.writeAll bs with ⟨w', _ | _ | _ | _⟩
    · exact runOps_append out a b w'
    all_goals rfl
  | .flush :: a, b, w => by
    simp only [List.cons_append, StdoutWriter.runOps]
    rcases hw : w.flush with ⟨w', _ | _ | _ | _⟩
    · exact runOps_append out a b w'
    all_goals rfl

/-! ## The CSV sink as a sequence of operations -/

theorem buf_runOps_append (out : Res Unit) : ∀ (a b : List Op) (w : BufWriter), w.runOps (a ++ b) out =
    match w.runOps a (.ok ()) with
    | (w', .ok ()) => w'.runOps b out
    | r => r
  | [], b, w => rfl
  | .write bs :: a, b, w => by
    simp only [List.cons_append, BufWriter.runOps]
    rcases hw : w.writeAll bs with ⟨w', _ | _ | _ | _⟩
    · exact buf_runOps_append out a b w'
    all_goals rfl
  | .flush :: a, b, w => by
    simp only [List.cons_append, BufWriter.runOps]
    rcases hw : w.flush with ⟨w', _ | _ | _ | _⟩
    · exact buf_runOps_append out a b w'
    all_goals rfl

theorem chunks_ops (out : Res Unit) : ∀ (cs : List (List Byte)) (w : BufWriter), w.runOps (cs.map Op.write) out =
    match w.writeChunks cs with
    | (w', .ok ()) => (w', out)
    | r => r
  | [], w => rfl
  | c :: cs, w => by
    simp only [List.map_cons, BufWriter.runOps, BufWriter.writeChunks]
    rcases hw : w.writeAll c with ⟨w', _ | _ | _ | _⟩
    · exact chunks_ops out cs w'
    all_goals rfl

/-- The calls of the driver on a CSV sink. -/
theorem csv_ops (e : SinkEnv) (cfg : CsvOutputConfig) (out : Res Unit) : ∀ (cs : List Call) (w : BufWriter),
    perform (sinkFeed (cliOps e)) (sinkFlush (cliOps e)) cs out (.csv cfg w) =
      (.csv cfg (w.runOps (csvOps e cfg cs out).1 (csvOps e cfg cs out).2).1, (w.runOps (csvOps e cfg cs out).1 (csvOps e cfg cs out).2).2)
  | [], w => rfl
  | .feed c r :: cs, w => by
    rw [perform, csvOps]
    have hf : sinkFeed (cliOps e) c r (.csv cfg w) = (.csv cfg (w.emit e.ch (utf8Encode (csvRowText e.ff cfg r).1) (csvRowText e.ff cfg r).2).1,
        (w.emit e.ch (utf8Encode (csvRowText e.ff cfg r).1) (csvRowText e.ff cfg r).2).2) := by
      simp only [sinkFeed, cliOps, CliSink.write, BufWriter.emit]
      rcases hw : w.writeChunks (e.ch.cut (utf8Encode (csvRowText e.ff cfg r).1)) with ⟨w', _ | _ | _ | _⟩
      · cases (csvRowText e.ff cfg r).2 <;> rfl
      all_goals rfl
    rw [hf]
    simp only [BufWriter.emit]
    rcases hx : (csvRowText e.ff cfg r).2 with _ | _ | _ | _
    · simp only
      rw [buf_runOps_append, chunks_ops]
      rcases hw : w.writeChunks (e.ch.cut (utf8Encode (csvRowText e.ff cfg r).1)) with ⟨w', _ | _ | _ | _⟩
      · exact csv_ops e cfg out cs w'
      all_goals rfl
    all_goals
      simp only
      rw [chunks_ops]
      rcases hw : w.writeChunks (e.ch.cut (utf8Encode (csvRowText e.ff cfg r).1)) with ⟨w', _ | _ | _ | _⟩ <;> rfl
  | .flush c :: cs, w => by
    rw [perform, csvOps]
    have hf : sinkFlush (cliOps e) c (.csv cfg w) = (.csv cfg w.flush.1, w.flush.2) := rfl
    rw [hf]
    simp only [BufWriter.runOps]
    rcases hw : w.flush with ⟨w', _ | _ | _ | _⟩
    · exact csv_ops e cfg out cs w'
    all_goals rfl

end Chopper
