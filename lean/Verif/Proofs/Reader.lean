import Verif.Spec.Reader
import Verif.Proofs.Utf8

namespace Chopper
open Spec

/-! ## The underlying reader -/

theorem Inner.deliver_cases (r : Inner) (m : Nat) (s : List ReadStep) (hs : ∀ x ∈ s, x ∈ r.sched) :
    (∃ bs r', r.deliver m s = (.ok bs, r') ∧ bs ++ r'.data = r.data ∧ bs.length ≤ m ∧ (0 < m → bs = [] → r.data = [] ∧ r.ending = none) ∧
      r'.ending = r.ending ∧ r'.sched = s) ∨
    (∃ e r', r.deliver m s = (.err (.io e), r') ∧ r'.data = r.data ∧ r.ending = some e ∧ r.data = [] ∧ r'.ending = r.ending ∧ r'.sched = s) := by
  unfold Inner.deliver
  have key : 0 < m → r.data.take m = [] → r.data = [] := by
    intro hm he
    rw [List.take_eq_nil_iff] at he
    rcases he with he | he
    · omega
    · exact he
  cases he : r.ending with
  | none =>
    left
    exact ⟨_, _, rfl, by simp, by simp; omega, fun a b => ⟨key a b, rfl⟩, rfl, rfl⟩
  | some e =>
    by_cases hd : r.data = [] ∧ m ≠ 0
    · simp only [if_pos hd]
      right
      exact ⟨e, _, rfl, rfl, rfl, hd.1, by simp [he], rfl⟩
    · simp only [if_neg hd]
      left
      refine ⟨_, _, rfl, by simp, by simp; omega, ?_, rfl, rfl⟩
      intro hm hb
      exact absurd ⟨key hm hb, by omega⟩ hd

theorem Inner.read_cases (r : Inner) (n : Nat) :
    (∃ bs r', r.read n = (.ok bs, r') ∧ bs ++ r'.data = r.data ∧ bs.length ≤ n ∧ (0 < n → bs = [] → r.data = [] ∧ r.ending = none) ∧
      ((NoFail r → NoFail r') ∧ r'.ending = r.ending)) ∨
    (∃ e r', r.read n = (.err (.io e), r') ∧ r'.data = r.data ∧ CanFail r e ∧ (∀ x, CanFail r' x → CanFail r x) ∧ r'.ending = r.ending) := by
  unfold Inner.read
  have key : ∀ m s, m ≤ n → (0 < n → 0 < m) → (∀ x ∈ s, x ∈ r.sched) →
    (∃ bs r', r.deliver m s = (.ok bs, r') ∧ bs ++ r'.data = r.data ∧ bs.length ≤ n ∧ (0 < n → bs = [] → r.data = [] ∧ r.ending = none) ∧
      ((NoFail r → NoFail r') ∧ r'.ending = r.ending)) ∨
    (∃ e r', r.deliver m s = (.err (.io e), r') ∧ r'.data = r.data ∧ CanFail r e ∧ (∀ x, CanFail r' x → CanFail r x) ∧ r'.ending = r.ending) := by
    intro m s hm hp hs
    rcases r.deliver_cases m s hs with ⟨bs, r', h1, h2, h3, h4, h5, h6⟩ | ⟨e, r', h1, h2, h3, h4, h5, h6⟩
    · left
      refine ⟨bs, r', h1, h2, by omega, fun a b => h4 (hp a) b, ?_, h5⟩
      intro hn x hx
      refine hn x ?_
      rcases hx with hx | hx
      · exact .inl (hs _ (h6 ▸ hx))
      · exact .inr (h5 ▸ hx)
    · right
      refine ⟨e, r', h1, h2, .inr h3, ?_, h5⟩
      intro x hx
      rcases hx with hx | hx
      · exact .inl (hs _ (h6 ▸ hx))
      · exact .inr (h5 ▸ hx)
  split
  · rename_i e s hs
    right
    refine ⟨e, _, rfl, rfl, .inl (by rw [hs]; simp), ?_, rfl⟩
    intro x hx
    rcases hx with hx | hx
    · left; rw [hs]; exact List.mem_cons_of_mem _ hx
    · exact .inr hx
  · rename_i k s hs
    exact key _ _ (by omega) (by omega) (by intro x hx; rw [hs]; exact List.mem_cons_of_mem _ hx)
  · exact key _ _ (by omega) (by omega) (by simp)

/-- What can fail after a read could fail before. -/
theorem Inner.read_canFail (r : Inner) (n : Nat) : ∀ e, CanFail (r.read n).2 e → CanFail r e := by
  unfold Inner.read
  have key : ∀ m s, (∀ x ∈ s, x ∈ r.sched) → ∀ e, CanFail (r.deliver m s).2 e → CanFail r e := by
    intro m s hs e he
    rcases r.deliver_cases m s hs with ⟨bs, r', h1, _, _, _, h5, h6⟩ | ⟨e', r', h1, _, _, _, h5, h6⟩ <;>
    · rw [h1] at he
      rcases he with hx | hx
      · exact .inl (hs _ (h6 ▸ hx))
      · exact .inr (h5 ▸ hx)
  split
  · rename_i e s hs
    intro x hx
    rcases hx with hx | hx
    · left; rw [hs]; exact List.mem_cons_of_mem _ hx
    · exact .inr hx
  · rename_i k s hs
    exact key _ _ (by intro x hx; rw [hs]; exact List.mem_cons_of_mem _ hx)
  · exact key _ _ (by simp)

theorem noFail_none {data : List Byte} {s : List ReadStep} (h : ∀ e, ReadStep.fail e ∉ s) : NoFail ⟨data, s, none⟩ := by
  intro e he
  rcases he with he | he
  · exact h e he
  · simp at he

/-! ## The buffered reader -/

/-- The bytes buffered and not yet consumed. -/
def BufReader.rem (r : BufReader) : List Byte := (r.buf.drop r.pos).take (r.cap - r.pos)

/-- All bytes the client has not seen yet. -/
def BufReader.pending (r : BufReader) : List Byte := r.rem ++ r.inner.data

structure BufReader.Inv (r : BufReader) : Prop where
  pos : r.pos ≤ r.cap
  cap : r.cap ≤ r.buf.length
  ne : 0 < r.buf.length

theorem rem_length (r : BufReader) (h : r.Inv) : r.rem.length = r.cap - r.pos := by
  have := h.pos; have := h.cap
  simp [BufReader.rem]; omega

theorem rem_empty {r : BufReader} (h : r.pos = r.cap) : r.rem = [] := by simp [BufReader.rem, h]

theorem slice_rem {r : BufReader} (h : r.Inv) : slice r.buf r.pos r.cap = .ok r.rem := by
  simp [slice, h.pos, h.cap, BufReader.rem]

theorem overwrite_length {buf bs : List Byte} {i : Nat} (h : i + bs.length ≤ buf.length) : (overwrite buf i bs).length = buf.length := by
  simp [overwrite]; omega

theorem overwrite_take {buf bs : List Byte} {i : Nat} (h : i ≤ buf.length) : (overwrite buf i bs).take (i + bs.length) = buf.take i ++ bs := by
  unfold overwrite
  have : i + bs.length = (buf.take i ++ bs).length := by simp; omega
  rw [this, List.take_left]

/-- `fill_buf`. -/
theorem fillBuf_spec (r : BufReader) (h : r.Inv) :
    (∃ r', r.fillBuf = (.ok r'.rem, r') ∧ r'.Inv ∧ r'.pending = r.pending ∧ (r'.rem = [] → r.pending = [] ∧ r.inner.ending = none) ∧
      r'.buf.length = r.buf.length ∧ ((NoFail r.inner → NoFail r'.inner) ∧ r'.inner.ending = r.inner.ending)) ∨
    (∃ e r', r.fillBuf = (.err (.io e), r') ∧ r'.Inv ∧ r'.pending = r.pending ∧ CanFail r.inner e ∧ r'.inner.ending = r.inner.ending) := by
  unfold BufReader.fillBuf
  by_cases hp : r.pos ≥ r.cap
  · have he : r.pos = r.cap := by have := h.pos; omega
    rw [if_pos hp, if_neg (by simp [he])]
    have hpend : r.pending = r.inner.data := by simp [BufReader.pending, rem_empty he]
    rcases Inner.read_cases r.inner r.buf.length with ⟨bs, r', h1, h2, h3, h4, h5⟩ | ⟨e, r', h1, h2, h3, h4⟩
    · left
      have hl : (overwrite r.buf 0 bs).length = r.buf.length := overwrite_length (by omega)
      have hinv : BufReader.Inv ⟨r', overwrite r.buf 0 bs, 0, bs.length⟩ := ⟨by simp, by simp only; rw [hl]; exact h3, by simp only; rw [hl]; exact h.ne⟩
      have hrem : BufReader.rem ⟨r', overwrite r.buf 0 bs, 0, bs.length⟩ = bs := by
        simp [BufReader.rem]
        have := overwrite_take (buf := r.buf) (bs := bs) (i := 0) (by omega)
        simpa using this
      refine ⟨⟨r', overwrite r.buf 0 bs, 0, bs.length⟩, ?_, hinv, ?_, ?_, hl, h5⟩
      · simp only [h1]; rw [← slice_rem hinv]
      · simp only [BufReader.pending, hrem]; rw [h2, rem_empty he]; rfl
      · intro hr; rw [hrem] at hr; rw [hpend]; exact h4 h.ne hr
    · right
      refine ⟨e, { r with inner := r' }, by simp [h1], ⟨h.pos, h.cap, h.ne⟩, ?_, h3, h4.2⟩
      show _ ++ r'.data = _ ++ r.inner.data
      rw [h2]; rfl
  · rw [if_neg hp]
    left
    refine ⟨r, by rw [slice_rem h], h, rfl, ?_, rfl, id, rfl⟩
    intro hr
    have := rem_length r h
    rw [hr] at this; simp at this; omega

theorem consume_spec (r : BufReader) (h : r.Inv) (amt : Nat) :
    (r.consume amt).Inv ∧ r.rem.take amt ++ (r.consume amt).pending = r.pending ∧ (r.consume amt).inner = r.inner := by
  have hp := h.pos; have hc := h.cap
  refine ⟨⟨?_, hc, h.ne⟩, ?_, rfl⟩
  · show min (r.pos + amt) r.cap ≤ r.cap; omega
  · unfold BufReader.pending
    rw [← List.append_assoc]
    congr 1
    show r.rem.take amt ++ (r.buf.drop (min (r.pos + amt) r.cap)).take (r.cap - min (r.pos + amt) r.cap) = r.rem
    have key : (r.buf.drop (min (r.pos + amt) r.cap)).take (r.cap - min (r.pos + amt) r.cap) = r.rem.drop amt := by
      unfold BufReader.rem
      rw [List.drop_take, List.drop_drop]
      rcases Nat.le_total (r.pos + amt) r.cap with hle | hle
      · rw [Nat.min_eq_left hle]; congr 1; omega
      · rw [Nat.min_eq_right hle]
        rw [show r.cap - r.cap = 0 by omega, show r.cap - r.pos - amt = 0 by omega]; simp
    rw [key, List.take_append_drop]

/-- One client operation. -/
theorem op_spec (op : ReadOp) (r : BufReader) (h : r.Inv) :
    (∃ out r', op.run r = (.ok out, r') ∧ r'.Inv ∧ out ++ r'.pending = r.pending ∧ (0 < op.asks → out = [] → r.pending = [] ∧ r.inner.ending = none) ∧
      out.length ≤ op.asks ∧ ((NoFail r.inner → NoFail r'.inner) ∧ r'.inner.ending = r.inner.ending)) ∨
    (∃ e r', op.run r = (.err (.io e), r') ∧ r'.Inv ∧ r'.pending = r.pending ∧ CanFail r.inner e ∧ r'.inner.ending = r.inner.ending) := by
  cases op with
  | fillConsume amt =>
    simp only [ReadOp.run, ReadOp.asks]
    rcases fillBuf_spec r h with ⟨r', h1, h2, h3, h4, h5, h6⟩ | ⟨e, r', h1, h2, h3, h4⟩
    · left
      obtain ⟨c1, c2, c3⟩ := consume_spec r' h2 amt
      refine ⟨_, _, by rw [h1], c1, by rw [c2, h3], ?_, by simp; omega, by rw [c3]; exact h6⟩
      intro ha he
      rw [List.take_eq_nil_iff] at he
      rcases he with he | he
      · omega
      · exact h4 he
    · right; exact ⟨e, r', by rw [h1], h2, h3, h4⟩
  | read n =>
    simp only [ReadOp.run, ReadOp.asks, BufReader.read]
    by_cases hb : r.pos = r.cap ∧ n ≥ r.buf.length
    · rw [if_pos hb]
      have hpend : r.pending = r.inner.data := by simp [BufReader.pending, rem_empty hb.1]
      rcases Inner.read_cases r.inner n with ⟨bs, r', h1, h2, h3, h4, h5⟩ | ⟨e, r', h1, h2, h3, h4⟩
      · left
        refine ⟨bs, ⟨r', r.buf, 0, 0⟩, by simp only [h1], ⟨by simp, by simp, h.ne⟩, ?_, ?_, h3, h5⟩
        · show bs ++ (_ ++ r'.data) = _
          simp [hpend, h2, BufReader.rem]
        · rw [hpend]; exact h4
      · right
        refine ⟨e, ⟨r', r.buf, 0, 0⟩, by simp only [h1], ⟨by simp, by simp, h.ne⟩, ?_, h3, h4.2⟩
        rw [hpend, ← h2]; simp [BufReader.pending, BufReader.rem]
    · rw [if_neg hb]
      rcases fillBuf_spec r h with ⟨r', h1, h2, h3, h4, h5, h6⟩ | ⟨e, r', h1, h2, h3, h4⟩
      · left
        obtain ⟨c1, c2, c3⟩ := consume_spec r' h2 (r'.rem.take n).length
        refine ⟨r'.rem.take n, r'.consume (r'.rem.take n).length, by simp only [h1], c1, ?_, ?_, by simp; omega, by rw [c3]; exact h6⟩
        · rw [← h3, ← c2]; simp
        · intro ha he
          rw [List.take_eq_nil_iff] at he
          rcases he with he | he
          · omega
          · exact h4 he
      · right; exact ⟨e, r', by simp only [h1], h2, h3, h4⟩

theorem runOps_spec : ∀ (ops : List ReadOp) (r : BufReader), r.Inv →
    (runOps ops r).2.Inv ∧ deliveredBytes (runOps ops r).1 ++ (runOps ops r).2.pending = r.pending ∧
    (∀ a ∈ (runOps ops r).1, (∃ bs, a = .ok bs) ∨ ∃ e, a = .err (.io e)) ∧
    (NoFail r.inner → NoFail (runOps ops r).2.inner ∧ ∀ a ∈ (runOps ops r).1, ∃ bs, a = .ok bs) ∧
    (runOps ops r).1.length = ops.length ∧ (runOps ops r).2.inner.ending = r.inner.ending
  | [], r, h => by simp [runOps, deliveredBytes, h]
  | op :: ops, r, h => by
    rcases op_spec op r h with ⟨out, r', h1, h2, h3, h4, h5, h6⟩ | ⟨e, r', h1, h2, h3, h4⟩
    · obtain ⟨i1, i2, i3, i4, i5, i6⟩ := runOps_spec ops r' h2
      simp only [runOps, h1, deliveredBytes]
      refine ⟨i1, by rw [List.append_assoc, i2, h3], ?_, ?_, by simp [i5], by rw [i6]; exact h6.2⟩
      · intro a ha
        rcases List.mem_cons.1 ha with rfl | ha
        · exact .inl ⟨out, rfl⟩
        · exact i3 a ha
      · intro hn
        obtain ⟨n1, n2⟩ := i4 (h6.1 hn)
        refine ⟨n1, ?_⟩
        intro a ha
        rcases List.mem_cons.1 ha with rfl | ha
        · exact ⟨out, rfl⟩
        · exact n2 a ha
    · obtain ⟨i1, i2, i3, i4, i5, i6⟩ := runOps_spec ops r' h2
      simp only [runOps, h1, deliveredBytes]
      refine ⟨i1, by rw [i2, h3], ?_, ?_, by simp [i5], by rw [i6]; exact h4.2⟩
      · intro a ha
        rcases List.mem_cons.1 ha with rfl | ha
        · exact .inr ⟨e, rfl⟩
        · exact i3 a ha
      · intro hn; exact absurd h4.1 (hn e)

theorem runOps_complete : ∀ (ops : List ReadOp) (r : BufReader), r.Inv → NoFail r.inner → (∀ op ∈ ops, 0 < op.asks) →
    r.pending.length ≤ ops.length → (runOps ops r).2.pending = []
  | [], r, h, _, _, hl => by simp at hl; simpa [runOps] using hl
  | op :: ops, r, h, hn, ha, hl => by
    rcases op_spec op r h with ⟨out, r', h1, h2, h3, h4, h5, h6⟩ | ⟨e, r', h1, h2, h3, h4⟩
    · simp only [runOps, h1]
      refine runOps_complete ops r' h2 (h6.1 hn) (fun o ho => ha o (by simp [ho])) ?_
      rw [← h3] at hl
      simp at hl
      cases out with
      | nil =>
        have := h4 (ha op (by simp)) rfl
        rw [← h3] at this; simp at this
        simp [this.1]
      | cons x xs => simp at hl; omega
    · exact absurd h4.1 (hn e)

/-! ## Filling the preview buffer -/

theorem fillLoop_spec : ∀ (fuel : Nat) (r : BufReader), r.pos = 0 → r.cap < r.buf.length → r.buf.length - r.cap < fuel →
    (∃ r', r.fillLoop fuel = (.ok (), r') ∧ r'.Inv ∧ r'.pos = 0 ∧ r'.pending = r.pending ∧ r'.buf.length = r.buf.length ∧
      (r'.cap = r'.buf.length ∨ (r'.inner.data = [] ∧ r'.cap < r'.buf.length ∧ r.inner.ending = none)) ∧ (NoFail r.inner → NoFail r'.inner) ∧
      r'.inner.ending = r.inner.ending) ∨
    (∃ e r', r.fillLoop fuel = (.err (.io e), r') ∧ CanFail r.inner e)
  | 0, r, _, _, hf => by omega
  | fuel + 1, r, hp, hc, hf => by
    simp only [BufReader.fillLoop, BufReader.oneShot]
    rw [if_neg (by omega)]
    rcases Inner.read_cases r.inner (r.buf.length - r.cap) with ⟨bs, r', h1, h2, h3, h4, h5⟩ | ⟨e, r', h1, h2, h3, h4⟩
    · simp only [h1]
      have hl : (overwrite r.buf r.cap bs).length = r.buf.length := overwrite_length (by omega)
      have hpend : BufReader.pending { r with inner := r', buf := overwrite r.buf r.cap bs, cap := r.cap + bs.length } = r.pending := by
        simp only [BufReader.pending, BufReader.rem, hp, List.drop_zero, Nat.sub_zero]
        rw [overwrite_take (by omega), List.append_assoc, h2]
      split
      · rename_i hcond
        left
        refine ⟨_, rfl, ⟨by simp [hp], by simp only [hl]; omega, by simp only [hl]; omega⟩, hp, hpend, hl, ?_, h5⟩
        rcases hcond with hz | hz
        · have hb : bs = [] := List.eq_nil_of_length_eq_zero hz
          right
          obtain ⟨hd, hen⟩ := h4 (by omega) hb
          rw [hb, hd] at h2; simp at h2
          refine ⟨h2, ?_, hen⟩
          simp only [hl]; omega
        · left; exact hz
      · rename_i hcond
        have hcond' : bs.length ≠ 0 ∧ r.cap + bs.length ≠ r.buf.length := by
          simp only [hl] at hcond; omega
        rcases fillLoop_spec fuel { r with inner := r', buf := overwrite r.buf r.cap bs, cap := r.cap + bs.length } hp
            (by simp only [hl]; omega) (by simp only [hl]; omega) with ⟨r2, g1, g2, g3, g4, g5, g6, g7⟩ | ⟨e, r2, g1, g2⟩
        · left
          refine ⟨r2, g1, g2, g3, g4.trans hpend, g5.trans hl, ?_, fun hn => g7.1 (h5.1 hn), g7.2.trans h5.2⟩
          rcases g6 with g6 | ⟨g6, g6', g6''⟩
          · exact .inl g6
          · exact .inr ⟨g6, g6', by rw [← h5.2]; exact g6''⟩
        · right
          refine ⟨e, r2, g1, ?_⟩
          have hmem := Inner.read_canFail r.inner (r.buf.length - r.cap)
          rw [h1] at hmem
          exact hmem _ g2
    · right
      simp only [h1]
      exact ⟨e, _, rfl, h3⟩

theorem fillBuffer_spec (capacity : Nat) (hc : 0 < capacity) (inner : Inner) :
    (∃ r, (BufReader.withCapacity capacity inner).fillBuffer = (.ok (), r) ∧ r.Inv ∧ r.pos = 0 ∧ r.pending = inner.data ∧
      r.buf.length = capacity ∧ r.cap = min capacity inner.data.length ∧ r.buf.take r.cap = inner.data.take capacity ∧
      (NoFail inner → NoFail r.inner) ∧ r.inner.ending = inner.ending ∧ (inner.data.length < capacity → inner.ending = none)) ∨
    (∃ e r, (BufReader.withCapacity capacity inner).fillBuffer = (.err (.io e), r) ∧ CanFail inner e) := by
  have hl : (BufReader.withCapacity capacity inner).buf.length = capacity := by simp [BufReader.withCapacity]
  unfold BufReader.fillBuffer
  rw [if_neg (by simp [BufReader.withCapacity]), hl]
  rcases fillLoop_spec (capacity + 1) (BufReader.withCapacity capacity inner) rfl (by rw [hl]; exact hc) (by rw [hl]; omega) with
    ⟨r, h1, h2, h3, h4, h5, h6, h7⟩ | h
  · left
    have hp : r.pending = inner.data := by rw [h4]; simp [BufReader.pending, BufReader.rem, BufReader.withCapacity]
    have hrem : r.rem = r.buf.take r.cap := by simp [BufReader.rem, h3]
    have hd : r.buf.take r.cap ++ r.inner.data = inner.data := by rw [← hp, BufReader.pending, hrem]
    have hlen := congrArg List.length hd
    have hcap := h2.cap
    simp at hlen
    rw [h5, hl] at h6 hcap
    refine ⟨r, h1, h2, h3, hp, h5.trans hl, ?_, ?_, h7.1, h7.2, ?_⟩
    · rcases h6 with h6 | ⟨h6, h6', _⟩
      · rw [h5, hl] at hlen; omega
      · rw [h6] at hlen; simp at hlen; rw [h5, hl] at hlen; omega
    · rw [← hd]
      have hlt : (r.buf.take r.cap).length = r.cap := by simp; rw [h5, hl]; omega
      rcases h6 with h6 | ⟨h6, h6', _⟩
      · have : capacity = (r.buf.take r.cap).length := by omega
        rw [this, List.take_left]
      · rw [h6, List.append_nil]; exact (List.take_of_length_le (by rw [hlt]; omega)).symm
    · intro hlt
      rcases h6 with h6 | ⟨_, _, h6⟩
      · rw [h5, hl] at hlen; omega
      · exact h6
  · right; exact h

/-! ## Lines -/

theorem makeStringNoCr_eq (l : List Byte) : makeStringNoCr l = utf8Decode (dropCr l) := by
  unfold makeStringNoCr dropCr
  cases hl : l.getLast? with
  | none =>
    rw [List.getLast?_eq_none_iff] at hl; subst hl; rfl
  | some x =>
    have hne : l ≠ [] := by rintro rfl; simp at hl
    have hlen : l.length ≠ 0 := by simpa using hne
    rw [if_neg hlen]
    have : l[l.length - 1]? = some x := by rw [← List.getLast?_eq_getElem?]; exact hl
    rw [this]
    by_cases hx : x = 13
    · subst hx; simp [List.dropLast_eq_take]
    · have h1 : ¬ (some x = some (13 : Byte)) := by simpa using hx
      rw [if_neg h1, if_neg h1]
      simp

theorem findIdx_nl {p t : List Byte} (h : (10 : Byte) ∉ p) : (p ++ 10 :: t).findIdx? (· == 10) = some p.length := by
  induction p with
  | nil => simp [List.findIdx?_cons]
  | cons x p ih =>
    simp only [List.mem_cons, not_or] at h
    rw [List.cons_append, List.findIdx?_cons]
    have : (x == 10) = false := by simpa using fun e => h.1 e.symm
    simp only [this]
    rw [ih h.2]; simp

theorem findIdx_no_nl {p : List Byte} (h : (10 : Byte) ∉ p) : p.findIdx? (· == 10) = none := by
  rw [List.findIdx?_eq_none_iff]
  intro x hx
  simp; rintro rfl; exact h hx

theorem decodeAll_append (a b : List (List Byte)) : decodeAll (a ++ b) = match decodeAll a with
    | some x => (decodeAll b).map (x ++ ·)
    | none => none := by
  induction a with
  | nil => simp [decodeAll]
  | cons l a ih =>
    simp only [List.cons_append, decodeAll]
    cases utf8Decode l with
    | none => rfl
    | some s => rw [ih]; cases decodeAll a with
      | none => rfl
      | some x => cases decodeAll b <;> simp

theorem slice_from {buf : List Byte} {pre mid post : List Byte} {start cap : Nat} (hb : buf.take cap = pre ++ mid ++ post)
    (hs : pre.length = start) (hc : cap ≤ buf.length) : slice buf start (start + mid.length) = .ok mid := by
  have hlen := congrArg List.length hb
  simp at hlen
  unfold slice
  rw [if_pos (by omega)]
  congr 1
  have : (buf.drop start).take (start + mid.length - start) = ((buf.take cap).drop start).take mid.length := by
    rw [List.drop_take, List.take_take]; congr 1; omega
  rw [this, hb, List.append_assoc, ← hs, List.drop_left, List.take_left]

theorem getLinesLoop_spec (buf : List Byte) (cap : Nat) (hc : cap ≤ buf.length) (rest : List Byte) (hr : (10 : Byte) ∉ rest) :
    ∀ (pieces : List (List Byte)) (fuel start : Nat) (pre : List Byte) (acc : List Str),
      (∀ p ∈ pieces, (10 : Byte) ∉ p) → buf.take cap = pre ++ (pieces.flatMap (· ++ [10]) ++ rest) → pre.length = start →
      cap - start < fuel →
      getLinesLoop buf cap fuel start acc =
        .ok ((decodeAll ((pieces ++ if rest = [] ∨ cap = buf.length then [] else [rest]).map dropCr)).map (acc ++ ·)) := by
  intro pieces
  induction pieces with
  | nil =>
    intro fuel start pre acc _ hb hs hf
    have hlen := congrArg List.length hb
    simp at hlen
    obtain ⟨fuel, rfl⟩ : ∃ k, fuel = k + 1 := ⟨fuel - 1, by omega⟩
    simp only [getLinesLoop]
    by_cases hre : rest = []
    · subst hre
      rw [if_pos (by simp at hlen; omega)]
      simp [decodeAll]
    · have hrl : 0 < rest.length := List.length_pos_iff.2 hre
      rw [if_neg (by omega)]
      have hsl : slice buf start cap = .ok rest := by
        have := slice_from (pre := pre) (mid := rest) (post := []) (start := start) (cap := cap) (buf := buf) (by simpa using hb) hs hc
        rwa [show start + rest.length = cap by omega] at this
      simp only [getLine, hsl, Res.bind_ok, findIdx_no_nl hr]
      by_cases hcap : cap = buf.length
      · rw [if_pos (by omega)]
        simp [hre, hcap, decodeAll]
      · rw [if_neg (by omega)]
        simp only [makeStringNoCr_eq, Res.bind_ok]
        have hcond : ¬ (rest = [] ∨ cap = buf.length) := by simp [hre, hcap]
        rw [if_neg hcond]
        simp only [List.nil_append, List.map_cons, List.map_nil, decodeAll]
        cases utf8Decode (dropCr rest) with
        | none => simp
        | some s =>
          simp only [Option.map_some]
          obtain ⟨fuel, rfl⟩ : ∃ k, fuel = k + 1 := ⟨fuel - 1, by omega⟩
          simp only [getLinesLoop]
          rw [if_pos (by omega)]
  | cons p pieces ih =>
    intro fuel start pre acc hp hb hs hf
    have hlen := congrArg List.length hb
    simp at hlen
    obtain ⟨fuel, rfl⟩ : ∃ k, fuel = k + 1 := ⟨fuel - 1, by omega⟩
    simp only [getLinesLoop]
    have hpn : (10 : Byte) ∉ p := hp p (by simp)
    have htl : cap = start + (p ++ 10 :: (pieces.flatMap (· ++ [10]) ++ rest)).length := by simp; omega
    rw [if_neg (by simp at htl; omega)]
    have hsl : slice buf start cap = .ok (p ++ 10 :: (pieces.flatMap (· ++ [10]) ++ rest)) := by
      have := slice_from (pre := pre) (mid := p ++ 10 :: (pieces.flatMap (· ++ [10]) ++ rest)) (post := []) (start := start) (cap := cap) (buf := buf)
        (by rw [hb]; simp) hs hc
      rwa [← htl] at this
    have hsl2 : slice buf start (start + p.length) = .ok p :=
      slice_from (pre := pre) (mid := p) (post := 10 :: (pieces.flatMap (· ++ [10]) ++ rest)) (cap := cap) (by rw [hb]; simp) hs hc
    simp only [getLine, hsl, Res.bind_ok, findIdx_nl hpn, hsl2, makeStringNoCr_eq]
    simp only [List.cons_append, List.map_cons, decodeAll]
    cases utf8Decode (dropCr p) with
    | none => simp
    | some s =>
      simp only [Option.map_some]
      rw [ih fuel (start + p.length + 1) (pre ++ p ++ [10]) (acc ++ [s]) (fun q hq => hp q (by simp [hq]))
        (by rw [hb]; simp) (by simp; omega) (by omega)]
      cases decodeAll _ <;> simp

/-- Every byte sequence has exactly one such decomposition. -/
theorem isLines_exists (bs : List Byte) : ∃ pieces rest, IsLines bs pieces rest := by
  induction bs with
  | nil => exact ⟨[], [], rfl, by simp, by simp⟩
  | cons b bs ih =>
    obtain ⟨ps, rest, h1, h2, h3⟩ := ih
    by_cases hb : b = 10
    · subst hb
      refine ⟨[] :: ps, rest, by simp [h1], ?_, h3⟩
      intro p hp
      rcases List.mem_cons.1 hp with rfl | hp
      · simp
      · exact h2 p hp
    · have hb' : ¬ (10 : Byte) = b := fun e => hb e.symm
      cases ps with
      | nil => exact ⟨[], b :: rest, by simp at h1; simp [h1], by simp, by rw [List.mem_cons, not_or]; exact ⟨hb', h3⟩⟩
      | cons p ps =>
        refine ⟨(b :: p) :: ps, rest, by simp [h1], ?_, h3⟩
        intro q hq
        rcases List.mem_cons.1 hq with rfl | hq
        · rw [List.mem_cons, not_or]; exact ⟨hb', h2 p (by simp)⟩
        · exact h2 q (by simp [hq])

theorem previewer_spec (capacity : Nat) (hc : 0 < capacity) (inner : Inner) :
    (∃ p, Previewer.new capacity inner = .ok p ∧ p.reader.Inv ∧ p.reader.pending = inner.data ∧ p.trimmed = inner.data.take capacity ∧
      (∀ pieces rest, IsLines (inner.data.take capacity) pieces rest →
        p.lines = decodeAll ((pieces ++ if rest = [] ∨ capacity ≤ inner.data.length then [] else [rest]).map dropCr)) ∧
      (NoFail inner → NoFail p.reader.inner) ∧ p.reader.inner.ending = inner.ending ∧ (inner.data.length < capacity → inner.ending = none)) ∨
    (∃ e, Previewer.new capacity inner = .err (.io e) ∧ CanFail inner e) := by
  unfold Previewer.new
  rcases fillBuffer_spec capacity hc inner with ⟨r, h1, h2, h3, h4, h5, h6, h7, h8⟩ | ⟨e, r, h1, h2⟩
  · left
    simp only [h1]
    have hsl : slice r.buf 0 r.cap = .ok (inner.data.take capacity) := by
      unfold slice
      rw [if_pos ⟨by omega, h2.cap⟩]; simp [h7]
    obtain ⟨ps, rest, hd⟩ := isLines_exists (inner.data.take capacity)
    have key : ∀ pieces rest, IsLines (inner.data.take capacity) pieces rest →
        getLinesLoop r.buf r.cap (r.cap + 1) 0 [] =
          .ok (decodeAll ((pieces ++ if rest = [] ∨ capacity ≤ inner.data.length then [] else [rest]).map dropCr)) := by
      intro pieces rest hd
      have := getLinesLoop_spec r.buf r.cap h2.cap rest hd.2.2 pieces (r.cap + 1) 0 [] [] hd.2.1 (by rw [h7, hd.1]; simp) rfl (by omega)
      rw [this]
      have hiff : r.cap = r.buf.length ↔ capacity ≤ inner.data.length := by rw [h5, h6]; omega
      simp only [hiff]
      cases decodeAll _ <;> simp
    rw [hsl]
    simp only [Res.bind_ok]
    rw [key ps rest hd]
    simp only [Res.bind_ok]
    refine ⟨_, rfl, h2, h4, rfl, ?_, h8⟩
    intro pieces rest' hd'
    have := (key ps rest hd).symm.trans (key pieces rest' hd')
    simpa using this
  · right
    exact ⟨e, by simp only [h1], h2⟩

/-! ## `read_exact` and file comparison -/

theorem readExactLoop_spec : ∀ (fuel : Nat) (r : Inner) (n : Nat) (acc : List Byte), n < fuel →
    (n ≤ r.data.length ∧ ∃ r', readExactLoop fuel r n acc = (.ok (acc ++ r.data.take n), r') ∧ r'.data = r.data.drop n ∧
      (∀ x, CanFail r' x → CanFail r x)) ∨
    (r.data.length < n ∧ ∃ r', readExactLoop fuel r n acc = (.err (.io .unexpectedEof), r')) ∨
    (∃ e r', readExactLoop fuel r n acc = (.err (.io e), r') ∧ CanFail r e)
  | 0, r, n, acc, h => by omega
  | fuel + 1, r, n, acc, h => by
    simp only [readExactLoop]
    by_cases hn : n = 0
    · subst hn
      left
      exact ⟨by omega, r, by simp, by simp, fun _ h => h⟩
    · rw [if_neg hn]
      have hs := Inner.read_canFail r n
      rcases Inner.read_cases r n with ⟨bs, r', h1, h2, h3, h4, h5⟩ | ⟨e, r', h1, h2, h3, h4⟩
      · rw [h1] at hs
        cases bs with
        | nil =>
          have hd := (h4 (by omega) rfl).1
          right; left
          exact ⟨by rw [hd]; simp; omega, r', by simp only [h1]⟩
        | cons b bs =>
          simp only [h1]
          have hlen := congrArg List.length h2
          simp only [List.length_append, List.length_cons] at hlen h3 ⊢
          have hdrop : r'.data = r.data.drop (bs.length + 1) := by
            rw [← h2, show bs.length + 1 = (b :: bs).length by simp, List.drop_left]
          have htake : b :: bs = r.data.take (bs.length + 1) := by
            rw [← h2, show bs.length + 1 = (b :: bs).length by simp, List.take_left]
          rcases readExactLoop_spec fuel r' (n - (bs.length + 1)) (acc ++ b :: bs) (by omega) with
            ⟨g1, r2, g2, g3, g4⟩ | ⟨g1, r2, g2⟩ | ⟨e, r2, g1, g2⟩
          · left
            refine ⟨by omega, r2, ?_, ?_, fun x hx => hs x (g4 x hx)⟩
            · rw [g2, List.append_assoc, htake, hdrop]
              rw [← List.take_add, show bs.length + 1 + (n - (bs.length + 1)) = n by omega]
            · rw [g3, hdrop, List.drop_drop]; congr 1; omega
          · right; left; exact ⟨by omega, r2, g2⟩
          · right; right; exact ⟨e, r2, g1, hs _ g2⟩
      · right; right; exact ⟨e, r', by simp only [h1], h3⟩

theorem sameLoop_spec (bufSize : Nat) (hb : 0 < bufSize) : ∀ (fuel : Nat) (f1 f2 : Inner), f1.data.length < fuel →
    (sameLoop bufSize fuel f1 f2 = .ok (decide (f1.data = f2.data))) ∨
    (∃ e, CanFail f1 e ∧ sameLoop bufSize fuel f1 f2 = .err (.io e)) ∨
    (∃ e, CanFail f2 e ∧ sameLoop bufSize fuel f1 f2 = if e = .unexpectedEof then .ok false else .err (.io e)) ∨
    (∃ e, CanFail f2 e ∧ sameLoop bufSize fuel f1 f2 = .err (.io e))
  | 0, f1, f2, h => by omega
  | fuel + 1, f1, f2, h => by
    simp only [sameLoop]
    have hs1 := Inner.read_canFail f1 bufSize
    rcases Inner.read_cases f1 bufSize with ⟨bs, r1, a1, a2, a3, a4, a5⟩ | ⟨e, r1, a1, a2, a3, a4⟩
    · rw [a1] at hs1
      cases bs with
      | nil =>
        have hd := (a4 hb rfl).1
        simp only [a1]
        rcases Inner.read_cases f2 bufSize with ⟨b2, r2, c1, c2, c3, c4, c5⟩ | ⟨e, r2, c1, c2, c3, c4⟩
        · left
          simp only [c1, hd]
          congr 1
          cases b2 with
          | nil => have := (c4 hb rfl).1; simp [this]
          | cons x xs =>
            have : f2.data ≠ [] := by rw [← c2]; simp
            simp; exact this
        · right; right; right; exact ⟨e, c3, by simp only [c1]⟩
      | cons b bs =>
        simp only [a1]
        have hlen := congrArg List.length a2
        simp only [List.length_append, List.length_cons] at hlen
        unfold Inner.readExact
        rcases readExactLoop_spec ((b :: bs).length + 1) f2 (b :: bs).length [] (by omega) with
          ⟨g1, r2, g2, g3, g4⟩ | ⟨g1, r2, g2⟩ | ⟨e, r2, g1, g2⟩
        · simp only [g2, List.nil_append]
          by_cases heq : b :: bs = f2.data.take (b :: bs).length
          · rw [if_neg (by simpa using heq)]
            have hiff : f1.data = f2.data ↔ r1.data = r2.data := by
              rw [g3, ← a2]
              constructor
              · intro e; rw [← e, List.drop_left]
              · intro e
                rw [e]
                have := List.take_append_drop (b :: bs).length f2.data
                rw [← heq] at this; exact this
            rcases sameLoop_spec bufSize hb fuel r1 r2 (by omega) with k | ⟨e, k1, k2⟩ | ⟨e, k1, k2⟩ | ⟨e, k1, k2⟩
            · left; rw [k]; simp only [hiff]
            · right; left; exact ⟨e, hs1 _ k1, k2⟩
            · right; right; left; exact ⟨e, g4 _ k1, k2⟩
            · right; right; right; exact ⟨e, g4 _ k1, k2⟩
          · left
            rw [if_pos heq]
            congr 1
            symm; rw [decide_eq_false_iff_not]
            intro e
            apply heq
            rw [← e, ← a2, List.take_left]
        · left
          simp only [g2, if_true]
          congr 1
          symm; rw [decide_eq_false_iff_not]
          intro e
          rw [← e] at g1
          simp at g1; omega
        · right; right; left
          refine ⟨e, g2, ?_⟩
          simp only [g1, Err.io.injEq]
    · right; left; exact ⟨e, a3, by simp only [a1]⟩

end Chopper
