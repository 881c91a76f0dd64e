import Verif.Proofs.Reader

namespace Chopper
open Spec

/-! ## Errors a buffered reader reports are errors of the underlying reader -/

theorem fillBuf_canFail (r : BufReader) (e : IoKind) (h : CanFail r.fillBuf.2.inner e) : CanFail r.inner e := by
  unfold BufReader.fillBuf at h
  by_cases h1 : r.pos ≥ r.cap
  · rw [if_pos h1] at h
    by_cases h2 : r.pos ≠ r.cap
    · rw [if_pos h2] at h; exact h
    · rw [if_neg h2] at h
      apply Inner.read_canFail r.inner r.buf.length
      rcases hr : r.inner.read r.buf.length with ⟨_ | _ | _ | _, i⟩ <;> rw [hr] at h <;> exact h
  · rw [if_neg h1] at h; exact h

theorem op_canFail (op : ReadOp) (r : BufReader) (e : IoKind) (h : CanFail (op.run r).2.inner e) : CanFail r.inner e := by
  cases op with
  | fillConsume amt =>
    apply fillBuf_canFail r
    simp only [ReadOp.run] at h
    rcases hr : r.fillBuf with ⟨_ | _ | _ | _, i⟩ <;> rw [hr] at h <;> exact h
  | read n =>
    simp only [ReadOp.run, BufReader.read] at h
    by_cases hb : r.pos = r.cap ∧ n ≥ r.buf.length
    · rw [if_pos hb] at h
      exact Inner.read_canFail r.inner n e h
    · rw [if_neg hb] at h
      apply fillBuf_canFail r
      rcases hr : r.fillBuf with ⟨_ | _ | _ | _, i⟩ <;> rw [hr] at h <;> exact h

theorem runOps_errors : ∀ (ops : List ReadOp) (r : BufReader), r.Inv →
    ∀ a ∈ (runOps ops r).1, (∃ bs, a = .ok bs) ∨ ∃ e, a = .err (.io e) ∧ CanFail r.inner e
  | [], r, _ => by simp [runOps]
  | op :: ops, r, h => by
    intro a ha
    have hcan := op_canFail op r
    rcases op_spec op r h with ⟨out, r', h1, h2, _⟩ | ⟨e, r', h1, h2, _, h4, _⟩
    · simp only [runOps, h1] at ha
      rw [h1] at hcan
      rcases List.mem_cons.1 ha with rfl | ha
      · exact .inl ⟨out, rfl⟩
      · rcases runOps_errors ops r' h2 a ha with h | ⟨e, h, h'⟩
        · exact .inl h
        · exact .inr ⟨e, h, hcan e h'⟩
    · simp only [runOps, h1] at ha
      rw [h1] at hcan
      rcases List.mem_cons.1 ha with rfl | ha
      · exact .inr ⟨e, rfl, h4⟩
      · rcases runOps_errors ops r' h2 a ha with h | ⟨e', h, h'⟩
        · exact .inl h
        · exact .inr ⟨e', h, hcan e' h'⟩

theorem oneShot_canFail (r : BufReader) (e : IoKind) (h : CanFail r.oneShot.2.inner e) : CanFail r.inner e := by
  unfold BufReader.oneShot at h
  by_cases h1 : r.cap = r.buf.length
  · rw [if_pos h1] at h; exact h
  · rw [if_neg h1] at h
    apply Inner.read_canFail r.inner (r.buf.length - r.cap)
    rcases hr : r.inner.read (r.buf.length - r.cap) with ⟨_ | _ | _ | _, i⟩ <;> rw [hr] at h <;> exact h

theorem fillLoop_canFail : ∀ (fuel : Nat) (r : BufReader) (e : IoKind), CanFail (r.fillLoop fuel).2.inner e → CanFail r.inner e
  | 0, r, e, h => h
  | fuel + 1, r, e, h => by
    apply oneShot_canFail r
    unfold BufReader.fillLoop at h
    rcases hr : r.oneShot with ⟨n | _ | _ | _, i⟩ <;> rw [hr] at h
    · simp only at h
      split at h
      · exact h
      · exact fillLoop_canFail fuel i e h
    all_goals exact h

theorem previewer_canFail {capacity : Nat} {inner : Inner} {p : Previewer} (hp : Previewer.new capacity inner = .ok p) (e : IoKind)
    (h : CanFail p.reader.inner e) : CanFail inner e := by
  have key : CanFail ((BufReader.withCapacity capacity inner).fillBuffer).2.inner e → CanFail inner e := by
    intro h
    unfold BufReader.fillBuffer at h
    split at h
    · exact h
    · exact fillLoop_canFail _ (BufReader.withCapacity capacity inner) e h
  apply key
  unfold Previewer.new at hp
  rcases hr : (BufReader.withCapacity capacity inner).fillBuffer with ⟨_ | _ | _ | _, i⟩ <;> rw [hr] at hp
  · simp only at hp
    cases hs : slice i.buf 0 i.cap with
    | ok t =>
      rw [hs, Res.bind_ok] at hp
      cases hl : getLinesLoop i.buf i.cap (i.cap + 1) 0 [] with
      | ok l =>
        rw [hl, Res.bind_ok] at hp
        injection hp with hp
        subst hp
        exact h
      | err e => rw [hl] at hp; cases hp
      | panic => rw [hl] at hp; cases hp
      | diverge => rw [hl] at hp; cases hp
    | err e => rw [hs] at hp; cases hp
    | panic => rw [hs] at hp; cases hp
    | diverge => rw [hs] at hp; cases hp
  all_goals simp at hp

end Chopper

namespace Chopper

/-! ## The schedule only gets shorter -/

theorem Inner.read_sched (r : Inner) (n : Nat) : ∀ x ∈ (r.read n).2.sched, x ∈ r.sched := by
  have key : ∀ m s, (r.deliver m s).2.sched = s := by
    intro m s
    unfold Inner.deliver
    split
    · split <;> rfl
    · rfl
  unfold Inner.read
  split
  · rename_i e s hs
    intro x hx
    rw [hs]; exact List.mem_cons_of_mem _ hx
  · rename_i k s hs
    intro x hx
    rw [key] at hx
    rw [hs]; exact List.mem_cons_of_mem _ hx
  · intro x hx
    rw [key] at hx
    simp at hx

theorem oneShot_sched (r : BufReader) : ∀ x ∈ r.oneShot.2.inner.sched, x ∈ r.inner.sched := by
  intro x h
  unfold BufReader.oneShot at h
  by_cases h1 : r.cap = r.buf.length
  · rw [if_pos h1] at h; exact h
  · rw [if_neg h1] at h
    apply Inner.read_sched r.inner (r.buf.length - r.cap)
    rcases hr : r.inner.read (r.buf.length - r.cap) with ⟨_ | _ | _ | _, i⟩ <;> rw [hr] at h <;> exact h

theorem fillLoop_sched : ∀ (fuel : Nat) (r : BufReader), ∀ x ∈ (r.fillLoop fuel).2.inner.sched, x ∈ r.inner.sched
  | 0, r, x, h => h
  | fuel + 1, r, x, h => by
    apply oneShot_sched r
    unfold BufReader.fillLoop at h
    rcases hr : r.oneShot with ⟨n | _ | _ | _, i⟩ <;> rw [hr] at h
    · simp only at h
      split at h
      · exact h
      · exact fillLoop_sched fuel i x h
    all_goals exact h

theorem previewer_sched {capacity : Nat} {inner : Inner} {p : Previewer} (hp : Previewer.new capacity inner = .ok p) :
    ∀ x ∈ p.reader.inner.sched, x ∈ inner.sched := by
  intro x h
  have key : x ∈ ((BufReader.withCapacity capacity inner).fillBuffer).2.inner.sched → x ∈ inner.sched := by
    intro h
    unfold BufReader.fillBuffer at h
    split at h
    · exact h
    · exact fillLoop_sched _ (BufReader.withCapacity capacity inner) x h
  apply key
  unfold Previewer.new at hp
  rcases hr : (BufReader.withCapacity capacity inner).fillBuffer with ⟨_ | _ | _ | _, i⟩ <;> rw [hr] at hp
  · simp only at hp
    cases hs : slice i.buf 0 i.cap with
    | ok t =>
      rw [hs, Res.bind_ok] at hp
      cases hl : getLinesLoop i.buf i.cap (i.cap + 1) 0 [] with
      | ok l =>
        rw [hl, Res.bind_ok] at hp
        injection hp with hp
        subst hp
        exact h
      | err e => rw [hl] at hp; cases hp
      | panic => rw [hl] at hp; cases hp
      | diverge => rw [hl] at hp; cases hp
    | err e => rw [hs] at hp; cases hp
    | panic => rw [hs] at hp; cases hp
    | diverge => rw [hs] at hp; cases hp
  all_goals simp at hp

end Chopper

namespace Chopper
open Spec

/-! ## A reader without scheduled failures fills the buffer if it has enough data -/

theorem Inner.read_ok_of_data {r : Inner} {n : Nat} (hd : r.data ≠ []) (hn : ∀ e, ReadStep.fail e ∉ r.sched) : ∃ bs, (r.read n).1 = .ok bs := by
  have key : ∀ m s, ∃ bs, (r.deliver m s).1 = .ok bs := by
    intro m s
    unfold Inner.deliver
    split
    · rw [if_neg (by simp [hd])]; exact ⟨_, rfl⟩
    · exact ⟨_, rfl⟩
  unfold Inner.read
  split
  · rename_i e s hs
    exact absurd (by rw [hs]; simp) (hn e)
  · exact key _ _
  · exact key _ _

theorem fillLoop_large : ∀ (fuel : Nat) (r : BufReader), r.pos = 0 → r.cap < r.buf.length → r.buf.length - r.cap < fuel →
    (∀ e, ReadStep.fail e ∉ r.inner.sched) → r.buf.length ≤ r.cap + r.inner.data.length → ∃ r', r.fillLoop fuel = (.ok (), r')
  | 0, r, _, _, hf, _, _ => by omega
  | fuel + 1, r, hp, hc, hf, hn, hl => by
    have hd : r.inner.data ≠ [] := by intro h; rw [h] at hl; simp at hl; omega
    obtain ⟨bs0, hok⟩ := Inner.read_ok_of_data (n := r.buf.length - r.cap) hd hn
    have hs := Inner.read_sched r.inner (r.buf.length - r.cap)
    simp only [BufReader.fillLoop, BufReader.oneShot]
    rw [if_neg (by omega)]
    rcases Inner.read_cases r.inner (r.buf.length - r.cap) with ⟨bs, r', h1, h2, h3, h4, h5⟩ | ⟨e, r', h1, h2, h3, h4⟩
    · simp only [h1]
      have hl' : (overwrite r.buf r.cap bs).length = r.buf.length := overwrite_length (by omega)
      split
      · exact ⟨_, rfl⟩
      · rename_i hcond
        simp only [hl'] at hcond
        have hlen := congrArg List.length h2
        simp only [List.length_append] at hlen
        rw [h1] at hs
        exact fillLoop_large fuel { r with inner := r', buf := overwrite r.buf r.cap bs, cap := r.cap + bs.length } hp
          (by simp only [hl']; omega) (by simp only [hl']; omega) (fun e he => hn e (hs _ he)) (by simp only [hl']; omega)
    · rw [h1] at hok; simp at hok

theorem slice_no_err {l : List Byte} {a b : Nat} {e : Err} : slice l a b ≠ .err e := by
  unfold slice; split <;> simp

theorem getLine_no_err (buf : List Byte) (start cap : Nat) (e : Err) : getLine buf start cap ≠ .err e := by
  have key : ∀ a b (f : List Byte → Res (Option (Option (Str × Nat)))), (∀ x, f x ≠ .err e) → (slice buf a b).bind f ≠ .err e := by
    intro a b f hf
    unfold slice
    split
    · exact hf _
    · simp [Res.bind]
  unfold getLine
  apply key
  intro sl
  have fin : ∀ q, (slice buf start q).bind (fun line => (.ok (some ((makeStringNoCr line).map fun s => (s, q + 1))) : Res (Option (Option (Str × Nat))))) ≠ .err e :=
    fun q => key _ _ _ (by simp)
  simp only
  split
  · split
    · simp
    · exact fin _
  · exact fin _

theorem getLines_no_err (buf : List Byte) (cap : Nat) : ∀ (fuel start : Nat) (lines : List Str) (e : Err), getLinesLoop buf cap fuel start lines ≠ .err e
  | 0, _, _, _ => by simp [getLinesLoop]
  | fuel + 1, start, lines, e => by
    unfold getLinesLoop
    split
    · simp
    · cases hg : getLine buf start cap with
      | ok x =>
        rw [Res.bind_ok]
        rcases x with _ | _ | ⟨line, next⟩
        · simp
        · simp
        · exact getLines_no_err buf cap fuel next _ e
      | err e' => exact absurd hg (getLine_no_err _ _ _ _)
      | panic => simp [Res.bind]
      | diverge => simp [Res.bind]

theorem previewer_large {capacity : Nat} (hc : 0 < capacity) {inner : Inner} (hl : capacity ≤ inner.data.length) (hn : ∀ e, ReadStep.fail e ∉ inner.sched) :
    ∃ p, Previewer.new capacity inner = .ok p ∧ p.reader.pending = inner.data ∧ p.reader.inner.ending = inner.ending := by
  rcases previewer_spec capacity hc inner with ⟨p, h1, _, h3, _, _, _, h7, _⟩ | ⟨e, h1, _⟩
  · exact ⟨p, h1, h3, h7⟩
  · have hw : (BufReader.withCapacity capacity inner).buf.length = capacity := by simp [BufReader.withCapacity]
    obtain ⟨r', hr'⟩ := fillLoop_large (capacity + 1) (BufReader.withCapacity capacity inner) rfl (by rw [hw]; exact hc) (by rw [hw]; omega) hn (by
      rw [hw]; simp only [BufReader.withCapacity]; omega)
    have hf : (BufReader.withCapacity capacity inner).fillBuffer = (.ok (), r') := by
      unfold BufReader.fillBuffer
      rw [if_neg (by simp [BufReader.withCapacity]), hw, hr']
    · unfold Previewer.new at h1
      rw [hf] at h1
      simp only at h1
      cases hs : slice r'.buf 0 r'.cap with
      | ok t =>
        rw [hs, Res.bind_ok] at h1
        exfalso
        cases hg : getLinesLoop r'.buf r'.cap (r'.cap + 1) 0 [] with
        | ok l => rw [hg] at h1; simp at h1
        | err e' => exact absurd hg (getLines_no_err _ _ _ _ _ _)
        | panic => rw [hg] at h1; simp [Res.bind] at h1
        | diverge => rw [hg] at h1; simp [Res.bind] at h1
      | err e => exact absurd hs slice_no_err
      | panic => rw [hs] at h1; simp [Res.bind] at h1
      | diverge => rw [hs] at h1; simp [Res.bind] at h1

end Chopper
