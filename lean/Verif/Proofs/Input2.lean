import Verif.Proofs.Input
import Verif.Proofs.MultiFile2
import Verif.Proofs.Csv

/-! # Sources as rows; readers as byte streams -/
namespace Chopper
open Spec

/-- With enough fuel `toSource` is what the source does. -/
theorem toSource_runs {σ : Type} {next : σ → Res (Option Row) × σ} {μ : σ → Nat} (hμ : ∀ s r s', next s = (.ok (some r), s') → μ s' < μ s) :
    ∀ (fuel : Nat) (s : σ), μ s < fuel → RunsAs next s (toSource next fuel s)
  | 0, s, h => by omega
  | fuel + 1, s, h => by
    unfold toSource
    rcases hn : next s with ⟨_ | _ | _ | _, s'⟩
    case ok o =>
      cases o with
      | none => exact ⟨s, .nil s, by simp [hn]⟩
      | some r =>
        have := hμ _ _ _ hn
        obtain ⟨s'', h1, h2⟩ := toSource_runs hμ fuel s' (by omega)
        exact ⟨s'', .cons hn h1, h2⟩
    all_goals exact ⟨s, .nil s, by simp [hn]⟩

theorem dc_toFile_runs (src : DcSource) : RunsAs DcSource.nextRow src src.toFile.source := by
  refine toSource_runs (μ := fun s => s.stream.length) ?_ _ _ (Nat.lt_succ_self _)
  intro s r s' h
  obtain ⟨c, h1, h2, _⟩ := nextRow_ok h
  simp only [h1, List.length_append, ofBytes, List.length_map]
  omega

theorem csv_toFile_runs (env : CsvEnv) (tz : ChopperTz env.lib) (src : CsvSource) : RunsAs (CsvSource.nextRow env tz) src (src.toFile env tz).source := by
  refine toSource_runs (μ := fun s => s.records.length + if s.hasNext then 1 else 0) ?_ _ _ (by show src.records.length + (if src.hasNext then 1 else 0) < src.records.length + 2; split <;> omega)
  intro s r s' h
  unfold CsvSource.nextRow at h
  obtain ⟨records, header, col, fmt, row, hasNext⟩ := s
  cases hasNext with
  | false => simp at h
  | true =>
    simp only [Bool.not_true, Bool.false_eq_true, if_false] at h
    cases records with
    | nil =>
      simp only [Prod.mk.injEq] at h
      rw [← h.2]; simp
    | cons x rest =>
      cases x with
      | ok record =>
        simp only at h
        rcases hu : updateRow env tz col fmt row record with ⟨_ | _ | _ | _, row'⟩
        · simp only [hu, Prod.mk.injEq] at h
          rw [← h.2]; simp
        all_goals simp [hu] at h
      | err e => simp at h
      | panic => simp at h
      | diverge => simp at h

theorem multiNext_measure (openFile : Path → Res (Option FileSource)) (header : Header) : ∀ (paths : List Path) (m : List Nat) (cur : Option FileSource)
    (r : Row) (s' : MultiFile Path), multiNext openFile header paths m cur = (.ok (some r), s') →
    currentRows s' + (s'.paths.map (fileRows openFile)).sum < currentRows ⟨paths, header, m, cur⟩ + (paths.map (fileRows openFile)).sum
  | paths, m, none, r, s', h => by simp [multiNext] at h
  | paths, m, some f, r, s', h => by
    unfold multiNext at h
    obtain ⟨fh, rows, ending⟩ := f
    cases rows with
    | cons row rows =>
      simp only [Source.nextRow] at h
      cases ha : alignRow m row with
      | ok row' =>
        simp only [ha, Prod.mk.injEq] at h
        rw [← h.2]
        simp only [currentRows, List.length_cons]
        omega
      | err e => simp [ha] at h
      | panic => simp [ha] at h
      | diverge => simp [ha] at h
    | nil =>
      cases ending with
      | fail e => simp [Source.nextRow] at h
      | crash => simp [Source.nextRow] at h
      | eof =>
        simp only [Source.nextRow] at h
        cases paths with
        | nil => simp at h
        | cons p ps =>
          simp only at h
          cases ho : openPath openFile p with
          | ok f' =>
            simp only [ho] at h
            cases hs : swapMap header f'.header with
            | ok m' =>
              simp only [hs] at h
              have := multiNext_measure openFile header ps m' (some f') r s' h
              have hf : fileRows openFile p = f'.source.rows.length := by
                unfold openPath at ho
                unfold fileRows
                cases hp : openFile p with
                | ok o =>
                  cases o with
                  | none => rw [hp] at ho; simp at ho
                  | some g => rw [hp] at ho; simp at ho; subst ho; rfl
                | err e => rw [hp] at ho; simp at ho
                | panic => rw [hp] at ho; simp at ho
                | diverge => rw [hp] at ho; simp at ho
              simp only [currentRows, List.map_cons, List.sum_cons, hf, List.length_nil] at this ⊢
              omega
            | err e => simp [hs] at h
            | panic => simp [hs] at h
            | diverge => simp [hs] at h
          | err e => simp [ho] at h
          | panic => simp [ho] at h
          | diverge => simp [ho] at h
  termination_by paths => paths.length

theorem multi_toFile_runs (openFile : Path → Res (Option FileSource)) (m : MultiFile Path) :
    RunsAs (MultiFile.nextRow openFile) m (m.toFile openFile).source := by
  refine toSource_runs (μ := fun s => currentRows s + (s.paths.map (fileRows openFile)).sum) ?_ _ _ (Nat.lt_succ_self _)
  intro s r s' h
  exact multiNext_measure openFile s.header s.paths s.map s.current r s' h

/-- A source is what it is taken for in only one way. -/
theorem runsAs_unique {σ : Type} {next : σ → Res (Option Row) × σ} {s : σ} {a b : Source} (ha : RunsAs next s a) (hb : RunsAs next s b) : a = b := by
  obtain ⟨s1, h1, h2⟩ := ha
  obtain ⟨s2, h3, h4⟩ := hb
  obtain ⟨ra, ea⟩ := a
  obtain ⟨rb, eb⟩ := b
  simp only at h1 h2 h3 h4
  induction h1 generalizing rb with
  | nil s =>
    cases h3 with
    | nil =>
      congr 1
      cases hn : (next s2).1 with
      | ok o =>
        rw [hn] at h2 h4
        cases o with
        | none => exact h2.trans h4.symm
        | some r => exact h2.elim
      | err e => rw [hn] at h2 h4; exact h2.trans h4.symm
      | panic => rw [hn] at h2 h4; exact h2.trans h4.symm
      | diverge => rw [hn] at h2 h4; exact h2.trans h4.symm
    | cons hr _ => simp [hr] at h2
  | cons hr _ ih =>
    cases h3 with
    | nil => simp [hr] at h4
    | cons hr' h3' =>
      rw [hr] at hr'
      simp only [Prod.mk.injEq, Res.ok.injEq, Option.some.injEq] at hr'
      obtain ⟨rfl, rfl⟩ := hr'
      have := ih h2 _ h3' 
      simp only [Source.mk.injEq] at this ⊢
      exact ⟨by rw [this.1], this.2⟩

/-! ## `read_exact` on a buffered reader -/

theorem deliver_sched (r : Inner) (m : Nat) (s : List ReadStep) : (r.deliver m s).2.sched = s := by
  unfold Inner.deliver
  cases r.ending with
  | none => rfl
  | some e => simp only; split <;> rfl

theorem read_sched (r : Inner) (n : Nat) : ∀ x ∈ (r.read n).2.sched, x ∈ r.sched := by
  unfold Inner.read
  cases hs : r.sched with
  | nil => rw [deliver_sched]; simp
  | cons x s =>
    cases x with
    | bytes k => simp only; rw [deliver_sched]; intro y hy; simp [hy]
    | fail e => simp only; intro y hy; simp [hy]

theorem read_err_data {r : Inner} {n : Nat} {e : Err} {r' : Inner} (hs : ∀ e, ReadStep.fail e ∉ r.sched) (h : r.read n = (.err e, r')) :
    r.data = [] ∧ ∃ k, e = .io k ∧ r.ending = some k := by
  have key : ∀ m s, r.deliver m s = (.err e, r') → r.data = [] ∧ ∃ k, e = .io k ∧ r.ending = some k := by
    intro m s h
    unfold Inner.deliver at h
    cases he : r.ending with
    | none => rw [he] at h; simp at h
    | some k =>
      rw [he] at h
      simp only at h
      by_cases hd : r.data = [] ∧ m ≠ 0
      · rw [if_pos hd] at h
        simp only [Prod.mk.injEq, Res.err.injEq] at h
        exact ⟨hd.1, k, h.1.symm, rfl⟩
      · rw [if_neg hd] at h; simp at h
  unfold Inner.read at h
  cases hsc : r.sched with
  | nil => rw [hsc] at h; exact key _ _ h
  | cons x s =>
    rw [hsc] at h
    cases x with
    | bytes k => exact key _ _ h
    | fail k => exact absurd (by rw [hsc]; simp) (hs k)

/-- What a `read` of a buffered reader does if its underlying reader fails at most at its end. -/
theorem bufRead_cases (r : BufReader) (h : r.Inv) (hs : ∀ e, ReadStep.fail e ∉ r.inner.sched) (n : Nat) (hn : 0 < n) :
    (∃ out r', r.read n = (.ok out, r') ∧ r'.Inv ∧ out ++ r'.pending = r.pending ∧ out.length ≤ n ∧ (out = [] → r.pending = [] ∧ r.inner.ending = none) ∧
      r'.inner.ending = r.inner.ending ∧ ∀ e, ReadStep.fail e ∉ r'.inner.sched) ∨
    (∃ k r', r.read n = (.err (.io k), r') ∧ r.pending = [] ∧ r.inner.ending = some k) := by
  have hsched : ∀ e, ReadStep.fail e ∉ (r.read n).2.inner.sched := by
    intro e he
    unfold BufReader.read at he
    by_cases hc : r.pos = r.cap ∧ n ≥ r.buf.length
    · rw [if_pos hc] at he
      exact hs e (read_sched _ _ _ he)
    · rw [if_neg hc] at he
      have : ∀ x ∈ r.fillBuf.2.inner.sched, x ∈ r.inner.sched := by
        unfold BufReader.fillBuf
        by_cases h1 : r.pos ≥ r.cap
        · rw [if_pos h1]
          by_cases h2 : r.pos ≠ r.cap
          · rw [if_pos h2]; exact fun x hx => hx
          · rw [if_neg h2]
            have hr := read_sched r.inner r.buf.length
            rcases hw : r.inner.read r.buf.length with ⟨_ | _ | _ | _, i⟩ <;> rw [hw] at hr <;> exact hr
        · rw [if_neg h1]; exact fun x hx => hx
      rcases hw : r.fillBuf with ⟨_ | _ | _ | _, r1⟩ <;> simp only [hw] at he this <;> exact hs e (this _ he)
  rcases op_spec (.read n) r h with ⟨out, r', h1, h2, h3, h4, h5, h6⟩ | ⟨k, r', h1, h2, h3, h4, h5⟩
  · left
    refine ⟨out, r', h1, h2, h3, h5, h4 hn, h6.2, ?_⟩
    have h1' : r.read n = (.ok out, r') := h1
    rw [h1'] at hsched
    exact hsched
  · right
    have h1' : r.read n = (.err (.io k), r') := h1
    refine ⟨k, r', h1', ?_⟩
    unfold BufReader.read at h1'
    by_cases hc : r.pos = r.cap ∧ n ≥ r.buf.length
    · rw [if_pos hc] at h1'
      rcases hw : r.inner.read n with ⟨a, i⟩
      simp only [hw, Prod.mk.injEq] at h1'
      rw [h1'.1] at hw
      obtain ⟨g1, k', g2, g3⟩ := read_err_data hs hw
      injection g2 with g2; subst g2
      exact ⟨by unfold BufReader.pending; rw [rem_empty hc.1, g1]; rfl, g3⟩
    · rw [if_neg hc] at h1'
      rcases hw : r.fillBuf with ⟨_ | e' | _ | _, r1⟩
      case err =>
        simp only [hw, Prod.mk.injEq, Res.err.injEq] at h1'
        rw [h1'.1] at hw
        unfold BufReader.fillBuf at hw
        by_cases g1 : r.pos ≥ r.cap
        · rw [if_pos g1] at hw
          by_cases g2 : r.pos ≠ r.cap
          · rw [if_pos g2] at hw; simp at hw
          · rw [if_neg g2] at hw
            rcases hr : r.inner.read r.buf.length with ⟨_ | e'' | _ | _, i⟩
            case err =>
              simp only [hr, Prod.mk.injEq, Res.err.injEq] at hw
              rw [hw.1] at hr
              obtain ⟨a1, k', a2, a3⟩ := read_err_data hs hr
              injection a2 with a2; subst a2
              exact ⟨by unfold BufReader.pending; rw [rem_empty (by simpa using g2), a1]; rfl, a3⟩
            case ok =>
              simp only [hr] at hw
              unfold slice at hw
              split at hw <;> simp at hw
            all_goals simp [hr] at hw
        · rw [if_neg g1, slice_rem h] at hw; simp at hw
      all_goals simp [hw] at h1'

/-- `Read::read_exact` of the standard library on a buffered reader. -/
def bufReadExact : Nat → BufReader → Nat → List Byte → Res (List Byte) × BufReader
  | 0, r, _, _ => (.diverge, r)
  | fuel + 1, r, n, acc =>
    if n = 0 then (.ok acc, r)
    else match r.read n with
      | (.ok [], r') => (.err (.io .unexpectedEof), r')
      | (.ok bs, r') => bufReadExact fuel r' (n - bs.length) (acc ++ bs)
      | (.err e, r') => (.err e, r')
      | (.panic, r') => (.panic, r')
      | (.diverge, r') => (.diverge, r')

theorem chunks_noFail (size : Nat) (ending : Option IoKind) : ∀ (s : List ReadStep) (data : List Byte), (∀ e, ReadStep.fail e ∉ s) →
    chunks size s data ending = ofBytes data ++ endItems ending
  | [], data, _ => rfl
  | .fail e :: s, _, h => absurd (by simp) (h e)
  | .bytes k :: s, data, h => by
    rw [chunks, chunks_noFail size ending s _ (fun e he => h e (by simp [he]))]
    split
    · rename_i hd; rw [hd]; rfl
    · rw [← List.append_assoc, ← ofBytes_append, List.take_append_drop]

theorem streamOf_eq (r : BufReader) (hs : ∀ e, ReadStep.fail e ∉ r.inner.sched) :
    streamOf r = ofBytes r.pending ++ endItems r.inner.ending := by
  unfold streamOf BufReader.pending
  rw [chunks_noFail _ _ _ _ hs, ofBytes_append, List.append_assoc]
  rfl

/-- `read_exact` on a buffered reader whose underlying reader fails at most at its end is `readN` on `streamOf`. -/
theorem bufReadExact_spec : ∀ (fuel : Nat) (r : BufReader) (n : Nat) (acc : List Byte), n < fuel → r.Inv → (∀ e, ReadStep.fail e ∉ r.inner.sched) →
    (∃ bs r', readN n (streamOf r) = (.ok bs, streamOf r') ∧ bufReadExact fuel r n acc = (.ok (acc ++ bs), r') ∧ r'.Inv ∧
      ∀ e, ReadStep.fail e ∉ r'.inner.sched) ∨
    (∃ e s' r', readN n (streamOf r) = (.err e, s') ∧ bufReadExact fuel r n acc = (.err e, r'))
  | 0, r, n, acc, hf, _, _ => by omega
  | fuel + 1, r, n, acc, hf, hi, hs => by
    unfold bufReadExact
    by_cases hn : n = 0
    · subst hn
      left
      exact ⟨[], r, rfl, by simp, hi, hs⟩
    rw [if_neg hn]
    rcases bufRead_cases r hi hs n (by omega) with ⟨out, r', h1, h2, h3, h4, h5, h6, h7⟩ | ⟨k, r', h1, h2, h3⟩
    · rw [h1]
      cases out with
      | nil =>
        right
        obtain ⟨g1, g2⟩ := h5 rfl
        refine ⟨_, [], r', ?_, rfl⟩
        rw [streamOf_eq r hs, g1, g2]
        have := readN_eof [] (n - 1)
        rw [show ([] : List Byte).length + (n - 1 + 1) = n by simp; omega] at this
        simpa [ofBytes, endItems] using this
      | cons b out =>
        simp only
        have hst : streamOf r = ofBytes (b :: out) ++ streamOf r' := by
          rw [streamOf_eq r hs, streamOf_eq r' h7, ← h3, ofBytes_append, h6, List.append_assoc]
        have hsplit : ∀ m (s : Stream), readN ((b :: out).length + m) (ofBytes (b :: out) ++ s) =
            Rd.bind (readN m) (fun bs => Rd.pure (b :: out ++ bs)) s := by
          intro m
          generalize (b :: out) = l
          induction l with
          | nil =>
            intro s
            simp only [List.length_nil, Nat.zero_add, ofBytes, List.map_nil, List.nil_append, Rd.bind, Rd.pure]
            rcases readN m s with ⟨_ | _ | _ | _, s'⟩ <;> rfl
          | cons x l ih =>
            intro s
            rw [show (x :: l).length + m = (l.length + m) + 1 by simp; omega, readN]
            simp only [ofBytes_cons, List.cons_append, Rd.bind]
            rw [ih s]
            simp only [Rd.bind, Rd.pure]
            rcases readN m s with ⟨_ | _ | _ | _, s'⟩ <;> rfl
        have hlen : n = (b :: out).length + (n - (b :: out).length) := by omega
        rcases bufReadExact_spec fuel r' (n - (b :: out).length) (acc ++ (b :: out)) (by simp only [List.length_cons] at *; omega) h2 h7 with
          ⟨bs, r'', g1, g2, g3, g4⟩ | ⟨e, s', r'', g1, g2⟩
        · left
          refine ⟨b :: out ++ bs, r'', ?_, by rw [g2]; simp, g3, g4⟩
          rw [hst]
          conv => lhs; rw [hlen]
          rw [hsplit, Rd.bind_of_ok g1]; rfl
        · right
          refine ⟨e, s', r'', ?_, g2⟩
          rw [hst]
          conv => lhs; rw [hlen]
          rw [hsplit, Rd.bind_of_err g1]
    · right
      rw [h1]
      refine ⟨_, [], r', ?_, rfl⟩
      rw [streamOf_eq r hs, h2, h3]
      have := readN_fail [] (n - 1) k []
      rw [show ([] : List Byte).length + (n - 1 + 1) = n by simp; omega] at this
      simpa [ofBytes, endItems] using this

/-! ### Failing calls anywhere -/

/-- What a `read` of the underlying reader with a buffer of `size` bytes does to what it will deliver. -/
theorem read_chunks (r : Inner) (size : Nat) (hsz : 0 < size) :
    (∃ bs r', r.read size = (.ok bs, r') ∧ bs ≠ [] ∧
      chunks size r.sched r.data r.ending = ofBytes bs ++ chunks size r'.sched r'.data r'.ending) ∨
    (∃ r', r.read size = (.ok [], r') ∧ chunks size r.sched r.data r.ending = []) ∨
    (∃ k r' t, r.read size = (.err (.io k), r') ∧ chunks size r.sched r.data r.ending = .fail k :: t) := by
  obtain ⟨data, sched, ending⟩ := r
  have key : ∀ m s c, 0 < m → c = (if data = [] then endItems ending else ofBytes (data.take m) ++ chunks size s (data.drop m) ending) →
      (∃ bs r', (Inner.mk data sched ending).deliver m s = (.ok bs, r') ∧ bs ≠ [] ∧ c = ofBytes bs ++ chunks size r'.sched r'.data r'.ending) ∨
      (∃ r', (Inner.mk data sched ending).deliver m s = (.ok [], r') ∧ c = []) ∨
      (∃ k r' t, (Inner.mk data sched ending).deliver m s = (.err (.io k), r') ∧ c = .fail k :: t) := by
    intro m s c hm hc
    by_cases hd : data = []
    · subst hd
      rw [if_pos rfl] at hc
      cases ending with
      | none => right; left; exact ⟨_, by simp [Inner.deliver]; rfl, hc⟩
      | some e =>
        right; right
        refine ⟨e, _, [], by simp only [Inner.deliver]; rw [if_pos ⟨trivial, by omega⟩], hc⟩
    · rw [if_neg hd] at hc
      left
      have hne : data.take m ≠ [] := by
        intro h0
        rw [List.take_eq_nil_iff] at h0
        rcases h0 with h0 | h0
        · omega
        · exact hd h0
      cases ending with
      | none => exact ⟨_, _, rfl, hne, hc⟩
      | some e =>
        refine ⟨data.take m, ⟨data.drop m, s, some e⟩, ?_, hne, hc⟩
        simp only [Inner.deliver]
        rw [if_neg (by simp [hd])]
  unfold Inner.read
  cases sched with
  | nil =>
    refine key size [] _ hsz ?_
    simp only [chunks]
    split
    · rename_i hd; rw [hd]; rfl
    · rw [← List.append_assoc, ← ofBytes_append, List.take_append_drop]
  | cons x s =>
    cases x with
    | fail e => right; right; exact ⟨e, _, _, rfl, rfl⟩
    | bytes k => exact key _ s _ (by omega) rfl

/-- A `read` smaller than the buffer. -/
theorem bufRead_small (r : BufReader) (h : r.Inv) (n : Nat) (hn : 0 < n) (hb : n < r.buf.length) :
    (∃ out r', r.read n = (.ok out, r') ∧ r'.Inv ∧ r'.buf.length = r.buf.length ∧ out.length ≤ n ∧ out ≠ [] ∧ streamOf r = ofBytes out ++ streamOf r') ∨
    (∃ r', r.read n = (.ok [], r') ∧ streamOf r = []) ∨
    (∃ k r' t, r.read n = (.err (.io k), r') ∧ streamOf r = .fail k :: t) := by
  have hpos := h.pos
  have hcap := h.cap
  unfold BufReader.read
  rw [if_neg (by omega)]
  unfold BufReader.fillBuf
  have take_drop : ∀ (q : BufReader), q.Inv → ofBytes q.rem = ofBytes (q.rem.take n) ++ ofBytes ((q.consume (q.rem.take n).length).rem) := by
    intro q hq
    rw [← ofBytes_append]
    congr 1
    have h1 := hq.pos; have h2 := hq.cap
    have hrl := rem_length q hq
    unfold BufReader.consume BufReader.rem
    simp only [List.length_take]
    rw [show (min n (min (q.cap - q.pos) (q.buf.drop q.pos).length)) = min n (q.cap - q.pos) by simp; omega]
    rw [show min (q.pos + min n (q.cap - q.pos)) q.cap = q.pos + min n (q.cap - q.pos) by omega]
    rw [← List.drop_drop, ]
    have : ((q.buf.drop q.pos).drop (min n (q.cap - q.pos))).take (q.cap - (q.pos + min n (q.cap - q.pos))) =
        ((q.buf.drop q.pos).take (q.cap - q.pos)).drop (min n (q.cap - q.pos)) := by
      rw [List.drop_take]
      congr 1
      omega
    rw [this]
    rw [show ((q.buf.drop q.pos).take (q.cap - q.pos)).take n = ((q.buf.drop q.pos).take (q.cap - q.pos)).take (min n (q.cap - q.pos)) by
      rw [List.take_take, List.take_take]; congr 1; omega]
    rw [List.take_append_drop]
  have consume_inv : ∀ (q : BufReader) (a : Nat), q.Inv → (q.consume a).Inv := by
    intro q a hq
    exact ⟨by simp only [BufReader.consume]; omega, hq.cap, hq.ne⟩
  by_cases he : r.pos ≥ r.cap
  · rw [if_pos he, if_neg (by omega)]
    have hrem : r.rem = [] := rem_empty (by omega)
    have hst : streamOf r = chunks r.buf.length r.inner.sched r.inner.data r.inner.ending := by
      show ofBytes r.rem ++ _ = _
      rw [hrem]; rfl
    rcases read_chunks r.inner r.buf.length h.ne with ⟨bs, i, h1, h2, h3⟩ | ⟨i, h1, h2⟩ | ⟨k, i, t, h1, h2⟩
    · left
      have hlen : bs.length ≤ r.buf.length := by
        rcases r.inner.read_cases r.buf.length with ⟨bs', r', g1, _, g3, _⟩ | ⟨e, r', g1, _⟩
        · rw [h1] at g1; cases g1; exact g3
        · rw [h1] at g1; cases g1
      rw [h1]
      simp only
      have hq : BufReader.Inv ⟨i, overwrite r.buf 0 bs, 0, bs.length⟩ :=
        ⟨by simp, by simp only; rw [overwrite_length (by omega)]; exact hlen, by simp only; rw [overwrite_length (by omega)]; exact h.ne⟩
      have hqr : BufReader.rem ⟨i, overwrite r.buf 0 bs, 0, bs.length⟩ = bs := by
        unfold BufReader.rem
        have := overwrite_take (buf := r.buf) (bs := bs) (i := 0) (by omega)
        simpa using this
      have hsl := slice_rem hq
      simp only at hsl
      rw [hsl, hqr]
      simp only
      refine ⟨_, _, rfl, consume_inv _ _ hq, ?_, by simp; omega, ?_, ?_⟩
      · simp only [BufReader.consume]; exact overwrite_length (by omega)
      · intro h0
        rw [List.take_eq_nil_iff] at h0
        rcases h0 with h0 | h0
        · omega
        · exact h2 h0
      · rw [hst, h3]
        have := take_drop _ hq
        rw [hqr] at this
        rw [this, List.append_assoc]
        congr 1
        unfold streamOf
        simp only [BufReader.consume]
        rw [overwrite_length (by omega)]
        rfl
    · right; left
      rw [h1]
      simp only
      have : slice (overwrite r.buf 0 []) 0 ([] : List Byte).length = .ok [] := by simp [slice]
      rw [this]
      simp only [List.take_nil]
      exact ⟨_, rfl, by rw [hst, h2]⟩
    · right; right
      rw [h1]
      simp only
      exact ⟨k, _, t, rfl, by rw [hst, h2]⟩
  · left
    rw [if_neg he, slice_rem h]
    simp only
    refine ⟨_, _, rfl, consume_inv _ _ h, rfl, by simp; omega, ?_, ?_⟩
    · intro h0
      have hl := congrArg List.length h0
      rw [List.length_take, rem_length r h] at hl
      simp at hl
      omega
    · show ofBytes r.rem ++ _ = _
      rw [take_drop r h, List.append_assoc]
      rfl

theorem readN_append (m : Nat) (l : List Byte) (s : Stream) :
    readN (l.length + m) (ofBytes l ++ s) = Rd.bind (readN m) (fun bs => Rd.pure (l ++ bs)) s := by
  induction l with
  | nil =>
    simp only [List.length_nil, Nat.zero_add, ofBytes, List.map_nil, List.nil_append, Rd.bind, Rd.pure]
    rcases readN m s with ⟨_ | _ | _ | _, s'⟩ <;> rfl
  | cons x l ih =>
    rw [show (x :: l).length + m = (l.length + m) + 1 by simp; omega, readN]
    simp only [ofBytes_cons, List.cons_append, Rd.bind]
    rw [ih]
    simp only [Rd.bind, Rd.pure]
    rcases readN m s with ⟨_ | _ | _ | _, s'⟩ <;> rfl

/-- `read_exact` of less than the buffer size on a buffered reader is `readN` on `streamOf`, whatever calls of the underlying reader fail. -/
theorem bufReadExact_small : ∀ (fuel : Nat) (r : BufReader) (n : Nat) (acc : List Byte), n < fuel → r.Inv → n < r.buf.length →
    (∃ bs r', readN n (streamOf r) = (.ok bs, streamOf r') ∧ bufReadExact fuel r n acc = (.ok (acc ++ bs), r') ∧ r'.Inv ∧ r'.buf.length = r.buf.length) ∨
    (∃ e s' r', readN n (streamOf r) = (.err e, s') ∧ bufReadExact fuel r n acc = (.err e, r'))
  | 0, r, n, acc, hf, _, _ => by omega
  | fuel + 1, r, n, acc, hf, hi, hb => by
    unfold bufReadExact
    by_cases hn : n = 0
    · subst hn
      left
      exact ⟨[], r, rfl, by simp, hi, rfl⟩
    rw [if_neg hn]
    obtain ⟨m, rfl⟩ : ∃ m, n = m + 1 := ⟨n - 1, by omega⟩
    rcases bufRead_small r hi (m + 1) (by omega) hb with ⟨out, r', h1, h2, h3, h4, h5, h6⟩ | ⟨r', h1, h2⟩ | ⟨k, r', t, h1, h2⟩
    · rw [h1]
      cases out with
      | nil => exact absurd rfl h5
      | cons b out =>
        simp only
        have hlen : m + 1 = (b :: out).length + (m + 1 - (b :: out).length) := by omega
        rcases bufReadExact_small fuel r' (m + 1 - (b :: out).length) (acc ++ (b :: out)) (by simp only [List.length_cons] at *; omega) h2 (by omega) with
          ⟨bs, r'', g1, g2, g3, g4⟩ | ⟨e, s', r'', g1, g2⟩
        · left
          refine ⟨b :: out ++ bs, r'', ?_, by rw [g2]; simp, g3, by omega⟩
          rw [h6]
          conv => lhs; rw [hlen]
          rw [readN_append, Rd.bind_of_ok g1]; rfl
        · right
          refine ⟨e, s', r'', ?_, g2⟩
          rw [h6]
          conv => lhs; rw [hlen]
          rw [readN_append, Rd.bind_of_err g1]
    · right
      rw [h1, h2]
      exact ⟨_, [], r', rfl, rfl⟩
    · right
      rw [h1, h2]
      exact ⟨_, t, r', rfl, rfl⟩

/-- The bytes of a stream. -/
theorem chunks_bytes (size : Nat) (ending : Option IoKind) : ∀ (s : List ReadStep) (data : List Byte),
    bytesIn (chunks size s data ending) = data
  | [], data => by
    cases ending <;> simp [bytesIn, chunks, endItems, ofBytes, List.filterMap_append, List.filterMap_map, Function.comp_def]
  | .fail e :: s, data => by
    have := chunks_bytes size ending s data
    simpa [bytesIn, chunks] using this
  | .bytes k :: s, data => by
    rw [chunks]
    split
    · rename_i hd; subst hd; cases ending <;> simp [bytesIn, endItems]
    · have hb : ∀ l : List Byte, bytesIn (ofBytes l) = l := by
        intro l; simp [bytesIn, ofBytes, List.filterMap_map, Function.comp_def]
      have happ : ∀ a b : Stream, bytesIn (a ++ b) = bytesIn a ++ bytesIn b := fun a b => List.filterMap_append ..
      rw [happ, chunks_bytes, hb, List.take_append_drop]

theorem chunks_fails (size : Nat) (ending : Option IoKind) (e : IoKind) : ∀ (s : List ReadStep) (data : List Byte),
    Item.fail e ∈ chunks size s data ending → ReadStep.fail e ∈ s ∨ ending = some e
  | [], data, h => by
    cases ending <;> simp [chunks, endItems, ofBytes] at h ⊢
    exact h.symm
  | .fail e' :: s, data, h => by
    simp only [chunks, List.mem_cons, Item.fail.injEq] at h
    rcases h with rfl | h
    · simp
    · exact (chunks_fails size ending e s data h).imp (fun h => by simp [h]) id
  | .bytes k :: s, data, h => by
    rw [chunks] at h
    split at h
    · right
      cases ending <;> simp [endItems] at h
      exact congrArg some h.symm
    · rw [List.mem_append] at h
      rcases h with h | h
      · obtain ⟨b, _, hb⟩ := List.mem_map.1 h
        cases hb
      · exact (chunks_fails size ending e s _ h).imp (fun h => by simp [h]) id

theorem streamOf_bytes (r : BufReader) : bytesIn (streamOf r) = r.pending := by
  show bytesIn (ofBytes r.rem ++ _) = r.rem ++ r.inner.data
  rw [show ∀ a b : Stream, bytesIn (a ++ b) = bytesIn a ++ bytesIn b from fun a b => List.filterMap_append .., chunks_bytes]
  congr 1
  simp [bytesIn, ofBytes, List.filterMap_map, Function.comp_def]

theorem streamOf_fails (r : BufReader) (e : IoKind) (he : Item.fail e ∈ streamOf r) : CanFail r.inner e := by
  unfold streamOf at he
  rw [List.mem_append] at he
  rcases he with he | he
  · obtain ⟨b, _, hb⟩ := List.mem_map.1 he
    cases hb
  · exact chunks_fails _ _ _ _ _ he

end Chopper
