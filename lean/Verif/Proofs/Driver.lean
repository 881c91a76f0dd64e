import Verif.Spec.Driver

namespace Chopper
open Spec

/-! ## Row selection -/

theorem matchNextRow_cases (range : TimestampRange) (rows : List Row) (e : Ending) :
    (∃ r rest s', selected range rows = r :: rest ∧ matchNextRow range rows e = (.ok (some r), s') ∧
        selected range s'.rows = rest ∧ endingWithin range s' = endingWithin range ⟨rows, e⟩ ∧
        s'.rows.length < rows.length) ∨
    (selected range rows = [] ∧ ∃ s', 
      matchNextRow range rows e = (match endingWithin range ⟨rows, e⟩ with
        | .eof => (.ok none, s') | .fail x => (.err x, s') | .crash => (.panic, s'))) := by
  induction rows with
  | nil => 
    right; cases e <;> simp [selected, matchNextRow, endingWithin]
  | cons r rs ih =>
    have hf : filterDataRange range r.timestamp = 
        if beforeEnd range r.timestamp then (if notBefore range r.timestamp then .write else .skip) else .stop := by
      unfold filterDataRange beforeEnd notBefore
      cases range.endTs <;> cases range.beginTs <;> simp <;> grind [BitVec.not_lt, BitVec.not_le]
    by_cases hb : beforeEnd range r.timestamp = true
    · by_cases hn : notBefore range r.timestamp = true
      · left
        refine ⟨r, selected range rs, ⟨rs, e⟩, ?_, ?_, rfl, ?_, ?_⟩
        · simp [selected, hb, hn]
        · simp [matchNextRow, hf, hb, hn]
        · simp [endingWithin, hb]
        · simp
      · have h1 : selected range (r :: rs) = selected range rs := by simp [selected, hb, hn]
        have h2 : endingWithin range ⟨r :: rs, e⟩ = endingWithin range ⟨rs, e⟩ := by simp [endingWithin, hb]
        have h3 : matchNextRow range (r :: rs) e = matchNextRow range rs e := by simp [matchNextRow, hf, hb, hn]
        rw [h1, h2, h3]
        rcases ih with ⟨r', rest, s', a, b, c, d, f⟩ | ih
        · left; exact ⟨r', rest, s', a, b, c, d, by simp; omega⟩
        · right; exact ih
    · right
      refine ⟨by simp [selected, hb], ⟨rs, e⟩, ?_⟩
      simp [endingWithin, hb, matchNextRow, hf]

/-! ## Abstract buffers and runs -/

/-- An input as the driver sees it: its chain, its current row, the selected rows after it, how it ends. -/
structure ABuf where
  chain : ChainId
  head : Row
  rest : List Row
  ending : Ending

def Rel (range : TimestampRange) (b : RowBuffer) (a : ABuf) : Prop :=
  b.chain = a.chain ∧ b.row = some a.head ∧ b.timestamp = a.head.timestamp ∧
  selected range b.source.rows = a.rest ∧ endingWithin range b.source = a.ending

/-- The input at this position is the first one with the smallest current timestamp. -/
def IsMin (pre : List ABuf) (a : ABuf) (post : List ABuf) : Prop :=
  (∀ p ∈ pre, a.head.timestamp < p.head.timestamp) ∧ (∀ q ∈ post, a.head.timestamp ≤ q.head.timestamp)

inductive Run : List ABuf → List Call → Res Unit → Prop
  | nil : Run [] [] (.ok ())
  | next {pre post c h r rs e cs out} : IsMin pre ⟨c, h, r :: rs, e⟩ post →
      Run (pre ++ ⟨c, r, rs, e⟩ :: post) cs out → Run (pre ++ ⟨c, h, r :: rs, e⟩ :: post) (.feed c h :: cs) out
  | done {pre post c h cs out} : IsMin pre ⟨c, h, [], .eof⟩ post →
      Run (pre ++ post) cs out → Run (pre ++ ⟨c, h, [], .eof⟩ :: post) (.feed c h :: .flush c :: cs) out
  | fail {pre post c h e} : IsMin pre ⟨c, h, [], .fail e⟩ post →
      Run (pre ++ ⟨c, h, [], .fail e⟩ :: post) [.feed c h] (.err e)
  | crash {pre post c h} : IsMin pre ⟨c, h, [], .crash⟩ post →
      Run (pre ++ ⟨c, h, [], .crash⟩ :: post) [.feed c h] .panic

/-! ### The minimum -/

theorem minIndexFrom_spec (bufs : List RowBuffer) : ∀ (idx : Nat) (best : Nanos) (j : Nat),
    (minIndexFrom idx best j bufs = idx ∧ ∀ b ∈ bufs, best ≤ b.timestamp) ∨
    (∃ pre b post, bufs = pre ++ b :: post ∧ minIndexFrom idx best j bufs = j + pre.length ∧
      b.timestamp < best ∧ (∀ p ∈ pre, b.timestamp < p.timestamp) ∧ ∀ q ∈ post, b.timestamp ≤ q.timestamp) := by
  induction bufs with
  | nil => intros; left; simp [minIndexFrom]
  | cons b bs ih =>
    intro idx best j
    simp only [minIndexFrom]
    by_cases hlt : b.timestamp < best
    · simp only [hlt, if_true]
      rcases ih j b.timestamp (j + 1) with ⟨h1, h2⟩ | ⟨pre, b', post, h1, h2, h3, h4, h5⟩
      · right; exact ⟨[], b, bs, rfl, by simp [h1], hlt, by simp, h2⟩
      · right; refine ⟨b :: pre, b', post, by simp [h1], by rw [h2]; simp; omega, ?_, ?_, h5⟩
        · exact BitVec.lt_trans h3 hlt
        · intro p hp; rcases List.mem_cons.1 hp with rfl | hp
          · exact h3
          · exact h4 p hp
    · simp only [hlt, if_false]
      rcases ih idx best (j + 1) with ⟨h1, h2⟩ | ⟨pre, b', post, h1, h2, h3, h4, h5⟩
      · left; refine ⟨h1, ?_⟩
        intro p hp; rcases List.mem_cons.1 hp with rfl | hp
        · exact BitVec.not_lt.1 hlt
        · exact h2 p hp
      · right; refine ⟨b :: pre, b', post, by simp [h1], by rw [h2]; simp; omega, h3, ?_, h5⟩
        intro p hp; rcases List.mem_cons.1 hp with rfl | hp
        · have := BitVec.not_lt.1 hlt
          simp only [BitVec.lt_def, BitVec.le_def] at *; omega
        · exact h4 p hp

theorem nextBufferIndex_spec {bufs : List RowBuffer} (h : bufs ≠ []) :
    ∃ pre b post, bufs = pre ++ b :: post ∧ nextBufferIndex bufs = some pre.length ∧
      (∀ p ∈ pre, b.timestamp < p.timestamp) ∧ ∀ q ∈ post, b.timestamp ≤ q.timestamp := by
  cases bufs with
  | nil => exact absurd rfl h
  | cons b bs =>
    rcases minIndexFrom_spec bs 0 b.timestamp 1 with ⟨h1, h2⟩ | ⟨pre, b', post, h1, h2, h3, h4, h5⟩
    · exact ⟨[], b, bs, rfl, by simp [nextBufferIndex, h1], by simp, h2⟩
    · refine ⟨b :: pre, b', post, by simp [h1], by simp [nextBufferIndex, h2]; omega, ?_, h5⟩
      intro p hp; rcases List.mem_cons.1 hp with rfl | hp
      · exact h3
      · exact h4 p hp

/-! ### The loop refines `Run` -/

inductive Rels (range : TimestampRange) : List RowBuffer → List ABuf → Prop
  | nil : Rels range [] []
  | cons {b a bs as} : Rel range b a → Rels range bs as → Rels range (b :: bs) (a :: as)

theorem Rels.split {range pre b post as} (h : Rels range (pre ++ b :: post) as) :
    ∃ apre a apost, as = apre ++ a :: apost ∧ Rels range pre apre ∧ Rel range b a ∧ Rels range post apost ∧
      apre.length = pre.length := by
  induction pre generalizing as with
  | nil => cases h with | cons h1 h2 => exact ⟨[], _, _, rfl, .nil, h1, h2, rfl⟩
  | cons p pre ih =>
    cases h with
    | cons h1 h2 =>
      obtain ⟨apre, a, apost, rfl, x, y, z, w⟩ := ih h2
      exact ⟨_ :: apre, a, apost, rfl, .cons h1 x, y, z, by simp [w]⟩

theorem Rels.append {range as bs cs ds} (h : Rels range as bs) (h' : Rels range cs ds) : Rels range (as ++ cs) (bs ++ ds) := by
  induction h with
  | nil => exact h'
  | cons a _ ih => exact .cons a ih

theorem Rels.mem {range bs as} (h : Rels range bs as) {a} (ha : a ∈ as) : ∃ b ∈ bs, Rel range b a := by
  induction h with
  | nil => simp at ha
  | cons h1 _ ih =>
    rcases List.mem_cons.1 ha with rfl | ha
    · exact ⟨_, by simp, h1⟩
    · obtain ⟨b, x, y⟩ := ih ha; exact ⟨b, by simp [x], y⟩

def aweight (as : List ABuf) : Nat := (as.map (fun a => a.rest.length + 1)).sum

theorem driveLoop_run {G : Type} (process : ChainId → Row → G → G × Res Unit) (flush : ChainId → G → G × Res Unit)
    (range : TimestampRange) : ∀ (fuel : Nat) (bufs : List RowBuffer) (as : List ABuf), Rels range bufs as →
    aweight as ≤ fuel → ∃ cs out, Run as cs out ∧
      ∀ g, driveLoop process flush range fuel bufs g = perform process flush cs out g := by
  intro fuel
  induction fuel with
  | zero =>
    intro bufs as h hw
    cases h with
    | nil => exact ⟨[], _, .nil, fun g => rfl⟩
    | cons _ _ => simp [aweight] at hw
  | succ fuel ih =>
    intro bufs as h hw
    by_cases hne : bufs = []
    · subst hne; cases h
      exact ⟨[], _, .nil, fun g => by simp [driveLoop, nextBufferIndex, perform]⟩
    · obtain ⟨pre, b, post, rfl, hi, hpre, hpost⟩ := nextBufferIndex_spec hne
      obtain ⟨apre, a, apost, rfl, rpre, rb, rpost, hlen⟩ := h.split
      obtain ⟨hc, hrow, hts, hsel, hend⟩ := rb
      have hmin : IsMin apre a apost := by
        constructor
        · intro p hp; obtain ⟨q, hq, r⟩ := rpre.mem hp
          have := hpre q hq; rw [hts, r.2.2.1] at this; exact this
        · intro p hp; obtain ⟨q, hq, r⟩ := rpost.mem hp
          have := hpost q hq; rw [hts, r.2.2.1] at this; exact this
      have hget : (pre ++ b :: post)[pre.length]? = some b := by simp
      have hstep : ∀ g, driveLoop process flush range (fuel + 1) (pre ++ b :: post) g =
          match process a.chain a.head g with
          | (g', .ok ()) =>
            match b.hasNext range with
            | (.ok true, b') => driveLoop process flush range fuel (pre ++ b' :: post) g'
            | (.ok false, _) =>
              match flush a.chain g' with
              | (g'', .ok ()) => driveLoop process flush range fuel (pre ++ post) g''
              | (g'', r) => (g'', r)
            | (.err e, _) => (g', .err e)
            | (.panic, _) => (g', .panic)
            | (.diverge, _) => (g', .diverge)
          | (g', r) => (g', r) := by
        intro g
        rw [driveLoop, hi]
        simp only [hget, hrow, hc]
        have e2 : (pre ++ b :: post).eraseIdx pre.length = pre ++ post := by simp [List.eraseIdx_append]
        simp only [e2, List.set_append_right _ _ (Nat.le_refl _), Nat.sub_self, List.set_cons_zero]
        rcases process a.chain a.head g with ⟨g', _ | _ | _ | _⟩
        · rcases b.hasNext range with ⟨_ | _ | _ | _, _⟩
          · rename_i x _; cases x <;> first | rfl | (rcases flush a.chain g' with ⟨g'', _ | _ | _ | _⟩ <;> rfl)
          all_goals rfl
        all_goals rfl
      obtain ⟨c, hd, rest, ending⟩ := a
      simp only at hc hrow hts hsel hend hstep
      rcases matchNextRow_cases range b.source.rows b.source.ending with
        ⟨r, rs, s', h1, h2, h3, h4, _⟩ | ⟨h1, s', h2⟩
      · have hn : b.hasNext range = (.ok true, { b with source := s', timestamp := r.timestamp, row := some r }) := by
          simp [RowBuffer.hasNext, h2]
        rw [hsel] at h1; subst h1
        have hR : Rels range (pre ++ { b with source := s', timestamp := r.timestamp, row := some r } :: post)
            (apre ++ ⟨c, r, rs, ending⟩ :: apost) := 
          rpre.append (.cons ⟨hc, rfl, rfl, h3, by rw [h4]; exact hend⟩ rpost)
        have hw' : aweight (apre ++ ⟨c, r, rs, ending⟩ :: apost) ≤ fuel := by
          simp [aweight] at hw ⊢; omega
        obtain ⟨cs, out, hrun, hex⟩ := ih _ _ hR hw'
        refine ⟨_, out, .next hmin hrun, ?_⟩
        intro g; rw [hstep g, hn]; simp only [perform, hex]
        cases process c hd g with | mk g' r => cases r <;> rfl
      · rw [hsel] at h1; subst h1
        have hE : endingWithin range ⟨b.source.rows, b.source.ending⟩ = ending := hend
        rw [hE] at h2
        cases ending with
        | eof =>
          have hn : b.hasNext range = (.ok false, { b with source := s' }) := by
            simp [RowBuffer.hasNext, h2]
          have hw' : aweight (apre ++ apost) ≤ fuel := by
            simp [aweight] at hw ⊢; omega
          obtain ⟨cs, out, hrun, hex⟩ := ih _ _ (rpre.append rpost) hw'
          refine ⟨_, out, .done hmin hrun, ?_⟩
          intro g; rw [hstep g, hn]; simp only [perform, hex]
          cases process c hd g with
          | mk g' r => cases r <;> simp
                       rename_i u
                       cases flush c g' with | mk g'' r => cases r <;> rfl
        | fail e =>
          have hn : b.hasNext range = (.err e, { b with source := s' }) := by
            simp [RowBuffer.hasNext, h2]
          refine ⟨_, _, .fail hmin, ?_⟩
          intro g; rw [hstep g, hn]; simp only [perform]
          cases process c hd g with | mk g' r => cases r <;> rfl
        | crash =>
          have hn : b.hasNext range = (.panic, { b with source := s' }) := by
            simp [RowBuffer.hasNext, h2]
          refine ⟨_, _, .crash hmin, ?_⟩
          intro g; rw [hstep g, hn]; simp only [perform]
          cases process c hd g with | mk g' r => cases r <;> rfl

end Chopper
