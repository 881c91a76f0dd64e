import Verif.Proofs.Driver5

namespace Chopper
open Spec

/-- `s` is `s'` cut off: the same rows as far as they go, then a failure. -/
def Cut (s s' : Source) : Prop := s = s' ∨ (s.ending ≠ .eof ∧ ∃ more, s'.rows = s.rows ++ more)

theorem Cut.next {range : TimestampRange} {s s' : Source} (h : Cut s s') :
    (∃ x t t', matchNextRow range s.rows s.ending = (.ok x, t) ∧ matchNextRow range s'.rows s'.ending = (.ok x, t') ∧ Cut t t') ∨
    (∀ x t, matchNextRow range s.rows s.ending ≠ (.ok x, t)) := by
  rcases h with rfl | ⟨he, more, hm⟩
  · rcases hr : matchNextRow range s.rows s.ending with ⟨x | _ | _ | _, t⟩
    · exact .inl ⟨x, t, t, rfl, rfl, .inl rfl⟩
    all_goals exact .inr (by simp)
  · rcases s with ⟨rows, e⟩
    rcases s' with ⟨rows', e'⟩
    simp only at he hm ⊢
    subst hm
    induction rows with
    | nil =>
      right
      cases e with
      | eof => exact absurd rfl he
      | _ => simp [matchNextRow]
    | cons r rows ih =>
      simp only [List.cons_append, matchNextRow]
      cases filterDataRange range r.timestamp with
      | stop => exact .inl ⟨_, _, _, rfl, rfl, .inr ⟨he, more, rfl⟩⟩
      | write => exact .inl ⟨_, _, _, rfl, rfl, .inr ⟨he, more, rfl⟩⟩
      | skip => exact ih

/-- Buffers in the same situation, the sources related by `P`. -/
structure BRel (P : Source → Source → Prop) (b b' : RowBuffer) : Prop where
  source : P b.source b'.source
  chain : b.chain = b'.chain
  timestamp : b.timestamp = b'.timestamp
  row : b.row = b'.row

inductive BRels (P : Source → Source → Prop) : List RowBuffer → List RowBuffer → Prop
  | nil : BRels P [] []
  | cons {b b' bs bs'} : BRel P b b' → BRels P bs bs' → BRels P (b :: bs) (b' :: bs')

variable {P : Source → Source → Prop}

theorem BRels.index {bs bs' : List RowBuffer} (h : BRels P bs bs') : nextBufferIndex bs = nextBufferIndex bs' := by
  have aux : ∀ {bs bs'} (_ : BRels P bs bs') i t j, minIndexFrom i t j bs = minIndexFrom i t j bs' := by
    intro bs bs' h
    induction h with
    | nil => intros; rfl
    | cons hb _ ih => intro i t j; simp only [minIndexFrom, hb.timestamp, ih]
  cases h with
  | nil => rfl
  | cons hb h => simp only [nextBufferIndex, hb.timestamp, aux h]

theorem BRels.get {bs bs' : List RowBuffer} (h : BRels P bs bs') : ∀ (i : Nat),
    (bs[i]? = none ∧ bs'[i]? = none) ∨ ∃ b b', bs[i]? = some b ∧ bs'[i]? = some b' ∧ BRel P b b' := by
  induction h with
  | nil => intro i; simp
  | cons hb _ ih =>
    intro i
    cases i with
    | zero => exact .inr ⟨_, _, rfl, rfl, hb⟩
    | succ i => simpa using ih i

theorem BRels.set {bs bs' : List RowBuffer} (h : BRels P bs bs') {b b' : RowBuffer} (hb : BRel P b b') : ∀ (i : Nat), BRels P (bs.set i b) (bs'.set i b') := by
  induction h with
  | nil => intro i; exact .nil
  | cons hc h' ih =>
    intro i
    cases i with
    | zero => exact .cons hb h'
    | succ i => exact .cons hc (ih i)

theorem BRels.erase {bs bs' : List RowBuffer} (h : BRels P bs bs') : ∀ (i : Nat), BRels P (bs.eraseIdx i) (bs'.eraseIdx i) := by
  induction h with
  | nil => intro i; exact .nil
  | cons hc h' ih =>
    intro i
    cases i with
    | zero => exact h'
    | succ i => exact .cons hc (ih i)

abbrev recLoop (range : TimestampRange) (fuel : Nat) (bufs : List RowBuffer) (l : List Call) : List Call × Res Unit :=
  driveLoop (fun c r l => (l ++ [Call.feed c r], .ok ())) (fun c l => (l ++ [.flush c], .ok ())) range fuel bufs l

theorem driveLoop_cut (range : TimestampRange) : ∀ (fuel : Nat) (bs bs' : List RowBuffer), BRels Cut bs bs' → ∀ (l : List Call),
    (recLoop range fuel bs l).1 <+: (recLoop range fuel bs' l).1 := by
  intro fuel
  induction fuel with
  | zero => intro bs bs' h l; cases h <;> simp [recLoop, driveLoop]
  | succ fuel ih =>
    intro bs bs' h l
    unfold recLoop
    rw [driveLoop, driveLoop, h.index]
    cases hi : nextBufferIndex bs' with
    | none => simp
    | some i =>
      simp only
      rcases h.get i with ⟨h1, h2⟩ | ⟨b, b', h1, h2, hb⟩
      · simp [h1, h2]
      · simp only [h1, h2, hb.row, hb.chain]
        cases hr : b'.row with
        | none => simp
        | some row =>
          simp only [RowBuffer.hasNext]
          rcases hb.source.next (range := range) with ⟨x, t, t', m1, m2, hc⟩ | hno
          · simp only [m1, m2]
            cases x with
            | none => exact ih _ _ (h.erase i) _
            | some r =>
              have hnew : BRel Cut { b with source := t, timestamp := r.timestamp, row := some r } { b' with source := t', timestamp := r.timestamp, row := some r } :=
                ⟨hc, hb.chain, rfl, rfl⟩
              exact ih _ _ (h.set hnew i) _
          · rcases m1 : matchNextRow range b.source.rows b.source.ending with ⟨x | _ | _ | _, t⟩
            · exact absurd m1 (hno x t)
            all_goals
              simp only
              rcases m2 : matchNextRow range b'.source.rows b'.source.ending with ⟨(_ | r) | _ | _ | _, t'⟩
              · exact List.IsPrefix.trans (List.prefix_append _ [.flush b'.chain]) (driveLoop_log_ext range fuel _ _)
              · exact driveLoop_log_ext range fuel _ _
              all_goals exact List.prefix_refl _

/-- Sources related one by one. -/
inductive Pointwise (P : Source → Source → Prop) : List Source → List Source → Prop
  | nil : Pointwise P [] []
  | cons {s s' ss ss'} : P s s' → Pointwise P ss ss' → Pointwise P (s :: ss) (s' :: ss')

theorem Pointwise.snoc {ss ss' : List Source} (h : Pointwise P ss ss') {s s' : Source} (hs : P s s') : Pointwise P (ss ++ [s]) (ss' ++ [s']) := by
  induction h with
  | nil => exact .cons hs .nil
  | cons h _ ih => exact .cons h ih

theorem Pointwise.reverse {ss ss' : List Source} (h : Pointwise P ss ss') : Pointwise P ss.reverse ss'.reverse := by
  induction h with
  | nil => exact .nil
  | cons h _ ih => simpa using ih.snoc h

theorem buffers_cut (range : TimestampRange) {ss ss' : List Source} (h : Pointwise Cut ss ss') : ∀ (i : Nat) (bs : List RowBuffer),
    getRowBuffersFrom range i ss = .ok bs → ∃ bs', getRowBuffersFrom range i ss' = .ok bs' ∧ BRels Cut bs bs' := by
  induction h with
  | nil => intro i bs hb; simp [getRowBuffersFrom] at hb; subst hb; exact ⟨[], rfl, .nil⟩
  | @cons s s' ss ss' hs _ ih =>
    intro i bs hb
    simp only [getRowBuffersFrom, Res.bind_eq, Res.pure_eq, Res.bind_eq_ok] at hb ⊢
    obtain ⟨b, hb, bs1, hbs, heq⟩ := hb
    simp only [Res.ok.injEq] at heq; subst heq
    obtain ⟨bs1', h1, h2⟩ := ih (i + 1) bs1 hbs
    rcases hs.next (range := range) with ⟨x, t, t', m1, m2, hc⟩ | hno
    · cases x with
      | none =>
        simp only [RowBuffer.new, m1, Res.ok.injEq] at hb
        subst hb
        exact ⟨_, ⟨⟨t', i, 0, none⟩, by simp only [RowBuffer.new, m2], bs1', h1, rfl⟩, .cons ⟨hc, rfl, rfl, rfl⟩ h2⟩
      | some r =>
        simp only [RowBuffer.new, m1, Res.ok.injEq] at hb
        subst hb
        exact ⟨_, ⟨⟨t', i, r.timestamp, some r⟩, by simp only [RowBuffer.new, m2], bs1', h1, rfl⟩, .cons ⟨hc, rfl, rfl, rfl⟩ h2⟩
    · rcases m1 : matchNextRow range s.rows s.ending with ⟨x | _ | _ | _, t⟩
      · exact absurd m1 (hno x t)
      all_goals simp [RowBuffer.new, m1] at hb

theorem calls_cut (range : TimestampRange) (fuel : Nat) {ss ss' : List Source} (h : Pointwise Cut ss ss') :
    (calls range fuel ss).1 <+: (calls range fuel ss').1 := by
  unfold calls drive
  cases hb : getRowBuffers range ss with
  | ok bufs =>
    unfold getRowBuffers at hb ⊢
    obtain ⟨bs', h1, h2⟩ := buffers_cut range h.reverse 0 bufs hb
    rw [h1]
    exact driveLoop_cut range fuel bufs bs' h2 []
  | _ => exact List.nil_prefix

/-! ### rows behind the end of the range do not matter -/

/-- The same rows up to a row at or after the end of the range. -/
def SameUpToEnd (range : TimestampRange) (s s' : Source) : Prop :=
  s = s' ∨ ∃ pre r more more', s.rows = pre ++ r :: more ∧ s'.rows = pre ++ r :: more' ∧ beforeEnd range r.timestamp = false

theorem SameUpToEnd.next {range : TimestampRange} {s s' : Source} (h : SameUpToEnd range s s') :
    ∃ x t t', matchNextRow range s.rows s.ending = (x, t) ∧ matchNextRow range s'.rows s'.ending = (x, t') ∧ (SameUpToEnd range t t' ∨ x = .ok none) := by
  rcases h with rfl | ⟨pre, r, more, more', h1, h2, hr⟩
  · exact ⟨_, _, _, rfl, rfl, .inl (.inl rfl)⟩
  · rcases s with ⟨rows, e⟩
    rcases s' with ⟨rows', e'⟩
    simp only at h1 h2 ⊢
    subst h1 h2
    have hstop : filterDataRange range r.timestamp = .stop := by
      unfold beforeEnd at hr
      unfold filterDataRange
      cases he : range.endTs with
      | none => simp [he] at hr
      | some x =>
        simp only [he, decide_eq_false_iff_not] at hr
        simp only
        rw [if_pos (by simp only [BitVec.lt_def, BitVec.le_def] at *; omega)]
    induction pre with
    | nil => simp only [List.nil_append, matchNextRow, hstop]; exact ⟨_, _, _, rfl, rfl, .inr rfl⟩
    | cons p pre ih =>
      simp only [List.cons_append, matchNextRow]
      cases filterDataRange range p.timestamp with
      | stop => exact ⟨_, _, _, rfl, rfl, .inr rfl⟩
      | write => exact ⟨_, _, _, rfl, rfl, .inl (.inr ⟨pre, r, more, more', rfl, rfl, hr⟩)⟩
      | skip => exact ih

theorem driveLoop_sameEnd (range : TimestampRange) : ∀ (fuel : Nat) (bs bs' : List RowBuffer),
    BRels (fun _ _ => True) bs bs' → (∀ i : Nat, ∀ b b' : RowBuffer, bs[i]? = some b → bs'[i]? = some b' → b.row ≠ none → SameUpToEnd range b.source b'.source) →
    ∀ (l : List Call), recLoop range fuel bs l = recLoop range fuel bs' l := by
  intro fuel
  induction fuel with
  | zero => intro bs bs' h _ l; cases h <;> simp [recLoop, driveLoop]
  | succ fuel ih =>
    intro bs bs' h hs l
    unfold recLoop
    rw [driveLoop, driveLoop, h.index]
    cases hi : nextBufferIndex bs' with
    | none => rfl
    | some i =>
      simp only
      rcases h.get i with ⟨h1, h2⟩ | ⟨b, b', h1, h2, hb⟩
      · simp [h1, h2]
      · simp only [h1, h2, hb.row, hb.chain]
        cases hr : b'.row with
        | none => rfl
        | some row =>
          simp only [RowBuffer.hasNext]
          obtain ⟨x, t, t', m1, m2, hc⟩ := (hs i b b' h1 h2 (by rw [hb.row, hr]; simp)).next
          simp only [m1, m2]
          rcases x with (_ | r) | _ | _ | _
          · refine ih _ _ (h.erase i) ?_ _
            intro j c c' hj hj' hne
            rw [List.getElem?_eraseIdx] at hj hj'
            by_cases hji : j < i
            · rw [if_pos hji] at hj hj'; exact hs j c c' hj hj' hne
            · rw [if_neg hji] at hj hj'; exact hs (j + 1) c c' hj hj' hne
          · have hnew : BRel (fun _ _ => True) { b with source := t, timestamp := r.timestamp, row := some r } { b' with source := t', timestamp := r.timestamp, row := some r } :=
              ⟨trivial, hb.chain, rfl, rfl⟩
            refine ih _ _ (h.set hnew i) ?_ _
            intro j c c' hj hj' hne
            by_cases hji : i = j
            · subst hji
              have l1 := (List.getElem?_eq_some_iff.1 h1).1
              have l2 := (List.getElem?_eq_some_iff.1 h2).1
              rw [List.getElem?_set_self l1] at hj
              rw [List.getElem?_set_self l2] at hj'
              cases hj; cases hj'
              exact hc.resolve_right (by simp)
            · rw [List.getElem?_set_ne hji] at hj hj'; exact hs j c c' hj hj' hne
          · rfl
          · rfl
          · rfl

theorem buffers_sameEnd (range : TimestampRange) {ss ss' : List Source} (h : Pointwise (SameUpToEnd range) ss ss') : ∀ (i : Nat),
    (∃ bs bs', getRowBuffersFrom range i ss = .ok bs ∧ getRowBuffersFrom range i ss' = .ok bs' ∧ BRels (fun _ _ => True) bs bs' ∧
      ∀ j : Nat, ∀ b b' : RowBuffer, bs[j]? = some b → bs'[j]? = some b' → b.row ≠ none → SameUpToEnd range b.source b'.source) ∨
    (getRowBuffersFrom range i ss = getRowBuffersFrom range i ss' ∧ ∀ bs, getRowBuffersFrom range i ss ≠ .ok bs) := by
  induction h with
  | nil => intro i; exact .inl ⟨[], [], rfl, rfl, .nil, by simp⟩
  | @cons s s' ss ss' hs _ ih =>
    intro i
    simp only [getRowBuffersFrom, Res.bind_eq, Res.pure_eq]
    obtain ⟨x, t, t', m1, m2, hc⟩ := hs.next
    have key : ∀ b b' : RowBuffer, RowBuffer.new s i range = .ok b → RowBuffer.new s' i range = .ok b' → BRel (fun _ _ => True) b b' →
        (b.row ≠ none → SameUpToEnd range b.source b'.source) →
        (∃ bs bs', ((RowBuffer.new s i range).bind fun b => (getRowBuffersFrom range (i + 1) ss).bind fun bs => .ok (b :: bs)) = .ok bs ∧
          ((RowBuffer.new s' i range).bind fun b => (getRowBuffersFrom range (i + 1) ss').bind fun bs => .ok (b :: bs)) = .ok bs' ∧ BRels (fun _ _ => True) bs bs' ∧
          ∀ j : Nat, ∀ b b' : RowBuffer, bs[j]? = some b → bs'[j]? = some b' → b.row ≠ none → SameUpToEnd range b.source b'.source) ∨
        (((RowBuffer.new s i range).bind fun b => (getRowBuffersFrom range (i + 1) ss).bind fun bs => .ok (b :: bs)) =
          ((RowBuffer.new s' i range).bind fun b => (getRowBuffersFrom range (i + 1) ss').bind fun bs => .ok (b :: bs)) ∧
         ∀ bs, ((RowBuffer.new s i range).bind fun b => (getRowBuffersFrom range (i + 1) ss).bind fun bs => .ok (b :: bs)) ≠ .ok bs) := by
      intro b b' hb hb' hrel hsame
      simp only [hb, hb', Res.bind]
      rcases ih (i + 1) with ⟨bs, bs', e1, e2, e3, e4⟩ | ⟨e1, e2⟩
      · left
        refine ⟨b :: bs, b' :: bs', by simp [e1], by simp [e2], .cons hrel e3, ?_⟩
        intro j c c' hj hj' hne
        cases j with
        | zero => simp at hj hj'; subst hj hj'; exact hsame hne
        | succ j => exact e4 j c c' (by simpa using hj) (by simpa using hj') hne
      · right
        rw [← e1]
        rcases hg : getRowBuffersFrom range (i + 1) ss with bs | _ | _ | _
        · exact absurd hg (e2 bs)
        all_goals simp
    rcases x with (_ | r) | _ | _ | _
    · exact key ⟨t, i, 0, none⟩ ⟨t', i, 0, none⟩ (by simp only [RowBuffer.new, m1]) (by simp only [RowBuffer.new, m2]) ⟨trivial, rfl, rfl, rfl⟩ (by simp)
    · exact key ⟨t, i, r.timestamp, some r⟩ ⟨t', i, r.timestamp, some r⟩ (by simp only [RowBuffer.new, m1]) (by simp only [RowBuffer.new, m2])
        ⟨trivial, rfl, rfl, rfl⟩ (fun _ => hc.resolve_right (by simp))
    all_goals
      right
      simp [RowBuffer.new, m1, m2, Res.bind]

theorem calls_sameEnd (range : TimestampRange) (fuel : Nat) {ss ss' : List Source} (h : Pointwise (SameUpToEnd range) ss ss') :
    calls range fuel ss = calls range fuel ss' := by
  unfold calls drive getRowBuffers
  rcases buffers_sameEnd range h.reverse 0 with ⟨bs, bs', e1, e2, e3, e4⟩ | ⟨e1, e2⟩
  · rw [e1, e2]
    exact driveLoop_sameEnd range fuel bs bs' e3 e4 []
  · rw [e1]

end Chopper
