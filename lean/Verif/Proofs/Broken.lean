import Verif.Spec.Broken
import Verif.Proofs.Driver5

/-! # The driver with inputs that break off -/
namespace Chopper
open Spec

theorem matchNextRow_broken (range : TimestampRange) (e' e : Ending) (he : e' ≠ .eof) : ∀ (rows' rows : List Row), rows' <+: rows →
    ∀ x s', matchNextRow range rows' e' = (.ok x, s') → ∃ s, matchNextRow range rows e = (.ok x, s) ∧ s'.rows <+: s.rows ∧ s'.ending = e' ∧ s.ending = e
  | [], rows, _, x, s', h => by
    cases e' with
    | eof => exact absurd rfl he
    | fail _ => simp [matchNextRow] at h
    | crash => simp [matchNextRow] at h
  | r :: rs', rows, hp, x, s', h => by
    obtain ⟨t, rfl⟩ := hp
    simp only [matchNextRow, List.cons_append] at h ⊢
    cases hf : filterDataRange range r.timestamp with
    | stop =>
      simp only [hf, Prod.mk.injEq] at h ⊢
      obtain ⟨h1, rfl⟩ := h
      exact ⟨_, ⟨h1, rfl⟩, List.prefix_append _ _, rfl, rfl⟩
    | write =>
      simp only [hf, Prod.mk.injEq] at h ⊢
      obtain ⟨h1, rfl⟩ := h
      exact ⟨_, ⟨h1, rfl⟩, List.prefix_append _ _, rfl, rfl⟩
    | skip =>
      simp only [hf] at h ⊢
      exact matchNextRow_broken range e' e he rs' (rs' ++ t) (List.prefix_append _ _) x s' h

theorem next_broken {range : TimestampRange} {part whole : Source} (h : BreaksOff part whole) {x : Option Row} {s' : Source}
    (hm : matchNextRow range part.rows part.ending = (.ok x, s')) : ∃ s, matchNextRow range whole.rows whole.ending = (.ok x, s) ∧ BreaksOff s' s := by
  rcases h with rfl | ⟨h1, h2⟩
  · exact ⟨s', hm, .inl rfl⟩
  · obtain ⟨s, h3, h4, h5, _⟩ := matchNextRow_broken range part.ending whole.ending h2 _ _ h1 x s' hm
    exact ⟨s, h3, .inr ⟨h4, by rw [h5]; exact h2⟩⟩

/-- The same buffer over an input that breaks off. -/
structure BufBroken (b' b : RowBuffer) : Prop where
  source : BreaksOff b'.source b.source
  chain : b'.chain = b.chain
  timestamp : b'.timestamp = b.timestamp
  row : b'.row = b.row

inductive BufsBroken : List RowBuffer → List RowBuffer → Prop
  | nil : BufsBroken [] []
  | cons {b' b bs' bs} : BufBroken b' b → BufsBroken bs' bs → BufsBroken (b' :: bs') (b :: bs)

theorem BufsBroken.get {bs' bs : List RowBuffer} (h : BufsBroken bs' bs) (i : Nat) :
    (bs'[i]? = none ∧ bs[i]? = none) ∨ ∃ b' b, bs'[i]? = some b' ∧ bs[i]? = some b ∧ BufBroken b' b := by
  induction h generalizing i with
  | nil => simp
  | cons h1 _ ih =>
    cases i with
    | zero => exact .inr ⟨_, _, rfl, rfl, h1⟩
    | succ i => simpa using ih i

theorem BufsBroken.set {bs' bs : List RowBuffer} (h : BufsBroken bs' bs) {x' x : RowBuffer} (hx : BufBroken x' x) (i : Nat) : BufsBroken (bs'.set i x') (bs.set i x) := by
  induction h generalizing i with
  | nil => exact .nil
  | cons h1 h2 ih =>
    cases i with
    | zero => exact .cons hx h2
    | succ i => exact .cons h1 (ih i)

theorem BufsBroken.erase {bs' bs : List RowBuffer} (h : BufsBroken bs' bs) (i : Nat) : BufsBroken (bs'.eraseIdx i) (bs.eraseIdx i) := by
  induction h generalizing i with
  | nil => exact .nil
  | cons h1 h2 ih =>
    cases i with
    | zero => exact h2
    | succ i => exact .cons h1 (ih i)

theorem BufsBroken.index {bs' bs : List RowBuffer} (h : BufsBroken bs' bs) : nextBufferIndex bs' = nextBufferIndex bs := by
  have aux : ∀ {bs' bs : List RowBuffer}, BufsBroken bs' bs → ∀ i t j, minIndexFrom i t j bs' = minIndexFrom i t j bs := by
    intro bs' bs h
    induction h with
    | nil => intros; rfl
    | cons h1 _ ih => intro i t j; simp only [minIndexFrom, ih, h1.timestamp]
  cases h with
  | nil => rfl
  | cons h1 h2 => simp only [nextBufferIndex, aux h2, h1.timestamp]

theorem driveLoop_broken (range : TimestampRange) : ∀ (fuel : Nat) (bufs' bufs : List RowBuffer) (l : List Call), BufsBroken bufs' bufs →
    (driveLoop (fun c r l => (l ++ [Call.feed c r], .ok ())) (fun c l => (l ++ [.flush c], .ok ())) range fuel bufs' l).1 <+:
      (driveLoop (fun c r l => (l ++ [Call.feed c r], .ok ())) (fun c l => (l ++ [.flush c], .ok ())) range fuel bufs l).1 ∧
    ((driveLoop (fun c r l => (l ++ [Call.feed c r], .ok ())) (fun c l => (l ++ [.flush c], .ok ())) range fuel bufs' l).2 = .ok () →
      driveLoop (fun c r l => (l ++ [Call.feed c r], .ok ())) (fun c l => (l ++ [.flush c], .ok ())) range fuel bufs' l =
        driveLoop (fun c r l => (l ++ [Call.feed c r], .ok ())) (fun c l => (l ++ [.flush c], .ok ())) range fuel bufs l) := by
  intro fuel
  induction fuel with
  | zero => intro bufs' bufs l h; cases h <;> simp [driveLoop]
  | succ fuel ih =>
    intro bufs' bufs l h
    rw [driveLoop, driveLoop, h.index]
    cases hi : nextBufferIndex bufs with
    | none => simp
    | some i =>
      simp only
      rcases h.get i with ⟨h1, h2⟩ | ⟨b', b, h1, h2, hb⟩
      · simp [h1, h2]
      · simp only [h1, h2, hb.row, hb.chain]
        cases hr : b.row with
        | none => simp
        | some row =>
          simp only []
          rcases e3 : matchNextRow range b'.source.rows b'.source.ending with ⟨(_ | r) | _ | _ | _, s'⟩
          · obtain ⟨s, e4, e5⟩ := next_broken hb.source e3
            simp only [RowBuffer.hasNext, e3, e4]
            exact ih _ _ _ (h.erase i)
          · obtain ⟨s, e4, e5⟩ := next_broken hb.source e3
            simp only [RowBuffer.hasNext, e3, e4]
            refine ih _ _ _ (h.set ?_ i)
            exact ⟨e5, hb.chain, rfl, rfl⟩
          all_goals
            simp only [RowBuffer.hasNext, e3, reduceCtorEq, false_implies, and_true]
            rcases e6 : matchNextRow range b.source.rows b.source.ending with ⟨(_ | r) | _ | _ | _, s''⟩ <;> simp only [List.prefix_refl]
            · exact (List.prefix_append _ [.flush b.chain]).trans (driveLoop_log_ext range fuel _ _)
            · exact driveLoop_log_ext range fuel _ _

theorem new_broken {range : TimestampRange} {part whole : Source} (h : BreaksOff part whole) {i : Nat} {b' : RowBuffer} (hn : RowBuffer.new part i range = .ok b') :
    ∃ b, RowBuffer.new whole i range = .ok b ∧ BufBroken b' b := by
  rcases e3 : matchNextRow range part.rows part.ending with ⟨(_ | r) | _ | _ | _, s'⟩ <;>
    simp only [RowBuffer.new, e3, Res.ok.injEq, reduceCtorEq] at hn
  all_goals
    subst hn
    obtain ⟨s, e4, e5⟩ := next_broken h e3
    simp only [RowBuffer.new, e4]
    exact ⟨_, rfl, e5, rfl, rfl, rfl⟩

/-- Inputs of which any may break off. -/
inductive SourcesBroken : List Source → List Source → Prop
  | nil : SourcesBroken [] []
  | cons {s' s ss' ss} : BreaksOff s' s → SourcesBroken ss' ss → SourcesBroken (s' :: ss') (s :: ss)

theorem buffers_broken {range : TimestampRange} {ss' ss : List Source} (h : SourcesBroken ss' ss) : ∀ (i : Nat) (bufs' : List RowBuffer),
    getRowBuffersFrom range i ss' = .ok bufs' → ∃ bufs, getRowBuffersFrom range i ss = .ok bufs ∧ BufsBroken bufs' bufs := by
  induction h with
  | nil => intro i bufs' h; simp [getRowBuffersFrom] at h; subst h; exact ⟨[], rfl, .nil⟩
  | cons h1 _ ih =>
    intro i bufs' h
    simp only [getRowBuffersFrom, Res.bind_eq, Res.pure_eq, Res.bind_eq_ok] at h
    obtain ⟨b', hb, bs', hbs, heq⟩ := h
    simp only [Res.ok.injEq] at heq; subst heq
    obtain ⟨b, hn, hbb⟩ := new_broken h1 hb
    obtain ⟨bs, hns, hbbs⟩ := ih _ _ hbs
    exact ⟨b :: bs, by simp [getRowBuffersFrom, hn, hns], .cons hbb hbbs⟩

theorem SourcesBroken.append {a' a b' b : List Source} (h : SourcesBroken a' a) (h2 : SourcesBroken b' b) : SourcesBroken (a' ++ b') (a ++ b) := by
  induction h with
  | nil => exact h2
  | cons h1 _ ih => exact .cons h1 ih

theorem SourcesBroken.reverse {ss' ss : List Source} (h : SourcesBroken ss' ss) : SourcesBroken ss'.reverse ss.reverse := by
  induction h with
  | nil => exact .nil
  | cons h1 _ ih => simp only [List.reverse_cons]; exact ih.append (.cons h1 .nil)

theorem sourcesBroken_of {ss' ss : List Source} (hl : ss'.length = ss.length) (h : ∀ (i : Nat) s' s, ss'[i]? = some s' → ss[i]? = some s → BreaksOff s' s) :
    SourcesBroken ss' ss := by
  induction ss' generalizing ss with
  | nil =>
    rw [List.eq_nil_of_length_eq_zero hl.symm]; exact .nil
  | cons s' ss' ih =>
    cases ss with
    | nil => simp at hl
    | cons s ss => exact .cons (h 0 _ _ rfl rfl) (ih (by simpa using hl) fun i a b ha hb => h (i + 1) a b (by simpa using ha) (by simpa using hb))

theorem calls_broken (range : TimestampRange) (fuel : Nat) {ss' ss : List Source} (h : SourcesBroken ss' ss) :
    (calls range fuel ss').1 <+: (calls range fuel ss).1 ∧ ((calls range fuel ss').2 = .ok () → calls range fuel ss' = calls range fuel ss) := by
  unfold calls drive
  cases hb : getRowBuffers range ss' with
  | ok bufs' =>
    obtain ⟨bufs, h1, h2⟩ := buffers_broken (range := range) h.reverse 0 bufs' hb
    have h1 : getRowBuffers range ss = .ok bufs := h1
    simp only [h1]
    exact driveLoop_broken range fuel bufs' bufs [] h2
  | _ => exact ⟨List.nil_prefix, by simp⟩

end Chopper

namespace Chopper
open Spec

theorem matchNextRow_more (range : TimestampRange) (e' e : Ending) : ∀ (rows' rows : List Row), rows' <+: rows →
    ∀ r s', matchNextRow range rows' e' = (.ok (some r), s') → ∃ s, matchNextRow range rows e = (.ok (some r), s) ∧ s'.rows <+: s.rows
  | [], rows, _, r, s', h => by cases e' <;> simp [matchNextRow] at h
  | r0 :: rs', rows, hp, r, s', h => by
    obtain ⟨t, rfl⟩ := hp
    simp only [matchNextRow, List.cons_append] at h ⊢
    cases hf : filterDataRange range r0.timestamp with
    | stop => simp [hf] at h
    | write =>
      simp only [hf, Prod.mk.injEq] at h ⊢
      obtain ⟨h1, rfl⟩ := h
      exact ⟨_, ⟨h1, rfl⟩, List.prefix_append _ _⟩
    | skip =>
      simp only [hf] at h ⊢
      exact matchNextRow_more range e' e rs' (rs' ++ t) (List.prefix_append _ _) r s' h

theorem driveLoop_single (range : TimestampRange) : ∀ (fuel : Nat) (b' b : RowBuffer) (l : List Call), b'.source.rows <+: b.source.rows → b'.chain = b.chain → b'.row = b.row →
    fed (driveLoop (fun c r l => (l ++ [Call.feed c r], .ok ())) (fun c l => (l ++ [.flush c], .ok ())) range fuel [b'] l).1 <+:
      fed (driveLoop (fun c r l => (l ++ [Call.feed c r], .ok ())) (fun c l => (l ++ [.flush c], .ok ())) range fuel [b] l).1 := by
  have hext : ∀ {a b : List Call}, a <+: b → fed a <+: fed b := by
    rintro a b ⟨u, rfl⟩; exact ⟨fed u, by simp [fed]⟩
  have hnil : ∀ (fuel : Nat) (l : List Call), (driveLoop (fun c r l => (l ++ [Call.feed c r], .ok ())) (fun c l => (l ++ [.flush c], .ok ())) range fuel [] l).1 = l := by
    intro fuel l; cases fuel <;> simp [driveLoop, nextBufferIndex]
  intro fuel
  induction fuel with
  | zero => intro b' b l _ _ _; simp [driveLoop]
  | succ fuel ih =>
    intro b' b l hp hc hr
    have hi : ∀ x : RowBuffer, nextBufferIndex [x] = some 0 := fun _ => rfl
    rw [driveLoop, driveLoop]
    simp only [hi, List.getElem?_cons_zero, hr, hc]
    cases hrow : b.row with
    | none => simp
    | some row =>
      simp only
      rcases e3 : matchNextRow range b'.source.rows b'.source.ending with ⟨(_ | r) | _ | _ | _, s'⟩
      case ok.some =>
        obtain ⟨s, e4, e5⟩ := matchNextRow_more range _ b.source.ending _ _ hp r s' e3
        simp only [RowBuffer.hasNext, e3, e4, List.set_cons_zero]
        exact ih _ _ _ e5 hc rfl
      case ok.none =>
        simp only [RowBuffer.hasNext, e3, List.eraseIdx_cons_zero, hnil]
        have : fed (l ++ [Call.feed b.chain row] ++ [Call.flush b.chain]) = fed (l ++ [Call.feed b.chain row]) := by simp [fed, Call.fed?]
        rw [this]
        rcases e6 : matchNextRow range b.source.rows b.source.ending with ⟨(_ | r) | _ | _ | _, s''⟩ <;> simp only [List.prefix_refl]
        · exact hext ((List.prefix_append _ [.flush b.chain]).trans (driveLoop_log_ext range fuel _ _))
        · exact hext (driveLoop_log_ext range fuel _ _)
      all_goals
        simp only [RowBuffer.hasNext, e3]
        rcases e6 : matchNextRow range b.source.rows b.source.ending with ⟨(_ | r) | _ | _ | _, s''⟩ <;> simp only [List.prefix_refl]
        · exact hext ((List.prefix_append _ [.flush b.chain]).trans (driveLoop_log_ext range fuel _ _))
        · exact hext (driveLoop_log_ext range fuel _ _)

/-- One input: the rows fed of a part are the first of those fed of the whole. -/
theorem calls_single (range : TimestampRange) (fuel : Nat) {s' s : Source} (hp : s'.rows <+: s.rows) : fed (calls range fuel [s']).1 <+: fed (calls range fuel [s]).1 := by
  unfold calls drive getRowBuffers
  simp only [List.reverse_singleton, getRowBuffersFrom, Res.bind_eq, Res.pure_eq]
  rcases e3 : matchNextRow range s'.rows s'.ending with ⟨(_ | r) | _ | _ | _, x⟩
  case ok.some =>
    obtain ⟨y, e4, e5⟩ := matchNextRow_more range _ s.ending _ _ hp r x e3
    simp only [RowBuffer.new, e3, e4, Res.bind_ok]
    exact driveLoop_single range fuel _ _ [] e5 rfl rfl
  case ok.none =>
    simp only [RowBuffer.new, e3, Res.bind_ok]
    cases fuel <;> simp [driveLoop, nextBufferIndex, minIndexFrom, fed]
  all_goals simp [RowBuffer.new, e3, Res.bind, fed]

end Chopper
