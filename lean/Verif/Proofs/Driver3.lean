import Verif.Proofs.Driver2
import Verif.Proofs.Graph3

namespace Chopper
open Spec

/-! ## An input without selected rows -/

theorem driveLoop_empty_not_ok {G : Type} (process : ChainId → Row → G → G × Res Unit) (flush : ChainId → G → G × Res Unit)
    (range : TimestampRange) : ∀ (fuel : Nat) (bufs : List RowBuffer) (g : G), (∃ b ∈ bufs, b.row = none) →
    (driveLoop process flush range fuel bufs g).2 ≠ .ok () := by
  intro fuel
  induction fuel with
  | zero =>
    intro bufs g h
    cases bufs with
    | nil => obtain ⟨b, hb, _⟩ := h; simp at hb
    | cons b bs => simp [driveLoop]
  | succ fuel ih =>
    intro bufs g h
    obtain ⟨b0, hb0, hr0⟩ := h
    have hne : bufs ≠ [] := by rintro rfl; simp at hb0
    obtain ⟨pre, b, post, rfl, hi, _, _⟩ := nextBufferIndex_spec hne
    have hget : (pre ++ b :: post)[pre.length]? = some b := by simp
    rw [driveLoop, hi]
    simp only [hget]
    cases hr : b.row with
    | none => simp
    | some row =>
      simp only []
      have hmem : b0 ∈ pre ∨ b0 ∈ post := by
        rcases List.mem_append.1 hb0 with h | h
        · exact .inl h
        · rcases List.mem_cons.1 h with rfl | h
          · rw [hr] at hr0; simp at hr0
          · exact .inr h
      rcases process b.chain row g with ⟨g', _ | _ | _ | _⟩
      · simp only []
        rcases b.hasNext range with ⟨x | _ | _ | _, b'⟩
        · cases x
          · simp only []
            rcases flush b.chain g' with ⟨g'', _ | _ | _ | _⟩
            · simp only []
              apply ih
              refine ⟨b0, ?_, hr0⟩
              have e2 : (pre ++ b :: post).eraseIdx pre.length = pre ++ post := by simp [List.eraseIdx_append]
              rw [e2]; simpa using hmem
            all_goals simp
          · simp only []
            apply ih
            refine ⟨b0, ?_, hr0⟩
            simp; grind
        all_goals simp
      all_goals simp

theorem getRowBuffersFrom_mem (range : TimestampRange) : ∀ (popped : List Source) (i : ChainId) (bufs : List RowBuffer),
    getRowBuffersFrom range i popped = .ok bufs → ∀ s ∈ popped, ∃ b ∈ bufs, ∃ j, RowBuffer.new s j range = .ok b := by
  intro popped
  induction popped with
  | nil => intro i bufs _ s hs; simp at hs
  | cons a popped ih =>
    intro i bufs h s hs
    simp only [getRowBuffersFrom, Res.bind_eq, Res.pure_eq, Res.bind_eq_ok] at h
    obtain ⟨b, hb, bs, hbs, heq⟩ := h
    simp only [Res.ok.injEq] at heq; subst heq
    rcases List.mem_cons.1 hs with rfl | hs
    · exact ⟨b, by simp, i, hb⟩
    · obtain ⟨b', h1, h2⟩ := ih _ _ hbs s hs
      exact ⟨b', by simp [h1], h2⟩

theorem drive_empty_not_ok {G : Type} (process : ChainId → Row → G → G × Res Unit) (flush : ChainId → G → G × Res Unit)
    (range : TimestampRange) (fuel : Nat) (sources : List Source) (g : G)
    (h : ∃ s ∈ sources, selected range s.rows = []) : (drive process flush range fuel sources g).2 ≠ .ok () := by
  unfold drive
  cases hb : getRowBuffers range sources with
  | ok bufs =>
    simp only []
    obtain ⟨s, hs, he⟩ := h
    apply driveLoop_empty_not_ok
    obtain ⟨b, h1, j, h2⟩ := getRowBuffersFrom_mem range _ _ _ hb s (by simpa using hs)
    refine ⟨b, h1, ?_⟩
    rcases matchNextRow_cases range s.rows s.ending with ⟨r', rs, s', h3, _⟩ | ⟨_, s', h4⟩
    · rw [he] at h3; simp at h3
    · simp only [RowBuffer.new, h4] at h2
      cases hE : endingWithin range ⟨s.rows, s.ending⟩ <;> simp [hE] at h2
      rw [← h2]
  | err e => simp
  | panic => simp
  | diverge => simp

/-! ## Flushing -/

theorem perform_shape_log {S : Type} (ops : SinkOps S) (gf : Nat) (sh) (cs : List Call) (out : Res Unit) : ∀ (g : DGraph S), g.shape = sh →
    Ext (fun _ => True) g (perform (fun c r g => processRow ops gf c 0 r g) (fun c g => flushFrom ops gf c 0 g) cs out g).1 := by
  induction cs with
  | nil => intro g _; exact Ext.refl _ g
  | cons c cs ih =>
    intro g hg
    cases c with
    | feed c r =>
      have h1 := (processRow_ext ops sh gf c 0 r g hg).mono (ok' := fun _ => True) (fun _ _ => trivial)
      simp only [perform]
      rcases h : processRow ops gf c 0 r g with ⟨g', _ | _ | _ | _⟩ <;> rw [h] at h1
      · exact h1.trans (ih g' (h1.1.trans hg))
      all_goals exact h1
    | flush c =>
      have h1 := (flushFrom_ext ops sh gf c 0 g hg).mono (ok' := fun _ => True) (fun _ _ => trivial)
      simp only [perform]
      rcases h : flushFrom ops gf c 0 g with ⟨g', _ | _ | _ | _⟩ <;> rw [h] at h1
      · exact h1.trans (ih g' (h1.1.trans hg))
      all_goals exact h1

theorem perform_flush_mem {S : Type} (ops : SinkOps S) (gf : Nat) {sh c c' i'} (hr : Reach sh c 0 c' i') (cs : List Call) (out : Res Unit) :
    ∀ (g g' : DGraph S), g.shape = sh → .flush c ∈ cs →
    perform (fun c r g => processRow ops gf c 0 r g) (fun c g => flushFrom ops gf c 0 g) cs out g = (g', .ok ()) →
    Event.flush c' i' ∈ newEvents g g' := by
  induction cs with
  | nil => intro g g' _ h; simp at h
  | cons x cs ih =>
    intro g g' hg hmem hp
    cases x with
    | feed d r =>
      have h1 := (processRow_ext ops sh gf d 0 r g hg)
      simp only [perform] at hp
      rcases h : processRow ops gf d 0 r g with ⟨g1, _ | _ | _ | _⟩ <;> simp only [h] at h1 hp
      · have h2 := perform_shape_log ops gf sh cs out g1 (h1.1.trans hg)
        rw [hp] at h2
        exact mem_new_of h1 h2 (.inr (ih g1 g' (h1.1.trans hg) (by simpa using hmem) hp))
      all_goals simp at hp
    | flush d =>
      have h1 := (flushFrom_ext ops sh gf d 0 g hg)
      simp only [perform] at hp
      rcases h : flushFrom ops gf d 0 g with ⟨g1, _ | _ | _ | _⟩ <;> simp only [h] at h1 hp
      · have h2 := perform_shape_log ops gf sh cs out g1 (h1.1.trans hg)
        rw [hp] at h2
        rcases List.mem_cons.1 hmem with heq | hmem
        · cases heq
          exact mem_new_of h1 h2 (.inl (flushFrom_reach ops hr gf g g1 hg h))
        · exact mem_new_of h1 h2 (.inr (ih g1 g' (h1.1.trans hg) hmem hp))
      all_goals simp at hp

theorem newEvents_split {ok ok' : Event → Prop} {S : Type} {g g1 g2 : DGraph S} (h : Ext ok g g1) (h' : Ext ok' g1 g2) :
    newEvents g g2 = newEvents g g1 ++ newEvents g1 g2 := by
  conv => lhs; unfold newEvents
  rw [h'.newEvents.1, h.newEvents.1]; simp

theorem perform_flushed {S : Type} (ops : SinkOps S) (gf : Nat) {sh} (cs : List Call) (out : Res Unit)
    (hcs : ∀ c r p q, cs = p ++ .feed c r :: q → .flush c ∈ q) : ∀ (g g' : DGraph S), g.shape = sh →
    perform (fun c r g => processRow ops gf c 0 r g) (fun c g => flushFrom ops gf c 0 g) cs out g = (g', .ok ()) →
    ∀ c i r pre post, newEvents g g' = pre ++ .write c i r :: post → .flush c i ∈ post := by
  induction cs with
  | nil => intro g g' hg hp c i r pre post h
           simp only [perform, Prod.mk.injEq] at hp; rw [← hp.1] at h; simp [newEvents] at h
  | cons x cs ih =>
    have hcs' : ∀ c r p q, cs = p ++ .feed c r :: q → .flush c ∈ q := fun c r p q h => hcs c r (x :: p) q (by simp [h])
    intro g g' hg hp c i r pre post hev
    -- common: split the new events
    have main : ∀ g1 (ok1 : Event → Prop), Ext ok1 g g1 → (∀ r, ok1 (.write c i r) → .flush c i ∈ newEvents g1 g') →
        perform (fun c r g => processRow ops gf c 0 r g) (fun c g => flushFrom ops gf c 0 g) cs out g1 = (g', .ok ()) →
        .flush c i ∈ post := by
      intro g1 ok1 h1 hw hp
      have h2 := perform_shape_log ops gf sh cs out g1 (h1.1.trans hg)
      rw [hp] at h2
      rw [newEvents_split h1 h2] at hev
      rcases List.append_eq_append_iff.1 hev with ⟨as, h3, h4⟩ | ⟨as, h3, h4⟩
      · exact ih hcs' g1 g' (h1.1.trans hg) hp c i r as post h4
      · cases as with
        | nil => simp only [List.nil_append] at h4
                 exact ih hcs' g1 g' (h1.1.trans hg) hp c i r [] post h4.symm
        | cons a as =>
          simp only [List.cons_append, List.cons.injEq] at h4
          obtain ⟨rfl, rfl⟩ := h4
          have : ok1 (.write c i r) := h1.newEvents.2 _ (by rw [h3]; simp)
          exact List.mem_append_right _ (hw r this)
    cases x with
    | feed d r' =>
      have h1 := (processRow_ext ops sh gf d 0 r' g hg)
      simp only [perform] at hp
      rcases h : processRow ops gf d 0 r' g with ⟨g1, _ | _ | _ | _⟩ <;> simp only [h] at h1 hp
      · refine main g1 _ h1 ?_ hp
        rintro r ⟨c', i', r2, heq, hreach⟩
        cases heq
        exact perform_flush_mem ops gf hreach cs out g1 g' (h1.1.trans hg) (hcs d r' [] cs rfl) hp
      all_goals simp at hp
    | flush d =>
      have h1 := (flushFrom_ext ops sh gf d 0 g hg)
      simp only [perform] at hp
      rcases h : flushFrom ops gf d 0 g with ⟨g1, _ | _ | _ | _⟩ <;> simp only [h] at h1 hp
      · refine main g1 _ h1 ?_ hp
        rintro r ⟨c', i', heq, _⟩
        cases heq
      all_goals simp at hp

end Chopper
