import Verif.Proofs.Driver3

namespace Chopper
open Spec

/-! ## Determinism of runs -/

theorem isMin_unique {pre pre' : List ABuf} {a a' : ABuf} {post post' : List ABuf} (h : pre ++ a :: post = pre' ++ a' :: post')
    (hm : IsMin pre a post) (hm' : IsMin pre' a' post') : pre = pre' ∧ a = a' ∧ post = post' := by
  rcases List.append_eq_append_iff.1 h with ⟨as, h1, h2⟩ | ⟨as, h1, h2⟩
  · cases as with
    | nil => simp at h1 h2; exact ⟨h1.symm, h2.1, h2.2⟩
    | cons x as =>
      simp only [List.cons_append, List.cons.injEq] at h2
      obtain ⟨rfl, rfl⟩ := h2
      have t1 := hm'.1 a (by rw [h1]; simp)
      have t2 := hm.2 a' (by simp)
      simp only [BitVec.lt_def, BitVec.le_def] at t1 t2; omega
  · cases as with
    | nil => simp at h1 h2; exact ⟨h1, h2.1.symm, h2.2.symm⟩
    | cons x as =>
      simp only [List.cons_append, List.cons.injEq] at h2
      obtain ⟨rfl, rfl⟩ := h2
      have t1 := hm.1 a' (by rw [h1]; simp)
      have t2 := hm'.2 a (by simp)
      simp only [BitVec.lt_def, BitVec.le_def] at t1 t2; omega

theorem run_det {as cs out} (h : Run as cs out) : ∀ {cs' out'}, Run as cs' out' → cs = cs' ∧ out = out' := by
  have aux : ∀ {as cs out}, Run as cs out → ∀ {as'}, as = as' → ∀ {cs' out'}, Run as' cs' out' → cs = cs' ∧ out = out' := by
    intro as cs out h
    induction h with
    | nil => intro as' he cs' out' h'
             cases h' with
             | nil => exact ⟨rfl, rfl⟩
             | next _ _ => simp at he
             | done _ _ => simp at he
             | fail _ => simp at he
             | crash _ => simp at he
    | next hm hr ih =>
      intro as' he cs' out' h'
      cases h' with
      | nil => simp at he
      | next hm' hr' =>
        obtain ⟨rfl, e, rfl⟩ := isMin_unique he hm hm'
        cases e
        obtain ⟨rfl, rfl⟩ := ih rfl hr'
        exact ⟨rfl, rfl⟩
      | done hm' hr' => obtain ⟨_, e, _⟩ := isMin_unique he hm hm'; cases e
      | fail hm' => obtain ⟨_, e, _⟩ := isMin_unique he hm hm'; cases e
      | crash hm' => obtain ⟨_, e, _⟩ := isMin_unique he hm hm'; cases e
    | done hm hr ih =>
      intro as' he cs' out' h'
      cases h' with
      | nil => simp at he
      | next hm' hr' => obtain ⟨_, e, _⟩ := isMin_unique he hm hm'; cases e
      | done hm' hr' =>
        obtain ⟨rfl, e, rfl⟩ := isMin_unique he hm hm'
        cases e
        obtain ⟨rfl, rfl⟩ := ih rfl hr'
        exact ⟨rfl, rfl⟩
      | fail hm' => obtain ⟨_, e, _⟩ := isMin_unique he hm hm'; cases e
      | crash hm' => obtain ⟨_, e, _⟩ := isMin_unique he hm hm'; cases e
    | fail hm =>
      intro as' he cs' out' h'
      cases h' with
      | nil => simp at he
      | next hm' hr' => obtain ⟨_, e, _⟩ := isMin_unique he hm hm'; cases e
      | done hm' hr' => obtain ⟨_, e, _⟩ := isMin_unique he hm hm'; cases e
      | fail hm' => obtain ⟨_, e, _⟩ := isMin_unique he hm hm'; cases e; exact ⟨rfl, rfl⟩
      | crash hm' => obtain ⟨_, e, _⟩ := isMin_unique he hm hm'; cases e
    | crash hm =>
      intro as' he cs' out' h'
      cases h' with
      | nil => simp at he
      | next hm' hr' => obtain ⟨_, e, _⟩ := isMin_unique he hm hm'; cases e
      | done hm' hr' => obtain ⟨_, e, _⟩ := isMin_unique he hm hm'; cases e
      | fail hm' => obtain ⟨_, e, _⟩ := isMin_unique he hm hm'; cases e
      | crash hm' => obtain ⟨_, e, _⟩ := isMin_unique he hm hm'; cases e; exact ⟨rfl, rfl⟩
  intro cs' out' h'
  exact aux h rfl h'

/-! ## Outcome of runs -/

theorem run_ok_iff {as cs out} (h : Run as cs out) : out = .ok () ↔ ∀ a ∈ as, a.ending = .eof := by
  induction h with
  | nil => simp
  | @next pre post c h r rs e cs out hm _ ih =>
    rw [ih]
    constructor
    · intro hh a ha
      rcases List.mem_append.1 ha with ha | ha
      · exact hh a (by simp [ha])
      · rcases List.mem_cons.1 ha with rfl | ha
        · exact hh ⟨c, r, rs, e⟩ (by simp)
        · exact hh a (by simp [ha])
    · intro hh a ha
      rcases List.mem_append.1 ha with ha | ha
      · exact hh a (by simp [ha])
      · rcases List.mem_cons.1 ha with rfl | ha
        · exact hh ⟨c, h, r :: rs, e⟩ (by simp)
        · exact hh a (by simp [ha])
  | @done pre post c h cs out hm _ ih =>
    rw [ih]
    constructor
    · intro hh a ha
      rcases List.mem_append.1 ha with ha | ha
      · exact hh a (by simp [ha])
      · rcases List.mem_cons.1 ha with rfl | ha
        · rfl
        · exact hh a (by simp [ha])
    · intro hh a ha
      rcases List.mem_append.1 ha with ha | ha <;> exact hh a (by simp [ha])
  | @fail pre post c h e hm =>
    constructor
    · simp
    · intro hh; have := hh ⟨c, h, [], .fail e⟩ (by simp); simp at this
  | @crash pre post c h hm =>
    constructor
    · simp
    · intro hh; have := hh ⟨c, h, [], .crash⟩ (by simp); simp at this

/-- A failing run stops at the failure of an input all of whose rows were fed. -/
theorem run_err {as cs out} (h : Run as cs out) (hd : (chainsOf as).Nodup) : ∀ e, out = .err e →
    ∃ a ∈ as, a.ending = .fail e ∧ fedTo a.chain cs = a.rows := by
  induction h with
  | nil => intro e h; simp at h
  | @next pre post c h r rs e cs out hm _ ih =>
    intro e' he
    have hd' : (chainsOf (pre ++ ⟨c, r, rs, e⟩ :: post)).Nodup := by simpa [chainsOf] using hd
    obtain ⟨a, ha, h1, h2⟩ := ih hd' e' he
    simp only [chainsOf, List.map_append, List.map_cons] at hd
    by_cases hc : a.chain = c
    · have : a = ⟨c, r, rs, e⟩ := by
        rcases List.mem_append.1 ha with ha | ha
        · exact absurd hc (by have := List.mem_map_of_mem (f := ABuf.chain) ha; grind [List.nodup_append])
        · rcases List.mem_cons.1 ha with rfl | ha
          · rfl
          · exact absurd hc (by have := List.mem_map_of_mem (f := ABuf.chain) ha; grind [List.nodup_append])
      subst this
      refine ⟨⟨c, h, r :: rs, e⟩, by simp, h1, ?_⟩
      simp only [fedTo, fed_feed, List.filterMap_cons, if_true, ABuf.rows] at h2 ⊢
      rw [h2]
    · refine ⟨a, ?_, h1, ?_⟩
      · rcases List.mem_append.1 ha with ha | ha
        · simp [ha]
        · rcases List.mem_cons.1 ha with rfl | ha
          · exact absurd rfl hc
          · simp [ha]
      · simp only [fedTo, fed_feed, List.filterMap_cons] at h2 ⊢
        rw [if_neg (fun hh => hc hh.symm)]; exact h2
  | @done pre post c h cs out hm _ ih =>
    intro e' he
    have hd' : (chainsOf (pre ++ post)).Nodup := by
      simp only [chainsOf, List.map_append, List.map_cons] at hd ⊢
      exact hd.sublist (List.Sublist.append (.refl _) (List.sublist_cons_self _ _))
    obtain ⟨a, ha, h1, h2⟩ := ih hd' e' he
    simp only [chainsOf, List.map_append, List.map_cons] at hd
    have hc : a.chain ≠ c := by
      rcases List.mem_append.1 ha with ha | ha <;>
        (have := List.mem_map_of_mem (f := ABuf.chain) ha; grind [List.nodup_append])
    refine ⟨a, ?_, h1, ?_⟩
    · rcases List.mem_append.1 ha with ha | ha <;> simp [ha]
    · simp only [fedTo, fed_feed, fed_flush, List.filterMap_cons] at h2 ⊢
      rw [if_neg (fun hh => hc hh.symm)]; exact h2
  | @fail pre post c h e hm =>
    intro e' he
    simp only [Res.err.injEq] at he; subst he
    exact ⟨⟨c, h, [], .fail e⟩, by simp, rfl, by simp [fedTo, fed, Call.fed?, ABuf.rows]⟩
  | crash _ => intro e h; simp at h

/-! ## Removing failures from the inputs -/

theorem absFrom_eof (range : TimestampRange) (ss : List Source) : ∀ i,
    absFrom range i (ss.map (fun s => { s with ending := .eof })) = (absFrom range i ss).map ABuf.eof := by
  induction ss with
  | nil => intro i; rfl
  | cons s ss ih =>
    intro i
    simp only [List.map_cons, absFrom]
    cases selected range s.rows with
    | nil => exact ih _
    | cons r rs => simp [ih, ABuf.eof, endingWithin]

theorem mem_absFrom (range : TimestampRange) (ss : List Source) : ∀ i a, a ∈ absFrom range i ss →
    ∃ k s, ss[k]? = some s ∧ a.chain = i + k ∧ selected range s.rows = a.rows ∧ a.ending = endingWithin range s := by
  induction ss with
  | nil => intro i a h; simp [absFrom] at h
  | cons s ss ih =>
    intro i a h
    simp only [absFrom] at h
    split at h
    · obtain ⟨k, s', h1, h2, h3, h4⟩ := ih _ _ h
      exact ⟨k + 1, s', by simpa using h1, by omega, h3, h4⟩
    · rename_i r rs heq
      rcases List.mem_cons.1 h with rfl | h
      · exact ⟨0, s, by simp, by simp, by simp [heq, ABuf.rows], rfl⟩
      · obtain ⟨k, s', h1, h2, h3, h4⟩ := ih _ _ h
        exact ⟨k + 1, s', by simpa using h1, by omega, h3, h4⟩

theorem absFrom_mem (range : TimestampRange) (ss : List Source) : ∀ i (k : Nat) (s : Source), ss[k]? = some s → selected range s.rows ≠ [] →
    ∃ a ∈ absFrom range i ss, a.chain = i + k ∧ selected range s.rows = a.rows ∧ a.ending = endingWithin range s := by
  induction ss with
  | nil => intro i k s h; simp at h
  | cons s0 ss ih =>
    intro i k s hk hne
    cases k with
    | zero =>
      simp at hk; subst hk
      simp only [absFrom]
      cases heq : selected range s0.rows with
      | nil => exact absurd heq hne
      | cons r rs => exact ⟨_, by simp; left; rfl, by simp, by simp [ABuf.rows], rfl⟩
    | succ k =>
      simp only [List.getElem?_cons_succ] at hk
      obtain ⟨a, h1, h2, h3, h4⟩ := ih (i + 1) k s hk hne
      refine ⟨a, ?_, by omega, h3, h4⟩
      simp only [absFrom]; split
      · exact h1
      · simp [h1]

/-! ## Termination of the loop -/

def bweight (bufs : List RowBuffer) : Nat := (bufs.map (fun b => b.source.rows.length + 1)).sum

theorem matchNextRow_length (range : TimestampRange) (rows : List Row) (e : Ending) :
    (matchNextRow range rows e).2.rows.length ≤ rows.length ∧
    (∀ r, (matchNextRow range rows e).1 = .ok (some r) → (matchNextRow range rows e).2.rows.length < rows.length) ∧
    (matchNextRow range rows e).1 ≠ .diverge := by
  induction rows with
  | nil => cases e <;> simp [matchNextRow]
  | cons r rs ih =>
    simp only [matchNextRow]
    cases filterDataRange range r.timestamp <;> simp
    refine ⟨by omega, ?_, ih.2.2⟩
    intro r' h; have := ih.2.1 r' h; omega

theorem driveLoop_total {G : Type} (process : ChainId → Row → G → G × Res Unit) (flush : ChainId → G → G × Res Unit)
    (range : TimestampRange) (P : G → Prop)
    (hp : ∀ c r g, P g → (process c r g).2 ≠ .diverge ∧ P (process c r g).1)
    (hfl : ∀ c g, P g → (flush c g).2 ≠ .diverge ∧ P (flush c g).1) :
    ∀ (fuel : Nat) (bufs : List RowBuffer) (g : G), bweight bufs ≤ fuel → P g →
      (driveLoop process flush range fuel bufs g).2 ≠ .diverge := by
  intro fuel
  induction fuel with
  | zero =>
    intro bufs g hw _
    cases bufs with
    | nil => simp [driveLoop]
    | cons b bs => simp [bweight] at hw
  | succ fuel ih =>
    intro bufs g hw hg
    by_cases hne : bufs = []
    · subst hne; simp [driveLoop, nextBufferIndex]
    · obtain ⟨pre, b, post, rfl, hi, _, _⟩ := nextBufferIndex_spec hne
      have hget : (pre ++ b :: post)[pre.length]? = some b := by simp
      rw [driveLoop, hi]
      simp only [hget]
      cases hr : b.row with
      | none => simp
      | some row =>
        simp only []
        have h1 := hp b.chain row g hg
        rcases e1 : process b.chain row g with ⟨g', _ | _ | _ | _⟩ <;> rw [e1] at h1
        · simp only []
          have hm := matchNextRow_length range b.source.rows b.source.ending
          rcases e2 : matchNextRow range b.source.rows b.source.ending with ⟨(_ | r) | _ | _ | _, s'⟩ <;>
            rw [e2] at hm <;> simp only [RowBuffer.hasNext, e2]
          · have h2 := hfl b.chain g' h1.2
            rcases e3 : flush b.chain g' with ⟨g'', _ | _ | _ | _⟩ <;> rw [e3] at h2
            · simp only []
              have e4 : (pre ++ b :: post).eraseIdx pre.length = pre ++ post := by simp [List.eraseIdx_append]
              rw [e4]
              apply ih _ _ _ h2.2
              simp [bweight] at hw ⊢; omega
            · simp
            · simp
            · exact absurd rfl h2.1
          · apply ih _ _ _ h1.2
            have := hm.2.1 r rfl
            simp only at this
            simp [bweight] at hw ⊢; omega
          · simp
          · simp
          · exact absurd rfl hm.2.2
        · simp
        · simp
        · exact absurd rfl h1.1

theorem getRowBuffersFrom_weight (range : TimestampRange) : ∀ (popped : List Source) (i : ChainId) (bufs : List RowBuffer),
    getRowBuffersFrom range i popped = .ok bufs → bweight bufs ≤ totalRows popped + popped.length := by
  intro popped
  induction popped with
  | nil => intro i bufs h; simp [getRowBuffersFrom] at h; subst h; simp [bweight, totalRows]
  | cons s ss ih =>
    intro i bufs h
    simp only [getRowBuffersFrom, Res.bind_eq, Res.pure_eq, Res.bind_eq_ok] at h
    obtain ⟨b, hb, bs, hbs, heq⟩ := h
    simp only [Res.ok.injEq] at heq; subst heq
    have h1 := ih _ _ hbs
    have h2 : b.source.rows.length ≤ s.rows.length := by
      have hm := (matchNextRow_length range s.rows s.ending).1
      rcases e2 : matchNextRow range s.rows s.ending with ⟨(_ | r) | _ | _ | _, s'⟩ <;>
        rw [e2] at hm <;> simp only [RowBuffer.new, e2] at hb <;> first | (simp only [Res.ok.injEq] at hb; subst hb; exact hm) | simp at hb
    simp [bweight, totalRows] at h1 ⊢; omega

theorem getRowBuffersFrom_ne_diverge (range : TimestampRange) : ∀ (popped : List Source) (i : ChainId),
    getRowBuffersFrom range i popped ≠ .diverge := by
  intro popped
  induction popped with
  | nil => intro i; simp [getRowBuffersFrom]
  | cons s ss ih =>
    intro i
    have hm := matchNextRow_length range s.rows s.ending
    simp only [getRowBuffersFrom, Res.bind_eq, RowBuffer.new]
    rcases e2 : matchNextRow range s.rows s.ending with ⟨(_ | r) | _ | _ | _, s'⟩ <;> rw [e2] at hm <;> simp
    · have := ih (i + 1); cases h : getRowBuffersFrom range (i + 1) ss <;> simp_all
    · have := ih (i + 1); cases h : getRowBuffersFrom range (i + 1) ss <;> simp_all
    · exact hm.2.2 rfl

theorem drive_total {G : Type} (process : ChainId → Row → G → G × Res Unit) (flush : ChainId → G → G × Res Unit)
    (range : TimestampRange) (P : G → Prop)
    (hp : ∀ c r g, P g → (process c r g).2 ≠ .diverge ∧ P (process c r g).1)
    (hfl : ∀ c g, P g → (flush c g).2 ≠ .diverge ∧ P (flush c g).1)
    (fuel : Nat) (sources : List Source) (g : G) (hf : totalRows sources + sources.length ≤ fuel) (hg : P g) :
    (drive process flush range fuel sources g).2 ≠ .diverge := by
  unfold drive
  have h0 := getRowBuffersFrom_ne_diverge range sources.reverse 0
  cases hb : getRowBuffers range sources with
  | ok bufs =>
    apply driveLoop_total process flush range P hp hfl _ _ _ _ hg
    have := getRowBuffersFrom_weight range _ _ _ hb
    have e : totalRows sources.reverse = totalRows sources := by
      simp [totalRows]
    rw [e] at this; simp at this; omega
  | err e => simp
  | panic => simp
  | diverge => exact absurd hb h0

/-! ## An empty input contributes nothing -/

theorem driveLoop_fed_chain (range : TimestampRange) (c : ChainId) : ∀ (fuel : Nat) (bufs : List RowBuffer) (l : List Call),
    (∀ b ∈ bufs, b.chain = c → b.row = none) → (∀ p ∈ fed l, p.1 ≠ c) →
    ∀ p ∈ fed (driveLoop (fun c r l => (l ++ [Call.feed c r], .ok ())) (fun c l => (l ++ [.flush c], .ok ())) range fuel bufs l).1, p.1 ≠ c := by
  intro fuel
  induction fuel with
  | zero => intro bufs l _ hl; cases bufs <;> simpa [driveLoop] using hl
  | succ fuel ih =>
    intro bufs l hb hl
    by_cases hne : bufs = []
    · subst hne; simpa [driveLoop, nextBufferIndex] using hl
    · obtain ⟨pre, b, post, rfl, hi, _, _⟩ := nextBufferIndex_spec hne
      have hget : (pre ++ b :: post)[pre.length]? = some b := by simp
      rw [driveLoop, hi]
      simp only [hget]
      cases hr : b.row with
      | none => simpa using hl
      | some row =>
        have hbc : b.chain ≠ c := by intro h; have := hb b (by simp) h; rw [hr] at this; simp at this
        have hl' : ∀ p ∈ fed (l ++ [.feed b.chain row]), p.1 ≠ c := by
          intro p hp
          simp only [fed, List.filterMap_append, List.mem_append] at hp
          rcases hp with hp | hp
          · exact hl p hp
          · simp [Call.fed?] at hp; subst hp; exact hbc
        have hl'' : ∀ p ∈ fed (l ++ [.feed b.chain row] ++ [.flush b.chain]), p.1 ≠ c := by
          intro p hp
          rw [fed, List.filterMap_append] at hp
          simp only [List.mem_append] at hp
          rcases hp with hp | hp
          · exact hl' p hp
          · simp [Call.fed?] at hp
        simp only []
        rcases e2 : matchNextRow range b.source.rows b.source.ending with ⟨(_ | r) | _ | _ | _, s'⟩ <;> simp only [RowBuffer.hasNext, e2]
        · apply ih _ _ _ hl''
          have e4 : (pre ++ b :: post).eraseIdx pre.length = pre ++ post := by simp [List.eraseIdx_append]
          rw [e4]; intro b' hb'; exact hb b' (by simp at hb' ⊢; grind)
        · apply ih _ _ _ hl'
          intro b' hb' hc'
          simp at hb'
          rcases hb' with hb' | rfl | hb'
          · exact hb b' (by simp [hb']) hc'
          · exact absurd hc' hbc
          · exact hb b' (by simp [hb']) hc'
        all_goals exact hl'

theorem getRowBuffersFrom_get (range : TimestampRange) : ∀ (popped : List Source) (i : ChainId) (bufs : List RowBuffer),
    getRowBuffersFrom range i popped = .ok bufs → ∀ b ∈ bufs, ∃ k s, popped[k]? = some s ∧ b.chain = i + k ∧ RowBuffer.new s (i + k) range = .ok b := by
  intro popped
  induction popped with
  | nil => intro i bufs h b hb; simp [getRowBuffersFrom] at h; subst h; simp at hb
  | cons s ss ih =>
    intro i bufs h b' hb'
    simp only [getRowBuffersFrom, Res.bind_eq, Res.pure_eq, Res.bind_eq_ok] at h
    obtain ⟨b, hb, bs, hbs, heq⟩ := h
    simp only [Res.ok.injEq] at heq; subst heq
    rcases List.mem_cons.1 hb' with rfl | hb'
    · refine ⟨0, s, by simp, ?_, hb⟩
      rcases e2 : matchNextRow range s.rows s.ending with ⟨(_ | r) | _ | _ | _, s'⟩ <;>
        simp only [RowBuffer.new, e2] at hb <;> first | (simp only [Res.ok.injEq] at hb; subst hb; rfl) | simp at hb
    · obtain ⟨k, s', h1, h2, h3⟩ := ih _ _ hbs b' hb'
      exact ⟨k + 1, s', by simpa using h1, by omega, by rw [show i + (k + 1) = i + 1 + k by omega]; exact h3⟩

end Chopper
