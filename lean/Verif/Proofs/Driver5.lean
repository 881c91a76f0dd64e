import Verif.Proofs.Driver4

namespace Chopper
open Spec

/-! ## With an input without selected rows only rows with timestamp 0 can be fed -/

theorem driveLoop_zero (range : TimestampRange) : ∀ (fuel : Nat) (bufs : List RowBuffer) (l : List Call),
    (∃ b ∈ bufs, b.row = none ∧ b.timestamp = 0) → (∀ b ∈ bufs, ∀ r, b.row = some r → b.timestamp = r.timestamp) →
    (∀ p ∈ fed l, p.2.timestamp = 0) →
    ∀ p ∈ fed (driveLoop (fun c r l => (l ++ [Call.feed c r], .ok ())) (fun c l => (l ++ [.flush c], .ok ())) range fuel bufs l).1,
      p.2.timestamp = 0 := by
  intro fuel
  induction fuel with
  | zero => intro bufs l _ _ hl; cases bufs <;> simpa [driveLoop] using hl
  | succ fuel ih =>
    intro bufs l hex hb hl
    obtain ⟨b0, hb0, hr0, ht0⟩ := hex
    have hne : bufs ≠ [] := by rintro rfl; simp at hb0
    obtain ⟨pre, b, post, rfl, hi, hpre, hpost⟩ := nextBufferIndex_spec hne
    have hget : (pre ++ b :: post)[pre.length]? = some b := by simp
    rw [driveLoop, hi]
    simp only [hget]
    cases hr : b.row with
    | none => simpa using hl
    | some row =>
      have hmem : b0 ∈ pre ∨ b0 ∈ post := by
        rcases List.mem_append.1 hb0 with h | h
        · exact .inl h
        · rcases List.mem_cons.1 h with rfl | h
          · rw [hr] at hr0; simp at hr0
          · exact .inr h
      have hts : row.timestamp = 0 := by
        rw [← hb b (by simp) row hr]
        rcases hmem with h | h
        · have := hpre _ h; rw [ht0] at this; simp only [BitVec.lt_def] at this; simp at this
        · have := hpost _ h; rw [ht0] at this; simp only [BitVec.le_def] at this
          apply BitVec.eq_of_toNat_eq; simpa using this
      have hl' : ∀ p ∈ fed (l ++ [.feed b.chain row]), p.2.timestamp = 0 := by
        intro p hp
        simp only [fed, List.filterMap_append, List.mem_append] at hp
        rcases hp with hp | hp
        · exact hl p hp
        · simp [Call.fed?] at hp; subst hp; exact hts
      have hl'' : ∀ p ∈ fed (l ++ [.feed b.chain row] ++ [.flush b.chain]), p.2.timestamp = 0 := by
        intro p hp
        rw [fed, List.filterMap_append] at hp
        simp only [List.mem_append] at hp
        rcases hp with hp | hp
        · exact hl' p hp
        · simp [Call.fed?] at hp
      simp only []
      rcases e2 : matchNextRow range b.source.rows b.source.ending with ⟨(_ | r) | _ | _ | _, s'⟩ <;> simp only [RowBuffer.hasNext, e2]
      · have e4 : (pre ++ b :: post).eraseIdx pre.length = pre ++ post := by simp [List.eraseIdx_append]
        apply ih _ _ _ _ hl''
        · rw [e4]; exact ⟨b0, by simpa using hmem, hr0, ht0⟩
        · rw [e4]; intro b' hb'; exact hb b' (by simp at hb' ⊢; grind)
      · apply ih _ _ _ _ hl'
        · exact ⟨b0, by simp; grind, hr0, ht0⟩
        · intro b' hb' r' hc'
          simp at hb'
          rcases hb' with hb' | rfl | hb'
          · exact hb b' (by simp [hb']) _ hc'
          · simp at hc'; subst hc'; rfl
          · exact hb b' (by simp [hb']) _ hc'
      all_goals exact hl'

theorem new_row_ts {s : Source} {i : Nat} {range : TimestampRange} {b : RowBuffer} (h : RowBuffer.new s i range = .ok b) :
    (b.row = none → b.timestamp = 0) ∧ (∀ r, b.row = some r → b.timestamp = r.timestamp) := by
  unfold RowBuffer.new at h
  split at h <;> first | (simp only [Res.ok.injEq] at h; subst h; simp) | cases h

theorem new_row_none {s : Source} {i : Nat} {range : TimestampRange} {b : RowBuffer} (h : RowBuffer.new s i range = .ok b)
    (he : selected range s.rows = []) : b.row = none := by
  rcases matchNextRow_cases range s.rows s.ending with ⟨r', rs, s', h1, _⟩ | ⟨_, s', h2⟩
  · rw [he] at h1; cases h1
  · unfold RowBuffer.new at h
    rw [h2] at h
    split at h <;> first | (simp only [Res.ok.injEq] at h; subst h; rfl) | skip
    · rename_i heq; split at heq <;> cases heq
    all_goals cases h

theorem calls_empty_zero (range : TimestampRange) (fuel : Nat) (sources : List Source)
    (h : ∃ s ∈ sources, selected range s.rows = []) : ∀ p ∈ fed (calls range fuel sources).1, p.2.timestamp = 0 := by
  unfold calls drive
  cases hb : getRowBuffers range sources with
  | ok bufs =>
    simp only []
    obtain ⟨s, hs, he⟩ := h
    have hall := getRowBuffersFrom_get range _ _ _ hb
    apply driveLoop_zero
    · obtain ⟨b, hbm, j, hn⟩ := getRowBuffersFrom_mem range _ _ _ hb s (by simpa using hs)
      exact ⟨b, hbm, new_row_none hn he, (new_row_ts hn).1 (new_row_none hn he)⟩
    · intro b hbm
      obtain ⟨k, s', _, _, hn⟩ := hall b hbm
      exact (new_row_ts hn).2
    · simp [fed]
  | _ => simp [fed]

/-! ## A failing input only cuts the run short -/

def RowBuffer.eof (b : RowBuffer) : RowBuffer := { b with source := { b.source with ending := .eof } }

theorem nextBufferIndex_eof (bufs : List RowBuffer) : nextBufferIndex (bufs.map RowBuffer.eof) = nextBufferIndex bufs := by
  have aux : ∀ (bs : List RowBuffer) i t j, minIndexFrom i t j (bs.map RowBuffer.eof) = minIndexFrom i t j bs := by
    intro bs
    induction bs with
    | nil => intros; rfl
    | cons b bs ih => intro i t j; simp only [List.map_cons, minIndexFrom, ih]; rfl
  cases bufs with
  | nil => rfl
  | cons b bs => simp only [List.map_cons, nextBufferIndex, aux]; rfl

theorem matchNextRow_eof (range : TimestampRange) (rows : List Row) (e : Ending) :
    (∀ x s', matchNextRow range rows e = (.ok x, s') →
      matchNextRow range rows .eof = (.ok x, { s' with ending := .eof })) ∧
    ∃ x s', matchNextRow range rows .eof = (.ok x, s') ∧ s'.ending = .eof := by
  induction rows with
  | nil => exact ⟨by cases e <;> simp [matchNextRow], _, _, rfl, rfl⟩
  | cons r rs ih =>
    simp only [matchNextRow]
    cases filterDataRange range r.timestamp
    · exact ⟨by simp, _, _, rfl, rfl⟩
    · exact ⟨by simp, _, _, rfl, rfl⟩
    · exact ih

theorem driveLoop_log_ext (range : TimestampRange) : ∀ (fuel : Nat) (bufs : List RowBuffer) (l : List Call),
    l <+: (driveLoop (fun c r l => (l ++ [Call.feed c r], .ok ())) (fun c l => (l ++ [.flush c], .ok ())) range fuel bufs l).1 := by
  intro fuel bufs l
  obtain ⟨cs, out, h⟩ := driveLoop_perform range fuel bufs
  rw [h, perform_log]; exact List.prefix_append _ _

theorem driveLoop_eof_prefix (range : TimestampRange) : ∀ (fuel : Nat) (bufs : List RowBuffer) (l : List Call),
    (driveLoop (fun c r l => (l ++ [Call.feed c r], .ok ())) (fun c l => (l ++ [.flush c], .ok ())) range fuel bufs l).1 <+:
    (driveLoop (fun c r l => (l ++ [Call.feed c r], .ok ())) (fun c l => (l ++ [.flush c], .ok ())) range fuel (bufs.map RowBuffer.eof) l).1 := by
  intro fuel
  induction fuel with
  | zero => intro bufs l; cases bufs <;> simp [driveLoop]
  | succ fuel ih =>
    intro bufs l
    rw [driveLoop, driveLoop, nextBufferIndex_eof]
    cases hi : nextBufferIndex bufs with
    | none => simp
    | some i =>
      simp only [List.getElem?_map]
      cases hb : bufs[i]? with
      | none => simp
      | some b =>
        simp only [Option.map_some]
        have e1 : b.eof.row = b.row := rfl
        have e2 : b.eof.chain = b.chain := rfl
        rw [e1, e2]
        cases hr : b.row with
        | none => simp
        | some row =>
          simp only []
          obtain ⟨m1, x', s'', m2, _⟩ := matchNextRow_eof range b.source.rows b.source.ending
          have m3 : matchNextRow range b.eof.source.rows b.eof.source.ending = matchNextRow range b.source.rows .eof := rfl
          rcases e3 : matchNextRow range b.source.rows b.source.ending with ⟨(_ | r) | _ | _ | _, s'⟩
          · have e4 := m1 _ _ e3
            simp only [RowBuffer.hasNext, e3, m3, e4]
            have := ih (bufs.eraseIdx i) (l ++ [.feed b.chain row] ++ [.flush b.chain])
            have e5 : (bufs.eraseIdx i).map RowBuffer.eof = (bufs.map RowBuffer.eof).eraseIdx i := by
              simp [List.eraseIdx_eq_take_drop_succ]
            rw [e5] at this
            exact this
          · have e4 := m1 _ _ e3
            simp only [RowBuffer.hasNext, e3, m3, e4]
            have := ih (bufs.set i { b with source := s', timestamp := r.timestamp, row := some r }) (l ++ [.feed b.chain row])
            rw [List.map_set] at this
            exact this
          all_goals
            simp only [RowBuffer.hasNext, e3, m3, m2]
            cases x' with
            | none =>
              refine List.IsPrefix.trans (List.prefix_append _ [.flush b.chain]) ?_
              exact driveLoop_log_ext range fuel _ _
            | some r => exact driveLoop_log_ext range fuel _ _

theorem getRowBuffersFrom_eof (range : TimestampRange) : ∀ (popped : List Source) (i : Nat) (bufs : List RowBuffer),
    getRowBuffersFrom range i popped = .ok bufs →
    getRowBuffersFrom range i (popped.map (fun s => { s with ending := .eof })) = .ok (bufs.map RowBuffer.eof) := by
  intro popped
  induction popped with
  | nil => intro i bufs h; simp [getRowBuffersFrom] at h; subst h; rfl
  | cons s ss ih =>
    intro i bufs h
    simp only [getRowBuffersFrom, Res.bind_eq, Res.pure_eq, Res.bind_eq_ok] at h
    obtain ⟨b, hb, bs, hbs, heq⟩ := h
    simp only [Res.ok.injEq] at heq; subst heq
    have hn : RowBuffer.new { s with ending := .eof } i range = .ok b.eof := by
      obtain ⟨m1, _⟩ := matchNextRow_eof range s.rows s.ending
      rcases e3 : matchNextRow range s.rows s.ending with ⟨(_ | r) | _ | _ | _, s'⟩ <;>
        simp only [RowBuffer.new, e3, Res.ok.injEq, reduceCtorEq] at hb
      all_goals subst hb; simp only [RowBuffer.new, m1 _ _ e3]; rfl
    simp [getRowBuffersFrom, hn, ih _ _ hbs]

theorem calls_eof_prefix (range : TimestampRange) (fuel : Nat) (sources : List Source) :
    (calls range fuel sources).1 <+: (calls range fuel (sources.map (fun s => { s with ending := .eof }))).1 := by
  unfold calls drive
  cases hb : getRowBuffers range sources with
  | ok bufs =>
    unfold getRowBuffers at hb ⊢
    rw [← List.map_reverse, getRowBuffersFrom_eof _ _ _ _ hb]
    exact driveLoop_eof_prefix range fuel bufs []
  | _ => exact List.nil_prefix

/-- More fuel does not change a finished run. -/
theorem driveLoop_mono {G : Type} (process : ChainId → Row → G → G × Res Unit) (flush : ChainId → G → G × Res Unit)
    (range : TimestampRange) (k : Nat) : ∀ (fuel : Nat) (bufs : List RowBuffer) (g : G),
    (driveLoop process flush range fuel bufs g).2 ≠ .diverge →
    driveLoop process flush range (fuel + k) bufs g = driveLoop process flush range fuel bufs g := by
  intro fuel
  induction fuel with
  | zero =>
    intro bufs g h
    cases bufs with
    | nil => cases k <;> simp [driveLoop, nextBufferIndex]
    | cons b bs => simp [driveLoop] at h
  | succ fuel ih =>
    intro bufs g h
    rw [show fuel + 1 + k = (fuel + k) + 1 by omega]
    rw [driveLoop] at h
    rw [driveLoop, driveLoop]
    cases hi : nextBufferIndex bufs with
    | none => rfl
    | some i =>
      simp only [hi] at h ⊢
      cases hb : bufs[i]? with
      | none => rfl
      | some b =>
        simp only [hb] at h ⊢
        cases hr : b.row with
        | none => rfl
        | some row =>
          simp only [hr] at h ⊢
          rcases hp : process b.chain row g with ⟨g', _ | _ | _ | _⟩ <;> simp only [hp] at h ⊢
          rcases hn : b.hasNext range with ⟨(_ | _) | _ | _ | _, b'⟩ <;> simp only [hn] at h ⊢
          · rcases hf : flush b.chain g' with ⟨g'', _ | _ | _ | _⟩ <;> simp only [hf] at h ⊢
            exact ih _ _ h
          · exact ih _ _ h

theorem drive_mono {G : Type} (process : ChainId → Row → G → G × Res Unit) (flush : ChainId → G → G × Res Unit)
    (range : TimestampRange) (fuel k : Nat) (sources : List Source) (g : G)
    (h : (drive process flush range fuel sources g).2 ≠ .diverge) :
    drive process flush range (fuel + k) sources g = drive process flush range fuel sources g := by
  unfold drive at h ⊢
  cases hb : getRowBuffers range sources with
  | ok bufs => simp only [hb] at h ⊢; exact driveLoop_mono _ _ _ _ _ _ _ h
  | _ => rfl

theorem perform_ok {G : Type} {process : ChainId → Row → G → G × Res Unit} {flush : ChainId → G → G × Res Unit} :
    ∀ {cs : List Call} {out : Res Unit} {g : G}, (perform process flush cs out g).2 = .ok () → out = .ok ()
  | [], _, _, h => h
  | .feed c r :: cs, out, g, h => by
    simp only [perform] at h
    rcases hp : process c r g with ⟨g', _ | _ | _ | _⟩ <;> simp only [hp] at h
    · exact perform_ok h
    all_goals cases h
  | .flush c :: cs, out, g, h => by
    simp only [perform] at h
    rcases hp : flush c g with ⟨g', _ | _ | _ | _⟩ <;> simp only [hp] at h
    · exact perform_ok h
    all_goals cases h

end Chopper
