import Verif.Proofs.HeaderGraph2

namespace Chopper
open Spec

variable {D : Type}

theorem isMergeChain_iff {chains : List (HChain D)} {c : Nat} :
    isMergeChain chains c = true ↔ ∃ s n rest, chains[c]? = some (.mergeSink s n :: rest) := by
  unfold isMergeChain
  split
  · rename_i s n rest h; simp [h]
  · rename_i h
    simp only [Bool.false_eq_true, false_iff, not_exists]
    intro s n rest hh; exact h s n rest hh

/-- The chain is there and not empty. -/
def LiveAt (chains : List (HChain D)) (c : Nat) : Prop := ∃ n ns, chains[c]? = some (n :: ns)

theorem Eff.liveBack {mj : D} {aO aD : Nat → Prop} {t1} {σ1 σ2 : HState D} (h1 : Eff mj aO aD t1 σ1 σ2) {c : Nat}
    (h : LiveAt σ2.chains c) : LiveAt σ1.chains c ∧ isMergeChain σ1.chains c = isMergeChain σ2.chains c := by
  obtain ⟨n, ns, hc⟩ := h
  obtain ⟨n1, a, h2, h3⟩ := h1.back hc
  refine ⟨⟨n1, ns, h2⟩, ?_⟩
  rw [Bool.eq_iff_iff, isMergeChain_iff, isMergeChain_iff]
  rcases h3 with ⟨_, he⟩ | ⟨s, k, ns', h0, he, he', _⟩
  · rw [h2, hc, he]
  · rw [h2, hc, he, he']; simp

theorem processHeaderRe_spec {mj : D} {dbg fuel} {c : Nat} {h : Header} {σ σ' : HState D} {w : Nat}
    (hlen : σ.data.length = σ.chains.length)
    (hok : processHeaderRe dbg mj fuel c h σ = .ok σ') :
    LiveAt σ.chains c ∧
    ∃ tr, Full mj (fun x => x = w) (fun _ => False)
      (fun c' m' => if c' = w ∧ m' = c ∧ isMergeChain σ.chains c = true then 1 else 0) (fun _ _ => 0)
      (fun k d h' => k = .split w ∧ d = c ∧ h' = h ∧ isMergeChain σ.chains c = false) tr σ σ' ∧
      (isMergeChain σ.chains c = true → .arrive w c h ∈ tr) ∧
      (isMergeChain σ.chains c = false → .enter c (.split w) h ∈ tr) := by
  unfold processHeaderRe at hok
  cases hc : σ.chains[c]? with
  | none => simp [hc] at hok
  | some ch =>
    match ch, hc with
    | [], hc => simp [hc] at hok
    | .mergeSink s n :: rest, hc =>
      simp only [hc] at hok
      have him : isMergeChain σ.chains c = true := isMergeChain_iff.2 ⟨s, n, rest, hc⟩
      refine ⟨⟨_, _, hc⟩, ?_⟩
      obtain ⟨tr, hf⟩ := checkMerge_spec (matchRemove_spec mj dbg fuel) (s := w) hlen hok (fun _ _ _ => False)
      refine ⟨.arrive w c h :: tr, hf.mono (fun _ h => h) (fun _ h => h) ?_ (fun _ _ _ h => h.elim), ?_, ?_⟩
      · intro c' m'; simp [him]
      · simp
      · simp [him]
    | .sink f :: rest, hc => exact other hc hok (by simp [isMergeChain, hc])
    | .splitSink ids n :: rest, hc => exact other hc hok (by simp [isMergeChain, hc])
    | .merge m :: rest, hc => exact other hc hok (by simp [isMergeChain, hc])
where
  other {n : HNode D} {rest} (hc : σ.chains[c]? = some (n :: rest))
      (hok : (match σ.chains[c]? with
        | none => Res.panic
        | some [] => Res.panic
        | some (.mergeSink _ _ :: _) => checkMergeHeader (matchRemoveChain dbg mj fuel) c h σ
        | some (_ :: _) => matchRemoveChain dbg mj fuel c h σ) = .ok σ')
      (him : isMergeChain σ.chains c = false) :
      LiveAt σ.chains c ∧
      ∃ tr, Full mj (fun x => x = w) (fun _ => False)
        (fun c' m' => if c' = w ∧ m' = c ∧ isMergeChain σ.chains c = true then 1 else 0) (fun _ _ => 0)
        (fun k d h' => k = .split w ∧ d = c ∧ h' = h ∧ isMergeChain σ.chains c = false) tr σ σ' ∧
        (isMergeChain σ.chains c = true → .arrive w c h ∈ tr) ∧
        (isMergeChain σ.chains c = false → .enter c (.split w) h ∈ tr) := by
    have hok' : matchRemoveChain dbg mj fuel c h σ = .ok σ' := by
      rw [hc] at hok
      cases n with
      | mergeSink s n => simp [isMergeChain, hc] at him
      | sink f => exact hok
      | splitSink a b => exact hok
      | merge m => exact hok
    obtain ⟨tr, hf, hcall⟩ := matchRemove_spec mj dbg fuel c (.split w) h σ σ' hlen (by simp) hok'
    refine ⟨⟨_, _, hc⟩, tr, hf.mono (by intro x hx; simp at hx; exact hx.symm) (fun _ h => h) (by simp [him]) ?_, by simp [him], ?_⟩
    · rintro k d h' ⟨rfl, rfl, rfl⟩; exact ⟨rfl, rfl, rfl, him⟩
    · intro _
      rcases hcall with ⟨rest, rfl⟩ | h1 | h1
      · simp
      · rw [hc] at h1; simp at h1
      · have := (List.getElem?_eq_some_iff.1 hc).1; omega

theorem processHeadersFrom_spec {mj : D} {dbg fuel} {w : Nat} : ∀ (hs : List Header) (i : Nat) (σ σ' : HState D),
    σ.data.length = σ.chains.length →
    processHeadersFrom dbg mj fuel i hs σ = .ok σ' →
    ∃ tr, Full mj (fun x => x = w) (fun _ => False)
      (fun c' m' => if c' = w ∧ i ≤ m' ∧ m' < i + hs.length ∧ isMergeChain σ.chains m' = true then 1 else 0) (fun _ _ => 0)
      (fun k d h' => k = .split w ∧ i ≤ d ∧ hs[d - i]? = some h' ∧ isMergeChain σ.chains d = false) tr σ σ' ∧
      ∀ (j : Nat) h, hs[j]? = some h → LiveAt σ.chains (i + j) ∧
        (isMergeChain σ.chains (i + j) = true → .arrive w (i + j) h ∈ tr) ∧
        (isMergeChain σ.chains (i + j) = false → .enter (i + j) (.split w) h ∈ tr) := by
  intro hs
  induction hs with
  | nil =>
    intro i σ σ' _ hok
    simp [processHeadersFrom] at hok; subst hok
    refine ⟨[], (Full.refl mj _ _ (fun _ _ => 0) _ σ).mono (fun _ h => h) (fun _ h => h) ?_ (fun _ _ _ h => h), by simp⟩
    intro c m
    have : ¬ (c = w ∧ i ≤ m ∧ m < i + ([] : List Header).length ∧ isMergeChain σ.chains m = true) := by simp; omega
    simp only [this, if_false]
  | cons h hs ih =>
    intro i σ σ' hlen hok
    simp only [processHeadersFrom] at hok
    cases hr : processHeaderRe dbg mj fuel i h σ with
    | ok σ1 =>
      simp only [hr] at hok
      obtain ⟨hl, t1, hf1, ha1, he1⟩ := processHeaderRe_spec (w := w) hlen hr
      have hlen1 : σ1.data.length = σ1.chains.length := by rw [hf1.eff.lenC, hf1.eff.lenD]; exact hlen
      obtain ⟨t2, hf2, hj⟩ := ih (i + 1) σ1 σ' hlen1 hok
      have hback : ∀ (j : Nat), j < hs.length → LiveAt σ.chains (i + 1 + j) ∧
          isMergeChain σ.chains (i + 1 + j) = isMergeChain σ1.chains (i + 1 + j) := by
        intro j hjlt
        exact hf1.eff.liveBack (hj j hs[j] (by simp [hjlt])).1
      refine ⟨t1 ++ t2, ?_, ?_⟩
      · refine ((hf1.mono (fun _ h => h) (fun _ h => h) (fun _ _ => rfl) ?_).trans
            (hf2.mono (oL' := fun c' m' => if c' = w ∧ i + 1 ≤ m' ∧ m' < i + 1 + hs.length ∧ isMergeChain σ.chains m' = true then 1 else 0)
              (oR' := fun _ _ => 0) (fun _ h => h) (fun _ h => h) ?_ ?_)
            (by simp)).mono (fun _ h => h) (fun _ h => h) ?_ (fun _ _ _ h => h)
        · rintro k d h' ⟨rfl, rfl, rfl, hm⟩
          exact ⟨rfl, Nat.le_refl _, by simp, hm⟩
        · intro c m
          by_cases hm : i + 1 ≤ m ∧ m < i + 1 + hs.length
          · obtain ⟨j, rfl⟩ : ∃ j, m = i + 1 + j := ⟨m - (i + 1), by omega⟩
            rw [(hback j (by omega)).2]
          · have : ¬ (i + 1 ≤ m ∧ m < i + 1 + hs.length ∧ isMergeChain σ.chains m = true) := fun h => hm ⟨h.1, h.2.1⟩
            have h2 : ¬ (i + 1 ≤ m ∧ m < i + 1 + hs.length ∧ isMergeChain σ1.chains m = true) := fun h => hm ⟨h.1, h.2.1⟩
            simp only [this, h2, and_false]
        · rintro k d h' ⟨rfl, hd, hh, hm⟩
          obtain ⟨j, rfl⟩ : ∃ j, d = i + 1 + j := ⟨d - (i + 1), by omega⟩
          have hjlt : j < hs.length := by
            have := (List.getElem?_eq_some_iff.1 hh).1; omega
          refine ⟨rfl, by omega, ?_, by rw [(hback j hjlt).2]; exact hm⟩
          rw [show i + 1 + j - i = j + 1 by omega, List.getElem?_cons_succ]
          rw [show i + 1 + j - (i + 1) = j by omega] at hh
          exact hh
        · intro c m
          simp only [List.length_cons]
          by_cases hcw : c = w
          · by_cases hmi : m = i
            · subst hmi
              by_cases hM : isMergeChain σ.chains m = true
              · have h1 : m < m + (hs.length + 1) := by omega
                have h2 : ¬ (m + 1 ≤ m) := by omega
                simp [hcw, hM]; omega
              · simp [hM]
            · by_cases hM : isMergeChain σ.chains m = true
              · simp only [hcw, hM, hmi, true_and, and_true, false_and, if_false]
                by_cases hr : i + 1 ≤ m ∧ m < i + 1 + hs.length
                · rw [if_pos (by omega), if_pos hr]
                · rw [if_neg (by omega), if_neg hr]
              · simp [hM, hmi]
          · simp [hcw]
      · intro j h' hj'
        cases j with
        | zero =>
          simp at hj'; subst hj'
          exact ⟨by simpa using hl, fun hm => by simp [ha1 hm], fun hm => by simp [he1 hm]⟩
        | succ j =>
          rw [List.getElem?_cons_succ] at hj'
          have hjlt := (List.getElem?_eq_some_iff.1 hj').1
          have e : i + (j + 1) = i + 1 + j := by omega
          rw [e]
          obtain ⟨a, b, c⟩ := hj j h' hj'
          obtain ⟨a', b'⟩ := hback j hjlt
          rw [b']
          exact ⟨a', fun hm => by simp [b hm], fun hm => by simp [c hm]⟩
    | _ => simp [hr] at hok

/-! ## Counting arrivals -/

theorem sum_range_succ' (f : Nat → Nat) (c L : Nat) (hc : c < L) (k : Nat) :
    ((List.range L).map (fun x => f x + if c = x then k else 0)).sum = ((List.range L).map f).sum + k := by
  induction L with
  | zero => omega
  | succ L ih =>
    simp only [List.range_succ, List.map_append, List.map_cons, List.map_nil, List.sum_append, List.sum_cons, List.sum_nil]
    by_cases h : c = L
    · subst h
      have : ∀ L', L' ≤ c → ((List.range L').map (fun x => f x + if c = x then k else 0)).sum = ((List.range L').map f).sum := by
        intro L'
        induction L' with
        | zero => simp
        | succ L' ih2 =>
          intro hl
          simp only [List.range_succ, List.map_append, List.map_cons, List.map_nil, List.sum_append, List.sum_cons, List.sum_nil]
          rw [ih2 (by omega), if_neg (by omega)]; omega
      rw [this c (Nat.le_refl _)]; simp; omega
    · rw [ih (by omega), if_neg h]; omega

theorem arrs_count (m L w : Nat) (hw : L ≤ w) : ∀ tr : List HEv, (∀ c h, .arrive c m h ∈ tr → c < L ∨ c = w) →
    (arrs m tr).length = ((List.range L).map (fun c => arrFrom c m tr)).sum + arrFrom w m tr := by
  intro tr
  induction tr with
  | nil =>
    intro _
    have : ∀ L : List Nat, (L.map (fun _ => 0)).sum = 0 := by intro L; induction L <;> simp_all
    simp [this]
  | cons e tr ih =>
    intro hs
    have ih' := ih (fun c h hh => hs c h (by simp [hh]))
    cases e with
    | enter c k h => simp only [arrs_enter, arrFrom_enter]; exact ih'
    | arrive c m' h =>
      simp only [arrs_arrive, arrFrom_arrive]
      by_cases hm : m' = m
      · subst hm
        simp only [if_true, List.length_cons, and_true]
        rcases hs c h (by simp) with hc | hc
        · rw [sum_range_succ' _ c L hc 1, if_neg (by omega)]; omega
        · subst hc
          have : ((List.range L).map (fun x => arrFrom x m' tr + if c = x then 1 else 0)) = (List.range L).map (fun x => arrFrom x m' tr) := by
            apply List.map_congr_left
            intro x hx
            rw [List.mem_range] at hx
            rw [if_neg (by omega)]; rfl
          rw [this]; simp; omega
      · simp only [hm, if_false, and_false, Nat.add_zero]; exact ih'

theorem map_sum_dat (σ : HState D) (f : DChain D → Nat) :
    (σ.data.map f).sum = ((List.range σ.data.length).map (fun c => f (dat σ c))).sum := by
  congr 1
  apply List.ext_getElem (by simp)
  intro i h1 h2
  have : i < σ.data.length := by simpa using h1
  simp [dat, this]

/-- The trace of a successful setup. -/
theorem processHeader_full {mj : D} {dbg fuel} {chains : List (HChain D)} {headers : List Header} {g : DGraph D}
    (hok : processHeader dbg mj fuel chains headers = .ok g) :
    ∃ tr σ', g = ⟨σ'.data, []⟩ ∧
      Full mj (fun x => x = chains.length + 1) (fun _ => False)
      (fun c' m' => if c' = chains.length + 1 ∧ m' < headers.length ∧ isMergeChain chains m' = true then 1 else 0) (fun _ _ => 0)
      (fun k d h' => k = .split (chains.length + 1) ∧ headers[d]? = some h' ∧ isMergeChain chains d = false) tr
      ⟨chains, chains.map (fun _ => [])⟩ σ' ∧
      ∀ (j : Nat) h, headers[j]? = some h → LiveAt chains j ∧
        (isMergeChain chains j = true → .arrive (chains.length + 1) j h ∈ tr) ∧
        (isMergeChain chains j = false → .enter j (.split (chains.length + 1)) h ∈ tr) := by
  unfold processHeader at hok
  cases hr : processHeadersFrom dbg mj fuel 0 headers ⟨chains, chains.map (fun _ => [])⟩ with
  | ok σ' =>
    rw [hr] at hok; simp at hok
    obtain ⟨tr, hf, hj⟩ := processHeadersFrom_spec (w := chains.length + 1) headers 0 _ σ' (by simp) hr
    refine ⟨tr, σ', hok.symm, ?_, ?_⟩
    · simpa using hf
    · simpa using hj
  | _ => rw [hr] at hok; simp at hok

/-- Entry header and arrivals read off the trace. -/
def entryOf (tr : List HEv) (c : Nat) : Option Header := ((ents c tr).head?).map (·.2)

theorem dat_init (chains : List (HChain D)) (c : Nat) : dat (⟨chains, chains.map (fun _ => [])⟩ : HState D) c = [] := by
  simp only [dat, List.getElem?_map]
  cases chains[c]? <;> rfl

theorem data_init (chains : List (HChain D)) {c : Nat} {ch} (h : chains[c]? = some ch) :
    (chains.map (fun _ => ([] : DChain D)))[c]? = some [] := by
  simp [h]

theorem setup_spec {mj : D} {dbg fuel} {chains : List (HChain D)} {headers : List Header} {g : DGraph D}
    (hok : processHeader dbg mj fuel chains headers = .ok g) :
    ∃ entry arrived, Setup mj chains headers g.chains entry arrived := by
  obtain ⟨tr, σ', rfl, hf, hj⟩ := processHeader_full hok
  have e := hf.eff
  have lc : σ'.chains.length = chains.length := e.lenC
  have ld : σ'.data.length = chains.length := by simpa using e.lenD
  -- what happened to one chain
  have one : ∀ (c : Nat) ch, chains[c]? = some ch →
      (entryOf tr c = none ∧ ents c tr = [] ∧ σ'.data[c]? = some [] ∧ (ch = [] → arrs c tr = []) ∧
        ∃ ch', MStep ch (arrs c tr) ch') ∨
      (∃ k h ds, entryOf tr c = some h ∧ ents c tr = [(k, h)] ∧ σ'.data[c]? = some ds ∧
        ChainBuilt mj (Arr tr c) (Called (⟨chains, chains.map (fun _ => [])⟩ : HState D) tr c) h ch ds ∧ MEnter ch (arrs c tr) h) := by
    intro c ch hc
    cases ch with
    | nil =>
      obtain ⟨a, b, cc, d⟩ := e.dead c hc
      exact .inl ⟨by simp [entryOf, b], b, by rw [d (fun h => h)]; exact data_init chains hc, fun _ => cc, _, .inl ⟨cc, rfl⟩⟩
    | cons n ns =>
      rcases e.live c n ns hc with ⟨h1, h2, ch', h3, h4⟩ | ⟨k, h, ds, old, e1, c1, o1, d1, b1, m1⟩
      · exact .inl ⟨by simp [entryOf, h1], h1, by rw [h2]; exact data_init chains hc, by simp, ch', h4⟩
      · right
        have : old = [] := by
          have := data_init chains hc
          rw [this] at o1; simpa using o1.symm
        subst this
        exact ⟨k, h, ds, by simp [entryOf, e1], e1, by simpa using d1, b1, m1⟩
  have entSome : ∀ c, ents c tr ≠ [] → entryOf tr c ≠ none := by
    intro c hne
    unfold entryOf
    cases h : ents c tr with
    | nil => exact absurd h hne
    | cons p ps => simp
  have entMem : ∀ c k h, .enter c k h ∈ tr → entryOf tr c = some h ∧ c < chains.length := by
    intro c k h hh
    have hm := mem_ents.2 hh
    cases hc : chains[c]? with
    | none => have h1 : ents c tr = [] := (e.oob c hc).1; rw [h1] at hm; simp at hm
    | some ch =>
      rcases one c ch hc with ⟨_, h1, _⟩ | ⟨k', h', ds, h1, h2, _⟩
      · rw [h1] at hm; simp at hm
      · rw [h2] at hm; simp at hm
        refine ⟨by rw [h1, hm.2], (List.getElem?_eq_some_iff.1 hc).1⟩
  have entGet : ∀ c h, entryOf tr c = some h → ∃ k, .enter c k h ∈ tr := by
    intro c h hh
    unfold entryOf at hh
    cases h1 : ents c tr with
    | nil => simp [h1] at hh
    | cons p ps =>
      simp [h1] at hh
      refine ⟨p.1, mem_ents.1 ?_⟩
      rw [h1, ← hh]; simp
  have arrChain : ∀ m, arrs m tr ≠ [] → ∃ s n rest, chains[m]? = some (.mergeSink s n :: rest) := by
    intro m hne
    cases hc : chains[m]? with
    | none => exact absurd (e.oob m hc).2.1 hne
    | some ch =>
      rcases one m ch hc with ⟨_, h1, _, _, ch', h4⟩ | ⟨k', h', ds, h1, h2, _, _, m1⟩
      · rcases h4 with ⟨h5, _⟩ | ⟨s, k, ns, h0, rfl, _⟩
        · exact absurd h5 hne
        · exact ⟨_, _, _, rfl⟩
      · rcases m1 with ⟨h5, _⟩ | ⟨s, k, ns, rfl, _⟩
        · exact absurd h5 hne
        · exact ⟨_, _, _, rfl⟩
  have arrAll : ∀ (m : Nat) s n rest, chains[m]? = some (.mergeSink s n :: rest) → arrs m tr ≠ [] →
      ∃ h0, (∀ h ∈ arrs m tr, h = h0) ∧ (s = none ∨ s = some h0) ∧ (∀ h, entryOf tr m = some h → h = h0) ∧
        (entryOf tr m ≠ none → (arrs m tr).length = n) ∧ (entryOf tr m = none → (arrs m tr).length < n) := by
    intro m s n rest hc hne
    rcases one m _ hc with ⟨h0, h1, _, _, ch', h4⟩ | ⟨k', h', ds, h1, h2, _, _, m1⟩
    · rcases h4 with ⟨h5, _⟩ | ⟨s, k, ns, h0, he, _, _, hlt, hall, hs⟩
      · exact absurd h5 hne
      · cases he
        exact ⟨h0, hall, hs, by simp_all, by simp_all, fun _ => hlt⟩
    · rcases m1 with ⟨h5, _⟩ | ⟨s, k, ns, he, hl, _, hall, hs⟩
      · exact absurd h5 hne
      · cases he
        exact ⟨h', hall, hs, by rw [h1]; simp, fun _ => hl, by simp [h1]⟩
  refine ⟨entryOf tr, fun m => arrs m tr, ?_⟩
  constructor
  · exact ld
  · intro c hc hn
    have hc' : chains[c]? = some chains[c] := by simp [hc]
    rcases one c _ hc' with ⟨_, _, h1, _⟩ | ⟨k, h, ds, h1, _⟩
    · exact h1
    · rw [h1] at hn; simp at hn
  · intro c ch h hc hh
    rcases one c ch hc with ⟨h1, _⟩ | ⟨k, h', ds, h1, h2, h3, h4, _⟩
    · rw [h1] at hh; simp at hh
    · rw [h1] at hh; cases hh
      refine ⟨ds, h3, h4.mono (fun m h' ha => mem_arrs.2 ⟨c, ha⟩) ?_⟩
      intro d h' hcal
      rcases hcal with h5 | h5 | h5 | h5
      · left; rw [(entMem d _ _ h5).1]; simp
      · exact .inr (.inl h5)
      · exact .inr (.inr h5)
      · exact .inl (entSome d h5)
  · intro i h hh hm
    exact mem_arrs.2 ⟨_, (hj i h hh).2.1 hm⟩
  · intro i h hh hm
    exact (entMem i _ h ((hj i h hh).2.2 hm)).1
  · intro c h hh
    obtain ⟨k, hk⟩ := entGet c h hh
    rcases hf.orig c k h hk with ⟨_, h1, h2⟩ | h1
    · exact .inl ⟨h1, h2⟩
    · cases k with
      | split c' =>
        obtain ⟨ch, k0, h0, a, b, cc⟩ := h1
        exact .inr (.inl ⟨c', h0, ch, (entMem c' k0 h0 b).1, a, cc⟩)
      | merge =>
        obtain ⟨⟨s, n, rest, a⟩, b⟩ := h1
        obtain ⟨h0, h2, h3, h4, h5, h6⟩ := arrAll c s n rest a b
        refine .inr (.inr ⟨s, n, rest, a, h5 (by simp [hh]), ?_⟩)
        obtain ⟨x, hx⟩ := List.exists_mem_of_ne_nil _ b
        rw [h4 h hh, ← h2 x hx]; exact hx
  · intro m hm
    exact isMergeChain_iff.2 (arrChain m hm)
  · intro m h h' h1 h2
    obtain ⟨s, n, rest, hc⟩ := arrChain m (List.ne_nil_of_mem h1)
    obtain ⟨h0, h3, _⟩ := arrAll m s n rest hc (List.ne_nil_of_mem h1)
    rw [h3 h h1, h3 h' h2]
  · intro m s n rest h hc h1
    obtain ⟨h0, h3, h4, _⟩ := arrAll m _ n rest hc (List.ne_nil_of_mem h1)
    rcases h4 with h4 | h4
    · simp at h4
    · simp at h4; rw [h3 h h1, h4]
  · intro m h h' h1 h2
    obtain ⟨s, n, rest, hc⟩ := arrChain m (List.ne_nil_of_mem h1)
    obtain ⟨h0, h3, _, h4, _⟩ := arrAll m s n rest hc (List.ne_nil_of_mem h1)
    rw [h3 h h1, h4 h' h2]
  · intro m s n rest hc hne
    obtain ⟨h0, _, _, _, h5, h6⟩ := arrAll m s n rest hc hne
    exact ⟨h5, h6⟩
  · intro m
    rw [arrs_count m chains.length (chains.length + 1) (by omega) tr ?_]
    · have h1 := hf.cnt (chains.length + 1) m
      have h2 : dat σ' (chains.length + 1) = [] := by
        simp only [dat]; rw [List.getElem?_eq_none (by omega)]; rfl
      have h3 : arrFrom (chains.length + 1) m tr = if m < headers.length ∧ isMergeChain chains m = true then 1 else 0 := by
        rw [h2, dat_init] at h1
        simp only [mergesTo, List.countP_nil, true_and, Nat.zero_add, Nat.add_zero] at h1
        exact h1.symm
      rw [h3, map_sum_dat, ld]
      congr 2
      apply List.map_congr_left
      intro c hc
      rw [List.mem_range] at hc
      have h4 := hf.cnt c m
      rw [dat_init] at h4
      have : ¬ c = chains.length + 1 := by omega
      simp [this, mergesTo] at h4
      simp [mergesTo, h4]
    · intro c h hh
      obtain ⟨p, q, hp⟩ := List.append_of_mem hh
      rcases e.ord p q c m h hp with h1 | h1
      · exact .inr h1
      · left
        obtain ⟨⟨k, h'⟩, hx⟩ := List.exists_mem_of_ne_nil _ h1
        exact (entMem c k h' (by rw [hp]; exact List.mem_append_left _ (mem_ents.1 hx))).2

end Chopper
