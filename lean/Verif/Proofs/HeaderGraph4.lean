import Verif.Proofs.HeaderGraph3
import Verif.Props.Graph

namespace Chopper
open Spec

variable {D : Type}

/-! ## Termination of the setup -/

/-- No header sink loops forever. -/
def SinksStop (chains : List (HChain D)) : Prop :=
  ∀ ch ∈ chains, ∀ f, HNode.sink f ∈ ch → ∀ h, f h ≠ .diverge

theorem SinksStop.set {chains : List (HChain D)} (h : SinksStop chains) {c : Nat} {v : HChain D}
    (hv : ∀ f, HNode.sink f ∈ v → ∀ h, f h ≠ .diverge) : SinksStop (chains.set c v) := by
  intro ch hch
  rcases List.mem_or_eq_of_mem_set hch with h1 | rfl
  · exact h ch h1
  · exact hv

theorem liveChains_set {chains : List (HChain D)} {c : Nat} {ch v : HChain D} (hc : chains[c]? = some ch) :
    liveChains (chains.set c v) + (if ch.isEmpty then 0 else 1) = liveChains chains + (if v.isEmpty then 0 else 1) := by
  unfold liveChains
  induction chains generalizing c with
  | nil => simp at hc
  | cons x xs ih =>
    cases c with
    | zero =>
      simp at hc; subst hc
      simp only [List.set_cons_zero, List.countP_cons]
      cases x <;> cases v <;> simp
    | succ c =>
      simp at hc
      have := ih hc
      simp only [List.set_cons_succ, List.countP_cons]
      omega

def Stops (n : Nat) (rec : Nat → Header → HState D → Res (HState D)) : Prop :=
  ∀ c h σ, SinksStop σ.chains → liveChains σ.chains + 1 ≤ n →
    rec c h σ ≠ .diverge ∧ ∀ σ', rec c h σ = .ok σ' → SinksStop σ'.chains ∧ liveChains σ'.chains ≤ liveChains σ.chains

theorem checkMerge_stops {n : Nat} {rec : Nat → Header → HState D → Res (HState D)} (hrec : Stops n rec) :
    Stops n (checkMergeHeader rec) := by
  intro c h σ hs hn
  unfold checkMergeHeader
  cases hc : σ.chains[c]? with
  | none => simp
  | some ch =>
    have hmem := List.mem_of_getElem? hc
    match ch, hc with
    | [], hc => simp
    | .sink _ :: _, hc => simp
    | .splitSink _ _ :: _, hc => simp
    | .merge _ :: _, hc => simp
    | .mergeSink seen k :: rest, hc =>
      have key : ∀ s' k', SinksStop (σ.chains.set c (.mergeSink s' k' :: rest)) ∧
          liveChains (σ.chains.set c (.mergeSink s' k' :: rest)) = liveChains σ.chains := by
        intro s' k'
        refine ⟨hs.set ?_, ?_⟩
        · intro f hf
          simp at hf
          exact hs _ hmem f (by simp [hf])
        · have := liveChains_set (v := .mergeSink s' k' :: rest) hc; simp at this; omega
      simp only
      split
      · simp
      · cases mergeCheckHeader seen h with
        | none => simp
        | some h0 =>
          simp only
          split
          · have h1 := key none (k - 1)
            have h2 := hrec c h0 { σ with chains := σ.chains.set c (.mergeSink none (k - 1) :: rest) } h1.1 (by rw [h1.2]; exact hn)
            refine ⟨h2.1, fun σ' he => ?_⟩
            have h3 := h2.2 σ' he
            exact ⟨h3.1, by simpa [h1.2] using h3.2⟩
          · have h1 := key (some h0) (k - 1)
            refine ⟨by simp, ?_⟩
            intro σ' he
            simp at he; subst he
            exact ⟨h1.1, by simp [h1.2]⟩

theorem splitLoop_stops {n : Nat} {rec : Nat → Header → HState D → Res (HState D)} (hrec : Stops n rec) (dbg h) :
    ∀ (ids : List Nat) (k : Nat) (σ : HState D), SinksStop σ.chains → liveChains σ.chains + 1 ≤ n →
    splitLoop dbg rec h ids k σ ≠ .diverge ∧
      ∀ σ', splitLoop dbg rec h ids k σ = .ok σ' → SinksStop σ'.chains ∧ liveChains σ'.chains ≤ liveChains σ.chains := by
  intro ids
  induction ids with
  | nil => intro k σ hs _; simp [splitLoop]; exact hs
  | cons d ids ih =>
    intro k σ hs hn
    have h1 := hrec d h σ hs hn
    simp only [splitLoop]
    cases hr : rec d h σ with
    | ok σ1 =>
      simp only
      have h2 := h1.2 σ1 hr
      split
      · simp
      · have h3 := ih (k - 1) σ1 h2.1 (by omega)
        exact ⟨h3.1, fun σ' he => ⟨(h3.2 σ' he).1, Nat.le_trans (h3.2 σ' he).2 h2.2⟩⟩
    | err e => simp
    | panic => simp
    | diverge => exact absurd hr h1.1

theorem nodesLoop_stops {n : Nat} {mj : D} {rec : Nat → Header → HState D → Res (HState D)} (hrec : Stops n rec) (dbg c) :
    ∀ (ns : HChain D), (∀ f, HNode.sink f ∈ ns → ∀ h, f h ≠ .diverge) → ∀ (h : Header) (σ : HState D), SinksStop σ.chains →
    liveChains σ.chains + 1 ≤ n →
    nodesLoop dbg mj rec c ns h σ ≠ .diverge ∧
      ∀ σ', nodesLoop dbg mj rec c ns h σ = .ok σ' → SinksStop σ'.chains ∧ liveChains σ'.chains ≤ liveChains σ.chains := by
  intro ns
  induction ns with
  | nil => intro _ h σ hs _; simp [nodesLoop]; exact hs
  | cons nd ns ih =>
    intro hf h σ hs hn
    have ih' := ih (fun f hh => hf f (by simp [hh]))
    cases nd with
    | sink f =>
      simp only [nodesLoop]
      cases hr : f h with
      | ok p =>
        obtain ⟨d, h'⟩ := p
        simp only
        cases addNode σ.data c (.sink d) with
        | none => simp
        | some data => exact ih' h' { σ with data := data } hs hn
      | err e => simp
      | panic => simp
      | diverge => exact absurd hr (hf f (by simp) h)
    | mergeSink seen k =>
      simp only [nodesLoop]
      cases seen with
      | some _ => simp
      | none =>
        simp only
        cases addNode σ.data c (.sink mj) with
        | none => simp
        | some data => exact ih' h { σ with data := data } hs hn
    | splitSink ids k =>
      simp only [nodesLoop]
      split
      · simp
      · have h1 := splitLoop_stops hrec dbg h ids k σ hs hn
        cases hr : splitLoop dbg rec h ids k σ with
        | ok σ1 =>
          simp only
          have h2 := h1.2 σ1 hr
          cases addNode σ1.data c (.split ids) with
          | none => simp
          | some data =>
            have h3 := ih' h { σ1 with data := data } h2.1 (by simp; omega)
            exact ⟨h3.1, fun σ' he => ⟨(h3.2 σ' he).1, Nat.le_trans (h3.2 σ' he).2 h2.2⟩⟩
        | err e => simp
        | panic => simp
        | diverge => exact absurd hr h1.1
    | merge m =>
      simp only [nodesLoop]
      cases addNode σ.data c (.merge m) with
      | none => simp
      | some data =>
        simp only
        have h1 := checkMerge_stops hrec m h { σ with data := data } hs hn
        cases hr : checkMergeHeader rec m h { σ with data := data } with
        | ok σ1 =>
          simp only
          have h2 := h1.2 σ1 hr
          have h3 := ih' h σ1 h2.1 (Nat.le_trans (Nat.succ_le_succ h2.2) hn)
          exact ⟨h3.1, fun σ' he => ⟨(h3.2 σ' he).1, Nat.le_trans (h3.2 σ' he).2 h2.2⟩⟩
        | err e => simp
        | panic => simp
        | diverge => exact absurd hr h1.1

theorem matchRemove_stops (mj : D) (dbg : Bool) : ∀ fuel, Stops fuel (matchRemoveChain dbg mj fuel) := by
  intro fuel
  induction fuel with
  | zero => intro c h σ _ hn; omega
  | succ fuel ih =>
    intro c h σ hs hn
    simp only [matchRemoveChain]
    cases hc : σ.chains[c]? with
    | none =>
      have hge := List.getElem?_eq_none_iff.1 hc
      by_cases he : c = σ.chains.length
      · rw [hSwapRemove_eq he]; simp [nodesLoop]; exact hs
      · rw [hSwapRemove_gt (by omega)]; simp
    | some ch =>
      rw [hSwapRemove_lt hc]
      simp only
      have hmem := List.mem_of_getElem? hc
      have hl := liveChains_set (v := []) hc
      have hs' : SinksStop (σ.chains.set c []) := hs.set (by simp)
      cases ch with
      | nil =>
        simp only [nodesLoop]
        refine ⟨by simp, fun σ' he => ?_⟩
        simp at he; subst he
        simp at hl
        exact ⟨hs', by simp; omega⟩
      | cons n ns =>
        simp at hl
        have h1 := nodesLoop_stops (mj := mj) ih dbg c (n :: ns) (hs _ hmem) h { σ with chains := σ.chains.set c [] } hs'
          (by simp; omega)
        exact ⟨h1.1, fun σ' he => ⟨(h1.2 σ' he).1, Nat.le_trans (h1.2 σ' he).2 (by simp; omega)⟩⟩

theorem processHeadersFrom_stops (mj : D) (dbg : Bool) (fuel : Nat) : ∀ (hs : List Header) (i : Nat) (σ : HState D),
    SinksStop σ.chains → liveChains σ.chains + 1 ≤ fuel → processHeadersFrom dbg mj fuel i hs σ ≠ .diverge := by
  intro hs
  induction hs with
  | nil => intro i σ _ _; simp [processHeadersFrom]
  | cons h hs ih =>
    intro i σ hst hn
    have key : processHeaderRe dbg mj fuel i h σ ≠ .diverge ∧ ∀ σ', processHeaderRe dbg mj fuel i h σ = .ok σ' →
        SinksStop σ'.chains ∧ liveChains σ'.chains ≤ liveChains σ.chains := by
      unfold processHeaderRe
      split
      · simp
      · simp
      · exact checkMerge_stops (matchRemove_stops mj dbg fuel) i h σ hst hn
      · exact matchRemove_stops mj dbg fuel i h σ hst hn
    simp only [processHeadersFrom]
    cases hr : processHeaderRe dbg mj fuel i h σ with
    | ok σ1 => exact ih (i + 1) σ1 (key.2 σ1 hr).1 (by have := (key.2 σ1 hr).2; omega)
    | err e => simp
    | panic => simp
    | diverge => exact absurd hr key.1

theorem processHeader_stops (mj : D) (dbg : Bool) (fuel : Nat) (chains : List (HChain D)) (headers : List Header)
    (hs : SinksStop chains) (hn : liveChains chains + 1 ≤ fuel) : processHeader dbg mj fuel chains headers ≠ .diverge := by
  unfold processHeader
  have := processHeadersFrom_stops mj dbg fuel headers 0 ⟨chains, chains.map (fun _ => [])⟩ hs hn
  cases hr : processHeadersFrom dbg mj fuel 0 headers ⟨chains, chains.map (fun _ => [])⟩ with
  | ok σ => simp
  | err e => simp
  | panic => simp
  | diverge => exact absurd hr this

/-! ## More fuel changes nothing -/

def FuelExt (rec rec' : Nat → Header → HState D → Res (HState D)) : Prop :=
  ∀ c h σ, rec c h σ ≠ .diverge → rec' c h σ = rec c h σ

theorem checkMerge_ext {rec rec' : Nat → Header → HState D → Res (HState D)} (hx : FuelExt rec rec') :
    FuelExt (checkMergeHeader rec) (checkMergeHeader rec') := by
  intro c h σ
  unfold checkMergeHeader
  split
  · simp
  · simp
  · split
    · simp
    · split
      · simp
      · split
        · exact hx _ _ _
        · simp
  · simp

theorem splitLoop_ext {rec rec' : Nat → Header → HState D → Res (HState D)} (hx : FuelExt rec rec') (dbg h) :
    ∀ (ids : List Nat) (k : Nat) (σ : HState D), splitLoop dbg rec h ids k σ ≠ .diverge →
      splitLoop dbg rec' h ids k σ = splitLoop dbg rec h ids k σ := by
  intro ids
  induction ids with
  | nil => intro k σ _; rfl
  | cons d ids ih =>
    intro k σ hne
    simp only [splitLoop] at hne ⊢
    have h1 := hx d h σ
    cases hr : rec d h σ with
    | ok σ1 =>
      rw [hr] at h1 hne
      rw [h1 (by simp)]
      simp only at hne ⊢
      split
      · rfl
      · rename_i hh; rw [if_neg hh] at hne; exact ih _ _ hne
    | err e => rw [hr] at h1; rw [h1 (by simp)]
    | panic => rw [hr] at h1; rw [h1 (by simp)]
    | diverge => rw [hr] at hne; simp at hne

theorem nodesLoop_ext {mj : D} {rec rec' : Nat → Header → HState D → Res (HState D)} (hx : FuelExt rec rec') (dbg c) :
    ∀ (ns : HChain D) (h : Header) (σ : HState D), nodesLoop dbg mj rec c ns h σ ≠ .diverge →
      nodesLoop dbg mj rec' c ns h σ = nodesLoop dbg mj rec c ns h σ := by
  intro ns
  induction ns with
  | nil => intro h σ _; rfl
  | cons nd ns ih =>
    intro h σ hne
    cases nd with
    | sink f =>
      simp only [nodesLoop] at hne ⊢
      cases hr : f h with
      | ok p =>
        obtain ⟨d, h'⟩ := p
        simp only [hr] at hne ⊢
        cases ha : addNode σ.data c (.sink d) with
        | none => rfl
        | some data => simp only [ha] at hne; exact ih _ _ hne
      | _ => rfl
    | mergeSink seen k =>
      simp only [nodesLoop] at hne ⊢
      cases seen with
      | some _ => rfl
      | none =>
        simp only at hne ⊢
        cases ha : addNode σ.data c (.sink mj) with
        | none => rfl
        | some data => simp only [ha] at hne; exact ih _ _ hne
    | splitSink ids k =>
      simp only [nodesLoop] at hne ⊢
      split
      · rfl
      · rename_i hk
        rw [if_neg hk] at hne
        have h1 := splitLoop_ext hx dbg h ids k σ
        cases hr : splitLoop dbg rec h ids k σ with
        | ok σ1 =>
          rw [hr] at h1 hne
          rw [h1 (by simp)]
          simp only at hne ⊢
          cases ha : addNode σ1.data c (.split ids) with
          | none => rfl
          | some data => simp only [ha] at hne; exact ih _ _ hne
        | err e => rw [hr] at h1; rw [h1 (by simp)]
        | panic => rw [hr] at h1; rw [h1 (by simp)]
        | diverge => rw [hr] at hne; simp at hne
    | merge m =>
      simp only [nodesLoop] at hne ⊢
      cases ha : addNode σ.data c (.merge m) with
      | none => rfl
      | some data =>
        simp only [ha] at hne ⊢
        have h1 := checkMerge_ext hx m h { σ with data := data }
        cases hr : checkMergeHeader rec m h { σ with data := data } with
        | ok σ1 =>
          rw [hr] at h1 hne
          rw [h1 (by simp)]
          exact ih _ _ hne
        | err e => rw [hr] at h1; rw [h1 (by simp)]
        | panic => rw [hr] at h1; rw [h1 (by simp)]
        | diverge => rw [hr] at hne; simp at hne

theorem matchRemove_ext (mj : D) (dbg : Bool) (k : Nat) : ∀ fuel, FuelExt (matchRemoveChain dbg mj fuel) (matchRemoveChain dbg mj (fuel + k)) := by
  intro fuel
  induction fuel with
  | zero => intro c h σ hne; simp [matchRemoveChain] at hne
  | succ fuel ih =>
    intro c h σ hne
    rw [show fuel + 1 + k = (fuel + k) + 1 by omega]
    simp only [matchRemoveChain] at hne ⊢
    cases hs : hSwapRemove σ.chains c with
    | none => rfl
    | some p =>
      obtain ⟨ch, chs⟩ := p
      simp only [hs] at hne ⊢
      exact nodesLoop_ext ih dbg c ch h _ hne

theorem processHeadersFrom_ext (mj : D) (dbg : Bool) (fuel k : Nat) : ∀ (hs : List Header) (i : Nat) (σ : HState D),
    processHeadersFrom dbg mj fuel i hs σ ≠ .diverge →
    processHeadersFrom dbg mj (fuel + k) i hs σ = processHeadersFrom dbg mj fuel i hs σ := by
  intro hs
  induction hs with
  | nil => intro i σ _; rfl
  | cons h hs ih =>
    intro i σ hne
    have h1 : processHeaderRe dbg mj fuel i h σ ≠ .diverge → processHeaderRe dbg mj (fuel + k) i h σ = processHeaderRe dbg mj fuel i h σ := by
      unfold processHeaderRe
      split
      · simp
      · simp
      · exact checkMerge_ext (matchRemove_ext mj dbg k fuel) i h σ
      · exact matchRemove_ext mj dbg k fuel i h σ
    simp only [processHeadersFrom] at hne ⊢
    cases hr : processHeaderRe dbg mj fuel i h σ with
    | ok σ1 =>
      rw [hr] at h1 hne
      rw [h1 (by simp)]
      exact ih _ _ hne
    | err e => rw [hr] at h1; rw [h1 (by simp)]
    | panic => rw [hr] at h1; rw [h1 (by simp)]
    | diverge => rw [hr] at hne; simp at hne

theorem processHeader_ext (mj : D) (dbg : Bool) (fuel k : Nat) (chains : List (HChain D)) (headers : List Header)
    (hne : processHeader dbg mj fuel chains headers ≠ .diverge) :
    processHeader dbg mj (fuel + k) chains headers = processHeader dbg mj fuel chains headers := by
  unfold processHeader at hne ⊢
  rw [processHeadersFrom_ext]
  intro hh; rw [hh] at hne; simp at hne

/-! ## Acyclicity -/

def rk (c : Nat) : List HEv → Nat
  | [] => 0
  | .enter c' _ _ :: t => if c' = c then t.length + 1 else rk c t
  | .arrive _ _ _ :: t => rk c t

theorem rk_le (c : Nat) : ∀ t, rk c t ≤ t.length
  | [] => Nat.le_refl _
  | .enter c' _ _ :: t => by simp only [rk]; split <;> have := rk_le c t <;> simp <;> omega
  | .arrive _ _ _ :: t => by simp only [rk]; have := rk_le c t; simp; omega

theorem rk_after (c : Nat) (q : List HEv) : ∀ p, ents c p = [] → rk c (p ++ q) = rk c q
  | [], _ => rfl
  | .enter c' _ _ :: t, h => by
    simp only [ents_enter] at h
    split at h
    · simp at h
    · rename_i hc; simp only [List.cons_append, rk, hc, if_false]; exact rk_after c q t h
  | .arrive _ _ _ :: t, h => by simp only [List.cons_append, rk]; exact rk_after c q t h

theorem rk_before (c : Nat) (q : List HEv) : ∀ p, ents c p ≠ [] → q.length < rk c (p ++ q)
  | [], h => by simp at h
  | .enter c' _ _ :: t, h => by
    simp only [ents_enter] at h
    split at h
    · rename_i hc; simp only [List.cons_append, rk, hc, if_true]; simp; omega
    · rename_i hc; simp only [List.cons_append, rk, hc, if_false]; exact rk_before c q t h
  | .arrive _ _ _ :: t, h => by simp only [List.cons_append, rk]; exact rk_before c q t h

theorem rk_lt {c d : Nat} {p q : List HEv} (hc : ents c p ≠ []) (hd : ents d p = []) : rk d (p ++ q) < rk c (p ++ q) := by
  rw [rk_after d q p hd]
  exact Nat.lt_of_le_of_lt (rk_le d q) (rk_before c q p hc)

theorem rk_zero {c : Nat} {t : List HEv} (h : ents c t = []) : rk c t = 0 := by
  have := rk_after c [] t h; simpa [rk] using this

theorem splitsFrom_sub {d : Nat} {h' : Header} : ∀ (ch : HChain D) (h : Header), (d, h') ∈ splitsFrom h ch → SplitsTo ch d := by
  intro ch
  induction ch with
  | nil => intro h hh; simp [splitsFrom] at hh
  | cons n ns ih =>
    intro h hh
    have lift : ∀ {h1}, (d, h') ∈ splitsFrom h1 ns → SplitsTo (n :: ns) d := by
      intro h1 h2
      obtain ⟨ids, k, h3, h4⟩ := ih h1 h2
      exact ⟨ids, k, by simp [h3], h4⟩
    cases n with
    | sink f =>
      simp only [splitsFrom] at hh
      split at hh
      · exact lift hh
      · simp at hh
    | mergeSink s k => exact lift hh
    | merge m => exact lift hh
    | splitSink ids k =>
      simp only [splitsFrom, List.mem_append, List.mem_map, Prod.mk.injEq] at hh
      rcases hh with ⟨a, ha, rfl, _⟩ | hh
      · exact ⟨ids, k, by simp, ha⟩
      · exact lift hh

theorem built_split {mj : D} {A C : Nat → Header → Prop} {h : Header} {ch : HChain D} {ds : DChain D}
    (hb : ChainBuilt mj A C h ch ds) {ids : List Nat} (hm : DNode.split ids ∈ ds) : ∃ n, HNode.splitSink ids n ∈ ch := by
  induction hb with
  | nil => simp at hm
  | sink _ _ ih => simp at hm; obtain ⟨n, hn⟩ := ih hm; exact ⟨n, by simp [hn]⟩
  | mergeSink _ ih => simp at hm; obtain ⟨n, hn⟩ := ih hm; exact ⟨n, by simp [hn]⟩
  | split _ _ ih =>
    simp only [List.mem_cons, DNode.split.injEq] at hm
    rcases hm with rfl | hm
    · exact ⟨_, List.mem_cons_self⟩
    · obtain ⟨n, hn⟩ := ih hm; exact ⟨n, by simp [hn]⟩
  | merge _ _ ih => simp at hm; obtain ⟨n, hn⟩ := ih hm; exact ⟨n, by simp [hn]⟩

theorem setup_acyclic {mj : D} {dbg fuel} {chains : List (HChain D)} {headers : List Header} {g : DGraph D}
    (hok : processHeader dbg mj fuel chains headers = .ok g)
    (hone : ∀ (c c' d : Nat) ch ch', chains[c]? = some ch → chains[c']? = some ch' → SplitsTo ch d → SplitsTo ch' d → c = c')
    (hin : ∀ (c d : Nat) ch, chains[c]? = some ch → SplitsTo ch d → headers.length ≤ d ∧ isMergeChain chains d = false) :
    ∃ rank, Acyclic g.chains rank ∧ ∃ R, ∀ c, rank c ≤ R := by
  obtain ⟨tr, σ', rfl, hf, _⟩ := processHeader_full hok
  have e := hf.eff
  refine ⟨fun c => rk c tr, ?_, tr.length, fun c => rk_le c tr⟩
  have live : ∀ (c : Nat) dch n, σ'.data[c]? = some dch → n ∈ dch →
      ∃ ch k h, chains[c]? = some ch ∧ ents c tr = [(k, h)] ∧
        ChainBuilt mj (Arr tr c) (Called (⟨chains, chains.map (fun _ => [])⟩ : HState D) tr c) h ch dch := by
    intro c dch n hd hn
    cases hc : chains[c]? with
    | none =>
      have h1 := List.getElem?_eq_none_iff.1 hc
      have h2 := (List.getElem?_eq_some_iff.1 hd).1
      have h3 : σ'.data.length = chains.length := by simpa using e.lenD
      omega
    | some ch =>
      have hdi := data_init chains hc
      cases ch with
      | nil =>
        have h1 := (e.dead c hc).2.2.2 (fun h => h)
        rw [hd] at h1
        have h2 : some dch = some [] := h1.trans hdi
        simp at h2; subst h2; simp at hn
      | cons m ms =>
        rcases e.live c m ms hc with ⟨_, h2, _⟩ | ⟨k, h, ds, old, e1, _, o1, d1, b1, _⟩
        · rw [hd] at h2
          have h2 : some dch = some [] := h2.trans hdi
          simp at h2; subst h2; simp at hn
        · have : some old = some [] := o1.symm.trans hdi
          simp at this; subst this
          rw [hd] at d1; simp at d1; subst d1
          exact ⟨_, k, h, rfl, e1, b1⟩
  intro c dch hc
  replace hc : σ'.data[c]? = some dch := hc
  refine ⟨?_, ?_⟩
  · intro m hm
    show rk m tr < rk c tr
    have hcnt := hf.cnt c m
    have hlt := (List.getElem?_eq_some_iff.1 hc).1
    have h3 : σ'.data.length = chains.length := by simpa using e.lenD
    have hcw : ¬ c = chains.length + 1 := by omega
    rw [dat_init] at hcnt
    simp only [hcw, false_and, if_false, Nat.add_zero] at hcnt
    have hpos : 0 < arrFrom c m tr := by
      have h4 : 0 < mergesTo m (dat σ' c) := by
        unfold mergesTo
        rw [List.countP_pos_iff]
        exact ⟨.merge m, by simpa [dat, hc] using hm, by simp⟩
      have h5 : mergesTo m ([] : DChain D) = 0 := rfl
      omega
    unfold arrFrom at hpos
    rw [List.countP_pos_iff] at hpos
    obtain ⟨ev, hev, hp⟩ := hpos
    cases ev with
    | enter _ _ _ => simp at hp
    | arrive s m' h =>
      simp at hp
      obtain ⟨rfl, rfl⟩ := hp
      obtain ⟨p, q, hpq⟩ := List.append_of_mem hev
      have h1 : ents s p ≠ [] := by
        rcases e.ord p q s m' h hpq with h1 | h1
        · exact absurd h1 hcw
        · exact h1
      have h2 := e.ordM p q s m' h hpq
      rw [hpq]
      exact rk_lt h1 h2
  · intro ids hids d hd
    show rk d tr < rk c tr
    obtain ⟨ch, k, h, hch, hek, hb⟩ := live c dch _ hc hids
    obtain ⟨n, hn⟩ := built_split hb hids
    have hst : SplitsTo ch d := ⟨ids, n, hn, hd⟩
    obtain ⟨hd1, hd2⟩ := hin c d ch hch hst
    have hcpos : 0 < rk c tr := by
      have := rk_before c [] tr (by simp [hek]); simpa using this
    cases hed : ents d tr with
    | nil => rw [rk_zero hed]; exact hcpos
    | cons p ps =>
      obtain ⟨k', h'⟩ := p
      have hmem : .enter d k' h' ∈ tr := mem_ents.1 (by rw [hed]; simp)
      rcases hf.orig d k' h' hmem with ⟨_, h1, _⟩ | h1
      · have := (List.getElem?_eq_some_iff.1 h1).1; omega
      · cases k' with
        | merge =>
          have := isMergeChain_iff.2 h1.1
          simp only at this
          rw [hd2] at this; simp at this
        | split c' =>
          obtain ⟨ch', k0, h0, a, b, cc⟩ := h1
          have hcc : c = c' := hone c c' d ch ch' hch a hst (splitsFrom_sub _ _ cc)
          subst hcc
          obtain ⟨p, q, hpq⟩ := List.append_of_mem hmem
          have h1 : ents c p ≠ [] := by
            rcases e.ordS p q c d h' hpq with h1 | h1
            · have := (List.getElem?_eq_some_iff.1 hch).1
              omega
            · exact h1
          have h2 : ents d p = [] := by
            -- only one entry into a chain
            have hone' : (ents d tr).length ≤ 1 := by
              cases hcd : chains[d]? with
              | none => have := (e.oob d hcd).1; rw [this]; simp
              | some chd =>
                cases chd with
                | nil => have := (e.dead d hcd).2.1; rw [this]; simp
                | cons n ns =>
                  rcases e.live d n ns hcd with ⟨h5, _⟩ | ⟨_, _, _, _, h5, _⟩ <;> rw [h5] <;> simp
            rw [hpq, ents_append, ents_enter] at hone'
            simp at hone'
            cases hpp : ents d p with
            | nil => rfl
            | cons x xs => rw [hpp] at hone'; simp at hone'; omega
          rw [hpq]
          exact rk_lt h1 h2

end Chopper
