import Verif.Proofs.Graph3
import Verif.Proofs.Driver4
import Verif.Proofs.Cli
import Verif.Spec.Cycles

namespace Chopper
open Spec

variable {S : Type}

/-- Edges of a shape. -/
inductive Edge (sh : List (List (DNode Unit))) (c d : Nat) : Prop
  | merge {ch} : sh[c]? = some ch → DNode.merge d ∈ ch → Edge sh c d
  | split {ch ds} : sh[c]? = some ch → DNode.split ds ∈ ch → d ∈ ds → Edge sh c d

theorem edge_iff (g : DGraph S) (c d : Nat) : Edge g.shape c d ↔ Leads g.chains c d := by
  constructor
  · intro h
    cases h with
    | merge hc hm =>
      rw [shape_get] at hc
      obtain ⟨ch, h1, rfl⟩ := Option.map_eq_some_iff.1 hc
      obtain ⟨n, hn, hk⟩ := List.mem_map.1 hm
      cases n <;> simp [DNode.kind] at hk
      subst hk
      exact .merge h1 hn
    | split hc hm hd =>
      rw [shape_get] at hc
      obtain ⟨ch, h1, rfl⟩ := Option.map_eq_some_iff.1 hc
      obtain ⟨n, hn, hk⟩ := List.mem_map.1 hm
      cases n <;> simp [DNode.kind] at hk
      subst hk
      exact .split h1 hn hd
  · intro h
    cases h with
    | @merge ch hc hm =>
      exact .merge (ch := ch.map DNode.kind) (by rw [shape_get, hc]; rfl) (List.mem_map.2 ⟨_, hm, rfl⟩)
    | @split ch ds hc hm hd =>
      exact .split (ch := ch.map DNode.kind) (by rw [shape_get, hc]; rfl) (List.mem_map.2 ⟨_, hm, rfl⟩) hd

/-- No infinite path starts at chain `c`, and all chains on the way satisfy `P`. -/
inductive Safe (sh : List (List (DNode Unit))) (P : Nat → Prop) : Nat → Prop
  | mk {c} : P c → (∀ d, Edge sh c d → Safe sh P d) → Safe sh P c

/-! ### Flushing successfully means: no cycle -/

theorem runAll_flush_each {ops : SinkOps S} {sh fuel} {Q : Nat → Prop}
    (ih : ∀ d (g g' : DGraph S), g.shape = sh → flushFrom ops fuel d 0 g = (g', .ok ()) → Q d) :
    ∀ (ds : List Nat) (g g' : DGraph S), g.shape = sh → runAll (fun d g => flushFrom ops fuel d 0 g) ds g = (g', .ok ()) → ∀ d ∈ ds, Q d
  | [], _, _, _, _, d, hd => by simp at hd
  | a :: ds, g, g', hs, h, d, hd => by
    obtain ⟨g1, h1, h2⟩ := runAll_ok_cons.1 h
    have hx := (flushFrom_ext ops sh fuel a 0 g hs).1
    rw [h1] at hx
    rcases List.mem_cons.1 hd with rfl | hd
    · exact ih _ _ _ hs h1
    · exact runAll_flush_each ih ds g1 g' (hx.trans hs) h2 d hd

/-- What a successful flush from node `i` of chain `c` says about the rest of the chain. -/
theorem flush_safe (ops : SinkOps S) (sh : List (List (DNode Unit))) : ∀ (fuel c i : Nat) (g g' : DGraph S), g.shape = sh →
    flushFrom ops fuel c i g = (g', .ok ()) → c < sh.length ∧ ∀ ch, sh[c]? = some ch → ∀ j n, i ≤ j → ch[j]? = some n →
      (∀ d, n = .merge d → Safe sh (· < sh.length) d) ∧ ∀ ds, n = .split ds → ∀ d ∈ ds, Safe sh (· < sh.length) d
  | 0, _, _, _, _, _, h => by simp [flushFrom] at h
  | fuel + 1, c, i, g, g', hs, h => by
    have whole : ∀ (d : Nat) (g g' : DGraph S), g.shape = sh → flushFrom ops fuel d 0 g = (g', .ok ()) → Safe sh (· < sh.length) d := by
      intro d g g' hs h
      obtain ⟨h1, h2⟩ := flush_safe ops sh fuel d 0 g g' hs h
      refine ⟨h1, fun e he => ?_⟩
      cases he with
      | merge hc hm =>
        obtain ⟨j, hj⟩ := List.getElem?_of_mem hm
        exact (h2 _ hc j _ (Nat.zero_le _) hj).1 _ rfl
      | split hc hm hd =>
        obtain ⟨j, hj⟩ := List.getElem?_of_mem hm
        exact (h2 _ hc j _ (Nat.zero_le _) hj).2 _ rfl _ hd
    have hlen : sh.length = g.chains.length := by rw [← hs]; simp [DGraph.shape]
    rw [flushFrom] at h
    cases hc : g.chains[c]? with
    | none => simp only [hc] at h; simp at h
    | some ch =>
      have hlt : c < sh.length := by rw [hlen]; exact (List.getElem?_eq_some_iff.1 hc).1
      have hsc : sh[c]? = some (ch.map DNode.kind) := by rw [← hs, shape_get, hc]; rfl
      refine ⟨hlt, ?_⟩
      intro ch0 h0 j n hij hj
      rw [hsc] at h0
      have h0' := Option.some.inj h0
      subst h0'
      simp only [hc] at h
      have rest : ∀ g1 : DGraph S, g1.shape = sh → flushFrom ops fuel c (i + 1) g1 = (g', .ok ()) → i ≠ j →
          (∀ d, n = .merge d → Safe sh (· < sh.length) d) ∧ ∀ ds, n = .split ds → ∀ d ∈ ds, Safe sh (· < sh.length) d := by
        intro g1 hs1 hf1 hne
        exact (flush_safe ops sh fuel c (i + 1) g1 g' hs1 hf1).2 _ hsc j n (by omega) hj
      cases hi : ch[i]? with
      | none =>
        have h1 := List.getElem?_eq_none_iff.1 hi
        have h2 := (List.getElem?_eq_some_iff.1 hj).1
        simp at h2; omega
      | some nd =>
        have hnj : i = j → n = nd.kind := by
          intro e; subst e
          rw [List.getElem?_map, hi] at hj
          exact (Option.some.inj hj).symm
        cases nd with
        | sink s =>
          simp only [hi] at h
          rcases hw : ops.flush s with ⟨s', _ | _ | _ | _⟩ <;> simp only [hw] at h
          · by_cases e : i = j
            · rw [hnj e]; simp [DNode.kind]
            · exact rest _ ((setSink_shape hc hi).trans hs) h e
          all_goals simp at h
        | merge d =>
          simp only [hi] at h
          rcases hw : flushFrom ops fuel d 0 g with ⟨g1, _ | _ | _ | _⟩ <;> simp only [hw] at h
          · by_cases e : i = j
            · rw [hnj e]
              simp only [DNode.kind, DNode.merge.injEq, reduceCtorEq, false_implies, implies_true, and_true]
              rintro d' rfl
              exact whole _ _ _ hs hw
            · have hx := (flushFrom_ext ops sh fuel d 0 g hs).1
              rw [hw] at hx
              exact rest _ (hx.trans hs) h e
          all_goals simp at h
        | split ds =>
          simp only [hi] at h
          rcases hw : runAll (fun d g => flushFrom ops fuel d 0 g) ds g with ⟨g1, _ | _ | _ | _⟩ <;> simp only [hw] at h
          · by_cases e : i = j
            · rw [hnj e]
              simp only [DNode.kind, DNode.split.injEq, reduceCtorEq, false_implies, implies_true, true_and]
              rintro ds' rfl
              exact runAll_flush_each whole _ _ _ hs hw
            · have hx := runAll_inv (f := fun d g => flushFrom ops fuel d 0 g) (fun a b : DGraph S => a.shape = sh → b.shape = sh) (fun _ h => h)
                (fun _ _ _ h1 h2 h => h2 (h1 h)) ds (fun a _ g hs => (flushFrom_ext ops sh fuel a 0 g hs).1.trans hs) g hs
              rw [hw] at hx
              exact rest _ hx h e
          all_goals simp at h

/-- A chain that was flushed successfully: only finitely long paths lead from it, through existing chains. -/
theorem flush_ok_safe {ops : SinkOps S} {sh : List (List (DNode Unit))} {fuel c : Nat} {g g' : DGraph S} (hs : g.shape = sh)
    (h : flushFrom ops fuel c 0 g = (g', .ok ())) : Safe sh (· < sh.length) c := by
  obtain ⟨h1, h2⟩ := flush_safe ops _ fuel c 0 g g' hs h
  refine ⟨h1, fun e he => ?_⟩
  cases he with
  | merge hc hm =>
    obtain ⟨j, hj⟩ := List.getElem?_of_mem hm
    exact ((h2 _ hc j _ (Nat.zero_le _) hj).1 _ rfl)
  | split hc hm hd =>
    obtain ⟨j, hj⟩ := List.getElem?_of_mem hm
    exact ((h2 _ hc j _ (Nat.zero_le _) hj).2 _ rfl _ hd)

/-! ### Finite paths -/

theorem leadsOn_trans {chains : List (DChain S)} {c d e : Nat} (h : LeadsOn chains c d) (h' : LeadsOn chains d e) : LeadsOn chains c e := by
  induction h with
  | one h => exact .more h h'
  | more h _ ih => exact .more h (ih h')

theorem safe_on {g : DGraph S} {P : Nat → Prop} {c : Nat} (h : Safe g.shape P c) : ∀ d, LeadsOn g.chains c d → Safe g.shape P d := by
  intro d hd
  induction hd with
  | one hl => cases h with | mk _ h => exact h _ ((edge_iff g _ _).2 hl)
  | more hl _ ih => cases h with | mk _ h => exact ih (h _ ((edge_iff g _ _).2 hl))

theorem safe_no_self {g : DGraph S} {P : Nat → Prop} {c : Nat} (h : Safe g.shape P c) : ¬ LeadsOn g.chains c c := by
  induction h with
  | @mk c _ _ ih =>
    intro hl
    cases hl with
    | one h1 => exact ih _ ((edge_iff g _ _).2 h1) (.one h1)
    | more h1 h2 => exact ih _ ((edge_iff g _ _).2 h1) (leadsOn_trans h2 (.one h1))

theorem safe_holds {sh : List (List (DNode Unit))} {P : Nat → Prop} {c : Nat} (h : Safe sh P c) : P c := by
  cases h with | mk h _ => exact h

theorem pigeon : ∀ (n : Nat) (f : Nat → Nat), (∀ k, f k < n) → ∃ i j, i < j ∧ f i = f j
  | 0, f, h => absurd (h 0) (by omega)
  | n + 1, f, h => by
    by_cases h1 : ∃ i, f i = n
    · obtain ⟨i, hi⟩ := h1
      by_cases h2 : ∃ k, f (i + 1 + k) = n
      · obtain ⟨k, hk⟩ := h2
        exact ⟨i, i + 1 + k, by omega, by rw [hi, hk]⟩
      · obtain ⟨a, b, hab, he⟩ := pigeon n (fun k => f (i + 1 + k)) (fun k => by
          have h3 := h (i + 1 + k)
          have h4 : f (i + 1 + k) ≠ n := fun e => h2 ⟨k, e⟩
          show f (i + 1 + k) < n
          omega)
        exact ⟨i + 1 + a, i + 1 + b, by omega, he⟩
    · exact pigeon n f (fun k => by
        have h3 := h k
        have h4 : f k ≠ n := fun e => h1 ⟨k, e⟩
        omega)

theorem unsafe_next {g : DGraph S} {P : Nat → Prop} {c : Nat} (hp : P c) (h : ¬ Safe g.shape P c) : ∃ d, Leads g.chains c d ∧ ¬ Safe g.shape P d := by
  apply Classical.byContradiction
  intro hn
  exact h ⟨hp, fun d hd => Classical.byContradiction fun hs => hn ⟨d, (edge_iff g _ _).1 hd, hs⟩⟩

theorem leads_lt {chains : List (DChain S)} {c d : Nat} (h : Leads chains c d) : c < chains.length := by
  cases h with
  | merge hc _ => exact (List.getElem?_eq_some_iff.1 hc).1
  | split hc _ _ => exact (List.getElem?_eq_some_iff.1 hc).1

/-- In a finite graph, without a cycle there are only finite paths. -/
theorem safe_of_no_loop {g : DGraph S} {P : Nat → Prop} {c : Nat} (hp : P c) (hd : ∀ d, LeadsOn g.chains c d → P d) (h : ¬ Loops g.chains c) :
    Safe g.shape P c := by
  apply Classical.byContradiction
  intro hu
  -- an infinite path
  have step : ∀ p : { d // (c = d ∨ LeadsOn g.chains c d) ∧ ¬ Safe g.shape P d }, ∃ q : { d // (c = d ∨ LeadsOn g.chains c d) ∧ ¬ Safe g.shape P d },
      Leads g.chains p.1 q.1 := by
    intro p
    have hpp : P p.1 := by
      rcases p.2.1 with e | e
      · exact e ▸ hp
      · exact hd _ e
    obtain ⟨d, h1, h2⟩ := unsafe_next hpp p.2.2
    refine ⟨⟨d, ?_, h2⟩, h1⟩
    rcases p.2.1 with e | e
    · exact .inr (.one (e ▸ h1))
    · exact .inr (leadsOn_trans e (.one h1))
  let nxt := fun p => Classical.choose (step p)
  have hnxt : ∀ p, Leads g.chains p.1 (nxt p).1 := fun p => Classical.choose_spec (step p)
  let f : Nat → { d // (c = d ∨ LeadsOn g.chains c d) ∧ ¬ Safe g.shape P d } := fun k => Nat.rec ⟨c, .inl rfl, hu⟩ (fun _ p => nxt p) k
  have hf : ∀ k, Leads g.chains (f k).1 (f (k + 1)).1 := fun k => hnxt (f k)
  obtain ⟨i, j, hij, he⟩ := pigeon g.chains.length (fun k => (f k).1) (fun k => leads_lt (hf k))
  have path : ∀ k, LeadsOn g.chains (f i).1 (f (i + k + 1)).1 := by
    intro k
    induction k with
    | zero => exact .one (hf i)
    | succ k ih => exact leadsOn_trans ih (.one (hf (i + k + 1)))
  have hcyc := path (j - i - 1)
  have e1 : i + (j - i - 1) + 1 = j := by omega
  rw [e1] at hcyc
  have e2 : (f i).1 = (f j).1 := he
  rw [← e2] at hcyc
  exact h ⟨(f i).1, (f i).2.1, hcyc⟩

/-! ### Finite paths mean termination -/

/-- Bounds for all chains of a list at once. -/
theorem bound_all {Q : Nat → Nat → Prop} (ds : List Nat) (h : ∀ d ∈ ds, ∃ F, ∀ fuel, F ≤ fuel → Q d fuel) :
    ∃ F, ∀ fuel, F ≤ fuel → ∀ d ∈ ds, Q d fuel := by
  induction ds with
  | nil => exact ⟨0, by simp⟩
  | cons a ds ih =>
    obtain ⟨F1, h1⟩ := h a (by simp)
    obtain ⟨F2, h2⟩ := ih (fun d hd => h d (by simp [hd]))
    refine ⟨F1 + F2, fun fuel hf d hd => ?_⟩
    rcases List.mem_cons.1 hd with rfl | hd
    · exact h1 _ (by omega)
    · exact h2 _ (by omega) d hd

/-- Result allowed by `ok`: used for "does not diverge" and "succeeds". -/
def ResultIn (sh : List (List (DNode Unit))) (ok : Res Unit → Prop) (f : DGraph S → DGraph S × Res Unit) : Prop :=
  ∀ g : DGraph S, g.shape = sh → ok (f g).2

theorem runAll_good {α : Type} {sh} {ok : Res Unit → Prop} (hok : ok (.ok ())) {f : α → DGraph S → DGraph S × Res Unit} (l : List α)
    (hsh : ∀ a ∈ l, ∀ g : DGraph S, g.shape = sh → (f a g).1.shape = sh) (hf : ∀ a ∈ l, ResultIn sh ok (f a)) :
    ResultIn sh ok (fun g => runAll f l g) := by
  induction l with
  | nil => intro g _; exact hok
  | cons a l ih =>
    intro g hg
    simp only [runAll]
    have h1 := hf a (by simp) g hg
    have h2 := hsh a (by simp) g hg
    rcases e : f a g with ⟨g', _ | _ | _ | _⟩ <;> rw [e] at h1 h2 <;> simp only
    · exact ih (fun a ha => hsh a (by simp [ha])) (fun a ha => hf a (by simp [ha])) g' h2
    all_goals exact h1

/-- What `ok` has to allow. -/
structure Allows (sh : List (List (DNode Unit))) (P : Nat → Prop) (ops : SinkOps S) (ok : Res Unit → Prop) : Prop where
  fine : ok (.ok ())
  missing : ∀ c, P c → c < sh.length ∨ ok .panic
  err : ∀ s r e, (ops.write s r).2 = .err e → ok (.err e)
  panic : ∀ s r, (ops.write s r).2 = .panic → ok .panic
  total : ∀ s r, (ops.write s r).2 ≠ .diverge
  ferr : ∀ s e, (ops.flush s).2 = .err e → ok (.err e)
  fpanic : ∀ s, (ops.flush s).2 = .panic → ok .panic
  ftotal : ∀ s, (ops.flush s).2 ≠ .diverge

theorem safe_good {sh : List (List (DNode Unit))} {P : Nat → Prop} {ops : SinkOps S} {ok : Res Unit → Prop} (ha : Allows sh P ops ok) {c : Nat}
    (h : Safe sh P c) : ∃ F, ∀ fuel, F ≤ fuel → (∀ row, ResultIn sh ok (fun g => processRow ops fuel c 0 row g)) ∧ ResultIn sh ok (fun g => flushFrom ops fuel c 0 g) := by
  induction h with
  | @mk c hP _ ih =>
    by_cases hlt : c < sh.length
    · obtain ⟨ch, hch⟩ : ∃ ch, sh[c]? = some ch := ⟨_, List.getElem?_eq_some_iff.2 ⟨hlt, rfl⟩⟩
      suffices H : ∀ k i, ch.length ≤ i + k → ∃ F, ∀ fuel, F ≤ fuel →
          (∀ row, ResultIn sh ok (fun g => processRow ops fuel c i row g)) ∧ ResultIn sh ok (fun g => flushFrom ops fuel c i g) from
        H ch.length 0 (by omega)
      intro k
      have get : ∀ g : DGraph S, g.shape = sh → ∃ ch', g.chains[c]? = some ch' ∧ ch'.map DNode.kind = ch := by
        intro g hg
        rw [← hg, shape_get] at hch
        obtain ⟨ch', h1, h2⟩ := Option.map_eq_some_iff.1 hch
        exact ⟨ch', h1, h2⟩
      induction k with
      | zero =>
        intro i hi
        refine ⟨1, fun fuel hf => ?_⟩
        obtain ⟨fuel, rfl⟩ : ∃ f, fuel = f + 1 := ⟨fuel - 1, by omega⟩
        refine ⟨fun row g hg => ?_, fun g hg => ?_⟩
        · obtain ⟨ch', h1, h2⟩ := get g hg
          have h3 : ch'[i]? = none := List.getElem?_eq_none_iff.2 (by rw [← h2] at hi; simpa using hi)
          simp only [processRow, h1, h3]
          exact ha.fine
        · obtain ⟨ch', h1, h2⟩ := get g hg
          have h3 : ch'[i]? = none := List.getElem?_eq_none_iff.2 (by rw [← h2] at hi; simpa using hi)
          simp only [flushFrom, h1, h3]
          exact ha.fine
      | succ k ihk =>
        intro i hi
        obtain ⟨F1, hF1⟩ := ihk (i + 1) (by omega)
        -- targets of node i
        have hT : ∃ F2, ∀ fuel, F2 ≤ fuel → ∀ d, (ch[i]? = some (.merge d) ∨ ∃ ds, ch[i]? = some (.split ds) ∧ d ∈ ds) →
            (∀ row, ResultIn sh ok (fun g => processRow ops fuel d 0 row g)) ∧ ResultIn sh ok (fun g => flushFrom ops fuel d 0 g) := by
          cases hn : ch[i]? with
          | none => exact ⟨0, by intro _ _ d h; simp at h⟩
          | some n =>
            have hmem := List.mem_of_getElem? hn
            cases n with
            | sink s => exact ⟨0, by intro _ _ d h; simp at h⟩
            | merge d =>
              obtain ⟨F, hF⟩ := ih d (.merge hch hmem)
              refine ⟨F, fun fuel hf d' h => ?_⟩
              simp at h
              exact h ▸ hF fuel hf
            | split ds =>
              obtain ⟨F, hF⟩ := bound_all (Q := fun d fuel => (∀ row, ResultIn sh ok (fun g => processRow ops fuel d 0 row g)) ∧
                  ResultIn sh ok (fun g => flushFrom ops fuel d 0 g)) ds (fun d hd => ih d (.split hch hmem hd))
              refine ⟨F, fun fuel hf d' h => ?_⟩
              simp at h
              exact hF fuel hf d' h
        obtain ⟨F2, hF2⟩ := hT
        refine ⟨F1 + F2 + 1, fun fuel hf => ?_⟩
        obtain ⟨fuel, rfl⟩ : ∃ f, fuel = f + 1 := ⟨fuel - 1, by omega⟩
        have hA := hF1 fuel (by omega)
        have hB := hF2 fuel (by omega)
        refine ⟨fun row g hg => ?_, fun g hg => ?_⟩
        · obtain ⟨ch', h1, h2⟩ := get g hg
          have hk : ∀ n, ch'[i]? = some n → ch[i]? = some n.kind := by intro n hn; rw [← h2, List.getElem?_map, hn]; rfl
          simp only [processRow, h1]
          cases hn : ch'[i]? with
          | none => exact ha.fine
          | some n =>
            have hkn := hk n hn
            cases n with
            | sink s =>
              rcases hw : ops.write s row with ⟨s', rows | e | _ | _⟩ <;> simp only [hw]
              · refine runAll_good ha.fine rows ?_ ?_ _ ((setSink_shape h1 hn).trans hg)
                · intro r _ g hg; exact (processRow_ext ops sh fuel c (i + 1) r g hg).1.trans hg
                · intro r _; exact hA.1 r
              · exact ha.err s row e (by rw [hw])
              · exact ha.panic s row (by rw [hw])
              · exact absurd (by rw [hw]) (ha.total s row)
            | merge d =>
              simp only
              have h3 := (hB d (.inl hkn)).1 row g hg
              have h4 := (processRow_ext ops sh fuel d 0 row g hg).1
              rcases hw : processRow ops fuel d 0 row g with ⟨g', _ | _ | _ | _⟩ <;> simp only [hw] at h3 h4 ⊢
              · exact hA.1 row g' (h4.trans hg)
              all_goals exact h3
            | split ds =>
              simp only
              have h3 := runAll_good ha.fine ds (f := fun d g => processRow ops fuel d 0 row g)
                (fun d _ g hg => (processRow_ext ops sh fuel d 0 row g hg).1.trans hg) (fun d hd => (hB d (.inr ⟨ds, hkn, hd⟩)).1 row) g hg
              have h4 := runAll_inv (f := fun d g => processRow ops fuel d 0 row g) (fun a b : DGraph S => a.shape = sh → b.shape = sh) (fun _ h => h)
                (fun _ _ _ h1 h2 h => h2 (h1 h)) ds (fun a _ g hs => (processRow_ext ops sh fuel a 0 row g hs).1.trans hs) g hg
              rcases hw : runAll (fun d g => processRow ops fuel d 0 row g) ds g with ⟨g', _ | _ | _ | _⟩ <;> simp only [hw] at h3 h4 ⊢
              · exact hA.1 row g' h4
              all_goals exact h3
        · obtain ⟨ch', h1, h2⟩ := get g hg
          have hk : ∀ n, ch'[i]? = some n → ch[i]? = some n.kind := by intro n hn; rw [← h2, List.getElem?_map, hn]; rfl
          simp only [flushFrom, h1]
          cases hn : ch'[i]? with
          | none => exact ha.fine
          | some n =>
            have hkn := hk n hn
            cases n with
            | sink s =>
              rcases hw : ops.flush s with ⟨s', _ | e | _ | _⟩ <;> simp only [hw]
              · exact hA.2 _ ((setSink_shape h1 hn).trans hg)
              · exact ha.ferr s e (by rw [hw])
              · exact ha.fpanic s (by rw [hw])
              · exact absurd (by rw [hw]) (ha.ftotal s)
            | merge d =>
              simp only
              have h3 := (hB d (.inl hkn)).2 g hg
              have h4 := (flushFrom_ext ops sh fuel d 0 g hg).1
              rcases hw : flushFrom ops fuel d 0 g with ⟨g', _ | _ | _ | _⟩ <;> simp only [hw] at h3 h4 ⊢
              · exact hA.2 g' (h4.trans hg)
              all_goals exact h3
            | split ds =>
              simp only
              have h3 := runAll_good ha.fine ds (f := fun d g => flushFrom ops fuel d 0 g)
                (fun d _ g hg => (flushFrom_ext ops sh fuel d 0 g hg).1.trans hg) (fun d hd => (hB d (.inr ⟨ds, hkn, hd⟩)).2) g hg
              have h4 := runAll_inv (f := fun d g => flushFrom ops fuel d 0 g) (fun a b : DGraph S => a.shape = sh → b.shape = sh) (fun _ h => h)
                (fun _ _ _ h1 h2 h => h2 (h1 h)) ds (fun a _ g hs => (flushFrom_ext ops sh fuel a 0 g hs).1.trans hs) g hg
              rcases hw : runAll (fun d g => flushFrom ops fuel d 0 g) ds g with ⟨g', _ | _ | _ | _⟩ <;> simp only [hw] at h3 h4 ⊢
              · exact hA.2 g' h4
              all_goals exact h3
    · rcases ha.missing c hP with h | h
      · exact absurd h hlt
      · refine ⟨1, fun fuel hf => ?_⟩
        obtain ⟨fuel, rfl⟩ : ∃ f, fuel = f + 1 := ⟨fuel - 1, by omega⟩
        have get : ∀ g : DGraph S, g.shape = sh → g.chains[c]? = none := by
          intro g hg
          apply List.getElem?_eq_none_iff.2
          rw [← hg] at hlt
          simpa [DGraph.shape] using hlt
        refine ⟨fun row g hg => ?_, fun g hg => ?_⟩
        · simp only [processRow, get g hg]; exact h
        · simp only [flushFrom, get g hg]; exact h

/-- Sinks that never fail and no missing chains: nothing but success or running on. -/
theorem flow_good {sh : List (List (DNode Unit))} {ops : SinkOps S} (hw : ∀ s r, ∃ s' rows, ops.write s r = (s', .ok rows))
    (hf : ∀ s, ∃ s', ops.flush s = (s', .ok ())) (hex : ∀ c d, Edge sh c d → d < sh.length) : ∀ (fuel c i : Nat), c < sh.length →
    (∀ row, ResultIn sh (fun r => r = .ok () ∨ r = .diverge) (fun g => processRow ops fuel c i row g)) ∧
      ResultIn sh (fun r => r = .ok () ∨ r = .diverge) (fun g => flushFrom ops fuel c i g)
  | 0, _, _, _ => ⟨fun _ _ _ => .inr rfl, fun _ _ => .inr rfl⟩
  | fuel + 1, c, i, hc => by
    have ih := flow_good hw hf hex fuel
    have hA := ih c (i + 1) hc
    refine ⟨fun row g hg => ?_, fun g hg => ?_⟩
    · have hlt : c < g.chains.length := by rw [← hg] at hc; simpa [DGraph.shape] using hc
      have h1 : g.chains[c]? = some g.chains[c] := List.getElem?_eq_some_iff.2 ⟨hlt, rfl⟩
      have hsc : sh[c]? = some (g.chains[c].map DNode.kind) := by rw [← hg, shape_get, h1]; rfl
      simp only [processRow, h1]
      cases hn : g.chains[c][i]? with
      | none => exact .inl rfl
      | some n =>
        have hmem : n.kind ∈ g.chains[c].map DNode.kind := List.mem_map.2 ⟨n, List.mem_of_getElem? hn, rfl⟩
        cases n with
        | sink s =>
          obtain ⟨s', rows, e⟩ := hw s row
          simp only [e]
          refine runAll_good (ok := fun r => r = .ok () ∨ r = .diverge) (.inl rfl) rows ?_ ?_ _ ((setSink_shape h1 hn).trans hg)
          · intro r _ g hg; exact (processRow_ext ops sh fuel c (i + 1) r g hg).1.trans hg
          · intro r _; exact hA.1 r
        | merge d =>
          simp only
          have h3 := (ih d 0 (hex c d (.merge hsc hmem))).1 row g hg
          have h4 := (processRow_ext ops sh fuel d 0 row g hg).1
          rcases hw : processRow ops fuel d 0 row g with ⟨g', _ | _ | _ | _⟩ <;> simp only [hw] at h3 h4 ⊢
          · exact hA.1 row g' (h4.trans hg)
          all_goals exact h3
        | split ds =>
          simp only
          have h3 := runAll_good (ok := fun r => r = .ok () ∨ r = .diverge) (.inl rfl) ds (f := fun d g => processRow ops fuel d 0 row g)
            (fun d _ g hg => (processRow_ext ops sh fuel d 0 row g hg).1.trans hg) (fun d hd => (ih d 0 (hex c d (.split hsc hmem hd))).1 row) g hg
          have h4 := runAll_inv (f := fun d g => processRow ops fuel d 0 row g) (fun a b : DGraph S => a.shape = sh → b.shape = sh) (fun _ h => h)
            (fun _ _ _ h1 h2 h => h2 (h1 h)) ds (fun a _ g hs => (processRow_ext ops sh fuel a 0 row g hs).1.trans hs) g hg
          rcases hw : runAll (fun d g => processRow ops fuel d 0 row g) ds g with ⟨g', _ | _ | _ | _⟩ <;> simp only [hw] at h3 h4 ⊢
          · exact hA.1 row g' h4
          all_goals exact h3
    · have hlt : c < g.chains.length := by rw [← hg] at hc; simpa [DGraph.shape] using hc
      have h1 : g.chains[c]? = some g.chains[c] := List.getElem?_eq_some_iff.2 ⟨hlt, rfl⟩
      have hsc : sh[c]? = some (g.chains[c].map DNode.kind) := by rw [← hg, shape_get, h1]; rfl
      simp only [flushFrom, h1]
      cases hn : g.chains[c][i]? with
      | none => exact .inl rfl
      | some n =>
        have hmem : n.kind ∈ g.chains[c].map DNode.kind := List.mem_map.2 ⟨n, List.mem_of_getElem? hn, rfl⟩
        cases n with
        | sink s =>
          obtain ⟨s', e⟩ := hf s
          simp only [e]
          exact hA.2 _ ((setSink_shape h1 hn).trans hg)
        | merge d =>
          simp only
          have h3 := (ih d 0 (hex c d (.merge hsc hmem))).2 g hg
          have h4 := (flushFrom_ext ops sh fuel d 0 g hg).1
          rcases hw : flushFrom ops fuel d 0 g with ⟨g', _ | _ | _ | _⟩ <;> simp only [hw] at h3 h4 ⊢
          · exact hA.2 g' (h4.trans hg)
          all_goals exact h3
        | split ds =>
          simp only
          have h3 := runAll_good (ok := fun r => r = .ok () ∨ r = .diverge) (.inl rfl) ds (f := fun d g => flushFrom ops fuel d 0 g)
            (fun d _ g hg => (flushFrom_ext ops sh fuel d 0 g hg).1.trans hg) (fun d hd => (ih d 0 (hex c d (.split hsc hmem hd))).2) g hg
          have h4 := runAll_inv (f := fun d g => flushFrom ops fuel d 0 g) (fun a b : DGraph S => a.shape = sh → b.shape = sh) (fun _ h => h)
            (fun _ _ _ h1 h2 h => h2 (h1 h)) ds (fun a _ g hs => (flushFrom_ext ops sh fuel a 0 g hs).1.trans hs) g hg
          rcases hw : runAll (fun d g => flushFrom ops fuel d 0 g) ds g with ⟨g', _ | _ | _ | _⟩ <;> simp only [hw] at h3 h4 ⊢
          · exact hA.2 g' h4
          all_goals exact h3

/-- Performing calls to chains that are all good. -/
theorem perform_good {sh : List (List (DNode Unit))} {ops : SinkOps S} {ok : Res Unit → Prop} {gf : Nat} (cs : List Call) {out : Res Unit} (hout : ok out)
    (h : ∀ x ∈ cs, (∀ row, ResultIn sh ok (fun g => processRow ops gf (callChain x) 0 row g)) ∧ ResultIn sh ok (fun g => flushFrom ops gf (callChain x) 0 g)) :
    ResultIn sh ok (fun g => perform (fun c r g => processRow ops gf c 0 r g) (fun c g => flushFrom ops gf c 0 g) cs out g) := by
  induction cs with
  | nil => intro g _; exact hout
  | cons x cs ih =>
    intro g hg
    have hx := h x (by simp)
    have ih := ih (fun y hy => h y (by simp [hy]))
    cases x with
    | feed c r =>
      simp only [perform]
      have h3 := hx.1 r g hg
      have h4 := (processRow_ext ops sh gf c 0 r g hg).1
      simp only [callChain] at h3
      rcases hw : processRow ops gf c 0 r g with ⟨g', _ | _ | _ | _⟩ <;> simp only [hw] at h3 h4 ⊢
      · exact ih g' (h4.trans hg)
      all_goals exact h3
    | flush c =>
      simp only [perform]
      have h3 := hx.2 g hg
      have h4 := (flushFrom_ext ops sh gf c 0 g hg).1
      simp only [callChain] at h3
      rcases hw : flushFrom ops gf c 0 g with ⟨g', _ | _ | _ | _⟩ <;> simp only [hw] at h3 h4 ⊢
      · exact ih g' (h4.trans hg)
      all_goals exact h3

/-- A successful run flushes every chain it is told to. -/
theorem perform_ok_flush {sh : List (List (DNode Unit))} {ops : SinkOps S} {gf : Nat} (cs : List Call) (out : Res Unit) : ∀ (g g' : DGraph S), g.shape = sh →
    perform (fun c r g => processRow ops gf c 0 r g) (fun c g => flushFrom ops gf c 0 g) cs out g = (g', .ok ()) →
    ∀ c, .flush c ∈ cs → Safe sh (· < sh.length) c := by
  induction cs with
  | nil => intro _ _ _ _ c hc; simp at hc
  | cons x cs ih =>
    intro g g' hg h c hc
    cases x with
    | feed d r =>
      simp only [perform] at h
      have h4 := (processRow_ext ops sh gf d 0 r g hg).1
      rcases hw : processRow ops gf d 0 r g with ⟨g1, _ | _ | _ | _⟩ <;> simp only [hw] at h h4
      · exact ih g1 g' (h4.trans hg) h c (by simpa using hc)
      all_goals simp at h
    | flush d =>
      simp only [perform] at h
      have h4 := (flushFrom_ext ops sh gf d 0 g hg).1
      rcases hw : flushFrom ops gf d 0 g with ⟨g1, _ | _ | _ | _⟩ <;> simp only [hw] at h h4
      · rcases List.mem_cons.1 hc with e | hc
        · obtain rfl := Call.flush.inj e
          exact flush_ok_safe hg hw
        · exact ih g1 g' (h4.trans hg) h c hc
      all_goals simp at h

end Chopper
