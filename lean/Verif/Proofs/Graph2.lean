import Verif.Proofs.Graph
import Verif.Spec.Graph

namespace Chopper
open Spec
variable {S : Type}

/-! ## `processRow` = `Deliver` -/

theorem log_append_inj {a b c : List Event} (h : a ++ b = a ++ c) : b = c := List.append_cancel_left h

/-- Soundness in continuation form. -/
theorem processRow_deliver (ops : SinkOps S) : ∀ (fuel c i : Nat) (row : Row) (g g' : DGraph S),
    processRow ops fuel c i row g = (g', .ok ()) → ∃ ev, g'.log = g.log ++ ev ∧
      ∀ todo gs ev', Deliver ops todo g'.chains gs ev' → Deliver ops ((c, i, row) :: todo) g.chains gs (ev ++ ev') := by
  intro fuel
  induction fuel with
  | zero => intro c i row g g' h; simp [processRow] at h
  | succ fuel ih =>
    intro c i row g g' h
    have all : ∀ {α : Type} (f : α → Nat × Nat × Row) (l : List α) (g g' : DGraph S),
        runAll (fun a g => processRow ops fuel (f a).1 (f a).2.1 (f a).2.2 g) l g = (g', .ok ()) →
        ∃ ev, g'.log = g.log ++ ev ∧ ∀ todo gs ev', Deliver ops todo g'.chains gs ev' →
          Deliver ops (l.map f ++ todo) g.chains gs (ev ++ ev') := by
      intro α f l
      induction l with
      | nil => intro g g' h; simp [runAll] at h; subst h; exact ⟨[], by simp, fun _ _ _ h => h⟩
      | cons a l ihl =>
        intro g g' h
        obtain ⟨g1, h1, h2⟩ := runAll_ok_cons.1 h
        obtain ⟨e1, l1, d1⟩ := ih _ _ _ _ _ h1
        obtain ⟨e2, l2, d2⟩ := ihl _ _ h2
        refine ⟨e1 ++ e2, by rw [l2, l1]; simp, ?_⟩
        intro todo gs ev' hd
        have := d1 _ _ _ (d2 _ _ _ hd)
        simpa using this
    simp only [processRow] at h
    cases hc : g.chains[c]? with
    | none => simp [hc] at h
    | some ch =>
      simp only [hc] at h
      cases hi : ch[i]? with
      | none =>
        simp [hi] at h; subst h
        exact ⟨[], by simp, fun todo gs ev' hd => .done hc hi hd⟩
      | some n =>
        simp only [hi] at h
        cases n with
        | sink s =>
          simp only [] at h
          rcases hw : ops.write s row with ⟨s', _ | _ | _ | _⟩ <;> simp only [hw] at h
          · rename_i rows
            obtain ⟨ev, l1, d1⟩ := all (fun r => (c, i + 1, r)) rows _ _ h
            refine ⟨.write c i row :: ev, by rw [l1]; simp [DGraph.setSink], ?_⟩
            intro todo gs ev' hd
            exact .sink hc hi hw (d1 _ _ _ hd)
          all_goals simp at h
        | merge d =>
          simp only [] at h
          rcases hw : processRow ops fuel d 0 row g with ⟨g1, _ | _ | _ | _⟩ <;> simp only [hw] at h
          · obtain ⟨e1, l1, d1⟩ := ih _ _ _ _ _ hw
            obtain ⟨e2, l2, d2⟩ := ih _ _ _ _ _ h
            refine ⟨e1 ++ e2, by rw [l2, l1]; simp, ?_⟩
            intro todo gs ev' hd
            have := d1 _ _ _ (d2 _ _ _ hd)
            exact .merge hc hi (by simpa using this)
          all_goals simp at h
        | split ds =>
          simp only [] at h
          rcases hw : runAll (fun d g => processRow ops fuel d 0 row g) ds g with ⟨g1, _ | _ | _ | _⟩ <;> simp only [hw] at h
          · obtain ⟨e1, l1, d1⟩ := all (fun d => (d, 0, row)) ds _ _ hw
            obtain ⟨e2, l2, d2⟩ := ih _ _ _ _ _ h
            refine ⟨e1 ++ e2, by rw [l2, l1]; simp, ?_⟩
            intro todo gs ev' hd
            have := d1 _ _ _ (d2 _ _ _ hd)
            exact .split hc hi (by simpa using this)
          all_goals simp at h

/-- Run a to-do list with the model's `processRow`. -/
def runJobs (ops : SinkOps S) (fuel : Nat) (todo : List Job) (g : DGraph S) : DGraph S × Res Unit :=
  runAll (fun j g => processRow ops fuel j.1 j.2.1 j.2.2 g) todo g

theorem runJobs_mono (ops : SinkOps S) (fuel k : Nat) (todo : List Job) (g : DGraph S)
    (h : (runJobs ops fuel todo g).2 ≠ .diverge) : runJobs ops (fuel + k) todo g = runJobs ops fuel todo g :=
  runAll_congr_ok _ (fun j _ g hg => processRow_mono ops fuel _ _ _ g k hg) g h

theorem runAll_map {α β G : Type} (f : β → G → G × Res Unit) (m : α → β) (l : List α) (g : G) :
    runAll f (l.map m) g = runAll (fun a g => f (m a) g) l g := by
  induction l generalizing g with
  | nil => rfl
  | cons a l ih =>
    simp only [List.map_cons, runAll]
    rcases f (m a) g with ⟨g', _ | _ | _ | _⟩
    · exact ih g'
    all_goals rfl

/-- Completeness. -/
theorem deliver_runJobs (ops : SinkOps S) {todo : List Job} {gs gs' ev} (h : Deliver ops todo gs gs' ev) :
    ∃ fuel, ∀ log, runJobs ops fuel todo ⟨gs, log⟩ = (⟨gs', log ++ ev⟩, .ok ()) := by
  have split_append : ∀ {fuel : Nat} {l m : List Job} {g g'' : DGraph S}, runJobs ops fuel (l ++ m) g = (g'', .ok ()) →
      ∃ g', runJobs ops fuel l g = (g', .ok ()) ∧ runJobs ops fuel m g' = (g'', .ok ()) := by
    intro fuel l m g g'' h
    unfold runJobs at h ⊢
    rw [runAll_append] at h
    rcases h1 : runAll (fun (j : Job) g => processRow ops fuel j.1 j.2.1 j.2.2 g) l g with ⟨g', _ | _ | _ | _⟩ <;> simp only [h1] at h
    · exact ⟨g', rfl, h⟩
    all_goals simp at h
  induction h with
  | nil => exact ⟨0, fun log => by simp [runJobs, runAll]⟩
  | @done c i row todo gs gs' ev ch hc hi _ ih =>
    obtain ⟨fuel, ih⟩ := ih
    refine ⟨fuel + 1, fun log => ?_⟩
    unfold runJobs; rw [runAll_ok_cons]
    refine ⟨⟨gs, log⟩, by simp [processRow, hc, hi], ?_⟩
    have := runJobs_mono ops fuel 1 todo ⟨gs, log⟩ (by rw [ih log]; simp)
    rw [ih log] at this; exact this
  | @sink c i row todo gs gs' ev ch s s' rows hc hi hw _ ih =>
    obtain ⟨fuel, ih⟩ := ih
    refine ⟨fuel + 1, fun log => ?_⟩
    obtain ⟨g1, h1, h2⟩ := split_append (ih (log ++ [.write c i row]))
    unfold runJobs; rw [runAll_ok_cons]
    refine ⟨g1, ?_, ?_⟩
    · simp only [processRow, hc, hi, hw]
      unfold runJobs at h1; rw [runAll_map] at h1; exact h1
    · have := runJobs_mono ops fuel 1 todo g1 (by rw [h2]; simp)
      rw [h2] at this; unfold runJobs at this; simpa using this
  | @merge c i row todo gs gs' ev ch d hc hi _ ih =>
    obtain ⟨fuel, ih⟩ := ih
    refine ⟨fuel + 1, fun log => ?_⟩
    have := ih log
    unfold runJobs at this
    obtain ⟨g1, h1, h2⟩ := runAll_ok_cons.1 this
    obtain ⟨g2, h3, h4⟩ := runAll_ok_cons.1 h2
    unfold runJobs; rw [runAll_ok_cons]
    refine ⟨g2, ?_, ?_⟩
    · simp only [processRow, hc, hi]; rw [h1]; exact h3
    · have := runJobs_mono ops fuel 1 todo g2 (by unfold runJobs; rw [h4]; simp)
      unfold runJobs at this; rw [h4] at this; exact this
  | @split c i row todo gs gs' ev ch ds hc hi _ ih =>
    obtain ⟨fuel, ih⟩ := ih
    refine ⟨fuel + 1, fun log => ?_⟩
    obtain ⟨g1, h1, h2⟩ := split_append (ih log)
    unfold runJobs at h2
    obtain ⟨g2, h3, h4⟩ := runAll_ok_cons.1 h2
    unfold runJobs; rw [runAll_ok_cons]
    refine ⟨g2, ?_, ?_⟩
    · unfold runJobs at h1; rw [runAll_map] at h1
      simp only [processRow, hc, hi]; rw [h1]; exact h3
    · have := runJobs_mono ops fuel 1 todo g2 (by unfold runJobs; rw [h4]; simp)
      unfold runJobs at this; rw [h4] at this; exact this

theorem processRow_iff_deliver (ops : SinkOps S) (c i : Nat) (row : Row) (g g' : DGraph S) :
    (∃ fuel, processRow ops fuel c i row g = (g', .ok ())) ↔
      ∃ ev, g'.log = g.log ++ ev ∧ Deliver ops [(c, i, row)] g.chains g'.chains ev := by
  constructor
  · rintro ⟨fuel, h⟩
    obtain ⟨ev, h1, h2⟩ := processRow_deliver ops fuel c i row g g' h
    refine ⟨ev, h1, ?_⟩
    have := h2 [] _ _ .nil
    simpa using this
  · rintro ⟨ev, h1, h2⟩
    obtain ⟨fuel, h⟩ := deliver_runJobs ops h2
    refine ⟨fuel, ?_⟩
    have := h g.log
    unfold runJobs at this
    obtain ⟨g1, h3, h4⟩ := runAll_ok_cons.1 this
    simp only [runAll, Prod.mk.injEq, and_true] at h4
    rw [← h1] at h4
    subst h4; exact h3

/-! ## Chains of sinks: depth-first per row = stage by stage -/


theorem runSink_append (ops : SinkOps S) (a b : List Row) : ∀ s : S, runSink ops s (a ++ b) =
    match runSink ops s a with
    | some (s1, o1) => (runSink ops s1 b).map (fun p => (p.1, o1 ++ p.2))
    | none => none := by
  induction a with
  | nil => intro s; simp [runSink]
  | cons r a ih =>
    intro s
    simp only [List.cons_append, runSink]
    rcases ops.write s r with ⟨s', _ | _ | _ | _⟩ <;> simp only []
    rw [ih]
    cases runSink ops s' a with
    | none => rfl
    | some p => cases hb : runSink ops p.1 b <;> simp [hb]

def joinStages (l1 l2 : List (S × List Row)) : List (S × List Row) :=
  List.zipWith (fun p q => (q.1, p.2 ++ q.2)) l1 l2

theorem stages_append (ops : SinkOps S) : ∀ (ss : List S) (a b : List Row), stages ops ss (a ++ b) =
    match stages ops ss a with
    | some l1 => (stages ops (l1.map (·.1)) b).map (joinStages l1)
    | none => none := by
  intro ss
  induction ss with
  | nil => intro a b; simp [stages, joinStages]
  | cons s ss ih =>
    intro a b
    simp only [stages, runSink_append]
    cases h1 : runSink ops s a with
    | none => simp
    | some p =>
      obtain ⟨s1, o1⟩ := p
      simp only []
      cases h2 : runSink ops s1 b with
      | none =>
        simp only [Option.map_none]
        cases h3 : stages ops ss o1 with
        | none => simp
        | some l1 => simp [stages, h2]
      | some q =>
        obtain ⟨s2, o2⟩ := q
        simp only [Option.map_some, ih]
        cases h3 : stages ops ss o1 with
        | none => simp
        | some l1 =>
          simp only [Option.map_some, List.map_cons, stages, h2]
          cases stages ops (l1.map (·.1)) o2 <;> simp [joinStages]

theorem stages_length (ops : SinkOps S) : ∀ (ss : List S) (a : List Row) l, stages ops ss a = some l → l.length = ss.length := by
  intro ss
  induction ss with
  | nil => intro a l h; simp [stages] at h; subst h; rfl
  | cons s ss ih =>
    intro a l h
    simp only [stages] at h
    split at h
    · rename_i s' out _
      cases h2 : stages ops ss out with
      | none => simp [h2] at h
      | some l2 => simp [h2] at h; subst h; simp [ih _ _ h2]
    · simp at h

theorem stages_nil (ops : SinkOps S) : ∀ (ss : List S), stages ops ss [] = some (ss.map (fun s => (s, []))) := by
  intro ss
  induction ss with
  | nil => rfl
  | cons s ss ih => simp [stages, runSink, ih]

theorem written_append (c i : Nat) (a b : List Event) : written c i (a ++ b) = written c i a ++ written c i b := by
  simp [written]

/-- `ev` consists of writes to nodes `i, i+1, …` of chain `c`, node `i + j` getting the rows `l[j].2`. -/
def EvOK (c i : Nat) (l : List (S × List Row)) (ev : List Event) : Prop :=
  (∀ j, written c (i + j) ev = match l[j]? with | some p => p.2 | none => []) ∧
  (∀ e ∈ ev, ∃ j r, e = .write c (i + j) r)

theorem written_none_below {c i : Nat} {ev : List Event} (h : ∀ e ∈ ev, ∃ j r, e = Event.write c (i + 1 + j) r) :
    written c i ev = [] := by
  simp only [written, List.filterMap_eq_nil_iff]
  intro e he
  obtain ⟨j, r, rfl⟩ := h e he
  have : ¬ (i + 1 + j = i) := by omega
  simp [this]

theorem chain_stages (ops : SinkOps S) (c : Nat) : ∀ (n : Nat) (ss : List S), ss.length = n → ∀ (rows : List Row) (i fuel : Nat)
    (pre : DChain S) (g : DGraph S), g.chains[c]? = some (pre ++ ss.map DNode.sink) → pre.length = i → n + 1 ≤ fuel →
    (∀ l, stages ops ss rows = some l → ∃ ev,
      runAll (fun r g => processRow ops fuel c i r g) rows g =
        (⟨g.chains.set c (pre ++ l.map (fun p => .sink p.1)), g.log ++ ev⟩, .ok ()) ∧ EvOK c i l ev) ∧
    (stages ops ss rows = none → (runAll (fun r g => processRow ops fuel c i r g) rows g).2 ≠ .ok ()) := by
  intro n
  induction n with
  | zero =>
    intro ss hss rows i fuel pre g hc hi hf
    have : ss = [] := List.length_eq_zero_iff.1 hss
    subst this
    simp only [List.map_nil, List.append_nil] at hc
    have hrun : runAll (fun r g => processRow ops fuel c i r g) rows g = (g, .ok ()) := by
      induction rows with
      | nil => rfl
      | cons r rows ih =>
        rw [runAll_ok_cons]; refine ⟨g, ?_, ih⟩
        cases fuel with
        | zero => omega
        | succ fuel => simp [processRow, hc, ← hi]
    refine ⟨?_, by simp [stages]⟩
    intro l hl
    simp [stages] at hl; subst hl
    refine ⟨[], ?_, by simp [EvOK, written]⟩
    rw [hrun]
    have : g.chains.set c pre = g.chains := by
      apply List.ext_getElem?; intro k; simp only [List.getElem?_set]; split
      · rename_i h; subst h; rw [hc]
        have : c < g.chains.length := by rcases List.getElem?_eq_some_iff.1 hc with ⟨h, _⟩; exact h
        simp [this]
      · rfl
    simp [this]
  | succ n ihn =>
    intro ss hss rows
    induction rows generalizing ss with
    | nil =>
      intro i fuel pre g hc hi hf
      refine ⟨?_, by simp [stages_nil]⟩
      intro l hl
      rw [stages_nil] at hl; cases hl
      refine ⟨[], ?_, ?_, by simp⟩
      · have : g.chains.set c (pre ++ List.map (fun p => DNode.sink p.1) (ss.map (fun s => (s, ([] : List Row))))) = g.chains := by
          apply List.ext_getElem?; intro k; simp only [List.getElem?_set]; split
          · rename_i h; subst h; rw [hc]
            have : c < g.chains.length := by rcases List.getElem?_eq_some_iff.1 hc with ⟨h, _⟩; exact h
            simp [this]
          · rfl
        rw [this]; simp [runAll]
      · intro j; simp [written]; cases ss[j]? <;> simp
    | cons r rs ihr =>
      intro i fuel pre g hc hi hf
      cases ss with
      | nil => simp at hss
      | cons s ss =>
        simp only [List.length_cons, Nat.add_right_cancel_iff] at hss
        have hclt : c < g.chains.length := by rcases List.getElem?_eq_some_iff.1 hc with ⟨h, _⟩; exact h
        obtain ⟨fuel, rfl⟩ : ∃ f, fuel = f + 1 := ⟨fuel - 1, by omega⟩
        have hnode : (pre ++ (s :: ss).map DNode.sink)[i]? = some (.sink s) := by simp [← hi]
        rcases hw : ops.write s r with ⟨s', out | e | _ | _⟩
        · -- the write succeeded
          have hset : (g.setSink c i s' (.write c i r)) =
              ⟨g.chains.set c ((pre ++ [.sink s']) ++ ss.map DNode.sink), g.log ++ [.write c i r]⟩ := by
            simp only [DGraph.setSink, DGraph.mk.injEq, and_true]
            apply List.ext_getElem?; intro k
            simp only [List.getElem?_modify, List.getElem?_set]
            by_cases hk : c = k
            · subst hk; simp only [hc, hclt, if_true, Option.map_eq_map, Option.map_some, Option.some.injEq]; simp [← hi]
            · simp [hk]
          have hstep : processRow ops (fuel + 1) c i r g =
              runAll (fun r g => processRow ops fuel c (i + 1) r g) out (g.setSink c i s' (.write c i r)) := by
            simp only [processRow, hc, hnode, hw]
          have hIH := ihn ss hss out (i + 1) fuel (pre ++ [.sink s']) (g.setSink c i s' (.write c i r))
            (by rw [hset]; simp [hclt]) (by simp [hi]) (by omega)
          have hst : stages ops (s :: ss) (r :: rs) =
              match stages ops ss out with
              | some l1 => (stages ops (s' :: l1.map (·.1)) rs).map (joinStages ((s', [r]) :: l1))
              | none => none := by
            have := stages_append ops (s :: ss) [r] rs
            simp only [List.cons_append, List.nil_append] at this
            rw [this]
            simp only [stages, runSink, hw, Option.map_some, List.append_nil]
            cases stages ops ss out <;> simp [stages]
          rw [hst]
          cases h1 : stages ops ss out with
          | none =>
            refine ⟨by simp, fun _ => ?_⟩
            have := hIH.2 h1
            simp only [runAll, hstep]
            rcases hr : runAll (fun r g => processRow ops fuel c (i + 1) r g) out (g.setSink c i s' (.write c i r)) with ⟨g', _ | _ | _ | _⟩ <;>
              simp_all
          | some l1 =>
            obtain ⟨ev1, hr1, hev1⟩ := hIH.1 l1 h1
            simp only [hset] at hr1
            have hl1 := stages_length ops _ _ _ h1
            have hIH2 := ihr (s' :: l1.map (·.1)) (by simp [hl1, hss]) i (fuel + 1) pre
              ⟨g.chains.set c (pre ++ (s' :: l1.map (·.1)).map DNode.sink), g.log ++ .write c i r :: ev1⟩
              (by simp [hclt]) hi (by omega)
            have hr2 : runAll (fun r g => processRow ops (fuel + 1) c i r g) (r :: rs) g =
                runAll (fun r g => processRow ops (fuel + 1) c i r g) rs
                  ⟨g.chains.set c (pre ++ (s' :: l1.map (·.1)).map DNode.sink), g.log ++ .write c i r :: ev1⟩ := by
              simp only [runAll, hstep, hset, hr1]
              simp [Function.comp_def]
            rw [hr2]
            refine ⟨?_, ?_⟩
            · intro l hl
              simp only [] at hl
              cases h2 : stages ops (s' :: l1.map (·.1)) rs with
              | none => simp [h2] at hl
              | some l2 =>
                simp only [h2, Option.map_some, Option.some.injEq] at hl
                obtain ⟨ev2, hr3, hev2⟩ := hIH2.1 l2 h2
                have hl2 := stages_length ops _ _ _ h2
                refine ⟨.write c i r :: ev1 ++ ev2, ?_, ?_, ?_⟩
                · rw [hr3]
                  simp only [Prod.mk.injEq, and_true, DGraph.mk.injEq]
                  refine ⟨?_, by simp⟩
                  rw [List.set_set]; congr 2
                  subst hl
                  apply List.ext_getElem
                  · simp [joinStages, hl2, hl1]
                  · intro k _ _; simp [joinStages]
                · intro j
                  rw [written_append]
                  rw [hev2.1 j]
                  cases l2 with
                  | nil => simp at hl2
                  | cons q l2 =>
                    simp only [joinStages, List.zipWith_cons_cons] at hl
                    subst hl
                    cases j with
                    | zero =>
                      have hb := written_none_below hev1.2
                      simp only [List.getElem?_cons_zero, Nat.add_zero]
                      simp only [written, List.filterMap_cons] at hb ⊢
                      simp [hb]
                    | succ j =>
                      have hb := hev1.1 j
                      rw [show i + 1 + j = i + (j + 1) by omega] at hb
                      have hne : ¬ (i = i + (j + 1)) := by omega
                      simp only [List.getElem?_cons_succ]
                      have hb2 : written c (i + (j + 1)) (.write c i r :: ev1) = written c (i + (j + 1)) ev1 := by
                        simp [written]
                      rw [hb2, hb]
                      simp only [List.getElem?_zipWith]
                      have hlen : l1.length = l2.length := by simp at hl2; omega
                      by_cases hj : j < l1.length
                      · have hj2 : j < l2.length := by omega
                        simp [hj, hj2]
                      · have hj2 : ¬ j < l2.length := by omega
                        simp [hj, hj2]
                · intro e he
                  rcases List.mem_append.1 he with he | he
                  · rcases List.mem_cons.1 he with rfl | he
                    · exact ⟨0, r, rfl⟩
                    · obtain ⟨j, r', rfl⟩ := hev1.2 e he
                      exact ⟨1 + j, r', by rw [Nat.add_assoc]⟩
                  · exact hev2.2 e he
            · intro hnone
              apply hIH2.2
              simp only [] at hnone
              cases h2 : stages ops (s' :: l1.map (·.1)) rs with
              | none => rfl
              | some l2 => simp [h2] at hnone
        all_goals
          refine ⟨by simp [stages, runSink, hw], fun _ => ?_⟩
          simp only [runAll, processRow, hc, hnode, hw]; simp

end Chopper
