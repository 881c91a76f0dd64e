import Verif.Spec.FilterMerge
import Verif.Props.HeaderGraph
import Verif.Proofs.Filter2
import Verif.Proofs.Cli

namespace Chopper
open Spec Props

/-! ### one sink, several sinks -/

/-- The data sinks of filters never change. -/
def BSink.fixed : BSink → Prop
  | .writer _ => False
  | _ => True

/-- `SinkOut s row out`: sink `s` turns `row` into `out`. -/
def SinkOut (s : BSink) (row : Row) (out : Option Row) : Prop := s.write row = (s, .ok out.toList)

/-- `row` through several sinks. -/
inductive SinksOut : List BSink → Row → Option Row → Prop
  | done {row} : SinksOut [] row (some row)
  | dropped {s ss row} : SinkOut s row none → SinksOut (s :: ss) row none
  | next {s ss row row' out} : SinkOut s row (some row') → SinksOut ss row' out → SinksOut (s :: ss) row out

theorem sinkOut_unique {s : BSink} {row : Row} {a b : Option Row} (ha : SinkOut s row a) (hb : SinkOut s row b) : a = b := by
  unfold SinkOut at ha hb
  rw [ha] at hb
  cases a <;> cases b <;> simp at hb <;> simp [hb]

/-- A filter sink drops the row, passes one row on, or ends the process. -/
theorem fixed_write {s : BSink} (hs : s.fixed) (row : Row) :
    (∃ out, SinkOut s row out) ∨ s.write row = (s, .panic) := by
  cases s with
  | writer rows => exact absurd hs (by simp [BSink.fixed])
  | mergeJoin => exact .inl ⟨some row, rfl⟩
  | equal i v =>
    cases hx : row.values[i]? with
    | none => right; simp [BSink.write, hx, Res.unwrap, Res.bind]
    | some x =>
      rcases eq_total x v with h | h | h
      · left; exact ⟨some row, by simp [SinkOut, BSink.write, hx, Res.unwrap, Res.bind, h]⟩
      · left; exact ⟨none, by simp [SinkOut, BSink.write, hx, Res.unwrap, Res.bind, h]⟩
      · right; simp [BSink.write, hx, Res.unwrap, Res.bind, h]
  | greater i v =>
    cases hx : row.values[i]? with
    | none => right; simp [BSink.write, hx, Res.unwrap, Res.bind]
    | some x =>
      rcases cmp_total x v with ⟨o, h⟩ | h
      · left
        by_cases ho : o = some .gt
        · exact ⟨some row, by simp [SinkOut, BSink.write, hx, Res.unwrap, Res.bind, h, ho]⟩
        · exact ⟨none, by
            simp only [SinkOut, BSink.write, hx, Res.unwrap, Res.bind, h]
            rw [if_pos (fun e => ho e.symm)]; rfl⟩
      · right; simp [BSink.write, hx, Res.unwrap, Res.bind, h]
  | delete i =>
    by_cases hi : i < row.values.length
    · left; exact ⟨some ⟨row.timestamp, row.values.eraseIdx i⟩, by simp [SinkOut, BSink.write, vecRemove, hi, Res.bind]⟩
    · right; simp [BSink.write, vecRemove, hi, Res.bind]

/-! ### the graph -/

/-- The data chain of an input with filter sinks `ss`. -/
def inputChain (n : Nat) (ss : List BSink) : DChain BSink := ss.map DNode.sink ++ [.merge n]

/-- The data graph, the output holding `rows`. -/
def fmGraph (sss : List (List BSink)) (rows : List Row) (log : List Event) : DGraph BSink :=
  ⟨sss.map (inputChain sss.length) ++ [[.sink .mergeJoin, .sink (.writer rows)]], log⟩

theorem fm_last (sss : List (List BSink)) (rows : List Row) (log : List Event) :
    (fmGraph sss rows log).chains[sss.length]? = some [.sink .mergeJoin, .sink (.writer rows)] :=
  getElem?_at _ _ _ (by simp)

theorem fm_input (sss : List (List BSink)) (rows : List Row) (log : List Event) {c : Nat} {ss : List BSink} (h : sss[c]? = some ss) :
    (fmGraph sss rows log).chains[c]? = some (inputChain sss.length ss) := by
  unfold fmGraph
  simp only
  have : c < (sss.map (inputChain sss.length)).length := by
    simp; exact (List.getElem?_eq_some_iff.1 h).1
  rw [List.getElem?_append_left this, List.getElem?_map, h]; rfl

theorem modify_same {α : Type} (l : List α) (c : Nat) (f : α → α) (x : α) (h : l[c]? = some x) (hf : f x = x) : l.modify c f = l := by
  apply List.ext_getElem?
  intro k
  rw [List.getElem?_modify]
  by_cases hk : c = k
  · subst hk; simp [h, hf]
  · simp [hk]

theorem fm_same (sss : List (List BSink)) (rows : List Row) (log : List Event) {c i : Nat} {ch : DChain BSink} {s : BSink} (e : Event)
    (h : (fmGraph sss rows log).chains[c]? = some ch) (hi : ch[i]? = some (.sink s)) :
    (fmGraph sss rows log).setSink c i s e = fmGraph sss rows (log ++ [e]) := by
  unfold DGraph.setSink
  rw [modify_same _ c _ ch h (by
    apply List.ext_getElem?
    intro k
    by_cases hk : i = k
    · subst hk
      have := (List.getElem?_eq_some_iff.1 hi).1
      rw [List.getElem?_set_self this, hi]
    · rw [List.getElem?_set_ne hk])]
  rfl

theorem fm_tail (sss : List (List BSink)) (rows : List Row) (log : List Event) (row : Row) (fuel : Nat) :
    ∃ log', processRow builtinOps (fuel + 3) sss.length 0 row (fmGraph sss rows log) = (fmGraph sss (rows ++ [row]) log', .ok ()) := by
  rw [show fuel + 3 = (fuel + 2) + 1 by omega, processRow]
  simp only [fm_last, List.getElem?_cons_zero, builtinOps, BSink.write, runAll]
  rw [fm_same sss rows log (.write sss.length 0 row) (fm_last sss rows log) rfl]
  rw [show fuel + 2 = (fuel + 1) + 1 by omega, processRow]
  simp only [fm_last, BSink.write, runAll]
  have h2 : (fmGraph sss rows (log ++ [.write sss.length 0 row])).setSink sss.length (0 + 1) (.writer (rows ++ [row])) (.write sss.length (0 + 1) row) =
      fmGraph sss (rows ++ [row]) ((log ++ [.write sss.length 0 row]) ++ [.write sss.length (0 + 1) row]) := by
    unfold DGraph.setSink fmGraph
    congr 1
    apply List.ext_getElem?
    intro k
    rw [List.getElem?_modify]
    by_cases hk : sss.length = k
    · subst hk
      rw [getElem?_at _ _ _ (by simp), getElem?_at _ _ _ (by simp)]
      simp
    · simp only [hk, if_false]
      by_cases hlt : k < sss.length
      · rw [List.getElem?_append_left (by simpa using hlt), List.getElem?_append_left (by simpa using hlt)]; simp
      · rw [List.getElem?_eq_none (by simp; omega), List.getElem?_eq_none (by simp; omega)]; rfl
  simp only [List.getElem?_cons_succ, List.getElem?_cons_zero, Nat.zero_add] at h2 ⊢
  rw [h2]
  have h3 := runAll_end builtinOps fuel sss.length (1 + 1) [.sink .mergeJoin, .sink (.writer (rows ++ [row]))] [row]
    (fmGraph sss (rows ++ [row]) ((log ++ [.write sss.length 0 row]) ++ [.write sss.length 1 row])) (fm_last sss _ _) rfl
  rw [show (⟨BSink.write, fun s => (s, Res.ok ())⟩ : SinkOps BSink) = builtinOps from rfl, h3]
  exact ⟨_, rfl⟩

/-- One row, from node `pre.length` of its chain on. -/
theorem fm_row (sss : List (List BSink)) (c : Nat) (ss : List BSink) (hc : sss[c]? = some ss) (hfix : ∀ s ∈ ss, s.fixed) :
    ∀ (rest pre : List BSink), pre ++ rest = ss → ∀ (rows : List Row) (log : List Event) (row : Row) (fuel : Nat), rest.length + 4 ≤ fuel →
    (∃ out, SinksOut rest row out ∧ ∃ log', processRow builtinOps fuel c pre.length row (fmGraph sss rows log) =
      (fmGraph sss (rows ++ out.toList) log', .ok ())) ∨
    ((¬ ∃ out, SinksOut rest row out) ∧ (processRow builtinOps fuel c pre.length row (fmGraph sss rows log)).2 = .panic) := by
  intro rest
  induction rest with
  | nil =>
    intro pre hp rows log row fuel hf
    left
    refine ⟨some row, .done, ?_⟩
    obtain ⟨fuel, rfl⟩ : ∃ k, fuel = k + 4 := ⟨fuel - 4, by simp at hf; omega⟩
    obtain ⟨log', h⟩ := fm_tail sss rows log row fuel
    rw [show fuel + 4 = (fuel + 3) + 1 by omega, processRow]
    simp only [fm_input sss rows log hc]
    have hp' : pre = ss := by simpa using hp
    subst hp'
    have h1 : (inputChain sss.length pre)[pre.length]? = some (.merge sss.length) := getElem?_at _ _ _ (by simp)
    simp only [h1, h]
    rw [show fuel + 3 = (fuel + 2) + 1 by omega, processRow]
    have h2 : (inputChain sss.length pre)[pre.length + 1]? = none := List.getElem?_eq_none (by simp [inputChain])
    simp only [fm_input sss _ log' hc, h2]
    exact ⟨_, rfl⟩
  | cons s rest ih =>
    intro pre hp rows log row fuel hf
    obtain ⟨fuel, rfl⟩ : ∃ k, fuel = k + 1 := ⟨fuel - 1, by simp at hf; omega⟩
    have hsfix : s.fixed := hfix s (by rw [← hp]; simp)
    have h1 : (inputChain sss.length ss)[pre.length]? = some (.sink s) := by
      rw [← hp, inputChain]
      simp
    rw [processRow]
    simp only [fm_input sss rows log hc, h1, builtinOps]
    rcases fixed_write hsfix row with ⟨out, ho⟩ | hpan
    · unfold SinkOut at ho
      rw [ho]
      simp only
      rw [fm_same sss rows log _ (fm_input sss rows log hc) h1]
      cases out with
      | none =>
        left
        exact ⟨none, .dropped ho, _, by simp [runAll]; rfl⟩
      | some row' =>
        have hlen : (pre ++ [s]).length = pre.length + 1 := by simp
        rcases ih (pre ++ [s]) (by simp [hp]) rows (log ++ [.write c pre.length row]) row' fuel (by simp at hf; omega) with
          ⟨o, h2, log', h3⟩ | ⟨h2, h3⟩
        · left
          refine ⟨o, .next ho h2, log', ?_⟩
          rw [hlen] at h3
          simp only [Option.toList, runAll]
          rw [show (⟨BSink.write, fun s => (s, Res.ok ())⟩ : SinkOps BSink) = builtinOps from rfl, h3]
          cases o <;> rfl
        · right
          refine ⟨?_, ?_⟩
          · rintro ⟨o, h⟩
            cases h with
            | dropped h => exact absurd (sinkOut_unique h ho) (by simp)
            | next h h' =>
              have := sinkOut_unique h ho
              simp at this; subst this
              exact h2 ⟨_, h'⟩
          · rw [hlen] at h3
            simp only [Option.toList, runAll]
            rw [show (⟨BSink.write, fun s => (s, Res.ok ())⟩ : SinkOps BSink) = builtinOps from rfl]
            rcases hr : processRow builtinOps fuel c (pre.length + 1) row' (fmGraph sss rows (log ++ [.write c pre.length row])) with ⟨g', r⟩
            rw [hr] at h3
            simp only at h3
            subst h3
            rw [hr]
    · right
      rw [hpan]
      refine ⟨?_, rfl⟩
      rintro ⟨o, h⟩
      cases h with
      | dropped h => unfold SinkOut at h; rw [hpan] at h; simp at h
      | next h h' => unfold SinkOut at h; rw [hpan] at h; simp at h

/-- Flushing leaves the graph as it is. -/
theorem fm_flushTail (sss : List (List BSink)) (rows : List Row) (log : List Event) (fuel : Nat) :
    ∃ log', flushFrom builtinOps (fuel + 3) sss.length 0 (fmGraph sss rows log) = (fmGraph sss rows log', .ok ()) := by
  rw [show fuel + 3 = (fuel + 2) + 1 by omega, flushFrom]
  simp only [fm_last, List.getElem?_cons_zero, builtinOps]
  rw [fm_same sss rows log (.flush sss.length 0) (fm_last sss rows log) rfl]
  rw [show fuel + 2 = (fuel + 1) + 1 by omega, flushFrom]
  simp only [fm_last, Nat.zero_add, List.getElem?_cons_succ, List.getElem?_cons_zero]
  rw [fm_same sss rows _ (.flush sss.length 1) (fm_last sss rows _) rfl, flushFrom]
  simp only [fm_last]
  exact ⟨_, rfl⟩

theorem fm_flush (sss : List (List BSink)) (c : Nat) (ss : List BSink) (hc : sss[c]? = some ss) :
    ∀ (rest pre : List BSink), pre ++ rest = ss → ∀ (rows : List Row) (log : List Event) (fuel : Nat), rest.length + 4 ≤ fuel →
    ∃ log', flushFrom builtinOps fuel c pre.length (fmGraph sss rows log) = (fmGraph sss rows log', .ok ()) := by
  intro rest
  induction rest with
  | nil =>
    intro pre hp rows log fuel hf
    obtain ⟨fuel, rfl⟩ : ∃ k, fuel = k + 4 := ⟨fuel - 4, by simp at hf; omega⟩
    obtain ⟨log', h⟩ := fm_flushTail sss rows log fuel
    rw [show fuel + 4 = (fuel + 3) + 1 by omega, flushFrom]
    simp only [fm_input sss rows log hc]
    have hp' : pre = ss := by simpa using hp
    subst hp'
    have h1 : (inputChain sss.length pre)[pre.length]? = some (.merge sss.length) := getElem?_at _ _ _ (by simp)
    simp only [h1, h]
    rw [show fuel + 3 = (fuel + 2) + 1 by omega, flushFrom]
    have h2 : (inputChain sss.length pre)[pre.length + 1]? = none := List.getElem?_eq_none (by simp [inputChain])
    simp only [fm_input sss _ log' hc, h2]
    exact ⟨_, rfl⟩
  | cons s rest ih =>
    intro pre hp rows log fuel hf
    obtain ⟨fuel, rfl⟩ : ∃ k, fuel = k + 1 := ⟨fuel - 1, by simp at hf; omega⟩
    have h1 : (inputChain sss.length ss)[pre.length]? = some (.sink s) := by
      rw [← hp, inputChain]
      simp
    obtain ⟨log', h3⟩ := ih (pre ++ [s]) (by simp [hp]) rows (log ++ [.flush c pre.length]) fuel (by simp at hf; omega)
    have hlen : (pre ++ [s]).length = pre.length + 1 := by simp
    rw [hlen] at h3
    rw [flushFrom]
    simp only [fm_input sss rows log hc, h1, builtinOps]
    rw [fm_same sss rows log _ (fm_input sss rows log hc) h1]
    exact ⟨log', h3⟩

/-- Any sequence of calls. -/
theorem fm_perform (sss : List (List BSink)) (hfix : ∀ ss ∈ sss, ∀ s ∈ ss, s.fixed) (gfuel : Nat) (hg : ∀ ss ∈ sss, ss.length + 4 ≤ gfuel) :
    ∀ (cs : List Call) (rows : List Row) (log : List Event), (∀ x ∈ cs, callChain x < sss.length) →
    let run := perform (fun c r g => processRow builtinOps gfuel c 0 r g) (fun c g => flushFrom builtinOps gfuel c 0 g) cs (.ok ()) (fmGraph sss rows log)
    (run.2 = .ok () ∨ run.2 = .panic) ∧
    (run.2 = .ok () ↔ ∀ p ∈ fed cs, ∃ ss out, sss[p.1]? = some ss ∧ SinksOut ss p.2 out) ∧
    (run.2 = .ok () → ∃ outs : List (Option Row), outs.length = (fed cs).length ∧
      (∀ (j : Nat) (c : Nat) (r : Row), (fed cs)[j]? = some (c, r) → ∃ ss o, sss[c]? = some ss ∧ outs[j]? = some o ∧ SinksOut ss r o) ∧
      ∃ log', run.1 = fmGraph sss (rows ++ outs.filterMap id) log')
  | [], rows, log, _ => by
    simp only [perform, fed, List.filterMap_nil]
    exact ⟨.inl trivial, by simp, fun _ => ⟨[], rfl, by simp, log, by simp⟩⟩
  | .feed c r :: cs, rows, log, h => by
    have hlt : c < sss.length := h _ (.head _)
    have hc : sss[c]? = some sss[c] := List.getElem?_eq_getElem hlt
    have hm : sss[c] ∈ sss := List.getElem_mem _
    generalize sss[c] = ss at hc hm
    simp only [perform]
    have hfed : fed (Call.feed c r :: cs) = (c, r) :: fed cs := rfl
    rw [hfed]
    rcases fm_row sss c ss hc (hfix ss hm) ss [] rfl rows log r gfuel (hg ss hm) with ⟨out, h1, log1, h2⟩ | ⟨h1, h2⟩
    · have h2' : processRow builtinOps gfuel c 0 r (fmGraph sss rows log) = (fmGraph sss (rows ++ out.toList) log1, .ok ()) := h2
      simp only [h2']
      obtain ⟨a1, a2, a3⟩ := fm_perform sss hfix gfuel hg cs (rows ++ out.toList) log1 (fun x hx => h x (.tail _ hx))
      refine ⟨a1, ?_, ?_⟩
      · rw [a2]
        simp only [List.mem_cons, forall_eq_or_imp]
        exact ⟨fun h => ⟨⟨ss, out, hc, h1⟩, h⟩, fun h => h.2⟩
      · intro hok
        obtain ⟨outs, b1, b2, log', b3⟩ := a3 hok
        refine ⟨out :: outs, by simp [b1], ?_, log', ?_⟩
        · intro j c' r' hj
          cases j with
          | zero => simp at hj; obtain ⟨rfl, rfl⟩ := hj; exact ⟨ss, out, hc, rfl, h1⟩
          | succ j => exact b2 j c' r' (by simpa using hj)
        · rw [b3]
          cases out <;> simp
    · rcases hr : processRow builtinOps gfuel c 0 r (fmGraph sss rows log) with ⟨g', res⟩
      have h2' : (processRow builtinOps gfuel c 0 r (fmGraph sss rows log)).2 = .panic := h2
      rw [hr] at h2'
      simp only at h2'
      subst h2'
      refine ⟨.inr rfl, ⟨by simp, ?_⟩, by simp⟩
      intro hall
      obtain ⟨ss', out, hc', ho⟩ := hall (c, r) (by simp)
      simp only at hc' ho
      rw [hc] at hc'; cases hc'
      exact absurd ⟨out, ho⟩ h1
  | .flush c :: cs, rows, log, h => by
    have hlt : c < sss.length := h _ (.head _)
    have hc : sss[c]? = some sss[c] := List.getElem?_eq_getElem hlt
    have hm : sss[c] ∈ sss := List.getElem_mem _
    generalize sss[c] = ss at hc hm
    obtain ⟨log1, h2⟩ := fm_flush sss c ss hc ss [] rfl rows log gfuel (hg ss hm)
    have h2' : flushFrom builtinOps gfuel c 0 (fmGraph sss rows log) = (fmGraph sss rows log1, .ok ()) := h2
    simp only [perform, h2']
    exact fm_perform sss hfix gfuel hg cs rows log1 (fun x hx => h x (.tail _ hx))

/-! ### setup -/

/-- Filters and the data sinks they become. -/
inductive Becomes : List Filter → Header → List BSink → Prop
  | nil {h} : Becomes [] h []
  | cons {f fs h h' s ss} : (∃ k, f.node = .sink k ∧ k h = .ok (s, h')) → Becomes fs h' ss → Becomes (f :: fs) h (s :: ss)

theorem built_filters {A C : Nat → Header → Prop} {n : Nat} : ∀ {fs : List Filter} {h : Header} {ds : DChain BSink},
    ChainBuilt .mergeJoin A C h (fs.map Filter.node ++ [.merge n]) ds → ∃ ss, ds = inputChain n ss ∧ Becomes fs h ss ∧ ss.length = fs.length
  | [], h, ds, hb => by
    simp only [List.map_nil, List.nil_append] at hb
    cases hb with
    | merge _ hb => cases hb; exact ⟨[], rfl, .nil, rfl⟩
  | f :: fs, h, ds, hb => by
    simp only [List.map_cons, List.cons_append] at hb
    cases f with
    | equal name v =>
      cases hb with
      | sink h1 hb => obtain ⟨ss, rfl, h3, h4⟩ := built_filters hb; exact ⟨_ :: ss, rfl, .cons ⟨_, rfl, h1⟩ h3, by simp [h4]⟩
    | greater name v =>
      cases hb with
      | sink h1 hb => obtain ⟨ss, rfl, h3, h4⟩ := built_filters hb; exact ⟨_ :: ss, rfl, .cons ⟨_, rfl, h1⟩ h3, by simp [h4]⟩
    | delete name =>
      cases hb with
      | sink h1 hb => obtain ⟨ss, rfl, h3, h4⟩ := built_filters hb; exact ⟨_ :: ss, rfl, .cons ⟨_, rfl, h1⟩ h3, by simp [h4]⟩

/-- One configured filter. -/
theorem filter_step {f : Filter} {h h' : Header} {s : BSink} (hk : ∃ k, f.node = .sink k ∧ k h = .ok (s, h')) :
    s.fixed ∧ HeaderAfter f h h' ∧ ∀ row out, SinkOut s row out ↔ Passes f h row out := by
  obtain ⟨k, h1, h2⟩ := hk
  cases f with
  | equal name v =>
    simp only [Filter.node, HNode.sink.injEq] at h1
    subst h1
    simp only [equalHeader] at h2
    cases hf : findCol name h.names 0 with
    | none => simp [hf] at h2
    | some i =>
      simp only [hf, Res.ok.injEq, Prod.mk.injEq] at h2
      obtain ⟨rfl, rfl⟩ := h2
      have hi := (findCol_some hf).2
      simp only [Nat.sub_zero] at hi
      refine ⟨trivial, .equal, fun row out => ?_⟩
      constructor
      · intro ho
        simp only [SinkOut, BSink.write] at ho
        cases hx : row.values[i]? with
        | none => simp [hx, Res.unwrap, Res.bind] at ho
        | some x =>
          simp only [hx, Res.unwrap, Res.bind, Prod.mk.injEq, true_and] at ho
          rcases eq_total x v with hq | hq | hq <;> simp only [hq] at ho
          · cases out with
            | none => simp at ho
            | some r => simp at ho; subst ho; exact .equalKeep hi hx ((eq_true_iff x v).1 hq)
          · cases out with
            | some r => simp at ho
            | none =>
              have hne : ¬ EqualValues x v := fun e => by rw [(eq_true_iff x v).2 e] at hq; simp at hq
              have hnp : ¬ (kindOf x = kindOf v ∧ ¬ Supported x) := fun e => by rw [(eq_panic_iff x v).2 e] at hq; simp at hq
              refine .equalDrop hi hx hne ?_
              by_cases hkk : kindOf x = kindOf v
              · exact .inr (Classical.byContradiction fun hs => hnp ⟨hkk, hs⟩)
              · exact .inl hkk
          · simp at ho
      · intro hp
        cases hp with
        | equalKeep hi' hx hq =>
          cases firstCol_unique hi hi'
          simp [SinkOut, BSink.write, hx, Res.unwrap, Res.bind, (eq_true_iff _ _).2 hq]
        | equalDrop hi' hx hq hk =>
          cases firstCol_unique hi hi'
          rename_i x
          have : x.eq v = .ok false := by
            rcases eq_total x v with e | e | e
            · exact absurd ((eq_true_iff _ _).1 e) hq
            · exact e
            · have := (eq_panic_iff _ _).1 e
              rcases hk with hk | hk
              · exact absurd this.1 hk
              · exact absurd hk this.2
          simp [SinkOut, BSink.write, hx, Res.unwrap, Res.bind, this]
  | greater name v =>
    simp only [Filter.node, HNode.sink.injEq] at h1
    subst h1
    simp only [greaterHeader] at h2
    cases hf : findCol name h.names 0 with
    | none => simp [hf] at h2
    | some i =>
      simp only [hf, Res.ok.injEq, Prod.mk.injEq] at h2
      obtain ⟨rfl, rfl⟩ := h2
      have hi := (findCol_some hf).2
      simp only [Nat.sub_zero] at hi
      refine ⟨trivial, .greater, fun row out => ?_⟩
      constructor
      · intro ho
        simp only [SinkOut, BSink.write] at ho
        cases hx : row.values[i]? with
        | none => simp [hx, Res.unwrap, Res.bind] at ho
        | some x =>
          simp only [hx, Res.unwrap, Res.bind, Prod.mk.injEq, true_and] at ho
          rcases cmp_total x v with ⟨o, hq⟩ | hq
          · simp only [hq] at ho
            have hkk : ¬ (kindOf x ≠ kindOf v ∨ ¬ Supported x) := fun e => by rw [(cmp_panic_iff x v).2 e] at hq; simp at hq
            have hk1 : kindOf x = kindOf v := Classical.byContradiction fun e => hkk (.inl e)
            have hk2 : Supported x := Classical.byContradiction fun e => hkk (.inr e)
            by_cases ho' : o = some .gt
            · subst ho'
              have hl := (cmp_gt_iff x v).1 hq
              cases out with
              | none => simp at ho
              | some r => simp at ho; subst ho; exact .greaterKeep hi hx hl
            · have hne : ¬ LessThan v x := fun e => by rw [(cmp_gt_iff x v).2 e] at hq; simp at hq; exact ho' hq.symm
              rw [if_pos (fun e => ho' e.symm)] at ho
              cases out with
              | none => exact .greaterDrop hi hx hne hk1 hk2
              | some r => simp at ho
          · simp [hq] at ho
      · intro hp
        cases hp with
        | greaterKeep hi' hx hq =>
          cases firstCol_unique hi hi'
          simp [SinkOut, BSink.write, hx, Res.unwrap, Res.bind, (cmp_gt_iff _ _).2 hq]
        | greaterDrop hi' hx hq hk1 hk2 =>
          cases firstCol_unique hi hi'
          rename_i x
          rcases cmp_total x v with ⟨o, e⟩ | e
          · have hne : some .gt ≠ o := fun e' => by subst e'; exact hq ((cmp_gt_iff _ _).1 e)
            simp only [SinkOut, BSink.write, hx, Res.unwrap, Res.bind, e]
            rw [if_pos hne]; rfl
          · rcases (cmp_panic_iff _ _).1 e with h | h
            · exact absurd hk1 h
            · exact absurd hk2 h
  | delete name =>
    simp only [Filter.node, HNode.sink.injEq] at h1
    subst h1
    simp only [deleteHeader] at h2
    cases hf : findCol name h.names 0 with
    | none => simp [hf] at h2
    | some i =>
      have hi := (findCol_some hf).2
      simp only [Nat.sub_zero] at hi
      simp only [hf, vecRemove] at h2
      by_cases h3 : i < h.names.length
      · by_cases h4 : i < h.types.length
        · simp only [h3, h4, if_true, Res.bind, Res.ok.injEq, Prod.mk.injEq] at h2
          obtain ⟨rfl, rfl⟩ := h2
          refine ⟨trivial, .delete hi, fun row out => ?_⟩
          constructor
          · intro ho
            simp only [SinkOut, BSink.write, vecRemove] at ho
            by_cases h5 : i < row.values.length
            · simp only [h5, if_true, Res.bind, Prod.mk.injEq, true_and, Res.ok.injEq] at ho
              cases out with
              | none => simp at ho
              | some r => simp at ho; subst ho; exact .delete hi h5
            · simp [h5, Res.bind] at ho
          · intro hp
            cases hp with
            | delete hi' h5 =>
              cases firstCol_unique hi hi'
              simp [SinkOut, BSink.write, vecRemove, h5, Res.bind]
        · simp [h3, h4, Res.bind] at h2
      · simp [h3, Res.bind] at h2

theorem headerAfter_unique {f : Filter} {h a b : Header} (ha : HeaderAfter f h a) (hb : HeaderAfter f h b) : a = b := by
  cases ha <;> cases hb <;> try rfl
  rename_i h1 _ h2
  cases firstCol_unique h1 h2; rfl

theorem becomes_spec {fs : List Filter} {h : Header} {ss : List BSink} (hb : Becomes fs h ss) :
    (∀ s ∈ ss, s.fixed) ∧ ∀ row out, SinksOut ss row out ↔ Through fs h row out := by
  induction hb with
  | nil => exact ⟨by simp, fun row out => ⟨fun h => by cases h; exact .done, fun h => by cases h; exact .done⟩⟩
  | cons hk _ ih =>
    obtain ⟨h1, h2, h3⟩ := filter_step hk
    refine ⟨by simpa using ⟨h1, ih.1⟩, fun row out => ⟨fun h => ?_, fun h => ?_⟩⟩
    · cases h with
      | dropped h => exact .dropped ((h3 _ _).1 h)
      | next h h' => exact .next ((h3 _ _).1 h) h2 ((ih.2 _ _).1 h')
    · cases h with
      | dropped h => exact .dropped ((h3 _ _).2 h)
      | next h ha h' => cases headerAfter_unique ha h2; exact .next ((h3 _ _).2 h) ((ih.2 _ _).2 h')

/-- What setup makes of the filter-and-merge graph. -/
theorem fm_setup {dbg : Bool} {fuel : Nat} {fss : List (List Filter)} {headers : List Header} {g : DGraph BSink} (hne : fss ≠ [])
    (hl : headers.length = fss.length)
    (hok : processHeader dbg .mergeJoin fuel (filterMergeChains fss) headers = .ok g) :
    ∃ sss : List (List BSink), sss.length = fss.length ∧ g = fmGraph sss [] [] ∧
      ∀ (c : Nat) fs h, fss[c]? = some fs → headers[c]? = some h → ∃ ss, sss[c]? = some ss ∧ Becomes fs h ss ∧ ss.length = fs.length := by
  obtain ⟨entry, arrived, hS⟩ := C30_nodes_kept dbg .mergeJoin fuel _ _ g hok
  have hlog : g.log = [] := by
    unfold processHeader at hok
    cases hp : processHeadersFrom dbg BSink.mergeJoin fuel 0 headers ⟨filterMergeChains fss, (filterMergeChains fss).map (fun _ => [])⟩ <;>
      simp only [hp, Res.ok.injEq, reduceCtorEq] at hok
    rw [← hok]
  have hchain : ∀ (c : Nat) fs, fss[c]? = some fs → (filterMergeChains fss)[c]? = some (fs.map Filter.node ++ [.merge fss.length]) := by
    intro c fs hc
    unfold filterMergeChains
    have : c < fss.length := (List.getElem?_eq_some_iff.1 hc).1
    rw [List.getElem?_append_left (by simpa using this), List.getElem?_map, hc]; rfl
  have hlast : (filterMergeChains fss)[fss.length]? = some [.mergeSink none fss.length, .sink writerHeader] :=
    getElem?_at _ _ _ (by simp)
  have hnm : ∀ (c : Nat) fs, fss[c]? = some fs → isMergeChain (filterMergeChains fss) c = false := by
    intro c fs hc
    unfold isMergeChain
    rw [hchain c fs hc]
    cases fs with
    | nil => rfl
    | cons f fs => cases f <;> rfl
  -- the chains of the inputs
  have hin : ∀ (c : Nat), c < fss.length → ∃ fs h ss, fss[c]? = some fs ∧ headers[c]? = some h ∧ g.chains[c]? = some (inputChain fss.length ss) ∧
      Becomes fs h ss ∧ ss.length = fs.length := by
    intro c hc
    have h1 : fss[c]? = some fss[c] := List.getElem?_eq_getElem hc
    generalize fss[c] = fs at h1
    have hc' : c < headers.length := by omega
    have h2 : headers[c]? = some headers[c] := List.getElem?_eq_getElem hc'
    generalize headers[c] = h at h2
    obtain ⟨dch, h3, h4⟩ := hS.built c _ h (hchain c fs h1) (hS.inputEnter c h h2 (hnm c fs h1))
    obtain ⟨ss, rfl, h5, h6⟩ := built_filters h4
    exact ⟨fs, h, ss, h1, h2, h3, h5, h6⟩
  have hglen : g.chains.length = fss.length + 1 := by rw [hS.length]; simp [filterMergeChains]
  -- the number of merges
  have hcount : (arrived fss.length).length = (g.chains.map (mergesTo fss.length)).sum := by
    rw [hS.count, if_neg (by intro ⟨h, _⟩; omega)]; simp
  have hone : ∀ ss : List BSink, mergesTo fss.length (inputChain fss.length ss) = 1 := by
    intro ss
    have : mergesTo fss.length (ss.map DNode.sink) = 0 := by
      unfold mergesTo
      rw [List.countP_eq_zero]
      simp
    have h2 : mergesTo fss.length (inputChain fss.length ss) = mergesTo fss.length (ss.map DNode.sink) + mergesTo fss.length ([.merge fss.length] : DChain BSink) := by
      unfold mergesTo inputChain
      rw [List.countP_append]
    rw [h2, this]; simp [mergesTo]
  have hge : fss.length ≤ (g.chains.map (mergesTo fss.length)).sum := by
    have h1 : ∀ n, n ≤ fss.length → n ≤ ((g.chains.take n).map (mergesTo fss.length)).sum := by
      intro n
      induction n with
      | zero => simp
      | succ n ih =>
        intro hn
        obtain ⟨fs, h, ss, _, _, h3, _⟩ := hin n (by omega)
        rw [List.take_add_one, h3]
        simp only [Option.toList, List.map_append, List.map_cons, List.map_nil, List.sum_append, List.sum_cons, List.sum_nil]
        rw [hone ss]
        have := ih (by omega)
        omega
    have h2 := h1 fss.length (Nat.le_refl _)
    have h3 : g.chains.map (mergesTo fss.length) = (g.chains.take fss.length).map (mergesTo fss.length) ++ (g.chains.drop fss.length).map (mergesTo fss.length) := by
      rw [← List.map_append, List.take_append_drop]
    rw [h3, List.sum_append]; omega
  have hpos : 0 < fss.length := List.length_pos_iff.2 hne
  have harr : arrived fss.length ≠ [] := by
    intro h; rw [h] at hcount; simp at hcount; omega
  have hcomp := hS.complete fss.length none fss.length [.sink writerHeader] hlast harr
  have hent : entry fss.length ≠ none := by
    intro h
    have := hcomp.2 h
    omega
  cases he : entry fss.length with
  | none => exact absurd he hent
  | some h0 =>
    obtain ⟨dch, h3, h4⟩ := hS.built fss.length _ h0 hlast he
    have hd : dch = [.sink .mergeJoin, .sink (.writer [])] := by
      cases h4 with
      | mergeSink h4 =>
        cases h4 with
        | sink h5 h4 =>
          cases h4
          simp only [writerHeader, Res.ok.injEq, Prod.mk.injEq] at h5
          rw [← h5.1]
    subst hd
    -- collect the sinks of the inputs
    have hcol : ∀ n, n ≤ fss.length → ∃ sss : List (List BSink), sss.length = n ∧ g.chains.take n = sss.map (inputChain fss.length) ∧
        ∀ (c : Nat) fs h, c < n → fss[c]? = some fs → headers[c]? = some h → ∃ ss, sss[c]? = some ss ∧ Becomes fs h ss ∧ ss.length = fs.length := by
      intro n
      induction n with
      | zero => intro _; exact ⟨[], rfl, rfl, fun c fs h hc => by omega⟩
      | succ n ih =>
        intro hn
        obtain ⟨sss, a1, a2, a3⟩ := ih (by omega)
        obtain ⟨fs, h, ss, b1, b2, b3, b4, b5⟩ := hin n (by omega)
        refine ⟨sss ++ [ss], by simp [a1], ?_, ?_⟩
        · rw [List.take_add_one, b3, a2]; simp
        · intro c fs' h' hc hfs hh
          by_cases hcn : c = n
          · subst hcn
            rw [b1] at hfs; cases hfs
            rw [b2] at hh; cases hh
            exact ⟨ss, getElem?_at _ _ _ a1, b4, b5⟩
          · obtain ⟨ss', e1, e2⟩ := a3 c fs' h' (by omega) hfs hh
            have : c < sss.length := (List.getElem?_eq_some_iff.1 e1).1
            exact ⟨ss', by rw [List.getElem?_append_left this]; exact e1, e2⟩
    obtain ⟨sss, a1, a2, a3⟩ := hcol fss.length (Nat.le_refl _)
    refine ⟨sss, a1, ?_, fun c fs h hfs hh => a3 c fs h (List.getElem?_eq_some_iff.1 hfs).1 hfs hh⟩
    have hch : g.chains = sss.map (inputChain sss.length) ++ [[.sink .mergeJoin, .sink (.writer [])]] := by
      rw [← List.take_append_drop fss.length g.chains, a2, a1]
      congr 1
      have hlen1 : (g.chains.drop fss.length).length = 1 := by rw [List.length_drop]; omega
      have hget : (g.chains.drop fss.length)[0]? = some [.sink .mergeJoin, .sink (.writer [])] := by
        rw [List.getElem?_drop]; simpa using h3
      match hdr : g.chains.drop fss.length with
      | [] => rw [hdr] at hlen1; simp at hlen1
      | [x] => rw [hdr] at hget; simp at hget; rw [hget]
      | _ :: _ :: _ => rw [hdr] at hlen1; simp at hlen1
    cases g with
    | mk chains log => simp only at hlog hch; subst hlog hch; rfl

theorem through_timestamp {fs : List Filter} {h : Header} {row : Row} {out : Option Row} (ht : Through fs h row out) :
    ∀ r, out = some r → r.timestamp = row.timestamp := by
  induction ht with
  | done => intro r hr; cases hr; rfl
  | dropped => intro r hr; cases hr
  | next hp _ _ ih =>
    intro r hr
    rw [ih r hr]
    cases hp <;> rfl

end Chopper
