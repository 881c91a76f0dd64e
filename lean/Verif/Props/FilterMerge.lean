import Verif.Proofs.FilterMerge
import Verif.Props.Driver

/-!
# C80: several filtered inputs merged towards one output (the graph of `/repo/examples/filter_and_merge.rs`, for any number of inputs and
any filters), from setup to the end of the run
-/
namespace Chopper.Props
open Chopper Spec

/-- **C80.** Take any filter-and-merge graph that setup accepted and a run over it. The run succeeds exactly if reading the inputs does and
every row that is read can be sent through the filters of its chain (comparable values in the columns asked for). After a successful run the
output holds, in the order in which the rows were read, exactly what the filters of their chains make of them: each row that passes once,
nothing else. (The order of reading and the chain of each input: C17–C20.) -/
theorem C80_filter_and_merge (dbg : Bool) (fuel : Nat) (fss : List (List Filter)) (headers : List Header) (g : DGraph BSink) (hne : fss ≠ [])
    (hl : headers.length = fss.length)
    (hok : processHeader dbg .mergeJoin fuel (filterMergeChains fss) headers = .ok g)
    (range : TimestampRange) (gfuel dfuel : Nat) (sources : List Source) (hs : sources.length = fss.length)
    (hg : ∀ fs ∈ fss, fs.length + 4 ≤ gfuel) (g' : DGraph BSink) (res : Res Unit)
    (hrun : driveGraph builtinOps range gfuel dfuel sources g = (g', res)) :
    (res = .ok () ↔ (calls range dfuel sources).2 = .ok () ∧
      ∀ p ∈ fed (calls range dfuel sources).1, ∃ fs h out, fss[p.1]? = some fs ∧ headers[p.1]? = some h ∧ Through fs h p.2 out) ∧
    (res = .ok () → ∃ outs : List (Option Row), outs.length = (fed (calls range dfuel sources).1).length ∧
      (∀ (j c : Nat) (r : Row), (fed (calls range dfuel sources).1)[j]? = some (c, r) →
        ∃ fs h out, fss[c]? = some fs ∧ headers[c]? = some h ∧ outs[j]? = some out ∧ Through fs h r out) ∧
      sinkAt g'.chains fss.length 1 = some (.writer (outs.filterMap id))) := by
  obtain ⟨sss, h1, rfl, h3⟩ := fm_setup hne hl hok
  have hss : ∀ ss ∈ sss, ∃ (c : Nat) (fs : List Filter) (h : Header), sss[c]? = some ss ∧ fss[c]? = some fs ∧ headers[c]? = some h ∧ Becomes fs h ss ∧ ss.length = fs.length := by
    intro ss hm
    obtain ⟨c, hc⟩ := List.getElem?_of_mem hm
    have hlt : c < fss.length := by rw [← h1]; exact (List.getElem?_eq_some_iff.1 hc).1
    have hlt' : c < headers.length := by omega
    obtain ⟨ss', a, b, e⟩ := h3 c fss[c] headers[c] (List.getElem?_eq_getElem hlt) (List.getElem?_eq_getElem hlt')
    rw [hc] at a; cases a
    exact ⟨c, _, _, hc, List.getElem?_eq_getElem hlt, List.getElem?_eq_getElem hlt', b, e⟩
  have hfix : ∀ ss ∈ sss, ∀ s ∈ ss, s.fixed := by
    intro ss hm
    obtain ⟨_, _, _, _, _, _, b, _⟩ := hss ss hm
    exact (becomes_spec b).1
  have hlen : ∀ ss ∈ sss, ss.length + 4 ≤ gfuel := by
    intro ss hm
    obtain ⟨_, fs, _, _, hf, _, _, e⟩ := hss ss hm
    rw [e]; exact hg fs (List.mem_of_getElem? hf)
  have hcs : ∀ x ∈ (calls range dfuel sources).1, callChain x < sss.length := by
    rw [h1, ← hs]; exact calls_chains range dfuel sources
  obtain ⟨p1, p2, p3⟩ := fm_perform sss hfix gfuel hlen (calls range dfuel sources).1 [] [] hcs
  have conv : ∀ (c : Nat) (r : Row) (ss : List BSink) (out : Option Row), sss[c]? = some ss → SinksOut ss r out →
      ∃ fs h, fss[c]? = some fs ∧ headers[c]? = some h ∧ Through fs h r out := by
    intro c r ss out hc ho
    have hlt : c < fss.length := by rw [← h1]; exact (List.getElem?_eq_some_iff.1 hc).1
    have hlt' : c < headers.length := by omega
    obtain ⟨ss', a, b, _⟩ := h3 c fss[c] headers[c] (List.getElem?_eq_getElem hlt) (List.getElem?_eq_getElem hlt')
    rw [hc] at a; cases a
    exact ⟨_, _, List.getElem?_eq_getElem hlt, List.getElem?_eq_getElem hlt', ((becomes_spec b).2 r out).1 ho⟩
  -- the run
  unfold driveGraph at hrun
  rw [C23_run_is_calls] at hrun
  have hperf : ∀ (cs : List Call) (out : Res Unit) (g : DGraph BSink) (P : ChainId → Row → DGraph BSink → DGraph BSink × Res Unit)
      (F : ChainId → DGraph BSink → DGraph BSink × Res Unit),
      (perform P F cs out g).2 = .ok () ↔ (perform P F cs (.ok ()) g).2 = .ok () ∧ out = .ok () := by
    intro cs
    induction cs with
    | nil => intro out g P F; simp [perform]
    | cons x cs ih =>
      intro out g P F
      cases x with
      | feed c r =>
        simp only [perform]
        rcases P c r g with ⟨g1, _ | _ | _ | _⟩
        · exact ih out g1 P F
        all_goals simp
      | flush c =>
        simp only [perform]
        rcases F c g with ⟨g1, _ | _ | _ | _⟩
        · exact ih out g1 P F
        all_goals simp
  have hiff : res = .ok () ↔ (calls range dfuel sources).2 = .ok () ∧
      ∀ p ∈ fed (calls range dfuel sources).1, ∃ fs h out, fss[p.1]? = some fs ∧ headers[p.1]? = some h ∧ Through fs h p.2 out := by
    have := hperf (calls range dfuel sources).1 (calls range dfuel sources).2 (fmGraph sss [] [])
      (fun c r g => processRow builtinOps gfuel c 0 r g) (fun c g => flushFrom builtinOps gfuel c 0 g)
    rw [hrun, p2] at this
    simp only at this
    rw [this]
    constructor
    · rintro ⟨a, b⟩
      refine ⟨b, fun p hp => ?_⟩
      obtain ⟨ss, out, e1, e2⟩ := a p hp
      obtain ⟨fs, h, f1, f2, f3⟩ := conv p.1 p.2 ss out e1 e2
      exact ⟨fs, h, out, f1, f2, f3⟩
    · rintro ⟨b, a⟩
      refine ⟨fun p hp => ?_, b⟩
      obtain ⟨fs, h, out, f1, f2, f3⟩ := a p hp
      obtain ⟨ss, e1, e2, _⟩ := h3 p.1 fs h f1 f2
      exact ⟨ss, out, e1, ((becomes_spec e2).2 _ _).2 f3⟩
  refine ⟨hiff, fun hres => ?_⟩
  have hcok := (hiff.1 hres).1
  rw [hcok] at hrun
  subst hres
  rw [hrun] at p3
  obtain ⟨outs, q1, q2, log', q3⟩ := p3 rfl
  refine ⟨outs, q1, fun j c r hj => ?_, ?_⟩
  · obtain ⟨ss, o, e1, e2, e3⟩ := q2 j c r hj
    obtain ⟨fs, h, f1, f2, f3⟩ := conv c r ss o e1 e3
    exact ⟨fs, h, o, f1, f2, e2, f3⟩
  · simp only at q3
    rw [q3]
    unfold sinkAt
    rw [← h1, fm_last]
    simp

/-- **C80 (order).** If moreover every input is non-decreasing in time, so is the output. -/
theorem C80_sorted_output (dbg : Bool) (fuel : Nat) (fss : List (List Filter)) (headers : List Header) (g : DGraph BSink) (hne : fss ≠ [])
    (hl : headers.length = fss.length)
    (hok : processHeader dbg .mergeJoin fuel (filterMergeChains fss) headers = .ok g)
    (range : TimestampRange) (gfuel dfuel : Nat) (sources : List Source) (hs : sources.length = fss.length)
    (hg : ∀ fs ∈ fss, fs.length + 4 ≤ gfuel) (g' : DGraph BSink)
    (hsorted : ∀ s ∈ sources, Sorted s.rows)
    (hrun : driveGraph builtinOps range gfuel dfuel sources g = (g', .ok ())) :
    ∃ rows, sinkAt g'.chains fss.length 1 = some (.writer rows) ∧ Sorted rows := by
  obtain ⟨h1, h2⟩ := C80_filter_and_merge dbg fuel fss headers g hne hl hok range gfuel dfuel sources hs hg g' _ hrun
  obtain ⟨outs, a1, a2, a3⟩ := h2 rfl
  refine ⟨_, a3, ?_⟩
  have hcok := (h1.1 rfl).1
  have hfs : Sorted ((fed (calls range dfuel sources).1).map (·.2)) := by
    have := C17_sorted range (dfuel + enough sources) sources hsorted (by omega)
    rwa [calls_more hcok] at this
  generalize fed (calls range dfuel sources).1 = feds at *
  clear h1 h2 a3 hrun hcok
  induction feds generalizing outs with
  | nil =>
    cases outs with
    | nil => exact List.Pairwise.nil
    | cons => simp at a1
  | cons p feds ih =>
    cases outs with
    | nil => simp at a1
    | cons o outs =>
      have hrest : Sorted (outs.filterMap id) := by
        refine ih outs (by simpa using a1) (fun j c r hj => ?_) (List.pairwise_cons.1 hfs).2
        exact a2 (j + 1) c r (by simpa using hj)
      cases o with
      | none => exact hrest
      | some r =>
        refine List.pairwise_cons.2 ⟨fun r' hr' => ?_, hrest⟩
        obtain ⟨_, _, _, _, _, e1, e2⟩ := a2 0 p.1 p.2 rfl
        simp only [List.getElem?_cons_zero, Option.some.injEq] at e1
        have t1 := through_timestamp e2 r e1.symm
        simp only [List.mem_filterMap, id_eq, exists_eq_right] at hr'
        obtain ⟨j, hj⟩ := List.getElem?_of_mem hr'
        have hjl : j < feds.length := by
          have := (List.getElem?_eq_some_iff.1 hj).1
          simp only [List.length_cons] at a1
          omega
        obtain ⟨_, _, _, _, _, e3, e4⟩ := a2 (j + 1) feds[j].1 feds[j].2 (by simp [hjl])
        simp only [List.getElem?_cons_succ, hj, Option.some.injEq] at e3
        have t2 := through_timestamp e4 r' e3.symm
        have := (List.pairwise_cons.1 hfs).1 feds[j].2 (by simp only [List.mem_map]; exact ⟨feds[j], List.getElem_mem _, rfl⟩)
        rw [t1, t2]
        exact this

/-- Two inputs of three columns: chain 0 deletes a column and keeps the rows with `b > 1`, chain 1 keeps those with `d = 6` and deletes `d`. -/
def fmFilters : List (List Filter) :=
  [[.delete ['a'], .greater ['b'] (.int 1)], [.equal ['d'] (.int 6), .delete ['d']]]

def fmHeaders : List Header := [⟨[['a'], ['b'], ['c']], [.int, .int, .int]⟩, ⟨[['b'], ['c'], ['d']], [.int, .int, .int]⟩]

/-- Input 1 goes through chain 0 and input 0 through chain 1. -/
def fmSources : List Source :=
  [⟨[⟨2, [.int 4, .int 5, .int 6]⟩, ⟨3, [.int 4, .int 5, .int 7]⟩], .eof⟩,
   ⟨[⟨1, [.int 0, .int 2, .int 3]⟩, ⟨2, [.int 0, .int 9, .int 9]⟩, ⟨4, [.int 0, .int 1, .int 3]⟩], .eof⟩]

/-- The hypotheses are met: setup succeeds, the run succeeds; five rows are read, three pass. -/
example : ∃ g g', processHeader true .mergeJoin 4 (filterMergeChains fmFilters) fmHeaders = .ok g ∧
    driveGraph builtinOps .all 6 9 fmSources g = (g', .ok ()) ∧ (∀ s ∈ fmSources, Sorted s.rows) ∧
    (fed (calls .all 9 fmSources).1).length = 5 ∧
    sinkAt g'.chains 2 1 = some (.writer [⟨1, [.int 2, .int 3]⟩, ⟨2, [.int 9, .int 9]⟩, ⟨2, [.int 4, .int 5]⟩]) := by
  refine ⟨_, _, rfl, rfl, ?_, by decide +kernel, by decide +kernel⟩
  simp [fmSources, Sorted]

end Chopper.Props
