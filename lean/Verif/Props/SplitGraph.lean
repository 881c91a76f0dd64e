import Verif.Proofs.SplitGraph
import Verif.Props.Driver

/-!
# C81: one input split to several filtered outputs (the graph of `/repo/examples/split.rs`, for any number of branches, with filters),
from setup to the end of the run
-/
namespace Chopper.Props
open Chopper Spec

/-- **C81.** Take any graph that splits one input to several branches, each with its own filters and output, that setup accepted, and a run
over it. The run succeeds exactly if reading the input does and every selected row can be sent through the filters of every branch. Then the
output of every branch holds exactly what the filters of that branch make of the selected rows, in input order, whatever the other branches
do. -/
theorem C81_split (dbg : Bool) (fuel : Nat) (fss : List (List Filter)) (h : Header) (g : DGraph BSink)
    (hok : processHeader dbg .mergeJoin fuel (splitChains fss) [h] = .ok g)
    (range : TimestampRange) (gfuel dfuel : Nat) (s : Source) (hpos : 2 ≤ gfuel) (hg : ∀ fs ∈ fss, fs.length + 3 ≤ gfuel)
    (g' : DGraph BSink) (res : Res Unit)
    (hrun : driveGraph builtinOps range gfuel dfuel [s] g = (g', res)) :
    (res = .ok () ↔ (calls range dfuel [s]).2 = .ok () ∧ ∀ r ∈ selected range s.rows, ∀ fs ∈ fss, ∃ out, Through fs h r out) ∧
    (res = .ok () → ∀ (k : Nat) (fs : List Filter), fss[k]? = some fs →
      ∃ rows, sinkAt g'.chains (k + 1) fs.length = some (.writer rows) ∧ ThroughAll fs h (selected range s.rows) rows) := by
  obtain ⟨sss, h1, rfl, h3⟩ := sp_setup hok
  obtain ⟨gf, rfl⟩ : ∃ k, gfuel = k + 1 := ⟨gfuel - 1, by omega⟩
  have hss : ∀ ss ∈ sss, ∃ fs ∈ fss, Becomes fs h ss ∧ ss.length = fs.length := by
    intro ss hm
    obtain ⟨c, hc⟩ := List.getElem?_of_mem hm
    have hlt : c < fss.length := by rw [← h1]; exact (List.getElem?_eq_some_iff.1 hc).1
    obtain ⟨ss', a, b, e⟩ := h3 c fss[c] (List.getElem?_eq_getElem hlt)
    rw [hc] at a; cases a
    exact ⟨_, List.getElem_mem hlt, b, e⟩
  have hfix : ∀ b ∈ sss.map (fun ss => (ss, ([] : List Row))), ∀ s ∈ b.1, s.fixed := by
    intro b hb
    obtain ⟨ss, hm, rfl⟩ := List.mem_map.1 hb
    obtain ⟨_, _, b, _⟩ := hss ss hm
    exact (becomes_spec b).1
  have hfu : ∀ b ∈ sss.map (fun ss => (ss, ([] : List Row))), b.1.length + 2 ≤ gf := by
    intro b hb
    obtain ⟨ss, hm, rfl⟩ := List.mem_map.1 hb
    obtain ⟨fs, hf, _, e⟩ := hss ss hm
    have := hg fs hf
    simp only; omega
  obtain ⟨p1, p2⟩ := sp_perform gf (by omega) (calls range dfuel [s]).1 _ [] (calls_chains range dfuel [s]) hfix hfu
  unfold driveGraph at hrun
  rw [C23_run_is_calls] at hrun
  have hfedrows : (calls range dfuel [s]).2 = .ok () → (fed (calls range dfuel [s]).1).map (·.2) = selected range s.rows := by
    intro hok
    have h18 := C18_exactly_once range dfuel [s] (G := List Call) (fun c r l => (l ++ [Call.feed c r], .ok ())) (fun c l => (l ++ [Call.flush c], .ok ())) [] hok
    have h0 := h18.1 0 s rfl
    rw [← h0]
    unfold fedTo
    have hall : ∀ p ∈ fed (calls range dfuel [s]).1, p.1 = 0 := fun p hp => by have := h18.2 p hp; simp at this; exact this
    generalize fed (calls range dfuel [s]).1 = l at hall
    induction l with
    | nil => rfl
    | cons p l ih =>
      have hp := hall p (.head _)
      simp only [List.map_cons, List.filterMap_cons, hp, List.length_cons, List.length_nil]
      simp only [Nat.zero_add, Nat.sub_self, if_true]
      rw [ih (fun q hq => hall q (.tail _ hq))]
      rfl
  have hperf : ∀ (cs : List Call) (out : Res Unit) (g : DGraph BSink) (P : ChainId → Row → DGraph BSink → DGraph BSink × Res Unit)
      (F : ChainId → DGraph BSink → DGraph BSink × Res Unit),
      (perform P F cs out g).2 = .ok () ↔ (perform P F cs (.ok ()) g).2 = .ok () ∧ out = .ok () := by
    intro cs
    induction cs with
    | nil => intro out g P F; simp [perform]
    | cons x cs ih =>
      intro out g P F
      cases x with
      | feed c r =>
        simp only [perform]
        rcases P c r g with ⟨g1, _ | _ | _ | _⟩
        · exact ih out g1 P F
        all_goals simp
      | flush c =>
        simp only [perform]
        rcases F c g with ⟨g1, _ | _ | _ | _⟩
        · exact ih out g1 P F
        all_goals simp
  have hiff : res = .ok () ↔ (calls range dfuel [s]).2 = .ok () ∧ ∀ r ∈ selected range s.rows, ∀ fs ∈ fss, ∃ out, Through fs h r out := by
    have := hperf (calls range dfuel [s]).1 (calls range dfuel [s]).2 (spGraph (sss.map (fun ss => (ss, []))) [])
      (fun c r g => processRow builtinOps (gf + 1) c 0 r g) (fun c g => flushFrom builtinOps (gf + 1) c 0 g)
    rw [hrun, p1] at this
    simp only at this
    rw [this]
    constructor
    · rintro ⟨a, b⟩
      refine ⟨b, fun r hr fs hfs => ?_⟩
      rw [← hfedrows b] at hr
      obtain ⟨p, hp, rfl⟩ := List.mem_map.1 hr
      obtain ⟨k, hk⟩ := List.getElem?_of_mem hfs
      obtain ⟨ss, e1, e2, _⟩ := h3 k fs hk
      obtain ⟨out, ho⟩ := a p hp (ss, []) (List.mem_map.2 ⟨ss, List.mem_of_getElem? e1, rfl⟩)
      exact ⟨out, ((becomes_spec e2).2 _ _).1 ho⟩
    · rintro ⟨b, a⟩
      refine ⟨fun p hp br hbr => ?_, b⟩
      obtain ⟨ss, hm, rfl⟩ := List.mem_map.1 hbr
      obtain ⟨fs, hf, e2, _⟩ := hss ss hm
      obtain ⟨out, ho⟩ := a p.2 (by rw [← hfedrows b]; exact List.mem_map.2 ⟨p, hp, rfl⟩) fs hf
      exact ⟨out, ((becomes_spec e2).2 _ _).2 ho⟩
  refine ⟨hiff, fun hres => ?_⟩
  have hcok := (hiff.1 hres).1
  rw [hcok] at hrun
  subst hres
  rw [hrun] at p2
  obtain ⟨brs', log', q1, q2, q3⟩ := p2 rfl
  intro k fs hk
  obtain ⟨ss, e1, e2, e3⟩ := h3 k fs hk
  obtain ⟨new, f1, f2⟩ := q3 k ss [] (by simp [e1])
  refine ⟨new, ?_, by rw [← hfedrows hcok]; exact sinksOutAll_spec e2 f1⟩
  simp only at q1
  rw [q1]
  unfold sinkAt
  rw [sp_get f2]
  have : (branchChain (ss, [] ++ new))[fs.length]? = some (.sink (.writer new)) := by
    rw [← e3]; exact getElem?_at _ _ _ (by simp)
  simp only [this]

/-- Three branches: everything, the rows with `b > 1` without column `a`, the rows with `a = 0`. -/
def spFilters : List (List Filter) := [[], [.delete ['a'], .greater ['b'] (.int 1)], [.equal ['a'] (.int 0)]]

/-- The hypotheses are met; every output holds its rows. -/
example : ∃ g g', processHeader true .mergeJoin 5 (splitChains spFilters) [⟨[['a'], ['b']], [.int, .int]⟩] = .ok g ∧
    driveGraph builtinOps .all 5 9 [⟨[⟨1, [.int 0, .int 2]⟩, ⟨2, [.int 3, .int 9]⟩, ⟨4, [.int 0, .int 1]⟩], .eof⟩] g = (g', .ok ()) ∧
    sinkAt g'.chains 1 0 = some (.writer [⟨1, [.int 0, .int 2]⟩, ⟨2, [.int 3, .int 9]⟩, ⟨4, [.int 0, .int 1]⟩]) ∧
    sinkAt g'.chains 2 2 = some (.writer [⟨1, [.int 2]⟩, ⟨2, [.int 9]⟩]) ∧
    sinkAt g'.chains 3 1 = some (.writer [⟨1, [.int 0, .int 2]⟩, ⟨4, [.int 0, .int 1]⟩]) := by
  exact ⟨_, _, rfl, rfl, by decide +kernel, by decide +kernel, by decide +kernel⟩

end Chopper.Props
