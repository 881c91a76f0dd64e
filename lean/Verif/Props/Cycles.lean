import Verif.Proofs.Cycles
import Verif.Props.Graph
import Verif.Props.Driver
import Verif.Props.HeaderGraph

/-!
# C105: exactly which graphs let a run finish
-/
namespace Chopper.Props
open Chopper Spec

variable {S : Type}

/-- Every input with a selected row has its place among the abstract buffers. -/
theorem absFrom_chains (range : TimestampRange) : ∀ (ss : List Source) (i : ChainId), (∀ s ∈ ss, selected range s.rows ≠ []) →
    ∀ k, k < ss.length → ∃ a ∈ absFrom range i ss, a.chain = i + k
  | [], _, _, k, hk => by simp at hk
  | s :: ss, i, hne, k, hk => by
    have h1 := hne s (by simp)
    cases hs : selected range s.rows with
    | nil => exact absurd hs h1
    | cons r rs =>
      simp only [absFrom, hs]
      cases k with
      | zero => exact ⟨_, List.mem_cons_self, rfl⟩
      | succ k =>
        obtain ⟨a, ha, he⟩ := absFrom_chains range ss (i + 1) (fun s hs => hne s (by simp [hs])) k (by simpa using hk)
        exact ⟨a, List.mem_cons_of_mem _ ha, by rw [he]; show i + 1 + k = i + (k + 1); omega⟩

theorem run_ok_safe {ops : SinkOps S} {range : TimestampRange} {gfuel fuel : Nat} {sources : List Source} {g : DGraph S}
    (hok : (driveGraph ops range gfuel fuel sources g).2 = .ok ()) :
    ∀ c, c < sources.length → Safe g.shape (· < g.shape.length) c := by
  intro c hc
  unfold driveGraph at hok
  rw [drive_perform] at hok
  have hout := perform_ok hok
  have hr := calls_ok_run hout
  obtain ⟨a, ha, he⟩ := absFrom_chains range sources.reverse 0 (fun s hs => calls_nonempty hout s (by simpa using hs)) c (by simpa using hc)
  have hfl := run_flushed hr rfl a ha
  rw [he, Nat.zero_add] at hfl
  rcases hp : perform (fun c r g => processRow ops gfuel c 0 r g) (fun c g => flushFrom ops gfuel c 0 g) (calls range fuel sources).1
    (calls range fuel sources).2 g with ⟨g', r⟩
  rw [hp] at hok
  exact perform_ok_flush _ _ g g' rfl (by rw [hp, ← hok]) c hfl

theorem shape_length (g : DGraph S) : g.shape.length = g.chains.length := by simp [DGraph.shape]

/-- **C105 (cycles).** A run that succeeds went over a graph in which no cycle can be reached from the chain of any input, and in which every chain
that can be reached exists: a graph that loops is noticed at the latest when an input ends, because the end is announced to every chain
downstream. It holds for all sinks, inputs and ranges, with however much fuel. -/
theorem C105_success (ops : SinkOps S) (range : TimestampRange) (gfuel fuel : Nat) (sources : List Source) (g : DGraph S)
    (hok : (driveGraph ops range gfuel fuel sources g).2 = .ok ()) :
    ∀ c, c < sources.length → ¬ Loops g.chains c ∧ AllThere g.chains c := by
  intro c hc
  have hs := run_ok_safe hok c hc
  refine ⟨?_, ?_, ?_⟩
  · rintro ⟨d, rfl | hd, hl⟩
    · exact safe_no_self hs hl
    · exact safe_no_self (safe_on hs d hd) hl
  · have := safe_holds hs; rwa [shape_length] at this
  · intro d hd
    have := safe_holds (safe_on hs d hd); rwa [shape_length] at this

/-- Fuel for the chains of all inputs. -/
theorem all_good {ops : SinkOps S} {P : Nat → Prop} {ok : Res Unit → Prop} {sh : List (List (DNode Unit))} (ha : Allows sh P ops ok) (n : Nat)
    (h : ∀ c, c < n → Safe sh P c) : ∃ F, ∀ fuel, F ≤ fuel → ∀ c, c < n →
      (∀ row, ResultIn sh ok (fun g => processRow ops fuel c 0 row g)) ∧ ResultIn sh ok (fun g => flushFrom ops fuel c 0 g) := by
  obtain ⟨F, hF⟩ := bound_all (Q := fun c fuel => (∀ row, ResultIn sh ok (fun g => processRow ops fuel c 0 row g)) ∧
      ResultIn sh ok (fun g => flushFrom ops fuel c 0 g)) (List.range n) (fun c hc => safe_good ha (h c (by simpa using hc)))
  exact ⟨F, fun fuel hf c hc => hF fuel hf c (by simpa using hc)⟩

theorem calls_ne_diverge (range : TimestampRange) (fuel : Nat) (sources : List Source) (hf : enough sources ≤ fuel) :
    (calls range fuel sources).2 ≠ .diverge :=
  drive_total _ _ range (fun _ => True) (by intros; simp) (by intros; simp) fuel sources _ hf trivial

/-- **C105 (termination).** If no cycle can be reached from the chain of an input and each call of a sink finishes, the run stops: cycles among chains
that no input leads to do no harm. -/
theorem C105_stops (ops : SinkOps S) (hw : ∀ s r, (ops.write s r).2 ≠ .diverge) (hfl : ∀ s, (ops.flush s).2 ≠ .diverge)
    (n : Nat) (g : DGraph S) (hno : ∀ c, c < n → ¬ Loops g.chains c) :
    ∃ gfuel0, ∀ gfuel, gfuel0 ≤ gfuel → ∀ (range : TimestampRange) (sources : List Source) (fuel : Nat), sources.length ≤ n →
      totalRows sources + sources.length ≤ fuel → (driveGraph ops range gfuel fuel sources g).2 ≠ .diverge := by
  have ha : Allows g.shape (fun _ => True) ops (fun r => r ≠ .diverge) :=
    ⟨by simp, fun _ _ => .inr (by simp), by simp, by simp, hw, by simp, by simp, hfl⟩
  obtain ⟨F, hF⟩ := all_good ha n (fun c hc => safe_of_no_loop trivial (fun _ _ => trivial) (hno c hc))
  refine ⟨F, fun gfuel hg range sources fuel hn hf => ?_⟩
  unfold driveGraph
  rw [drive_perform]
  exact perform_good (ok := fun r => r ≠ .diverge) _ (calls_ne_diverge range fuel sources hf)
    (fun x hx => hF gfuel hg _ (Nat.lt_of_lt_of_le (calls_chains range fuel sources x hx) hn)) g rfl

/-- **C105 (exactly).** With sinks that never fail and inputs that can be read to the end and have a row in the range, the run succeeds exactly when no cycle
can be reached from the chain of an input and all reachable chains exist. -/
theorem C105_exact (ops : SinkOps S) (hops : NeverFails ops) (range : TimestampRange) (sources : List Source) (g : DGraph S)
    (hin : ∀ s ∈ sources, selected range s.rows ≠ [] ∧ endingWithin range s = .eof) :
    (∃ gfuel fuel, (driveGraph ops range gfuel fuel sources g).2 = .ok ()) ↔
      ∀ c, c < sources.length → ¬ Loops g.chains c ∧ AllThere g.chains c := by
  constructor
  · rintro ⟨gfuel, fuel, hok⟩
    exact C105_success ops range gfuel fuel sources g hok
  · intro h
    have hw : ∀ s r, ∃ x, (ops.write s r).2 = .ok x := by
      intro s r; obtain ⟨s', x, e⟩ := hops.1 s r; exact ⟨x, by rw [e]⟩
    have hf : ∀ s, (ops.flush s).2 = .ok () := by
      intro s; obtain ⟨s', e⟩ := hops.2 s; rw [e]
    have ha : Allows g.shape (· < g.shape.length) ops (fun r => r = .ok ()) := by
      refine ⟨rfl, fun c hc => .inl hc, ?_, ?_, ?_, ?_, ?_, ?_⟩
      · intro s r e h; obtain ⟨x, hx⟩ := hw s r; rw [hx] at h; cases h
      · intro s r h; obtain ⟨x, hx⟩ := hw s r; rw [hx] at h; cases h
      · intro s r h; obtain ⟨x, hx⟩ := hw s r; rw [hx] at h; cases h
      · intro s e h; rw [hf s] at h; cases h
      · intro s h; rw [hf s] at h; cases h
      · intro s h; rw [hf s] at h; cases h
    obtain ⟨F, hF⟩ := all_good ha sources.length (fun c hc => safe_of_no_loop (by rw [shape_length]; exact (h c hc).2.1)
      (fun d hd => by rw [shape_length]; exact (h c hc).2.2 d hd) (h c hc).1)
    refine ⟨F, enough sources, ?_⟩
    unfold driveGraph
    rw [drive_perform]
    exact perform_good (ok := fun r => r = .ok ()) _
      ((C23_source_failure range _ sources (fun s hs => (hin s hs).1) (Nat.le_refl _)).1.2 (fun s hs => (hin s hs).2))
      (fun x hx => hF F (Nat.le_refl _) _ (calls_chains range _ sources x hx)) g rfl

/-- **C105 (inputs).** With sinks that never fail, either the runs succeed for all readable inputs or for none: whether rows can flow is a matter of the graph and
of the number of inputs alone. -/
theorem C105_inputs_do_not_matter (ops : SinkOps S) (hops : NeverFails ops) (range range' : TimestampRange) (sources sources' : List Source)
    (g : DGraph S) (hlen : sources.length = sources'.length)
    (hin : ∀ s ∈ sources, selected range s.rows ≠ [] ∧ endingWithin range s = .eof)
    (hin' : ∀ s ∈ sources', selected range' s.rows ≠ [] ∧ endingWithin range' s = .eof) :
    (∃ gfuel fuel, (driveGraph ops range gfuel fuel sources g).2 = .ok ()) ↔ ∃ gfuel fuel, (driveGraph ops range' gfuel fuel sources' g).2 = .ok () := by
  rw [C105_exact ops hops range sources g hin, C105_exact ops hops range' sources' g hin', hlen]

/-- **C105 (hanging).** With sinks that never fail, readable inputs and no missing chains, a cycle reachable from the chain of an input makes the run go on forever
(or until the stack is exhausted): it ends neither well nor with an error. -/
theorem C105_hangs (ops : SinkOps S) (hops : NeverFails ops) (range : TimestampRange) (sources : List Source) (g : DGraph S)
    (hin : ∀ s ∈ sources, selected range s.rows ≠ [] ∧ endingWithin range s = .eof)
    (hlen : sources.length ≤ g.chains.length) (hex : ∀ c d, Leads g.chains c d → d < g.chains.length)
    (c : Nat) (hc : c < sources.length) (hloop : Loops g.chains c) :
    ∀ gfuel fuel, (driveGraph ops range gfuel fuel sources g).2 = .diverge := by
  intro gfuel fuel
  have hnot : (driveGraph ops range gfuel fuel sources g).2 ≠ .ok () := fun h => (C105_success ops range gfuel fuel sources g h c hc).1 hloop
  have hcalls : (calls range fuel sources).2 = .ok () ∨ (calls range fuel sources).2 = .diverge := by
    by_cases hd : (calls range fuel sources).2 = .diverge
    · exact .inr hd
    · left
      have hm := drive_mono (fun c r l => (l ++ [Call.feed c r], Res.ok ())) (fun c l => (l ++ [Call.flush c], .ok ())) range fuel (enough sources) sources [] hd
      have h1 := (C23_source_failure range (fuel + enough sources) sources (fun s hs => (hin s hs).1) (by omega)).1.2 (fun s hs => (hin s hs).2)
      unfold calls at h1 ⊢
      rw [hm] at h1
      exact h1
  have hgood : ∀ x ∈ (calls range fuel sources).1, (∀ row, ResultIn g.shape (fun r => r = .ok () ∨ r = .diverge) (fun g => processRow ops gfuel (callChain x) 0 row g)) ∧
      ResultIn g.shape (fun r => r = .ok () ∨ r = .diverge) (fun g => flushFrom ops gfuel (callChain x) 0 g) := by
    intro x hx
    have hlt := calls_chains range fuel sources x hx
    exact flow_good hops.1 hops.2 (fun c d h => by rw [shape_length]; exact hex c d ((edge_iff g c d).1 h)) gfuel _ 0 (by rw [shape_length]; omega)
  unfold driveGraph at hnot ⊢
  rw [drive_perform] at hnot ⊢
  exact (perform_good (ok := fun r => r = .ok () ∨ r = .diverge) _ hcalls hgood g rfl).resolve_left hnot

/-! ### Cases -/

theorem doubling_never_fails : NeverFails doubling := ⟨fun _ _ => ⟨_, _, rfl⟩, fun _ => ⟨_, rfl⟩⟩

/-- Chain 0 sends rows to chain 1, which sends them back: chain 0 loops; chain 2 loops as well, as it leads to chain 1. Chain 3 does not. -/
def loopChains : List (DChain Nat) := [[.sink 0, .merge 1], [.split [3, 0]], [.merge 1], [.sink 0]]

theorem loop01 : Leads loopChains 0 1 := .merge (ch := [.sink 0, .merge 1]) rfl (by simp)
theorem loop10 : Leads loopChains 1 0 := .split (ch := [.split [3, 0]]) (ds := [3, 0]) rfl (by simp) (by simp)

example : Loops loopChains 0 := ⟨0, .inl rfl, .more loop01 (.one loop10)⟩
example : Loops loopChains 2 := ⟨1, .inr (.one (.merge (ch := [.merge 1]) rfl (by simp))), .more loop10 (.one loop01)⟩
example : ¬ Loops loopChains 3 := by
  have key : ∀ d, ¬ LeadsOn loopChains 3 d := by
    intro d h
    have h3 : ∀ d, ¬ Leads loopChains 3 d := by
      intro d h
      cases h with
      | merge hc hm => simp [loopChains] at hc; subst hc; simp at hm
      | split hc hm _ => simp [loopChains] at hc; subst hc; simp at hm
    cases h with
    | one h => exact h3 _ h
    | more h _ => exact h3 _ h
  rintro ⟨d, rfl | h, h'⟩
  · exact key _ h'
  · exact key _ h

/-- So the run with one input never succeeds: it does not terminate, however much fuel there is. -/
example (gfuel fuel : Nat) : (driveGraph doubling .all gfuel fuel [⟨[⟨1, []⟩], .eof⟩] ⟨loopChains, []⟩).2 ≠ .ok () :=
  fun h => (C105_success doubling .all gfuel fuel _ _ h 0 (by simp)).1 ⟨0, .inl rfl, .more loop01 (.one loop10)⟩

/-- A graph with a cycle that no input leads to (chain 1 to itself, excluded by C24's rank): the run succeeds. -/
example : (∀ rank, ¬ Acyclic ([[.sink 0], [.merge 1]] : List (DChain Nat)) rank) ∧
    (driveGraph doubling .all 9 9 [⟨[⟨1, []⟩], .eof⟩] ⟨[[.sink 0], [.merge 1]], []⟩).2 = .ok () := by
  refine ⟨fun rank h => ?_, by decide +kernel⟩
  have := (h 1 [.merge 1] rfl).1 1 (by simp)
  omega

/-- The hypotheses on the inputs are met, and the run succeeds, by the theorem, for an acyclic graph. -/
example : ∀ s ∈ [(⟨[⟨1, []⟩], .eof⟩ : Source)], selected .all s.rows ≠ [] ∧ endingWithin .all s = .eof := by
  intro s hs
  simp at hs; subst hs
  exact ⟨by decide, by decide⟩

end Chopper.Props
