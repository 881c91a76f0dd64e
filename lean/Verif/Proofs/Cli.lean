import Verif.Model.Cli
import Verif.Proofs.Writer
import Verif.Proofs.CliGraph
import Verif.Proofs.Driver5

/-!
# The driver on the graph of the command line tool
-/
namespace Chopper
open Spec

variable {S : Type}

/-- The data graph of the tool for `k` inputs with the output sink in state `s` (`mj`: the `MergeJoin` in front of it). -/
def cliGraph (mj : S) (k : Nat) (s : S) (log : List Event) : DGraph S :=
  if 1 < k then ⟨List.replicate k [.merge k] ++ [[.sink mj, .sink s]], log⟩ else ⟨[[.sink s]], log⟩

/-- Feeding a row to the output sink alone. -/
def sinkFeed (ops : SinkOps S) (_ : Nat) (r : Row) (s : S) : S × Res Unit := ((ops.write s r).1, (ops.write s r).2.map fun _ => ())

/-- Flushing the output sink alone. -/
def sinkFlush (ops : SinkOps S) (_ : Nat) (s : S) : S × Res Unit := ops.flush s

theorem replicate_get {α : Type} (k c : Nat) (x y : α) (h : c < k) : (List.replicate k x ++ [y])[c]? = some x := by
  rw [List.getElem?_append_left (by simpa using h), List.getElem?_replicate, if_pos h]

theorem replicate_last {α : Type} (k : Nat) (x y : α) : (List.replicate k x ++ [y])[k]? = some y := by
  rw [List.getElem?_append_right (by simp)]; simp

theorem modify_last {α : Type} (k : Nat) (x y : α) (f : α → α) : (List.replicate k x ++ [y]).modify k f = List.replicate k x ++ [f y] := by
  induction k with
  | zero => rfl
  | succ k ih => simp [List.replicate_succ, ih]

theorem runAll_end (ops : SinkOps S) (fuel c i : Nat) (ch : DChain S) : ∀ (rows : List Row) (g : DGraph S), g.chains[c]? = some ch → ch[i]? = none →
    runAll (fun r g => processRow ops (fuel + 1) c i r g) rows g = (g, .ok ())
  | [], _, _, _ => rfl
  | r :: rs, g, h1, h2 => by
    simp only [runAll, processRow, h1, h2]
    exact runAll_end ops fuel c i ch rs g h1 h2

theorem cli_process (ops : SinkOps S) (mj : S) (hmj : ∀ r, ops.write mj r = (mj, .ok [r])) (k c : Nat) (hc : c < k) (r : Row) (s : S) (log : List Event) (fuel : Nat) :
    ∃ log', processRow ops (fuel + 4) c 0 r (cliGraph mj k s log) = (cliGraph mj k (sinkFeed ops c r s).1 log', (sinkFeed ops c r s).2) := by
  unfold cliGraph sinkFeed
  by_cases hk : 1 < k
  · simp only [if_pos hk]
    rw [processRow]
    simp only [replicate_get k c _ _ hc, List.getElem?_cons_zero]
    rw [processRow]
    simp only [replicate_last, List.getElem?_cons_zero, hmj, DGraph.setSink, modify_last, List.set_cons_zero, runAll]
    rw [processRow]
    simp only [replicate_last, Nat.zero_add, List.getElem?_cons_succ, List.getElem?_cons_zero]
    rcases hw : ops.write s r with ⟨s', res⟩
    cases res with
    | ok rows =>
      simp only [hw, DGraph.setSink, modify_last, List.set_cons_succ, List.set_cons_zero]
      rw [runAll_end ops fuel k 2 [.sink mj, .sink s'] rows _ (replicate_last _ _ _) rfl]
      simp only
      rw [processRow]
      simp only [replicate_get k c _ _ hc]
      exact ⟨_, rfl⟩
    | err e => simp only [hw, DGraph.setSink, modify_last, List.set_cons_succ, List.set_cons_zero]; exact ⟨_, rfl⟩
    | panic => simp only [hw, DGraph.setSink, modify_last, List.set_cons_succ, List.set_cons_zero]; exact ⟨_, rfl⟩
    | diverge => simp only [hw, DGraph.setSink, modify_last, List.set_cons_succ, List.set_cons_zero]; exact ⟨_, rfl⟩
  · simp only [if_neg hk]
    have h0 : c = 0 := by omega
    subst h0
    rw [processRow]
    simp only [List.getElem?_cons_zero]
    rcases hw : ops.write s r with ⟨s', res⟩
    cases res with
    | ok rows =>
      simp only [hw, DGraph.setSink, List.modify_cons, if_true, List.set_cons_zero]
      rw [show fuel + 3 = (fuel + 2) + 1 from rfl, runAll_end ops (fuel + 2) 0 (0 + 1) [.sink s'] rows _ rfl rfl]
      exact ⟨_, rfl⟩
    | err e => simp only [hw]; exact ⟨_, rfl⟩
    | panic => simp only [hw]; exact ⟨_, rfl⟩
    | diverge => simp only [hw]; exact ⟨_, rfl⟩

theorem cli_flush (ops : SinkOps S) (mj : S) (hmj : ops.flush mj = (mj, .ok ())) (k c : Nat) (hc : c < k) (s : S) (log : List Event) (fuel : Nat) :
    ∃ log', flushFrom ops (fuel + 4) c 0 (cliGraph mj k s log) = (cliGraph mj k (sinkFlush ops c s).1 log', (sinkFlush ops c s).2) := by
  unfold cliGraph sinkFlush
  by_cases hk : 1 < k
  · simp only [if_pos hk]
    rw [flushFrom]
    simp only [replicate_get k c _ _ hc, List.getElem?_cons_zero]
    rw [flushFrom]
    simp only [replicate_last, List.getElem?_cons_zero, hmj, DGraph.setSink, modify_last, List.set_cons_zero]
    rw [flushFrom]
    simp only [replicate_last, Nat.zero_add, List.getElem?_cons_succ, List.getElem?_cons_zero]
    rcases hw : ops.flush s with ⟨s', res⟩
    cases res with
    | ok rows =>
      simp only [hw, DGraph.setSink, modify_last, List.set_cons_succ, List.set_cons_zero]
      rw [flushFrom]
      simp only [replicate_last, List.getElem?_cons_succ, List.getElem?_nil]
      rw [flushFrom]
      simp only [replicate_get k c _ _ hc]
      exact ⟨_, rfl⟩
    | err e => simp only [hw, DGraph.setSink, modify_last, List.set_cons_succ, List.set_cons_zero]; exact ⟨_, rfl⟩
    | panic => simp only [hw, DGraph.setSink, modify_last, List.set_cons_succ, List.set_cons_zero]; exact ⟨_, rfl⟩
    | diverge => simp only [hw, DGraph.setSink, modify_last, List.set_cons_succ, List.set_cons_zero]; exact ⟨_, rfl⟩
  · simp only [if_neg hk]
    have h0 : c = 0 := by omega
    subst h0
    rw [flushFrom]
    simp only [List.getElem?_cons_zero]
    rcases hw : ops.flush s with ⟨s', res⟩
    cases res with
    | ok rows =>
      simp only [hw, DGraph.setSink, List.modify_cons, if_true, List.set_cons_zero]
      rw [flushFrom]
      simp only [List.getElem?_cons_zero, Nat.zero_add, List.getElem?_cons_succ, List.getElem?_nil]
      exact ⟨_, rfl⟩
    | err e => simp only [hw]; exact ⟨_, rfl⟩
    | panic => simp only [hw]; exact ⟨_, rfl⟩
    | diverge => simp only [hw]; exact ⟨_, rfl⟩

/-- The chain a call goes to. -/
def callChain : Call → Nat
  | .feed c _ => c
  | .flush c => c

theorem cli_perform (ops : SinkOps S) (mj : S) (hw : ∀ r, ops.write mj r = (mj, .ok [r])) (hf : ops.flush mj = (mj, .ok ())) (k fuel : Nat) :
    ∀ (cs : List Call) (out : Res Unit) (s : S) (log : List Event), (∀ x ∈ cs, callChain x < k) →
    ∃ log', perform (fun c r g => processRow ops (fuel + 4) c 0 r g) (fun c g => flushFrom ops (fuel + 4) c 0 g) cs out (cliGraph mj k s log) =
      (cliGraph mj k (perform (sinkFeed ops) (sinkFlush ops) cs out s).1 log', (perform (sinkFeed ops) (sinkFlush ops) cs out s).2)
  | [], out, s, log, _ => ⟨log, rfl⟩
  | .feed c r :: cs, out, s, log, h => by
    obtain ⟨log1, h1⟩ := cli_process ops mj hw k c (h _ (.head _)) r s log fuel
    simp only [perform, h1]
    rcases hs : sinkFeed ops c r s with ⟨s', res⟩
    cases res with
    | ok u =>
      obtain ⟨log2, h2⟩ := cli_perform ops mj hw hf k fuel cs out s' log1 (fun x hx => h x (.tail _ hx))
      exact ⟨log2, h2⟩
    | err e => exact ⟨_, rfl⟩
    | panic => exact ⟨_, rfl⟩
    | diverge => exact ⟨_, rfl⟩
  | .flush c :: cs, out, s, log, h => by
    obtain ⟨log1, h1⟩ := cli_flush ops mj hf k c (h _ (.head _)) s log fuel
    simp only [perform, h1]
    rcases hs : sinkFlush ops c s with ⟨s', res⟩
    cases res with
    | ok u =>
      obtain ⟨log2, h2⟩ := cli_perform ops mj hw hf k fuel cs out s' log1 (fun x hx => h x (.tail _ hx))
      exact ⟨log2, h2⟩
    | err e => exact ⟨_, rfl⟩
    | panic => exact ⟨_, rfl⟩
    | diverge => exact ⟨_, rfl⟩

/-! ## Calls only concern the chains of the inputs -/

theorem driveLoop_chains (range : TimestampRange) (n : Nat) : ∀ (fuel : Nat) (bufs : List RowBuffer) (l : List Call),
    (∀ b ∈ bufs, b.chain < n) → (∀ x ∈ l, callChain x < n) →
    ∀ x ∈ (driveLoop (fun c r l => (l ++ [Call.feed c r], .ok ())) (fun c l => (l ++ [.flush c], .ok ())) range fuel bufs l).1, callChain x < n := by
  intro fuel
  induction fuel with
  | zero => intro bufs l _ hl; cases bufs <;> simpa [driveLoop] using hl
  | succ fuel ih =>
    intro bufs l hb hl
    by_cases hne : bufs = []
    · subst hne; simpa [driveLoop, nextBufferIndex] using hl
    · obtain ⟨pre, b, post, rfl, hi, _, _⟩ := nextBufferIndex_spec hne
      have hget : (pre ++ b :: post)[pre.length]? = some b := by simp
      rw [driveLoop, hi]
      simp only [hget]
      have hbc : b.chain < n := hb b (by simp)
      cases hr : b.row with
      | none => simpa using hl
      | some row =>
        have hl' : ∀ p ∈ l ++ [.feed b.chain row], callChain p < n := by
          intro p hp
          rcases List.mem_append.1 hp with hp | hp
          · exact hl p hp
          · simp at hp; subst hp; exact hbc
        have hl'' : ∀ p ∈ l ++ [.feed b.chain row] ++ [.flush b.chain], callChain p < n := by
          intro p hp
          rcases List.mem_append.1 hp with hp | hp
          · exact hl' p hp
          · simp at hp; subst hp; exact hbc
        simp only []
        rcases e2 : matchNextRow range b.source.rows b.source.ending with ⟨(_ | r) | _ | _ | _, s'⟩ <;> simp only [RowBuffer.hasNext, e2]
        · apply ih _ _ _ hl''
          have e4 : (pre ++ b :: post).eraseIdx pre.length = pre ++ post := by simp [List.eraseIdx_append]
          rw [e4]; intro b' hb'; exact hb b' (by simp at hb' ⊢; grind)
        · apply ih _ _ _ hl'
          intro b' hb'
          simp at hb'
          rcases hb' with hb' | rfl | hb'
          · exact hb b' (by simp [hb'])
          · exact hbc
          · exact hb b' (by simp [hb'])
        all_goals exact hl'

theorem calls_chains (range : TimestampRange) (fuel : Nat) (sources : List Source) : ∀ x ∈ (calls range fuel sources).1, callChain x < sources.length := by
  unfold calls drive
  cases hb : getRowBuffers range sources with
  | ok bufs =>
    simp only []
    apply driveLoop_chains
    · intro b hbm
      obtain ⟨j, s', h1, h2, h3⟩ := getRowBuffersFrom_get range _ _ _ hb b hbm
      have := (List.getElem?_eq_some_iff.1 h1).1
      simp at this
      omega
    · simp
  | _ => simp

end Chopper
