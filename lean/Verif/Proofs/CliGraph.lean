import Verif.Model.CliGraph
import Verif.Proofs.HeaderGraph4

namespace Chopper
open Spec

variable {D : Type}

theorem getElem?_at {α : Type} (A : List α) (x : α) (B : List α) {j : Nat} (h : A.length = j) : (A ++ x :: B)[j]? = some x := by
  subst h; simp

theorem set_at {α : Type} (A : List α) (x y : α) (B : List α) {j : Nat} (h : A.length = j) : (A ++ x :: B).set j y = A ++ y :: B := by
  subst h; simp

theorem addNode_at (A B : List (DChain D)) (x : DChain D) (n : DNode D) {j : Nat} (h : A.length = j) :
    addNode (A ++ x :: B) j n = some (A ++ (x ++ [n]) :: B) := by
  subst h
  unfold addNode
  rw [if_pos (by simp)]
  congr 1
  induction A with
  | nil => rfl
  | cons a A ih => simpa using ih

/-- The state after `j` of the `k = j + r` headers. -/
def cliSt (f : Header → Res (D × Header)) (j r : Nat) (seen : Option Header) : HState D :=
  ⟨List.replicate j [] ++ (List.replicate r [.merge (j + r)] ++ [[.mergeSink seen r, .sink f]]),
   List.replicate j [.merge (j + r)] ++ (List.replicate r [] ++ [[]])⟩

theorem cli_step (dbg : Bool) (mj : D) (fuel : Nat) (f : Header → Res (D × Header)) (j r : Nat) (seen : Option Header) (h : Header) :
    processHeaderRe dbg mj (fuel + 3) j h (cliSt f j (r + 1) seen) =
      match mergeCheckHeader seen h with
      | none => .err (.custom "MuxHeaderSink -- wrong header")
      | some h0 =>
        if r = 0 then
          match f h0 with
          | .ok (d, _) => .ok ⟨List.replicate (j + 2) [], List.replicate (j + 1) [.merge (j + 1)] ++ [[.sink mj, .sink d]]⟩
          | .err e => .err e
          | .panic => .panic
          | .diverge => .diverge
        else .ok (cliSt f (j + 1) r (some h0)) := by
  have hget : (cliSt f j (r + 1) seen).chains[j]? = some [.merge (j + (r + 1))] := by
    unfold cliSt
    simp only [List.replicate_succ, List.cons_append]
    exact getElem?_at _ _ _ (by simp)
  have hsr : hSwapRemove (cliSt f j (r + 1) seen).chains j =
      some ([.merge (j + (r + 1))], List.replicate (j + 1) [] ++ (List.replicate r [.merge (j + (r + 1))] ++ [[.mergeSink seen (r + 1), .sink f]])) := by
    rw [hSwapRemove_lt hget]
    unfold cliSt
    simp only [List.replicate_succ (n := r), List.cons_append]
    rw [set_at _ _ _ _ (by simp), List.replicate_succ' (n := j)]
    simp
  have hadd : addNode (cliSt f j (r + 1) seen).data j (.merge (j + (r + 1))) =
      some (List.replicate (j + 1) [.merge (j + (r + 1))] ++ (List.replicate r [] ++ [[]])) := by
    unfold cliSt
    simp only [List.replicate_succ (n := r), List.cons_append]
    rw [addNode_at _ _ _ _ (by simp), List.replicate_succ' (n := j)]
    simp
  unfold processHeaderRe
  simp only [hget]
  rw [show fuel + 3 = (fuel + 2) + 1 by omega, matchRemoveChain]
  simp only [hsr, nodesLoop, hadd]
  unfold checkMergeHeader
  have hk : ∀ (v : HChain D), (List.replicate (j + 1) [] ++ (List.replicate r [.merge (j + (r + 1))] ++ [v]))[j + (r + 1)]? = some v := by
    intro v
    rw [← List.append_assoc]; exact getElem?_at _ _ _ (by simp; omega)
  have hset : ∀ (v v' : HChain D), (List.replicate (j + 1) [] ++ (List.replicate r [HNode.merge (j + (r + 1))] ++ [v])).set (j + (r + 1)) v' =
      List.replicate (j + 1) [] ++ (List.replicate r [.merge (j + (r + 1))] ++ [v']) := by
    intro v v'
    rw [← List.append_assoc, ← List.append_assoc]; exact set_at _ _ _ _ (by simp; omega)
  simp only [hk, hset]
  rw [if_neg (by omega)]
  cases hc : mergeCheckHeader seen h with
  | none => simp
  | some h0 =>
    simp only [Nat.add_sub_cancel]
    by_cases hr : r = 0
    · subst hr
      simp only [if_true]
      have h1 : hSwapRemove (List.replicate (j + 1) [] ++ (List.replicate 0 [.merge (j + (0 + 1))] ++ [[.mergeSink none 0, .sink f]])) (j + (0 + 1)) =
          some ([.mergeSink none 0, .sink f], List.replicate (j + 2) []) := by
        rw [hSwapRemove_lt (hk _), hset]
        congr 2
        simp [List.replicate_succ']
      have h2 : ∀ (x : DChain D) n, addNode (List.replicate (j + 1) [.merge (j + 1)] ++ [x]) (j + 1) n =
          some (List.replicate (j + 1) [.merge (j + 1)] ++ [x ++ [n]]) := by
        intro x n; exact addNode_at _ [] _ _ (by simp)
      rw [show fuel + 2 = (fuel + 1) + 1 by omega, matchRemoveChain]
      simp only [List.replicate_zero, List.nil_append, Nat.zero_add] at h1
      simp only [h1, nodesLoop, List.replicate_zero, List.nil_append, Nat.zero_add]
      rw [h2]
      simp only [List.nil_append]
      cases hf : f h0 with
      | ok p =>
        obtain ⟨d, h'⟩ := p
        simp only
        rw [h2]
        simp
      | err e => simp
      | panic => simp
      | diverge => simp
    · simp only [hr, if_false, cliSt]
      rw [show j + 1 + r = j + (r + 1) by omega]

theorem cli_rest (dbg : Bool) (mj : D) (fuel : Nat) (f : Header → Res (D × Header)) (h0 : Header) : ∀ (hs : List Header) (j : Nat), hs ≠ [] →
    ((∀ h ∈ hs, h = h0) → processHeadersFrom dbg mj (fuel + 3) j hs (cliSt f j hs.length (some h0)) =
      (f h0).bind (fun p => .ok ⟨List.replicate (j + hs.length + 1) [],
        List.replicate (j + hs.length) [.merge (j + hs.length)] ++ [[.sink mj, .sink p.1]]⟩)) ∧
    ((∃ h ∈ hs, h ≠ h0) → processHeadersFrom dbg mj (fuel + 3) j hs (cliSt f j hs.length (some h0)) =
      .err (.custom "MuxHeaderSink -- wrong header")) := by
  intro hs
  induction hs with
  | nil => intro j hne; exact absurd rfl hne
  | cons h hs ih =>
    intro j _
    have hst := cli_step dbg mj fuel f j hs.length (some h0) h
    simp only [processHeadersFrom, List.length_cons, hst, mergeCheckHeader]
    by_cases hh : h = h0
    · subst hh
      simp only [if_true]
      cases hs with
      | nil =>
        simp only [List.length_nil, if_true, List.not_mem_nil]
        refine ⟨fun _ => ?_, by simp⟩
        cases f h with
        | ok p => simp [processHeadersFrom]
        | err e => simp
        | panic => simp
        | diverge => simp
      | cons h' hs' =>
        simp only [List.length_cons, Nat.add_one_ne_zero, if_false]
        have := ih (j + 1) (by simp)
        simp only [List.length_cons] at this
        refine ⟨fun hall => ?_, fun hex => ?_⟩
        · rw [this.1 (fun x hx => hall x (List.mem_cons_of_mem _ hx))]
          rw [show j + 1 + (hs'.length + 1) = j + (hs'.length + 1 + 1) by omega]
        · apply this.2
          obtain ⟨x, hx, hne⟩ := hex
          rcases List.mem_cons.1 hx with rfl | hx
          · exact absurd rfl hne
          · exact ⟨x, hx, hne⟩
    · simp only [if_neg hh]
      refine ⟨fun hall => absurd (hall h (by simp)) hh, fun _ => trivial⟩

/-- Setup of the command line graph. -/
theorem cli_setup (dbg : Bool) (mj : D) (fuel : Nat) (f : Header → Res (D × Header)) (h0 : Header) (hs : List Header) (hne : hs ≠ []) :
    ((∀ h ∈ hs, h = h0) → processHeader dbg mj (fuel + 3) (cliChains (hs.length + 1) f) (h0 :: hs) =
      (f h0).bind (fun p => .ok ⟨List.replicate (hs.length + 1) [.merge (hs.length + 1)] ++ [[.sink mj, .sink p.1]], []⟩)) ∧
    ((∃ h ∈ hs, h ≠ h0) → processHeader dbg mj (fuel + 3) (cliChains (hs.length + 1) f) (h0 :: hs) =
      .err (.custom "MuxHeaderSink -- wrong header")) := by
  have hlen : hs.length ≠ 0 := fun h => hne (List.eq_nil_of_length_eq_zero h)
  have h1 : (⟨cliChains (hs.length + 1) f, (cliChains (hs.length + 1) f).map (fun _ => [])⟩ : HState D) = cliSt f 0 (hs.length + 1) none := by
    unfold cliChains cliSt
    rw [if_pos (by omega)]
    simp
  have hst := cli_step dbg mj fuel f 0 hs.length none h0
  simp only [mergeCheckHeader, if_neg hlen, Nat.zero_add] at hst
  have hr := cli_rest dbg mj fuel f h0 hs 1 hne
  unfold processHeader
  rw [h1]
  simp only [processHeadersFrom, hst]
  refine ⟨fun ha => ?_, fun hx => ?_⟩
  · rw [hr.1 ha]
    cases f h0 with
    | ok p => simp [Nat.add_comm]
    | err e => simp
    | panic => simp
    | diverge => simp
  · rw [hr.2 hx]

theorem cli_setup_one (dbg : Bool) (mj : D) (fuel : Nat) (f : Header → Res (D × Header)) (h0 : Header) :
    processHeader dbg mj (fuel + 1) (cliChains 1 f) [h0] = (f h0).bind (fun p => .ok ⟨[[.sink p.1]], []⟩) := by
  unfold processHeader cliChains
  simp only [Nat.lt_irrefl, if_false, processHeadersFrom, processHeaderRe, List.getElem?_cons_zero, matchRemoveChain]
  rw [hSwapRemove_lt (c := 0) (ch := [.sink f]) (by simp)]
  simp only [nodesLoop, List.map_cons, List.map_nil]
  cases hf : f h0 with
  | ok p => obtain ⟨d, h'⟩ := p; simp [addNode]
  | err e => simp
  | panic => simp
  | diverge => simp

end Chopper
