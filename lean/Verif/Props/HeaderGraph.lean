import Verif.Proofs.CliGraph

/-!
# Properties of graph setup: C27, C28, C29, C30, C31

For every header graph (any chains, any header sinks `f`, any merge counts and split targets), every list of input headers, debug and
release build (`dbg`).
-/
namespace Chopper.Props
open Chopper Spec

variable {D : Type}

/-! ### C30: chains keep their nodes -/

/-- **C30.** After a successful setup every chain that was reached holds one data node per header node, in the same order and of the same
kind, each header sink having been applied to the header produced by the nodes before it; chains that were not reached stay empty; and it is
fixed which chains are reached and with which header (`Spec.Setup`). -/
theorem C30_nodes_kept (dbg : Bool) (mj : D) (fuel : Nat) (chains : List (HChain D)) (headers : List Header) (g : DGraph D)
    (hok : processHeader dbg mj fuel chains headers = .ok g) :
    ∃ entry arrived, Setup mj chains headers g.chains entry arrived :=
  setup_spec hok

/-- A header sink that renames the columns and yields the data sink `7` (for the examples). -/
def renameSink : Header → Res (Nat × Header) := fun h => .ok (7, ⟨h.names.map (· ++ ['x']), h.types⟩)

/-- Two inputs, each with a header sink of its own, merged; the merged chain has a header sink and a split to a third chain. -/
def exampleChains : List (HChain Nat) :=
  [[.sink renameSink, .merge 2], [.sink renameSink, .merge 2], [.mergeSink none 2, .sink renameSink, .splitSink [3] 1], [.sink renameSink]]

example : processHeader true 0 5 exampleChains [⟨[['a']], [.int]⟩, ⟨[['a']], [.int]⟩] =
    .ok ⟨[[.sink 7, .merge 2], [.sink 7, .merge 2], [.sink 0, .sink 7, .split [3]], [.sink 7]], []⟩ := by rfl

/-! ### C27: only identical headers are merged -/

/-- The header current at node `k` of a chain entered with header `h`. -/
def headerAt : Header → HChain D → Nat → Option Header
  | h, _, 0 => some h
  | _, [], _ + 1 => none
  | h, .sink f :: ns, k + 1 => match f h with
    | .ok (_, h') => headerAt h' ns k
    | _ => none
  | h, _ :: ns, k + 1 => headerAt h ns k

theorem built_merge {mj : D} {A C : Nat → Header → Prop} {h : Header} {ch : HChain D} {ds : DChain D}
    (hb : ChainBuilt mj A C h ch ds) : ∀ {k m}, ch[k]? = some (.merge m) → ∃ h', headerAt h ch k = some h' ∧ A m h' := by
  induction hb with
  | nil => intro k m hm; simp at hm
  | sink hf _ ih =>
    intro k m hm
    cases k with
    | zero => simp at hm
    | succ k => simp only [headerAt, hf]; exact ih (by simpa using hm)
  | mergeSink _ ih =>
    intro k m hm
    cases k with
    | zero => simp at hm
    | succ k => simp only [headerAt]; exact ih (by simpa using hm)
  | split _ _ ih =>
    intro k m hm
    cases k with
    | zero => simp at hm
    | succ k => simp only [headerAt]; exact ih (by simpa using hm)
  | merge ha _ ih =>
    intro k m hm
    cases k with
    | zero => simp at hm; subst hm; exact ⟨_, by simp [headerAt], ha⟩
    | succ k => simp only [headerAt]; exact ih (by simpa using hm)

/-- **C27.** After a successful setup (every chain that got nodes was entered with some header): if two entered chains (`i`, `j`; in particular those of two inputs) lead to the same merge `m`, the
headers that get there are equal: same names and same types in the same order; and if the merged chain is entered, it is with exactly that
header.  (So with different headers setup does not succeed, and there is no graph to send rows through.) -/
theorem C27_same_header (dbg : Bool) (mj : D) (fuel : Nat) (chains : List (HChain D)) (headers : List Header) (g : DGraph D)
    (hok : processHeader dbg mj fuel chains headers = .ok g) :
    ∃ (entry : Nat → Option Header) (arrived : Nat → List Header), Setup mj chains headers g.chains entry arrived ∧
      (∀ (i : Nat) h, headers[i]? = some h → isMergeChain chains i = false → entry i = some h) ∧
      (∀ c dch, g.chains[c]? = some dch → dch ≠ [] → entry c ≠ none) ∧
      ∀ (i j : Nat) hi hj ci cj k l m, entry i = some hi → entry j = some hj → chains[i]? = some ci → chains[j]? = some cj →
        ci[k]? = some (.merge m) → cj[l]? = some (.merge m) →
        ∃ h, headerAt hi ci k = some h ∧ headerAt hj cj l = some h ∧ (∀ h', entry m = some h' → h' = h) := by
  obtain ⟨entry, arrived, hs⟩ := setup_spec hok
  refine ⟨entry, arrived, hs, hs.inputEnter, ?_, ?_⟩
  · intro c dch hc hne he
    have hlt : c < chains.length := by
      have := (List.getElem?_eq_some_iff.mp hc).1
      rw [hs.length] at this
      exact this
    have := hs.idle c hlt he
    rw [hc] at this
    exact hne (Option.some.inj this)
  intro i j hi hj ci cj k l m ei ej hci hcj hk hl
  obtain ⟨di, _, bi⟩ := hs.built i ci hi hci ei
  obtain ⟨dj, _, bj⟩ := hs.built j cj hj hcj ej
  obtain ⟨h1, h2, h3⟩ := built_merge bi hk
  obtain ⟨h1', h2', h3'⟩ := built_merge bj hl
  have : h1 = h1' := hs.same m _ _ h3 h3'
  subst this
  exact ⟨h1, h2, h2', fun h' he => (hs.sameEntry m _ _ h3 he).symm⟩

/-- **C27 (the command line tool).** For two or more inputs and any output header sink `f`: if all inputs have the header of the first one,
setup gives the merged graph around the sink made from exactly that header (or fails as `f` does); if any header differs, setup is an error. -/
theorem C27_command_line (dbg : Bool) (mj : D) (fuel : Nat) (hf : 3 ≤ fuel) (f : Header → Res (D × Header)) (h0 : Header)
    (hs : List Header) (hne : hs ≠ []) :
    ((∀ h ∈ hs, h = h0) → processHeader dbg mj fuel (cliChains (hs.length + 1) f) (h0 :: hs) =
      (f h0).bind (fun p => .ok ⟨List.replicate (hs.length + 1) [.merge (hs.length + 1)] ++ [[.sink mj, .sink p.1]], []⟩)) ∧
    ((∃ h ∈ hs, h ≠ h0) → processHeader dbg mj fuel (cliChains (hs.length + 1) f) (h0 :: hs) =
      .err (.custom "MuxHeaderSink -- wrong header")) := by
  have := cli_setup dbg mj (fuel - 3) f h0 hs hne
  rwa [show fuel - 3 + 3 = fuel by omega] at this

/-- A different header is an error. -/
example : processHeader true 0 5 exampleChains [⟨[['a']], [.int]⟩, ⟨[['a']], [.long]⟩] =
    .err (.custom "MuxHeaderSink -- wrong header") := by rfl

/-! ### C28: setup terminates -/

/-- **C28.** Setup stops for every graph, cyclic or not, provided the header sinks do: a nesting depth of one more than the number of
chains is enough, and any larger bound gives the same result. -/
theorem C28_setup_terminates (dbg : Bool) (mj : D) (chains : List (HChain D)) (headers : List Header)
    (hstop : ∀ ch ∈ chains, ∀ f, HNode.sink f ∈ ch → ∀ h, f h ≠ .diverge) (fuel : Nat) (hf : chains.length + 1 ≤ fuel) :
    processHeader dbg mj fuel chains headers ≠ .diverge ∧
    processHeader dbg mj fuel chains headers = processHeader dbg mj (chains.length + 1) chains headers := by
  have hl : liveChains chains ≤ chains.length := List.countP_le_length
  have h1 := processHeader_stops mj dbg (chains.length + 1) chains headers hstop (by omega)
  have h2 := processHeader_ext mj dbg (chains.length + 1) (fuel - (chains.length + 1)) chains headers h1
  rw [show chains.length + 1 + (fuel - (chains.length + 1)) = fuel by omega] at h2
  exact ⟨by rw [h2]; exact h1, h2⟩

/-- A cyclic header graph: it panics (nobody is at home in chain 0 any more). -/
example : processHeader true (0 : Nat) 3 [[.merge 1], [.mergeSink none 1, .merge 0]] [⟨[], []⟩] = .panic := by rfl

/-! ### C29: acceptance and cycles -/

/-- The English claim C29: if setup succeeds, then (sinks permitting) processing any row given to any chain ends. -/
def C29_full (D : Type) : Prop := ∀ (dbg : Bool) (mj : D) (fuel : Nat) (chains : List (HChain D)) (headers : List Header) (g : DGraph D),
  processHeader dbg mj fuel chains headers = .ok g → ∀ ops : SinkOps D, (∀ s r, (ops.write s r).2 ≠ .diverge) → (∀ s, (ops.flush s).2 ≠ .diverge) →
    ∀ (c : ChainId) (row : Row), ∃ gfuel, (processRow ops gfuel c 0 row g).2 ≠ .diverge

/-- The English claim C29 is false: a chain that splits to itself is accepted, and then the first row never ends, however much fuel there is. -/
theorem C29_counterexample (dbg : Bool) (mj : D) (h : Header) (ops : SinkOps D) (row : Row) :
    processHeader dbg mj 2 [[.splitSink [0] 1]] [h] = .ok ⟨[[.split [0]]], []⟩ ∧
    ∀ fuel, (processRow ops fuel 0 0 row ⟨[[.split [0]]], []⟩).2 = .diverge := by
  refine ⟨by cases dbg <;> rfl, ?_⟩
  have key : ∀ fuel (g : DGraph D), g.chains = [[.split [0]]] → (processRow ops fuel 0 0 row g).2 = .diverge := by
    intro fuel
    induction fuel with
    | zero => intro g _; rfl
    | succ fuel ih =>
      intro g hg
      simp only [processRow, hg, List.getElem?_cons_zero, runAll]
      have := ih g hg
      rcases hr : processRow ops fuel 0 0 row g with ⟨g', _ | _ | _ | _⟩ <;> rw [hr] at this <;> simp at this ⊢
  intro fuel
  exact key fuel _ rfl

theorem C29_refuted : ¬ C29_full Unit := fun h => by
  have h0 := C29_counterexample (D := Unit) true () ⟨[], []⟩ ⟨fun s _ => (s, .ok []), fun s => (s, .ok ())⟩ ⟨0, []⟩
  obtain ⟨gfuel, hg⟩ := h true () 2 _ _ _ h0.1 ⟨fun s _ => (s, .ok []), fun s => (s, .ok ())⟩ (by intros; simp) (by intros; simp) 0 ⟨0, []⟩
  exact hg (h0.2 gfuel)

/-- A split to the chain number just past the end is accepted as well; the first row panics. -/
theorem C29_missing_chain_accepted (dbg : Bool) (mj : D) (h : Header) (ops : SinkOps D) (row : Row) (fuel : Nat) :
    processHeader dbg mj 2 [[.splitSink [1] 1]] [h] = .ok ⟨[[.split [1]]], []⟩ ∧
    (processRow ops (fuel + 2) 0 0 row ⟨[[.split [1]]], []⟩).2 = .panic := by
  refine ⟨by cases dbg <;> rfl, ?_⟩
  simp [processRow, runAll]

/-- **C29, the part that holds.** If every split target is the target of splits of one chain only, is not the chain of an input and does not
start with a merge header sink, an accepted graph has no cycle, and (sinks permitting) processing a row and flushing terminate.
Missing: graphs outside these conditions, for which the claim is false (`C29_counterexample`). Merges need no condition. -/
theorem C29_accepted_acyclic_partial (dbg : Bool) (mj : D) (fuel : Nat) (chains : List (HChain D)) (headers : List Header) (g : DGraph D)
    (hok : processHeader dbg mj fuel chains headers = .ok g)
    (hone : ∀ (c c' d : Nat) ch ch', chains[c]? = some ch → chains[c']? = some ch' → SplitsTo ch d → SplitsTo ch' d → c = c')
    (hin : ∀ (c d : Nat) ch, chains[c]? = some ch → SplitsTo ch d → headers.length ≤ d ∧ isMergeChain chains d = false) :
    (∃ rank, Acyclic g.chains rank) ∧
    ∃ gfuel0, ∀ ops : SinkOps D, (∀ s r, (ops.write s r).2 ≠ .diverge) → (∀ s, (ops.flush s).2 ≠ .diverge) →
      ∀ gfuel, gfuel0 ≤ gfuel → ∀ (range : TimestampRange) (sources : List Source) (n : Nat),
        totalRows sources + sources.length ≤ n → (driveGraph ops range gfuel n sources g).2 ≠ .diverge := by
  obtain ⟨rank, hac, R, hR⟩ := setup_acyclic hok hone hin
  refine ⟨⟨rank, hac⟩, ?_⟩
  have hM : ∃ M, ∀ ch ∈ g.chains, ch.length ≤ M := by
    generalize g.chains = l
    induction l with
    | nil => exact ⟨0, by simp⟩
    | cons x xs ih =>
      obtain ⟨M, hM⟩ := ih
      refine ⟨x.length + M, ?_⟩
      intro ch hch
      rcases List.mem_cons.1 hch with rfl | hch
      · omega
      · have := hM ch hch; omega
  obtain ⟨M, hM⟩ := hM
  refine ⟨R * (M + 1) + M + 1, ?_⟩
  intro ops hw hfl gfuel hg range sources n hn
  exact C24_terminates ops hw hfl range gfuel n sources g rank R M hac hR hM hg hn

/-- The example graph meets the conditions. -/
example : (∀ (c c' d : Nat) ch ch', exampleChains[c]? = some ch → exampleChains[c']? = some ch' → SplitsTo ch d → SplitsTo ch' d → c = c') ∧
    (∀ (c d : Nat) ch, exampleChains[c]? = some ch → SplitsTo ch d → 2 ≤ d ∧ isMergeChain exampleChains d = false) := by
  have key : ∀ (c d : Nat) ch, exampleChains[c]? = some ch → SplitsTo ch d → c = 2 ∧ d = 3 := by
    intro c d ch hc ⟨ids, n, hm, hd⟩
    match c with
    | 0 => simp [exampleChains] at hc; subst hc; simp at hm
    | 1 => simp [exampleChains] at hc; subst hc; simp at hm
    | 2 => simp [exampleChains] at hc; subst hc; simp at hm; obtain ⟨rfl, _⟩ := hm; simp at hd; exact ⟨rfl, hd⟩
    | 3 => simp [exampleChains] at hc; subst hc; simp at hm
    | c + 4 => simp [exampleChains] at hc
  refine ⟨?_, ?_⟩
  · intro c c' d ch ch' h1 h2 h3 h4
    rw [(key c d ch h1 h3).1, (key c' d ch' h2 h4).1]
  · intro c d ch h1 h2
    obtain ⟨_, rfl⟩ := key c d ch h1 h2
    exact ⟨by omega, rfl⟩

/-! ### C31: merges waiting for too many inputs -/

/-- The English claim C31: if setup succeeds although fewer headers arrived at a merge than it was declared for (`a` and `n` as in
`C31_arrivals_partial` below), then a run in which a row is sent there does not succeed. -/
def C31_full (D : Type) : Prop := ∀ (dbg : Bool) (mj : D) (fuel : Nat) (chains : List (HChain D)) (headers : List Header) (g : DGraph D),
  processHeader dbg mj fuel chains headers = .ok g → ∀ (m n : Nat) (rest : HChain D), chains[m]? = some (.mergeSink none n :: rest) →
    (g.chains.map (mergesTo m)).sum + (if m < headers.length then 1 else 0) < n →
    ∀ (ops : SinkOps D) (range : TimestampRange) (gfuel fuel' : Nat) (sources : List Source) (c : ChainId) (ds : DChain D),
      g.chains[c]? = some (.merge m :: ds) → fedTo c (calls range fuel' sources).1 ≠ [] → (driveGraph ops range gfuel fuel' sources g).2 ≠ .ok ()

/-- The English claim C31 is false: a merge declared for two headers with a single input is accepted, and every row is dropped: the run
succeeds without any sink ever being called. -/
theorem C31_counterexample (dbg : Bool) (mj : D) (f : Header → Res (D × Header)) (h : Header) (ops : SinkOps D) (row : Row) (fuel : Nat) :
    processHeader dbg mj 3 [[.merge 1], [.mergeSink none 2, .sink f]] [h] = .ok ⟨[[.merge 1], []], []⟩ ∧
    processRow ops (fuel + 2) 0 0 row ⟨[[.merge 1], []], []⟩ = (⟨[[.merge 1], []], []⟩, .ok ()) := by
  refine ⟨?_, ?_⟩
  · cases dbg <;> rfl
  · simp [processRow]

theorem C31_refuted : ¬ C31_full Unit := fun h => by
  have h0 := C31_counterexample (D := Unit) true () (fun h => .ok ((), h)) ⟨[], []⟩ ⟨fun s _ => (s, .ok []), fun s => (s, .ok ())⟩ ⟨0, []⟩ 1
  have := h true () 3 _ _ _ h0.1 1 2 _ rfl (by decide) ⟨fun s _ => (s, .ok []), fun s => (s, .ok ())⟩ .all 5 5 [⟨[⟨7, []⟩], .eof⟩] 0 [] rfl (by decide +kernel)
  exact this (by decide +kernel)

/-- **C31, the part that holds.** After a successful setup, for every merge chain `m` declared for `n` headers (`n ≥ 1`, new) let `a` be the
number of merge nodes in the built graph that lead there (plus one if it is itself the chain of an input). Then `a ≤ n`: more headers than
declared are always reported. If `a = n`, the chain was entered and holds its data nodes; if `0 < a < n`,
it holds none, and rows sent there are lost without notice. Missing: the claim itself, which is false (`C31_counterexample`). -/
theorem C31_arrivals_partial (dbg : Bool) (mj : D) (fuel : Nat) (chains : List (HChain D)) (headers : List Header) (g : DGraph D)
    (hok : processHeader dbg mj fuel chains headers = .ok g) (m n : Nat) (rest : HChain D)
    (hm : chains[m]? = some (.mergeSink none n :: rest)) (hn : 1 ≤ n) (a : Nat)
    (ha : a = (g.chains.map (mergesTo m)).sum + if m < headers.length then 1 else 0) :
    a ≤ n ∧ (a = n → ∃ ds, g.chains[m]? = some (.sink mj :: ds) ∧ ds.length = rest.length) ∧
    (0 < a → a < n → g.chains[m]? = some []) := by
  obtain ⟨entry, arrived, hs⟩ := setup_spec hok
  have him : isMergeChain chains m = true := isMergeChain_iff.2 ⟨_, _, _, hm⟩
  have hlen : (arrived m).length = a := by rw [hs.count m, ha]; simp [him]
  have hlt := (List.getElem?_eq_some_iff.1 hm).1
  have blen : ∀ {A C : Nat → Header → Prop} {h : Header} {ch : HChain D} {ds : DChain D},
      ChainBuilt mj A C h ch ds → ds.length = ch.length := by
    intro A C h ch ds hb
    induction hb <;> simp_all
  by_cases h0 : arrived m = []
  · have : a = 0 := by rw [← hlen, h0]; rfl
    exact ⟨by omega, by omega, by omega⟩
  · obtain ⟨c1, c2⟩ := hs.complete m none n rest hm h0
    cases he : entry m with
    | none =>
      have := c2 he
      refine ⟨by omega, by omega, fun _ _ => hs.idle m hlt he⟩
    | some h =>
      have := c1 (by simp [he])
      refine ⟨by omega, fun _ => ?_, by omega⟩
      obtain ⟨dch, h1, hb⟩ := hs.built m _ h hm he
      cases hb with
      | mergeSink hb => exact ⟨_, h1, blen hb⟩

end Chopper.Props
