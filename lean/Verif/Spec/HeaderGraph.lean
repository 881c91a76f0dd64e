import Verif.Model.HeaderGraph

/-!
# Specification vocabulary for graph setup
-/
namespace Chopper.Spec
open Chopper

variable {D : Type}

/-- `ChainBuilt mj arrives called h nodes dnodes`: the data nodes `dnodes` are the nodes `nodes` of a header chain, one for one and in
order and of the same kind, when the chain is entered with header `h`:
each header sink is applied to the header produced by the nodes before it and contributes the data sink it returned; at a merge towards chain
`m` the current header is one that `arrives` at `m`; at a split each target is `called` with the current header. -/
inductive ChainBuilt (mj : D) (arrives called : Nat → Header → Prop) : Header → HChain D → DChain D → Prop
  | nil {h} : ChainBuilt mj arrives called h [] []
  | sink {h h' f d ns ds} : f h = .ok (d, h') → ChainBuilt mj arrives called h' ns ds →
      ChainBuilt mj arrives called h (.sink f :: ns) (.sink d :: ds)
  | mergeSink {h s n ns ds} : ChainBuilt mj arrives called h ns ds →
      ChainBuilt mj arrives called h (.mergeSink s n :: ns) (.sink mj :: ds)
  | split {h ids n ns ds} : (∀ d ∈ ids, called d h) → ChainBuilt mj arrives called h ns ds →
      ChainBuilt mj arrives called h (.splitSink ids n :: ns) (.split ids :: ds)
  | merge {h m ns ds} : arrives m h → ChainBuilt mj arrives called h ns ds →
      ChainBuilt mj arrives called h (.merge m :: ns) (.merge m :: ds)

/-- The chain waits for several inputs: its first node is a merge header sink, declared for `n` headers. -/
def MergeChain (ch : HChain D) (n : Nat) : Prop := ∃ s rest, ch = .mergeSink s n :: rest

/-- Number of merge nodes towards chain `m` in a data chain. -/
def mergesTo (m : Nat) (ch : DChain D) : Nat := ch.countP (fun n => match n with | .merge d => d == m | _ => false)

/-- `d` is a target of some split node of the chain. -/
def SplitsTo (ch : HChain D) (d : Nat) : Prop := ∃ ids n, HNode.splitSink ids n ∈ ch ∧ d ∈ ids

/-- The targets of the split nodes of a chain that is entered with header `h`, each with the header current at that node. -/
def splitsFrom : Header → HChain D → List (Nat × Header)
  | _, [] => []
  | h, .sink f :: ns => match f h with
    | .ok (_, h') => splitsFrom h' ns
    | _ => []
  | h, .splitSink ids _ :: ns => ids.map (fun d => (d, h)) ++ splitsFrom h ns
  | h, .mergeSink _ _ :: ns => splitsFrom h ns
  | h, .merge _ :: ns => splitsFrom h ns

/-- All merge header sinks are new: they have seen no header yet (`MergeJoin::new`). -/
def Fresh (chains : List (HChain D)) : Prop :=
  ∀ ch ∈ chains, ∀ s n, HNode.mergeSink s n ∈ ch → s = none

/-- Number of chains that still have nodes. -/
def liveChains (chains : List (HChain D)) : Nat := chains.countP (fun ch => !ch.isEmpty)

/-- Chain `c` exists and starts with a merge header sink. -/
def isMergeChain (chains : List (HChain D)) (c : Nat) : Bool :=
  match chains[c]? with
  | some (.mergeSink _ _ :: _) => true
  | _ => false

/-- What a successful setup of `chains` with the headers of the inputs amounts to: which chains are entered, with which header
(`entry`), which headers arrive at each merge chain (`arrived`, in order), and the resulting chains of data nodes. -/
structure Setup (mj : D) (chains : List (HChain D)) (headers : List Header) (data : List (DChain D))
    (entry : Nat → Option Header) (arrived : Nat → List Header) : Prop where
  length : data.length = chains.length
  /-- a chain that is not entered gets no nodes -/
  idle : ∀ c, c < chains.length → entry c = none → data[c]? = some []
  /-- a chain that is entered gets one data node per header node, in order -/
  built : ∀ (c : Nat) ch h, chains[c]? = some ch → entry c = some h → ∃ dch, data[c]? = some dch ∧
    ChainBuilt mj (fun m h' => h' ∈ arrived m) (fun d _ => entry d ≠ none ∨ chains[d]? = some [] ∨ d = chains.length) h ch dch
  /-- the header of input `i` enters chain `i`, or arrives there if that is a merge chain -/
  inputMerge : ∀ (i : Nat) h, headers[i]? = some h → isMergeChain chains i = true → h ∈ arrived i
  inputEnter : ∀ (i : Nat) h, headers[i]? = some h → isMergeChain chains i = false → entry i = some h
  /-- a chain is entered only by its input, by a split node with the header current there, or when its merge is complete -/
  origin : ∀ c h, entry c = some h →
    (headers[c]? = some h ∧ isMergeChain chains c = false) ∨
    (∃ c' h' ch', entry c' = some h' ∧ chains[c']? = some ch' ∧ (c, h) ∈ splitsFrom h' ch') ∨
    (∃ s n rest, chains[c]? = some (.mergeSink s n :: rest) ∧ (arrived c).length = n ∧ h ∈ arrived c)
  /-- headers arrive at merge chains only -/
  arrivedAt : ∀ m, arrived m ≠ [] → isMergeChain chains m = true
  /-- all headers arriving at a merge are the same (and the same as the one remembered, if any), and it is entered with that header -/
  same : ∀ m h h', h ∈ arrived m → h' ∈ arrived m → h = h'
  sameSeen : ∀ (m : Nat) s n rest h, chains[m]? = some (.mergeSink (some s) n :: rest) → h ∈ arrived m → h = s
  sameEntry : ∀ m h h', h ∈ arrived m → entry m = some h' → h = h'
  /-- a merge is entered when the declared number of headers has arrived, and waits as long as it has not -/
  complete : ∀ (m : Nat) s n rest, chains[m]? = some (.mergeSink s n :: rest) → arrived m ≠ [] →
    (entry m ≠ none → (arrived m).length = n) ∧ (entry m = none → (arrived m).length < n)
  /-- one header arrives per merge node, and one if the merge chain is that of an input -/
  count : ∀ m, (arrived m).length = (data.map (mergesTo m)).sum + if m < headers.length ∧ isMergeChain chains m = true then 1 else 0

end Chopper.Spec
