import Verif.Model.Graph

/-!
# Header graph: building the data graph
(`/repo/src/chopper/header_graph.rs`, `/repo/src/driver/merge_join.rs`, `/repo/src/driver/split.rs`)
-/
namespace Chopper

/-- `enum HeaderNode` (`/repo/src/chopper/header_graph.rs:10-15`).

* `sink f`: a `HeaderSink` (`/repo/src/chopper/chopper.rs:23-25`): `process_header` may change the header, yields a data sink, or fails.
* `mergeSink seen n`: a `MergeHeaderSink`, modelled by its only implementation `MergeJoin`
  (`/repo/src/driver/merge_join.rs:6-66`); `seen` is its `header` field, `n` the `unprocessed_count` of the tracker beside it.
* `splitSink ids n`: a `SplitHeaderSink`, i.e. `Split` (`/repo/src/driver/split.rs:5-27`), `n` its `unprocessed_count`.
* `merge c`: `HeaderNode::Merge`. -/
inductive HNode (D : Type) where
  | sink (f : Header → Res (D × Header))
  | mergeSink (seen : Option Header) (n : Nat)
  | splitSink (ids : List ChainId) (n : Nat)
  | merge (next : ChainId)

/-- `HeaderChain` (`/repo/src/chopper/header_graph.rs:17-19`). -/
abbrev HChain (D : Type) := List (HNode D)

/-- The pair (`HeaderGraph`, `DataGraph` under construction) threaded through `process_header`
(`/repo/src/chopper/header_graph.rs:21-23,52-60`). -/
structure HState (D : Type) where
  chains : List (HChain D)
  data : List (DChain D)

variable {D : Type}

/-- `HeaderGraph::swap_remove` (`/repo/src/chopper/header_graph.rs:80-84`): push an empty chain, then `Vec::swap_remove(chain_id)`, which
moves the last element into the hole; `none` is its out-of-range panic. -/
def hSwapRemove (chains : List (HChain D)) (c : ChainId) : Option (HChain D × List (HChain D)) :=
  let pushed := chains ++ [[]]
  match pushed[c]?, pushed.getLast? with
  | some ch, some last => some (ch, (pushed.set c last).dropLast)
  | _, _ => none

/-- `DataGraph::add_node` (`/repo/src/chopper/data_graph.rs:60-73`): `none` is its `Err`. -/
def addNode (data : List (DChain D)) (c : ChainId) (n : DNode D) : Option (List (DChain D)) :=
  if c < data.length then some (data.modify c (· ++ [n])) else none

/-- `MergeJoin::check_header` (`/repo/src/driver/merge_join.rs:32-42`): the header remembered afterwards, `none` is its `Err`. -/
def mergeCheckHeader (seen : Option Header) (h : Header) : Option Header :=
  match seen with
  | some h0 => if h = h0 then some h0 else none
  | none => some h

/-- `HeaderGraph::check_merge_header` (`/repo/src/chopper/header_graph.rs:128-164`), with `MergeJoin::process_header` (`44-46`, `take`) inlined.
`rec` is `match_remove_chain`. -/
def checkMergeHeader (rec : ChainId → Header → HState D → Res (HState D)) (c : ChainId) (h : Header) (σ : HState D) :
    Res (HState D) :=
  match σ.chains[c]? with
  | none => .err (.custom "HeaderGraph -- ChainId index out of bounds")
  | some [] => .panic                                     -- `get_mut(0).unwrap()`
  | some (.mergeSink seen n :: rest) =>
    if n = 0 then .err (.custom "HeaderGraph -- unprocessed header count must be at least 1")
    else
      match mergeCheckHeader seen h with
      | none => .err (.custom "MuxHeaderSink -- wrong header")
      | some h0 =>
        if n - 1 = 0 then rec c h0 { σ with chains := σ.chains.set c (.mergeSink none (n - 1) :: rest) }
        else .ok { σ with chains := σ.chains.set c (.mergeSink (some h0) (n - 1) :: rest) }
  | some (_ :: _) => .err (.custom "HeaderGraph -- expected MergeHeaderSink")

/-- The `for i in shs.chain_ids()` loop (`/repo/src/chopper/header_graph.rs:108-111`). `dbg`: overflow checks are on (debug build), then
`unprocessed_count -= 1` panics at 0; otherwise it wraps, which has no further effect. -/
def splitLoop (dbg : Bool) (rec : ChainId → Header → HState D → Res (HState D)) (h : Header) :
    List ChainId → Nat → HState D → Res (HState D)
  | [], _, σ => .ok σ
  | d :: ds, n, σ =>
    match rec d h σ with
    | .ok σ' => if n = 0 ∧ dbg then .panic else splitLoop dbg rec h ds (n - 1) σ'
    | r => r

/-- The `for node in chain.nodes` loop of `match_remove_chain` (`/repo/src/chopper/header_graph.rs:93-124`). `rec` is
`match_remove_chain`, `mj` the data sink a `MergeJoin` turns into (`/repo/src/driver/merge_join.rs:48-55`). -/
def nodesLoop (dbg : Bool) (mj : D) (rec : ChainId → Header → HState D → Res (HState D)) (c : ChainId) :
    HChain D → Header → HState D → Res (HState D)
  | [], _, σ => .ok σ
  | .sink f :: ns, h, σ =>
    match f h with
    | .ok (d, h') =>
      match addNode σ.data c (.sink d) with
      | none => .panic                                    -- `.unwrap()`
      | some data => nodesLoop dbg mj rec c ns h' { σ with data := data }
    | .err e => .err e
    | .panic => .panic
    | .diverge => .diverge
  | .mergeSink seen _ :: ns, h, σ =>
    match seen with
    | some _ => .err (.custom "MuxHeaderSink -- all the headers must be processed before returning DataSink")
    | none =>
      match addNode σ.data c (.sink mj) with
      | none => .err (.custom "DataGraph -- index out of bound")
      | some data => nodesLoop dbg mj rec c ns h { σ with data := data }
  | .splitSink ids n :: ns, h, σ =>
    if n = 0 then .err (.custom "HeaderGraph -- unprocessed header count must be at least 1")
    else match splitLoop dbg rec h ids n σ with
      | .ok σ' =>
        match addNode σ'.data c (.split ids) with
        | none => .err (.custom "DataGraph -- index out of bound")
        | some data => nodesLoop dbg mj rec c ns h { σ' with data := data }
      | r => r
  | .merge m :: ns, h, σ =>
    match addNode σ.data c (.merge m) with
    | none => .err (.custom "DataGraph -- index out of bound")
    | some data =>
      match checkMergeHeader rec m h { σ with data := data } with
      | .ok σ' => nodesLoop dbg mj rec c ns h σ'
      | r => r

/-- `HeaderGraph::match_remove_chain` (`/repo/src/chopper/header_graph.rs:86-126`). One unit of fuel per nested call. -/
def matchRemoveChain (dbg : Bool) (mj : D) : Nat → ChainId → Header → HState D → Res (HState D)
  | 0, _, _, _ => .diverge
  | fuel + 1, c, h, σ =>
    match hSwapRemove σ.chains c with
    | none => .panic
    | some (ch, chains) => nodesLoop dbg mj (matchRemoveChain dbg mj fuel) c ch h { σ with chains := chains }

/-- `HeaderGraph::process_header_re` (`/repo/src/chopper/header_graph.rs:62-78`). -/
def processHeaderRe (dbg : Bool) (mj : D) (fuel : Nat) (c : ChainId) (h : Header) (σ : HState D) : Res (HState D) :=
  match σ.chains[c]? with
  | none => .panic
  | some [] => .panic
  | some (.mergeSink _ _ :: _) => checkMergeHeader (matchRemoveChain dbg mj fuel) c h σ
  | some (_ :: _) => matchRemoveChain dbg mj fuel c h σ

/-- The loop of `HeaderGraph::process_header` (`/repo/src/chopper/header_graph.rs:56-58`), from input `i` on. -/
def processHeadersFrom (dbg : Bool) (mj : D) (fuel : Nat) : ChainId → List Header → HState D → Res (HState D)
  | _, [], σ => .ok σ
  | i, h :: hs, σ =>
    match processHeaderRe dbg mj fuel i h σ with
    | .ok σ' => processHeadersFrom dbg mj fuel (i + 1) hs σ'
    | r => r

/-- `HeaderGraph::process_header` (`/repo/src/chopper/header_graph.rs:52-60`) with `DataGraph::new`
(`/repo/src/chopper/data_graph.rs:35-41`). -/
def processHeader (dbg : Bool) (mj : D) (fuel : Nat) (chains : List (HChain D)) (headers : List Header) :
    Res (DGraph D) :=
  match processHeadersFrom dbg mj fuel 0 headers ⟨chains, chains.map (fun _ => [])⟩ with
  | .ok σ => .ok ⟨σ.data, []⟩
  | .err e => .err e
  | .panic => .panic
  | .diverge => .diverge

/-- `Driver::new` (`/repo/src/driver/driver.rs:15-33`). -/
def newDriver (dbg : Bool) (mj : D) (fuel : Nat) (nSources : Nat) (chains : List (HChain D)) (headers : List Header) :
    Res (DGraph D) :=
  if chains.length < nSources then .err (.custom "Driver -- not enough header chains for sources")
  else processHeader dbg mj fuel chains headers

end Chopper
