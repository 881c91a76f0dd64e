import Verif.Proofs.Routes
import Verif.Model.Filter
import Verif.Model.HeaderGraph
import Verif.Proofs.Driver5
import Verif.Props.Graph
import Verif.Props.Driver

/-!
# C95: every output of any graph gets the rows that its routes lead to it
-/
namespace Chopper.Props
open Chopper Spec

variable {S : Type}

/-- **C95.** Take any graph, any sinks whose output for a row does not depend on what they got before (filters, outputs; `Acts`), and a successful run. Then the
sink at any place `t` was given, for each row read, in the order in which the rows were read, exactly what the routes from the row's chain to `t` make of it: one
contribution per route, in some order; and its final state is that of a sink given these rows. -/
theorem C95_routes (ops : SinkOps S) (inv : Place → S → Prop) (f : Place → Row → List Row) (ha : Acts ops inv f) (range : TimestampRange) (gfuel fuel : Nat)
    (sources : List Source) (g g' : DGraph S) (hinv : ∀ c i s, sinkAt g.chains c i = some s → inv (c, i) s) (t : Place) (s : S) (hs : sinkAt g.chains t.1 t.2 = some s)
    (hr : ∀ p ∈ fed (calls range fuel sources).1, ∃ rs, Routes g.chains t p.1 0 rs)
    (hok : driveGraph ops range gfuel fuel sources g = (g', .ok ())) :
    ∃ (blocks : List (List Row)) (s' : S), blocks.length = (fed (calls range fuel sources).1).length ∧
      sinkAt g'.chains t.1 t.2 = some s' ∧ Took ops s blocks.flatten s' ∧
      ∀ (j c : Nat) (r : Row) (rs : List (List Place)) (b : List Row), (fed (calls range fuel sources).1)[j]? = some (c, r) → blocks[j]? = some b →
        Routes g.chains t c 0 rs → b.Perm (rs.flatMap fun q => along f q r) := by
  unfold driveGraph at hok
  rw [drive_perform] at hok
  obtain ⟨⟨_, ev, hl, hk⟩, blocks, hbl, hw, hb⟩ := perform_routes ha (exchange_perm f) (t := t) _ hinv hr hok
  obtain ⟨s', h1, h2⟩ := hk t.1 t.2 s hs
  have : written t.1 t.2 ev = blocks.flatten := by
    rw [hl, written_append] at hw
    exact List.append_cancel_left hw
  rw [this] at h2
  exact ⟨blocks, s', hbl, h1, h2, hb⟩

/-- **C95 (order).** If no sink turns a row into more than one, the order is that of the graph. -/
theorem C95_in_order (ops : SinkOps S) (inv : Place → S → Prop) (f : Place → Row → List Row) (ha : Acts ops inv f) (h1 : ∀ p row, (f p row).length ≤ 1)
    (range : TimestampRange) (gfuel fuel : Nat) (sources : List Source) (g g' : DGraph S) (hinv : ∀ c i s, sinkAt g.chains c i = some s → inv (c, i) s)
    (t : Place) (s : S) (hs : sinkAt g.chains t.1 t.2 = some s) (R : Nat → List (List Place))
    (hr : ∀ p ∈ fed (calls range fuel sources).1, Routes g.chains t p.1 0 (R p.1))
    (hok : driveGraph ops range gfuel fuel sources g = (g', .ok ())) :
    ∃ s', sinkAt g'.chains t.1 t.2 = some s' ∧ Took ops s ((fed (calls range fuel sources).1).flatMap fun p => (R p.1).flatMap fun q => along f q p.2) s' := by
  unfold driveGraph at hok
  rw [drive_perform] at hok
  obtain ⟨⟨_, ev, hl, hk⟩, blocks, hbl, hw, hb⟩ := perform_routes ha (exchange_eq h1) (t := t) _ hinv (fun p hp => ⟨_, hr p hp⟩) hok
  obtain ⟨s', h2, h3⟩ := hk t.1 t.2 s hs
  have e1 : written t.1 t.2 ev = blocks.flatten := by
    rw [hl, written_append] at hw
    exact List.append_cancel_left hw
  have e2 : blocks = (fed (calls range fuel sources).1).map fun p => (R p.1).flatMap fun q => along f q p.2 := by
    apply List.ext_getElem?
    intro j
    rw [List.getElem?_map]
    cases hj : (fed (calls range fuel sources).1)[j]? with
    | none =>
      rw [Option.map_none]
      exact List.getElem?_eq_none (by rw [hbl]; exact List.getElem?_eq_none_iff.1 hj)
    | some p =>
      have hlt := (List.getElem?_eq_some_iff.1 hj).1
      have hbj : blocks[j]? = some (blocks[j]'(by omega)) := List.getElem?_eq_getElem (by omega)
      rw [hbj, Option.map_some, hb j p.1 p.2 _ _ hj hbj (hr p (List.mem_of_getElem? hj))]
  rw [e1, e2, ← List.flatMap_def] at h3
  exact ⟨s', h2, h3⟩

/-- Every graph without cycles whose splits and merges lead to existing chains has routes from every chain to every place. -/
theorem C95_routes_exist (chains : List (DChain S)) (rank : Nat → Nat) (ha : Acyclic chains rank)
    (hm : ∀ (c : Nat) (ch : DChain S) (d : Nat), chains[c]? = some ch → DNode.merge d ∈ ch → d < chains.length)
    (hs : ∀ (c : Nat) (ch : DChain S) (ds : List Nat), chains[c]? = some ch → DNode.split ds ∈ ch → ∀ d ∈ ds, d < chains.length) (t : Place) (c : Nat) (hc : c < chains.length) :
    ∃ rs, Routes chains t c 0 rs :=
  routes_exist ha hm hs t (rank c + 1) c (by omega) hc chains[c].length 0 (fun ch h => by rw [List.getElem?_eq_getElem hc] at h; cases h; simp)

/-! Graphs of the built-in filters and outputs -/

/-- What the filter or output at a place makes of a row it accepts. -/
def builtinAt (chains : List (DChain BSink)) (p : Place) (row : Row) : List Row :=
  match sinkAt chains p.1 p.2 with
  | some s => match (s.write row).2 with
    | .ok rows => rows
    | _ => []
  | none => []

/-- The states of a built-in sink during a run: outputs grow, everything else stays as it is. -/
def builtinInv (chains : List (DChain BSink)) (p : Place) (s : BSink) : Prop :=
  ∃ s0, sinkAt chains p.1 p.2 = some s0 ∧ (s = s0 ∨ ∃ a b, s = .writer a ∧ s0 = .writer b)

theorem builtin_acts (chains : List (DChain BSink)) : Acts builtinOps (builtinInv chains) (builtinAt chains) where
  write := by
    rintro p s row s' rows ⟨s0, h0, h1⟩ hw
    have hw' : s.write row = (s', .ok rows) := hw
    rcases h1 with rfl | ⟨a, b, rfl, rfl⟩
    · refine ⟨by unfold builtinAt; rw [h0]; simp only [hw'], s, h0, ?_⟩
      cases s with
      | writer w => cases hw'; exact .inr ⟨_, _, rfl, rfl⟩
      | mergeJoin => cases hw'; exact .inl rfl
      | equal i v => cases hx : (BSink.equal i v).write row; rw [hx] at hw'; cases hw'; exact .inl (congrArg Prod.fst hx).symm
      | greater i v => cases hx : (BSink.greater i v).write row; rw [hx] at hw'; cases hw'; exact .inl (congrArg Prod.fst hx).symm
      | delete i => cases hx : (BSink.delete i).write row; rw [hx] at hw'; cases hw'; exact .inl (congrArg Prod.fst hx).symm
    · cases hw'
      exact ⟨by unfold builtinAt; rw [h0]; rfl, _, h0, .inr ⟨_, _, rfl, rfl⟩⟩
  flush := by
    rintro p s s' h hf
    cases hf
    exact h

theorem builtin_one (chains : List (DChain BSink)) (p : Place) (row : Row) : (builtinAt chains p row).length ≤ 1 := by
  unfold builtinAt
  cases sinkAt chains p.1 p.2 with
  | none => simp
  | some s =>
    cases s with
    | mergeJoin => simp [BSink.write]
    | writer w => simp [BSink.write]
    | equal i v =>
      simp only [BSink.write]
      split
      · next h =>
        simp only [Res.bind] at h
        split at h <;> try cases h
        simp only at h
        split at h <;> try cases h
        split <;> simp
      · simp
    | greater i v =>
      simp only [BSink.write]
      split
      · next h =>
        simp only [Res.bind] at h
        split at h <;> try cases h
        simp only at h
        split at h <;> try cases h
        split <;> simp
      · simp
    | delete i =>
      simp only [BSink.write]
      split
      · next h =>
        simp only [Res.bind] at h
        split at h <;> try cases h
        simp
      · simp

theorem took_writer {a : List Row} {rows : List Row} {s' : BSink} (h : Took builtinOps (.writer a) rows s') : s' = .writer (a ++ rows) := by
  generalize hs : BSink.writer a = s at h
  induction h with
  | start => subst hs; simp
  | write _ hw ih =>
    rw [ih] at hw
    cases hw
    simp
  | flush _ hf ih =>
    rw [ih] at hf
    cases hf
    rfl

/-- **C95 (filters and outputs).** In any graph of built-in filters, splits, merges and outputs, after a successful run an output holds, for each row read and each
route from its chain to the output, what the filters on the route make of it, and nothing else: in the order in which the rows were read, and for one row in the order
of the graph. -/
theorem C95_outputs (range : TimestampRange) (gfuel fuel : Nat) (sources : List Source) (g g' : DGraph BSink) (t : Place) (old : List Row)
    (hs : sinkAt g.chains t.1 t.2 = some (.writer old)) (R : Nat → List (List Place))
    (hr : ∀ p ∈ fed (calls range fuel sources).1, Routes g.chains t p.1 0 (R p.1))
    (hok : driveGraph builtinOps range gfuel fuel sources g = (g', .ok ())) :
    sinkAt g'.chains t.1 t.2 = some (.writer (old ++ (fed (calls range fuel sources).1).flatMap fun p => (R p.1).flatMap fun q => along (builtinAt g.chains) q p.2)) := by
  obtain ⟨s', h1, h2⟩ := C95_in_order builtinOps (builtinInv g.chains) _ (builtin_acts g.chains) (builtin_one g.chains) range gfuel fuel sources g g'
    (fun c i s h => ⟨s, h, .inl rfl⟩) t _ hs R hr hok
  rw [h1, took_writer h2]

/-- A route on which there are only outputs and merges passes every row on unchanged. -/
theorem C95_plain_route (chains : List (DChain BSink)) (q : List Place) (hq : ∀ p ∈ q, sinkAt chains p.1 p.2 = some .mergeJoin ∨ ∃ w, sinkAt chains p.1 p.2 = some (.writer w)) (row : Row) :
    along (builtinAt chains) q row = [row] := by
  induction q with
  | nil => rfl
  | cons p q ih =>
    have : builtinAt chains p row = [row] := by
      unfold builtinAt
      rcases hq p (by simp) with h | ⟨w, h⟩ <;> rw [h] <;> rfl
    rw [along, this]
    simp [ih (fun p h => hq p (by simp [h]))]

/-! The graph of `/repo/tests/test_split_merge_complex.rs` (`:76-143`): chain 7 is reached through chains 4 and 6, so it gets every row twice. -/

def complexGraph : List (HChain BSink) :=
  [[.splitSink [1, 2] 2], [.splitSink [3, 4] 2], [.splitSink [5, 6] 2, .sink writerHeader], [.sink writerHeader], [.merge 7, .sink writerHeader], [.sink writerHeader],
    [.merge 7], [.mergeSink none 2, .sink writerHeader]]

def complexData : List (DChain BSink) :=
  [[.split [1, 2]], [.split [3, 4]], [.split [5, 6], .sink (.writer [])], [.sink (.writer [])], [.merge 7, .sink (.writer [])], [.sink (.writer [])],
    [.merge 7], [.sink .mergeJoin, .sink (.writer [])]]

/-- Its header pass succeeds for every header, in both build modes. -/
theorem complex_headers (dbg : Bool) (h : Header) : processHeader dbg .mergeJoin 4 complexGraph [h] = .ok ⟨complexData, []⟩ := by
  cases dbg <;>
  simp [processHeader, processHeadersFrom, processHeaderRe, complexGraph, complexData, matchRemoveChain, hSwapRemove, nodesLoop, splitLoop, addNode, checkMergeHeader, mergeCheckHeader, writerHeader]

/-- Two routes lead from chain 0 to the output of chain 7, both through its join. -/
theorem complex_routes7 : Routes complexData (7, 1) 0 0 [[(7, 0)], [(7, 0)]] := by
  have r7 : Routes complexData (7, 1) 7 0 [[(7, 0)]] := .sink rfl rfl (.sink (s := .writer []) rfl rfl (.done rfl rfl))
  have r3 : Routes complexData (7, 1) 3 0 [] := .sink rfl rfl (.done rfl rfl)
  have r5 : Routes complexData (7, 1) 5 0 [] := .sink rfl rfl (.done rfl rfl)
  have r4 : Routes complexData (7, 1) 4 0 [[(7, 0)]] := .merge rfl rfl r7 (.sink (s := .writer []) (rs := []) rfl rfl (.done rfl rfl))
  have r6 : Routes complexData (7, 1) 6 0 [[(7, 0)]] := .merge rfl rfl r7 (.done rfl rfl)
  have two : ∀ (a b : Nat) (ra rb : List (List Place)), Routes complexData (7, 1) a 0 ra → Routes complexData (7, 1) b 0 rb →
      ∀ (j : Nat) (d : Nat) (rs : List (List Place)), [a, b][j]? = some d → [ra, rb][j]? = some rs → Routes complexData (7, 1) d 0 rs := by
    intro a b ra rb ha hb j d rs h1 h2
    match j with
    | 0 => cases h1; cases h2; exact ha
    | 1 => cases h1; cases h2; exact hb
    | j + 2 => cases h1
  have r1 : Routes complexData (7, 1) 1 0 [[(7, 0)]] := .split (rss := [[], [[(7, 0)]]]) rfl rfl rfl (two _ _ _ _ r3 r4) (.done rfl rfl)
  have r2 : Routes complexData (7, 1) 2 0 [[(7, 0)]] := .split (rss := [[], [[(7, 0)]]]) rfl rfl rfl (two _ _ _ _ r5 r6) (.sink (s := .writer []) (rs := []) rfl rfl (.done rfl rfl))
  exact .split (rss := [[[(7, 0)]], [[(7, 0)]]]) rfl rfl rfl (two _ _ _ _ r1 r2) (.done rfl rfl)

/-- So after any successful run over one input, sorted or not, that output holds every row of the input twice, one copy right after the other. -/
theorem C95_complex (gfuel fuel : Nat) (s : Source) (g' : DGraph BSink) (hok : driveGraph builtinOps .all gfuel fuel [s] ⟨complexData, []⟩ = (g', .ok ())) :
    sinkAt g'.chains 7 1 = some (.writer (s.rows.flatMap fun r => [r, r])) := by
  have hc : (calls .all fuel [s]).2 = .ok () := by
    unfold driveGraph at hok
    rw [drive_perform] at hok
    exact perform_ok (congrArg Prod.snd hok)
  have h4 : ∀ p ∈ fed (calls .all fuel [s]).1, p.1 = 0 := by
    intro p hp
    have := run_fed_mem (calls_ok_run hc) p hp
    rw [show [s].reverse = [s] from rfl] at this
    simp only [absFrom] at this
    split at this <;> simp [chainsOf] at this; exact this
  have h := C95_outputs .all gfuel fuel [s] ⟨complexData, []⟩ g' (7, 1) [] rfl (fun _ => [[(7, 0)], [(7, 0)]]) (fun p hp => by rw [h4 p hp]; exact complex_routes7) hok
  rw [h, List.nil_append]
  congr 1
  have h5 := C16_all fuel s hc
  rw [← h5]
  unfold fedTo
  generalize fed (calls .all fuel [s]).1 = l at h4
  congr 1
  induction l with
  | nil => rfl
  | cons p l ih =>
    have hp : along (builtinAt complexData) [(7, 0)] p.2 = [p.2] := C95_plain_route _ _ (by simp [complexData, sinkAt]) _
    rw [List.flatMap_cons, ih (fun q hq => h4 q (by simp [hq])), List.filterMap_cons, if_pos (h4 p (by simp))]
    simp only [List.flatMap_cons, hp]
    rfl

/-- The runs exist: two rows, four at the output of chain 7, two at the one of chain 2. -/
example : ∃ g', driveGraph builtinOps .all 9 9 [⟨[⟨1, []⟩, ⟨2, []⟩], .eof⟩] ⟨complexData, []⟩ = (g', .ok ()) ∧
    sinkAt g'.chains 7 1 = some (.writer [⟨1, []⟩, ⟨1, []⟩, ⟨2, []⟩, ⟨2, []⟩]) ∧ sinkAt g'.chains 2 1 = some (.writer [⟨1, []⟩, ⟨2, []⟩]) := ⟨_, rfl, rfl, rfl⟩

/-- Sinks that double every row, two in sequence (`Acts` with a state that changes): the second is given every row twice. -/
example : Acts doubling (fun _ _ => True) (fun _ row => [row, row]) ∧
    Routes [[.sink (0 : Nat), .sink 0]] (0, 1) 0 0 [[(0, 0)]] ∧
    ∃ g', driveGraph doubling .all 9 9 [⟨[⟨1, []⟩, ⟨2, []⟩], .eof⟩] ⟨[[.sink 0, .sink 0]], []⟩ = (g', .ok ()) ∧ sinkAt g'.chains 0 1 = some 104 :=
  ⟨⟨by rintro p s row s' rows - h; cases h; exact ⟨rfl, trivial⟩, fun _ _ _ _ _ => trivial⟩,
    .sink rfl rfl (.sink (s := 0) rfl rfl (.done rfl rfl)), _, rfl, rfl⟩

end Chopper.Props
