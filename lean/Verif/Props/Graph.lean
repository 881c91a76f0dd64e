import Verif.Proofs.Driver5

/-!
# Properties of row delivery and flushing: C22, C24, C25, C26

For every behaviour `ops` of the sinks (arbitrary state type, arbitrary emitted rows, arbitrary failures), every graph and every
row.  `log` is a ghost record of the sink calls made.
-/
namespace Chopper.Props
open Chopper Spec

variable {S : Type}

/-- A sink that counts what it gets, and doubles every row (used in the examples). -/
def doubling : SinkOps Nat := ⟨fun n r => (n + 1, .ok [r, r]), fun n => (n + 100, .ok ())⟩

/-! ### C22: flush -/

/-- **C22.** When a run succeeds, every write of a row to a sink is followed by a flush of that sink. -/
theorem C22_flushed (ops : SinkOps S) (range : TimestampRange) (gfuel fuel : Nat) (sources : List Source) (g g' : DGraph S)
    (hok : driveGraph ops range gfuel fuel sources g = (g', .ok ())) :
    ∃ ev, g'.log = g.log ++ ev ∧ ∀ c i r pre post, ev = pre ++ .write c i r :: post → .flush c i ∈ post := by
  unfold driveGraph at hok
  have hm := drive_mono _ _ range fuel (totalRows sources + sources.length) sources g
    (by rw [hok]; simp)
  rw [hok, drive_perform] at hm
  rw [drive_perform] at hok
  have hout : (calls range (fuel + (totalRows sources + sources.length)) sources).2 = .ok () := by
    exact perform_ok (by rw [hm])
  have hne : ∀ s ∈ sources, selected range s.rows ≠ [] := by
    intro s hs he
    exact drive_empty_not_ok _ _ range _ sources _ ⟨s, hs, he⟩ hout
  have hr := calls_run range (fuel + (totalRows sources + sources.length)) sources hne
    (by have := totalSelected_le range sources; omega)
  have hfl := run_flush_after hr hout
  have hp := perform_flushed ops gfuel (sh := g.shape) _ _ hfl g g' rfl hm
  have hext := perform_shape_log ops gfuel g.shape (calls range (fuel + (totalRows sources + sources.length)) sources).1
    (calls range (fuel + (totalRows sources + sources.length)) sources).2 g rfl
  rw [hm] at hext
  exact ⟨newEvents g g', hext.newEvents.1, hp⟩

/-- Two inputs merged into a chain with two sinks: the run succeeds and writes four rows to the last sink. -/
example : driveGraph doubling .all 9 9 [⟨[⟨1, []⟩], .eof⟩, ⟨[⟨2, []⟩], .eof⟩]
      ⟨[[.merge 2], [.merge 2], [.sink 0, .sink 0]], []⟩ =
    (⟨[[.merge 2], [.merge 2], [.sink 202, .sink 204]],
      [.write 2 0 ⟨1, []⟩, .write 2 1 ⟨1, []⟩, .write 2 1 ⟨1, []⟩, .flush 2 0, .flush 2 1,
       .write 2 0 ⟨2, []⟩, .write 2 1 ⟨2, []⟩, .write 2 1 ⟨2, []⟩, .flush 2 0, .flush 2 1]⟩, .ok ()) := by rfl

/-! ### C24: termination -/

theorem acyclic_ranked {g : DGraph S} {rank : Nat → Nat} (h : Acyclic g.chains rank) : Ranked g.shape rank := by
  intro c ch hc
  rw [shape_get] at hc
  cases hg : g.chains[c]? with
  | none => simp [hg] at hc
  | some dch =>
    simp only [hg, Option.map_some, Option.some.injEq] at hc
    subst hc
    obtain ⟨h1, h2⟩ := h c dch hg
    constructor
    · intro d hd
      obtain ⟨n, hn, he⟩ := List.mem_map.1 hd
      cases n <;> simp [DNode.kind] at he
      subst he; exact h1 _ hn
    · intro ds hd
      obtain ⟨n, hn, he⟩ := List.mem_map.1 hd
      cases n <;> simp [DNode.kind] at he
      subst he; exact h2 _ hn

theorem shape_lengths {g : DGraph S} {M : Nat} (h : ∀ ch ∈ g.chains, ch.length ≤ M) :
    ∀ (c : Nat) (ch : List (DNode Unit)), g.shape[c]? = some ch → ch.length ≤ M := by
  intro c ch hc
  rw [shape_get] at hc
  cases hg : g.chains[c]? with
  | none => simp [hg] at hc
  | some dch =>
    simp only [hg, Option.map_some, Option.some.injEq] at hc
    subst hc
    simpa using h dch (List.mem_of_getElem? hg)

/-- **C24.** Over finite inputs and a graph without cycles (ranked by `rank ≤ R`, chains no longer than `M`) whose sinks finish
each call, the run stops: the depth of the traversal per row is bounded by `R * (M + 1) + M + 1`, the number of loop
iterations by the number of rows plus the number of inputs. -/
theorem C24_terminates (ops : SinkOps S) (hw : ∀ s r, (ops.write s r).2 ≠ .diverge) (hfl : ∀ s, (ops.flush s).2 ≠ .diverge)
    (range : TimestampRange) (gfuel fuel : Nat) (sources : List Source) (g : DGraph S)
    (rank : Nat → Nat) (R M : Nat) (hac : Acyclic g.chains rank) (hR : ∀ c, rank c ≤ R) (hM : ∀ ch ∈ g.chains, ch.length ≤ M)
    (hg : R * (M + 1) + M + 1 ≤ gfuel) (hf : totalRows sources + sources.length ≤ fuel) :
    (driveGraph ops range gfuel fuel sources g).2 ≠ .diverge := by
  have hb : ∀ c, rank c * (M + 1) + (M - 0) + 1 ≤ gfuel := by
    intro c
    have := Nat.mul_le_mul_right (M + 1) (hR c)
    omega
  unfold driveGraph
  refine drive_total _ _ range (fun g' => g'.shape = g.shape) ?_ ?_ fuel sources g hf rfl
  · intro c r g' hs
    exact ⟨processRow_total ops ⟨hw, hfl⟩ (acyclic_ranked hac) (shape_lengths hM) gfuel c 0 r g' hs (hb c),
      (processRow_ext ops g.shape gfuel c 0 r g' hs).1.trans hs⟩
  · intro c g' hs
    exact ⟨flushFrom_total ops ⟨hw, hfl⟩ (acyclic_ranked hac) (shape_lengths hM) gfuel c 0 g' hs (hb c),
      (flushFrom_ext ops g.shape gfuel c 0 g' hs).1.trans hs⟩

/-- The graph of the command line tool for two inputs is acyclic. -/
example : Acyclic ([[.merge 2], [.merge 2], [.sink 0, .sink 0]] : List (DChain Nat)) (fun c => if c = 2 then 0 else 1) := by
  intro c ch hc
  match c with
  | 0 => simp at hc; subst hc; simp
  | 1 => simp at hc; subst hc; simp
  | 2 => simp at hc; subst hc; simp
  | c + 3 => simp at hc

/-- A cyclic graph really diverges, however much fuel there is. -/
theorem C24_cycle_diverges (ops : SinkOps S) (row : Row) (log : List Event) : ∀ fuel : Nat,
    (processRow ops fuel 0 0 row ⟨[[.merge 0]], log⟩).2 = .diverge := by
  intro fuel
  induction fuel with
  | zero => rfl
  | succ fuel ih =>
    simp only [processRow, List.getElem?_cons_zero]
    rcases h : processRow ops fuel 0 0 row ⟨[[DNode.merge 0]], log⟩ with ⟨g', _ | _ | _ | _⟩ <;> rw [h] at ih <;> simp at ih

/-! ### C25: a chain is the composition of its nodes -/

/-- **C25.** Feeding a sequence of rows into a chain of sinks succeeds iff the stage-by-stage composition succeeds (first sink gets
all the rows, the second everything the first one emitted, …), and then every sink ends in the state and has received exactly the rows
that the composition says; nothing else in the graph is called or changed. -/
theorem C25_composition (ops : SinkOps S) (c : Nat) (ss : List S) (rows : List Row) (fuel : Nat) (g : DGraph S)
    (hc : g.chains[c]? = some (ss.map DNode.sink)) (hf : ss.length + 1 ≤ fuel) :
    (∀ l, stages ops ss rows = some l →
      ∃ ev, runAll (fun r g => processRow ops fuel c 0 r g) rows g =
          (⟨g.chains.set c (l.map (fun p => .sink p.1)), g.log ++ ev⟩, .ok ()) ∧
        (∀ i, written c i ev = match l[i]? with | some p => p.2 | none => []) ∧
        (∀ e ∈ ev, ∃ i r, e = .write c i r)) ∧
    (stages ops ss rows = none → (runAll (fun r g => processRow ops fuel c 0 r g) rows g).2 ≠ .ok ()) := by
  have h := chain_stages ops c ss.length ss rfl rows 0 fuel [] g (by simpa using hc) rfl hf
  refine ⟨fun l hl => ?_, h.2⟩
  obtain ⟨ev, h1, h2, h3⟩ := h.1 l hl
  refine ⟨ev, by simpa using h1, fun i => ?_, fun e he => ?_⟩
  · have := h2 i
    rw [Nat.zero_add] at this
    rw [this]; cases l[i]? <;> rfl
  obtain ⟨j, r, rfl⟩ := h3 e he
  exact ⟨j, r, by simp⟩

/-- Two doubling sinks and a sink that drops everything: 1, 2 and 4 calls for one row. -/
example : stages doubling [0, 0, 0] [⟨7, []⟩] =
    some [(1, [⟨7, []⟩]), (2, [⟨7, []⟩, ⟨7, []⟩]), (4, [⟨7, []⟩, ⟨7, []⟩, ⟨7, []⟩, ⟨7, []⟩])] := by rfl

/-- The input/output behaviour of a sink in a chain depends only on that sink: composing `a` and `b` is running `b` on what `a`
emits. -/
theorem C25_stages_append (ops : SinkOps S) : ∀ (a b : List S) (rows : List Row) (l : List (S × List Row)),
    stages ops a rows = some l → ∀ s s' out rows', a.getLast? = some s → l.getLast? = some (s', rows') →
    runSink ops s rows' = some (s', out) →
    stages ops (a ++ b) rows = (stages ops b out).map (l ++ ·) := by
  intro a
  induction a with
  | nil => intro b rows l _ s s' out rows' h; simp at h
  | cons x a ih =>
    intro b rows l h s s' out rows' hs hl hrun
    simp only [stages] at h
    cases hx : runSink ops x rows with
    | none => simp [hx] at h
    | some p =>
      obtain ⟨x', o⟩ := p
      simp only [hx] at h
      cases hrest : stages ops a o with
      | none => simp [hrest] at h
      | some l' =>
        simp only [hrest, Option.map_some, Option.some.injEq] at h
        subst h
        simp only [List.cons_append, stages, hx]
        cases a with
        | nil =>
          simp [stages] at hrest; subst hrest
          simp at hs hl
          obtain ⟨rfl, rfl⟩ := hl
          subst hs
          rw [hx] at hrun; cases hrun
          simp only [List.nil_append]
        | cons y a =>
          cases l' with
          | nil => have := stages_length ops _ _ _ hrest; simp at this
          | cons q l' =>
            have := ih b o (q :: l') hrest s s' out rows' (by simpa using hs) (by simpa using hl) hrun
            rw [this]
            cases stages ops b out <;> simp

/-! ### C26: splits and merges -/

/-- **C26.** Processing a row from any node of any graph succeeds exactly when working off the to-do list `Deliver` does, with the same
sink states and the same sink calls in the same order: at a split the unmodified row goes to every listed chain in order and then on along the
splitting chain, at a merge to the merged chain and then on, at a sink every emitted row is carried on completely before the
next. -/
theorem C26_delivery (ops : SinkOps S) (c i : Nat) (row : Row) (g g' : DGraph S) :
    (∃ fuel, processRow ops fuel c i row g = (g', .ok ())) ↔
      ∃ ev, g'.log = g.log ++ ev ∧ Deliver ops [(c, i, row)] g.chains g'.chains ev :=
  processRow_iff_deliver ops c i row g g'

/-- A row through a split with a tee: chains 1 and 2 get the row, then the sink after the split. -/
example : processRow doubling 9 0 0 ⟨7, []⟩ ⟨[[.split [1, 2], .sink 0], [.sink 10], [.merge 3], [.sink 20]], []⟩ =
    (⟨[[.split [1, 2], .sink 1], [.sink 11], [.merge 3], [.sink 21]],
      [.write 1 0 ⟨7, []⟩, .write 3 0 ⟨7, []⟩, .write 0 1 ⟨7, []⟩]⟩, .ok ()) := by rfl

theorem frame {P : Nat → Nat → Prop} {ok : Event → Prop} {g g' : DGraph S} (hx : Ext ok g g') (hu : Untouched g g')
    (hd : ∀ c i r, P c i → ¬ ok (.write c i r)) :
    (∀ c i, P c i → sinkAt g'.chains c i = sinkAt g.chains c i) ∧ ∀ c i, P c i → written c i g'.log = written c i g.log := by
  obtain ⟨_, ev, h1, h2⟩ := hx
  obtain ⟨_, ev', h3, h4⟩ := hu
  have he : ev = ev' := by rw [h1] at h3; exact List.append_cancel_left h3
  subst he
  constructor
  · intro c i hp
    exact h4 c i (fun r hr => hd c i r hp (h2 _ hr))
  · intro c i hp
    rw [h1, written_append]
    have : written c i ev = [] := by
      simp only [written, List.filterMap_eq_nil_iff]
      intro e he
      cases e with
      | flush _ _ => rfl
      | write c' i' r =>
        by_cases hc : c' = c ∧ i' = i
        · obtain ⟨rfl, rfl⟩ := hc
          exact absurd (h2 _ he) (hd _ _ r hp)
        · simp [hc]
    simp [this]

theorem runAll_untouched {α : Type} {f : α → DGraph S → DGraph S × Res Unit} (hf : ∀ a g, Untouched g (f a g).1) :
    ∀ (l : List α) g, Untouched g (runAll f l g).1 := by
  intro l g
  exact runAll_inv Untouched Untouched.refl (fun _ _ _ => Untouched.trans) l (fun a _ g => hf a g) g

/-- **C26 (independence).** Consider a split at node `i` of chain `c` with targets `pre ++ d :: post`, and suppose the
branch `d` shares no sink with the other targets nor with the rest of the splitting chain. Then if the row is processed successfully, the
sinks of branch `d` end in exactly the state, and have received exactly the rows, that delivering the row to `d` alone would give:
whatever the other branches do to their copies of the row does not matter. -/
theorem C26_branches_independent (ops : SinkOps S) (fuel c i : Nat) (row : Row) (g g' : DGraph S) (ch : DChain S)
    (pre post : List Nat) (d : Nat) (hc : g.chains[c]? = some ch) (hi : ch[i]? = some (.split (pre ++ d :: post)))
    (hdisj : ∀ c' i', OnPath g.chains d 0 c' i' →
      (∀ d' ∈ pre ++ post, ¬ OnPath g.chains d' 0 c' i') ∧ ¬ OnPath g.chains c (i + 1) c' i')
    (hok : processRow ops (fuel + 1) c i row g = (g', .ok ())) :
    ∃ g2, processRow ops fuel d 0 row g = (g2, .ok ()) ∧ ∀ c' i', OnPath g.chains d 0 c' i' →
      sinkAt g'.chains c' i' = sinkAt g2.chains c' i' ∧ written c' i' g'.log = written c' i' g2.log := by
  let P : Nat → Nat → Prop := fun c' i' => OnPath g.chains d 0 c' i'
  have toR : ∀ {c i c' i' : Nat}, Reach g.shape c i c' i' → OnPath g.chains c i c' i' := fun h => reach_onPath rfl h
  -- unfold one step
  simp only [processRow, hc, hi] at hok
  rcases hrun : runAll (fun d g => processRow ops fuel d 0 row g) (pre ++ d :: post) g with ⟨g3, _ | _ | _ | _⟩ <;>
    simp only [hrun, Prod.mk.injEq, reduceCtorEq, and_false] at hok
  rw [runAll_append] at hrun
  rcases h1 : runAll (fun d g => processRow ops fuel d 0 row g) pre g with ⟨g1, _ | _ | _ | _⟩ <;> simp only [h1, Prod.mk.injEq, reduceCtorEq, and_false] at hrun
  rw [runAll_ok_cons] at hrun
  obtain ⟨g1d, h2, h3⟩ := hrun
  -- frames
  have extAll : ∀ (l : List Nat) (a : DGraph S), a.shape = g.shape → (∀ d' ∈ l, d' ∈ pre ++ post) →
      Ext (fun e => ∃ d' ∈ pre ++ post, WriteAt g.shape d' 0 e) a (runAll (fun d g => processRow ops fuel d 0 row g) l a).1 := by
    intro l a ha hl
    apply runAll_ext (sh := g.shape) l _ a ha
    intro d' hd' a' ha'
    exact (processRow_ext ops g.shape fuel d' 0 row a' ha').mono (fun e he => ⟨d', hl d' hd', he⟩)
  have noOther : ∀ c' i' r, P c' i' → ¬ (∃ d' ∈ pre ++ post, WriteAt g.shape d' 0 (.write c' i' r)) := by
    rintro c' i' r hp ⟨d', hd', c2, i2, r2, he, hr⟩
    cases he
    exact (hdisj c' i' hp).1 d' hd' (toR hr)
  have f1x := extAll pre g rfl (fun d' h => by simp [h])
  have f1u := runAll_untouched (fun d g => processRow_untouched ops fuel d 0 row g) pre g
  rw [h1] at f1x f1u
  have f1 := frame f1x f1u noOther
  have hagree : Agree P g g1 := ⟨f1x.1.symm, fun c' i' hp => (f1.1 c' i' hp).symm⟩
  have hsame := processRow_same ops (sh := g.shape) (P := P) fuel d 0 row g g1 rfl (fun c' i' hr => toR hr) hagree
  rw [h2] at hsame
  obtain ⟨s1, s2, ev, s3, s4⟩ := hsame
  have hg1d : g1d.shape = g.shape := by
    have := (processRow_ext ops g.shape fuel d 0 row g1 f1x.1).1
    rw [h2] at this; exact this.trans f1x.1
  have f3x := extAll post g1d hg1d (fun d' h => by simp [h])
  have f3u := runAll_untouched (fun d g => processRow_untouched ops fuel d 0 row g) post g1d
  rw [h3] at f3x f3u
  have f3 := frame f3x f3u noOther
  have hg3 : g3.shape = g.shape := f3x.1.trans hg1d
  have f4x := processRow_ext ops g.shape fuel c (i + 1) row g3 hg3
  have f4u := processRow_untouched ops fuel c (i + 1) row g3
  rw [hok] at f4x f4u
  have f4 := frame (P := P) f4x f4u (by
    rintro c' i' r hp ⟨c2, i2, r2, he, hr⟩
    cases he
    exact (hdisj c' i' hp).2 (toR hr))
  rcases hd : processRow ops fuel d 0 row g with ⟨g2, o⟩
  rw [hd] at s1 s2 s3
  simp only at s1; subst s1
  refine ⟨g2, rfl, fun c' i' hp => ⟨?_, ?_⟩⟩
  · rw [f4.1 c' i' hp, f3.1 c' i' hp, s2.2 c' i' hp]
  · rw [f4.2 c' i' hp, f3.2 c' i' hp]
    simp only at s3 s4
    rw [s3, s4, written_append, written_append, f1.2 c' i' hp]

/-- In the example graph above, branch 1 shares no sink with branch 2 or with the rest of chain 0. -/
example : let chains : List (DChain Nat) := [[.split [1, 2], .sink 0], [.sink 10], [.merge 3], [.sink 20]]
    ∀ c' i', OnPath chains 1 0 c' i' → (∀ d' ∈ [] ++ [2], ¬ OnPath chains d' 0 c' i') ∧ ¬ OnPath chains 0 1 c' i' := by
  intro chains
  -- all sinks on a path from (c, i) lie in a set closed under the rules
  have closed : ∀ (Q : Nat → Nat → Nat → Nat → Prop), (∀ c i ch s, chains[c]? = some ch → ch[i]? = some (.sink s) → Q c i c i) →
      (∀ c i c' i' (ch : DChain Nat) n, chains[c]? = some ch → ch[i]? = some n → Q c (i + 1) c' i' → Q c i c' i') →
      (∀ c i c' i' (ch : DChain Nat) d, chains[c]? = some ch → ch[i]? = some (.merge d) → Q d 0 c' i' → Q c i c' i') →
      (∀ c i c' i' (ch : DChain Nat) ds d, chains[c]? = some ch → ch[i]? = some (.split ds) → d ∈ ds → Q d 0 c' i' → Q c i c' i') →
      ∀ c i c' i', OnPath chains c i c' i' → Q c i c' i' := by
    intro Q h1 h2 h3 h4 c i c' i' h
    induction h with
    | here a b => exact h1 _ _ _ _ a b
    | next a b _ ih => exact h2 _ _ _ _ _ _ a b ih
    | merge a b _ ih => exact h3 _ _ _ _ _ _ a b ih
    | split a b e _ ih => exact h4 _ _ _ _ _ _ _ a b e ih
  have hQ := closed (fun c i c' _ => (c = 1 → c' = 1) ∧ (c = 2 → c' = 3) ∧ (c = 3 → c' = 3) ∧ (c = 0 → 1 ≤ i → c' = 0))
    (by intro c i ch s h1 h2
        refine ⟨id, ?_, id, fun h _ => h⟩
        rintro rfl
        simp [chains] at h1; subst h1
        cases i <;> simp at h2)
    (by intro c i c' i' ch n h1 h2 ⟨a, b, e, f⟩
        exact ⟨a, b, e, fun h1 h2 => f h1 (by omega)⟩)
    (by intro c i c' i' ch d h1 h2 ⟨a, b, e, f⟩
        match c with
        | 0 => simp [chains] at h1; subst h1; match i with
          | 0 => simp at h2
          | 1 => simp at h2
          | i + 2 => simp at h2
        | 1 => simp [chains] at h1; subst h1; match i with
          | 0 => simp at h2
          | i + 1 => simp at h2
        | 2 => simp [chains] at h1; subst h1; match i with
          | 0 => simp at h2; subst h2; simp; exact e rfl
          | i + 1 => simp at h2
        | 3 => simp [chains] at h1; subst h1; match i with
          | 0 => simp at h2
          | i + 1 => simp at h2
        | c + 4 => simp [chains] at h1)
    (by intro c i c' i' ch ds d h1 h2 hd ⟨a, b, e, f⟩
        match c with
        | 0 => simp [chains] at h1; subst h1; match i with
          | 0 => simp
          | 1 => simp at h2
          | i + 2 => simp at h2
        | 1 => simp [chains] at h1; subst h1; match i with
          | 0 => simp at h2
          | i + 1 => simp at h2
        | 2 => simp [chains] at h1; subst h1; match i with
          | 0 => simp at h2
          | i + 1 => simp at h2
        | 3 => simp [chains] at h1; subst h1; match i with
          | 0 => simp at h2
          | i + 1 => simp at h2
        | c + 4 => simp [chains] at h1)
  intro c' i' h
  have k1 := (hQ _ _ _ _ h).1 rfl
  subst k1
  constructor
  · intro d' hd' h'
    simp at hd'; subst hd'
    have := (hQ _ _ _ _ h').2.1 rfl
    omega
  · intro h'
    have := (hQ _ _ _ _ h').2.2.2 rfl (by omega)
    omega

end Chopper.Props
