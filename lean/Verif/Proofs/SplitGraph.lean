import Verif.Spec.SplitGraph
import Verif.Proofs.FilterMerge

namespace Chopper
open Spec Props

/-- The data chain of a branch. -/
def branchChain (b : List BSink × List Row) : DChain BSink := b.1.map DNode.sink ++ [.sink (.writer b.2)]

/-- The data graph; branch `k` has filter sinks and the rows its output holds. -/
def spGraph (brs : List (List BSink × List Row)) (log : List Event) : DGraph BSink :=
  ⟨[.split (List.range' 1 brs.length)] :: brs.map branchChain, log⟩

theorem sp_get {brs : List (List BSink × List Row)} {log : List Event} {k : Nat} {b : List BSink × List Row} (h : brs[k]? = some b) :
    (spGraph brs log).chains[k + 1]? = some (branchChain b) := by
  unfold spGraph
  simp [List.getElem?_map, h]

theorem sp_same {brs : List (List BSink × List Row)} {log : List Event} {c i : Nat} {ch : DChain BSink} {s : BSink} (e : Event)
    (h : (spGraph brs log).chains[c]? = some ch) (hi : ch[i]? = some (.sink s)) :
    (spGraph brs log).setSink c i s e = spGraph brs (log ++ [e]) := by
  unfold DGraph.setSink
  rw [modify_same _ c _ ch h (by
    apply List.ext_getElem?
    intro k
    by_cases hk : i = k
    · subst hk
      have := (List.getElem?_eq_some_iff.1 hi).1
      rw [List.getElem?_set_self this, hi]
    · rw [List.getElem?_set_ne hk])]
  rfl

theorem sp_write {brs : List (List BSink × List Row)} {log : List Event} {k : Nat} {ss : List BSink} {rows : List Row} (row : Row) (e : Event)
    (h : brs[k]? = some (ss, rows)) :
    (spGraph brs log).setSink (k + 1) ss.length (.writer (rows ++ [row])) e = spGraph (brs.set k (ss, rows ++ [row])) (log ++ [e]) := by
  unfold DGraph.setSink spGraph
  simp only [List.length_set, List.modify_succ_cons, List.map_set]
  congr 2
  apply List.ext_getElem?
  intro j
  rw [List.getElem?_modify]
  have hlt := (List.getElem?_eq_some_iff.1 h).1
  by_cases hj : k = j
  · subst hj
    rw [List.getElem?_set_self (by simpa using hlt), List.getElem?_map, h]
    simp [branchChain]
  · rw [List.getElem?_set_ne hj]; simp [hj]

/-- One row in one branch. -/
theorem sp_branch (brs : List (List BSink × List Row)) (k : Nat) (ss : List BSink) (rows : List Row) (hk : brs[k]? = some (ss, rows))
    (hfix : ∀ s ∈ ss, s.fixed) :
    ∀ (rest pre : List BSink), pre ++ rest = ss → ∀ (log : List Event) (row : Row) (fuel : Nat), rest.length + 2 ≤ fuel →
    (∃ out, SinksOut rest row out ∧ ∃ log', processRow builtinOps fuel (k + 1) pre.length row (spGraph brs log) =
      (spGraph (brs.set k (ss, rows ++ out.toList)) log', .ok ())) ∨
    ((¬ ∃ out, SinksOut rest row out) ∧ (processRow builtinOps fuel (k + 1) pre.length row (spGraph brs log)).2 = .panic) := by
  intro rest
  induction rest with
  | nil =>
    intro pre hp log row fuel hf
    left
    refine ⟨some row, .done, ?_⟩
    obtain ⟨fuel, rfl⟩ : ∃ k, fuel = k + 2 := ⟨fuel - 2, by simp at hf; omega⟩
    have hp' : pre = ss := by simpa using hp
    subst hp'
    rw [show fuel + 2 = (fuel + 1) + 1 by omega, processRow]
    have h1 : (branchChain (pre, rows))[pre.length]? = some (.sink (.writer rows)) := getElem?_at _ _ _ (by simp)
    simp only [sp_get hk, h1, builtinOps, BSink.write]
    rw [sp_write row _ hk, show (⟨BSink.write, fun s => (s, Res.ok ())⟩ : SinkOps BSink) = builtinOps from rfl]
    have hlt := (List.getElem?_eq_some_iff.1 hk).1
    rw [runAll_end builtinOps fuel (k + 1) (pre.length + 1) (branchChain (pre, rows ++ [row])) [row]
      _ (sp_get (List.getElem?_set_self hlt)) (List.getElem?_eq_none (by simp [branchChain]))]
    exact ⟨_, rfl⟩
  | cons s rest ih =>
    intro pre hp log row fuel hf
    obtain ⟨fuel, rfl⟩ : ∃ k, fuel = k + 1 := ⟨fuel - 1, by simp at hf; omega⟩
    have hsfix : s.fixed := hfix s (by rw [← hp]; simp)
    have h1 : (branchChain (ss, rows))[pre.length]? = some (.sink s) := by
      rw [← hp, branchChain]
      simp
    rw [processRow]
    simp only [sp_get hk, h1, builtinOps]
    rcases fixed_write hsfix row with ⟨out, ho⟩ | hpan
    · unfold SinkOut at ho
      rw [ho]
      simp only
      rw [sp_same _ (sp_get hk) h1]
      cases out with
      | none =>
        left
        refine ⟨none, .dropped ho, log ++ [.write (k + 1) pre.length row], ?_⟩
        simp only [Option.toList, runAll, List.append_nil]
        congr 2
        have hlt := (List.getElem?_eq_some_iff.1 hk).1
        apply List.ext_getElem?
        intro j
        by_cases hj : k = j
        · subst hj; rw [List.getElem?_set_self hlt, hk]
        · rw [List.getElem?_set_ne hj]
      | some row' =>
        have hlen : (pre ++ [s]).length = pre.length + 1 := by simp
        rcases ih (pre ++ [s]) (by simp [hp]) (log ++ [.write (k + 1) pre.length row]) row' fuel (by simp at hf; omega) with
          ⟨o, h2, log', h3⟩ | ⟨h2, h3⟩
        · left
          refine ⟨o, .next ho h2, log', ?_⟩
          rw [hlen] at h3
          simp only [Option.toList, runAll]
          rw [show (⟨BSink.write, fun s => (s, Res.ok ())⟩ : SinkOps BSink) = builtinOps from rfl, h3]
          cases o <;> rfl
        · right
          refine ⟨?_, ?_⟩
          · rintro ⟨o, h⟩
            cases h with
            | dropped h => exact absurd (sinkOut_unique h ho) (by simp)
            | next h h' =>
              have := sinkOut_unique h ho
              simp at this; subst this
              exact h2 ⟨_, h'⟩
          · rw [hlen] at h3
            simp only [Option.toList, runAll]
            rw [show (⟨BSink.write, fun s => (s, Res.ok ())⟩ : SinkOps BSink) = builtinOps from rfl]
            rcases hr : processRow builtinOps fuel (k + 1) (pre.length + 1) row' (spGraph brs (log ++ [.write (k + 1) pre.length row])) with ⟨g', r⟩
            rw [hr] at h3
            simp only at h3
            subst h3
            rw [hr]
    · right
      rw [hpan]
      refine ⟨?_, rfl⟩
      rintro ⟨o, h⟩
      cases h with
      | dropped h => unfold SinkOut at h; rw [hpan] at h; simp at h
      | next h h' => unfold SinkOut at h; rw [hpan] at h; simp at h

/-- The branches `brs'` are the branches `brs` from branch `k` on after receiving `row`. -/
def Fed1 (k : Nat) (row : Row) (brs brs' : List (List BSink × List Row)) : Prop :=
  brs'.length = brs.length ∧ ∀ (j : Nat) ss rows, brs[j]? = some (ss, rows) →
    (j < k → brs'[j]? = some (ss, rows)) ∧ (k ≤ j → ∃ out, SinksOut ss row out ∧ brs'[j]? = some (ss, rows ++ out.toList))

/-- One row in all branches from branch `k` on. -/
theorem sp_split (row : Row) (fuel : Nat) : ∀ (m k : Nat) (brs : List (List BSink × List Row)), k + m = brs.length →
    (∀ b ∈ brs, ∀ s ∈ b.1, s.fixed) → (∀ b ∈ brs, b.1.length + 2 ≤ fuel) → ∀ (log : List Event),
    (∃ brs' log', Fed1 k row brs brs' ∧ runAll (fun d g => processRow builtinOps fuel d 0 row g) (List.range' (k + 1) m) (spGraph brs log) = (spGraph brs' log', .ok ())) ∨
    ((∃ b ∈ brs, ¬ ∃ out, SinksOut b.1 row out) ∧
      (runAll (fun d g => processRow builtinOps fuel d 0 row g) (List.range' (k + 1) m) (spGraph brs log)).2 = .panic) := by
  intro m
  induction m with
  | zero =>
    intro k brs hk _ _ log
    left
    refine ⟨brs, log, ⟨rfl, fun j ss rows hj => ⟨fun _ => hj, fun hkj => ?_⟩⟩, rfl⟩
    have := (List.getElem?_eq_some_iff.1 hj).1
    omega
  | succ m ih =>
    intro k brs hk hfix hfuel log
    have hlt : k < brs.length := by omega
    have hb : brs[k]? = some brs[k] := List.getElem?_eq_getElem hlt
    have hmem : brs[k] ∈ brs := List.getElem_mem _
    generalize brs[k] = b at hb hmem
    obtain ⟨ss, rows⟩ := b
    rw [List.range'_succ]
    simp only [runAll]
    rcases sp_branch brs k ss rows hb (hfix _ hmem) ss [] rfl log row fuel (hfuel _ hmem) with ⟨out, h1, log1, h2⟩ | ⟨h1, h2⟩
    · have h2' : processRow builtinOps fuel (k + 1) 0 row (spGraph brs log) = (spGraph (brs.set k (ss, rows ++ out.toList)) log1, .ok ()) := h2
      simp only [h2']
      have hmem' : ∀ b ∈ brs.set k (ss, rows ++ out.toList), ∃ b' ∈ brs, b'.1 = b.1 := by
        intro b hb'
        rcases List.mem_or_eq_of_mem_set hb' with h | h
        · exact ⟨b, h, rfl⟩
        · subst h; exact ⟨_, hmem, rfl⟩
      rcases ih (k + 1) (brs.set k (ss, rows ++ out.toList)) (by simp; omega)
        (fun b hb => by obtain ⟨b', h, e⟩ := hmem' b hb; rw [← e]; exact hfix b' h)
        (fun b hb => by obtain ⟨b', h, e⟩ := hmem' b hb; rw [← e]; exact hfuel b' h) log1 with ⟨brs', log', h3, h4⟩ | ⟨⟨b, hb1, hb2⟩, h4⟩
      · left
        refine ⟨brs', log', ⟨by rw [h3.1]; simp, fun j ss' rows' hj => ?_⟩, h4⟩
        by_cases hjk : k = j
        · subst hjk
          rw [hb] at hj; cases hj
          have := (h3.2 k ss (rows ++ out.toList) (List.getElem?_set_self hlt)).1 (by omega)
          exact ⟨fun h => by omega, fun _ => ⟨out, h1, this⟩⟩
        · have := h3.2 j ss' rows' (by rw [List.getElem?_set_ne hjk]; exact hj)
          exact ⟨fun h => this.1 (by omega), fun h => this.2 (by omega)⟩
      · right
        obtain ⟨b', h, e⟩ := hmem' b hb1
        exact ⟨⟨b', h, by rw [e]; exact hb2⟩, h4⟩
    · right
      rcases hr : processRow builtinOps fuel (k + 1) 0 row (spGraph brs log) with ⟨g', r⟩
      have h2' : (processRow builtinOps fuel (k + 1) 0 row (spGraph brs log)).2 = .panic := h2
      rw [hr] at h2'
      simp only at h2'
      subst h2'
      exact ⟨⟨_, hmem, h1⟩, rfl⟩

/-- One row through the whole graph. -/
theorem sp_row (row : Row) (fuel : Nat) (brs : List (List BSink × List Row)) (hfix : ∀ b ∈ brs, ∀ s ∈ b.1, s.fixed)
    (hfuel : ∀ b ∈ brs, b.1.length + 2 ≤ fuel) (hpos : 1 ≤ fuel) (log : List Event) :
    (∃ brs' log', Fed1 0 row brs brs' ∧ processRow builtinOps (fuel + 1) 0 0 row (spGraph brs log) = (spGraph brs' log', .ok ())) ∨
    ((∃ b ∈ brs, ¬ ∃ out, SinksOut b.1 row out) ∧ (processRow builtinOps (fuel + 1) 0 0 row (spGraph brs log)).2 = .panic) := by
  have hzero : ∀ brs log, (spGraph brs log).chains[0]? = some [.split (List.range' 1 brs.length)] := fun _ _ => rfl
  rw [processRow]
  simp only [hzero, List.getElem?_cons_zero]
  rcases sp_split row fuel brs.length 0 brs (by omega) hfix hfuel log with ⟨brs', log', h1, h2⟩ | ⟨h1, h2⟩
  · left
    obtain ⟨fuel, rfl⟩ : ∃ k, fuel = k + 1 := ⟨fuel - 1, by omega⟩
    simp only [Nat.zero_add] at h2
    refine ⟨brs', log', h1, ?_⟩
    rw [h2]
    simp only [processRow, hzero]
    rfl
  · right
    refine ⟨h1, ?_⟩
    simp only [Nat.zero_add] at h2
    rcases hr : runAll (fun d g => processRow builtinOps fuel d 0 row g) (List.range' 1 brs.length) (spGraph brs log) with ⟨g', r⟩
    rw [hr] at h2
    simp only at h2
    subst h2
    rfl

theorem sp_flushBranch (brs : List (List BSink × List Row)) (k : Nat) (ss : List BSink) (rows : List Row) (hk : brs[k]? = some (ss, rows)) :
    ∀ (n i : Nat), i + n = ss.length + 1 → ∀ (log : List Event) (fuel : Nat), n + 1 ≤ fuel →
    ∃ log', flushFrom builtinOps fuel (k + 1) i (spGraph brs log) = (spGraph brs log', .ok ()) := by
  intro n
  induction n with
  | zero =>
    intro i hi log fuel hf
    obtain ⟨fuel, rfl⟩ : ∃ k, fuel = k + 1 := ⟨fuel - 1, by omega⟩
    have : (branchChain (ss, rows))[i]? = none := List.getElem?_eq_none (by simp [branchChain]; omega)
    simp only [flushFrom, sp_get hk, this]
    exact ⟨_, rfl⟩
  | succ n ih =>
    intro i hi log fuel hf
    obtain ⟨fuel, rfl⟩ : ∃ k, fuel = k + 1 := ⟨fuel - 1, by omega⟩
    have : ∃ s, (branchChain (ss, rows))[i]? = some (.sink s) := by
      by_cases h : i < ss.length
      · exact ⟨ss[i], by unfold branchChain; rw [List.getElem?_append_left (by simpa using h)]; simp [h]⟩
      · have : i = ss.length := by omega
        exact ⟨.writer rows, getElem?_at _ _ _ (by simp [this])⟩
    obtain ⟨s, hs⟩ := this
    obtain ⟨log', h⟩ := ih (i + 1) (by omega) (log ++ [.flush (k + 1) i]) fuel (by omega)
    rw [flushFrom]
    simp only [sp_get hk, hs, builtinOps]
    rw [sp_same _ (sp_get hk) hs]
    exact ⟨log', h⟩

theorem sp_flush (brs : List (List BSink × List Row)) (fuel : Nat) (hfuel : ∀ b ∈ brs, b.1.length + 2 ≤ fuel) (hpos : 1 ≤ fuel) (log : List Event) :
    ∃ log', flushFrom builtinOps (fuel + 1) 0 0 (spGraph brs log) = (spGraph brs log', .ok ()) := by
  have hzero : ∀ brs log, (spGraph brs log).chains[0]? = some [.split (List.range' 1 brs.length)] := fun _ _ => rfl
  have hall : ∀ (m k : Nat), k + m = brs.length → ∀ log, ∃ log',
      runAll (fun d g => flushFrom builtinOps fuel d 0 g) (List.range' (k + 1) m) (spGraph brs log) = (spGraph brs log', .ok ()) := by
    intro m
    induction m with
    | zero => intro k _ log; exact ⟨log, rfl⟩
    | succ m ih =>
      intro k hk log
      have hlt : k < brs.length := by omega
      have hb : brs[k]? = some brs[k] := List.getElem?_eq_getElem hlt
      have hmem : brs[k] ∈ brs := List.getElem_mem _
      generalize brs[k] = b at hb hmem
      obtain ⟨ss, rows⟩ := b
      obtain ⟨log1, h1⟩ := sp_flushBranch brs k ss rows hb (ss.length + 1) 0 (by omega) log fuel (by have := hfuel _ hmem; simp only at this; omega)
      rw [List.range'_succ]
      simp only [runAll, h1]
      exact ih (k + 1) (by omega) log1
  obtain ⟨log', h⟩ := hall brs.length 0 (by omega) log
  obtain ⟨fuel, rfl⟩ : ∃ k, fuel = k + 1 := ⟨fuel - 1, by omega⟩
  simp only [Nat.zero_add] at h
  refine ⟨log', ?_⟩
  rw [flushFrom]
  simp only [hzero, List.getElem?_cons_zero, h]
  simp only [flushFrom, hzero]
  rfl

/-- Rows through sinks. -/
inductive SinksOutAll (ss : List BSink) : List Row → List Row → Prop
  | nil : SinksOutAll ss [] []
  | cons {row rows out outs} : SinksOut ss row out → SinksOutAll ss rows outs → SinksOutAll ss (row :: rows) (out.toList ++ outs)

/-- Any sequence of calls for chain 0. -/
theorem sp_perform (fuel : Nat) (hpos : 1 ≤ fuel) :
    ∀ (cs : List Call) (brs : List (List BSink × List Row)) (log : List Event), (∀ x ∈ cs, callChain x < 1) →
    (∀ b ∈ brs, ∀ s ∈ b.1, s.fixed) → (∀ b ∈ brs, b.1.length + 2 ≤ fuel) →
    let run := perform (fun c r g => processRow builtinOps (fuel + 1) c 0 r g) (fun c g => flushFrom builtinOps (fuel + 1) c 0 g) cs (.ok ()) (spGraph brs log)
    (run.2 = .ok () ↔ ∀ p ∈ fed cs, ∀ b ∈ brs, ∃ out, SinksOut b.1 p.2 out) ∧
    (run.2 = .ok () → ∃ brs' log', run.1 = spGraph brs' log' ∧ brs'.length = brs.length ∧
      ∀ (j : Nat) ss rows, brs[j]? = some (ss, rows) → ∃ new, SinksOutAll ss ((fed cs).map (·.2)) new ∧ brs'[j]? = some (ss, rows ++ new))
  | [], brs, log, _, _, _ => by
    simp only [perform, fed, List.filterMap_nil]
    exact ⟨by simp, fun _ => ⟨brs, log, rfl, rfl, fun j ss rows hj => ⟨[], .nil, by simpa using hj⟩⟩⟩
  | .feed c r :: cs, brs, log, hcs, hfix, hfuel => by
    have hc : c = 0 := by have := hcs _ (.head _); simp only [callChain] at this; omega
    subst hc
    simp only [perform]
    have hfed : fed (Call.feed 0 r :: cs) = (0, r) :: fed cs := rfl
    rw [hfed]
    rcases sp_row r fuel brs hfix hfuel hpos log with ⟨brs1, log1, h1, h2⟩ | ⟨⟨b, hb, hno⟩, h2⟩
    · simp only [h2]
      have hmem : ∀ b' ∈ brs1, ∃ b ∈ brs, b.1 = b'.1 := by
        intro b' hb'
        obtain ⟨j, hj⟩ := List.getElem?_of_mem hb'
        have hlt : j < brs.length := by rw [← h1.1]; exact (List.getElem?_eq_some_iff.1 hj).1
        obtain ⟨o, _, h⟩ := (h1.2 j brs[j].1 brs[j].2 (List.getElem?_eq_getElem hlt)).2 (Nat.zero_le _)
        rw [hj] at h; cases h
        exact ⟨_, List.getElem_mem hlt, rfl⟩
      obtain ⟨a1, a2⟩ := sp_perform fuel hpos cs brs1 log1 (fun x hx => hcs x (.tail _ hx))
        (fun b hb => by obtain ⟨b', h, e⟩ := hmem b hb; rw [← e]; exact hfix b' h)
        (fun b hb => by obtain ⟨b', h, e⟩ := hmem b hb; rw [← e]; exact hfuel b' h)
      have hfirst : ∀ b ∈ brs, ∃ out, SinksOut b.1 r out := by
        intro b hb
        obtain ⟨j, hj⟩ := List.getElem?_of_mem hb
        obtain ⟨o, h, _⟩ := (h1.2 j b.1 b.2 hj).2 (Nat.zero_le _)
        exact ⟨o, h⟩
      refine ⟨?_, ?_⟩
      · rw [a1]
        simp only [List.mem_cons, forall_eq_or_imp]
        constructor
        · intro h
          refine ⟨hfirst, fun p hp b hb => ?_⟩
          obtain ⟨j, hj⟩ := List.getElem?_of_mem hb
          obtain ⟨o, _, h'⟩ := (h1.2 j b.1 b.2 hj).2 (Nat.zero_le _)
          exact h p hp (b.1, b.2 ++ o.toList) (List.mem_of_getElem? h')
        · intro h p hp b' hb'
          obtain ⟨b, hb, e⟩ := hmem b' hb'
          rw [← e]; exact h.2 p hp b hb
      · intro hok
        obtain ⟨brs', log', b1, b2, b3⟩ := a2 hok
        refine ⟨brs', log', b1, b2.trans h1.1, fun j ss rows hj => ?_⟩
        obtain ⟨o, h, h'⟩ := (h1.2 j ss rows hj).2 (Nat.zero_le _)
        obtain ⟨new, e1, e2⟩ := b3 j ss (rows ++ o.toList) h'
        exact ⟨o.toList ++ new, .cons h e1, by rw [e2, List.append_assoc]⟩
    · rcases hr : processRow builtinOps (fuel + 1) 0 0 r (spGraph brs log) with ⟨g', res⟩
      rw [hr] at h2
      simp only at h2
      subst h2
      refine ⟨⟨by simp, ?_⟩, by simp⟩
      intro hall
      exact absurd (hall (0, r) (by simp) b hb) hno
  | .flush c :: cs, brs, log, hcs, hfix, hfuel => by
    have hc : c = 0 := by have := hcs _ (.head _); simp only [callChain] at this; omega
    subst hc
    obtain ⟨log1, h⟩ := sp_flush brs fuel hfuel hpos log
    simp only [perform, h]
    exact sp_perform fuel hpos cs brs log1 (fun x hx => hcs x (.tail _ hx)) hfix hfuel

/-! ### setup -/

theorem built_branch {A C : Nat → Header → Prop} : ∀ {fs : List Filter} {h : Header} {ds : DChain BSink},
    ChainBuilt .mergeJoin A C h (fs.map Filter.node ++ [.sink writerHeader]) ds → ∃ ss, ds = branchChain (ss, []) ∧ Becomes fs h ss ∧ ss.length = fs.length
  | [], h, ds, hb => by
    simp only [List.map_nil, List.nil_append] at hb
    cases hb with
    | sink h1 hb =>
      cases hb
      simp only [writerHeader, Res.ok.injEq, Prod.mk.injEq] at h1
      exact ⟨[], by rw [← h1.1]; rfl, .nil, rfl⟩
  | f :: fs, h, ds, hb => by
    simp only [List.map_cons, List.cons_append] at hb
    cases f with
    | equal name v =>
      cases hb with
      | sink h1 hb => obtain ⟨ss, rfl, h3, h4⟩ := built_branch hb; exact ⟨_ :: ss, rfl, .cons ⟨_, rfl, h1⟩ h3, by simp [h4]⟩
    | greater name v =>
      cases hb with
      | sink h1 hb => obtain ⟨ss, rfl, h3, h4⟩ := built_branch hb; exact ⟨_ :: ss, rfl, .cons ⟨_, rfl, h1⟩ h3, by simp [h4]⟩
    | delete name =>
      cases hb with
      | sink h1 hb => obtain ⟨ss, rfl, h3, h4⟩ := built_branch hb; exact ⟨_ :: ss, rfl, .cons ⟨_, rfl, h1⟩ h3, by simp [h4]⟩

theorem splitsFrom_filters : ∀ (fs : List Filter) (h : Header), splitsFrom h (fs.map Filter.node ++ [.sink writerHeader]) = []
  | [], h => by simp [splitsFrom, writerHeader]
  | f :: fs, h => by
    cases f <;> simp only [List.map_cons, List.cons_append, Filter.node, splitsFrom] <;> split <;> simp [splitsFrom_filters fs]

theorem sp_setup {dbg : Bool} {fuel : Nat} {fss : List (List Filter)} {h : Header} {g : DGraph BSink}
    (hok : processHeader dbg .mergeJoin fuel (splitChains fss) [h] = .ok g) :
    ∃ sss : List (List BSink), sss.length = fss.length ∧ g = spGraph (sss.map (fun ss => (ss, []))) [] ∧
      ∀ (k : Nat) fs, fss[k]? = some fs → ∃ ss, sss[k]? = some ss ∧ Becomes fs h ss ∧ ss.length = fs.length := by
  obtain ⟨entry, arrived, hS⟩ := C30_nodes_kept dbg .mergeJoin fuel _ _ g hok
  have hlog : g.log = [] := by
    unfold processHeader at hok
    cases hp : processHeadersFrom dbg BSink.mergeJoin fuel 0 [h] ⟨splitChains fss, (splitChains fss).map (fun _ => [])⟩ <;>
      simp only [hp, Res.ok.injEq, reduceCtorEq] at hok
    rw [← hok]
  have hchain : ∀ (k : Nat) fs, fss[k]? = some fs → (splitChains fss)[k + 1]? = some (fs.map Filter.node ++ [.sink writerHeader]) := by
    intro k fs hk
    simp [splitChains, hk]
  have h0 : (splitChains fss)[0]? = some [.splitSink (List.range' 1 fss.length) fss.length] := rfl
  have he0 : entry 0 = some h := hS.inputEnter 0 h rfl rfl
  obtain ⟨d0, hd0, hb0⟩ := hS.built 0 _ h h0 he0
  cases hb0 with
  | split hcall hrest =>
  cases hrest
  have hlen : (splitChains fss).length = fss.length + 1 := by simp [splitChains]
  have hentry : ∀ k, k < fss.length → entry (k + 1) = some h := by
    intro k hk
    have hfs : fss[k]? = some fss[k] := List.getElem?_eq_getElem hk
    generalize fss[k] = fs at hfs
    have hne : entry (k + 1) ≠ none := by
      rcases hcall (k + 1) (by rw [List.mem_range']; exact ⟨k, hk, by omega⟩) with h1 | h1 | h1
      · exact h1
      · rw [hchain k fs hfs] at h1; simp at h1
      · rw [hlen] at h1; omega
    cases he : entry (k + 1) with
    | none => exact absurd he hne
    | some h' =>
      rcases hS.origin (k + 1) h' he with ⟨h1, _⟩ | ⟨c', h'', ch', e1, e2, e3⟩ | ⟨s, n, rest, h1, _⟩
      · simp at h1
      · cases c' with
        | zero =>
          rw [h0] at e2; cases e2
          rw [he0] at e1; cases e1
          simp only [splitsFrom, List.append_nil, List.mem_map] at e3
          obtain ⟨d, _, e⟩ := e3
          simp only [Prod.mk.injEq] at e
          rw [e.2]
        | succ c' =>
          have hlt : c' < fss.length := by
            have := (List.getElem?_eq_some_iff.1 e2).1
            omega
          rw [hchain c' fss[c'] (List.getElem?_eq_getElem hlt)] at e2
          cases e2
          rw [splitsFrom_filters] at e3
          simp at e3
      · rw [hchain k fs hfs] at h1
        cases fs with
        | nil => simp at h1
        | cons f fs => cases f <;> simp [Filter.node] at h1
  have hin : ∀ (k : Nat), k < fss.length → ∃ fs ss, fss[k]? = some fs ∧ g.chains[k + 1]? = some (branchChain (ss, [])) ∧ Becomes fs h ss ∧ ss.length = fs.length := by
    intro k hk
    have hfs : fss[k]? = some fss[k] := List.getElem?_eq_getElem hk
    generalize fss[k] = fs at hfs
    obtain ⟨dch, h3, h4⟩ := hS.built (k + 1) _ h (hchain k fs hfs) (hentry k hk)
    obtain ⟨ss, rfl, h5, h6⟩ := built_branch h4
    exact ⟨fs, ss, hfs, h3, h5, h6⟩
  have hcol : ∀ n, n ≤ fss.length → ∃ sss : List (List BSink), sss.length = n ∧
      (∀ (k : Nat) ss, sss[k]? = some ss → g.chains[k + 1]? = some (branchChain (ss, []))) ∧
      ∀ (k : Nat) fs, k < n → fss[k]? = some fs → ∃ ss, sss[k]? = some ss ∧ Becomes fs h ss ∧ ss.length = fs.length := by
    intro n
    induction n with
    | zero => intro _; exact ⟨[], rfl, by simp, fun c fs hc => by omega⟩
    | succ n ih =>
      intro hn
      obtain ⟨sss, a1, a2, a3⟩ := ih (by omega)
      obtain ⟨fs, ss, b1, b3, b4, b5⟩ := hin n (by omega)
      refine ⟨sss ++ [ss], by simp [a1], ?_, ?_⟩
      · intro k ss' hk
        by_cases hkn : k = n
        · subst hkn
          rw [getElem?_at _ _ _ a1] at hk; cases hk; exact b3
        · have hlt := (List.getElem?_eq_some_iff.1 hk).1
          simp only [List.length_append, List.length_cons, List.length_nil] at hlt
          rw [List.getElem?_append_left (by omega)] at hk
          exact a2 k ss' hk
      · intro c fs' hc hfs
        by_cases hcn : c = n
        · subst hcn
          rw [b1] at hfs; cases hfs
          exact ⟨ss, getElem?_at _ _ _ a1, b4, b5⟩
        · obtain ⟨ss', e1, e2⟩ := a3 c fs' (by omega) hfs
          have : c < sss.length := (List.getElem?_eq_some_iff.1 e1).1
          exact ⟨ss', by rw [List.getElem?_append_left this]; exact e1, e2⟩
  obtain ⟨sss, a1, a2, a3⟩ := hcol fss.length (Nat.le_refl _)
  refine ⟨sss, a1, ?_, fun k fs hfs => a3 k fs (List.getElem?_eq_some_iff.1 hfs).1 hfs⟩
  have hch : g.chains = (spGraph (sss.map (fun ss => (ss, []))) []).chains := by
    apply List.ext_getElem?
    intro k
    cases k with
    | zero => rw [hd0]; simp [spGraph, a1]
    | succ k =>
      by_cases hk : k < sss.length
      · rw [a2 k sss[k] (List.getElem?_eq_getElem hk), sp_get (b := (sss[k], [])) (by simp [hk])]
      · rw [List.getElem?_eq_none (by rw [hS.length, hlen]; omega), List.getElem?_eq_none (by simp [spGraph]; omega)]
  cases g with
  | mk chains log => simp only at hlog hch; subst hlog hch; rfl

theorem sinksOutAll_spec {fs : List Filter} {h : Header} {ss : List BSink} (hb : Becomes fs h ss) {rows new : List Row}
    (ho : SinksOutAll ss rows new) : ThroughAll fs h rows new := by
  induction ho with
  | nil => exact .nil
  | @cons row rows out outs h1 _ ih =>
    have := ((becomes_spec hb).2 row out).1 h1
    cases out with
    | none => exact .drop this ih
    | some r => exact .keep this ih

end Chopper
