import Verif.Spec.FilterMergeProg
import Verif.Proofs.FilterMerge
import Verif.Proofs.Cli4

/-!
# A run of the example program `filter_and_merge`
-/
namespace Chopper
open Spec

/-- The graph of the program, the output being in state `s`. -/
def exG (b0 b1 : BSink) (s : CliSink) (log : List Event) : DGraph LibSink :=
  ⟨[[.sink (.node b0), .merge 2], [.sink (.node b1), .merge 2], [.sink (.node .mergeJoin), .sink (.out s)]], log⟩

/-- The filter of a chain. -/
def exFilter (b0 b1 : BSink) (c : Nat) : BSink := if c = 0 then b0 else b1

theorem ex_write (e : SinkEnv) (s : CliSink) (r : Row) : (cliOps e).write s r = s.write e r := rfl

theorem write_rows {e : SinkEnv} {s : CliSink} {r : Row} {rows : List Row} (h : (s.write e r).2 = .ok rows) : rows = [r] := by
  cases s with
  | mergeJoin => simp only [CliSink.write, Res.ok.injEq] at h; exact h.symm
  | csv cfg w =>
    simp only [CliSink.write, BufWriter.emit] at h
    split at h
    · cases hx : (csvRowText e.ff cfg r).2 <;> simp [hx, Res.map, Res.bind] at h
      exact h.symm
    all_goals simp at h
  | dc k w =>
    simp only [CliSink.write, BufWriter.emit] at h
    split at h
    · cases hx : (dcWriteRow k r).res <;> simp [hx, Res.map, Res.bind] at h
      exact h.symm
    all_goals simp at h

theorem ex_tail (e : SinkEnv) (b0 b1 : BSink) (s : CliSink) (log : List Event) (r : Row) (fuel : Nat) :
    ∃ log', processRow (libOps e) (fuel + 3) 2 0 r (exG b0 b1 s log) = (exG b0 b1 (sinkFeed (cliOps e) 2 r s).1 log', (sinkFeed (cliOps e) 2 r s).2) := by
  refine ⟨log ++ [.write 2 0 r] ++ [.write 2 1 r], ?_⟩
  unfold sinkFeed
  rw [ex_write]
  rw [show fuel + 3 = (fuel + 2) + 1 by omega, processRow]
  simp only [exG, List.getElem?_cons_succ, List.getElem?_cons_zero, libOps, LibSink.write, BSink.write, DGraph.setSink, runAll]
  rw [show fuel + 2 = (fuel + 1) + 1 by omega, processRow]
  simp only [List.modify_succ_cons, List.modify_zero_cons, List.getElem?_cons_succ, List.getElem?_cons_zero, List.set_cons_zero, LibSink.write, DGraph.setSink]
  have hw := @write_rows e s r
  cases hx : (s.write e r).2 with
  | ok rows =>
    cases hw hx
    simp only [runAll]
    rw [processRow]
    simp [Res.map, Res.bind]
  | err x => simp [Res.map, Res.bind]
  | panic => simp [Res.map, Res.bind]
  | diverge => simp [Res.map, Res.bind]

theorem ex_row (e : SinkEnv) (b0 b1 : BSink) (s : CliSink) (log : List Event) (c : Nat) (hc : c < 2) (r : Row) (fuel : Nat) :
    (SinkOut (exFilter b0 b1 c) r none → ∃ log', processRow (libOps e) (fuel + 5) c 0 r (exG b0 b1 s log) = (exG b0 b1 s log', .ok ())) ∧
    (SinkOut (exFilter b0 b1 c) r (some r) → ∃ log', processRow (libOps e) (fuel + 5) c 0 r (exG b0 b1 s log) =
      (exG b0 b1 (sinkFeed (cliOps e) 2 r s).1 log', (sinkFeed (cliOps e) 2 r s).2)) ∧
    ((exFilter b0 b1 c).write r = (exFilter b0 b1 c, .panic) → ∃ log', processRow (libOps e) (fuel + 5) c 0 r (exG b0 b1 s log) = (exG b0 b1 s log', .panic)) := by
  match c, hc with
  | 0, _ =>
    refine ⟨fun h => ⟨log ++ [.write 0 0 r], ?_⟩, fun h => ?_, fun h => ⟨log ++ [.write 0 0 r], ?_⟩⟩
    · simp only [SinkOut, exFilter, if_true, Option.toList_none] at h
      rw [show fuel + 5 = (fuel + 4) + 1 by omega, processRow]
      simp [exG, libOps, LibSink.write, h, runAll, DGraph.setSink]
    · simp only [SinkOut, exFilter, if_true, Option.toList_some] at h
      obtain ⟨log', ht⟩ := ex_tail e b0 b1 s (log ++ [.write 0 0 r]) r fuel
      rw [show fuel + 5 = (fuel + 4) + 1 by omega, processRow]
      simp only [exG, List.getElem?_cons_zero, libOps, LibSink.write, h, DGraph.setSink, List.modify_zero_cons, List.set_cons_zero, runAll]
      rw [show fuel + 4 = (fuel + 3) + 1 by omega, processRow]
      simp only [List.getElem?_cons_zero, List.getElem?_cons_succ, List.modify_zero_cons, List.set_cons_zero]
      simp only [exG, libOps] at ht
      simp only [ht]
      refine ⟨log', ?_⟩
      cases hx : (sinkFeed (cliOps e) 2 r s).2 with
      | ok u =>
        dsimp only
        rw [processRow]
        simp
      | err x => rfl
      | panic => rfl
      | diverge => rfl
    · simp only [exFilter, if_true] at h
      rw [show fuel + 5 = (fuel + 4) + 1 by omega, processRow]
      simp [exG, libOps, LibSink.write, h, DGraph.setSink]
  | 1, _ =>
    refine ⟨fun h => ⟨log ++ [.write 1 0 r], ?_⟩, fun h => ?_, fun h => ⟨log ++ [.write 1 0 r], ?_⟩⟩
    · simp only [SinkOut, exFilter, Nat.one_ne_zero, if_false, Option.toList_none] at h
      rw [show fuel + 5 = (fuel + 4) + 1 by omega, processRow]
      simp [exG, libOps, LibSink.write, h, runAll, DGraph.setSink]
    · simp only [SinkOut, exFilter, Nat.one_ne_zero, if_false, Option.toList_some] at h
      obtain ⟨log', ht⟩ := ex_tail e b0 b1 s (log ++ [.write 1 0 r]) r fuel
      rw [show fuel + 5 = (fuel + 4) + 1 by omega, processRow]
      simp only [exG, List.getElem?_cons_succ, List.getElem?_cons_zero, libOps, LibSink.write, h, DGraph.setSink, List.modify_succ_cons, List.modify_zero_cons, List.set_cons_zero, runAll]
      rw [show fuel + 4 = (fuel + 3) + 1 by omega, processRow]
      simp only [List.getElem?_cons_zero, List.getElem?_cons_succ, List.modify_succ_cons, List.modify_zero_cons, List.set_cons_zero]
      simp only [exG, libOps] at ht
      simp only [ht]
      refine ⟨log', ?_⟩
      cases hx : (sinkFeed (cliOps e) 2 r s).2 with
      | ok u =>
        dsimp only
        rw [processRow]
        simp
      | err x => rfl
      | panic => rfl
      | diverge => rfl
    · simp only [exFilter, Nat.one_ne_zero, if_false] at h
      rw [show fuel + 5 = (fuel + 4) + 1 by omega, processRow]
      simp [exG, libOps, LibSink.write, h, DGraph.setSink]

theorem ex_flush (e : SinkEnv) (b0 b1 : BSink) (s : CliSink) (log : List Event) (c : Nat) (hc : c < 2) (fuel : Nat) :
    ∃ log', flushFrom (libOps e) (fuel + 5) c 0 (exG b0 b1 s log) = (exG b0 b1 (sinkFlush (cliOps e) 2 s).1 log', (sinkFlush (cliOps e) 2 s).2) := by
  have tail : ∀ log, ∃ log', flushFrom (libOps e) (fuel + 3) 2 0 (exG b0 b1 s log) = (exG b0 b1 (sinkFlush (cliOps e) 2 s).1 log', (sinkFlush (cliOps e) 2 s).2) := by
    intro log
    refine ⟨log ++ [.flush 2 0] ++ [.flush 2 1], ?_⟩
    unfold sinkFlush
    rw [show (cliOps e).flush s = s.flush from rfl]
    rw [show fuel + 3 = (fuel + 2) + 1 by omega, flushFrom]
    simp only [exG, List.getElem?_cons_succ, List.getElem?_cons_zero, libOps, LibSink.flush, DGraph.setSink]
    rw [show fuel + 2 = (fuel + 1) + 1 by omega, flushFrom]
    simp only [List.modify_succ_cons, List.modify_zero_cons, List.getElem?_cons_succ, List.getElem?_cons_zero, List.set_cons_zero, LibSink.flush, DGraph.setSink]
    cases hx : s.flush.2 with
    | ok u => rw [flushFrom]; simp
    | err x => simp
    | panic => simp
    | diverge => simp
  match c, hc with
  | 0, _ =>
    obtain ⟨log', ht⟩ := tail (log ++ [.flush 0 0])
    refine ⟨log', ?_⟩
    rw [show fuel + 5 = (fuel + 4) + 1 by omega, flushFrom]
    simp only [exG, List.getElem?_cons_zero, libOps, LibSink.flush, DGraph.setSink, List.modify_zero_cons, List.set_cons_zero]
    rw [show fuel + 4 = (fuel + 3) + 1 by omega, flushFrom]
    simp only [List.getElem?_cons_zero, List.getElem?_cons_succ]
    simp only [exG, libOps] at ht
    simp only [ht]
    cases hx : (sinkFlush (cliOps e) 2 s).2 with
    | ok u => dsimp only; rw [flushFrom]; simp
    | err x => rfl
    | panic => rfl
    | diverge => rfl
  | 1, _ =>
    obtain ⟨log', ht⟩ := tail (log ++ [.flush 1 0])
    refine ⟨log', ?_⟩
    rw [show fuel + 5 = (fuel + 4) + 1 by omega, flushFrom]
    simp only [exG, List.getElem?_cons_zero, List.getElem?_cons_succ, libOps, LibSink.flush, DGraph.setSink, List.modify_succ_cons, List.modify_zero_cons, List.set_cons_zero]
    rw [show fuel + 4 = (fuel + 3) + 1 by omega, flushFrom]
    simp only [List.getElem?_cons_zero, List.getElem?_cons_succ]
    simp only [exG, libOps] at ht
    simp only [ht]
    cases hx : (sinkFlush (cliOps e) 2 s).2 with
    | ok u => dsimp only; rw [flushFrom]; simp
    | err x => rfl
    | panic => rfl
    | diverge => rfl

/-- A filter that keeps rows as they are. -/
def Keeps (b : BSink) : Prop := ∀ r, SinkOut b r none ∨ SinkOut b r (some r) ∨ b.write r = (b, .panic)

/-- Does a filter let a row through? -/
def sinkKept (b : BSink) (r : Row) : Bool := match (b.write r).2 with
  | .ok [_] => true
  | _ => false

/-- Does the filter of a call's chain let its row through? -/
def callKept (b0 b1 : BSink) : Call → Bool
  | .feed c r => sinkKept (exFilter b0 b1 c) r
  | .flush _ => true

/-- The rows all of which the filters accept: the run is that of the output alone on the rows let through. Otherwise the run does not succeed. -/
theorem ex_perform (e : SinkEnv) (b0 b1 : BSink) (fuel : Nat) (hk : ∀ c, Keeps (exFilter b0 b1 c)) : ∀ (cs : List Call) (out : Res Unit) (s : CliSink) (log : List Event), (∀ x ∈ cs, callChain x < 2) →
    ((∀ p ∈ fed cs, (exFilter b0 b1 p.1).write p.2 ≠ (exFilter b0 b1 p.1, .panic)) →
      ∃ log', perform (fun c r g => processRow (libOps e) (fuel + 5) c 0 r g) (fun c g => flushFrom (libOps e) (fuel + 5) c 0 g) cs out (exG b0 b1 s log) =
        (exG b0 b1 (perform (sinkFeed (cliOps e)) (sinkFlush (cliOps e)) (cs.filter (callKept b0 b1)) out s).1 log',
          (perform (sinkFeed (cliOps e)) (sinkFlush (cliOps e)) (cs.filter (callKept b0 b1)) out s).2)) ∧
    ((∃ p ∈ fed cs, (exFilter b0 b1 p.1).write p.2 = (exFilter b0 b1 p.1, .panic)) →
      (perform (fun c r g => processRow (libOps e) (fuel + 5) c 0 r g) (fun c g => flushFrom (libOps e) (fuel + 5) c 0 g) cs out (exG b0 b1 s log)).2 ≠ .ok ())
  | [], out, s, log, _ => ⟨fun _ => ⟨log, rfl⟩, by rintro ⟨p, hp, _⟩; simp [fed] at hp⟩
  | .feed c r :: cs, out, s, log, h => by
    have hc : c < 2 := h _ (.head _)
    obtain ⟨h1, h2, h3⟩ := ex_row e b0 b1 s log c hc r fuel
    have hfed : fed (.feed c r :: cs) = (c, r) :: fed cs := rfl
    rw [hfed]
    rcases hk c r with ho | ho | ho
    · obtain ⟨log1, hp⟩ := h1 ho
      obtain ⟨i1, i2⟩ := ex_perform e b0 b1 fuel hk cs out s log1 (fun x hx => h x (.tail _ hx))
      have hkept : callKept b0 b1 (.feed c r) = false := by simp only [callKept, sinkKept, SinkOut] at ho ⊢; rw [ho]; rfl
      constructor
      · intro ha
        obtain ⟨log2, i⟩ := i1 (fun p hp => ha p (.tail _ hp))
        refine ⟨log2, ?_⟩
        rw [List.filter_cons_of_neg (by rw [hkept]; decide)]
        simp only [perform, hp]
        exact i
      · rintro ⟨p, hp', hp2⟩
        rcases List.mem_cons.1 hp' with rfl | hp'
        · simp only [SinkOut] at ho; rw [ho] at hp2; cases hp2
        · simp only [perform, hp]
          exact i2 ⟨p, hp', hp2⟩
    · obtain ⟨log1, hp⟩ := h2 ho
      have hkept : callKept b0 b1 (.feed c r) = true := by simp only [callKept, sinkKept, SinkOut] at ho ⊢; rw [ho]; rfl
      have hno : (exFilter b0 b1 c).write r ≠ (exFilter b0 b1 c, .panic) := by
        simp only [SinkOut] at ho; rw [ho]; intro hh; cases hh
      have hsame : sinkFeed (cliOps e) c r s = sinkFeed (cliOps e) 2 r s := rfl
      rcases hs : sinkFeed (cliOps e) 2 r s with ⟨s1, res⟩
      rw [hs] at hp
      simp only at hp
      obtain ⟨i1, i2⟩ := ex_perform e b0 b1 fuel hk cs out s1 log1 (fun x hx => h x (.tail _ hx))
      constructor
      · intro ha
        obtain ⟨log2, i⟩ := i1 (fun p hp => ha p (.tail _ hp))
        rw [List.filter_cons_of_pos hkept]
        simp only [perform, hp, hsame, hs]
        cases res with
        | ok u => exact ⟨log2, i⟩
        | err x => exact ⟨log1, rfl⟩
        | panic => exact ⟨log1, rfl⟩
        | diverge => exact ⟨log1, rfl⟩
      · rintro ⟨p, hp', hp2⟩
        simp only [perform, hp]
        cases res with
        | ok u =>
          rcases List.mem_cons.1 hp' with rfl | hp'
          · exact absurd hp2 hno
          · exact i2 ⟨p, hp', hp2⟩
        | err x => simp
        | panic => simp
        | diverge => simp
    · obtain ⟨log1, hp⟩ := h3 ho
      constructor
      · intro ha
        exact absurd ho (ha (c, r) (.head _))
      · intro _
        simp [perform, hp]
  | .flush c :: cs, out, s, log, h => by
    have hc : c < 2 := h _ (.head _)
    obtain ⟨log1, hp⟩ := ex_flush e b0 b1 s log c hc fuel
    have hfed : fed (.flush c :: cs) = fed cs := rfl
    have hsame : sinkFlush (cliOps e) c s = sinkFlush (cliOps e) 2 s := rfl
    rw [hfed]
    rcases hs : sinkFlush (cliOps e) 2 s with ⟨s1, res⟩
    rw [hs] at hp
    simp only at hp
    obtain ⟨i1, i2⟩ := ex_perform e b0 b1 fuel hk cs out s1 log1 (fun x hx => h x (.tail _ hx))
    constructor
    · intro ha
      obtain ⟨log2, i⟩ := i1 ha
      rw [List.filter_cons_of_pos rfl]
      simp only [perform, hp, hsame, hs]
      cases res with
      | ok u => exact ⟨log2, i⟩
      | err x => exact ⟨log1, rfl⟩
      | panic => exact ⟨log1, rfl⟩
      | diverge => exact ⟨log1, rfl⟩
    · intro hx
      simp only [perform, hp]
      cases res with
      | ok u => exact i2 hx
      | err x => simp
      | panic => simp
      | diverge => simp

/-! ### The rows -/

theorem keeps_greater (i : Nat) (v : FieldValue) : Keeps (.greater i v) := by
  intro r
  rcases fixed_write (s := .greater i v) trivial r with ⟨out, ho⟩ | h
  · cases out with
    | none => exact .inl ho
    | some r' =>
      refine .inr (.inl ?_)
      have hr : r' = r := by
        simp only [SinkOut, BSink.write] at ho
        cases hx : (Res.unwrap r.values[i]?).bind fun x => (x.partialCmp v).bind fun o => Res.ok (if some .gt ≠ o then [] else [r]) with
        | ok l =>
          rw [hx] at ho
          obtain ⟨x, _, h2⟩ := Res.bind_eq_ok.1 hx
          obtain ⟨o, _, h3⟩ := Res.bind_eq_ok.1 h2
          simp only [Prod.mk.injEq, Res.ok.injEq, Option.toList_some] at ho
          simp only [Res.ok.injEq] at h3
          rw [ho.2] at h3
          by_cases hc : some Ordering.gt ≠ o
          · rw [if_pos hc] at h3; cases h3
          · rw [if_neg hc] at h3; cases h3; rfl
        | err x => rw [hx] at ho; cases ho
        | panic => rw [hx] at ho; cases ho
        | diverge => rw [hx] at ho; cases ho
      rw [hr] at ho
      exact ho
  · exact .inr (.inr h)

theorem keeps_equal (i : Nat) (v : FieldValue) : Keeps (.equal i v) := by
  intro r
  rcases fixed_write (s := .equal i v) trivial r with ⟨out, ho⟩ | h
  · cases out with
    | none => exact .inl ho
    | some r' =>
      refine .inr (.inl ?_)
      have hr : r' = r := by
        simp only [SinkOut, BSink.write] at ho
        cases hx : (Res.unwrap r.values[i]?).bind fun x => (x.eq v).bind fun b => Res.ok (if !b then [] else [r]) with
        | ok l =>
          rw [hx] at ho
          obtain ⟨x, _, h2⟩ := Res.bind_eq_ok.1 hx
          obtain ⟨o, _, h3⟩ := Res.bind_eq_ok.1 h2
          simp only [Prod.mk.injEq, Res.ok.injEq, Option.toList_some] at ho
          simp only [Res.ok.injEq] at h3
          rw [ho.2] at h3
          cases o
          · cases h3
          · cases h3; rfl
        | err x => rw [hx] at ho; cases ho
        | panic => rw [hx] at ho; cases ho
        | diverge => rw [hx] at ho; cases ho
      rw [hr] at ho
      exact ho
  · exact .inr (.inr h)

theorem through_one {f : Filter} {h h' : Header} {s : BSink} (hk : ∃ k, f.node = .sink k ∧ k h = .ok (s, h')) (r : Row) (o : Option Row) :
    Through [f] h r o ↔ SinkOut s r o := by
  rw [← (becomes_spec (Becomes.cons hk .nil)).2]
  constructor
  · intro hs
    cases hs with
    | dropped h1 => exact h1
    | next h1 h2 => cases h2; exact h1
  · intro hs
    cases o with
    | none => exact .dropped hs
    | some r' => exact .next hs .done

/-- Rows through one filter: all can be compared, and those let through remain. -/
theorem through_filter {f : Filter} {h h' : Header} {s : BSink} (hk : ∃ k, f.node = .sink k ∧ k h = .ok (s, h')) (hs : Keeps s) : ∀ (rows out : List Row),
    ThroughAll [f] h rows out ↔ (∀ r ∈ rows, s.write r ≠ (s, .panic)) ∧ out = rows.filter (sinkKept s)
  | [], out => by
    constructor
    · intro ht; cases ht; exact ⟨by simp, rfl⟩
    · rintro ⟨_, rfl⟩; exact .nil
  | r :: rows, out => by
    have ih := through_filter hk hs rows
    constructor
    · intro ht
      cases ht with
      | keep h1 h2 =>
        rename_i r' out'
        have h1 := (through_one hk _ _).1 h1
        obtain ⟨i1, rfl⟩ := (ih _).1 h2
        have hk1 : sinkKept s r = true := by simp only [sinkKept, SinkOut] at h1 ⊢; rw [h1]; rfl
        have hr : r' = r := by
          rcases hs r with h3 | h3 | h3
          · exact absurd (sinkOut_unique h1 h3) (by simp)
          · exact Option.some.inj (sinkOut_unique h1 h3)
          · simp only [SinkOut] at h1; rw [h1] at h3; cases h3
        subst hr
        refine ⟨?_, by rw [List.filter_cons_of_pos hk1]⟩
        intro x hx
        rcases List.mem_cons.1 hx with rfl | hx
        · intro hh; simp only [SinkOut] at h1; rw [h1] at hh; cases hh
        · exact i1 x hx
      | drop h1 h2 =>
        have h1 := (through_one hk _ _).1 h1
        obtain ⟨i1, rfl⟩ := (ih _).1 h2
        have hk1 : sinkKept s r = false := by simp only [sinkKept, SinkOut] at h1 ⊢; rw [h1]; rfl
        refine ⟨?_, by rw [List.filter_cons_of_neg (by simp [hk1])]⟩
        intro x hx
        rcases List.mem_cons.1 hx with rfl | hx
        · intro hh; simp only [SinkOut] at h1; rw [h1] at hh; cases hh
        · exact i1 x hx
    · rintro ⟨h1, rfl⟩
      have i := (ih _).2 ⟨fun x hx => h1 x (.tail _ hx), rfl⟩
      rcases hs r with h3 | h3 | h3
      · have hk1 : sinkKept s r = false := by simp only [sinkKept, SinkOut] at h3 ⊢; rw [h3]; rfl
        rw [List.filter_cons_of_neg (by simp [hk1])]
        exact .drop ((through_one hk _ _).2 h3) i
      · have hk1 : sinkKept s r = true := by simp only [sinkKept, SinkOut] at h3 ⊢; rw [h3]; rfl
        rw [List.filter_cons_of_pos hk1]
        exact .keep ((through_one hk _ _).2 h3) i
      · exact absurd h3 (h1 r (.head _))

theorem fed_kept (b0 b1 : BSink) : ∀ cs : List Call, fed (cs.filter (callKept b0 b1)) = (fed cs).filter (fun p => sinkKept (exFilter b0 b1 p.1) p.2)
  | [] => rfl
  | .feed c r :: cs => by
    have ih := fed_kept b0 b1 cs
    show fed ((Call.feed c r :: cs).filter (callKept b0 b1)) = ((c, r) :: fed cs).filter _
    cases hk : sinkKept (exFilter b0 b1 c) r with
    | true => rw [List.filter_cons_of_pos (show callKept b0 b1 (.feed c r) = true from hk), List.filter_cons_of_pos (by simpa using hk), ← ih]; rfl
    | false =>
      rw [List.filter_cons_of_neg (by rw [show callKept b0 b1 (.feed c r) = false from hk]; decide), List.filter_cons_of_neg (by simp [hk]), ← ih]
  | .flush c :: cs => by
    rw [List.filter_cons_of_pos rfl]
    exact fed_kept b0 b1 cs

theorem selected_all (rows : List Row) : selected ⟨none, none⟩ rows = rows := by
  unfold selected
  have h1 : ∀ x, beforeEnd ⟨none, none⟩ x = true := fun _ => rfl
  have h2 : ∀ x, notBefore ⟨none, none⟩ x = true := fun _ => rfl
  simp only [h1, h2]
  rw [List.filter_eq_self.2 (by simp)]
  induction rows with
  | nil => rfl
  | cons r rows ih => rw [List.takeWhile_cons, if_pos rfl, ih]

theorem selected_two (s0 s1 : Source) : (selectedInputs ⟨none, none⟩ [s0, s1]).flatten = s1.rows.map (fun r => (0, r)) ++ s0.rows.map (fun r => (1, r)) := by
  simp [selectedInputs, selected_all]

/-- What the filters leave of two sorted inputs, in the order in which the rows are read: the merge of what they leave of each. The rows of the last input meet the first filter. -/
theorem ex_merge (b0 b1 : BSink) (s0 s1 : Source) (fuel : Nat) (h0 : Sorted s0.rows) (h1 : Sorted s1.rows) (hok : (calls ⟨none, none⟩ fuel [s0, s1]).2 = .ok ()) :
    IsMerge ⟨none, none⟩ [s0.rows.filter (sinkKept b1), s1.rows.filter (sinkKept b0)] ((fed ((calls ⟨none, none⟩ fuel [s0, s1]).1.filter (callKept b0 b1))).map (·.2)) := by
  have hs : ∀ s ∈ [s0, s1], Sorted s.rows := by
    intro s hs
    rcases List.mem_cons.1 hs with rfl | hs
    · exact h0
    · simp only [List.mem_singleton] at hs; subst hs; exact h1
  have hfed := Props.C19_ties ⟨none, none⟩ fuel [s0, s1] hok hs
  rw [fed_kept, hfed, selected_two]
  constructor
  · unfold Sorted
    rw [List.pairwise_map]
    exact (stableSort_sorted _).filter _
  · intro t
    rw [List.filter_map, List.filter_filter]
    have hcomm : ∀ l : List (ChainId × Row), (l.filter fun p => ((fun r : Row => r.timestamp == t) ∘ fun x : ChainId × Row => x.2) p && sinkKept (exFilter b0 b1 p.1) p.2) =
        (l.filter fun p => p.2.timestamp == t).filter fun p => sinkKept (exFilter b0 b1 p.1) p.2 := by
      intro l
      rw [List.filter_filter]
      apply List.filter_congr
      intro p _
      simp only [Function.comp_def]
      exact Bool.and_comm _ _
    rw [hcomm, Props.C19_stable, List.filter_append, List.filter_append, List.map_append]
    simp only [List.reverse_cons, List.reverse_nil, List.nil_append, List.cons_append, List.flatMap_cons, List.flatMap_nil, List.append_nil]
    have hin : ∀ x : Nanos, inRange ⟨none, none⟩ x = true := fun _ => rfl
    congr 1
    · rw [List.filter_map, List.filter_map, List.map_map, List.filter_filter, List.filter_filter]
      simp only [Function.comp_def, List.map_id', hin, Bool.and_true, exFilter, if_true]
      exact List.filter_congr fun r _ => Bool.and_comm _ _
    · rw [List.filter_map, List.filter_map, List.map_map, List.filter_filter, List.filter_filter]
      simp only [Function.comp_def, List.map_id', hin, Bool.and_true, exFilter, Nat.one_ne_zero, if_false]
      exact List.filter_congr fun r _ => Bool.and_comm _ _

/-- Which rows meet which filter. -/
theorem ex_meet (b0 b1 : BSink) (s0 s1 : Source) (fuel : Nat) (h0 : Sorted s0.rows) (h1 : Sorted s1.rows) (hok : (calls ⟨none, none⟩ fuel [s0, s1]).2 = .ok ()) :
    (∀ p ∈ fed (calls ⟨none, none⟩ fuel [s0, s1]).1, (exFilter b0 b1 p.1).write p.2 ≠ (exFilter b0 b1 p.1, .panic)) ↔
      (∀ r ∈ s1.rows, b0.write r ≠ (b0, .panic)) ∧ (∀ r ∈ s0.rows, b1.write r ≠ (b1, .panic)) := by
  have hs : ∀ s ∈ [s0, s1], Sorted s.rows := by
    intro s hs
    rcases List.mem_cons.1 hs with rfl | hs
    · exact h0
    · simp only [List.mem_singleton] at hs; subst hs; exact h1
  have hp := Props.C18_all_inputs ⟨none, none⟩ fuel [s0, s1] hok hs
  rw [selected_two] at hp
  constructor
  · intro h
    refine ⟨fun r hr => ?_, fun r hr => ?_⟩
    · exact h (0, r) (hp.mem_iff.2 (by simp [hr]))
    · exact h (1, r) (hp.mem_iff.2 (by simp [hr]))
  · rintro ⟨a, b⟩ p hm
    have := hp.mem_iff.1 hm
    simp only [List.mem_append, List.mem_map] at this
    rcases this with ⟨r, hr, rfl⟩ | ⟨r, hr, rfl⟩
    · exact a r hr
    · exact b r hr

/-! ### Setting up -/

/-- Setting up, if the inputs have the same header and the columns are found. -/
theorem ex_setup (e : CliEnv) (p1 p2 colGt : Str) (vGt : FieldValue) (colEq : Str) (vEq : FieldValue) (f1 f2 : FileSource) (ho : ExampleOpens e p1 p2 f1 f2) :
    (f1.header = f2.header → ∀ i j w, findCol colGt f1.header.names 0 = some i → findCol colEq f1.header.names 0 = some j →
      csvSinkHeader e.sink .newDefault e.out.stdout f1.header = .ok (.csv .newDefault w, f1.header) →
      filterMergeSetup e p1 p2 colGt vGt colEq vEq = .ok ([f1.source, f2.source], exG (.greater i vGt) (.equal j vEq) (.csv .newDefault w) [])) ∧
    (∀ q, filterMergeSetup e p1 p2 colGt vGt colEq vEq = .ok q → f1.header = f2.header ∧ (∃ i, findCol colGt f1.header.names 0 = some i) ∧ (∃ j, findCol colEq f1.header.names 0 = some j)) := by
  have hopen : openInputs (newInputs e.csv e.dec e.zip e.world none [] []) e.world [⟨.path p1, .auto⟩, ⟨.path p2, .auto⟩] = .ok [f1, f2] := by
    rw [openInputs_iff]
    refine ⟨rfl, ?_⟩
    intro i x f hx hf
    match i with
    | 0 => cases hx; cases hf; exact ho.1
    | 1 => cases hx; cases hf; exact ho.2
    | n + 2 => simp at hx
  obtain ⟨n1, t1⟩ := f1
  constructor
  · intro hh i j w hi hj hw
    unfold filterMergeSetup
    simp only [hopen, Res.bind_ok, newHeaderSink, List.map_cons, List.map_nil, ← hh]
    simp only at hi hj hw
    simp [newDriver, filterMergeHeaderChains, processHeader, processHeadersFrom, processHeaderRe, matchRemoveChain, hSwapRemove, nodesLoop, addNode, nodeHeader, outHeader, checkMergeHeader,
      mergeCheckHeader, greaterHeader, equalHeader, hi, hj, hw, Res.map, Res.bind, exG]
  · intro q hq
    unfold filterMergeSetup at hq
    simp only [hopen, Res.bind_ok, newHeaderSink, List.map_cons, List.map_nil] at hq
    obtain ⟨g, hg, _⟩ := Res.bind_eq_ok.1 hq
    cases hi : findCol colGt n1.names 0 with
    | none =>
      simp [newDriver, filterMergeHeaderChains, processHeader, processHeadersFrom, processHeaderRe, matchRemoveChain, hSwapRemove, nodesLoop, nodeHeader, greaterHeader, hi, Res.map, Res.bind] at hg
    | some i =>
      cases hj : findCol colEq f2.header.names 0 with
      | none =>
        simp [newDriver, filterMergeHeaderChains, processHeader, processHeadersFrom, processHeaderRe, matchRemoveChain, hSwapRemove, nodesLoop, addNode, nodeHeader, greaterHeader, equalHeader,
          checkMergeHeader, mergeCheckHeader, hi, hj, Res.map, Res.bind] at hg
      | some j =>
        by_cases hh : n1 = f2.header
        · exact ⟨hh, ⟨i, rfl⟩, ⟨j, by simp only [hh]; exact hj⟩⟩
        · simp [newDriver, filterMergeHeaderChains, processHeader, processHeadersFrom, processHeaderRe, matchRemoveChain, hSwapRemove, nodesLoop, addNode, nodeHeader, greaterHeader, equalHeader,
            checkMergeHeader, mergeCheckHeader, hi, hj, Res.map, Res.bind, hh, Ne.symm hh] at hg

end Chopper
