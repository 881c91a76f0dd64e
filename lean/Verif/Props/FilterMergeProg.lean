import Verif.Proofs.FilterMergeProg
import Verif.Props.Cli2
import Verif.Proofs.Merge

/-!
# C142: the example program `filter_and_merge`, from the paths to standard output
-/
namespace Chopper.Props
open Chopper Chopper.Spec

/-- The run, once the inputs are opened and suitable: standard output and the result, in terms of what the filters make of the inputs. -/
theorem ex_run (e : CliEnv) (p1 p2 colGt : Str) (vGt : FieldValue) (colEq : Str) (vEq : FieldValue) (f1 f2 : FileSource) (ho : ExampleOpens e p1 p2 f1 f2)
    (hg : GoodInputs ⟨none, none⟩ f1.header [f1, f2]) (hr : Reliable e.out.stdout) (i j : Nat) (hi : findCol colGt f1.header.names 0 = some i)
    (hj : findCol colEq f1.header.names 0 = some j)
    (hv : ∀ f ∈ [f1, f2], ∀ r ∈ f.source.rows, ∀ v ∈ r.values, ¬ Unprintable v) :
    ((filterMergeExample e p1 p2 colGt vGt colEq vEq).result = .ok () → ∃ a b, ThroughAll [.greater colGt vGt] f1.header f2.source.rows a ∧
      ThroughAll [.equal colEq vEq] f1.header f1.source.rows b) ∧
    (∀ a b, ThroughAll [.greater colGt vGt] f1.header f2.source.rows a → ThroughAll [.equal colEq vEq] f1.header f1.source.rows b →
      (filterMergeExample e p1 p2 colGt vGt colEq vEq).result = .ok () ∧ ∃ out rows text, (filterMergeExample e p1 p2 colGt vGt colEq vEq).stdout = some out ∧
        IsMerge ⟨none, none⟩ [b, a] rows ∧ ExampleText e.ff f1.header rows text ∧ out.taken = e.out.stdout.taken ++ text) := by
  have hcalls := good_calls hg
  have hh : f1.header = f2.header := (hg.header f2 (by simp)).symm
  have s1 := hg.sorted f1 (by simp)
  have s2 := hg.sorted f2 (by simp)
  have kg : ∃ k, (Filter.greater colGt vGt).node = .sink k ∧ k f1.header = .ok (.greater i vGt, f1.header) := ⟨_, rfl, by simp [greaterHeader, hi]⟩
  have ke : ∃ k, (Filter.equal colEq vEq).node = .sink k ∧ k f1.header = .ok (.equal j vEq, f1.header) := ⟨_, rfl, by simp [equalHeader, hj]⟩
  have hkeeps : ∀ c, Keeps (exFilter (.greater i vGt) (.equal j vEq) c) := by
    intro c; unfold exFilter; split
    · exact keeps_greater i vGt
    · exact keeps_equal j vEq
  obtain ⟨w, hw, hholds, hfail⟩ := (csv_header_ok e.sink .newDefault e.out.stdout f1.header).resolve_right (by
    rintro ⟨k, _, hf⟩
    exact hr k hf)
  have hset := (ex_setup e p1 p2 colGt vGt colEq vEq f1 f2 ho).1 hh i j w hi hj hw
  have hex : filterMergeExample e p1 p2 colGt vGt colEq vEq =
      (let r := driveGraph (libOps e.sink) ⟨none, none⟩ 7 (enough [f1.source, f2.source]) [f1.source, f2.source] (exG (.greater i vGt) (.equal j vEq) (.csv .newDefault w) [])
      ⟨some r.1, r.2⟩) := by
    unfold filterMergeExample
    rw [hset]
    rfl
  unfold driveGraph at hex
  rw [drive_perform] at hex
  simp only [List.map_cons, List.map_nil] at hcalls
  generalize hcc : calls ⟨none, none⟩ (enough [f1.source, f2.source]) [f1.source, f2.source] = cc at hex hcalls
  have hchain : ∀ x ∈ cc.1, callChain x < 2 := by rw [← hcc]; exact calls_chains _ _ _
  obtain ⟨q1, q2⟩ := ex_perform e.sink (.greater i vGt) (.equal j vEq) 2 hkeeps cc.1 cc.2 (.csv .newDefault w) [] hchain
  have hmeet := ex_meet (.greater i vGt) (.equal j vEq) f1.source f2.source (enough [f1.source, f2.source]) s1 s2 (by rw [hcc]; exact hcalls)
  have hmerge := ex_merge (.greater i vGt) (.equal j vEq) f1.source f2.source (enough [f1.source, f2.source]) s1 s2 (by rw [hcc]; exact hcalls)
  rw [hcc] at hmeet hmerge
  refine ⟨fun hok => ?_, fun a b ha hb => ?_⟩
  · have hall : ∀ p ∈ fed cc.1, (exFilter (.greater i vGt) (.equal j vEq) p.1).write p.2 ≠ (exFilter (.greater i vGt) (.equal j vEq) p.1, .panic) := by
      intro p hp hpan
      refine q2 ⟨p, hp, hpan⟩ ?_
      rw [hex] at hok
      exact hok
    obtain ⟨m1, m2⟩ := hmeet.1 hall
    exact ⟨_, _, (through_filter kg (keeps_greater i vGt) _ _).2 ⟨m1, rfl⟩, (through_filter ke (keeps_equal j vEq) _ _).2 ⟨m2, rfl⟩⟩
  · obtain ⟨m1, rfl⟩ := (through_filter kg (keeps_greater i vGt) _ _).1 ha
    obtain ⟨m2, rfl⟩ := (through_filter ke (keeps_equal j vEq) _ _).1 hb
    obtain ⟨log', hp⟩ := q1 (hmeet.2 ⟨m1, m2⟩)
    simp only at hex
    rw [hp] at hex
    rw [hcalls] at hex
    generalize hrows : (fed (cc.1.filter (callKept (.greater i vGt) (.equal j vEq)))).map (·.2) = rows at hmerge
    have hprint := csvRows_lines e.ff .newDefault (by intro _ hs; cases hs) rows (by
      intro r hr' v hv'
      obtain ⟨_, l, hl, h2⟩ := merge_mem hmerge hr'
      simp only [List.mem_cons, List.not_mem_nil, or_false] at hl
      rcases hl with rfl | rfl
      · exact hv f1 (by simp) r (List.mem_filter.1 h2).1 v hv'
      · exact hv f2 (by simp) r (List.mem_filter.1 h2).1 v hv')
    obtain ⟨cs, c, hlast⟩ := last_flush (by rw [hcc]; exact hcalls) (show [f1.source, f2.source] ≠ [] by simp)
    rw [hcc] at hlast
    have hsplit : cc.1.filter (callKept (.greater i vGt) (.equal j vEq)) = cs.filter (callKept (.greater i vGt) (.equal j vEq)) ++ [.flush c] := by
      rw [hlast, List.filter_append]; rfl
    obtain ⟨w', h1, _, _, h4⟩ := perform_output (csv_writes e.sink .newDefault) (cc.1.filter (callKept (.greater i vGt) (.equal j vEq))) (.ok ()) w _ hholds
    rw [hrows, rowsOut_csv] at h4
    have hres : (perform (sinkFeed (cliOps e.sink)) (sinkFlush (cliOps e.sink)) (cc.1.filter (callKept (.greater i vGt) (.equal j vEq))) (.ok ()) (.csv .newDefault w)).2 = .ok () := by
      rcases h4 with ⟨h5, _⟩ | ⟨k, _, h5⟩ | ⟨_, h5⟩
      · exact h5
      · exact absurd (hfail k h5) (hr k)
      · exact absurd hprint.1 h5
    have hresult : (filterMergeExample e p1 p2 colGt vGt colEq vEq).result = .ok () := by rw [hex]; exact hres
    refine ⟨hresult, ?_⟩
    have hlastf := perform_last_flush (csv_writes e.sink .newDefault) (cs.filter (callKept (.greater i vGt) (.equal j vEq))) c w _ hholds (by rw [← hsplit]; exact hres)
    obtain ⟨w2, g1, g2, g3⟩ := hlastf
    have hfedeq : fed (cc.1.filter (callKept (.greater i vGt) (.equal j vEq))) = fed (cs.filter (callKept (.greater i vGt) (.equal j vEq))) := by
      rw [hsplit]; unfold fed; simp [Call.fed?]
    rw [← hfedeq, hrows, rowsOut_csv] at g3
    refine ⟨w2.close, rows, _, ?_, hmerge, ⟨_, hprint.2, rfl⟩, ?_⟩
    · rw [hex]
      rw [hsplit] at hres ⊢
      rw [g1, hres]
      rfl
    · rw [close_all g3 g2, utf8Encode_append, List.append_assoc]
      rfl

theorem findCol_iff {name : Str} {names : List Str} {i : Nat} : findCol name names 0 = some i ↔ FirstCol name names i :=
  ⟨fun h => by simpa using (findCol_some h).2, findCol_of_firstCol⟩

/-- **C142 (what the program does), partial.** Two inputs that can be read, sorted by time, with the same header, which has both columns, at least one row each and values that can be printed; standard
output does not fail. The run succeeds exactly if every row of the *second* input can be compared in the first column and every row of the *first* input in the second one; then standard output
receives the CSV text of the merge of what the filters leave: the `greater` filter is applied to the second input and the `equal` filter to the first. -/
theorem C142_crossed_partial (e : CliEnv) (p1 p2 colGt : Str) (vGt : FieldValue) (colEq : Str) (vEq : FieldValue) (f1 f2 : FileSource) (ho : ExampleOpens e p1 p2 f1 f2)
    (hg : GoodInputs ⟨none, none⟩ f1.header [f1, f2]) (hr : Reliable e.out.stdout)
    (hcols : ∀ c, c = colGt ∨ c = colEq → ∃ i, FirstCol c f1.header.names i)
    (hv : ∀ f ∈ [f1, f2], ∀ r ∈ f.source.rows, ∀ v ∈ r.values, ¬ Unprintable v) :
    ((filterMergeExample e p1 p2 colGt vGt colEq vEq).result = .ok () ↔ ∃ a b, ThroughAll [.greater colGt vGt] f1.header f2.source.rows a ∧
      ThroughAll [.equal colEq vEq] f1.header f1.source.rows b) ∧
    (∀ a b, ThroughAll [.greater colGt vGt] f1.header f2.source.rows a → ThroughAll [.equal colEq vEq] f1.header f1.source.rows b →
      ∃ out rows text, (filterMergeExample e p1 p2 colGt vGt colEq vEq).stdout = some out ∧
        IsMerge ⟨none, none⟩ [b, a] rows ∧ ExampleText e.ff f1.header rows text ∧ out.taken = e.out.stdout.taken ++ text) := by
  obtain ⟨i, hi⟩ := hcols colGt (.inl rfl)
  obtain ⟨j, hj⟩ := hcols colEq (.inr rfl)
  obtain ⟨h1, h2⟩ := ex_run e p1 p2 colGt vGt colEq vEq f1 f2 ho hg hr i j (findCol_iff.2 hi) (findCol_iff.2 hj) hv
  exact ⟨⟨h1, fun ⟨a, b, ha, hb⟩ => (h2 a b ha hb).1⟩, fun a b ha hb => (h2 a b ha hb).2⟩

theorem merge_wanted {a b rows : List Row} (h : IsMerge ⟨none, none⟩ [b, a] rows) : Sorted rows ∧ rows.Perm (a ++ b) := by
  refine ⟨h.sorted, (isMerge_count h).trans ?_⟩
  have hin : ∀ l : List Row, l.filter (fun r => inRange ⟨none, none⟩ r.timestamp) = l := fun l => List.filter_eq_self.2 fun _ _ => rfl
  simp only [List.flatMap_cons, List.flatMap_nil, hin, List.append_nil]
  exact List.perm_append_comm

/-- **C142 (the program as it is).** The program reads the same file twice, and then it does what is wanted: it succeeds exactly if all rows can be compared in both columns, and standard output
receives the CSV text of the rows wanted, in the order of time. -/
theorem C142_same_input (e : CliEnv) (p colGt : Str) (vGt : FieldValue) (colEq : Str) (vEq : FieldValue) (f : FileSource)
    (ho : createFromInput (newInputs e.csv e.dec e.zip e.world none [] []) e.world ⟨.path p, .auto⟩ = .ok f)
    (hg : GoodInputs ⟨none, none⟩ f.header [f]) (hr : Reliable e.out.stdout)
    (hcols : ∀ c, c = colGt ∨ c = colEq → ∃ i, FirstCol c f.header.names i)
    (hv : ∀ r ∈ f.source.rows, ∀ v ∈ r.values, ¬ Unprintable v) :
    ((filterMergeExample e p p colGt vGt colEq vEq).result = .ok () ↔ ∃ rows, WantedRows f.header colGt vGt colEq vEq f.source.rows f.source.rows rows) ∧
    ((filterMergeExample e p p colGt vGt colEq vEq).result = .ok () →
      ∃ out rows text, (filterMergeExample e p p colGt vGt colEq vEq).stdout = some out ∧ WantedRows f.header colGt vGt colEq vEq f.source.rows f.source.rows rows ∧
        ExampleText e.ff f.header rows text ∧ out.taken = e.out.stdout.taken ++ text) := by
  have hg2 : GoodInputs ⟨none, none⟩ f.header [f, f] := by
    refine ⟨?_, ?_, ?_, ?_⟩
    all_goals
      intro x hx
      have : x ∈ [f] := by simpa using hx
    · exact hg.header x this
    · exact hg.sorted x this
    · exact hg.some x this
    · exact hg.readable x this
  obtain ⟨h1, h2⟩ := C142_crossed_partial e p p colGt vGt colEq vEq f f ⟨ho, ho⟩ hg2 hr hcols (by
    intro x hx
    have : x = f := by simpa using hx
    subst this
    exact hv)
  constructor
  · rw [h1]
    constructor
    · rintro ⟨a, b, ha, hb⟩
      obtain ⟨_, rows, _, _, hm, _⟩ := h2 a b ha hb
      exact ⟨rows, a, b, ha, hb, merge_wanted hm⟩
    · rintro ⟨_, a, b, ha, hb, _⟩
      exact ⟨a, b, ha, hb⟩
  · intro hok
    obtain ⟨a, b, ha, hb⟩ := h1.1 hok
    obtain ⟨out, rows, text, h3, hm, h4, h5⟩ := h2 a b ha hb
    exact ⟨out, rows, text, h3, ⟨a, b, ha, hb, merge_wanted hm⟩, h4, h5⟩

/-- **C142 (unsuitable headers).** If the headers of the two inputs differ, or one of the columns is missing, nothing is read and nothing is printed: the run fails. -/
theorem C142_unsuitable (e : CliEnv) (p1 p2 colGt : Str) (vGt : FieldValue) (colEq : Str) (vEq : FieldValue) (f1 f2 : FileSource) (ho : ExampleOpens e p1 p2 f1 f2)
    (hbad : f1.header ≠ f2.header ∨ (¬ ∃ i, FirstCol colGt f1.header.names i) ∨ ¬ ∃ i, FirstCol colEq f1.header.names i) :
    (filterMergeExample e p1 p2 colGt vGt colEq vEq).result ≠ .ok () ∧ (filterMergeExample e p1 p2 colGt vGt colEq vEq).graph = none := by
  have hno : ∀ q, filterMergeSetup e p1 p2 colGt vGt colEq vEq ≠ .ok q := by
    intro q hq
    obtain ⟨h1, ⟨i, hi⟩, ⟨j, hj⟩⟩ := (ex_setup e p1 p2 colGt vGt colEq vEq f1 f2 ho).2 q hq
    rcases hbad with h | h | h
    · exact h h1
    · exact h ⟨i, findCol_iff.1 hi⟩
    · exact h ⟨j, findCol_iff.1 hj⟩
  unfold filterMergeExample
  cases hs : filterMergeSetup e p1 p2 colGt vGt colEq vEq with
  | ok q => exact absurd hs (hno q)
  | err x => simp
  | panic => simp
  | diverge => simp

/-- **C142 in full.** For any two inputs: what is wanted of the first and of the second input is printed. -/
def C142_full : Prop :=
  ∀ (e : CliEnv) (p1 p2 colGt : Str) (vGt : FieldValue) (colEq : Str) (vEq : FieldValue) (f1 f2 : FileSource), ExampleOpens e p1 p2 f1 f2 →
    GoodInputs ⟨none, none⟩ f1.header [f1, f2] → Reliable e.out.stdout → (∀ c, c = colGt ∨ c = colEq → ∃ i, FirstCol c f1.header.names i) →
    (∀ f ∈ [f1, f2], ∀ r ∈ f.source.rows, ∀ v ∈ r.values, ¬ Unprintable v) → (filterMergeExample e p1 p2 colGt vGt colEq vEq).result = .ok () →
    ∃ out rows text, (filterMergeExample e p1 p2 colGt vGt colEq vEq).stdout = some out ∧ WantedRows f1.header colGt vGt colEq vEq f1.source.rows f2.source.rows rows ∧
      ExampleText e.ff f1.header rows text ∧ out.taken = e.out.stdout.taken ++ text

end Chopper.Props
