import Verif.Proofs.Driver5

/-!
# Properties of the driver: C16 – C24

All theorems are about `drive`, the model of `Driver::drive`, for every list of inputs (`Source`: arbitrary rows, arbitrary ending),
every range, and every behaviour of the graph (`process`, `flush`: arbitrary state-passing actions that may fail).
`fuel` only bounds the number of loop iterations; `Spec.enough` says how much is certainly enough.
-/
namespace Chopper.Props
open Chopper Spec

/-- Enough loop iterations for any run over these inputs. -/
def enough (sources : List Source) : Nat := totalRows sources + sources.length

/-! ### The driver does nothing but feed rows and flush chains -/

/-- **C23 (node failures).** For every graph, the run consists of performing, one after the other, the calls that the inputs alone
determine, and it stops at the first call that fails, returning that failure with the state reached. (`perform` is that reading.) -/
theorem C23_run_is_calls (range : TimestampRange) (fuel : Nat) (sources : List Source)
    {G : Type} (process : ChainId → Row → G → G × Res Unit) (flush : ChainId → G → G × Res Unit) (g : G) :
    drive process flush range fuel sources g =
      perform process flush (calls range fuel sources).1 (calls range fuel sources).2 g :=
  drive_perform range fuel sources process flush g

/-- A graph that fails on its second row. -/
example : drive (G := Nat) (fun _ _ n => (n + 1, if n = 1 then .err .csv else .ok ())) (fun _ n => (n + 100, .ok ()))
    .all 10 [⟨[⟨1, []⟩, ⟨2, []⟩, ⟨3, []⟩], .eof⟩] 0 = (2, .err .csv) := by decide +kernel

/-- A run that succeeds on any graph made all its calls. -/
theorem drive_ok_calls {range : TimestampRange} {fuel : Nat} {sources : List Source}
    {G : Type} {process : ChainId → Row → G → G × Res Unit} {flush : ChainId → G → G × Res Unit} {g : G}
    (h : (drive process flush range fuel sources g).2 = .ok ()) : (calls range fuel sources).2 = .ok () := by
  rw [C23_run_is_calls] at h; exact perform_ok h

theorem calls_nonempty {range : TimestampRange} {fuel : Nat} {sources : List Source}
    (h : (calls range fuel sources).2 = .ok ()) : ∀ s ∈ sources, selected range s.rows ≠ [] := by
  intro s hs he
  exact drive_empty_not_ok _ _ range fuel sources _ ⟨s, hs, he⟩ h

theorem calls_more {range : TimestampRange} {fuel : Nat} {sources : List Source}
    (h : (calls range fuel sources).2 = .ok ()) : calls range (fuel + enough sources) sources = calls range fuel sources :=
  drive_mono _ _ range fuel _ sources _ (by rw [show (drive _ _ range fuel sources _).2 = _ from h]; simp)

theorem calls_ok_run {range : TimestampRange} {fuel : Nat} {sources : List Source}
    (h : (calls range fuel sources).2 = .ok ()) :
    Run (absFrom range 0 sources.reverse) (calls range fuel sources).1 (.ok ()) := by
  have := calls_run range (fuel + enough sources) sources (calls_nonempty h) (by
    have := totalSelected_le range sources; unfold enough; omega)
  rw [calls_more h, h] at this; exact this

/-! ### C16: range selection -/

/-- **C16.** A successful run over one input whose timestamps never decrease feeds exactly the rows with `begin ≤ timestamp < end`,
in input order. -/
theorem C16_range (range : TimestampRange) (fuel : Nat) (s : Source) (hs : Sorted s.rows)
    (hok : (calls range fuel [s]).2 = .ok ()) :
    (fed (calls range fuel [s]).1).map (·.2) =
      s.rows.filter (fun r => (match range.beginTs with | none => true | some b => decide (b ≤ r.timestamp)) &&
        (match range.endTs with | none => true | some e => decide (r.timestamp < e))) := by
  have hr := calls_ok_run hok
  have h1 := run_fedTo hr rfl (chainsOf_absFrom_nodup _ _ _) 0
  have h2 := run_fed_mem hr
  have h3 := rowsOf_absFrom range [s] 0 0
  simp only [Nat.zero_add, List.getElem?_cons_zero] at h3
  rw [show [s].reverse = [s] from rfl] at h1 h2
  rw [h3, selected_sorted range _ hs] at h1
  have h4 : ∀ p ∈ fed (calls range fuel [s]).1, p.1 = 0 := by
    intro p hp
    have := h2 p hp
    simp only [absFrom] at this
    split at this <;> simp [chainsOf] at this; exact this
  have h5 : (fed (calls range fuel [s]).1).map (·.2) = fedTo 0 (calls range fuel [s]).1 := by
    unfold fedTo
    generalize fed (calls range fuel [s]).1 = l at h4
    induction l with
    | nil => rfl
    | cons p l ih =>
      simp only [List.map_cons, List.filterMap_cons, h4 p (by simp), if_true]
      rw [ih (fun q hq => h4 q (by simp [hq]))]
  rw [h5, h1]; rfl

/-- **C16**, arbitrary (unsorted) input: the rows `≥ begin` of the prefix that precedes the first row `≥ end`. -/
theorem C16_range_unsorted (range : TimestampRange) (fuel : Nat) (s : Source)
    (hok : (calls range fuel [s]).2 = .ok ()) :
    fedTo 0 (calls range fuel [s]).1 =
      (s.rows.takeWhile (fun r => beforeEnd range r.timestamp)).filter (fun r => notBefore range r.timestamp) := by
  have hr := calls_ok_run hok
  have h1 := run_fedTo hr rfl (chainsOf_absFrom_nodup _ _ _) 0
  have h3 := rowsOf_absFrom range [s] 0 0
  simp only [Nat.zero_add, List.getElem?_cons_zero] at h3
  rw [show [s].reverse = [s] from rfl] at h1
  rw [h1, h3]; rfl

/-- **C16**, the predefined range `TIMESTAMP_RANGE_ALL`: a successful run over one input (sorted or not) feeds all its rows. -/
theorem C16_all (fuel : Nat) (s : Source) (hok : (calls .all fuel [s]).2 = .ok ()) : fedTo 0 (calls .all fuel [s]).1 = s.rows := by
  rw [C16_range_unsorted _ _ _ hok]
  have h1 : ∀ r : Row, beforeEnd .all r.timestamp = true := fun _ => rfl
  have h2 : ∀ r : Row, notBefore .all r.timestamp = true := fun _ => rfl
  rw [List.filter_eq_self.2 (fun r _ => h2 r)]
  generalize s.rows = l
  induction l with
  | nil => rfl
  | cons r l ih => rw [List.takeWhile_cons, h1 r, if_pos rfl, ih]

example : (calls .all 9 [⟨[⟨0, []⟩, ⟨7, []⟩, ⟨3, []⟩], .eof⟩]).2 = .ok () := by decide +kernel

/-- Both hypotheses hold for a four-row input of which the two middle rows are in range; and the end row itself is excluded, the
begin row included. -/
example : Sorted [(⟨1, []⟩ : Row), ⟨2, []⟩, ⟨3, []⟩, ⟨5, []⟩] ∧
    (calls ⟨some 2, some 5⟩ 9 [⟨[⟨1, []⟩, ⟨2, []⟩, ⟨3, []⟩, ⟨5, []⟩], .eof⟩]).2 = .ok () ∧
    (fed (calls ⟨some 2, some 5⟩ 9 [⟨[⟨1, []⟩, ⟨2, []⟩, ⟨3, []⟩, ⟨5, []⟩], .eof⟩]).1).map (·.2) = [⟨2, []⟩, ⟨3, []⟩] := by
  unfold Sorted; decide +kernel

/-! ### C17: sorted output -/

/-- **C17.** When every input is non-decreasing in time, the rows fed over the whole run — successful or not — are non-decreasing in
time. -/
theorem C17_sorted (range : TimestampRange) (fuel : Nat) (sources : List Source) (hs : ∀ s ∈ sources, Sorted s.rows)
    (hf : enough sources ≤ fuel) :
    Sorted ((fed (calls range fuel sources).1).map (·.2)) := by
  by_cases hne : ∀ s ∈ sources, selected range s.rows ≠ []
  · have hr := calls_run range fuel sources hne (by
      have := totalSelected_le range sources; unfold enough at hf; omega)
    obtain ⟨more, hm⟩ := run_prefix hr
    have hsort : ∀ a ∈ (absFrom range 0 sources.reverse).map ABuf.eof, Sorted a.rows := by
      intro a ha
      obtain ⟨b, hb, rfl⟩ := List.mem_map.1 ha
      exact absFrom_sorted range sources.reverse (fun s h => hs s (by simpa using h)) 0 b hb
    have h1 := run_stableSort hm rfl hsort
    have h2 := stableSort_sorted (((absFrom range 0 sources.reverse).map ABuf.eof).flatMap ABuf.tagged)
    rw [← h1] at h2
    unfold fed at h2 ⊢
    rw [List.filterMap_append, List.pairwise_append] at h2
    unfold Sorted
    rw [List.pairwise_map]
    exact h2.1
  · have hex : ∃ s ∈ sources, selected range s.rows = [] := by
      simpa using hne
    have hz := calls_empty_zero range fuel sources hex
    unfold Sorted
    rw [List.pairwise_map]
    exact List.pairwise_of_forall_mem_list (fun a ha b _ => by rw [hz a ha]; simp [BitVec.le_def])

/-- Two overlapping sorted inputs, one of which fails at its end. -/
example : (∀ s ∈ [(⟨[⟨1, []⟩, ⟨4, []⟩], .eof⟩ : Source), ⟨[⟨2, []⟩, ⟨3, []⟩], .fail .csv⟩], Sorted s.rows) ∧
    (calls .all 6 [⟨[⟨1, []⟩, ⟨4, []⟩], .eof⟩, ⟨[⟨2, []⟩, ⟨3, []⟩], .fail .csv⟩]) =
      ([.feed 1 ⟨1, []⟩, .feed 0 ⟨2, []⟩, .feed 0 ⟨3, []⟩], .err .csv) := by
  constructor
  · simp [Sorted, BitVec.le_def]
  · decide +kernel

/-! ### C18: every row exactly once, in order -/

/-- **C18.** A successful run over any graph feeds, for every input `k`, exactly its selected rows, each once and in input order,
to the input's chain (chain `n - 1 - k`, see C20), and nothing to any other chain. -/
theorem C18_exactly_once (range : TimestampRange) (fuel : Nat) (sources : List Source)
    {G : Type} (process : ChainId → Row → G → G × Res Unit) (flush : ChainId → G → G × Res Unit) (g : G)
    (hok : (drive process flush range fuel sources g).2 = .ok ()) :
    (∀ k s, sources[k]? = some s →
      fedTo (sources.length - 1 - k) (calls range fuel sources).1 = selected range s.rows) ∧
    (∀ p ∈ fed (calls range fuel sources).1, p.1 < sources.length) := by
  have hr := calls_ok_run (drive_ok_calls hok)
  constructor
  · intro k s hk
    have hkl : k < sources.length := (List.getElem?_eq_some_iff.1 hk).1
    have h1 := run_fedTo hr rfl (chainsOf_absFrom_nodup _ _ _) (sources.length - 1 - k)
    have h3 := rowsOf_absFrom range sources.reverse 0 (sources.length - 1 - k)
    rw [Nat.zero_add] at h3
    rw [h1, h3, List.getElem?_reverse (by omega), show sources.length - 1 - (sources.length - 1 - k) = k by omega, hk]
  · intro p hp
    obtain ⟨a, ha, hpa⟩ := List.mem_map.1 (run_fed_mem hr p hp)
    obtain ⟨k, s, h1, h2, _⟩ := mem_absFrom range _ _ _ ha
    have := (List.getElem?_eq_some_iff.1 h1).1
    simp at this; omega

/-- Unsorted inputs of different lengths run successfully. -/
example : (drive (G := Nat) (fun _ _ n => (n + 1, .ok ())) (fun _ n => (n, .ok ())) .all 9
    [⟨[⟨5, []⟩, ⟨1, []⟩], .eof⟩, ⟨[⟨2, []⟩, ⟨7, []⟩, ⟨3, []⟩], .eof⟩] 0) = (5, .ok ()) := by decide +kernel

/-- Additionally, the run ends having taken all selected rows of all inputs: the fed rows are a permutation of them. -/
theorem C18_all_inputs (range : TimestampRange) (fuel : Nat) (sources : List Source)
    (hok : (calls range fuel sources).2 = .ok ()) (hs : ∀ s ∈ sources, Sorted s.rows) :
    (fed (calls range fuel sources).1).Perm (selectedInputs range sources).flatten := by
  have h1 := run_stableSort (calls_ok_run hok) rfl
    (absFrom_sorted range sources.reverse (fun s h => hs s (by simpa using h)) 0)
  rw [h1, tagged_absFrom]
  exact stableSort_perm _

/-! ### C19: ties -/

/-- **C19.** For sorted inputs the fed rows are the stable sort by time of the selected rows, the inputs taken last to first: rows
with equal timestamps come in input order (last input first), all tied rows of one input before those of the next. -/
theorem C19_ties (range : TimestampRange) (fuel : Nat) (sources : List Source)
    (hok : (calls range fuel sources).2 = .ok ()) (hs : ∀ s ∈ sources, Sorted s.rows) :
    fed (calls range fuel sources).1 = stableSort (selectedInputs range sources).flatten := by
  have h1 := run_stableSort (calls_ok_run hok) rfl
    (absFrom_sorted range sources.reverse (fun s h => hs s (by simpa using h)) 0)
  rw [h1, tagged_absFrom]; rfl

/-- What stable sorting means: of two elements with the same time the relative order is unchanged, i.e. restricted to any single
timestamp the sorted list is the original list restricted to it. -/
theorem C19_stable (l : List (ChainId × Row)) (t : Nanos) :
    (stableSort l).filter (fun p => p.2.timestamp == t) = l.filter (fun p => p.2.timestamp == t) := by
  have ins : ∀ (x : ChainId × Row) (l : List (ChainId × Row)), l.Pairwise (fun a b => a.2.timestamp ≤ b.2.timestamp) →
      (insertByTime x l).filter (fun p => p.2.timestamp == t) = (x :: l).filter (fun p => p.2.timestamp == t) := by
    intro x l hl
    induction l with
    | nil => rfl
    | cons y l ih =>
      simp only [insertByTime]
      split
      · rfl
      · rename_i hlt
        have ih' := ih (List.pairwise_cons.1 hl).2
        by_cases hx : x.2.timestamp = t
        · have hy : ¬ (y.2.timestamp = t) := by rintro rfl; apply hlt; rw [hx]; exact BitVec.le_refl _
          simp [hy, hx, ih']
        · by_cases hy : y.2.timestamp = t <;> simp [hx, hy, ih']
  induction l with
  | nil => rfl
  | cons x l ih =>
    rw [stableSort, ins x _ (stableSort_sorted l)]
    by_cases hx : x.2.timestamp = t <;> simp [hx, ih]

/-- Three inputs with a tie at 5: last input first. -/
example : fed (calls .all 9 [⟨[⟨5, [.byte 0]⟩], .eof⟩, ⟨[⟨5, [.byte 1]⟩], .eof⟩, ⟨[⟨4, []⟩, ⟨5, [.byte 2]⟩], .eof⟩]).1 =
    [(0, ⟨4, []⟩), (0, ⟨5, [.byte 2]⟩), (1, ⟨5, [.byte 1]⟩), (2, ⟨5, [.byte 0]⟩)] := by decide +kernel

/-! ### C20: which chain gets which input -/

/-- The English claim C20: after a successful run every input's selected rows were given to the chain with the input's number. -/
def C20_full : Prop := ∀ (range : TimestampRange) (fuel : Nat) (sources : List Source), (calls range fuel sources).2 = .ok () →
  ∀ (k : Nat) (s : Source), sources[k]? = some s → fedTo k (calls range fuel sources).1 = selected range s.rows

/-- **C20 is false of the code**: with two inputs, the rows of input 0 go to chain 1. -/
theorem C20_fails : ∃ (sources : List Source) (fuel : Nat), (calls .all fuel sources).2 = .ok () ∧
    ∃ k s, sources[k]? = some s ∧ fedTo k (calls .all fuel sources).1 ≠ selected .all s.rows :=
  ⟨[⟨[⟨1, [.byte 0]⟩], .eof⟩, ⟨[⟨2, [.byte 1]⟩], .eof⟩], 4, by decide +kernel, 0, _, rfl, by decide +kernel⟩

theorem C20_refuted : ¬ C20_full := fun h => by
  obtain ⟨sources, fuel, hok, k, s, hk, hne⟩ := C20_fails
  exact hne (h .all fuel sources hok k s hk)

/-- **C20**, what holds: input `k` of `n` is processed by chain `n - 1 - k`, which is chain `k` exactly when `n = 2 k + 1`; in
particular for a single input. Missing: the identity for all other inputs (false, see `C20_fails`). -/
theorem C20_partial (range : TimestampRange) (fuel : Nat) (sources : List Source)
    (hok : (calls range fuel sources).2 = .ok ()) (k : Nat) (s : Source) (hk : sources[k]? = some s)
    (hmid : sources.length = 2 * k + 1) :
    fedTo k (calls range fuel sources).1 = selected range s.rows := by
  have h := (C18_exactly_once range fuel sources (fun c r l => (l ++ [Call.feed c r], .ok ())) (fun c l => (l ++ [Call.flush c], .ok ())) []
    hok).1 k s hk
  rwa [show sources.length - 1 - k = k by omega] at h

example : (calls .all 4 [⟨[⟨1, [.byte 0]⟩], .eof⟩]).2 = .ok () := by decide +kernel

/-! ### C21: empty inputs -/

/-- The English claim C21: adding an input that has no selected row and does not fail, anywhere among the others, changes neither the outcome
of the run nor the rows that are processed (the chain numbers may shift). -/
def C21_full : Prop := ∀ (range : TimestampRange) (fuel : Nat) (before after : List Source) (e : Source), selected range e.rows = [] → e.ending = .eof →
  enough (before ++ e :: after) ≤ fuel →
  (calls range fuel (before ++ e :: after)).2 = (calls range fuel (before ++ after)).2 ∧
  (fed (calls range fuel (before ++ e :: after)).1).map (·.2) = (fed (calls range fuel (before ++ after)).1).map (·.2)

/-- **C21 is false of the code**: whatever the graph, a run in which some input has no selected row never succeeds … -/
theorem C21_never_succeeds {G : Type} (process : ChainId → Row → G → G × Res Unit) (flush : ChainId → G → G × Res Unit)
    (range : TimestampRange) (fuel : Nat) (sources : List Source) (g : G) (s : Source) (hs : s ∈ sources)
    (he : selected range s.rows = []) : (drive process flush range fuel sources g).2 ≠ .ok () :=
  drive_empty_not_ok process flush range fuel sources g ⟨s, hs, he⟩

/-- … although without that input it does, feeding a row. -/
theorem C21_fails : ∃ (range : TimestampRange) (s e : Source) (fuel : Nat), selected range e.rows = [] ∧ e.ending = .eof ∧
    calls range fuel [s] = ([.feed 0 ⟨7, []⟩, .flush 0], .ok ()) ∧ calls range fuel [s, e] = ([], .panic) :=
  ⟨⟨none, some 10⟩, ⟨[⟨7, []⟩], .eof⟩, ⟨[⟨12, []⟩], .eof⟩, 9, by decide +kernel, rfl, by decide +kernel, by decide +kernel⟩

theorem C21_refuted : ¬ C21_full := fun h => by
  have := (h ⟨none, some 10⟩ 9 [⟨[⟨7, []⟩], .eof⟩] [] ⟨[⟨12, []⟩], .eof⟩ (by decide +kernel) rfl (by decide +kernel)).1
  exact absurd this (by decide +kernel)

/-- **C21**, what holds: an input without selected rows contributes no row. Missing: that the others are processed (false). -/
theorem C21_partial (range : TimestampRange) (fuel : Nat) (sources : List Source) (k : Nat) (s : Source)
    (hk : sources[k]? = some s) (he : selected range s.rows = []) :
    ∀ p ∈ fed (calls range fuel sources).1, p.1 ≠ sources.length - 1 - k := by
  have hkl : k < sources.length := (List.getElem?_eq_some_iff.1 hk).1
  unfold calls drive
  cases hb : getRowBuffers range sources with
  | ok bufs =>
    simp only []
    apply driveLoop_fed_chain
    · intro b hbm hc
      obtain ⟨j, s', h1, h2, h3⟩ := getRowBuffersFrom_get range _ _ _ hb b hbm
      have hj : j = sources.length - 1 - k := by omega
      subst hj
      rw [List.getElem?_reverse (by omega), show sources.length - 1 - (sources.length - 1 - k) = k by omega, hk] at h1
      cases h1
      exact new_row_none h3 he
    · simp [fed]
  | _ => simp [fed]

/-- A row with timestamp 0 is fed before the empty input brings the run down. -/
example : calls ⟨none, some 10⟩ 9 [⟨[⟨12, []⟩], .eof⟩, ⟨[⟨0, []⟩], .eof⟩] = ([.feed 0 ⟨0, []⟩, .flush 0], .panic) := by
  decide +kernel

/-! ### C23: failing inputs -/

/-- **C23 (prefix).** What a run with failing inputs feeds and flushes is a prefix of what the same run feeds and flushes when the
inputs end normally instead. -/
theorem C23_failure_prefix (range : TimestampRange) (fuel : Nat) (sources : List Source) :
    (calls range fuel sources).1 <+: (calls range fuel (sources.map (fun s => { s with ending := .eof }))).1 :=
  calls_eof_prefix range fuel sources

/-- **C23 (which error).** If every input has a selected row: the inputs' part of the run succeeds iff no input fails within the
range; and if it returns an error, then some input fails with exactly that error, and all of that input's selected rows were fed
before. -/
theorem C23_source_failure (range : TimestampRange) (fuel : Nat) (sources : List Source)
    (hne : ∀ s ∈ sources, selected range s.rows ≠ []) (hf : enough sources ≤ fuel) :
    ((calls range fuel sources).2 = .ok () ↔ ∀ s ∈ sources, endingWithin range s = .eof) ∧
    ∀ e, (calls range fuel sources).2 = .err e → ∃ k s, sources[k]? = some s ∧ endingWithin range s = .fail e ∧
      fedTo (sources.length - 1 - k) (calls range fuel sources).1 = selected range s.rows := by
  have hr := calls_run range fuel sources hne (by have := totalSelected_le range sources; unfold enough at hf; omega)
  constructor
  · rw [run_ok_iff hr]
    constructor
    · intro h s hs
      obtain ⟨k, hk⟩ := List.getElem?_of_mem (List.mem_reverse.2 hs)
      obtain ⟨a, ha, _, _, h4⟩ := absFrom_mem range sources.reverse 0 k s hk (hne s hs)
      rw [← h4]; exact h a ha
    · intro h a ha
      obtain ⟨k, s, h1, _, _, h4⟩ := mem_absFrom range _ _ _ ha
      rw [h4]; exact h s (by have := List.mem_of_getElem? h1; simpa using this)
  · intro e he
    obtain ⟨a, ha, h1, h2⟩ := run_err hr (chainsOf_absFrom_nodup _ _ _) e he
    obtain ⟨k, s, h3, h4, h5, h6⟩ := mem_absFrom range _ _ _ ha
    have hk := (List.getElem?_eq_some_iff.1 h3).1
    simp at hk
    refine ⟨sources.length - 1 - k, s, ?_, by rw [← h6]; exact h1, ?_⟩
    · rw [List.getElem?_reverse (by omega)] at h3; exact h3
    · rw [show sources.length - 1 - (sources.length - 1 - k) = a.chain by omega, h2, h5]

/-- **C23 (failure before any row).** An input that fails before its first selected row makes the run return an error (or panic) of
such an input with nothing fed at all, whatever the graph. -/
theorem C23_early_failure {G : Type} (process : ChainId → Row → G → G × Res Unit) (flush : ChainId → G → G × Res Unit)
    (range : TimestampRange) (fuel : Nat) (sources : List Source) (g : G) (s : Source) (hs : s ∈ sources)
    (he : selected range s.rows = []) (hend : endingWithin range s ≠ .eof) :
    ∃ s' ∈ sources, selected range s'.rows = [] ∧
      ((∃ e, endingWithin range s' = .fail e ∧ drive process flush range fuel sources g = (g, .err e)) ∨
       (endingWithin range s' = .crash ∧ drive process flush range fuel sources g = (g, .panic))) := by
  have key : ∀ (popped : List Source) (i : Nat), s ∈ popped → ∃ s' ∈ popped, selected range s'.rows = [] ∧
      ((∃ e, endingWithin range s' = .fail e ∧ getRowBuffersFrom range i popped = .err e) ∨
       (endingWithin range s' = .crash ∧ getRowBuffersFrom range i popped = .panic)) := by
    intro popped
    induction popped with
    | nil => intro i h; simp at h
    | cons a popped ih =>
      intro i h
      rcases matchNextRow_cases range a.rows a.ending with ⟨r', rs, s', h1, h2, _⟩ | ⟨h1, s', h2⟩
      · have ha : s ∈ popped := by
          rcases List.mem_cons.1 h with rfl | h
          · rw [he] at h1; cases h1
          · exact h
        obtain ⟨s2, hs2, h3, h4⟩ := ih (i + 1) ha
        refine ⟨s2, by simp [hs2], h3, ?_⟩
        simp only [getRowBuffersFrom, RowBuffer.new, h2, Res.bind_eq, Res.bind_ok]
        rcases h4 with ⟨e, h5, h6⟩ | ⟨h5, h6⟩
        · left; exact ⟨e, h5, by simp [h6]⟩
        · right; exact ⟨h5, by simp [h6]⟩
      · have hee : endingWithin range ⟨a.rows, a.ending⟩ = endingWithin range a := rfl
        rw [hee] at h2
        cases hend' : endingWithin range a with
        | eof =>
          have ha : s ∈ popped := by
            rcases List.mem_cons.1 h with rfl | h
            · exact absurd hend' hend
            · exact h
          obtain ⟨s2, hs2, h3, h4⟩ := ih (i + 1) ha
          refine ⟨s2, by simp [hs2], h3, ?_⟩
          simp only [hend'] at h2
          simp only [getRowBuffersFrom, RowBuffer.new, h2, Res.bind_eq, Res.bind_ok]
          rcases h4 with ⟨e, h5, h6⟩ | ⟨h5, h6⟩
          · left; exact ⟨e, h5, by simp [h6]⟩
          · right; exact ⟨h5, by simp [h6]⟩
        | fail e =>
          refine ⟨a, by simp, h1, .inl ⟨e, hend', ?_⟩⟩
          simp only [hend'] at h2
          simp [getRowBuffersFrom, RowBuffer.new, h2]
        | crash =>
          refine ⟨a, by simp, h1, .inr ⟨hend', ?_⟩⟩
          simp only [hend'] at h2
          simp [getRowBuffersFrom, RowBuffer.new, h2]
  obtain ⟨s', h1, h2, h3⟩ := key sources.reverse 0 (by simpa using hs)
  refine ⟨s', by simpa using h1, h2, ?_⟩
  unfold drive getRowBuffers
  rcases h3 with ⟨e, h3, h4⟩ | ⟨h3, h4⟩
  · exact .inl ⟨e, h3, by rw [h4]⟩
  · exact .inr ⟨h3, by rw [h4]⟩

/-- An input that fails after its second row, beside a longer one. -/
example : (∀ s ∈ [(⟨[⟨1, []⟩, ⟨4, []⟩], .eof⟩ : Source), ⟨[⟨2, []⟩], .fail .csv⟩], selected .all s.rows ≠ []) ∧
    (calls .all 6 [⟨[⟨1, []⟩, ⟨4, []⟩], .eof⟩, ⟨[⟨2, []⟩], .fail .csv⟩]) =
      ([.feed 1 ⟨1, []⟩, .feed 0 ⟨2, []⟩], .err .csv) := by
  constructor
  · decide +kernel
  · decide +kernel

/-! ### C24 (driver part): bounded number of iterations -/

/-- **C24 (loop).** Whatever the graph does (as long as its own actions finish), the loop stops within
`total number of rows + number of inputs` iterations. -/
theorem C24_loop_terminates {G : Type} (process : ChainId → Row → G → G × Res Unit) (flush : ChainId → G → G × Res Unit)
    (hp : ∀ c r g, (process c r g).2 ≠ .diverge) (hfl : ∀ c g, (flush c g).2 ≠ .diverge)
    (range : TimestampRange) (fuel : Nat) (sources : List Source) (g : G) (hf : enough sources ≤ fuel) :
    (drive process flush range fuel sources g).2 ≠ .diverge :=
  drive_total process flush range (fun _ => True) (fun c r g _ => ⟨hp c r g, trivial⟩) (fun c g _ => ⟨hfl c g, trivial⟩)
    fuel sources g hf trivial

/-- **C24 (iterations).** Each iteration feeds one row, and if every input has a selected row, the number of selected rows is enough
iterations. -/
theorem C24_iterations (range : TimestampRange) (fuel : Nat) (sources : List Source)
    (hne : ∀ s ∈ sources, selected range s.rows ≠ [])
    (hf : (sources.map (fun s => (selected range s.rows).length)).sum ≤ fuel) :
    (calls range fuel sources).2 ≠ .diverge :=
  run_ne_diverge (calls_run range fuel sources hne hf)

/-- One less is not enough: the bound is tight. -/
example : (calls .all 2 [⟨[⟨1, []⟩, ⟨2, []⟩], .eof⟩]).2 = .ok () ∧
    (calls .all 1 [⟨[⟨1, []⟩, ⟨2, []⟩], .eof⟩]).2 = .diverge := by decide +kernel

end Chopper.Props
