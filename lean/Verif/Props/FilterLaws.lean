import Verif.Props.FilterMerge
import Verif.Props.Filter
import Verif.Props.Cycles
import Verif.Spec.FilterLaws

/-!
# C106: the order of filters
-/
namespace Chopper.Props
open Chopper Spec

theorem sameName_symm {a b : Str} (h : SameName a b) : SameName b a := by
  rw [sameName_iff] at *
  simp only [eqIgnoreAsciiCase, beq_iff_eq] at *
  exact h.symm

theorem sameName_trans {a b c : Str} (h : SameName a b) (h' : SameName b c) : SameName a c := by
  rw [sameName_iff] at *
  simp only [eqIgnoreAsciiCase, beq_iff_eq] at *
  exact h.trans h'

theorem firstCol_ne {n m : Str} {names : List Str} {i j : Nat} (hi : FirstCol n names i) (hj : FirstCol m names j) (h : ¬ SameName n m) : i ≠ j := by
  rintro rfl
  obtain ⟨⟨a, ha, h1⟩, _⟩ := hi
  obtain ⟨⟨b, hb, h2⟩, _⟩ := hj
  rw [ha] at hb
  obtain rfl := Option.some.inj hb
  exact h (sameName_trans (sameName_symm h1) h2)

/-- Where a column stands after another one was deleted. -/
def shiftCol (j i : Nat) : Nat := if i < j then i else i - 1

theorem get_shift {α : Type} (l : List α) (i j : Nat) (h : i ≠ j) : (l.eraseIdx j)[shiftCol j i]? = l[i]? := by
  unfold shiftCol
  rw [List.getElem?_eraseIdx]
  split
  · simp [*]
  · have : ¬ (i - 1 < j) := by omega
    rw [if_neg this]
    congr 1
    omega

theorem firstCol_erase {n m : Str} {names : List Str} {i j : Nat} (hi : FirstCol n names i) (hj : FirstCol m names j) (h : ¬ SameName n m) :
    FirstCol n (names.eraseIdx j) (shiftCol j i) := by
  have hne := firstCol_ne hi hj h
  obtain ⟨⟨a, ha, h1⟩, h2⟩ := hi
  refine ⟨⟨a, by rw [get_shift _ _ _ hne]; exact ha, h1⟩, ?_⟩
  intro k b hk hb
  rw [List.getElem?_eraseIdx] at hb
  unfold shiftCol at hk
  split at hb
  · apply h2 k b _ hb
    split at hk <;> omega
  · apply h2 (k + 1) b _ hb
    split at hk <;> omega

theorem erase_comm {α : Type} (l : List α) (i j : Nat) (h : i ≠ j) : (l.eraseIdx i).eraseIdx (shiftCol i j) = (l.eraseIdx j).eraseIdx (shiftCol j i) := by
  apply List.ext_getElem?
  intro k
  simp only [List.getElem?_eraseIdx, shiftCol]
  rcases Nat.lt_or_gt_of_ne h with h | h
  · have h' : ¬ j < i := by omega
    simp only [if_pos h, if_neg h']
    repeat' split
    all_goals (first | rfl | omega)
  · have h' : ¬ i < j := by omega
    simp only [if_neg h']
    rw [if_pos h]
    repeat' split
    all_goals (first | rfl | omega)

/-! ### One row -/

theorem passes_det {f : Filter} {h : Header} {r : Row} {o o' : Option Row} (h1 : Passes f h r o) (h2 : Passes f h r o') : o = o' := by
  cases h1 with
  | equalKeep a b c =>
    cases h2 with
    | equalKeep => rfl
    | equalDrop a' b' c' => obtain rfl := firstCol_unique a a'; rw [b] at b'; obtain rfl := Option.some.inj b'; exact absurd c c'
  | equalDrop a b c =>
    cases h2 with
    | equalDrop => rfl
    | equalKeep a' b' c' => obtain rfl := firstCol_unique a a'; rw [b] at b'; obtain rfl := Option.some.inj b'; exact absurd c' c
  | greaterKeep a b c =>
    cases h2 with
    | greaterKeep => rfl
    | greaterDrop a' b' c' => obtain rfl := firstCol_unique a a'; rw [b] at b'; obtain rfl := Option.some.inj b'; exact absurd c c'
  | greaterDrop a b c =>
    cases h2 with
    | greaterDrop => rfl
    | greaterKeep a' b' c' => obtain rfl := firstCol_unique a a'; rw [b] at b'; obtain rfl := Option.some.inj b'; exact absurd c' c
  | delete a b =>
    cases h2 with
    | delete a' b' => obtain rfl := firstCol_unique a a'; rfl

theorem headerAfter_det {f : Filter} {h a b : Header} (h1 : HeaderAfter f h a) (h2 : HeaderAfter f h b) : a = b := by
  cases h1 with
  | equal => cases h2; rfl
  | greater => cases h2; rfl
  | delete x => cases h2 with | delete y => obtain rfl := firstCol_unique x y; rfl

theorem through_det {fs : List Filter} {h : Header} {r : Row} {o o' : Option Row} (h1 : Through fs h r o) (h2 : Through fs h r o') : o = o' := by
  induction h1 generalizing o' with
  | done => cases h2; rfl
  | dropped hp =>
    cases h2 with
    | dropped => rfl
    | next hp' => cases passes_det hp hp'
  | next hp ha _ ih =>
    cases h2 with
    | dropped hp' => cases passes_det hp hp'
    | next hp' ha' ht =>
      have e := Option.some.inj (passes_det hp hp')
      subst e
      have e := headerAfter_det ha ha'
      subst e
      exact ih ht

theorem row_filter_keeps {f : Filter} (hf : f.deletes = false) {h : Header} {r r' : Row} (h1 : Passes f h r (some r')) : r' = r := by
  cases h1 <;> first | rfl | simp [Filter.deletes] at hf

theorem row_filter_header {f : Filter} (hf : f.deletes = false) {h h' : Header} (h1 : HeaderAfter f h h') : h' = h := by
  cases h1 <;> first | rfl | simp [Filter.deletes] at hf

theorem row_filter_after {f : Filter} (hf : f.deletes = false) (h : Header) : HeaderAfter f h h := by
  cases f with
  | equal => exact .equal
  | greater => exact .greater
  | delete => simp [Filter.deletes] at hf

/-- A row filter does not care about another column being deleted. -/
theorem row_filter_erase {f : Filter} (hf : f.deletes = false) {h : Header} {types : List FieldType} {r : Row} {m : Str} {j : Nat} (hj : FirstCol m h.names j)
    (hn : ¬ SameName f.name m) {o : Option Row} (h1 : Passes f h r o) :
    Passes f ⟨h.names.eraseIdx j, types⟩ ⟨r.timestamp, r.values.eraseIdx j⟩ (o.map fun r => ⟨r.timestamp, r.values.eraseIdx j⟩) := by
  cases h1 with
  | equalKeep a b c => exact .equalKeep (firstCol_erase a hj hn) (by rw [get_shift _ _ _ (firstCol_ne a hj hn)]; exact b) c
  | equalDrop a b c d => exact .equalDrop (firstCol_erase a hj hn) (by rw [get_shift _ _ _ (firstCol_ne a hj hn)]; exact b) c d
  | greaterKeep a b c => exact .greaterKeep (firstCol_erase a hj hn) (by rw [get_shift _ _ _ (firstCol_ne a hj hn)]; exact b) c
  | greaterDrop a b c d e => exact .greaterDrop (firstCol_erase a hj hn) (by rw [get_shift _ _ _ (firstCol_ne a hj hn)]; exact b) c d e
  | delete => simp [Filter.deletes] at hf

/-- A row filter and a deletion. -/
theorem swap_delete {a : Filter} (ha : a.deletes = false) {m : Str} (hn : ¬ SameName a.name m) {post : List Filter} {h : Header} {r : Row} {o o' : Option Row}
    (h1 : Through (a :: .delete m :: post) h r o) (h2 : Through (.delete m :: a :: post) h r o') : o = o' := by
  cases h2 with
  | dropped hp => cases hp
  | next hp hh ht =>
    cases hp with
    | @delete _ _ _ j hj hlt =>
      cases hh with
      | @delete _ _ j' hj' =>
        obtain rfl := firstCol_unique hj hj'
        cases h1 with
        | dropped hp1 =>
          have h3 := row_filter_erase (types := h.types.eraseIdx j) ha hj hn hp1
          cases ht with
          | dropped => rfl
          | next hp2 => cases passes_det h3 hp2
        | next hp1 hh1 ht1 =>
          have h3 := row_filter_erase (types := h.types.eraseIdx j) ha hj hn hp1
          obtain rfl := row_filter_keeps ha hp1
          obtain rfl := row_filter_header ha hh1
          cases ht1 with
          | dropped hp => cases hp
          | next hp hh ht1 =>
            cases hp with
            | @delete _ _ _ j2 hj2 hlt2 =>
              obtain rfl := firstCol_unique hj hj2
              cases hh with
              | @delete _ _ j3 hj3 =>
                obtain rfl := firstCol_unique hj hj3
                cases ht with
                | dropped hp2 => cases passes_det h3 hp2
                | next hp2 hh2 ht2 =>
                  obtain rfl := row_filter_keeps ha hp2
                  obtain rfl := row_filter_header ha hh2
                  exact through_det ht1 ht2

theorem swap_here {a b : Filter} (hi : Independent a b) {post : List Filter} {h : Header} {r : Row} {o o' : Option Row}
    (h1 : Through (a :: b :: post) h r o) (h2 : Through (b :: a :: post) h r o') : o = o' := by
  cases ha : a.deletes with
  | false =>
    cases hb : b.deletes with
    | false =>
      cases h1 with
      | dropped p1 =>
        cases h2 with
        | dropped => rfl
        | next p2 hh2 t2 =>
          obtain rfl := row_filter_keeps hb p2
          obtain rfl := row_filter_header hb hh2
          cases t2 with
          | dropped => rfl
          | next p3 => cases passes_det p1 p3
      | next p1 hh1 t1 =>
        obtain rfl := row_filter_keeps ha p1
        obtain rfl := row_filter_header ha hh1
        cases h2 with
        | dropped p2 =>
          cases t1 with
          | dropped => rfl
          | next p3 => cases passes_det p2 p3
        | next p2 hh2 t2 =>
          obtain rfl := row_filter_keeps hb p2
          obtain rfl := row_filter_header hb hh2
          cases t1 with
          | dropped p3 => cases passes_det p2 p3
          | next p3 hh3 t3 =>
            obtain rfl := row_filter_keeps hb p3
            obtain rfl := row_filter_header hb hh3
            cases t2 with
            | dropped p4 => cases passes_det p1 p4
            | next p4 hh4 t4 =>
              obtain rfl := row_filter_keeps ha p4
              obtain rfl := row_filter_header ha hh4
              exact through_det t3 t4
    | true =>
      cases b with
      | delete m => exact swap_delete ha (hi (.inr rfl)) h1 h2
      | equal => simp [Filter.deletes] at hb
      | greater => simp [Filter.deletes] at hb
  | true =>
    cases a with
    | equal => simp [Filter.deletes] at ha
    | greater => simp [Filter.deletes] at ha
    | delete m =>
      have hn : ¬ SameName m b.name := hi (.inl rfl)
      cases hb : b.deletes with
      | false => exact (swap_delete hb (fun e => hn (sameName_symm e)) h2 h1).symm
      | true =>
        cases b with
        | equal => simp [Filter.deletes] at hb
        | greater => simp [Filter.deletes] at hb
        | delete m' =>
          have hn : ¬ SameName m m' := hn
          have hn' : ¬ SameName m' m := fun e => hn (sameName_symm e)
          have unpack : ∀ {m m' : Str} {o : Option Row}, ¬ SameName m' m → ∀ {i : Nat}, FirstCol m' h.names i → Through (.delete m :: .delete m' :: post) h r o → ∃ j, FirstCol m h.names j ∧
              Through post ⟨(h.names.eraseIdx j).eraseIdx (shiftCol j i), (h.types.eraseIdx j).eraseIdx (shiftCol j i)⟩
                ⟨r.timestamp, (r.values.eraseIdx j).eraseIdx (shiftCol j i)⟩ o := by
            intro m m' o hne i hi h1
            cases h1 with
            | dropped hp => cases hp
            | next hp hh ht =>
              cases hp with
              | @delete _ _ _ j hj hlt =>
                cases hh with
                | @delete _ _ j' hj' =>
                  obtain rfl := firstCol_unique hj hj'
                  have hk := firstCol_erase hi hj hne
                  cases ht with
                  | dropped hp => cases hp
                  | next hp hh ht =>
                    cases hp with
                    | @delete _ _ _ k hk1 _ =>
                      cases hh with
                      | @delete _ _ k' hk2 =>
                        obtain rfl := firstCol_unique hk hk1
                        obtain rfl := firstCol_unique hk hk2
                        exact ⟨j, hj, ht⟩
          have first : ∀ {m m' : Str} {o : Option Row}, Through (.delete m :: .delete m' :: post) h r o → ∃ j, FirstCol m h.names j := by
            intro m m' o h1
            cases h1 with
            | dropped hp => cases hp
            | next hp _ _ => cases hp with | delete hj _ => exact ⟨_, hj⟩
          obtain ⟨i, hi⟩ := first h1
          obtain ⟨j, hj⟩ := first h2
          obtain ⟨i', hi', t1⟩ := unpack hn' hj h1
          obtain rfl := firstCol_unique hi hi'
          obtain ⟨j', hj', t2⟩ := unpack hn hi h2
          obtain rfl := firstCol_unique hj hj'
          have hne : i ≠ j := firstCol_ne hi hj hn
          rw [erase_comm h.names i j hne, erase_comm h.types i j hne, erase_comm r.values i j hne] at t1
          exact through_det t1 t2

theorem swap_within {a b : Filter} (hi : Independent a b) {post : List Filter} : ∀ (pre : List Filter) {h : Header} {r : Row} {o o' : Option Row},
    Through (pre ++ a :: b :: post) h r o → Through (pre ++ b :: a :: post) h r o' → o = o'
  | [], _, _, _, _, h1, h2 => swap_here hi h1 h2
  | f :: pre, h, r, o, o', h1, h2 => by
    cases h1 with
    | dropped p1 =>
      cases h2 with
      | dropped => rfl
      | next p2 => cases passes_det p1 p2
    | next p1 a1 t1 =>
      cases h2 with
      | dropped p2 => cases passes_det p1 p2
      | next p2 a2 t2 =>
        have e := Option.some.inj (passes_det p1 p2)
        subst e
        have e := headerAfter_det a1 a2
        subst e
        exact swap_within hi pre t1 t2

/-- Row filters together: all keep the row, or one drops it. -/
theorem row_filters {fs : List Filter} (hf : ∀ f ∈ fs, f.deletes = false) {h : Header} {r : Row} {o : Option Row} (ht : Through fs h r o) :
    (o = some r ∧ ∀ f ∈ fs, Passes f h r (some r)) ∨ (o = none ∧ ∃ f ∈ fs, Passes f h r none) := by
  induction ht with
  | done => exact .inl ⟨rfl, by simp⟩
  | dropped hp => exact .inr ⟨rfl, _, List.mem_cons_self, hp⟩
  | next hp ha _ ih =>
    have h0 := hf _ List.mem_cons_self
    obtain rfl := row_filter_keeps h0 hp
    obtain rfl := row_filter_header h0 ha
    rcases ih (fun f h => hf f (List.mem_cons_of_mem _ h)) with ⟨e, h1⟩ | ⟨e, f, h1, h2⟩
    · refine .inl ⟨e, fun f hfm => ?_⟩
      rcases List.mem_cons.1 hfm with rfl | hfm
      · exact hp
      · exact h1 f hfm
    · exact .inr ⟨e, f, List.mem_cons_of_mem _ h1, h2⟩

theorem row_filters_same {fs fs' : List Filter} (hm : ∀ f, f ∈ fs ↔ f ∈ fs') (hf : ∀ f ∈ fs, f.deletes = false) {h : Header} {r : Row} {o o' : Option Row}
    (h1 : Through fs h r o) (h2 : Through fs' h r o') : o = o' := by
  have hf' : ∀ f ∈ fs', f.deletes = false := fun f h => hf f ((hm f).2 h)
  rcases row_filters hf h1 with ⟨rfl, k1⟩ | ⟨rfl, f, m1, k1⟩ <;> rcases row_filters hf' h2 with ⟨rfl, k2⟩ | ⟨rfl, f', m2, k2⟩
  · rfl
  · exact passes_det (k1 f' ((hm f').2 m2)) k2
  · exact passes_det k1 (k2 f ((hm f).1 m1))
  · rfl

/-- If every filter alone can judge the row, so can all of them together. -/
theorem row_filters_judge {fs : List Filter} (hf : ∀ f ∈ fs, f.deletes = false) {h : Header} {r : Row} (hj : ∀ f ∈ fs, ∃ o, Passes f h r o) :
    ∃ o, Through fs h r o := by
  induction fs with
  | nil => exact ⟨_, .done⟩
  | cons f fs ih =>
    obtain ⟨o, ho⟩ := hj f List.mem_cons_self
    cases o with
    | none => exact ⟨_, .dropped ho⟩
    | some r' =>
      have h0 := hf _ List.mem_cons_self
      obtain rfl := row_filter_keeps h0 ho
      obtain ⟨o, ht⟩ := ih (fun f h => hf f (List.mem_cons_of_mem _ h)) (fun f h => hj f (List.mem_cons_of_mem _ h))
      exact ⟨o, .next ho (row_filter_after h0 h) ht⟩

/-! ### Whole runs -/

theorem calls_fuel {range : TimestampRange} {sources : List Source} {n m : Nat} (hn : enough sources ≤ n) (hm : enough sources ≤ m) :
    calls range n sources = calls range m sources := by
  have key : ∀ k, calls range (enough sources + k) sources = calls range (enough sources) sources := by
    intro k
    unfold calls
    exact drive_mono _ _ range (enough sources) k sources [] (calls_ne_diverge range _ sources (Nat.le_refl _))
  obtain ⟨a, rfl⟩ := Nat.exists_eq_add_of_le hn
  obtain ⟨b, rfl⟩ := Nat.exists_eq_add_of_le hm
  rw [key, key]

/-- What C80 says about a run. -/
theorem filterRun_spec {fss : List (List Filter)} {headers : List Header} {range : TimestampRange} {sources : List Source} {g' : DGraph BSink} {res : Res Unit}
    (h : FilterRun fss headers range sources g' res) :
    (res = .ok () ↔ (calls range (enough sources) sources).2 = .ok () ∧
      ∀ p ∈ fed (calls range (enough sources) sources).1, ∃ fs h out, fss[p.1]? = some fs ∧ headers[p.1]? = some h ∧ Through fs h p.2 out) ∧
    (res = .ok () → ∃ outs : List (Option Row), outs.length = (fed (calls range (enough sources) sources).1).length ∧
      (∀ (j c : Nat) (r : Row), (fed (calls range (enough sources) sources).1)[j]? = some (c, r) →
        ∃ fs h out, fss[c]? = some fs ∧ headers[c]? = some h ∧ outs[j]? = some out ∧ Through fs h r out) ∧
      Wrote fss g' (outs.filterMap id)) := by
  obtain ⟨dbg, fuel, g, gfuel, dfuel, h1, h2, h3, h4⟩ := h.run
  rw [calls_fuel (Nat.le_refl _) (show enough sources ≤ dfuel from h3)]
  exact C80_filter_and_merge dbg fuel fss headers g h.nonempty h.perHeader h1 range gfuel dfuel sources h.perSource h2 g' res h4

theorem same_output {fss fss' : List (List Filter)} {headers : List Header} {range : TimestampRange} {sources : List Source} {g1 g2 : DGraph BSink}
    (h1 : FilterRun fss headers range sources g1 (.ok ())) (h2 : FilterRun fss' headers range sources g2 (.ok ()))
    (hsame : ∀ (c : Nat) fs fs' h, fss[c]? = some fs → fss'[c]? = some fs' → headers[c]? = some h → ∀ r o o', Through fs h r o → Through fs' h r o' → o = o') :
    ∃ rows, Wrote fss g1 rows ∧ Wrote fss' g2 rows := by
  obtain ⟨o1, l1, k1, w1⟩ := (filterRun_spec h1).2 rfl
  obtain ⟨o2, l2, k2, w2⟩ := (filterRun_spec h2).2 rfl
  have e : o1 = o2 := by
    apply List.ext_getElem?
    intro j
    by_cases hj : j < (fed (calls range (enough sources) sources).1).length
    · rcases hp : (fed (calls range (enough sources) sources).1)[j] with ⟨c, r⟩
      have hp' : (fed (calls range (enough sources) sources).1)[j]? = some (c, r) := by rw [List.getElem?_eq_getElem hj, hp]
      obtain ⟨fs, h, o, a1, a2, a3, a4⟩ := k1 j c r hp'
      obtain ⟨fs', h', o', b1, b2, b3, b4⟩ := k2 j c r hp'
      rw [a2] at b2
      obtain rfl := Option.some.inj b2
      rw [a3, b3, hsame c fs fs' h a1 b1 a2 r o o' a4 b4]
    · rw [List.getElem?_eq_none_iff.2 (by omega), List.getElem?_eq_none_iff.2 (by omega)]
  exact ⟨_, w1, e ▸ w2⟩

/-- **C106 (swapping).** Two neighbouring filters can be swapped, unless one deletes the column the other asks for: if the runs with both orders succeed, the output is the
same. -/
theorem C106_swap_partial (A B : List (List Filter)) (pre post : List Filter) (a b : Filter) (hi : Independent a b) (headers : List Header) (range : TimestampRange)
    (sources : List Source) (g1 g2 : DGraph BSink)
    (h1 : FilterRun (A ++ (pre ++ a :: b :: post) :: B) headers range sources g1 (.ok ()))
    (h2 : FilterRun (A ++ (pre ++ b :: a :: post) :: B) headers range sources g2 (.ok ())) :
    ∃ rows, Wrote (A ++ (pre ++ a :: b :: post) :: B) g1 rows ∧ Wrote (A ++ (pre ++ b :: a :: post) :: B) g2 rows := by
  apply same_output h1 h2
  intro c fs fs' h hc hc' _ r o o' t t'
  by_cases e : c = A.length
  · subst e
    simp at hc hc'
    subst hc; subst hc'
    exact swap_within hi pre t t'
  · have e2 : fs = fs' := by
      rw [List.getElem?_append] at hc hc'
      split at hc
      · rename_i hlt
        rw [if_pos hlt] at hc'
        rw [hc] at hc'; exact Option.some.inj hc'
      · rename_i hlt
        rw [if_neg hlt] at hc'
        obtain ⟨k, hk⟩ : ∃ k, c - A.length = k + 1 := ⟨c - A.length - 1, by omega⟩
        rw [hk, List.getElem?_cons_succ] at hc hc'
        rw [hc] at hc'; exact Option.some.inj hc'
    subst e2
    exact through_det t t'

/-- **C106 (row filters).** Only the set of the row filters of a chain matters, not their order nor how often each is given: if both runs succeed, the output is the same. -/
theorem C106_row_filters_partial (fss fss' : List (List Filter)) (headers : List Header) (range : TimestampRange) (sources : List Source) (g1 g2 : DGraph BSink)
    (hf : ∀ fs ∈ fss, ∀ f ∈ fs, f.deletes = false) (hsame : ∀ (c : Nat) fs fs', fss[c]? = some fs → fss'[c]? = some fs' → ∀ f, f ∈ fs ↔ f ∈ fs')
    (h1 : FilterRun fss headers range sources g1 (.ok ())) (h2 : FilterRun fss' headers range sources g2 (.ok ())) :
    ∃ rows, Wrote fss g1 rows ∧ Wrote fss' g2 rows :=
  same_output h1 h2 (fun c fs fs' _ hc hc' _ _ _ _ t t' => row_filters_same (hsame c fs fs' hc hc') (hf fs (List.mem_of_getElem? hc)) t t')

/-- **C106 (success).** If every row read can be judged by each filter of its chain on its own (its value can be compared), then the order does not decide about success either: the run
succeeds exactly if reading the inputs does. -/
theorem C106_any_order (fss : List (List Filter)) (headers : List Header) (range : TimestampRange) (sources : List Source) (g' : DGraph BSink) (res : Res Unit)
    (hf : ∀ fs ∈ fss, ∀ f ∈ fs, f.deletes = false)
    (hj : ∀ p ∈ fed (calls range (enough sources) sources).1, ∀ fs h, fss[p.1]? = some fs → headers[p.1]? = some h → ∀ f ∈ fs, ∃ o, Passes f h p.2 o)
    (hrun : FilterRun fss headers range sources g' res) : res = .ok () ↔ (calls range (enough sources) sources).2 = .ok () := by
  rw [(filterRun_spec hrun).1]
  refine ⟨fun h => h.1, fun h => ⟨h, fun p hp => ?_⟩⟩
  have hlt : p.1 < fss.length := by
    obtain ⟨x, hx, hxe⟩ : ∃ x ∈ (calls range (enough sources) sources).1, callChain x = p.1 := by
      obtain ⟨x, hx, hxe⟩ := List.mem_filterMap.1 hp
      refine ⟨x, hx, ?_⟩
      cases x with
      | feed c r => simp [Call.fed?] at hxe; rw [← hxe]; rfl
      | flush c => simp [Call.fed?] at hxe
    have := calls_chains range (enough sources) sources x hx
    rw [hxe] at this
    have e := hrun.perSource
    omega
  have hlt' : p.1 < headers.length := by have e := hrun.perHeader; omega
  have hc := List.getElem?_eq_getElem hlt
  have hc' := List.getElem?_eq_getElem hlt'
  obtain ⟨o, ho⟩ := row_filters_judge (hf _ (List.mem_of_getElem? hc)) (hj p hp _ _ hc hc')
  exact ⟨_, _, o, hc, hc', ho⟩

/-! ### The order decides whether the run succeeds -/

/-- **C106, stated in full**: swapping neighbouring filters that do not delete each other's column changes neither success nor output. -/
def C106_full : Prop := ∀ (A B : List (List Filter)) (pre post : List Filter) (a b : Filter), Independent a b →
  ∀ (headers : List Header) (range : TimestampRange) (sources : List Source) (g1 g2 : DGraph BSink) (res : Res Unit),
    FilterRun (A ++ (pre ++ a :: b :: post) :: B) headers range sources g1 (.ok ()) →
    FilterRun (A ++ (pre ++ b :: a :: post) :: B) headers range sources g2 res →
    res = .ok () ∧ ∃ rows, Wrote (A ++ (pre ++ a :: b :: post) :: B) g1 rows ∧ Wrote (A ++ (pre ++ b :: a :: post) :: B) g2 rows

/-- Rows of two kinds: those of kind 1 have a size, the other one has none. -/
def kindRows : Source := ⟨[⟨1, [.int 1, .int 9]⟩, ⟨2, [.int 2, .none]⟩, ⟨3, [.int 1, .int 4]⟩], .eof⟩
def kindHeader : Header := ⟨["kind".toList, "size".toList], [.int, .int]⟩
def isOne : Filter := .equal "kind".toList (.int 1)
def isBig : Filter := .greater "size".toList (.int 5)

/-- A run of the one-input graph, for concrete filters. -/
theorem filterRun_one (fs : List Filter) (gd : DGraph BSink) (hs : processHeader true .mergeJoin 9 (filterMergeChains [fs]) [kindHeader] = .ok gd)
    (hl : fs.length + 4 ≤ 9) : FilterRun [fs] [kindHeader] .all [kindRows] (driveGraph builtinOps .all 9 9 [kindRows] gd).1 (driveGraph builtinOps .all 9 9 [kindRows] gd).2 :=
  ⟨by simp, rfl, rfl, true, 9, gd, 9, 9, hs, by simpa using hl, by decide, rfl⟩

theorem isOne_run : FilterRun [[isOne, isBig]] [kindHeader] .all [kindRows]
    (driveGraph builtinOps .all 9 9 [kindRows] ⟨[[.sink (.equal 0 (.int 1)), .sink (.greater 1 (.int 5)), .merge 1], [.sink .mergeJoin, .sink (.writer [])]], []⟩).1 (.ok ()) :=
  filterRun_one [isOne, isBig] _ rfl (by decide)

theorem isBig_run : FilterRun [[isBig, isOne]] [kindHeader] .all [kindRows]
    (driveGraph builtinOps .all 9 9 [kindRows] ⟨[[.sink (.greater 1 (.int 5)), .sink (.equal 0 (.int 1)), .merge 1], [.sink .mergeJoin, .sink (.writer [])]], []⟩).1 .panic :=
  filterRun_one [isBig, isOne] _ rfl (by decide)

/-- **C106 is false**: asking for the kind first protects the comparison of the sizes; the other way round the row without size ends the process. -/
theorem C106_counterexample : ¬ C106_full := by
  intro h
  have := (h [] [] [] [] isOne isBig (by intro e; simp [isOne, isBig, Filter.deletes] at e) _ _ _ _ _ _ isOne_run isBig_run).1
  cases this

/-! ### Cases -/

/-- Both orders of an equality filter and a deletion of another column succeed, with the same rows. -/
example : ∃ g1 g2, FilterRun ([] ++ ([] ++ isOne :: .delete "size".toList :: []) :: []) [kindHeader] .all [kindRows] g1 (.ok ()) ∧
    FilterRun ([] ++ ([] ++ .delete "size".toList :: isOne :: []) :: []) [kindHeader] .all [kindRows] g2 (.ok ()) ∧
    Wrote [[isOne, .delete "size".toList]] g1 [⟨1, [.int 1]⟩, ⟨3, [.int 1]⟩] ∧ Independent isOne (.delete "size".toList) :=
  ⟨_, _, filterRun_one [isOne, .delete "size".toList] ⟨[[.sink (.equal 0 (.int 1)), .sink (.delete 1), .merge 1], [.sink .mergeJoin, .sink (.writer [])]], []⟩ rfl (by decide),
    filterRun_one [.delete "size".toList, isOne] ⟨[[.sink (.delete 1), .sink (.equal 0 (.int 1)), .merge 1], [.sink .mergeJoin, .sink (.writer [])]], []⟩ rfl (by decide),
    by unfold Wrote; decide +kernel, by intro _ h; rw [sameName_iff] at h; revert h; decide +kernel⟩

/-- Row filters given in another order and twice. -/
example : ∃ g1 g2, FilterRun [[isOne, isBig]] [kindHeader] .all [kindRows] g1 (.ok ()) ∧ FilterRun [[isOne, isBig, isOne]] [kindHeader] .all [kindRows] g2 (.ok ()) ∧
    Wrote [[isOne, isBig, isOne]] g2 [⟨1, [.int 1, .int 9]⟩] :=
  ⟨_, _, isOne_run, filterRun_one [isOne, isBig, isOne]
    ⟨[[.sink (.equal 0 (.int 1)), .sink (.greater 1 (.int 5)), .sink (.equal 0 (.int 1)), .merge 1], [.sink .mergeJoin, .sink (.writer [])]], []⟩ rfl (by decide),
    by unfold Wrote; decide +kernel⟩

/-- The hypothesis of `C106_any_order` is met by rows that all have a size. -/
example : ∀ f ∈ [isOne, isBig], ∃ o, Passes f kindHeader ⟨1, [.int 1, .int 9]⟩ o := by
  have h0 : FirstCol "kind".toList kindHeader.names 0 := ⟨⟨_, rfl, by rw [sameName_iff]; decide +kernel⟩, by intro j m hj; omega⟩
  have h1 : FirstCol "size".toList kindHeader.names 1 := ⟨⟨_, rfl, by rw [sameName_iff]; decide +kernel⟩, by
    intro j m hj hm
    obtain rfl : j = 0 := by omega
    obtain rfl : "kind".toList = m := Option.some.inj hm
    rw [sameName_iff]; decide +kernel⟩
  intro f hf
  rcases List.mem_cons.1 hf with rfl | hf
  · exact ⟨_, .equalKeep h0 rfl (.int 1)⟩
  · obtain rfl : f = isBig := by simpa using hf
    exact ⟨_, .greaterKeep h1 rfl (.int (by decide))⟩

end Chopper.Props
