import Verif.Proofs.Streaming
import Verif.Props.Driver

/-!
# C82: streaming - inputs that are endless or not yet complete

An endless input is known only through what it has delivered so far. The input that has delivered `rows` and is being asked for the next row
is represented by the source `⟨rows, .fail e⟩`: its run ends exactly when that row is asked for.
-/
namespace Chopper.Props
open Chopper Spec

theorem pointwise_of_get {P : Source → Source → Prop} : ∀ {ss ss' : List Source}, ss.length = ss'.length →
    (∀ (k : Nat) s s', ss[k]? = some s → ss'[k]? = some s' → P s s') → Pointwise P ss ss'
  | [], [], _, _ => .nil
  | [], _ :: _, h, _ => by simp at h
  | _ :: _, [], h, _ => by simp at h
  | s :: ss, s' :: ss', h, hp => .cons (hp 0 s s' rfl rfl) (pointwise_of_get (by simpa using h) (fun k a b ha hb => hp (k + 1) a b (by simpa using ha) (by simpa using hb)))

/-- **C82.** What the driver does before it asks for a row that is not there yet is independent of that row and everything after it: if
some inputs `sources` stop (fail) after some rows and the inputs `sources'` deliver the same rows and then anything else, the calls
made with `sources` are the first calls made with `sources'`. -/
theorem C82_streaming (range : TimestampRange) (fuel : Nat) (sources sources' : List Source) (hl : sources.length = sources'.length)
    (hcut : ∀ (k : Nat) s s', sources[k]? = some s → sources'[k]? = some s' → s = s' ∨ (s.ending ≠ .eof ∧ ∃ more, s'.rows = s.rows ++ more)) :
    (calls range fuel sources).1 <+: (calls range fuel sources').1 :=
  calls_cut range fuel (pointwise_of_get hl hcut)

/-- Two inputs; of the first only two rows are known. Three rows are processed, and these come first whatever follows. -/
example : (calls .all 9 [⟨[⟨1, []⟩, ⟨4, []⟩], .fail .csv⟩, ⟨[⟨2, []⟩, ⟨7, []⟩], .eof⟩]).1 =
      [.feed 1 ⟨1, []⟩, .feed 0 ⟨2, []⟩, .feed 1 ⟨4, []⟩] ∧
    (calls .all 9 [⟨[⟨1, []⟩, ⟨4, []⟩, ⟨3, []⟩], .eof⟩, ⟨[⟨2, []⟩, ⟨7, []⟩], .eof⟩]).1 =
      [.feed 1 ⟨1, []⟩, .feed 0 ⟨2, []⟩, .feed 1 ⟨4, []⟩, .feed 1 ⟨3, []⟩, .flush 1, .feed 0 ⟨7, []⟩, .flush 0] := by decide +kernel

/-- The first `n` rows of an endless input. -/
def firstRows (f : Nat → Row) (n : Nat) : List Row := (List.range n).map f

/-- **C82 (no reading ahead).** Among inputs that all deliver a selected row, let one (input `k`) have delivered `rows` so far, the others
being complete. When the driver asks it for the next row (the run ends with `e`), every selected row delivered so far has been processed. -/
theorem C82_no_lookahead (range : TimestampRange) (fuel : Nat) (sources : List Source) (hne : ∀ s ∈ sources, selected range s.rows ≠ [])
    (hf : enough sources ≤ fuel) (k : Nat) (rows : List Row) (e : Err) (hk : sources[k]? = some ⟨rows, .fail e⟩)
    (hothers : ∀ (j : Nat) s, j ≠ k → sources[j]? = some s → endingWithin range s = .eof) :
    ((calls range fuel sources).2 = .ok () ∨ (calls range fuel sources).2 = .err e) ∧
    ((calls range fuel sources).2 = .err e → fedTo (sources.length - 1 - k) (calls range fuel sources).1 = selected range rows) := by
  obtain ⟨h1, h2⟩ := C23_source_failure range fuel sources hne hf
  have hwhich : ∀ x, (calls range fuel sources).2 = .err x → x = e ∧ fedTo (sources.length - 1 - k) (calls range fuel sources).1 = selected range rows := by
    intro x hx
    obtain ⟨j, s, e1, e2, e3⟩ := h2 x hx
    by_cases hj : j = k
    · subst hj
      rw [hk] at e1; cases e1
      refine ⟨?_, e3⟩
      unfold endingWithin at e2
      split at e2
      · cases e2; rfl
      · cases e2
    · rw [hothers j s hj e1] at e2; cases e2
  refine ⟨?_, fun h => (hwhich e h).2⟩
  have hr := calls_run range fuel sources hne (by have := totalSelected_le range sources; unfold enough at hf; omega)
  rcases hres : (calls range fuel sources).2 with _ | x | _ | _
  · exact .inl rfl
  · right; rw [(hwhich x hres).1]
  · exfalso
    rw [hres] at hr
    have hp : ∀ {as cs out}, Run as cs out → out = .panic → ∃ a ∈ as, a.ending = .crash := by
      intro as cs out h
      induction h with
      | nil => intro h; cases h
      | next _ _ ih =>
        intro h
        obtain ⟨a, ha, hc⟩ := ih h
        simp only [List.mem_append, List.mem_cons] at ha
        rcases ha with ha | ha | ha
        · exact ⟨a, by simp [ha], hc⟩
        · subst ha; exact ⟨_, List.mem_append_right _ (.head _), hc⟩
        · exact ⟨a, by simp [ha], hc⟩
      | done _ _ ih =>
        intro h
        obtain ⟨a, ha, hc⟩ := ih h
        simp only [List.mem_append] at ha
        exact ⟨a, by rcases ha with ha | ha <;> simp [ha], hc⟩
      | fail _ => intro h; cases h
      | crash _ => intro _; exact ⟨_, List.mem_append_right _ (.head _), rfl⟩
    obtain ⟨a, ha, hc⟩ := hp hr rfl
    obtain ⟨j, s, e1, _, _, e4⟩ := mem_absFrom range _ _ _ ha
    rw [hc] at e4
    have hjl : j < sources.length := by have := (List.getElem?_eq_some_iff.1 e1).1; simpa using this
    rw [List.getElem?_reverse hjl] at e1
    by_cases hj : sources.length - 1 - j = k
    · rw [hj, hk] at e1; cases e1
      unfold endingWithin at e4
      split at e4 <;> cases e4
    · rw [hothers _ s hj e1] at e4; cases e4
  · exact absurd hres (run_ne_diverge hr)

/-- **C82 (an endless input).** When an endless input `f` has delivered `n` rows, all before the end of the range, one of them selected, and the
driver asks for the next, it has processed exactly the selected ones of these rows, in order - for every `n`. -/
theorem C82_endless (range : TimestampRange) (f : Nat → Row) (n : Nat) (fuel : Nat) (hf : n + 1 ≤ fuel) (e : Err)
    (hbefore : ∀ i, i < n → beforeEnd range (f i).timestamp = true) (hsel : ∃ i, i < n ∧ notBefore range (f i).timestamp = true) :
    (calls range fuel [⟨firstRows f n, .fail e⟩]).2 = .err e ∧
    fedTo 0 (calls range fuel [⟨firstRows f n, .fail e⟩]).1 = (firstRows f n).filter (fun r => notBefore range r.timestamp) := by
  have hall : (firstRows f n).all (fun r => beforeEnd range r.timestamp) = true := by
    rw [List.all_eq_true]
    intro r hr
    simp only [firstRows, List.mem_map, List.mem_range] at hr
    obtain ⟨i, hi, rfl⟩ := hr
    exact hbefore i hi
  have hselq : selected range (firstRows f n) = (firstRows f n).filter (fun r => notBefore range r.timestamp) := by
    unfold selected
    congr 1
    have : ∀ l : List Row, (∀ r ∈ l, beforeEnd range r.timestamp = true) → l.takeWhile (fun r => beforeEnd range r.timestamp) = l := by
      intro l
      induction l with
      | nil => intro _; rfl
      | cons r l ih => intro h; rw [List.takeWhile_cons, if_pos (h r (.head _)), ih (fun r hr => h r (.tail _ hr))]
    exact this _ (fun r hr => List.all_eq_true.1 hall r hr)
  have hne : selected range (firstRows f n) ≠ [] := by
    rw [hselq]
    obtain ⟨i, hi, hb⟩ := hsel
    intro h
    have : f i ∈ (firstRows f n).filter (fun r => notBefore range r.timestamp) := by
      rw [List.mem_filter]; exact ⟨List.mem_map.2 ⟨i, List.mem_range.2 hi, rfl⟩, hb⟩
    rw [h] at this; simp at this
  have h := C82_no_lookahead range fuel [⟨firstRows f n, .fail e⟩] (by simpa using hne)
    (by simp only [enough, totalRows, List.map_cons, List.map_nil, List.sum_cons, List.sum_nil, List.length_cons, List.length_nil, firstRows, List.length_map, List.length_range]; omega)
    0 _ e rfl (by intro j s hj hs; cases j with | zero => exact absurd rfl hj | succ j => simp at hs)
  have hnot : (calls range fuel [⟨firstRows f n, .fail e⟩]).2 ≠ .ok () := by
    intro hok
    have := ((C23_source_failure range fuel [⟨firstRows f n, .fail e⟩] (by simpa using hne)
      (by simp only [enough, totalRows, List.map_cons, List.map_nil, List.sum_cons, List.sum_nil, List.length_cons, List.length_nil, firstRows, List.length_map, List.length_range]; omega)).1.1 hok) _ (.head _)
    unfold endingWithin at this
    rw [hall] at this
    simp at this
  have herr := h.1.resolve_left hnot
  refine ⟨herr, ?_⟩
  rw [← hselq]
  exact h.2 herr

/-- A counter as endless input, from time 2 on: of the first five rows three have been processed. -/
example : (calls ⟨some 2, none⟩ 6 [⟨firstRows (fun n => ⟨BitVec.ofNat 64 n, []⟩) 5, .fail .csv⟩]) =
    ([.feed 0 ⟨2, []⟩, .feed 0 ⟨3, []⟩, .feed 0 ⟨4, []⟩], .err .csv) := by decide +kernel

/-- **C82 (the end of the range ends the run).** Rows behind the first row at or after the end of the range are not looked at: inputs that
agree up to and including such a row give the same calls and the same outcome, whatever follows and however the input ends. -/
theorem C82_end_of_range (range : TimestampRange) (fuel : Nat) (sources sources' : List Source) (hl : sources.length = sources'.length)
    (hsame : ∀ (k : Nat) s s', sources[k]? = some s → sources'[k]? = some s' →
      s = s' ∨ ∃ pre r more more', s.rows = pre ++ r :: more ∧ s'.rows = pre ++ r :: more' ∧ beforeEnd range r.timestamp = false) :
    calls range fuel sources = calls range fuel sources' :=
  calls_sameEnd range fuel (pointwise_of_get hl hsame)

/-- **C82 (endless inputs with an end time).** If an endless input delivers a selected row and at some point `m` a row at or after the end of the
range, the run over it ends normally after row `m`, however many rows more there are. -/
theorem C82_endless_ends (range : TimestampRange) (f : Nat → Row) (m n : Nat) (hmn : m < n) (hend : beforeEnd range (f m).timestamp = false)
    (hsel : selected range (firstRows f m) ≠ []) (e : Ending) (fuel : Nat) (hf : m + 2 ≤ fuel) :
    (calls range fuel [⟨firstRows f n, e⟩]).2 = .ok () ∧ fedTo 0 (calls range fuel [⟨firstRows f n, e⟩]).1 = selected range (firstRows f m) := by
  have hsplit : firstRows f n = firstRows f m ++ f m :: (firstRows f n).drop (m + 1) := by
    have h1 : firstRows f m ++ [f m] = (firstRows f n).take (m + 1) := by
      unfold firstRows
      rw [← List.map_take, List.take_range, Nat.min_eq_left (by omega), List.range_succ, List.map_append]
      rfl
    have h2 := (List.take_append_drop (m + 1) (firstRows f n)).symm
    rw [← h1] at h2
    simpa using h2
  have heq := C82_end_of_range range fuel [⟨firstRows f n, e⟩] [⟨firstRows f m ++ [f m], .eof⟩] rfl (by
    intro k s s' h1 h2
    cases k with
    | succ k => simp at h1
    | zero =>
      simp only [List.getElem?_cons_zero, Option.some.injEq] at h1 h2
      subst h1 h2
      exact .inr ⟨firstRows f m, f m, _, [], hsplit, rfl, hend⟩)
  rw [heq]
  have hs : selected range (firstRows f m ++ [f m]) = selected range (firstRows f m) := by
    unfold selected
    congr 1
    rw [List.takeWhile_append]
    split
    · rename_i h
      rw [List.takeWhile_cons, if_neg (by simp [hend])]
      have := (List.takeWhile_prefix (l := firstRows f m) (fun r => beforeEnd range r.timestamp)).eq_of_length h
      rw [this]; simp
    · rfl
  have hne : ∀ s ∈ [(⟨firstRows f m ++ [f m], .eof⟩ : Source)], selected range s.rows ≠ [] := by
    intro s hs'
    simp only [List.mem_singleton] at hs'
    subst hs'
    simp only
    rw [hs]; exact hsel
  have hok : (calls range fuel [⟨firstRows f m ++ [f m], .eof⟩]).2 = .ok () := by
    refine (C23_source_failure range fuel _ hne ?_).1.2 ?_
    · simp [enough, totalRows, firstRows]; omega
    · intro s hs'
      simp only [List.mem_singleton] at hs'
      subst hs'
      unfold endingWithin
      split <;> rfl
  refine ⟨hok, ?_⟩
  have := (C18_exactly_once range fuel [⟨firstRows f m ++ [f m], .eof⟩] (G := List Call) (fun c r l => (l ++ [Call.feed c r], .ok ()))
    (fun c l => (l ++ [Call.flush c], .ok ())) [] hok).1 0 _ rfl
  simp only at this
  rw [← hs]
  exact this

/-- A counter as endless input, between times 2 and 4. -/
example : beforeEnd ⟨some 2, some 4⟩ ((fun n => (⟨BitVec.ofNat 64 n, []⟩ : Row)) 4).timestamp = false ∧
    (calls ⟨some 2, some 4⟩ 6 [⟨firstRows (fun n => ⟨BitVec.ofNat 64 n, []⟩) 50, .crash⟩]) =
      ([.feed 0 ⟨2, []⟩, .feed 0 ⟨3, []⟩, .flush 0], .ok ()) := by decide +kernel

end Chopper.Props
