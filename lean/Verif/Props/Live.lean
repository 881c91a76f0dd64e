import Verif.Props.Driver
import Verif.Props.Lag
import Verif.Proofs.Live

/-!
# C131, C132: endless inputs
-/
namespace Chopper.Props
open Chopper Spec

/-- The first `m` rows of each of these inputs, as inputs that end there. -/
def beginnings (m : Nat) (inputs : List (Nat → Row)) : List Source := inputs.map fun row => ⟨(List.range m).map row, .eof⟩

/-- Inputs that never end. -/
def endless (inputs : List (Nat → Row)) : List Endless := inputs.map fun row => ⟨row, 0⟩

/-- The calls a run over endless inputs makes in `fuel` rounds. -/
def endlessCalls (range : TimestampRange) (sfuel fuel : Nat) (inputs : List (Nat → Row)) : List Call × Res Unit :=
  liveDrive Endless.next (fun c r l => (l ++ [.feed c r], .ok ())) (fun c l => (l ++ [.flush c], .ok ())) range sfuel fuel (endless inputs) []

/-- **C131 (lists).** Sources that are lists of rows behave, as sources of any kind, exactly as in the rest of this development. -/
theorem C131_lists {G : Type} (process : ChainId → Row → G → G × Res Unit) (flush : ChainId → G → G × Res Unit) (range : TimestampRange) (sfuel fuel : Nat) (sources : List Source) (g : G)
    (h : ∀ s ∈ sources, s.rows.length < sfuel) :
    liveDrive (fun s _ => s.nextRow) process flush range sfuel fuel sources g = drive process flush range fuel sources g := by
  rcases live_drive (ok := fun _ => True) process flush range sfuel fuel g (agreesAll_list _ _ sources) trivial (okAfter_true _ _ _ _) with h1 | ⟨_, ⟨r, hr, hl⟩, _⟩
  · exact h1
  · exact absurd (h r hr) (by omega)

example : (∀ s ∈ [(⟨[⟨5, []⟩, ⟨1, []⟩], .fail .csv⟩ : Source), ⟨[⟨2, []⟩], .eof⟩], s.rows.length < 3) ∧
    (liveDrive (G := Nat) (fun (s : Source) _ => s.nextRow) (fun _ _ n => (n + 1, .ok ())) (fun _ n => (n, .ok ())) .all 3 9
      [⟨[⟨5, []⟩, ⟨1, []⟩], .fail .csv⟩, ⟨[⟨2, []⟩], .eof⟩] 0) = (3, .err .csv) := by decide +kernel

/-- **C131 (moments).** Any graph, any endless inputs. At every moment of a run the graph with all its files is in the state it has at some moment of a run over long enough beginnings of
the inputs: the run only depends on what it has read, and everything proved about the moments of runs over finite inputs holds for endless ones. -/
theorem C131_moment {S : Type} (ops : SinkOps S) (range : TimestampRange) (gfuel sfuel fuel : Nat) (inputs : List (Nat → Row)) (g : DGraph S) (m F : Nat)
    (hm : fuel * sfuel + sfuel ≤ m) (hF : fuel ≤ F) :
    ∃ k, (liveGraph Endless.next ops range gfuel sfuel fuel (endless inputs) g).1 = after ops gfuel (calls range F (beginnings m inputs)).1 k g := by
  obtain ⟨d, rfl⟩ := Nat.exists_eq_add_of_le hF
  have hmono := calls_prefix_mono range fuel d (beginnings m inputs)
  have key : ∀ cs, cs <+: (calls range fuel (beginnings m inputs)).1 →
      (calls range (fuel + d) (beginnings m inputs)).1.take cs.length = cs := fun cs h => List.prefix_iff_eq_take.1 (h.trans hmono) |>.symm
  unfold liveGraph after
  rcases live_drive (ok := fun _ => True) (fun c r g => processRow ops gfuel c 0 r g) (fun c g => flushFrom ops gfuel c 0 g) range sfuel fuel g
    (agreesAll_endless _ _ m hm inputs) trivial (okAfter_true _ _ _ _) with h1 | ⟨_, _, cs, h1, h2⟩
  · refine ⟨(calls range fuel (beginnings m inputs)).1.length, ?_⟩
    rw [key _ (List.prefix_refl _), ← perform_fst _ _ _ (calls range fuel (beginnings m inputs)).2, ← drive_perform]
    exact congrArg Prod.fst h1
  · exact ⟨cs.length, by rw [key cs h1]; exact h2⟩

/-- **C131 (files).** In particular, at every moment of a run over endless inputs every output file whose device does not fail holds the text of its header and of the rows handed to the
output so far, but for at most 8192 bytes. -/
theorem C131_files (e : SinkEnv) (range : TimestampRange) (gfuel sfuel fuel : Nat) (inputs : List (Nat → Row)) (g : DGraph LibSink) (t : Place) (s : CliSink) (d : Device)
    (text : List Row → List Byte × Res Unit) (R : Nat → List (List Place)) (hs : sinkAt g.chains t.1 t.2 = some (.out s)) (hw : Writes e s d text)
    (hr : ∀ c, c < inputs.length → Routes g.chains t c 0 (R c)) (hd : ∀ kind, WriteStep.fail kind ∉ d.sched) :
    ∃ s' now rest ev, sinkAt (liveGraph Endless.next (libOps e) range gfuel sfuel fuel (endless inputs) g).1.chains t.1 t.2 = some (.out s') ∧ deviceNow s' = some now ∧
      (liveGraph Endless.next (libOps e) range gfuel sfuel fuel (endless inputs) g).1.log = g.log ++ ev ∧
      now.taken ++ rest = d.taken ++ (text (written t.1 t.2 ev)).1 ∧ rest.length ≤ 8192 := by
  obtain ⟨k, hk⟩ := C131_moment (libOps e) range gfuel sfuel fuel inputs g _ fuel (Nat.le_refl _) (Nat.le_refl _)
  rw [hk]
  obtain ⟨s', now, rest, ev, h1, h2, h3, _, h4, h5⟩ := C129_lag e range gfuel fuel (beginnings _ inputs) g t s d text R hs hw
    (by simpa [beginnings] using hr) hd k
  exact ⟨s', now, rest, ev, h1, h2, h3, h4, h5⟩

theorem endless_prefix (range : TimestampRange) (sfuel fuel : Nat) (inputs : List (Nat → Row)) (m F : Nat) (hm : fuel * sfuel + sfuel ≤ m) (hF : fuel ≤ F) :
    (endlessCalls range sfuel fuel inputs).1 <+: (calls range F (beginnings m inputs)).1 := by
  obtain ⟨d, rfl⟩ := Nat.exists_eq_add_of_le hF
  refine List.IsPrefix.trans ?_ (calls_prefix_mono range fuel d (beginnings m inputs))
  unfold endlessCalls
  rcases live_drive (ok := fun _ => True) (fun c r l => (l ++ [Call.feed c r], .ok ())) (fun c l => (l ++ [.flush c], .ok ())) range sfuel fuel []
    (agreesAll_endless _ _ m hm inputs) trivial (okAfter_true _ _ _ _) with h1 | ⟨_, _, cs, h1, h2⟩
  · rw [show endless inputs = inputs.map fun row => ⟨row, 0⟩ from rfl, h1]; exact List.prefix_refl _
  · rw [show endless inputs = inputs.map fun row => ⟨row, 0⟩ from rfl, h2, perform_log]; exact h1

theorem beginnings_ok (F m : Nat) (inputs : List (Nat → Row)) (hm : 0 < m) (hF : enough (beginnings m inputs) ≤ F) : (calls .all F (beginnings m inputs)).2 = .ok () := by
  have hne : ∀ s ∈ beginnings m inputs, selected .all s.rows ≠ [] := by
    intro s hs
    obtain ⟨row, _, rfl⟩ := List.mem_map.1 hs
    obtain ⟨m, rfl⟩ := Nat.exists_eq_add_of_lt hm
    simp [selected, notBefore, beforeEnd, TimestampRange.all, List.range_succ_eq_map]
  have hrun := calls_run .all F (beginnings m inputs) hne (by have := totalSelected_le .all (beginnings m inputs); unfold enough at hF; omega)
  refine (run_ok_iff hrun).2 fun a ha => ?_
  obtain ⟨k, s, h1, _, _, h2⟩ := mem_absFrom _ _ _ _ ha
  have hs : s ∈ beginnings m inputs := by simpa using List.mem_of_getElem? h1
  obtain ⟨row, _, rfl⟩ := List.mem_map.1 hs
  rw [h2]
  unfold endingWithin
  split <;> rfl

theorem fed_prefix {a b : List Call} (h : a <+: b) : fed a <+: fed b := by
  obtain ⟨u, rfl⟩ := h
  exact ⟨fed u, by simp [fed]⟩

theorem fedTo_prefix (c : ChainId) {a b : List Call} (h : a <+: b) : fedTo c a <+: fedTo c b := by
  obtain ⟨u, rfl⟩ := h
  exact ⟨fedTo c u, by simp [fedTo, fed]⟩

theorem selected_all (rows : List Row) : selected .all rows = rows := by
  simp [selected, notBefore, beforeEnd, TimestampRange.all]
  induction rows with
  | nil => rfl
  | cons r rs ih => simp [ih]

/-- **C131 (order).** If the rows of every input come in time order, then so do, at every moment, the rows processed so far. -/
theorem C131_order (range : TimestampRange) (sfuel fuel : Nat) (inputs : List (Nat → Row)) (hs : ∀ row ∈ inputs, ∀ a b, a ≤ b → (row a).timestamp ≤ (row b).timestamp) :
    Sorted ((fed (endlessCalls range sfuel fuel inputs).1).map (·.2)) := by
  have h1 := endless_prefix range sfuel fuel inputs _ (fuel + enough (beginnings (fuel * sfuel + sfuel) inputs)) (Nat.le_refl _) (by omega)
  have h2 := C17_sorted range (fuel + enough (beginnings (fuel * sfuel + sfuel) inputs)) (beginnings (fuel * sfuel + sfuel) inputs) (by
    intro s hs'
    obtain ⟨row, hrow, rfl⟩ := List.mem_map.1 hs'
    unfold Sorted
    rw [List.pairwise_map]
    exact List.Pairwise.imp (fun hab => hs row hrow _ _ (Nat.le_of_lt hab)) List.pairwise_lt_range) (by omega)
  exact h2.sublist ((fed_prefix h1).sublist.map _)

/-- **C131 (every row once).** At every moment the rows processed of an input are its first rows, each once and in order; without a range nothing is left out. -/
theorem C131_first_rows (sfuel fuel : Nat) (inputs : List (Nat → Row)) (i : Nat) (row : Nat → Row) (hi : inputs[i]? = some row) :
    ∃ p, fedTo (inputs.length - 1 - i) (endlessCalls .all sfuel fuel inputs).1 = (List.range p).map row := by
  have hm : fuel * sfuel + sfuel ≤ fuel * sfuel + sfuel + 1 := by omega
  generalize fuel * sfuel + sfuel + 1 = m at hm
  have h1 := endless_prefix .all sfuel fuel inputs (m + 1) (fuel + enough (beginnings (m + 1) inputs)) (by omega) (by omega)
  have h2 := (C18_exactly_once (G := List Call) .all (fuel + enough (beginnings (m + 1) inputs)) (beginnings (m + 1) inputs) _ _ []
    (beginnings_ok _ (m + 1) inputs (by omega) (by omega))).1 i ⟨(List.range (m + 1)).map row, .eof⟩ (by simp [beginnings, hi])
  have h3 := fedTo_prefix (inputs.length - 1 - i) h1
  rw [show (beginnings (m + 1) inputs).length = inputs.length by simp [beginnings]] at h2
  rw [h2, selected_all] at h3
  have h4 := List.prefix_iff_eq_take.1 h3
  rw [h4, ← List.map_take, List.take_range]
  exact ⟨_, rfl⟩

/-- An endless input: three rows at time 1, then rows at time 5 for ever. -/
def slowStart : Nat → Row := fun n => ⟨if n < 3 then 1 else 5, [.byte (if n < 3 then 0 else 1)]⟩

/-- An endless input of rows at time 2. -/
def steady : Nat → Row := fun _ => ⟨2, [.byte 9]⟩

theorem slowStart_sorted : ∀ a b, a ≤ b → (slowStart a).timestamp ≤ (slowStart b).timestamp := by
  intro a b h
  unfold slowStart
  by_cases h1 : a < 3 <;> by_cases h2 : b < 3 <;> simp [h1, h2]
  omega

theorem steady_sorted : ∀ a b, a ≤ b → (steady a).timestamp ≤ (steady b).timestamp := fun _ _ _ => by simp [steady]

example : (∀ row ∈ [slowStart, steady], ∀ a b, a ≤ b → (row a).timestamp ≤ (row b).timestamp) ∧ [slowStart, steady][1]? = some steady ∧
    (fed (endlessCalls .all 1 6 [slowStart, steady]).1).map (fun p => (p.1, p.2.timestamp)) = [(1, 1), (1, 1), (1, 1), (0, 2), (0, 2), (0, 2)] := by
  refine ⟨?_, rfl, by decide +kernel⟩
  intro row hrow
  rcases List.mem_cons.1 hrow with rfl | hrow
  · exact slowStart_sorted
  · rw [List.mem_singleton.1 hrow]; exact steady_sorted

/-! ### Every row gets its turn -/

theorem liveMin_lt {σ : Type} : ∀ (bs : List (LiveBuffer σ)) (idx : Nat) (best : Nanos) (j : Nat), idx < j → liveMinFrom idx best j bs < j + bs.length
  | [], idx, _, j, h => by simpa [liveMinFrom] using h
  | b :: bs, idx, best, j, h => by
    rw [liveMinFrom, List.length_cons]
    split
    · have := liveMin_lt bs j b.timestamp (j + 1) (by omega); omega
    · have := liveMin_lt bs idx best (j + 1) (by omega); omega

theorem liveIndex_lt {σ : Type} {bs : List (LiveBuffer σ)} (h : bs ≠ []) : ∃ i b, liveNextIndex bs = some i ∧ bs[i]? = some b := by
  cases bs with
  | nil => exact absurd rfl h
  | cons b bs =>
    have := liveMin_lt bs 0 b.timestamp 1 (by omega)
    exact ⟨_, _, rfl, List.getElem?_eq_getElem (by rw [List.length_cons]; omega)⟩

/-- One row per round. -/
theorem endless_loop (f : Nat) : ∀ (fuel : Nat) (bufs : List (LiveBuffer Endless)) (l : List Call), bufs ≠ [] → (∀ b ∈ bufs, b.row.isSome) →
    (fed (liveLoop Endless.next (fun c r l => (l ++ [Call.feed c r], .ok ())) (fun c l => (l ++ [.flush c], .ok ())) .all (f + 1) fuel bufs l).1).length = (fed l).length + fuel := by
  intro fuel
  induction fuel with
  | zero =>
    intro bufs l hne _
    cases bufs with
    | nil => exact absurd rfl hne
    | cons b bs => rfl
  | succ fuel ih =>
    intro bufs l hne hrow
    obtain ⟨i, b, h1, h2⟩ := liveIndex_lt hne
    have hb := hrow b (List.mem_of_getElem? h2)
    obtain ⟨r, hr⟩ := Option.isSome_iff_exists.1 hb
    have h3 : ∀ g : List Call, b.hasNext Endless.next .all (f + 1) g =
        (.ok true, ⟨⟨b.source.row, b.source.pos + 1⟩, b.chain, (b.source.row b.source.pos).timestamp, some (b.source.row b.source.pos)⟩) := fun _ => rfl
    simp only [liveLoop, h1, h2, hr, h3]
    rw [ih]
    · simp [fed, Call.fed?]; omega
    · simpa using hne
    · intro x hx
      rcases List.mem_or_eq_of_mem_set hx with hx | rfl
      · exact hrow x hx
      · rfl

theorem endless_new (f : Nat) (l : List Call) : ∀ (inputs : List Endless) (i : ChainId), ∃ bufs, liveRowBuffersFrom Endless.next .all (f + 1) l i inputs = .ok bufs ∧
    bufs.length = inputs.length ∧ ∀ b ∈ bufs, b.row.isSome
  | [], _ => ⟨[], rfl, rfl, by simp⟩
  | s :: ss, i => by
    obtain ⟨bufs, h1, h2, h3⟩ := endless_new f l ss (i + 1)
    have h4 : LiveBuffer.new Endless.next .all (f + 1) s i l = .ok ⟨⟨s.row, s.pos + 1⟩, i, (s.row s.pos).timestamp, some (s.row s.pos)⟩ := rfl
    refine ⟨_, by rw [liveRowBuffersFrom, h4, h1]; rfl, by simp [h2], ?_⟩
    intro b hb
    rcases List.mem_cons.1 hb with rfl | hb
    · rfl
    · exact h3 b hb

theorem endless_count (f fuel : Nat) (inputs : List (Nat → Row)) (hne : inputs ≠ []) : (fed (endlessCalls .all (f + 1) fuel inputs).1).length = fuel := by
  obtain ⟨bufs, h1, h2, h3⟩ := endless_new f [] (endless inputs).reverse 0
  unfold endlessCalls liveDrive
  rw [h1]
  simp only
  rw [endless_loop f fuel bufs [] ?_ h3]
  · simp [fed]
  · intro h
    subst h
    simp [endless] at h2
    exact hne (List.length_eq_zero_iff.1 h2.symm)

theorem fed_length_le (D : Nat) : ∀ (k : Nat) (ps : List (ChainId × Row)), (∀ p ∈ ps, p.1 < k) → (∀ c, c < k → (ps.filter fun p => p.1 = c).length ≤ D) → ps.length ≤ k * D
  | 0, ps, h, _ => by
    cases ps with
    | nil => simp
    | cons p ps => exact absurd (h p List.mem_cons_self) (by omega)
  | k + 1, ps, h, hD => by
    have h1 := hD k (by omega)
    have h2 := fed_length_le D k (ps.filter fun p => ¬ p.1 = k) (by
      intro p hp
      obtain ⟨hp, hk⟩ := List.mem_filter.1 hp
      have := h p hp
      simp at hk
      omega) (by
      intro c hc
      refine Nat.le_trans ?_ (hD c (by omega))
      exact ((List.filter_sublist (l := ps)).filter _).length_le)
    have h3 : ps.length = (ps.filter fun p => p.1 = k).length + (ps.filter fun p => ¬ p.1 = k).length := by
      have := List.length_eq_countP_add_countP (fun p : ChainId × Row => decide (p.1 = k)) (l := ps)
      rw [List.countP_eq_length_filter, List.countP_eq_length_filter] at this
      simpa using this
    rw [Nat.succ_mul]
    omega

theorem fedTo_filter (c : ChainId) (cs : List Call) : fedTo c cs = ((fed cs).filter fun p => p.1 = c).map (·.2) := by
  unfold fedTo
  induction fed cs with
  | nil => rfl
  | cons p ps ih =>
    by_cases h : p.1 = c <;> simp [h, ih]

theorem fedTo_mem {c : ChainId} {cs : List Call} {r : Row} (h : r ∈ fedTo c cs) : r ∈ (fed cs).map (·.2) := by
  rw [fedTo_filter] at h
  obtain ⟨p, hp, rfl⟩ := List.mem_map.1 h
  exact List.mem_map.2 ⟨p, (List.mem_filter.1 hp).1, rfl⟩

/-- What a run over endless inputs does first, and what a run over beginnings of them does afterwards. -/
theorem endless_split (sfuel fuel : Nat) (inputs : List (Nat → Row)) (hs : ∀ row ∈ inputs, ∀ a b, a ≤ b → (row a).timestamp ≤ (row b).timestamp) (m : Nat)
    (hm : fuel * sfuel + sfuel < m) : ∃ rest : List Call,
    (∀ i row, inputs[i]? = some row → fedTo (inputs.length - 1 - i) (endlessCalls .all sfuel fuel inputs).1 ++ fedTo (inputs.length - 1 - i) rest = (List.range m).map row) ∧
    (∀ a ∈ (fed (endlessCalls .all sfuel fuel inputs).1).map (·.2), ∀ b ∈ (fed rest).map (·.2), a.timestamp ≤ b.timestamp) ∧
    (∀ p ∈ fed (endlessCalls .all sfuel fuel inputs).1, p.1 < inputs.length) := by
  obtain ⟨rest, h1⟩ := endless_prefix .all sfuel fuel inputs m (fuel + enough (beginnings m inputs)) (by omega) (by omega)
  have hok := beginnings_ok (fuel + enough (beginnings m inputs)) m inputs (by omega) (by omega)
  obtain ⟨h2, h3⟩ := C18_exactly_once (G := List Call) .all (fuel + enough (beginnings m inputs)) (beginnings m inputs) _ _ [] hok
  have h4 := C17_sorted .all (fuel + enough (beginnings m inputs)) (beginnings m inputs) (by
    intro s hs'
    obtain ⟨row, hrow, rfl⟩ := List.mem_map.1 hs'
    unfold Sorted
    rw [List.pairwise_map]
    exact List.Pairwise.imp (fun hab => hs row hrow _ _ (Nat.le_of_lt hab)) List.pairwise_lt_range) (by omega)
  have hlen : (beginnings m inputs).length = inputs.length := by simp [beginnings]
  rw [← h1] at h4
  have e : ∀ a b : List Call, fed (a ++ b) = fed a ++ fed b := fun a b => by simp [fed]
  refine ⟨rest, ?_, ?_, ?_⟩
  · intro i row hi
    have := h2 i ⟨(List.range m).map row, .eof⟩ (by simp [beginnings, hi])
    rw [hlen, ← h1, selected_all] at this
    refine Eq.trans ?_ this
    simp only [fedTo, e, List.filterMap_append]
  · rw [e, List.map_append] at h4
    exact (List.pairwise_append.1 h4).2.2
  · intro p hp
    have := h3 p (by rw [← h1, e]; exact List.mem_append_left _ hp)
    rw [hlen] at this
    exact this

/-- **C132 (no row waits for ever).** Endless inputs in time order, no range. A row is processed, with all the rows of its input before it, as soon as enough rounds have been made, if every other
input sooner or later gets past its time. -/
theorem C132_processed (sfuel : Nat) (hsf : 0 < sfuel) (inputs : List (Nat → Row)) (hs : ∀ row ∈ inputs, ∀ a b, a ≤ b → (row a).timestamp ≤ (row b).timestamp) (i n : Nat) (row : Nat → Row)
    (hi : inputs[i]? = some row) (hpast : ∀ j other, j ≠ i → inputs[j]? = some other → ∃ N, (row n).timestamp < (other N).timestamp) :
    ∃ rounds, ∀ fuel, rounds ≤ fuel → (List.range (n + 1)).map row <+: fedTo (inputs.length - 1 - i) (endlessCalls .all sfuel fuel inputs).1 := by
  have hB : ∀ k, ∃ B, ∀ j other, j < k → j ≠ i → inputs[j]? = some other → (row n).timestamp < (other B).timestamp := by
    intro k
    induction k with
    | zero => exact ⟨0, fun j _ h => by omega⟩
    | succ k ih =>
      obtain ⟨B, hB⟩ := ih
      have hk : ∃ N, ∀ other, k ≠ i → inputs[k]? = some other → (row n).timestamp < (other N).timestamp := by
        cases ho : inputs[k]? with
        | none => exact ⟨0, by simp⟩
        | some other =>
          by_cases hki : k = i
          · exact ⟨0, fun _ h => absurd hki h⟩
          · obtain ⟨N, hN⟩ := hpast k other hki ho
            exact ⟨N, fun o _ h => by cases h; exact hN⟩
      obtain ⟨N, hN⟩ := hk
      refine ⟨B + N, fun j other hj hji ho => ?_⟩
      have hsorted := hs other (List.mem_of_getElem? ho)
      by_cases hjk : j = k
      · subst hjk
        have h1 := hN other hji ho
        have h2 := hsorted N (B + N) (by omega)
        simp only [BitVec.lt_def, BitVec.le_def] at *
        omega
      · have h1 := hB j other (by omega) hji ho
        have h2 := hsorted B (B + N) (by omega)
        simp only [BitVec.lt_def, BitVec.le_def] at *
        omega
  obtain ⟨B, hB⟩ := hB inputs.length
  have hil : i < inputs.length := (List.getElem?_eq_some_iff.1 hi).1
  refine ⟨inputs.length * (n + B) + 1, fun fuel hfuel => ?_⟩
  obtain ⟨f, rfl⟩ := Nat.exists_eq_add_of_lt hsf
  rw [Nat.zero_add] at *
  have hcount := endless_count f fuel inputs (fun h => by simp [h] at hil)
  obtain ⟨rest, h1, h2, h3⟩ := endless_split (f + 1) fuel inputs hs (fuel * (f + 1) + (f + 1) + n + B + 1) (by omega)
  have hm : n + B < fuel * (f + 1) + (f + 1) + n + B + 1 := by omega
  generalize fuel * (f + 1) + (f + 1) + n + B + 1 = m at *
  have hmine := h1 i row hi
  have hpre : fedTo (inputs.length - 1 - i) (endlessCalls .all (f + 1) fuel inputs).1 <+: (List.range m).map row := ⟨_, hmine⟩
  have htake := List.prefix_iff_eq_take.1 hpre
  by_cases hp : n < (fedTo (inputs.length - 1 - i) (endlessCalls .all (f + 1) fuel inputs).1).length
  · rw [htake, ← List.map_take, List.take_range]
    refine List.IsPrefix.map _ ?_
    rw [List.prefix_iff_eq_take, List.take_range, List.length_range]
    congr 1
    omega
  · exfalso
    have hrow : row n ∈ (fed rest).map (·.2) := by
      refine fedTo_mem (c := inputs.length - 1 - i) ?_
      have : row n ∈ ((List.range m).map row).drop (fedTo (inputs.length - 1 - i) (endlessCalls .all (f + 1) fuel inputs).1).length := by
        rw [List.mem_drop_iff_getElem]
        refine ⟨n - (fedTo (inputs.length - 1 - i) (endlessCalls .all (f + 1) fuel inputs).1).length, by simp; omega, ?_⟩
        simp only [List.getElem_map, List.getElem_range]
        congr 1
        omega
      rw [← hmine, List.drop_left] at this
      exact this
    have hle := fed_length_le (n + B) inputs.length (fed (endlessCalls .all (f + 1) fuel inputs).1) h3 (by
      intro c hc
      have hlen : ((fed (endlessCalls .all (f + 1) fuel inputs).1).filter fun p => p.1 = c).length = (fedTo c (endlessCalls .all (f + 1) fuel inputs).1).length := by
        rw [fedTo_filter, List.length_map]
      rw [hlen]
      by_cases hci : c = inputs.length - 1 - i
      · subst hci; omega
      · obtain ⟨other, ho⟩ : ∃ other, inputs[inputs.length - 1 - c]? = some other := ⟨_, List.getElem?_eq_getElem (by omega)⟩
        have hcc : inputs.length - 1 - (inputs.length - 1 - c) = c := by omega
        have hother := h1 _ other ho
        rw [hcc] at hother
        apply Decidable.byContradiction
        intro hbig
        have hmem : other B ∈ fedTo c (endlessCalls .all (f + 1) fuel inputs).1 := by
          have hpre' : fedTo c (endlessCalls .all (f + 1) fuel inputs).1 <+: (List.range m).map other := ⟨_, hother⟩
          rw [List.prefix_iff_eq_take.1 hpre', ← List.map_take, List.take_range]
          exact List.mem_map.2 ⟨B, List.mem_range.2 (by omega), rfl⟩
        have h4 := h2 _ (fedTo_mem hmem) _ hrow
        have h5 := hB _ other (by omega) (by omega) ho
        simp only [BitVec.lt_def, BitVec.le_def] at *
        omega)
    omega

/-- The rows of `steady`, each of them, get their turn beside `slowStart`; those of `slowStart` at time 5 never do (`slowStart`'s first three do). -/
example : ∀ n, ∀ j other, j ≠ 1 → [slowStart, steady][j]? = some other → ∃ N, (steady n).timestamp < (other N).timestamp := by
  intro n j other hj ho
  match j, hj with
  | 0, _ => cases ho; exact ⟨3, show (2 : Nanos) < 5 by decide⟩
  | j + 2, _ => simp at ho

/-- **C132 (the condition is needed).** If another input never gets to the time of the first row of an input, that input is never processed at all, in however many rounds. -/
theorem C132_waits (sfuel fuel : Nat) (inputs : List (Nat → Row)) (hs : ∀ row ∈ inputs, ∀ a b, a ≤ b → (row a).timestamp ≤ (row b).timestamp) (i j : Nat) (row other : Nat → Row)
    (hi : inputs[i]? = some row) (hj : inputs[j]? = some other) (hnever : ∀ N, (other N).timestamp < (row 0).timestamp) :
    fedTo (inputs.length - 1 - i) (endlessCalls .all sfuel fuel inputs).1 = [] := by
  have hne : inputs ≠ [] := fun h => by simp [h] at hi
  cases sfuel with
  | zero =>
    have : (endlessCalls .all 0 fuel inputs).1 = [] := by
      unfold endlessCalls liveDrive
      cases hr : (endless inputs).reverse with
      | nil => simp [endless] at hr; exact absurd hr hne
      | cons s ss => rfl
    rw [this]; rfl
  | succ f =>
    have hcount := endless_count f fuel inputs hne
    obtain ⟨rest, h1, h2, h3⟩ := endless_split (f + 1) fuel inputs hs (fuel * (f + 1) + (f + 1) + fuel + 1) (by omega)
    have hm : fuel < fuel * (f + 1) + (f + 1) + fuel + 1 := by omega
    generalize fuel * (f + 1) + (f + 1) + fuel + 1 = m at *
    cases hl : fedTo (inputs.length - 1 - i) (endlessCalls .all (f + 1) fuel inputs).1 with
    | nil => rfl
    | cons r rs =>
      exfalso
      have hmine := h1 i row hi
      obtain ⟨m, rfl⟩ := Nat.exists_eq_add_of_lt (show 0 < m by omega)
      rw [hl, List.range_succ_eq_map, List.map_cons, List.cons_append] at hmine
      have hr : r = row 0 := by rw [Nat.zero_add] at hmine; exact (List.cons.inj hmine).1
      have hmem : row 0 ∈ (fed (endlessCalls .all (f + 1) fuel inputs).1).map (·.2) := fedTo_mem (c := inputs.length - 1 - i) (by rw [hl, hr]; exact List.mem_cons_self)
      have hrest : fedTo (inputs.length - 1 - j) rest = [] := by
        cases hx : fedTo (inputs.length - 1 - j) rest with
        | nil => rfl
        | cons x xs =>
          exfalso
          have hxm : x ∈ fedTo (inputs.length - 1 - j) rest := by rw [hx]; exact List.mem_cons_self
          have h4 := h2 _ hmem x (fedTo_mem hxm)
          have h5 : x ∈ (List.range (0 + m + 1)).map other := by rw [← h1 j other hj]; exact List.mem_append_right _ hxm
          obtain ⟨N, _, rfl⟩ := List.mem_map.1 h5
          have h6 := hnever N
          simp only [BitVec.lt_def, BitVec.le_def] at *
          omega
      have h7 := h1 j other hj
      rw [hrest, List.append_nil] at h7
      have h8 : (fedTo (inputs.length - 1 - j) (endlessCalls .all (f + 1) fuel inputs).1).length ≤ (fed (endlessCalls .all (f + 1) fuel inputs).1).length := by
        rw [fedTo_filter, List.length_map]; exact List.length_filter_le _ _
      rw [h7] at h8
      simp at h8
      omega

example : (∀ N, (steady N).timestamp < ((fun _ => ⟨7, []⟩ : Nat → Row) 0).timestamp) ∧
    (fed (endlessCalls .all 1 4 [steady, fun _ => ⟨7, []⟩]).1).map (·.1) = [1, 1, 1, 1] := by
  exact ⟨fun _ => show (2 : Nanos) < 7 by decide, by decide +kernel⟩

end Chopper.Props
