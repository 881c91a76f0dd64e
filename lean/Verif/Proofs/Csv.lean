import Verif.Spec.Csv
import Verif.Proofs.Text
import Verif.Proofs.Timestamp

/-!
# Proofs about the CSV source
-/
namespace Chopper
open Spec

/-- The values after a record was read: its fields, and the old values where it has none. -/
def overlay (old : List FieldValue) (record : List Str) : List FieldValue := record.map .string ++ old.drop record.length

theorem setValues_eq : ∀ (vs : List FieldValue) (r : List Str), setValues vs r = if r.length ≤ vs.length then .ok (overlay vs r) else .panic
  | vs, [] => by simp [setValues, overlay]
  | [], s :: ss => by simp [setValues]
  | v :: vs, s :: ss => by
    rw [setValues, setValues_eq vs ss]
    by_cases h : ss.length ≤ vs.length
    · rw [if_pos h, if_pos (by simpa using h)]
      simp [overlay]
    · rw [if_neg h, if_neg (by simpa using h)]
      rfl

theorem overlay_length {old : List FieldValue} {r : List Str} (h : r.length ≤ old.length) : (overlay old r).length = old.length := by
  simp [overlay]; omega

theorem overlay_get (old : List FieldValue) (r : List Str) (i : Nat) :
    (overlay old r)[i]? = if i < r.length then r[i]?.map .string else old[i]? := by
  unfold overlay
  by_cases h : i < r.length
  · rw [if_pos h, List.getElem?_append_left (by simpa using h), List.getElem?_map]
  · rw [if_neg h, List.getElem?_append_right (by simpa using h), List.getElem?_drop]
    congr 1
    simp; omega

/-- The rows made from records with their timestamps. -/
def rowsFrom : List FieldValue → List (List Str × Nanos) → List Row
  | _, [] => []
  | vals, (r, ts) :: rest => ⟨ts, overlay vals r⟩ :: rowsFrom (overlay vals r) rest

theorem rowsFrom_length (vals : List FieldValue) (rs : List (List Str × Nanos)) : (rowsFrom vals rs).length = rs.length := by
  induction rs generalizing vals with
  | nil => rfl
  | cons p rs ih => obtain ⟨r, ts⟩ := p; simp [rowsFrom, ih]

theorem updateRow_good {env : CsvEnv} {tz : ChopperTz env.lib} {col : TimestampCol} {fmt : TimestampFmt} {row : Row} {r : List Str} {ts : Nanos}
    (h : GoodRecord env tz col fmt row.values.length r ts) : updateRow env tz col fmt row r = (.ok (), ⟨ts, overlay row.values r⟩) := by
  unfold updateRow
  rw [setValues_eq, if_pos h.1, h.2]

theorem csv_yields {env : CsvEnv} {tz : ChopperTz env.lib} : ∀ (recs : List (List Str × Nanos)) (src : CsvSource) (tail : List (Res (List Str))), src.hasNext = true →
    src.records = recs.map (fun p => .ok p.1) ++ tail →
    (∀ p ∈ recs, GoodRecord env tz src.tsCol src.tsFmt src.row.values.length p.1 p.2) →
    ∃ fin, Yields (CsvSource.nextRow env tz) src (src.row :: rowsFrom src.row.values recs).dropLast fin ∧ fin.records = tail ∧ fin.hasNext = true ∧
      fin.tsCol = src.tsCol ∧ fin.tsFmt = src.tsFmt ∧ fin.header = src.header ∧ fin.row.values.length = src.row.values.length ∧
      some fin.row = (src.row :: rowsFrom src.row.values recs).getLast?
  | [], src, tail, hn, hr, _ => ⟨src, .nil _, by simpa using hr, hn, rfl, rfl, rfl, rfl, rfl⟩
  | (r, ts) :: recs, src, tail, hn, hr, hg => by
    have h0 := updateRow_good (hg (r, ts) (by simp))
    have hnext : src.nextRow env tz = (.ok (some src.row), { src with records := recs.map (fun p => .ok p.1) ++ tail, row := ⟨ts, overlay src.row.values r⟩ }) := by
      unfold CsvSource.nextRow
      rw [hn, hr]
      simp only [List.map_cons, List.cons_append]
      rw [h0]
      rfl
    have hlen : (overlay src.row.values r).length = src.row.values.length := overlay_length (hg (r, ts) (by simp)).1
    obtain ⟨fin, h1, h2, h3, h4, h5, h6, h7, h8⟩ := csv_yields recs { src with records := recs.map (fun p => .ok p.1) ++ tail, row := ⟨ts, overlay src.row.values r⟩ } tail hn rfl
      (fun p hp => by simp only [hlen]; exact hg p (by simp [hp]))
    refine ⟨fin, ?_, h2, h3, h4, h5, h6, by simpa [hlen] using h7, ?_⟩
    · rw [rowsFrom, List.dropLast_cons_of_ne_nil (by simp)]
      exact .cons hnext h1
    · rw [h8]
      simp [rowsFrom, List.getLast?_cons_cons]

theorem csv_yields_all {env : CsvEnv} {tz : ChopperTz env.lib} (recs : List (List Str × Nanos)) (src : CsvSource) (hn : src.hasNext = true)
    (hr : src.records = recs.map (fun p => .ok p.1))
    (hg : ∀ p ∈ recs, GoodRecord env tz src.tsCol src.tsFmt src.row.values.length p.1 p.2) :
    ∃ fin, Yields (CsvSource.nextRow env tz) src (src.row :: rowsFrom src.row.values recs) fin ∧ (fin.nextRow env tz).1 = .ok none ∧ (fin.nextRow env tz).2 = fin := by
  obtain ⟨mid, h1, h2, h3, h4, h5, h6, h7, h8⟩ := csv_yields recs src [] hn (by simpa using hr) hg
  have hl : (src.row :: rowsFrom src.row.values recs) = (src.row :: rowsFrom src.row.values recs).dropLast ++ [mid.row] := by
    obtain ⟨ys, hys⟩ := List.getLast?_eq_some_iff.1 h8.symm
    rw [hys]; simp
  refine ⟨{ mid with hasNext := false }, ?_, ?_, ?_⟩
  · rw [hl]
    have happ : ∀ {s s' s'' : CsvSource} {a b : List Row}, Yields (CsvSource.nextRow env tz) s a s' → Yields (CsvSource.nextRow env tz) s' b s'' →
        Yields (CsvSource.nextRow env tz) s (a ++ b) s'' := by
      intro s s' s'' a b ha hb
      induction ha with
      | nil => exact hb
      | cons x _ ih => exact .cons x (ih hb)
    refine happ h1 (.cons ?_ (.nil _))
    unfold CsvSource.nextRow
    rw [h3, h2]
    rfl
  · rfl
  · rfl

/-- The exact content of the rows. -/
theorem rowsFrom_spec : ∀ (recs : List (List Str × Nanos)) (vals : List FieldValue), (∀ p ∈ recs, p.1.length ≤ vals.length) →
    ∀ (k : Nat) row, (rowsFrom vals recs)[k]? = some row → row.values.length = vals.length ∧
      (∃ r, recs[k]? = some (r, row.timestamp) ∧ ∀ (i : Nat) f, r[i]? = some f → row.values[i]? = some (.string f)) ∧
      ∀ i : Nat, i < vals.length → (row.values[i]? = vals[i]? ∧ ∀ (j : Nat) r ts, j ≤ k → recs[j]? = some (r, ts) → r.length ≤ i) ∨
        ∃ (j : Nat) (r : List Str) (ts : Nanos) (f : Str), j ≤ k ∧ recs[j]? = some (r, ts) ∧ r[i]? = some f ∧ row.values[i]? = some (.string f) ∧
          ∀ (j' : Nat) r' ts', j < j' → j' ≤ k → recs[j']? = some (r', ts') → r'.length ≤ i
  | [], _, _, k, row, h => by simp [rowsFrom] at h
  | (r, ts) :: recs, vals, hl, k, row, h => by
    have hr := hl (r, ts) (by simp)
    have hol := overlay_length hr
    cases k with
    | zero =>
      simp only [rowsFrom, List.getElem?_cons_zero, Option.some.injEq] at h
      subst h
      refine ⟨hol, ⟨r, by simp, ?_⟩, ?_⟩
      · intro i f hf
        have hi : i < r.length := by have := List.getElem?_eq_some_iff.1 hf; exact this.1
        simp only [overlay_get, if_pos hi, hf, Option.map_some]
      · intro i hi
        by_cases hir : i < r.length
        · refine .inr ⟨0, r, ts, r[i], by omega, rfl, by simp [hir], ?_, ?_⟩
          · simp only [overlay_get, if_pos hir, List.getElem?_eq_getElem hir, Option.map_some]
          · intro j' r' ts' h1 h2; omega
        · refine .inl ⟨by simp only [overlay_get, if_neg hir], ?_⟩
          intro j r' ts' hj hj'
          obtain rfl : j = 0 := by omega
          simp only [List.getElem?_cons_zero, Option.some.injEq, Prod.mk.injEq] at hj'
          rw [← hj'.1]; omega
    | succ k =>
      rw [rowsFrom, List.getElem?_cons_succ] at h
      obtain ⟨h1, ⟨r', h2, h3⟩, h4⟩ := rowsFrom_spec recs (overlay vals r) (fun p hp => by rw [hol]; exact hl p (by simp [hp])) k row h
      refine ⟨by rw [h1, hol], ⟨r', by simpa using h2, h3⟩, ?_⟩
      intro i hi
      rcases h4 i (by rw [hol]; exact hi) with ⟨h5, h6⟩ | ⟨j, rj, tsj, f, g1, g2, g3, g4, g5⟩
      · by_cases hir : i < r.length
        · refine .inr ⟨0, r, ts, r[i], by omega, rfl, by simp [hir], ?_, ?_⟩
          · rw [h5]
            simp only [overlay_get, if_pos hir, List.getElem?_eq_getElem hir, Option.map_some]
          · intro j' r'' ts' q1 q2 q3
            obtain ⟨j'', rfl⟩ : ∃ x, j' = x + 1 := ⟨j' - 1, by omega⟩
            exact h6 j'' r'' ts' (by omega) (by simpa using q3)
        · refine .inl ⟨?_, ?_⟩
          · rw [h5]; simp only [overlay_get, if_neg hir]
          · intro j r'' ts' q1 q2
            cases j with
            | zero =>
              simp only [List.getElem?_cons_zero, Option.some.injEq, Prod.mk.injEq] at q2
              rw [← q2.1]; omega
            | succ j => exact h6 j r'' ts' (by omega) (by simpa using q2)
      · refine .inr ⟨j + 1, rj, tsj, f, by omega, by simpa using g2, g3, g4, ?_⟩
        intro j' r'' ts' q1 q2 q3
        obtain ⟨j'', rfl⟩ : ∃ x, j' = x + 1 := ⟨j' - 1, by omega⟩
        exact g5 j'' r'' ts' (by omega) (by omega) (by simpa using q3)

/-- What a successful start of a CSV source means. -/
theorem csvStart_inv {env : CsvEnv} {cfg : CsvInputConfig env.lib} {hh : Bool} {data : CsvData} {src : CsvSource} (h : csvStart env cfg hh data = .ok src) :
    ∃ first rest ts, data.records = .ok first :: rest ∧ csvNames hh data.headers first.length = .ok src.header.names ∧
      src.header.types = List.replicate first.length .string ∧
      getTimestampColAndFmt env.lower env.lib cfg.tz src.header.names first cfg.tsCol cfg.tsFmt = .ok (src.tsCol, src.tsFmt) ∧
      getTimestamp env.ov env.lib cfg.tz first src.tsCol src.tsFmt = .ok ts ∧
      src.records = rest ∧ src.row = ⟨ts, first.map .string⟩ ∧ src.hasNext = true := by
  unfold csvStart at h
  match hr : data.records, h with
  | first :: rest, h =>
    obtain ⟨firstRow, h1, h⟩ := Res.bind_eq_ok.1 h
    obtain ⟨names, h2, h⟩ := Res.bind_eq_ok.1 h
    obtain ⟨⟨col, fmt⟩, h3, h⟩ := Res.bind_eq_ok.1 h
    simp only at h
    unfold updateRow at h
    rw [setValues_eq, if_pos (by simp)] at h
    simp only at h
    rcases hg : getTimestamp env.ov env.lib cfg.tz firstRow col fmt with ts | _ | _ | _
    · rw [hg] at h
      simp only [Res.bind_ok, Res.ok.injEq] at h
      subst h h1
      exact ⟨firstRow, rest, ts, rfl, h2, rfl, h3, hg, rfl, by simp [overlay], rfl⟩
    all_goals (rw [hg] at h; simp at h)

end Chopper
