import Verif.Spec.CsvExact
import Verif.Proofs.Csv
import Verif.Proofs.Timestamp
import Verif.Proofs.Input2

/-! # What a CSV input means: lemmas -/
namespace Chopper
open Chopper Chopper.Spec

theorem numberText_unique {text : Str} {n m : Nat} (h : NumberText text n) (h' : NumberText text m) : n = m := by
  obtain ⟨t, a, b, rfl, d⟩ := h
  obtain ⟨t', a', b', rfl, d'⟩ := h'
  have h1 := (parseU64_iff text (BitVec.ofNat 64 (decimalValue t))).2 ⟨t, a, b, d, by simp; omega⟩
  have h2 := (parseU64_iff text (BitVec.ofNat 64 (decimalValue t'))).2 ⟨t', a', b', d', by simp; omega⟩
  rw [h1] at h2
  have := congrArg BitVec.toNat (Option.some.inj h2)
  simp at this
  omega

theorem colText_iff {record : List Str} {col : TimestampCol} {text : Str} : ColText record col text ↔ getTimestampString record col = .ok text := by
  constructor
  · rintro (h | ⟨h, h'⟩)
    · simp [getTimestampString, h, Res.unwrap]
    · simp [getTimestampString, h, h', Res.unwrap, Res.bind]
  · intro h
    cases col with
    | index i =>
      cases hr : record[i]? with
      | none => simp [getTimestampString, hr, Res.unwrap] at h
      | some t => simp [getTimestampString, hr, Res.unwrap] at h; subst h; exact .one hr
    | dateTimeIndex i j =>
      cases hr : record[i]? with
      | none => simp [getTimestampString, hr, Res.unwrap, Res.bind] at h
      | some t =>
        cases hr' : record[j]? with
        | none => simp [getTimestampString, hr, hr', Res.unwrap, Res.bind] at h
        | some t' =>
          simp [getTimestampString, hr, hr', Res.unwrap, Res.bind] at h; subst h
          simpa using ColText.two hr hr'

theorem getTimestampString_cases (record : List Str) (col : TimestampCol) : (∃ t, getTimestampString record col = .ok t) ∨ getTimestampString record col = .panic := by
  cases col with
  | index i => cases hr : record[i]? <;> simp [getTimestampString, hr, Res.unwrap]
  | dateTimeIndex i j => cases hr : record[i]? <;> cases hr' : record[j]? <;> simp [getTimestampString, hr, hr', Res.unwrap, Res.bind]

theorem instantFits_iff (i : Instant) : InstantFits i ↔ (fitsI64 (i.secs * 1000000000) && fitsI64 i.ns) = true := by
  unfold InstantFits fitsI64 Instant.ns
  simp only [Bool.and_eq_true, decide_eq_true_eq]
  omega

/-- The conversion satisfies its specification. -/
theorem timeOf_get (ov : Overflow) (lib : DateLib) (tz : ChopperTz lib) (col : TimestampCol) (fmt : TimestampFmt) (record : List Str) :
    TimeOf ov lib tz col fmt record (getTimestamp ov lib tz record col fmt) := by
  unfold getTimestamp
  rcases getTimestampString_cases record col with ⟨text, ht⟩ | hp
  · rw [ht, Res.bind_ok]
    have hc := colText_iff.2 ht
    have hdate : ∀ i, DenotesInstant lib tz fmt text i → TimeOf ov lib tz col fmt record (timestampNanos ov i) := by
      intro i hi
      unfold timestampNanos
      cases ov with
      | wraps => exact .date hc hi (by simp) rfl
      | panics =>
        simp only
        split
        · exact .date hc hi (fun _ => (instantFits_iff i).2 ‹_›) rfl
        · exact .dateTooFar hc hi rfl (fun h => ‹¬ _› ((instantFits_iff i).1 h))
    cases fmt with
    | units u =>
      simp only [convertTimestamp]
      cases hn : parseU64 text with
      | none =>
        refine .noNumber hc rfl ?_
        rintro n ⟨t, a, b, rfl, d⟩
        rw [(parseU64_iff text (BitVec.ofNat 64 (decimalValue t))).2 ⟨t, a, b, d, by simp; omega⟩] at hn
        cases hn
      | some n =>
        obtain ⟨t, a, b, c, d⟩ := (parseU64_iff text n).1 hn
        have hnum : NumberText text n.toNat := ⟨t, a, b, d.symm, n.isLt⟩
        have hm : ∀ k : Nat, k < 2 ^ 64 → nanosPer u = k → TimeOf ov lib tz col (.units u) record (mulU64 ov n k) := by
          intro k hk hu
          unfold mulU64
          have ht : (n * BitVec.ofNat 64 k).toNat = n.toNat * k % 2 ^ 64 := by
            rw [BitVec.toNat_mul, BitVec.toNat_ofNat, Nat.mod_eq_of_lt hk]
          cases ov with
          | wraps => exact .number hc rfl hnum (by simp) (by rw [hu]; exact ht)
          | panics =>
            simp only
            split
            · exact .number hc rfl hnum (fun _ => by rw [hu]; assumption) (by rw [hu]; exact ht)
            · exact .tooLarge hc rfl hnum rfl (by rw [hu]; omega)
        simp only [scaleUnits]
        cases u with
        | seconds => exact hm _ (by decide) rfl
        | millis => exact hm _ (by decide) rfl
        | micros => exact hm _ (by decide) rfl
        | nanos => exact .number hc rfl hnum (by intro _; simp only [nanosPer]; omega) (by simp only [nanosPer]; omega)
    | dateTimeIncludesTz f =>
      simp only [convertTimestamp]
      cases hp : lib.parseTz f text with
      | none => exact .noDate hc (.parseTz hp)
      | some i => exact hdate i (.includesTz hp)
    | dateTimeNeedsExternalTz f =>
      simp only [convertTimestamp]
      cases hp : lib.parseNaive f text with
      | none => exact .noDate hc (.parseNaive hp)
      | some x =>
        simp only [Res.okOr, Res.bind_ok, fromLocalDatetime]
        cases tz with
        | none => exact .noDate hc (.naiveNoZone hp rfl)
        | some z =>
          cases hz : z x with
          | none => simp only [hz]; exact .noDate hc (.naiveNoTime hp rfl hz)
          | some i => simp only [hz]; exact hdate i (.needsTz hp rfl hz)
    | dateNeedsExternalTz f =>
      simp only [convertTimestamp]
      cases hp : lib.parseDate f text with
      | none => exact .noDate hc (.parseDate hp)
      | some x =>
        simp only [Res.okOr, Res.bind_ok, fromLocalDatetime]
        cases tz with
        | none => exact .noDate hc (.dateNoZone hp rfl)
        | some z =>
          cases hz : z x with
          | none => simp only [hz]; exact .noDate hc (.dateNoTime hp rfl hz)
          | some i => simp only [hz]; exact hdate i (.date hp rfl hz)
  · rw [hp]
    refine .missing ?_
    intro text h
    rw [colText_iff.1 h] at hp
    cases hp

theorem colText_unique {record : List Str} {col : TimestampCol} {t t' : Str} (h : ColText record col t) (h' : ColText record col t') : t = t' := by
  rw [colText_iff] at h h'
  rw [h] at h'
  exact Res.ok.inj h'

theorem denotes_unique {lib : DateLib} {tz : ChopperTz lib} {fmt : TimestampFmt} {t : Str} {i j : Instant} (h : DenotesInstant lib tz fmt t i) (h' : DenotesInstant lib tz fmt t j) : i = j := by
  cases h with
  | includesTz a => cases h' with | includesTz b => rw [a] at b; exact Option.some.inj b
  | needsTz a b c =>
    cases h' with
    | needsTz a' b' c' =>
      rw [a] at a'; cases a'
      rw [b] at b'; cases b'
      rw [c] at c'; exact Option.some.inj c'
  | date a b c =>
    cases h' with
    | date a' b' c' =>
      rw [a] at a'; cases a'
      rw [b] at b'; cases b'
      rw [c] at c'; exact Option.some.inj c'

theorem noInstant_denotes {lib : DateLib} {tz : ChopperTz lib} {fmt : TimestampFmt} {t : Str} {i : Instant} {e : Err} (h : DenotesInstant lib tz fmt t i) (h' : NoInstant lib tz fmt t e) : False := by
  cases h <;> cases h' <;> simp_all

theorem noInstant_unique {lib : DateLib} {tz : ChopperTz lib} {fmt : TimestampFmt} {t : Str} {e e' : Err} (h : NoInstant lib tz fmt t e) (h' : NoInstant lib tz fmt t e') : e = e' := by
  cases h <;> cases h' <;> simp_all

theorem timeOf_unique {ov : Overflow} {lib : DateLib} {tz : ChopperTz lib} {col : TimestampCol} {fmt : TimestampFmt} {record : List Str} {a b : Res Nanos}
    (ha : TimeOf ov lib tz col fmt record a) (hb : TimeOf ov lib tz col fmt record b) : a = b := by
  have key : ∀ {u : TimestampUnits} {t : Str} {i : Instant}, fmt = .units u → ¬ DenotesInstant lib tz fmt t i := by
    rintro u t i rfl h; cases h
  have key' : ∀ {u : TimestampUnits} {t : Str} {e : Err}, fmt = .units u → ¬ NoInstant lib tz fmt t e := by
    rintro u t e rfl h; cases h
  cases ha with
  | missing h1 =>
    cases hb with
    | missing _ => rfl
    | number h => exact absurd h (h1 _)
    | tooLarge h => exact absurd h (h1 _)
    | noNumber h => exact absurd h (h1 _)
    | date h => exact absurd h (h1 _)
    | dateTooFar h => exact absurd h (h1 _)
    | noDate h => exact absurd h (h1 _)
  | number c1 f1 n1 o1 t1 =>
    cases hb with
    | missing h => exact absurd c1 (h _)
    | number c2 f2 n2 o2 t2 =>
      cases colText_unique c1 c2
      rw [f1] at f2; cases f2
      cases numberText_unique n1 n2
      rw [BitVec.eq_of_toNat_eq (t1.trans t2.symm)]
    | tooLarge c2 f2 n2 o2 t2 =>
      cases colText_unique c1 c2
      rw [f1] at f2; cases f2
      cases numberText_unique n1 n2
      have := o1 o2; omega
    | noNumber c2 f2 n2 => cases colText_unique c1 c2; exact absurd n1 (n2 _)
    | date c2 d2 => exact absurd d2 (key f1)
    | dateTooFar c2 d2 => exact absurd d2 (key f1)
    | noDate c2 d2 => exact absurd d2 (key' f1)
  | tooLarge c1 f1 n1 o1 t1 =>
    cases hb with
    | missing h => rfl
    | number c2 f2 n2 o2 t2 =>
      cases colText_unique c1 c2
      rw [f1] at f2; cases f2
      cases numberText_unique n1 n2
      have := o2 o1; omega
    | tooLarge c2 f2 n2 o2 t2 => rfl
    | noNumber c2 f2 n2 => cases colText_unique c1 c2; exact absurd n1 (n2 _)
    | date c2 d2 => exact absurd d2 (key f1)
    | dateTooFar c2 d2 => exact absurd d2 (key f1)
    | noDate c2 d2 => exact absurd d2 (key' f1)
  | noNumber c1 f1 n1 =>
    cases hb with
    | missing h => exact absurd c1 (h _)
    | number c2 f2 n2 o2 t2 => cases colText_unique c1 c2; exact absurd n2 (n1 _)
    | tooLarge c2 f2 n2 o2 t2 => cases colText_unique c1 c2; exact absurd n2 (n1 _)
    | noNumber c2 f2 n2 => rfl
    | date c2 d2 => exact absurd d2 (key f1)
    | dateTooFar c2 d2 => exact absurd d2 (key f1)
    | noDate c2 d2 => exact absurd d2 (key' f1)
  | date c1 d1 o1 t1 =>
    cases hb with
    | missing h => exact absurd c1 (h _)
    | number c2 f2 => exact absurd d1 (key f2)
    | tooLarge c2 f2 => exact absurd d1 (key f2)
    | noNumber c2 f2 => exact absurd d1 (key f2)
    | date c2 d2 o2 t2 =>
      cases colText_unique c1 c2
      cases denotes_unique d1 d2
      rw [t1, t2]
    | dateTooFar c2 d2 o2 n2 =>
      cases colText_unique c1 c2
      cases denotes_unique d1 d2
      exact absurd (o1 o2) n2
    | noDate c2 d2 => cases colText_unique c1 c2; exact (noInstant_denotes d1 d2).elim
  | dateTooFar c1 d1 o1 n1 =>
    cases hb with
    | missing h => rfl
    | number c2 f2 => exact absurd d1 (key f2)
    | tooLarge c2 f2 => rfl
    | noNumber c2 f2 => exact absurd d1 (key f2)
    | date c2 d2 o2 t2 =>
      cases colText_unique c1 c2
      cases denotes_unique d1 d2
      exact absurd (o2 o1) n1
    | dateTooFar c2 d2 o2 n2 => rfl
    | noDate c2 d2 => cases colText_unique c1 c2; exact (noInstant_denotes d1 d2).elim
  | noDate c1 d1 =>
    cases hb with
    | missing h => exact absurd c1 (h _)
    | number c2 f2 => exact absurd d1 (key' f2)
    | tooLarge c2 f2 => exact absurd d1 (key' f2)
    | noNumber c2 f2 => exact absurd d1 (key' f2)
    | date c2 d2 o2 t2 => cases colText_unique c1 c2; exact (noInstant_denotes d2 d1).elim
    | dateTooFar c2 d2 o2 n2 => cases colText_unique c1 c2; exact (noInstant_denotes d2 d1).elim
    | noDate c2 d2 =>
      cases colText_unique c1 c2
      rw [noInstant_unique d1 d2]

theorem timeOf_iff {ov : Overflow} {lib : DateLib} {tz : ChopperTz lib} {col : TimestampCol} {fmt : TimestampFmt} {record : List Str} {r : Res Nanos} :
    TimeOf ov lib tz col fmt record r ↔ getTimestamp ov lib tz record col fmt = r :=
  ⟨fun h => timeOf_unique (timeOf_get ov lib tz col fmt record) h, fun h => h ▸ timeOf_get ov lib tz col fmt record⟩

theorem getTimestamp_ends (ov : Overflow) (lib : DateLib) (tz : ChopperTz lib) (col : TimestampCol) (fmt : TimestampFmt) (record : List Str) :
    getTimestamp ov lib tz record col fmt ≠ .diverge := by
  intro h
  have := timeOf_get ov lib tz col fmt record
  rw [h] at this
  cases this

theorem latest_snoc (l : List (List Str)) (r : List Str) (i : Nat) : latest (l ++ [r]) i = (r[i]?).or (latest l i) := by
  unfold latest
  rw [List.reverse_append, List.reverse_singleton, List.singleton_append, List.findSome?_cons]
  cases r[i]? <;> rfl

/-- The values of the current row are the latest fields of the records so far. -/
def HoldsLatest (width : Nat) (done : List (List Str)) (vs : List FieldValue) : Prop :=
  vs.length = width ∧ ∀ i, i < width → ∃ f, latest done i = some f ∧ vs[i]? = some (.string f)

theorem holds_step {width : Nat} {done : List (List Str)} {vs : List FieldValue} (h : HoldsLatest width done vs) {r : List Str} (hr : r.length ≤ width) :
    HoldsLatest width (done ++ [r]) (overlay vs r) := by
  obtain ⟨hl, hv⟩ := h
  refine ⟨by simp only [overlay, List.length_append, List.length_map, List.length_drop]; omega, ?_⟩
  intro i hi
  rw [latest_snoc]
  by_cases hir : i < r.length
  · refine ⟨r[i], by simp [hir], ?_⟩
    simp [overlay, List.getElem?_append_left, hir]
  · obtain ⟨f, h1, h2⟩ := hv i hi
    refine ⟨f, by rw [List.getElem?_eq_none (by omega)]; exact h1, ?_⟩
    simp only [overlay]
    rw [List.getElem?_append_right (by simp; omega), List.getElem?_drop]
    simp only [List.length_map]
    rw [show r.length + (i - r.length) = i by omega]
    exact h2

theorem holds_first (r : List Str) : HoldsLatest r.length [r] (r.map .string) := by
  refine ⟨by simp, ?_⟩
  intro i hi
  refine ⟨r[i], by simp [latest, hi], by simp [hi]⟩

theorem csv_records_run (env : CsvEnv) (tz : ChopperTz env.lib) (hdr : Header) (col : TimestampCol) (fmt : TimestampFmt) (width : Nat) :
    ∀ (recs : List (Res (List Str))) (done : List (List Str)) (cur : List Str) (ts : Nanos) (vs : List FieldValue),
      TimeOf env.ov env.lib tz col fmt cur (.ok ts) → HoldsLatest width (done ++ [cur]) vs →
      ∃ (more : List (List Str)) (rest : List (Res (List Str))) (src : Source), recs = more.map .ok ++ rest ∧
        (∀ rec ∈ more, rec.length ≤ width ∧ ∃ ts, TimeOf env.ov env.lib tz col fmt rec (.ok ts)) ∧
        RunsAs (CsvSource.nextRow env tz) ⟨recs, hdr, col, fmt, ⟨ts, vs⟩, true⟩ src ∧
        (∀ (k : Nat) row, src.rows[k]? = some row → RowOf env.ov env.lib tz col fmt width (done ++ cur :: more) (done.length + k) row) ∧
        ((rest = [] ∧ src.rows.length = more.length + 1 ∧ src.ending = .eof) ∨
          ∃ bad rest', rest = bad :: rest' ∧ Stop env.ov env.lib tz col fmt width bad src.ending ∧ src.rows.length = more.length)
  | [], done, cur, ts, vs, ht, hh => by
    refine ⟨[], [], ⟨[⟨ts, vs⟩], .eof⟩, rfl, by simp, ⟨⟨[], hdr, col, fmt, ⟨ts, vs⟩, false⟩, .cons rfl (.nil _), rfl⟩, ?_, .inl ⟨rfl, rfl, rfl⟩⟩
    intro k row hk
    match k with
    | 0 =>
      cases hk
      refine ⟨hh.1, ⟨cur, by simp, ht⟩, ?_⟩
      have e : (done ++ [cur]).take (done.length + 0 + 1) = done ++ [cur] := List.take_of_length_le (by simp)
      rw [e]
      exact hh.2
    | _ + 1 => simp at hk
  | x :: recs, done, cur, ts, vs, ht, hh => by
    have stop : ∀ (e : Ending) (st : CsvSource), Stop env.ov env.lib tz col fmt width x e →
        (match (CsvSource.nextRow env tz ⟨x :: recs, hdr, col, fmt, ⟨ts, vs⟩, true⟩).1 with
          | .ok none => e = .eof
          | .err e' => e = .fail e'
          | .panic => e = .crash
          | .diverge => e = .crash
          | .ok (some _) => False) →
        ∃ (more : List (List Str)) (rest : List (Res (List Str))) (src : Source), x :: recs = more.map .ok ++ rest ∧
          (∀ rec ∈ more, rec.length ≤ width ∧ ∃ ts, TimeOf env.ov env.lib tz col fmt rec (.ok ts)) ∧
          RunsAs (CsvSource.nextRow env tz) ⟨x :: recs, hdr, col, fmt, ⟨ts, vs⟩, true⟩ src ∧
          (∀ (k : Nat) row, src.rows[k]? = some row → RowOf env.ov env.lib tz col fmt width (done ++ cur :: more) (done.length + k) row) ∧
          ((rest = [] ∧ src.rows.length = more.length + 1 ∧ src.ending = .eof) ∨
            ∃ bad rest', rest = bad :: rest' ∧ Stop env.ov env.lib tz col fmt width bad src.ending ∧ src.rows.length = more.length) := by
      intro e _ hs hm
      exact ⟨[], x :: recs, ⟨[], e⟩, rfl, by simp, ⟨_, .nil _, hm⟩, by simp, .inr ⟨x, recs, rfl, hs, rfl⟩⟩
    cases x with
    | err e => exact stop _ ⟨[], hdr, col, fmt, ⟨ts, vs⟩, true⟩ .library rfl
    | panic => exact stop _ ⟨[], hdr, col, fmt, ⟨ts, vs⟩, true⟩ .libraryPanic rfl
    | diverge => exact stop _ ⟨[], hdr, col, fmt, ⟨ts, vs⟩, true⟩ .libraryDiverge rfl
    | ok r =>
      by_cases hl : r.length ≤ width
      · have hset : setValues vs r = .ok (overlay vs r) := by rw [setValues_eq, if_pos (by rw [hh.1]; exact hl)]
        cases hg : getTimestamp env.ov env.lib tz r col fmt with
        | ok ts' =>
          have hnext : CsvSource.nextRow env tz ⟨.ok r :: recs, hdr, col, fmt, ⟨ts, vs⟩, true⟩ =
              (.ok (some ⟨ts, vs⟩), ⟨recs, hdr, col, fmt, ⟨ts', overlay vs r⟩, true⟩) := by
            simp [CsvSource.nextRow, updateRow, hset, hg]
          obtain ⟨more, rest, src, h1, h2, ⟨fin, hy, hm⟩, h4, h5⟩ := csv_records_run env tz hdr col fmt width recs (done ++ [cur]) r ts' (overlay vs r) (timeOf_iff.2 hg) (holds_step hh hl)
          refine ⟨r :: more, rest, ⟨⟨ts, vs⟩ :: src.rows, src.ending⟩, by simp [h1], ?_, ⟨fin, .cons hnext hy, hm⟩, ?_, ?_⟩
          · intro rec hr
            rcases List.mem_cons.1 hr with rfl | hr
            · exact ⟨hl, ts', timeOf_iff.2 hg⟩
            · exact h2 rec hr
          · intro k row hk
            match k with
            | 0 =>
              cases hk
              refine ⟨hh.1, ⟨cur, by simp, ht⟩, ?_⟩
              have e : (done ++ cur :: r :: more).take (done.length + 0 + 1) = done ++ [cur] := by
                rw [show done ++ cur :: r :: more = (done ++ [cur]) ++ r :: more by simp]
                rw [show done.length + 0 + 1 = (done ++ [cur]).length by simp]
                exact List.take_left
              rw [e]
              exact hh.2
            | k + 1 =>
              have := h4 k row (by simpa using hk)
              rw [show (done ++ [cur]).length + k = done.length + (k + 1) by simp; omega] at this
              simpa using this
          · rcases h5 with ⟨a, b, c⟩ | ⟨bad, rest', a, b, c⟩
            · exact .inl ⟨a, by simp [b], c⟩
            · exact .inr ⟨bad, rest', a, b, by simp [c]⟩
        | err e => exact stop _ ⟨[], hdr, col, fmt, ⟨ts, vs⟩, true⟩ (.noTime hl (timeOf_iff.2 hg)) (by simp [CsvSource.nextRow, updateRow, hset, hg])
        | panic => exact stop _ ⟨[], hdr, col, fmt, ⟨ts, vs⟩, true⟩ (.crashTime hl (timeOf_iff.2 hg)) (by simp [CsvSource.nextRow, updateRow, hset, hg])
        | diverge => exact absurd hg (getTimestamp_ends _ _ _ _ _ _)
      · have hset : setValues vs r = .panic := by rw [setValues_eq, if_neg (by rw [hh.1]; exact hl)]
        exact stop _ ⟨[], hdr, col, fmt, ⟨ts, vs⟩, true⟩ (.longer (by omega)) (by simp [CsvSource.nextRow, updateRow, hset])

theorem stop_not_good {ov : Overflow} {lib : DateLib} {tz : ChopperTz lib} {col : TimestampCol} {fmt : TimestampFmt} {width : Nat} {rec : List Str} {e : Ending} {ts : Nanos}
    (h : Stop ov lib tz col fmt width (.ok rec) e) (hl : rec.length ≤ width) (ht : TimeOf ov lib tz col fmt rec (.ok ts)) : False := by
  cases h with
  | longer h => omega
  | noTime _ h => cases timeOf_unique h ht
  | crashTime _ h => cases timeOf_unique h ht

theorem stop_unique {ov : Overflow} {lib : DateLib} {tz : ChopperTz lib} {col : TimestampCol} {fmt : TimestampFmt} {width : Nat} {x : Res (List Str)} {e e' : Ending}
    (h : Stop ov lib tz col fmt width x e) (h' : Stop ov lib tz col fmt width x e') : e = e' := by
  cases h with
  | library => cases h'; rfl
  | libraryPanic => cases h'; rfl
  | libraryDiverge => cases h'; rfl
  | longer h =>
    cases h' with
    | longer _ => rfl
    | noTime h2 _ => omega
    | crashTime h2 _ => omega
  | noTime h1 h =>
    cases h' with
    | longer _ => omega
    | noTime _ h2 => cases timeOf_unique h h2; rfl
    | crashTime _ h2 => cases timeOf_unique h h2
  | crashTime h1 h =>
    cases h' with
    | longer _ => rfl
    | noTime _ h2 => cases timeOf_unique h h2
    | crashTime _ h2 => rfl

theorem rowOf_unique {ov : Overflow} {lib : DateLib} {tz : ChopperTz lib} {col : TimestampCol} {fmt : TimestampFmt} {width : Nat} {recs : List (List Str)} {k : Nat} {a b : Row}
    (ha : RowOf ov lib tz col fmt width recs k a) (hb : RowOf ov lib tz col fmt width recs k b) : a = b := by
  obtain ⟨la, ⟨ra, ga, ta⟩, va⟩ := ha
  obtain ⟨lb, ⟨rb, gb, tb⟩, vb⟩ := hb
  obtain ⟨at', av⟩ := a
  obtain ⟨bt, bv⟩ := b
  simp only at *
  rw [ga] at gb
  cases gb
  have h1 := Res.ok.inj (timeOf_unique ta tb)
  have h2 : av = bv := by
    refine List.ext_getElem? fun i => ?_
    by_cases hi : i < width
    · obtain ⟨f, f1, f2⟩ := va i hi
      obtain ⟨g, g1, g2⟩ := vb i hi
      rw [f1] at g1; cases g1
      rw [f2, g2]
    · rw [List.getElem?_eq_none (by omega), List.getElem?_eq_none (by omega)]
  rw [h1, h2]

theorem good_unique {P : List Str → Prop} {B : Res (List Str) → Prop} (hPB : ∀ r, B (.ok r) → ¬ P r) : ∀ {g g' : List (List Str)} {r r' : List (Res (List Str))},
    g.map Res.ok ++ r = g'.map .ok ++ r' → (∀ x ∈ g, P x) → (∀ x ∈ g', P x) → (r = [] ∨ ∃ b m, r = b :: m ∧ B b) → (r' = [] ∨ ∃ b m, r' = b :: m ∧ B b) → g = g' ∧ r = r'
  | [], [], r, r', h, _, _, _, _ => ⟨rfl, h⟩
  | [], x :: g', r, r', h, _, h2, h3, _ => by
    rcases h3 with rfl | ⟨b, m, rfl, hb⟩
    · simp at h
    · simp at h
      rw [h.1] at hb
      exact absurd (h2 x (by simp)) (hPB x hb)
  | x :: g, [], r, r', h, h1, _, _, h3 => by
    rcases h3 with rfl | ⟨b, m, rfl, hb⟩
    · simp at h
    · simp at h
      rw [← h.1] at hb
      exact absurd (h1 x (by simp)) (hPB x hb)
  | x :: g, y :: g', r, r', h, h1, h2, h3, h4 => by
    simp at h
    obtain ⟨rfl, h⟩ := h
    obtain ⟨rfl, rfl⟩ := good_unique hPB h (fun z hz => h1 z (by simp [hz])) (fun z hz => h2 z (by simp [hz])) h3 h4
    exact ⟨rfl, rfl⟩

theorem csvMeaning_unique {ov : Overflow} {lib : DateLib} {tz : ChopperTz lib} {col : TimestampCol} {fmt : TimestampFmt} {records : List (Res (List Str))} {a b : Source}
    (ha : CsvMeaning ov lib tz col fmt records a) (hb : CsvMeaning ov lib tz col fmt records b) : a = b := by
  obtain ⟨f, g, r, e, hg, hr, hx⟩ := ha
  obtain ⟨f', g', r', e', hg', hr', hx'⟩ := hb
  subst e
  have hf : f = f' := by simp at e'; exact e'.1
  subst hf
  obtain ⟨hgg, rfl⟩ := good_unique (P := fun rec => rec.length ≤ f.length ∧ ∃ ts, TimeOf ov lib tz col fmt rec (.ok ts)) (B := fun x => ∃ e, Stop ov lib tz col fmt f.length x e)
    (by rintro rec ⟨e, he⟩ ⟨hl, ts, ht⟩; exact stop_not_good he hl ht) e' hg hg'
    (hx.imp (fun h => h.1) fun ⟨b, m, h, s, _⟩ => ⟨b, m, h, _, s⟩)
    (hx'.imp (fun h => h.1) fun ⟨b, m, h, s, _⟩ => ⟨b, m, h, _, s⟩)
  cases hgg
  obtain ⟨ra, ea⟩ := a
  obtain ⟨rb, eb⟩ := b
  simp only at hx hx' hr hr'
  have hl : ra.length = rb.length ∧ ea = eb := by
    rcases hx with ⟨h1, h2, h3⟩ | ⟨bad, m, h1, h2, h3⟩
    · rcases hx' with ⟨h1', h2', h3'⟩ | ⟨bad', m', h1', h2', h3'⟩
      · exact ⟨by omega, by rw [h3, h3']⟩
      · rw [h1] at h1'; cases h1'
    · rcases hx' with ⟨h1', h2', h3'⟩ | ⟨bad', m', h1', h2', h3'⟩
      · rw [h1] at h1'; cases h1'
      · rw [h1] at h1'; cases h1'
        exact ⟨by omega, stop_unique h2 h2'⟩
  obtain ⟨hl, rfl⟩ := hl
  have : ra = rb := by
    refine List.ext_getElem? fun k => ?_
    by_cases hk : k < ra.length
    · have h1 : ra[k]? = some ra[k] := by simp [hk]
      have h2 : rb[k]? = some (rb[k]'(by omega)) := by simp [show k < rb.length by omega]
      rw [h1, h2, rowOf_unique (hr k _ h1) (hr' k _ h2)]
    · rw [List.getElem?_eq_none (by omega), List.getElem?_eq_none (by omega)]
  rw [this]

end Chopper
