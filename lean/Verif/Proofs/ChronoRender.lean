import Verif.Proofs.ChronoRange
import Verif.Spec.CsvIso

/-! # Proofs about printing dates (C109) -/
namespace Chopper.Chrono
open Chopper Chopper.Spec

theorem digits_lower {s : Str} : ∀ {c : Char}, (∀ x ∈ c :: s, 48 ≤ x.toNat ∧ x.toNat ≤ 57) → c ≠ '0' → 10 ^ s.length ≤ decimalValue (c :: s) := by
  intro c h hc
  have h1 := h c (by simp)
  have h2 : c.toNat ≠ 48 := fun e => hc (by
    have : c = Char.ofNat c.toNat := (Char.ofNat_toNat c).symm
    rw [this, e])
  show 10 ^ s.length ≤ (c.toNat - 48) * 10 ^ s.length + decimalValue s
  have : 1 * 10 ^ s.length ≤ (c.toNat - 48) * 10 ^ s.length := Nat.mul_le_mul_right _ (by omega)
  omega

theorem natToStr_length {k n : Nat} (hk : 1 ≤ k) (h : n < 10 ^ k) : (natToStr n).length ≤ k := by
  obtain ⟨p, h1, h2, h3, h4, h5⟩ := natDigitsAux_spec (n + 1) n [] (by omega)
  have e : natToStr n = p := by unfold natToStr; rw [h1, List.append_nil]
  rw [e]
  by_cases hn : n = 0
  · rw [h5 hn]; exact hk
  · cases p with
    | nil => simp
    | cons c s =>
      have hl := digits_lower (c := c) (s := s) h2.2 (by intro hc; exact h4 hn (by rw [hc]; rfl))
      rw [h3] at hl
      have : 10 ^ s.length < 10 ^ k := by omega
      have := (Nat.pow_lt_pow_iff_right (a := 10) (by decide)).1 this
      simp only [List.length_cons]; omega

theorem decimalValue_zeros (j : Nat) (s : Str) : decimalValue (List.replicate j '0' ++ s) = decimalValue s := by
  induction j with
  | zero => rfl
  | succ j ih =>
    rw [List.replicate_succ, List.cons_append]
    show (('0' : Char).toNat - 48) * 10 ^ _ + decimalValue _ = _
    rw [ih]; simp

theorem padNat_digits {k n : Nat} (hk : 1 ≤ k) (h : n < 10 ^ k) : HasDigits k n (padNat k n) := by
  obtain ⟨h1, h2⟩ := natToStr_spec n
  have hl := natToStr_length hk h
  refine ⟨?_, ?_, ?_⟩
  · simp only [padNat, List.length_append, List.length_replicate]; omega
  · intro c hc
    simp only [padNat, List.mem_append, List.mem_replicate] at hc
    rcases hc with ⟨_, rfl⟩ | hc
    · decide
    · exact h1.2 c hc
  · simp only [padNat, decimalValue_zeros, h2]

/-- Years of the days that times can fall on. -/
theorem dayDate_year {n : Int} (h1 : -1 ≤ n) (h2 : n ≤ 213504) : 0 ≤ (dayDate n).year ∧ (dayDate n).year ≤ 9999 := by
  obtain ⟨h3, h4⟩ := dayDate_spec n
  obtain ⟨h5, h6⟩ := day_in_year h3
  rw [h4] at h5 h6
  have e0 : yearStart 0 = 0 := by decide
  have e1 : yearStart 10000 = 3652425 := by decide
  constructor
  · by_cases h : (dayDate n).year < 0
    · have := yearStart_mono h; omega
    · omega
  · by_cases h : 9999 < (dayDate n).year
    · have := yearStart_mono h
      have e2 : yearStart (9999 + 1) = 3652425 := by decide
      omega
    · omega

theorem monthLen_le (y : Int) (m : Nat) : monthLen y m ≤ 31 := by
  by_cases h : 1 ≤ m ∧ m ≤ 12
  · have hm := (monthLength_iff y m _).2 ⟨h.1, h.2, rfl⟩
    generalize monthLen y m = q at hm
    cases hm <;> omega
  · have : m = 0 ∨ 12 < m := by omega
    rcases this with rfl | h
    · simp [monthLen]
    · unfold monthLen
      rw [if_neg (by omega), List.getElem?_eq_none (by simp only [monthLengths, List.length_cons, List.length_nil]; omega)]
      decide

/-- What a local clock shows. -/
def clockOf (loc : Int) (nanos : Nat) : Clock := ⟨dayDate (loc / 86400), (loc % 86400 / 3600).toNat, (loc % 3600 / 60).toNat, (loc % 60).toNat, nanos⟩

theorem clockOf_real (loc : Int) (nanos : Nat) : RealClock (clockOf loc nanos) := by
  refine ⟨(dayDate_spec _).1, ?_, ?_, ?_⟩ <;> simp only [clockOf] <;> omega

theorem clockOf_seconds (loc : Int) (nanos : Nat) : ClockSeconds (clockOf loc nanos) loc := by
  refine ⟨loc / 86400, daysFrom1970_dayDate _, ?_⟩
  simp only [clockOf]
  omega

theorem offsetText_spec {o : Int} (h1 : -86400 < o) (h2 : o < 86400) : OffsetText (o.tdiv 60 * 60) (offsetText true o) := by
  refine .inr ⟨o.natAbs / 3600, o.natAbs / 60 % 60, padNat 2 (o.natAbs / 3600), padNat 2 (o.natAbs / 60 % 60), padNat_digits (by decide) (by omega), padNat_digits (by decide) (by omega),
    by omega, by omega, ?_⟩
  have hd : o.tdiv 60 = if o < 0 then -((o.natAbs / 60 : Nat) : Int) else ((o.natAbs / 60 : Nat) : Int) := by
    split
    · next h =>
      have : o = -(o.natAbs : Int) := by omega
      rw [this, Int.neg_tdiv, Int.tdiv_eq_ediv_of_nonneg (by omega)]
      simp
    · next h =>
      rw [Int.tdiv_eq_ediv_of_nonneg (by omega)]
      omega
  by_cases h : o < 0
  · right
    refine ⟨by simp [offsetText, h], ?_⟩
    rw [hd, if_pos h]; omega
  · left
    refine ⟨by simp [offsetText, h], ?_⟩
    rw [hd, if_neg h]; omega

/-- Decimals of the fraction for a unit. -/
def decimals : TimestampUnits → Nat
  | .seconds => 0 | .millis => 3 | .micros => 6 | .nanos => 9

def fracOf (u : TimestampUnits) (nsec : Nat) : Str := if decimals u = 0 then [] else fractionText (decimals u) nsec

theorem fracOf_spec (u : TimestampUnits) {nsec : Nat} (h : nsec < 10 ^ 9) : FractionText (nsec / nanosPer u * nanosPer u) (fracOf u nsec) := by
  cases u with
  | seconds => exact .inl ⟨rfl, by simp only [nanosPer]; omega⟩
  | millis =>
    have hd := padNat_digits (k := 3) (n := nsec / 10 ^ 6) (by decide) (by omega)
    refine .inr ⟨padNat 3 (nsec / 10 ^ 6), rfl, ⟨(by intro e; have := hd.1; rw [e] at this; exact absurd this (by decide)), hd.2.1⟩, ?_⟩
    rw [hd.2.2, hd.1]; simp only [nanosPer]; omega
  | micros =>
    have hd := padNat_digits (k := 6) (n := nsec / 10 ^ 3) (by decide) (by omega)
    refine .inr ⟨padNat 6 (nsec / 10 ^ 3), rfl, ⟨(by intro e; have := hd.1; rw [e] at this; exact absurd this (by decide)), hd.2.1⟩, ?_⟩
    rw [hd.2.2, hd.1]; simp only [nanosPer]; omega
  | nanos =>
    have hd := padNat_digits (k := 9) (n := nsec / 10 ^ 0) (by decide) (by omega)
    refine .inr ⟨padNat 9 (nsec / 10 ^ 0), rfl, ⟨(by intro e; have := hd.1; rw [e] at this; exact absurd this (by decide)), hd.2.1⟩, ?_⟩
    rw [hd.2.2, hd.1]; simp only [nanosPer]; omega

theorem render_iso (z : TzSpans) (u : TimestampUnits) (secs : Int) (nsec : Nat) : z.render secs nsec (isoPattern u) =
    let loc := secs + z.offsetAt secs
    yearText (dayDate (loc / 86400)).year ++ "-".toList ++ padNat 2 (dayDate (loc / 86400)).month ++ "-".toList ++ padNat 2 (dayDate (loc / 86400)).day ++ "T".toList ++
      (padNat 2 (loc % 86400 / 3600).toNat ++ ":".toList ++ padNat 2 (loc % 3600 / 60).toNat ++ ":".toList ++ padNat 2 (loc % 60).toNat) ++ fracOf u nsec ++ offsetText true (z.offsetAt secs) := by
  have hi : items (isoPattern u) = [.num .year true, .lit '-', .num .month true, .lit '-', .num .day true, .lit 'T', .num .hour true, .lit ':', .num .minute true, .lit ':',
      .num .second true] ++ (if decimals u = 0 then [] else [.fraction (some (decimals u))]) ++ [.offset true] := by cases u <;> decide
  unfold TzSpans.render
  rw [hi]
  cases u <;> simp [formatItem, fracOf, decimals, dayDate]

/-- The text of a time is the ISO text of what the local clock shows. -/
theorem isoText_clock {z : TzSpans} (hz : InOrder z) (u : TimestampUnits) (ts : Nanos) {o : Int} (ho : OffsetIs z (ts.toNat / 10 ^ 9 : Nat) o) (h1 : -86400 < o) (h2 : o < 86400) :
    IsoClockText (clockOf ((ts.toNat / 10 ^ 9 : Nat) + o) (ts.toNat % 10 ^ 9 / nanosPer u * nanosPer u)) (o.tdiv 60 * 60) (isoText z.render u ts) := by
  have hoff := offsetIs_unique hz (offsetAt_spec hz (ts.toNat / 10 ^ 9 : Nat)) ho
  have hlt : ts.toNat < 2 ^ 64 := ts.isLt
  unfold isoText
  rw [render_iso, hoff]
  generalize hloc : ((ts.toNat / 10 ^ 9 : Nat) : Int) + o = loc
  have hb : -86400 ≤ loc ∧ loc ≤ 18446744073 + 86400 := by constructor <;> omega
  obtain ⟨hy0, hy1⟩ := dayDate_year (n := loc / 86400) (by omega) (by omega)
  obtain ⟨hm1, hm2, hd1, hd2⟩ := (realDate_iff _).1 (dayDate_spec (loc / 86400)).1
  have hd3 : monthLen (dayDate (loc / 86400)).year (dayDate (loc / 86400)).month ≤ 31 := by
    exact monthLen_le _ _
  refine ⟨_, _, fracOf u (ts.toNat % 10 ^ 9), offsetText true o, ⟨(dayDate (loc / 86400)).year.toNat, yearText (dayDate (loc / 86400)).year, padNat 2 (dayDate (loc / 86400)).month,
    padNat 2 (dayDate (loc / 86400)).day, ?_, ?_, ?_, ?_, rfl⟩, ⟨padNat 2 (loc % 86400 / 3600).toNat, padNat 2 (loc % 3600 / 60).toNat, padNat 2 (loc % 60).toNat, ?_, ?_, ?_, rfl⟩,
    fracOf_spec u (Nat.mod_lt _ (by decide)), offsetText_spec h1 h2, rfl⟩
  · simp only [clockOf]; omega
  · unfold yearText
    rw [if_pos ⟨hy0, hy1⟩]
    exact padNat_digits (by decide) (by omega)
  · exact padNat_digits (by decide) (by simp only [clockOf]; omega)
  · exact padNat_digits (by decide) (by simp only [clockOf]; omega)
  · exact padNat_digits (by decide) (by simp only [clockOf]; omega)
  · exact padNat_digits (by decide) (by simp only [clockOf]; omega)
  · exact padNat_digits (by decide) (by simp only [clockOf]; omega)

/-! ## The order of texts -/

theorem before_append (l : Str) {x y : Str} (h : TextBefore x y) : TextBefore (l ++ x) (l ++ y) := by
  obtain ⟨c, a, b, u, v, rfl, rfl, h⟩ := h
  exact ⟨l ++ c, a, b, u, v, by simp, by simp, h⟩

theorem before_digits : ∀ {s t : Str} (x y : Str), (∀ c ∈ s, 48 ≤ c.toNat ∧ c.toNat ≤ 57) → (∀ c ∈ t, 48 ≤ c.toNat ∧ c.toNat ≤ 57) → s.length = t.length →
    decimalValue s < decimalValue t → TextBefore (s ++ x) (t ++ y)
  | [], [], _, _, _, _, _, h => by simp [decimalValue] at h
  | [], _ :: _, _, _, _, _, h, _ => by simp at h
  | _ :: _, [], _, _, _, _, h, _ => by simp at h
  | a :: s, b :: t, x, y, hs, ht, hl, h => by
    have ha := hs a (by simp)
    have hb := ht b (by simp)
    have hl' : s.length = t.length := by simpa using hl
    have h' : (a.toNat - 48) * 10 ^ s.length + decimalValue s < (b.toNat - 48) * 10 ^ t.length + decimalValue t := h
    rw [← hl'] at h'
    have h1 := decimalValue_lt (s := s) (fun c hc => hs c (by simp [hc]))
    have h2 := decimalValue_lt (s := t) (fun c hc => ht c (by simp [hc]))
    rw [← hl'] at h2
    rcases Nat.lt_trichotomy a.toNat b.toNat with hab | hab | hab
    · exact ⟨[], a, b, s ++ x, t ++ y, rfl, rfl, hab⟩
    · have e : a = b := by rw [← Char.ofNat_toNat a, ← Char.ofNat_toNat b, hab]
      subst e
      exact before_append [a] (before_digits x y (fun c hc => hs c (by simp [hc])) (fun c hc => ht c (by simp [hc])) hl' (by omega))
    · have : (b.toNat - 48 + 1) * 10 ^ s.length ≤ (a.toNat - 48) * 10 ^ s.length := Nat.mul_le_mul_right _ (by omega)
      rw [Nat.add_mul] at this
      omega

theorem digits_same : ∀ {s t : Str}, (∀ c ∈ s, 48 ≤ c.toNat ∧ c.toNat ≤ 57) → (∀ c ∈ t, 48 ≤ c.toNat ∧ c.toNat ≤ 57) → s.length = t.length →
    decimalValue s = decimalValue t → s = t
  | [], [], _, _, _, _ => rfl
  | [], _ :: _, _, _, h, _ => by simp at h
  | _ :: _, [], _, _, h, _ => by simp at h
  | a :: s, b :: t, hs, ht, hl, h => by
    have ha := hs a (by simp)
    have hb := ht b (by simp)
    have hl' : s.length = t.length := by simpa using hl
    have h' : (a.toNat - 48) * 10 ^ s.length + decimalValue s = (b.toNat - 48) * 10 ^ t.length + decimalValue t := h
    rw [← hl'] at h'
    have h1 := decimalValue_lt (s := s) (fun c hc => hs c (by simp [hc]))
    have h2 := decimalValue_lt (s := t) (fun c hc => ht c (by simp [hc]))
    rw [← hl'] at h2
    have hab : a.toNat = b.toNat := by
      rcases Nat.lt_trichotomy a.toNat b.toNat with hab | hab | hab
      · have : (a.toNat - 48 + 1) * 10 ^ s.length ≤ (b.toNat - 48) * 10 ^ s.length := Nat.mul_le_mul_right _ (by omega)
        rw [Nat.add_mul] at this
        omega
      · exact hab
      · have : (b.toNat - 48 + 1) * 10 ^ s.length ≤ (a.toNat - 48) * 10 ^ s.length := Nat.mul_le_mul_right _ (by omega)
        rw [Nat.add_mul] at this
        omega
    have e : a = b := by rw [← Char.ofNat_toNat a, ← Char.ofNat_toNat b, hab]
    subst e
    rw [digits_same (fun c hc => hs c (by simp [hc])) (fun c hc => ht c (by simp [hc])) hl' (by omega)]

/-- Fields of digits: the first field decides, if equal what follows. -/
theorem before_field {k m n : Nat} {s t x y : Str} (hs : HasDigits k m s) (ht : HasDigits k n t) (h : m < n ∨ (m = n ∧ TextBefore x y)) : TextBefore (s ++ x) (t ++ y) := by
  rcases h with h | ⟨rfl, h⟩
  · exact before_digits x y hs.2.1 ht.2.1 (hs.1.trans ht.1.symm) (by rw [hs.2.2, ht.2.2]; exact h)
  · rw [digits_same hs.2.1 ht.2.1 (hs.1.trans ht.1.symm) (hs.2.2.trans ht.2.2.symm)]
    exact before_append t h

/-- Days are in the order of year, month and day. -/
theorem date_lex {a b : Date} (ha : RealDate a) (hb : RealDate b) (h : dayNumber a.year a.month a.day < dayNumber b.year b.month b.day) :
    a.year < b.year ∨ (a.year = b.year ∧ (a.month < b.month ∨ (a.month = b.month ∧ a.day < b.day))) := by
  have h1 := day_in_year ha
  have h2 := day_in_year hb
  rcases Int.lt_trichotomy a.year b.year with hy | hy | hy
  · exact .inl hy
  · refine .inr ⟨hy, ?_⟩
    obtain ⟨a1, a2, a3, a4⟩ := (realDate_iff a).1 ha
    obtain ⟨b1, b2, b3, b4⟩ := (realDate_iff b).1 hb
    rw [dayNumber_eq, dayNumber_eq, hy] at h
    rw [hy] at a4
    rcases Nat.lt_trichotomy a.month b.month with hm | hm | hm
    · exact .inl hm
    · refine .inr ⟨hm, ?_⟩
      rw [hm] at h
      omega
    · have := daysBefore_mono b.year b1 hm a2
      omega
  · have := yearStart_mono hy
    omega

theorem before_cons {a b : Char} {s t : Str} : TextBefore (a :: s) (b :: t) ↔ a.toNat < b.toNat ∨ (a = b ∧ TextBefore s t) := by
  constructor
  · rintro ⟨c, x, y, u, v, h1, h2, h⟩
    cases c with
    | nil => simp only [List.nil_append, List.cons.injEq] at h1 h2; rw [h1.1, h2.1]; exact .inl h
    | cons d c =>
      simp only [List.cons_append, List.cons.injEq] at h1 h2
      exact .inr ⟨h1.1.trans h2.1.symm, c, x, y, u, v, h1.2, h2.2, h⟩
  · rintro (h | ⟨rfl, h⟩)
    · exact ⟨[], a, b, s, t, rfl, rfl, h⟩
    · exact before_append [a] h

theorem before_nil {s t : Str} (h : TextBefore s t) : s ≠ [] ∧ t ≠ [] := by
  obtain ⟨c, x, y, u, v, rfl, rfl, _⟩ := h
  exact ⟨by simp, by simp⟩

theorem before_asymm : ∀ {s t : Str}, TextBefore s t → ¬ TextBefore t s
  | [], _, h, _ => (before_nil h).1 rfl
  | _ :: _, [], h, _ => (before_nil h).2 rfl
  | a :: s, b :: t, h, h' => by
    rw [before_cons] at h h'
    rcases h with h | ⟨rfl, h⟩
    · rcases h' with h' | ⟨rfl, h'⟩ <;> omega
    · rcases h' with h' | ⟨_, h'⟩
      · omega
      · exact before_asymm h h'

theorem monthLen_lt (n : Int) : (dayDate n).month < 100 ∧ (dayDate n).day < 100 := by
  obtain ⟨hm1, hm2, hd1, hd2⟩ := (realDate_iff _).1 (dayDate_spec n).1
  have := monthLen_le (dayDate n).year (dayDate n).month
  omega

theorem clock_parts (loc : Int) : loc = loc / 86400 * 86400 + loc % 86400 / 3600 * 3600 + loc % 3600 / 60 * 60 + loc % 60 := by omega

theorem clock_hour {a b : Int} (hle : a ≤ b) (hd : a / 86400 = b / 86400) (h : ¬ (a % 86400 / 3600).toNat < (b % 86400 / 3600).toNat) : a % 86400 / 3600 = b % 86400 / 3600 := by
  have : a % 86400 ≤ b % 86400 := by omega
  have := Int.ediv_le_ediv (c := 3600) (by decide) this
  omega

theorem clock_minute {a b : Int} (hle : a ≤ b) (hd : a / 86400 = b / 86400) (hh : a % 86400 / 3600 = b % 86400 / 3600) (h : ¬ (a % 3600 / 60).toNat < (b % 3600 / 60).toNat) :
    a % 3600 / 60 = b % 3600 / 60 := by
  have ea : a % 86400 % 3600 = a % 3600 := Int.emod_emod_of_dvd a (by decide)
  have eb : b % 86400 % 3600 = b % 3600 := Int.emod_emod_of_dvd b (by decide)
  have h1 : a % 3600 ≤ b % 3600 := by
    rw [← ea, ← eb]
    have : a % 86400 ≤ b % 86400 := by omega
    generalize a % 86400 = x at *
    generalize b % 86400 = y at *
    omega
  have := Int.ediv_le_ediv (c := 60) (by decide) h1
  omega

/-- Texts of times with the same offset are in the order of the times. -/
theorem iso_before {z : TzSpans} (u : TimestampUnits) {n n' : Nat} {o : Int} (h1 : z.offsetAt (n / 10 ^ 9 : Nat) = o) (h2 : z.offsetAt (n' / 10 ^ 9 : Nat) = o) (ho : -86400 < o) (ho' : o < 86400)
    (hn : n < 2 ^ 64) (hn' : n' < 2 ^ 64) (h : n / nanosPer u < n' / nanosPer u) :
    TextBefore (z.render (n / 10 ^ 9 : Nat) (n % 10 ^ 9) (isoPattern u)) (z.render (n' / 10 ^ 9 : Nat) (n' % 10 ^ 9) (isoPattern u)) := by
  rw [render_iso, render_iso, h1, h2]
  have hcmp : n / 10 ^ 9 < n' / 10 ^ 9 ∨ (n / 10 ^ 9 = n' / 10 ^ 9 ∧ decimals u ≠ 0 ∧ n % 10 ^ 9 / 10 ^ (9 - decimals u) < n' % 10 ^ 9 / 10 ^ (9 - decimals u)) := by
    cases u <;> simp only [nanosPer, decimals] at h ⊢ <;> omega
  generalize hloc : ((n / 10 ^ 9 : Nat) : Int) + o = loc
  generalize hloc' : ((n' / 10 ^ 9 : Nat) : Int) + o = loc'
  have hb : -86400 ≤ loc ∧ loc ≤ 18446744073 + 86400 := by constructor <;> omega
  have hb' : -86400 ≤ loc' ∧ loc' ≤ 18446744073 + 86400 := by constructor <;> omega
  obtain ⟨hy0, hy1⟩ := dayDate_year (n := loc / 86400) (by omega) (by omega)
  obtain ⟨hy0', hy1'⟩ := dayDate_year (n := loc' / 86400) (by omega) (by omega)
  have hl := monthLen_lt (loc / 86400)
  have hl' := monthLen_lt (loc' / 86400)
  simp only [List.append_assoc]
  unfold yearText
  rw [if_pos ⟨hy0, hy1⟩, if_pos ⟨hy0', hy1'⟩]
  have hday : loc / 86400 < loc' / 86400 ∨ loc / 86400 = loc' / 86400 := by omega
  have pd : ∀ {k n : Nat}, 1 ≤ k → n < 10 ^ k → HasDigits k n (padNat k n) := padNat_digits
  rcases hday with hday | hday
  · have hlex := date_lex (dayDate_spec (loc / 86400)).1 (dayDate_spec (loc' / 86400)).1 (by rw [(dayDate_spec _).2, (dayDate_spec _).2]; exact hday)
    rcases hlex with hy | ⟨hy, hm | ⟨hm, hd⟩⟩
    · exact before_field (pd (by decide) (by omega)) (pd (by decide) (by omega)) (.inl (by omega))
    · rw [hy]
      exact before_append _ (before_append _ (before_field (pd (by decide) (by omega)) (pd (by decide) (by omega)) (.inl hm)))
    · rw [hy, hm]
      exact before_append _ (before_append _ (before_append _ (before_append _ (before_field (pd (by decide) (by omega)) (pd (by decide) (by omega)) (.inl hd)))))
  · rw [hday]
    refine before_append _ (before_append _ (before_append _ (before_append _ (before_append _ (before_append _ ?_)))))
    refine before_field (pd (by decide) (by omega)) (pd (by decide) (by omega)) ?_
    by_cases hh : (loc % 86400 / 3600).toNat < (loc' % 86400 / 3600).toNat
    · exact .inl hh
    have ehh := clock_hour (by omega) hday hh
    refine .inr ⟨by rw [ehh], before_append _ (before_field (pd (by decide) (by omega)) (pd (by decide) (by omega)) ?_)⟩
    by_cases hm : (loc % 3600 / 60).toNat < (loc' % 3600 / 60).toNat
    · exact .inl hm
    have ehm := clock_minute (by omega) hday ehh hm
    refine .inr ⟨by rw [ehm], before_append _ (before_field (pd (by decide) (by omega)) (pd (by decide) (by omega)) ?_)⟩
    by_cases hs : (loc % 60).toNat < (loc' % 60).toNat
    · exact .inl hs
    have ea := clock_parts loc
    have eb := clock_parts loc'
    rw [hday, ehh, ehm] at ea
    have ehs : loc % 60 = loc' % 60 := by
      generalize loc' / 86400 * 86400 + loc' % 86400 / 3600 * 3600 + loc' % 3600 / 60 * 60 = q at ea eb
      have : loc ≤ loc' := by omega
      clear hh hm hday ehh ehm
      omega
    refine .inr ⟨by rw [ehs], ?_⟩
    have heq : loc = loc' := by rw [ehs] at ea; exact ea.trans eb.symm
    rcases hcmp with hcmp | ⟨_, h0, hcmp⟩
    · omega
    unfold fracOf
    rw [if_neg h0, if_neg h0]
    refine before_append ['.'] (before_field (k := decimals u) (pd (by omega) ?_) (pd (by omega) ?_) (.inl hcmp))
    · cases u <;> simp only [decimals] <;> omega
    · cases u <;> simp only [decimals] <;> omega

end Chopper.Chrono
