import Verif.Spec.Calendar
import Verif.Proofs.Text

/-!
# The calendar
-/
namespace Chopper.Chrono
open Chopper Spec

theorem isLeap_iff (y : Int) : isLeap y = true ↔ LeapYear y := by
  simp only [isLeap, LeapYear, Bool.or_eq_true, Bool.and_eq_true, beq_iff_eq, bne_iff_ne]
  omega

theorem isLeap_false_iff (y : Int) : isLeap y = false ↔ ¬ LeapYear y := by
  rw [← isLeap_iff]; simp

theorem leapDays_succ (y : Int) : leapDays (y + 1) = leapDays y + if isLeap y then 1 else 0 := by
  unfold leapDays
  by_cases h : isLeap y = true
  · rw [if_pos h]
    have := (isLeap_iff y).1 h
    unfold LeapYear at this
    omega
  · rw [if_neg h]
    have : ¬ LeapYear y := fun hl => h ((isLeap_iff y).2 hl)
    unfold LeapYear at this
    omega

theorem leapDays_cycle (q y : Int) : leapDays (400 * q + y) = 97 * q + leapDays y := by
  unfold leapDays; omega

/-- Length of the year. -/
theorem monthLengths_sum (y : Int) : ((monthLengths y).sum : Int) = 365 + (leapDays (y + 1) - leapDays y) := by
  rw [leapDays_succ]
  unfold monthLengths
  by_cases h : isLeap y = true <;> simp [h]
  omega

theorem monthLength_iff (y : Int) (m l : Nat) : MonthLength y m l ↔ 1 ≤ m ∧ m ≤ 12 ∧ l = monthLen y m := by
  constructor
  · intro h
    cases h with
    | long h => simp only [List.mem_cons, List.not_mem_nil, or_false] at h; rcases h with rfl | rfl | rfl | rfl | rfl | rfl | rfl <;> exact ⟨by decide, by decide, rfl⟩
    | short h => simp only [List.mem_cons, List.not_mem_nil, or_false] at h; rcases h with rfl | rfl | rfl | rfl <;> exact ⟨by decide, by decide, rfl⟩
    | leap h => refine ⟨by decide, by decide, ?_⟩; simp [monthLen, monthLengths, (isLeap_iff y).2 h]
    | common h => refine ⟨by decide, by decide, ?_⟩; simp [monthLen, monthLengths, (isLeap_false_iff y).2 h]
  · rintro ⟨h1, h2, rfl⟩
    have : m = 1 ∨ m = 2 ∨ m = 3 ∨ m = 4 ∨ m = 5 ∨ m = 6 ∨ m = 7 ∨ m = 8 ∨ m = 9 ∨ m = 10 ∨ m = 11 ∨ m = 12 := by omega
    rcases this with rfl | rfl | rfl | rfl | rfl | rfl | rfl | rfl | rfl | rfl | rfl | rfl
    case inr.inl =>
      by_cases h : isLeap y = true
      · have e : monthLen y 2 = 29 := by simp [monthLen, monthLengths, h]
        rw [e]; exact .leap ((isLeap_iff y).1 h)
      · have e : monthLen y 2 = 28 := by simp [monthLen, monthLengths, h]
        rw [e]; exact .common fun hl => h ((isLeap_iff y).2 hl)
    all_goals first | exact .long (by decide) | exact .short (by decide)

theorem realDate_iff (d : Date) : RealDate d ↔ 1 ≤ d.month ∧ d.month ≤ 12 ∧ 1 ≤ d.day ∧ d.day ≤ monthLen d.year d.month := by
  constructor
  · rintro ⟨l, h, h1, h2⟩
    obtain ⟨a, b, rfl⟩ := (monthLength_iff _ _ _).1 h
    exact ⟨a, b, h1, h2⟩
  · rintro ⟨a, b, h1, h2⟩
    exact ⟨_, (monthLength_iff _ _ _).2 ⟨a, b, rfl⟩, h1, h2⟩

theorem daysBefore_succ (y : Int) {m : Nat} (h1 : 1 ≤ m) (h2 : m ≤ 12) : daysBefore y (m + 1) = daysBefore y m + monthLen y m := by
  have : m = 1 ∨ m = 2 ∨ m = 3 ∨ m = 4 ∨ m = 5 ∨ m = 6 ∨ m = 7 ∨ m = 8 ∨ m = 9 ∨ m = 10 ∨ m = 11 ∨ m = 12 := by omega
  rcases this with rfl | rfl | rfl | rfl | rfl | rfl | rfl | rfl | rfl | rfl | rfl | rfl <;> simp [daysBefore, monthLen, monthLengths] <;> omega

theorem daysBefore_mono (y : Int) {m m' : Nat} (h1 : 1 ≤ m) (h : m < m') (h2 : m' ≤ 12) : daysBefore y m + monthLen y m ≤ daysBefore y m' := by
  obtain ⟨k, rfl⟩ := Nat.exists_eq_add_of_lt h
  induction k with
  | zero => rw [Nat.add_zero, daysBefore_succ y h1 (by omega)]; exact Nat.le_refl _
  | succ k ih =>
    have := ih (by omega) (by omega)
    rw [show m + (k + 1) + 1 = (m + k + 1) + 1 from rfl, daysBefore_succ y (by omega) (by omega)]
    omega

theorem daysBefore_year (y : Int) {m : Nat} (h1 : 1 ≤ m) (h2 : m ≤ 12) : (daysBefore y m + monthLen y m : Int) ≤ 365 + (leapDays (y + 1) - leapDays y) := by
  rw [← monthLengths_sum]
  have : m = 1 ∨ m = 2 ∨ m = 3 ∨ m = 4 ∨ m = 5 ∨ m = 6 ∨ m = 7 ∨ m = 8 ∨ m = 9 ∨ m = 10 ∨ m = 11 ∨ m = 12 := by omega
  rcases this with rfl | rfl | rfl | rfl | rfl | rfl | rfl | rfl | rfl | rfl | rfl | rfl <;> simp [daysBefore, monthLen, monthLengths] <;> omega

/-- Beginning of the year, as days since year 0. -/
def yearStart (y : Int) : Int := 365 * y + leapDays y

theorem yearStart_mono {y y' : Int} (h : y < y') : yearStart (y + 1) ≤ yearStart y' := by
  unfold yearStart leapDays; omega

theorem dayNumber_eq (y : Int) (m d : Nat) : dayNumber y m d = yearStart y + daysBefore y m + d - 1 - 719528 := rfl

/-- Days within the year. -/
theorem day_in_year {d : Date} (h : RealDate d) : yearStart d.year ≤ dayNumber d.year d.month d.day + 719528 ∧
    dayNumber d.year d.month d.day + 719528 < yearStart (d.year + 1) := by
  obtain ⟨h1, h2, h3, h4⟩ := (realDate_iff d).1 h
  have := daysBefore_year d.year h1 h2
  rw [dayNumber_eq]
  unfold yearStart at *
  omega

theorem dayNumber_inj {a b : Date} (ha : RealDate a) (hb : RealDate b) (h : dayNumber a.year a.month a.day = dayNumber b.year b.month b.day) : a = b := by
  have ya := day_in_year ha
  have yb := day_in_year hb
  have hy : a.year = b.year := by
    rcases Int.lt_trichotomy a.year b.year with hl | hl | hl
    · have := yearStart_mono hl; omega
    · exact hl
    · have := yearStart_mono hl; omega
  obtain ⟨a1, a2, a3, a4⟩ := (realDate_iff a).1 ha
  obtain ⟨b1, b2, b3, b4⟩ := (realDate_iff b).1 hb
  rw [dayNumber_eq, dayNumber_eq, hy] at h
  rw [hy] at a4
  have hm : a.month = b.month := by
    rcases Nat.lt_trichotomy a.month b.month with hl | hl | hl
    · have := daysBefore_mono b.year a1 hl b2; omega
    · exact hl
    · have := daysBefore_mono b.year b1 hl a2; omega
  rw [hm] at h
  have hd : a.day = b.day := by omega
  cases a; cases b
  simp only at hy hm hd
  subst hy hm hd
  rfl

theorem nextDay_real {a b : Date} (h : NextDay a b) (ha : RealDate a) : RealDate b := by
  cases h with
  | day hl hd => exact ⟨_, hl, by simp, hd⟩
  | @month y m l hl hm =>
    obtain ⟨h1, _, _⟩ := (monthLength_iff _ _ _).1 hl
    refine (realDate_iff _).2 ⟨by simp, hm, by simp, ?_⟩
    have : m + 1 = 2 ∨ m + 1 = 3 ∨ m + 1 = 4 ∨ m + 1 = 5 ∨ m + 1 = 6 ∨ m + 1 = 7 ∨ m + 1 = 8 ∨ m + 1 = 9 ∨ m + 1 = 10 ∨ m + 1 = 11 ∨ m + 1 = 12 := by omega
    show 1 ≤ monthLen y (m + 1)
    rcases this with e | e | e | e | e | e | e | e | e | e | e <;> rw [e] <;> simp [monthLen, monthLengths]
    split <;> decide
  | year => exact ⟨31, .long (List.mem_cons_self ..), by simp, by simp⟩

theorem nextDay_number {a b : Date} (h : NextDay a b) : dayNumber b.year b.month b.day = dayNumber a.year a.month a.day + 1 := by
  cases h with
  | day hl hd => simp only [dayNumber_eq]; omega
  | @month y m l hl hm =>
    obtain ⟨h1, h2, rfl⟩ := (monthLength_iff _ _ _).1 hl
    simp only [dayNumber_eq, daysBefore_succ y h1 h2]
    omega
  | @year y =>
    simp only [dayNumber_eq, yearStart]
    have e1 : daysBefore (y + 1) 1 = 0 := rfl
    have e2 := monthLengths_sum y
    have e3 : (monthLengths y).sum = daysBefore y 12 + 31 := by simp [monthLengths, daysBefore]; omega
    omega

/-- Every real date has a next day. -/
theorem nextDay_exists {a : Date} (h : RealDate a) : ∃ b, NextDay a b := by
  obtain ⟨l, hl, h1, h2⟩ := h
  obtain ⟨y, m, d⟩ := a
  simp only at hl h1 h2
  by_cases hd : d < l
  · exact ⟨_, .day hl hd⟩
  · obtain rfl : d = l := by omega
    obtain ⟨m1, m2, hm⟩ := (monthLength_iff _ _ _).1 hl
    by_cases hm' : m < 12
    · exact ⟨_, .month hl hm'⟩
    · obtain rfl : m = 12 := by omega
      obtain rfl : d = 31 := hm
      exact ⟨_, .year⟩

/-! ## From day numbers to dates -/

theorem splitMonth_spec : ∀ (ls : List Nat) (m o : Nat), o < ls.sum → ∃ i l, ls[i]? = some l ∧ splitMonth m ls o = (m + i, o - (ls.take i).sum + 1) ∧
    (ls.take i).sum ≤ o ∧ o < (ls.take i).sum + l
  | [], m, o, h => by simp at h
  | l :: ls, m, o, h => by
    unfold splitMonth
    by_cases ho : o < l
    · exact ⟨0, l, rfl, by simp [ho], by simp, by simpa using ho⟩
    · rw [if_neg ho]
      obtain ⟨i, l', h1, h2, h3, h4⟩ := splitMonth_spec ls (m + 1) (o - l) (by simp at h; omega)
      refine ⟨i + 1, l', h1, ?_, ?_, ?_⟩
      · rw [h2, List.take_succ_cons, List.sum_cons]
        simp only [Prod.mk.injEq]; omega
      · rw [List.take_succ_cons, List.sum_cons]; omega
      · rw [List.take_succ_cons, List.sum_cons]; omega

theorem yearOf_spec (n : Int) : yearStart (yearOf n).1 + (yearOf n).2 = n + 719528 ∧ ((yearOf n).2 : Int) < 365 + (leapDays ((yearOf n).1 + 1) - leapDays (yearOf n).1) := by
  unfold yearOf
  simp only
  generalize hc : n + 719528 = c
  have h1 : 0 ≤ c % 146097 := by omega
  have h2 : c % 146097 < 146097 := by omega
  have h3 : c = 146097 * (c / 146097) + c % 146097 := by omega
  generalize c / 146097 = q at *
  generalize c % 146097 = r at *
  have hy0 : 0 ≤ r / 365 := by omega
  have hy1 : r / 365 ≤ 400 := by omega
  have hr : r = 365 * (r / 365) + r % 365 := by omega
  have ho : 0 ≤ r % 365 ∧ r % 365 < 365 := by omega
  generalize r / 365 = y at *
  generalize r % 365 = o at *
  have hd0 : 0 ≤ leapDays y ∧ leapDays y ≤ 97 := by unfold leapDays; omega
  have hy1' : y - 1 + 1 = y := by omega
  by_cases h : o < leapDays y
  · rw [if_pos h]
    have hp : leapDays y - 1 ≤ leapDays (y - 1) ∧ leapDays (y - 1) ≤ leapDays y ∧ leapDays (y - 1) ≤ 97 := by unfold leapDays; omega
    have e1 := leapDays_cycle q (y - 1)
    have e2 : leapDays (400 * q + (y - 1) + 1) = 97 * q + leapDays y := by
      rw [show 400 * q + (y - 1) + 1 = 400 * q + y by omega]; exact leapDays_cycle q y
    simp only [yearStart, e1, e2]
    omega
  · rw [if_neg h]
    have hp : leapDays y ≤ leapDays (y + 1) := by unfold leapDays; omega
    have e1 := leapDays_cycle q y
    have e2 : leapDays (400 * q + y + 1) = 97 * q + leapDays (y + 1) := by
      rw [show 400 * q + y + 1 = 400 * q + (y + 1) by omega]; exact leapDays_cycle q (y + 1)
    simp only [yearStart, e1, e2]
    omega

/-- The date of a day number. -/
def dayDate (n : Int) : Date := ⟨(dateOf n).1, (dateOf n).2.1, (dateOf n).2.2⟩

theorem dayDate_spec (n : Int) : RealDate (dayDate n) ∧ dayNumber (dayDate n).year (dayDate n).month (dayDate n).day = n := by
  obtain ⟨h1, h2⟩ := yearOf_spec n
  rw [← monthLengths_sum] at h2
  obtain ⟨i, l, g1, g2, g3, g4⟩ := splitMonth_spec (monthLengths (yearOf n).1) 1 (yearOf n).2 (by omega)
  have hi : i < 12 := by
    have := (List.getElem?_eq_some_iff.1 g1).1
    simpa [monthLengths] using this
  have e : dayDate n = ⟨(yearOf n).1, 1 + i, (yearOf n).2 - ((monthLengths (yearOf n).1).take i).sum + 1⟩ := by
    simp only [dayDate, dateOf, g2]
  have hl : monthLen (yearOf n).1 (1 + i) = l := by
    unfold monthLen
    rw [if_neg (by omega), show 1 + i - 1 = i by omega, g1]; rfl
  have hb : daysBefore (yearOf n).1 (1 + i) = ((monthLengths (yearOf n).1).take i).sum := by
    unfold daysBefore
    rw [show 1 + i - 1 = i by omega]
  rw [e]
  constructor
  · exact (realDate_iff _).2 ⟨by simp, by simp; omega, by simp, by simp only [hl]; omega⟩
  · rw [dayNumber_eq, hb]
    simp only
    omega

theorem dayDate_number {d : Date} (h : RealDate d) : dayDate (dayNumber d.year d.month d.day) = d :=
  dayNumber_inj (dayDate_spec _).1 h (dayDate_spec _).2

theorem dayDate_next (n : Int) : NextDay (dayDate n) (dayDate (n + 1)) := by
  obtain ⟨b, hb⟩ := nextDay_exists (dayDate_spec n).1
  have hr := nextDay_real hb (dayDate_spec n).1
  have hn := nextDay_number hb
  rw [(dayDate_spec n).2] at hn
  have : dayDate (n + 1) = b := by rw [← hn]; exact dayDate_number hr
  rw [this]; exact hb

theorem dayDate_zero : dayDate 0 = ⟨1970, 1, 1⟩ := by decide +kernel

theorem daysFrom1970_dayDate (n : Int) : DaysFrom1970 (dayDate n) n := by
  have up : ∀ k : Nat, DaysFrom1970 (dayDate k) k := by
    intro k
    induction k with
    | zero => show DaysFrom1970 (dayDate 0) 0; rw [dayDate_zero]; exact .epoch
    | succ i ih => exact .later ih (dayDate_next _)
  have down : ∀ k : Nat, DaysFrom1970 (dayDate (-(k : Int))) (-(k : Int)) := by
    intro k
    induction k with
    | zero => show DaysFrom1970 (dayDate 0) 0; rw [dayDate_zero]; exact .epoch
    | succ i ih =>
      have := dayDate_next (-(i : Int) - 1)
      rw [show -(i : Int) - 1 + 1 = -(i : Int) by omega] at this
      rw [show (-((i + 1 : Nat) : Int)) = -(i : Int) - 1 by omega]
      exact .earlier ih this (dayDate_spec _).1
  rcases Int.le_total 0 n with h | h
  · have := up n.toNat
    rwa [show ((n.toNat : Nat) : Int) = n by omega] at this
  · have := down n.natAbs
    rwa [show (-(n.natAbs : Int)) = n by omega] at this

theorem daysFrom1970_real {d : Date} {n : Int} (h : DaysFrom1970 d n) : RealDate d := by
  induction h with
  | epoch => exact ⟨31, .long (by decide), by simp, by simp⟩
  | later _ hn ih => exact nextDay_real hn ih
  | earlier _ _ hr _ => exact hr

theorem daysFrom1970_iff (d : Date) (n : Int) : DaysFrom1970 d n ↔ RealDate d ∧ dayNumber d.year d.month d.day = n := by
  constructor
  · intro h
    refine ⟨daysFrom1970_real h, ?_⟩
    induction h with
    | epoch => decide +kernel
    | later _ hn ih => rw [nextDay_number hn, ih]
    | earlier _ hn _ ih => rw [nextDay_number hn] at ih; omega
  · rintro ⟨hr, rfl⟩
    have := daysFrom1970_dayDate (dayNumber d.year d.month d.day)
    rwa [dayDate_number hr] at this

end Chopper.Chrono
