import Verif.Proofs.Calendar

/-!
# Reading dates and times
-/
namespace Chopper.Chrono
open Chopper Spec

/-! ## Numbers -/

theorem isDigit_of_mem {k n : Nat} {s : Str} (h : HasDigits k n s) : ∀ c ∈ s, isDigit c = true := fun c hc => (isDigit_iff c).2 (h.2.1 c hc)

theorem isDigit_not_white {c : Char} (h : isDigit c = true) : isWhite c = false := by
  rw [isDigit_iff] at h
  have : ∀ n, 48 ≤ n → n ≤ 57 → ¬ IsSpace (Char.ofNat n) := by
    intro n h1 h2
    have : n = 48 ∨ n = 49 ∨ n = 50 ∨ n = 51 ∨ n = 52 ∨ n = 53 ∨ n = 54 ∨ n = 55 ∨ n = 56 ∨ n = 57 := by omega
    rcases this with rfl | rfl | rfl | rfl | rfl | rfl | rfl | rfl | rfl | rfl <;> rw [isSpace_iff] <;> decide
  have hs := this c.toNat h.1 h.2
  rw [Char.ofNat_toNat, isSpace_iff] at hs
  simpa using hs

theorem _root_.Chopper.Spec.HasDigits.cons_of_pos {k n : Nat} {s : Str} (h : HasDigits (k + 1) n s) : ∃ c t, s = c :: t ∧ isDigit c = true := by
  cases s with
  | nil => have := h.1; simp at this
  | cons c t => exact ⟨c, t, rfl, isDigit_of_mem h c List.mem_cons_self⟩

theorem dropWhile_white_digits {k n : Nat} {s : Str} (h : HasDigits (k + 1) n s) (r : Str) : (s ++ r).dropWhile isWhite = s ++ r := by
  obtain ⟨c, t, rfl, hc⟩ := h.cons_of_pos
  simp [isDigit_not_white hc]

theorem scanNumber_digits {k n : Nat} {s : Str} (h : HasDigits k n s) (r : Str) {min : Nat} (hm : min ≤ k) : scanNumber min k (s ++ r) = some ((n : Int), r) := by
  unfold scanNumber
  have e : ((s ++ r).take k).takeWhile isDigit = s := by
    rw [← h.1, List.take_left]
    have := List.takeWhile_append_of_pos (l₂ := []) (isDigit_of_mem h)
    simpa using this
  simp only [e, h.1]
  rw [if_neg (by omega)]
  have hd : (s ++ r).drop k = r := by rw [← h.1, List.drop_left]
  rw [hd, digitsVal_acc, h.2.2]
  simp

theorem scanNumber_none {s : Str} (h : s = [] ∨ ∃ c t, s = c :: t ∧ isDigit c = false) {min max : Nat} (hm : 1 ≤ min) : scanNumber min max s = none := by
  unfold scanNumber
  have e : (s.take max).takeWhile isDigit = [] := by
    rcases h with rfl | ⟨c, t, rfl, hc⟩
    · simp
    · cases max with
      | zero => rfl
      | succ k => rw [List.take_succ_cons, List.takeWhile_cons, hc]; rfl
  simp only [e, List.length_nil]
  rw [if_pos (by omega)]

theorem scanYear_digits {n : Nat} {s : Str} (h : HasDigits 4 n s) (r : Str) : scanYear (s ++ r) = some ((n : Int), r) := by
  obtain ⟨c, t, rfl, hc⟩ := h.cons_of_pos
  have e : scanYear (c :: t ++ r) = scanNumber 1 4 (c :: t ++ r) := by
    unfold scanYear
    split
    · rename_i heq; simp only [List.cons_append, List.cons.injEq] at heq; rw [heq.1] at hc; exact absurd hc (by decide)
    · rename_i heq; simp only [List.cons_append, List.cons.injEq] at heq; rw [heq.1] at hc; exact absurd hc (by decide)
    · rfl
  rw [e, scanNumber_digits h r (by omega)]

theorem parse_year {n : Nat} {s : Str} (h : HasDigits 4 n s) (r : Str) (b : Bool) (p : Parsed) :
    parseItem (.num .year b) p (s ++ r) = (p.set .year n).map fun p => (p, r) := by
  simp only [parseItem]
  rw [dropWhile_white_digits h, scanYear_digits h]; rfl

theorem parse_num {n : Nat} {f : Numeric} (hf : f ≠ .year) {s : Str} (h : HasDigits 2 n s) (r : Str) (b : Bool) (p : Parsed) :
    parseItem (.num f b) p (s ++ r) = (p.set f n).map fun p => (p, r) := by
  cases f <;> first | exact absurd rfl hf | (simp only [parseItem]; rw [dropWhile_white_digits h, scanNumber_digits h r (by omega)]; rfl)

theorem parse_num_none {f : Numeric} (hf : f ≠ .year) {s : Str} (h : s = [] ∨ ∃ c t, s = c :: t ∧ isDigit c = false ∧ isWhite c = false) (b : Bool) (p : Parsed) :
    parseItem (.num f b) p s = none := by
  have e : s.dropWhile isWhite = s := by
    rcases h with rfl | ⟨c, t, rfl, _, hc⟩
    · rfl
    · simp [hc]
  have e2 : scanNumber 1 2 s = none := scanNumber_none (by
    rcases h with rfl | ⟨c, t, rfl, hc, _⟩
    · exact .inl rfl
    · exact .inr ⟨c, t, rfl, hc⟩) (by omega)
  cases f <;> first | exact absurd rfl hf | (simp only [parseItem]; rw [e, e2]; rfl)

/-! ## Date and time with separators -/

/-- A separator between numbers: nothing or one character which is neither digit nor white space. -/
def Sep (a : Str) : Prop := a = [] ∨ ∃ c, a = [c] ∧ isDigit c = false ∧ isWhite c = false

def dateItems (a : Str) : List Item := .num .year true :: (a.map .lit ++ .num .month true :: (a.map .lit ++ [.num .day true]))
def timeItems (b : Str) : List Item := .num .hour true :: (b.map .lit ++ .num .minute true :: (b.map .lit ++ [.num .second true]))
def sepItems (s : Str) : List Item := s.map fun c => if isWhite c then .space else .lit c
def fracItems (fr : Bool) : List Item := if fr then [.fraction none] else []
def rangeItems (a sep b : Str) (fr : Bool) : List Item := dateItems a ++ (sepItems sep ++ (timeItems b ++ fracItems fr))

theorem parse_sepNum {a' a : Str} (ha' : Sep a') (ha : Sep a) {n : Nat} {f : Numeric} (hf : f ≠ .year) {s : Str} (h : HasDigits 2 n s) (r : Str) (b : Bool) (p : Parsed)
    (is : List Item) : parseItems (a'.map .lit ++ .num f b :: is) p (a ++ (s ++ r)) = if a' = a then (p.set f n).bind (fun p => parseItems is p r) else none := by
  obtain ⟨d, t, rfl, hd⟩ := h.cons_of_pos
  have num : ∀ p, parseItems (.num f b :: is) p ((d :: t) ++ r) = (p.set f n).bind (fun p => parseItems is p r) := by
    intro p
    simp only [parseItems]
    rw [parse_num hf h]
    cases p.set f n <;> rfl
  rcases ha' with rfl | ⟨c', rfl, hc1', hc2'⟩
  · rcases ha with rfl | ⟨c, rfl, hc1, hc2⟩
    · rw [if_pos rfl]; exact num p
    · rw [if_neg (by simp)]
      simp only [List.map_nil, List.nil_append, parseItems]
      rw [parse_num_none (s := [c] ++ (d :: t ++ r)) hf (.inr ⟨c, _, rfl, hc1, hc2⟩)]; rfl
  · rcases ha with rfl | ⟨c, rfl, hc1, hc2⟩
    · rw [if_neg (by simp)]
      have : d ≠ c' := fun e => by rw [e, hc1'] at hd; cases hd
      simp [parseItems, parseItem, scanChar, this]
    · by_cases hcc : c' = c
      · subst hcc
        rw [if_pos rfl]
        have e : parseItem (.lit c') p ([c'] ++ (d :: t ++ r)) = some (p, d :: t ++ r) := by simp [parseItem, scanChar]
        simp only [List.map_cons, List.map_nil, List.cons_append, List.nil_append, parseItems] at e ⊢
        rw [e]
        exact num p
      · rw [if_neg (by simpa using hcc)]
        have : c ≠ c' := fun e => hcc e.symm
        simp [parseItems, parseItem, scanChar, this]

theorem parse_date {a' a : Str} (ha' : Sep a') (ha : Sep a) {y m d : Nat} {ty tm td : Str} (hy : HasDigits 4 y ty) (hm : HasDigits 2 m tm) (hd : HasDigits 2 d td) (r : Str)
    (is : List Item) : parseItems (dateItems a' ++ is) {} (ty ++ a ++ tm ++ a ++ td ++ r) =
      if a' = a then parseItems is { year := some y, month := some m, day := some d } r else none := by
  have e : ty ++ a ++ tm ++ a ++ td ++ r = ty ++ (a ++ (tm ++ (a ++ (td ++ r)))) := by simp
  rw [e]
  simp only [dateItems, List.cons_append, List.append_assoc, parseItems, List.nil_append]
  rw [parse_year hy]
  simp only [Parsed.set, setField, Option.map_some, Option.bind_some]
  rw [parse_sepNum ha' ha (by decide) hm]
  split
  · simp only [Parsed.set, setField, Option.map_some, Option.bind_some]
    rw [parse_sepNum ha' ha (by decide) hd]
    simp only [Parsed.set, setField, Option.map_some, Option.bind_some, *, if_true]
  · rfl

/-- The separators between date and time. -/
def Sep2 (s : Str) : Prop := s = [' '] ∨ ∃ c, s = [c] ∧ isDigit c = false ∧ isWhite c = false

theorem parse_sep2 {s' s : Str} (hs' : Sep2 s') (hs : Sep2 s) {n : Nat} {t : Str} (h : HasDigits 2 n t) (r : Str) (b : Bool) (p : Parsed)
    (is : List Item) : parseItems (sepItems s' ++ .num .hour b :: is) p (s ++ (t ++ r)) = if s' = s then (p.set .hour n).bind (fun p => parseItems is p r) else none := by
  have num : ∀ p, parseItems (.num .hour b :: is) p (t ++ r) = (p.set .hour n).bind (fun p => parseItems is p r) := by
    intro p
    simp only [parseItems]
    rw [parse_num (by decide) h]
    cases p.set .hour n <;> rfl
  have hw : isWhite ' ' = true := by decide
  rcases hs' with rfl | ⟨c', rfl, hc1', hc2'⟩
  · have e : sepItems [' '] = [.space] := rfl
    rw [e]
    simp only [List.cons_append, List.nil_append, parseItems]
    rcases hs with rfl | ⟨c, rfl, hc1, hc2⟩
    · rw [if_pos rfl]
      have e2 : parseItem .space p ([' '] ++ (t ++ r)) = some (p, t ++ r) := by
        simp only [parseItem, List.cons_append, List.nil_append, List.dropWhile_cons, hw, if_true]
        rw [dropWhile_white_digits h]
      rw [e2]; exact num p
    · have hne : ([' '] : Str) ≠ [c] := by intro e; simp only [List.cons.injEq, and_true] at e; rw [← e, hw] at hc2; cases hc2
      rw [if_neg hne]
      have e2 : parseItem .space p ([c] ++ (t ++ r)) = some (p, [c] ++ (t ++ r)) := by simp [parseItem, hc2]
      rw [e2]
      simp only [Option.bind_some]
      rw [parse_num_none (f := .hour) (s := [c] ++ (t ++ r)) (by decide) (.inr ⟨c, _, rfl, hc1, hc2⟩)]; rfl
  · have e : sepItems [c'] = [.lit c'] := by simp [sepItems, hc2']
    rw [e]
    simp only [List.cons_append, List.nil_append, parseItems]
    rcases hs with rfl | ⟨c, rfl, hc1, hc2⟩
    · have hne : (' ' : Char) ≠ c' := fun e => by rw [← e, hw] at hc2'; cases hc2'
      rw [if_neg (by simpa using fun e => hne e.symm)]
      simp [parseItem, scanChar, hne]
    · by_cases hcc : c' = c
      · subst hcc
        rw [if_pos rfl]
        simp only [parseItem, scanChar, List.cons_append, if_true, Option.map_some, Option.bind_some]
        exact num p
      · rw [if_neg (by simpa using hcc)]
        have : c ≠ c' := fun e => hcc e.symm
        simp [parseItem, scanChar, this]

theorem parse_time {s' s b' b : Str} (hs' : Sep2 s') (hs : Sep2 s) (hb' : Sep b') (hb : Sep b) {h m sec : Nat} {th tm ts : Str} (hh : HasDigits 2 h th) (hm : HasDigits 2 m tm)
    (hsec : HasDigits 2 sec ts) (r : Str) (is : List Item) (p : Parsed) (hp : p.hour = none ∧ p.minute = none ∧ p.second = none) :
    parseItems (sepItems s' ++ (timeItems b' ++ is)) p (s ++ (th ++ b ++ tm ++ b ++ ts ++ r)) =
      if s' = s ∧ b' = b then parseItems is { p with hour := some h, minute := some m, second := some sec } r else none := by
  have e : th ++ b ++ tm ++ b ++ ts ++ r = th ++ (b ++ (tm ++ (b ++ (ts ++ r)))) := by simp
  obtain ⟨h1, h2, h3⟩ := hp
  rw [e]
  simp only [timeItems, List.cons_append, List.append_assoc, List.nil_append]
  rw [parse_sep2 hs' hs hh]
  by_cases hss : s' = s
  · rw [if_pos hss]
    simp only [Parsed.set, setField, h1, Option.map_some, Option.bind_some]
    rw [parse_sepNum hb' hb (by decide) hm]
    by_cases hbb : b' = b
    · rw [if_pos hbb, if_pos ⟨hss, hbb⟩]
      simp only [Parsed.set, setField, h2, Option.map_some, Option.bind_some]
      rw [parse_sepNum hb' hb (by decide) hsec, if_pos hbb]
      simp only [Parsed.set, setField, h3, Option.map_some, Option.bind_some]
    · rw [if_neg hbb, if_neg (fun h => hbb h.2)]
  · rw [if_neg hss, if_neg (fun h => hss h.1)]

/-! ## Fractions -/

theorem decimalValue_lt {s : Str} (h : ∀ c ∈ s, 48 ≤ c.toNat ∧ c.toNat ≤ 57) : decimalValue s < 10 ^ s.length := by
  induction s with
  | nil => simp [decimalValue]
  | cons c s ih =>
    have h1 := ih fun x hx => h x (List.mem_cons_of_mem _ hx)
    have h2 := h c List.mem_cons_self
    simp only [decimalValue, List.length_cons, Nat.pow_succ]
    have : (c.toNat - 48) * 10 ^ s.length ≤ 9 * 10 ^ s.length := Nat.mul_le_mul_right _ (by omega)
    omega

theorem takeWhile_digits {ds r : Str} (hd : ∀ c ∈ ds, isDigit c = true) (hr : r = [] ∨ ∃ c t, r = c :: t ∧ isDigit c = false) :
    (ds ++ r).takeWhile isDigit = ds ∧ (ds ++ r).dropWhile isDigit = r := by
  have hr' : r.takeWhile isDigit = [] ∧ r.dropWhile isDigit = r := by
    rcases hr with rfl | ⟨c, t, rfl, hc⟩
    · exact ⟨rfl, rfl⟩
    · simp [hc]
  constructor
  · rw [List.takeWhile_append_of_pos hd, hr'.1, List.append_nil]
  · rw [List.dropWhile_append_of_pos hd, hr'.2]

theorem scanNano_digits {ds r : Str} (hd : Digits ds) (hr : r = [] ∨ ∃ c t, r = c :: t ∧ isDigit c = false) :
    scanNano (ds ++ r) = some (((decimalValue ds * 10 ^ 9 / 10 ^ ds.length : Nat) : Int), r) := by
  have hall : ∀ c ∈ ds, isDigit c = true := fun c hc => (isDigit_iff c).2 (hd.2 c hc)
  have hpos : 1 ≤ ds.length := by
    cases ds with
    | nil => exact absurd rfl hd.1
    | cons c t => simp
  have e : ((ds ++ r).take 9).takeWhile isDigit = ds.take 9 := by
    by_cases hl : 9 ≤ ds.length
    · rw [List.take_append_of_le_length hl]
      have := List.takeWhile_append_of_pos (l₂ := []) (p := isDigit) (l₁ := ds.take 9) (fun c hc => hall c (List.mem_of_mem_take hc))
      simpa using this
    · rw [List.take_of_length_le (by omega : ds.length ≤ 9), List.take_append, List.take_of_length_le (by omega : ds.length ≤ 9)]
      refine (takeWhile_digits hall ?_).1
      rcases hr with rfl | ⟨c, t, rfl, hc⟩
      · left; simp
      · right
        obtain ⟨k, hk⟩ : ∃ k, 9 - ds.length = k + 1 := ⟨8 - ds.length, by omega⟩
        rw [hk, List.take_succ_cons]
        exact ⟨c, _, rfl, hc⟩
  unfold scanNano
  simp only [e]
  have hlen : (ds.take 9).length = min 9 ds.length := List.length_take
  rw [if_neg (by rw [hlen]; omega)]
  have hv : digitsVal 0 (ds.take 9) * 10 ^ (9 - (ds.take 9).length) = decimalValue ds * 10 ^ 9 / 10 ^ ds.length := by
    rw [digitsVal_acc]
    simp only [Nat.zero_mul, Nat.zero_add]
    by_cases hl : 9 ≤ ds.length
    · have h9 : (ds.take 9).length = 9 := by rw [hlen]; omega
      rw [h9, Nat.sub_self, Nat.pow_zero, Nat.mul_one]
      have hsplit : ds.take 9 ++ ds.drop 9 = ds := List.take_append_drop 9 ds
      have h2 := decimalValue_append (ds.take 9) (ds.drop 9)
      rw [hsplit] at h2
      have h3 : decimalValue (ds.drop 9) < 10 ^ (ds.drop 9).length := decimalValue_lt fun c hc => hd.2 c (List.mem_of_mem_drop hc)
      have h4 : ds.length = 9 + (ds.drop 9).length := by simp; omega
      rw [h4, Nat.pow_add, Nat.mul_comm (10 ^ 9), Nat.mul_div_mul_right _ _ (by decide : 0 < 10 ^ 9), h2]
      rw [Nat.mul_comm, Nat.mul_add_div (Nat.pow_pos (by decide)), Nat.div_eq_of_lt h3, Nat.add_zero]
    · have h9 : ds.take 9 = ds := List.take_of_length_le (by omega)
      rw [h9]
      have : 10 ^ 9 = 10 ^ (9 - ds.length) * 10 ^ ds.length := by rw [← Nat.pow_add]; congr 1; omega
      rw [this, ← Nat.mul_assoc, Nat.mul_div_cancel _ (Nat.pow_pos (by decide))]
  rw [hv]
  have hdrop : ((ds ++ r).drop (ds.take 9).length).dropWhile isDigit = r := by
    have : (ds ++ r).drop (ds.take 9).length = ds.drop 9 ++ r := by
      rw [hlen]
      by_cases hl : 9 ≤ ds.length
      · rw [Nat.min_eq_left hl, List.drop_append_of_le_length hl]
      · rw [Nat.min_eq_right (by omega), List.drop_left, List.drop_of_length_le (by omega), List.nil_append]
    rw [this]
    exact (takeWhile_digits (fun c hc => hall c (List.mem_of_mem_drop hc)) hr).2
  rw [hdrop]

theorem fraction_lt {ns : Nat} {s : Str} (h : FractionText ns s) : ns < 10 ^ 9 := by
  rcases h with ⟨_, rfl⟩ | ⟨ds, _, hd, rfl⟩
  · decide
  · have := decimalValue_lt hd.2
    rw [Nat.div_lt_iff_lt_mul (Nat.pow_pos (by decide)), Nat.mul_comm]
    exact Nat.mul_lt_mul_of_pos_left this (by decide)

/-- The fraction at the end of the text, or before something that is no digit. -/
theorem parse_fraction {ns : Nat} {s r : Str} (h : FractionText ns s) (hr : r = [] ∨ ∃ c t, r = c :: t ∧ isDigit c = false ∧ c ≠ '.') (k : Option Nat) (p : Parsed) (hp : p.nano = none) :
    parseItem (.fraction k) p (s ++ r) = some (if s = [] then p else { p with nano := some ns }, r) := by
  rcases h with ⟨rfl, rfl⟩ | ⟨ds, rfl, hd, rfl⟩
  · rw [if_pos rfl, List.nil_append]
    rcases hr with rfl | ⟨c, t, rfl, _, hc⟩
    · rfl
    · simp only [parseItem, scanFraction]
      split
      · rename_i heq; simp only [List.cons.injEq] at heq; exact absurd heq.1 hc
      · rfl
  · rw [if_neg (by simp)]
    have : parseItem (.fraction k) p ('.' :: ds ++ r) = (scanNano (ds ++ r)).bind fun x => (p.setNano x.1).map fun p => (p, x.2) := rfl
    rw [this, scanNano_digits hd (by
      rcases hr with rfl | ⟨c, t, rfl, hc, _⟩
      · exact .inl rfl
      · exact .inr ⟨c, t, rfl, hc⟩)]
    simp [Parsed.setNano, setField, hp]

/-! ## Values -/

/-- What has been read of the clock. -/
def clockParsed (y : Nat) (c : Clock) (nano : Option Int) : Parsed :=
  { year := some y, month := some c.date.month, day := some c.date.day, hour := some c.hour, minute := some c.minute, second := some c.second, nano := nano }

theorem toNaive_nano (y : Nat) (c : Clock) : toNaive (clockParsed y c none) = toNaive (clockParsed y c (some 0)) := by
  simp [toNaive, toDate, toTime, clockParsed]
  rfl

theorem ymd_real {d : Date} {y : Nat} (hy : d.year = y) (hy' : y < 10000) (h : RealDate d) : ymd y d.month d.day = some (dayNumber d.year d.month d.day) := by
  obtain ⟨h1, h2, h3, h4⟩ := (realDate_iff d).1 h
  unfold ymd
  rw [hy] at h4 ⊢
  simp only [Int.toNat_natCast]
  rw [if_pos (by omega)]

theorem ymd_unreal {d : Date} {y : Nat} (hy : d.year = y) (h : ¬ RealDate d) : ymd y d.month d.day = none := by
  unfold ymd
  rw [if_neg]
  rintro ⟨_, _, h1, h2, h3, h4⟩
  refine h ((realDate_iff d).2 ⟨by omega, by omega, by omega, ?_⟩)
  simp only [Int.toNat_natCast] at h4
  rw [hy]; omega

theorem toNaive_real {c : Clock} {y : Nat} (hy : c.date.year = y) (hy' : y < 10000) (h : RealClock c) {t : Int} (ht : ClockSeconds c t) (ns : Nat) :
    toNaive (clockParsed y c (some ns)) = some ⟨t, ns⟩ := by
  obtain ⟨hd, h1, h2, h3⟩ := h
  obtain ⟨n, hn, rfl⟩ := ht
  obtain ⟨_, rfl⟩ := (daysFrom1970_iff _ _).1 hn
  have e1 : ¬ (24 ≤ (c.hour : Int) ∨ 60 ≤ (c.minute : Int)) := by omega
  have e2 : ¬ (61 ≤ (c.second : Int)) := by omega
  have e3 : (c.second : Int) ≠ 60 := by omega
  have hdate : toDate (clockParsed y c (some ns)) = some (dayNumber c.date.year c.date.month c.date.day) := ymd_real hy hy' hd
  have htime : toTime (clockParsed y c (some ns)) = some ((c.hour * 3600 + c.minute * 60 + c.second : Int), ns) := by
    simp [toTime, clockParsed, e1, e2, e3]
  unfold toNaive
  rw [hdate, htime]
  simp only [Option.bind_eq_bind, Option.bind_some, Option.some.injEq, Instant.mk.injEq, and_true]
  omega

/-- Second 60 is read as the beginning of the next minute, counted in nanoseconds. -/
theorem toNaive_leap {c : Clock} {y : Nat} (hy : c.date.year = y) (hy' : y < 10000) (hd : RealDate c.date) (h1 : c.hour < 24) (h2 : c.minute < 60) (h3 : c.second = 60)
    {t : Int} (ht : ClockSeconds c t) (ns : Nat) : toNaive (clockParsed y c (some ns)) = some ⟨t - 1, ns + 1000000000⟩ := by
  obtain ⟨n, hn, rfl⟩ := ht
  obtain ⟨_, rfl⟩ := (daysFrom1970_iff _ _).1 hn
  have e1 : ¬ (24 ≤ (c.hour : Int) ∨ 60 ≤ (c.minute : Int)) := by omega
  have hdate : toDate (clockParsed y c (some ns)) = some (dayNumber c.date.year c.date.month c.date.day) := ymd_real hy hy' hd
  have htime : toTime (clockParsed y c (some ns)) = some ((c.hour * 3600 + c.minute * 60 + 59 : Int), ns + 1000000000) := by
    simp [toTime, clockParsed, e1, h3]
  unfold toNaive
  rw [hdate, htime]
  simp only [Option.bind_eq_bind, Option.bind_some, Option.some.injEq, Instant.mk.injEq, and_true]
  omega

theorem toNaive_unreal {c : Clock} {y : Nat} (hy : c.date.year = y) (h : ¬ RealDate c.date ∨ 24 ≤ c.hour ∨ 60 ≤ c.minute ∨ 61 ≤ c.second) (ns : Option Int) :
    toNaive (clockParsed y c ns) = none := by
  unfold toNaive
  by_cases hd : RealDate c.date
  · have ht : toTime (clockParsed y c ns) = none := by
      by_cases e1 : 24 ≤ (c.hour : Int) ∨ 60 ≤ (c.minute : Int)
      · simp [toTime, clockParsed, e1]
      · have e2 : 61 ≤ (c.second : Int) := by
          rcases h with h | h | h | h
          · exact absurd hd h
          all_goals omega
        simp [toTime, clockParsed, e2]
    rw [ht]
    cases toDate (clockParsed y c ns) <;> rfl
  · have : toDate (clockParsed y c ns) = none := ymd_unreal hy hd
    rw [this]; rfl

end Chopper.Chrono
