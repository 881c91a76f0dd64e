import Verif.Proofs.TimeFormat

/-!
# What has been read in a format is a text in that format
-/
namespace Chopper.Chrono
open Chopper Spec

/-- The clock that has been read; what has not been read is zero. -/
def clockRead (p : Parsed) : Clock :=
  ⟨⟨p.year.getD 0, (p.month.getD 0).toNat, (p.day.getD 0).toNat⟩, (p.hour.getD 0).toNat, (p.minute.getD 0).toNat, (p.second.getD 0).toNat, (p.nano.getD 0).toNat⟩
def offsetRead (p : Parsed) : Int := p.offset.getD 0

/-- Everything read in `p` is the same in `q`. -/
structure Extends (p q : Parsed) : Prop where
  year : ∀ v, p.year = some v → q.year = some v
  month : ∀ v, p.month = some v → q.month = some v
  day : ∀ v, p.day = some v → q.day = some v
  hour : ∀ v, p.hour = some v → q.hour = some v
  minute : ∀ v, p.minute = some v → q.minute = some v
  second : ∀ v, p.second = some v → q.second = some v
  nano : ∀ v, p.nano = some v → q.nano = some v
  offset : ∀ v, p.offset = some v → q.offset = some v

theorem Extends.refl (p : Parsed) : Extends p p := ⟨fun _ h => h, fun _ h => h, fun _ h => h, fun _ h => h, fun _ h => h, fun _ h => h, fun _ h => h, fun _ h => h⟩

theorem Extends.trans {p q r : Parsed} (h : Extends p q) (g : Extends q r) : Extends p r :=
  ⟨fun v e => g.year v (h.year v e), fun v e => g.month v (h.month v e), fun v e => g.day v (h.day v e), fun v e => g.hour v (h.hour v e),
    fun v e => g.minute v (h.minute v e), fun v e => g.second v (h.second v e), fun v e => g.nano v (h.nano v e), fun v e => g.offset v (h.offset v e)⟩

theorem setField_some {old new : Option Int} {v : Int} (h : setField old v = some new) : new = some v ∧ ∀ x, old = some x → new = some x := by
  unfold setField at h
  split at h
  · cases h; exact ⟨rfl, fun x hx => nomatch hx⟩
  · split at h
    · rename_i heq; cases h; subst heq; exact ⟨rfl, fun x hx => hx⟩
    · cases h

/-- The value of a number. -/
def Parsed.get (p : Parsed) : Numeric → Option Int
  | .year => p.year
  | .month => p.month
  | .day => p.day
  | .hour => p.hour
  | .minute => p.minute
  | .second => p.second

theorem Extends.get {p q : Parsed} (h : Extends p q) (n : Numeric) {v : Int} (e : p.get n = some v) : q.get n = some v := by
  cases n with
  | year => exact h.year v e
  | month => exact h.month v e
  | day => exact h.day v e
  | hour => exact h.hour v e
  | minute => exact h.minute v e
  | second => exact h.second v e

theorem set_some {p p' : Parsed} {n : Numeric} {v : Int} (h : p.set n v = some p') : Extends p p' ∧ p'.get n = some v := by
  unfold Parsed.set at h
  cases n <;>
  · simp only [Option.map_eq_some_iff] at h
    obtain ⟨x, hx, rfl⟩ := h
    obtain ⟨rfl, h2⟩ := setField_some hx
    refine ⟨?_, rfl⟩
    constructor <;> first | exact h2 | exact fun _ h => h

theorem setNano_some {p p' : Parsed} {v : Int} (h : p.setNano v = some p') : Extends p p' ∧ p'.nano = some v := by
  simp only [Parsed.setNano, Option.map_eq_some_iff] at h
  obtain ⟨x, hx, rfl⟩ := h
  obtain ⟨rfl, h2⟩ := setField_some hx
  exact ⟨{ Extends.refl p with nano := h2 }, rfl⟩

theorem setOffset_some {p p' : Parsed} {v : Int} (h : p.setOffset v = some p') : Extends p p' ∧ p'.offset = some v := by
  simp only [Parsed.setOffset, Option.map_eq_some_iff] at h
  obtain ⟨x, hx, rfl⟩ := h
  obtain ⟨rfl, h2⟩ := setField_some hx
  exact ⟨{ Extends.refl p with offset := h2 }, rfl⟩

/-! ## Numbers -/

theorem length_digits_le (l : Str) : (l.takeWhile isDigit).length ≤ l.length := by
  have := congrArg List.length (List.takeWhile_append_dropWhile (p := isDigit) (l := l))
  rw [List.length_append] at this
  omega

theorem take_most {s : Str} {most : Nat} : ((s.take most).takeWhile isDigit) ++ s.drop ((s.take most).takeWhile isDigit).length = s := by
  have h : ∀ (l : Str), l.takeWhile isDigit ++ l.drop (l.takeWhile isDigit).length = l := by
    intro l
    induction l with
    | nil => rfl
    | cons x l ih =>
      rw [List.takeWhile_cons]
      split
      · simpa using ih
      · rfl
  have h1 := h (s.take most)
  have hl : ((s.take most).takeWhile isDigit).length ≤ (s.take most).length := by
    have := congrArg List.length h1
    simp only [List.length_append] at this
    omega
  have : s.drop ((s.take most).takeWhile isDigit).length = (s.take most).drop ((s.take most).takeWhile isDigit).length ++ s.drop most := by
    have e := List.take_append_drop most s
    generalize ((s.take most).takeWhile isDigit).length = k at hl ⊢
    rw [← List.drop_append_of_le_length hl, e]
  rw [this, ← List.append_assoc, h1, List.take_append_drop]

theorem digits_all {s : Str} {most : Nat} : ∀ c ∈ (s.take most).takeWhile isDigit, isDigit c = true := by
  intro c hc
  have : ∀ (l : Str), ∀ c ∈ l.takeWhile isDigit, isDigit c = true := by
    intro l
    induction l with
    | nil => intro c hc; cases hc
    | cons x l ih =>
      intro c hc
      rw [List.takeWhile_cons] at hc
      split at hc
      · rename_i hx
        rcases List.mem_cons.1 hc with rfl | hc
        · exact hx
        · exact ih c hc
      · cases hc
  exact this _ c hc

theorem digits_stop {s : Str} {most : Nat} : ((s.take most).takeWhile isDigit).length = most ∨ NoDigitFirst (s.drop ((s.take most).takeWhile isDigit).length) := by
  by_cases h : ((s.take most).takeWhile isDigit).length = most
  · exact .inl h
  · refine .inr (noDigit_iff.2 ?_)
    have h1 := take_most (s := s) (most := most)
    have h2 := digits_all (s := s) (most := most)
    have hl : ((s.take most).takeWhile isDigit).length ≤ most := by
      have := length_digits_le (s.take most)
      rw [List.length_take] at this
      omega
    generalize hds : (s.take most).takeWhile isDigit = ds at h h1 h2 hl ⊢
    generalize s.drop ds.length = r at h1 ⊢
    cases r with
    | nil => exact .inl rfl
    | cons x r =>
      refine .inr ⟨x, r, rfl, ?_⟩
      cases hx : isDigit x with
      | false => rfl
      | true =>
        exfalso
        rw [← h1, List.take_append, List.take_of_length_le hl, List.takeWhile_append_of_pos h2] at hds
        have hk : ∃ k, most - ds.length = k + 1 := ⟨most - ds.length - 1, by omega⟩
        obtain ⟨k, hk⟩ := hk
        rw [hk, List.take_succ_cons, List.takeWhile_cons, if_pos hx] at hds
        have := congrArg List.length hds
        simp at this

theorem scanNumber_some {least most : Nat} {s r : Str} {v : Int} (h : scanNumber least most s = some (v, r)) : ∃ (t : Str) (n : Nat), s = t ++ r ∧ v = n ∧ Number least most n t r := by
  unfold scanNumber at h
  simp only at h
  split at h
  · cases h
  · rename_i hlen
    simp only [Option.some.injEq, Prod.mk.injEq] at h
    obtain ⟨h1, h2⟩ := h
    refine ⟨(s.take most).takeWhile isDigit, digitsVal 0 ((s.take most).takeWhile isDigit), ?_, h1.symm, by omega, ?_, ?_, ?_, ?_⟩
    · rw [← h2, take_most]
    · have := length_digits_le (s.take most)
      rw [List.length_take] at this
      omega
    · exact fun x hx => (isDigit_iff x).1 (digits_all x hx)
    · rw [digitsVal_acc]; simp
    · rw [← h2]; exact digits_stop

theorem whites (s : Str) : ∃ ws, White ws ∧ s = ws ++ s.dropWhile isWhite := by
  refine ⟨s.takeWhile isWhite, ?_, by rw [List.takeWhile_append_dropWhile]⟩
  induction s with
  | nil => intro c hc; cases hc
  | cons x l ih =>
    intro c hc
    rw [List.takeWhile_cons] at hc
    split at hc
    · rename_i hx
      rcases List.mem_cons.1 hc with rfl | hc
      · exact hx
      · exact ih c hc
    · cases hc

theorem digits_of_number {most n : Nat} {t r : Str} (h : Number 1 most n t r) : Digits t := by
  refine ⟨?_, h.2.2.1⟩
  rintro rfl
  have := h.1
  simp at this

theorem scanYear_some {s r : Str} {v : Int} (h : scanYear s = some (v, r)) :
    (∃ (t : Str) (y : Nat), s = t ++ r ∧ v = y ∧ Number 1 4 y t r) ∨ (∃ t, s = '+' :: t ++ r ∧ Digits t ∧ NoDigitFirst r ∧ v = decimalValue t) ∨
      ∃ t, s = '-' :: t ++ r ∧ Digits t ∧ NoDigitFirst r ∧ v = - (decimalValue t : Int) := by
  have full : ∀ {t' t r : Str} {n : Nat}, t' = t ++ r → Number 1 t'.length n t r → NoDigitFirst r := by
    intro t' t r n h1 h2
    rcases h2.2.2.2.2 with h | h
    · rw [h1, List.length_append] at h
      have : r = [] := List.length_eq_zero_iff.1 (by omega)
      exact noDigit_iff.2 (.inl this)
    · exact h
  unfold scanYear at h
  split at h
  · simp only [Option.map_eq_some_iff] at h
    obtain ⟨⟨v', r'⟩, h, he⟩ := h
    cases he
    obtain ⟨t, n, h1, h2, h3⟩ := scanNumber_some h
    exact .inr (.inr ⟨t, by rw [h1]; rfl, digits_of_number h3, full h1 h3, by rw [h2, h3.2.2.2.1]⟩)
  · obtain ⟨t, n, h1, h2, h3⟩ := scanNumber_some h
    exact .inr (.inl ⟨t, by rw [h1]; rfl, digits_of_number h3, full h1 h3, by rw [h2, h3.2.2.2.1]⟩)
  · obtain ⟨t, n, h1, h2, h3⟩ := scanNumber_some h
    exact .inl ⟨t, n, h1, h2, h3⟩

theorem dropWhile_stop (q : Char → Bool) (s : Str) : ∀ y, (s.dropWhile q).head? = some y → q y = false := by
  induction s with
  | nil => intro y hy; cases hy
  | cons x s ih =>
    intro y hy
    rw [List.dropWhile_cons] at hy
    split at hy
    · exact ih y hy
    · rename_i hx
      cases hy
      simpa using hx

theorem takeWhile_all (q : Char → Bool) (s : Str) : ∀ x ∈ s.takeWhile q, q x = true := by
  induction s with
  | nil => intro c hc; cases hc
  | cons x l ih =>
    intro c hc
    rw [List.takeWhile_cons] at hc
    split at hc
    · rename_i hx
      rcases List.mem_cons.1 hc with rfl | hc
      · exact hx
      · exact ih c hc
    · cases hc

theorem scanNano_some {s r : Str} {v : Int} (h : scanNano s = some (v, r)) :
    ∃ ds, s = ds ++ r ∧ Digits ds ∧ NoDigitFirst r ∧ v = (decimalValue ds * 10 ^ 9 / 10 ^ ds.length : Nat) := by
  have e : s.takeWhile isDigit ++ s.dropWhile isDigit = s := List.takeWhile_append_dropWhile
  have hr : NoDigitFirst (s.dropWhile isDigit) := by
    intro x hx hd
    have := dropWhile_stop isDigit s x hx
    rw [(isDigit_iff x).2 hd] at this
    cases this
  by_cases h0 : s.takeWhile isDigit = []
  · have : (s.take 9).takeWhile isDigit = [] := by
      cases s with
      | nil => rfl
      | cons x s =>
        rw [List.takeWhile_cons] at h0
        split at h0
        · cases h0
        · rename_i hx
          rw [List.take_succ_cons, List.takeWhile_cons, if_neg hx]
    simp [scanNano, this] at h
  · have hd : Digits (s.takeWhile isDigit) := ⟨h0, fun c hc => (isDigit_iff c).1 (takeWhile_all isDigit s c hc)⟩
    have := scanNano_digits hd (noDigit_iff.1 hr)
    rw [e, h] at this
    simp only [Option.some.injEq, Prod.mk.injEq] at this
    obtain ⟨h1, h2⟩ := this
    exact ⟨_, by rw [h2, e], hd, by rw [h2]; exact hr, h1⟩

theorem digits_two {a b : Char} (ha : isDigit a = true) (hb : isDigit b = true) : HasDigits 2 (digitVal a * 10 + digitVal b) [a, b] := by
  refine ⟨rfl, ?_, ?_⟩
  · intro c hc
    rcases List.mem_cons.1 hc with rfl | hc
    · exact (isDigit_iff _).1 ha
    · rw [List.mem_singleton.1 hc]; exact (isDigit_iff _).1 hb
  · simp [decimalValue, digitVal]

theorem scanOffset_some {colon : Str → Option Str} {s r : Str} {v : Int} (h : scanOffset colon s = some (v, r)) :
    ∃ (sgn h1 h2 m1 m2 : Char) (u : Str), s = sgn :: h1 :: h2 :: u ∧ colon u = some (m1 :: m2 :: r) ∧
      ∀ sep, u = sep ++ m1 :: m2 :: r → ∃ t, s = t ++ r ∧ OffsetPart v sep t := by
  unfold scanOffset at h
  split at h
  · cases h
  · rename_i sgn t
    split at h
    · rename_i hs
      split at h
      · rename_i h1 h2 u
        split at h
        · rename_i hd
          split at h
          · rename_i m1 m2 r' hc
            split at h
            · rename_i hm
              simp only [Option.some.injEq, Prod.mk.injEq] at h
              obtain ⟨hv, rfl⟩ := h
              refine ⟨sgn, h1, h2, m1, m2, u, rfl, hc, ?_⟩
              rintro sep rfl
              simp only [Bool.and_eq_true, decide_eq_true_eq] at hd hm
              have g1 := digits_two hd.1 hd.2
              have g2 := digits_two hm.1.1 hm.1.2
              have hlt : digitVal m1 * 10 + digitVal m2 < 60 := by
                have h2 := (isDigit_iff m2).1 hm.1.2
                have h1 := hm.2
                simp only [digitVal] at h1 ⊢
                omega
              refine ⟨sgn :: [h1, h2] ++ sep ++ [m1, m2], by simp, ?_⟩
              rcases hs with rfl | rfl
              · rw [if_neg (by decide)] at hv
                rw [← hv]
                have := OffsetPart.ahead (sep := sep) g1 g2 hlt
                simpa using this
              · rw [if_pos rfl] at hv
                rw [← hv]
                have := OffsetPart.behind (sep := sep) g1 g2 hlt
                simpa using this
            · cases h
          · cases h
        · cases h
      · cases h
    · cases h

/-! ## Items -/

/-- The item reads what the specifier stands for. -/
def Reads (spec : Str) (i : Item) : Prop := ∀ p s p' r, parseItem i p s = some (p', r) → Extends p p' ∧
  ∃ shown t, s = t ++ r ∧ ∀ q, Extends p' q → SpecifierText (clockRead q) (offsetRead q) spec shown t r

/-- The items read texts in the format. -/
def ReadsFormat (is : List Item) (f : Str) : Prop := ∀ p s p', parseItems is p s = some p' → Extends p p' ∧
  ∃ shown, ∀ q, Extends p' q → InFormat (clockRead q) (offsetRead q) shown f s

theorem ReadsFormat.cons {spec f : Str} {i : Item} {is : List Item} (h1 : Reads spec i) (h2 : ReadsFormat is f) : ReadsFormat (i :: is) (spec ++ f) := by
  intro p s p' h
  simp only [parseItems, Option.bind_eq_some_iff] at h
  obtain ⟨⟨p1, r⟩, hi, h⟩ := h
  obtain ⟨e1, sh1, t, rfl, f1⟩ := h1 p s p1 r hi
  obtain ⟨e2, sh2, f2⟩ := h2 p1 r p' h
  exact ⟨e1.trans e2, sh1 ++ sh2, fun q hq => .field (f1 q (e2.trans hq)) (f2 q hq)⟩

theorem reads_number {n : Numeric} {spec : Str} {part : Part} {field : Clock → Nat} (hi : ∀ p s, parseItem (.num n true) p s =
      (scanNumber 1 2 (s.dropWhile isWhite)).bind fun x => (p.set n x.1).map fun p => (p, x.2)) (hq : ∀ q (k : Nat), q.get n = some (k : Int) → field (clockRead q) = k)
    (hf : ∀ c o ws t r, White ws → Number 1 2 (field c) t r → SpecifierText c o spec [part] (ws ++ t) r) : Reads spec (.num n true) := by
  intro p s p' r h
  rw [hi] at h
  simp only [Option.bind_eq_some_iff, Option.map_eq_some_iff] at h
  obtain ⟨⟨v, r1⟩, h1, p1, h2, he⟩ := h
  cases he
  obtain ⟨t, k, e1, rfl, h3⟩ := scanNumber_some h1
  obtain ⟨e2, h4⟩ := set_some h2
  obtain ⟨ws, h5, h6⟩ := whites s
  refine ⟨e2, [part], ws ++ t, by rw [List.append_assoc, ← e1, ← h6], fun q hq' => hf _ _ _ _ _ h5 ?_⟩
  rw [hq q k (hq'.get n h4)]
  exact h3

theorem reads_month : Reads "%m".toList (.num .month true) :=
  reads_number (field := fun c => c.date.month) (fun _ _ => rfl) (fun q k h => by simp [clockRead, show q.month = some (k : Int) from h]) (fun _ _ _ _ _ h1 h2 => .month h1 h2)
theorem reads_day : Reads "%d".toList (.num .day true) :=
  reads_number (field := fun c => c.date.day) (fun _ _ => rfl) (fun q k h => by simp [clockRead, show q.day = some (k : Int) from h]) (fun _ _ _ _ _ h1 h2 => .day h1 h2)
theorem reads_hour : Reads "%H".toList (.num .hour true) :=
  reads_number (field := fun c => c.hour) (fun _ _ => rfl) (fun q k h => by simp [clockRead, show q.hour = some (k : Int) from h]) (fun _ _ _ _ _ h1 h2 => .hour (by decide) h1 h2)
theorem reads_short_hour : Reads "%-H".toList (.num .hour false) :=
  reads_number (n := .hour) (spec := "%-H".toList) (field := fun c => c.hour) (fun _ _ => rfl) (fun q k h => by simp [clockRead, show q.hour = some (k : Int) from h])
    (fun _ _ _ _ _ h1 h2 => .hour (by decide) h1 h2)
theorem reads_minute : Reads "%M".toList (.num .minute true) :=
  reads_number (field := fun c => c.minute) (fun _ _ => rfl) (fun q k h => by simp [clockRead, show q.minute = some (k : Int) from h]) (fun _ _ _ _ _ h1 h2 => .minute h1 h2)
theorem reads_second : Reads "%S".toList (.num .second true) :=
  reads_number (field := fun c => c.second) (fun _ _ => rfl) (fun q k h => by simp [clockRead, show q.second = some (k : Int) from h]) (fun _ _ _ _ _ h1 h2 => .second h1 h2)

theorem reads_year : Reads "%Y".toList (.num .year true) := by
  intro p s p' r h
  simp only [parseItem, Option.bind_eq_some_iff, Option.map_eq_some_iff] at h
  obtain ⟨⟨v, r1⟩, h1, p1, h2, he⟩ := h
  cases he
  obtain ⟨e2, h4⟩ := set_some h2
  obtain ⟨ws, h5, h6⟩ := whites s
  have hy : ∀ q, Extends p' q → (clockRead q).date.year = v := fun q hq => by
    have : q.year = some v := hq.get .year h4
    simp [clockRead, this]
  rcases scanYear_some h1 with ⟨t, y, e1, rfl, h3⟩ | ⟨t, e1, h3, h7, rfl⟩ | ⟨t, e1, h3, h7, rfl⟩
  · exact ⟨e2, _, ws ++ t, by rw [List.append_assoc, ← e1, ← h6], fun q hq => .year h5 h3 (hy q hq)⟩
  · exact ⟨e2, _, ws ++ '+' :: t, by rw [List.append_assoc, ← e1, ← h6], fun q hq => .laterYear h5 h3 h7 (hy q hq)⟩
  · exact ⟨e2, _, ws ++ '-' :: t, by rw [List.append_assoc, ← e1, ← h6], fun q hq => .yearBefore h5 h3 h7 (hy q hq)⟩

theorem scanFraction_some {p p' : Parsed} {s r : Str} (h : scanFraction p s = some (p', r)) : Extends p p' ∧
    ∃ shown t, s = t ++ r ∧ ∀ q, Extends p' q → FractionPart (clockRead q) shown t r := by
  unfold scanFraction at h
  split at h
  · simp only [Option.bind_eq_some_iff, Option.map_eq_some_iff] at h
    obtain ⟨⟨v, r1⟩, h1, p1, h2, he⟩ := h
    cases he
    obtain ⟨ds, rfl, h3, h4, rfl⟩ := scanNano_some h1
    obtain ⟨e2, h5⟩ := setNano_some h2
    refine ⟨e2, _, '.' :: ds, rfl, fun q hq => .digits h3 ?_ h4⟩
    simp only [clockRead, hq.nano _ h5, Option.getD_some, Int.toNat_natCast]
  · rename_i hs
    cases h
    refine ⟨Extends.refl _, _, [], rfl, fun q _ => .nothing ?_⟩
    intro hd
    cases s with
    | nil => cases hd
    | cons x r => cases hd; exact hs r rfl

theorem reads_fraction {spec : Str} {k : Option Nat} (h0 : spec ∈ ["%.f".toList, "%.3f".toList, "%.6f".toList, "%.9f".toList]) : Reads spec (.fraction k) := by
  intro p s p' r h
  obtain ⟨h1, sh, t, h2, h3⟩ := scanFraction_some h
  exact ⟨h1, sh, t, h2, fun q hq => .fraction h0 (h3 q hq)⟩

theorem exact_digits {k n : Nat} {t r : Str} (h : Number k k n t r) : HasDigits k n t := ⟨by have := h.1; have := h.2.1; omega, h.2.2.1, h.2.2.2.1⟩

theorem reads_millis : Reads "%3f".toList .millis := by
  intro p s p' r h
  simp only [parseItem, Option.bind_eq_some_iff, Option.map_eq_some_iff] at h
  obtain ⟨⟨v, r1⟩, h1, p1, h2, he⟩ := h
  cases he
  obtain ⟨t, k, e1, rfl, h3⟩ := scanNumber_some h1
  obtain ⟨e2, h4⟩ := setNano_some h2
  refine ⟨e2, _, t, e1, fun q hq => .millis (exact_digits h3) ?_⟩
  simp only [clockRead, hq.nano _ h4, Option.getD_some]
  omega

theorem reads_offset {spec : Str} {k : Bool} (h0 : spec ∈ ["%z".toList, "%:z".toList]) : Reads spec (.offset k) := by
  intro p s p' r h
  simp only [parseItem, Option.bind_eq_some_iff, Option.map_eq_some_iff] at h
  obtain ⟨⟨v, r1⟩, h1, p1, h2, he⟩ := h
  cases he
  obtain ⟨ws, h5, h6⟩ := whites s
  obtain ⟨e2, h4⟩ := setOffset_some h2
  obtain ⟨sgn, a, b, m1, m2, u, e1, hc, hsep⟩ := scanOffset_some h1
  simp only [Option.some.injEq, skipColons] at hc
  obtain ⟨t, e3, h7⟩ := hsep (u.takeWhile fun c => c == ':' || isWhite c) (by rw [← hc, List.takeWhile_append_dropWhile])
  refine ⟨e2, _, ws ++ t, by rw [List.append_assoc, ← e3, ← h6], fun q hq => .offset (sep := u.takeWhile fun c => c == ':' || isWhite c) h0 h5 ?_ ?_⟩
  · intro x hx
    have := takeWhile_all _ u x hx
    simpa using this
  · simp only [offsetRead, hq.offset _ h4, Option.getD_some]
    exact h7

theorem scanChar_some {c : Char} {s r : Str} (h : scanChar c s = some r) : s = c :: r := by
  unfold scanChar at h
  split at h
  · cases h
  · split at h
    · rename_i hx; cases h; rw [hx]
    · cases h

theorem scanT_some {s r : Str} (h : scanT s = some r) : ∃ c, s = c :: r ∧ (c = 't' ∨ c = 'T') := by
  unfold scanT at h
  split at h
  · split at h
    · rename_i hx; cases h; exact ⟨_, rfl, hx⟩
    · cases h
  · cases h

theorem scanZulu_some {s r : Str} {v : Int} (h : scanOffsetZulu s = some (v, r)) (h1 : -86400 < v) (h2 : v < 86400) : ∃ t, s = t ++ r ∧ IsoOffset v t := by
  unfold scanOffsetZulu at h
  split at h
  · split at h
    · rename_i hx; cases h; exact ⟨[_], rfl, .zulu hx⟩
    · split at h
      · rename_i hx
        split at h
        · split at h
          · rename_i hy; cases h; exact ⟨[_, _, _], rfl, .utc hx hy.1 hy.2⟩
          · cases h
        · cases h
      · obtain ⟨sgn, a, b, m1, m2, u, e1, hc, hsep⟩ := scanOffset_some h
        obtain ⟨t, e3, h7⟩ := hsep [':'] (by rw [scanChar_some hc]; rfl)
        exact ⟨t, e3, .offset h7 h1 h2⟩
  · cases h

theorem isoNum_some {n : Numeric} {k : Nat} {p p' : Parsed} {s r : Str} (h : isoNum n k p s = some (p', r)) : Extends p p' ∧ ∃ (v : Nat) (t : Str), s = t ++ r ∧ HasDigits k v t ∧ p'.get n = some (v : Int) := by
  simp only [isoNum, Option.bind_eq_some_iff, Option.map_eq_some_iff] at h
  obtain ⟨⟨v, r1⟩, h1, p1, h2, he⟩ := h
  cases he
  obtain ⟨t, k, e1, rfl, h3⟩ := scanNumber_some h1
  obtain ⟨e2, h4⟩ := set_some h2
  exact ⟨e2, k, t, e1, exact_digits h3, h4⟩

theorem reads_iso : Reads "%+".toList .iso := by
  intro p s p' r h
  simp only [parseItem, parseIso, Option.bind_eq_bind, Option.bind_eq_some_iff] at h
  obtain ⟨⟨p1, s1⟩, a1, s2, a2, ⟨p3, s3⟩, a3, s4, a4, ⟨p5, s5⟩, a5, s6, a6, ⟨p7, s7⟩, a7, s8, a8, ⟨p9, s9⟩, a9, s10, a10, ⟨p11, s11⟩, a11, ⟨p12, s12⟩, a12, ⟨o, s13⟩, a13, h⟩ := h
  simp only at a1 a2 a3 a4 a5 a6 a7 a8 a9 a10 a11 a12 a13 h
  split at h
  · cases h
  · rename_i ho
    simp only [Option.map_eq_some_iff] at h
    obtain ⟨p14, a14, he⟩ := h
    cases he
    obtain ⟨e1, y, ty, rfl, d1, g1⟩ := isoNum_some a1
    obtain rfl := scanChar_some a2
    obtain ⟨e3, mo, tm, rfl, d3, g3⟩ := isoNum_some a3
    obtain rfl := scanChar_some a4
    obtain ⟨e5, da, td, rfl, d5, g5⟩ := isoNum_some a5
    obtain ⟨tT, rfl, hT⟩ := scanT_some a6
    obtain ⟨e7, ho', th, rfl, d7, g7⟩ := isoNum_some a7
    obtain rfl := scanChar_some a8
    obtain ⟨e9, mi, tmi, rfl, d9, g9⟩ := isoNum_some a9
    obtain rfl := scanChar_some a10
    obtain ⟨e11, se, ts, rfl, d11, g11⟩ := isoNum_some a11
    obtain ⟨e12, sf, tf, rfl, f12⟩ := scanFraction_some a12
    obtain ⟨to, rfl, hz⟩ := scanZulu_some a13 (by omega) (by omega)
    obtain ⟨e14, g14⟩ := setOffset_some a14
    have x11 := e12.trans e14
    have x9 := e11.trans x11
    have x7 := e9.trans x9
    have x5 := e7.trans x7
    have x3 := e5.trans x5
    have x1 := e3.trans x3
    refine ⟨e1.trans x1, [.year, .month, .day, .hour, .minute, .second] ++ sf ++ [.offset], ty ++ '-' :: tm ++ '-' :: td ++ tT :: th ++ ':' :: tmi ++ ':' :: ts ++ tf ++ to, by simp, fun q hq => ?_⟩
    have v1 : q.year = some (y : Int) := hq.get .year (x1.get .year g1)
    have v3 : q.month = some (mo : Int) := hq.get .month (x3.get .month g3)
    have v5 : q.day = some (da : Int) := hq.get .day (x5.get .day g5)
    have v7 : q.hour = some (ho' : Int) := hq.get .hour (x7.get .hour g7)
    have v9 : q.minute = some (mi : Int) := hq.get .minute (x9.get .minute g9)
    have v11 : q.second = some (se : Int) := hq.get .second (x11.get .second g11)
    have v14 : q.offset = some o := hq.offset _ g14
    refine .iso (y := y) d1 (by simp [clockRead, v1]) ?_ ?_ hT ?_ ?_ ?_ (f12 q (e14.trans hq)) (by simp only [offsetRead, v14]; exact hz)
    · simpa [clockRead, v3] using d3
    · simpa [clockRead, v5] using d5
    · simpa [clockRead, v7] using d7
    · simpa [clockRead, v9] using d9
    · simpa [clockRead, v11] using d11

theorem reads_percent : Reads "%%".toList (.lit '%') := by
  intro p s p' r h
  simp only [parseItem, Option.map_eq_some_iff] at h
  obtain ⟨s', h, he⟩ := h
  cases he
  exact ⟨Extends.refl _, _, ['%'], by rw [scanChar_some h]; rfl, fun q _ => .percent⟩

theorem reads_letter {x : Char} (h1 : x ≠ '%') (h2 : isWhite x = false) : Reads [x] (.lit x) := by
  intro p s p' r h
  simp only [parseItem, Option.map_eq_some_iff] at h
  obtain ⟨s', h, he⟩ := h
  cases he
  exact ⟨Extends.refl _, _, [x], by rw [scanChar_some h]; rfl, fun q _ => .letter h1 h2⟩

theorem reads_space {x : Char} (h1 : isWhite x = true) : Reads [x] .space := by
  intro p s p' r h
  cases h
  obtain ⟨ws, h5, h6⟩ := whites s
  exact ⟨Extends.refl _, _, ws, h6, fun q _ => .space h1 h5 (dropWhile_stop isWhite s)⟩

theorem reads_format : ∀ f : Str, ReadsFormat (items f) f := by
  intro f
  induction f using items.induct with
  | case1 =>
    intro p s p' h
    simp only [items, parseItems] at h
    split at h
    · rename_i hs; cases h; rw [hs]; exact ⟨Extends.refl _, _, fun q _ => .done⟩
    · cases h
  | case2 s ih => exact ReadsFormat.cons reads_year ih
  | case3 s ih => exact ReadsFormat.cons reads_month ih
  | case4 s ih => exact ReadsFormat.cons reads_day ih
  | case5 s ih => exact ReadsFormat.cons reads_hour ih
  | case6 s ih => exact ReadsFormat.cons reads_minute ih
  | case7 s ih => exact ReadsFormat.cons reads_second ih
  | case8 s ih => exact ReadsFormat.cons reads_short_hour ih
  | case9 s ih =>
    intro p s' p' h
    have := ReadsFormat.cons reads_year (ReadsFormat.cons (reads_letter (x := '-') (by decide) (by decide)) (ReadsFormat.cons reads_month
      (ReadsFormat.cons (reads_letter (x := '-') (by decide) (by decide)) (ReadsFormat.cons reads_day ih))))
    obtain ⟨h1, sh, h2⟩ := this p s' p' h
    exact ⟨h1, sh, fun q hq => .date (h2 q hq)⟩
  | case10 s ih =>
    intro p s' p' h
    have := ReadsFormat.cons reads_hour (ReadsFormat.cons (reads_letter (x := ':') (by decide) (by decide)) (ReadsFormat.cons reads_minute
      (ReadsFormat.cons (reads_letter (x := ':') (by decide) (by decide)) (ReadsFormat.cons reads_second ih))))
    obtain ⟨h1, sh, h2⟩ := this p s' p' h
    exact ⟨h1, sh, fun q hq => .time (h2 q hq)⟩
  | case11 s ih =>
    intro p s' p' h
    have := ReadsFormat.cons reads_hour (ReadsFormat.cons (reads_letter (x := ':') (by decide) (by decide)) (ReadsFormat.cons reads_minute ih))
    obtain ⟨h1, sh, h2⟩ := this p s' p' h
    exact ⟨h1, sh, fun q hq => .shortTime (h2 q hq)⟩
  | case12 s ih => exact ReadsFormat.cons (reads_fraction (spec := "%.f".toList) (by decide)) ih
  | case13 s ih => exact ReadsFormat.cons (reads_fraction (spec := "%.3f".toList) (by decide)) ih
  | case14 s ih => exact ReadsFormat.cons (reads_fraction (spec := "%.6f".toList) (by decide)) ih
  | case15 s ih => exact ReadsFormat.cons (reads_fraction (spec := "%.9f".toList) (by decide)) ih
  | case16 s ih => exact ReadsFormat.cons reads_millis ih
  | case17 s ih => exact ReadsFormat.cons (reads_offset (spec := "%z".toList) (by decide)) ih
  | case18 s ih => exact ReadsFormat.cons (reads_offset (spec := "%:z".toList) (by decide)) ih
  | case19 s ih => exact ReadsFormat.cons reads_iso ih
  | case20 s ih => exact ReadsFormat.cons reads_percent ih
  | case21 s =>
    intro p s' p' h
    rw [items.eq_21 s] at h
    · cases h
    all_goals assumption
  | case22 x s =>
    rename_i hx ih
    cases hw : isWhite x with
    | true =>
      rw [items_space hw]
      exact ReadsFormat.cons (reads_space hw) ih
    | false =>
      rw [items_letter hx hw]
      exact ReadsFormat.cons (reads_letter hx hw) ih

/-- What has been read is a text in the format, and this is what it says. -/
theorem parse_back {f s : Str} {p : Parsed} (h : parseItems (items f) {} s = some p) :
    ∃ (c : Clock) (o : Int) (shown : List Part), InFormat c o shown f s ∧ p = parsedOf c o shown ∧ (.second ∉ shown → c.second = 0) ∧ (.nanos ∉ shown → c.nanos = 0) := by
  obtain ⟨_, shown, h1⟩ := reads_format f {} s p h
  have h2 := h1 p (Extends.refl p)
  have h3 : p = parsedOf (clockRead p) (offsetRead p) shown := by
    have := parse_inFormat h2 []
    rw [show parsedOf (clockRead p) (offsetRead p) [] = {} from by simp [parsedOf], h] at this
    simpa using this
  refine ⟨clockRead p, offsetRead p, shown, h2, h3, fun hs => ?_, fun hs => ?_⟩
  · have : p.second = none := by rw [h3]; exact if_neg hs
    simp [clockRead, this]
  · have : p.nano = none := by rw [h3]; exact if_neg hs
    simp [clockRead, this]

end Chopper.Chrono
