import Verif.Proofs.TsCol

namespace Chopper
open Spec

theorem parseU64_iff (s : Str) (n : Nanos) : parseU64 s = some n ↔
    ∃ t, (s = t ∨ s = '+' :: t) ∧ Digits t ∧ decimalValue t < 2 ^ 64 ∧ n.toNat = decimalValue t := by
  have gen : ∀ t : Str, (parseDigits t).bind (fun n => if n < 2 ^ 64 then some (BitVec.ofNat 64 n) else none) = some n ↔
      (Digits t ∧ decimalValue t < 2 ^ 64 ∧ n.toNat = decimalValue t) := by
    intro t
    cases h : parseDigits t with
    | none =>
      simp only [Option.bind_none, reduceCtorEq, false_iff]
      rintro ⟨h1, _⟩
      exact (parseDigits_none t).1 h h1
    | some m =>
      obtain ⟨h1, rfl⟩ := (parseDigits_iff t m).1 h
      rw [Option.bind_some]
      by_cases hl : decimalValue t < 2 ^ 64
      · rw [if_pos hl, Option.some.injEq, ← BitVec.toNat_inj, BitVec.toNat_ofNat, Nat.mod_eq_of_lt hl]
        exact ⟨fun h => ⟨h1, hl, h.symm⟩, fun h => h.2.2.symm⟩
      · rw [if_neg hl]
        simp only [reduceCtorEq, false_iff]
        rintro ⟨_, h2, _⟩; exact hl h2
  unfold parseU64 stripPlus
  split
  · rename_i t
    rw [gen]
    constructor
    · intro h; exact ⟨t, .inr rfl, h⟩
    · rintro ⟨u, rfl | h, h2⟩
      · exact absurd h2.1 (not_digits_plus t)
      · simp at h; subst h; exact h2
  · rename_i hn
    rw [gen]
    constructor
    · intro h; exact ⟨s, .inl rfl, h⟩
    · rintro ⟨u, rfl | h, h2⟩
      · exact h2
      · exact absurd h (hn u)

theorem inRange_iff (n : Nanos) :
    (inRangeNanos n = true ↔ InWindow .nanos n.toNat) ∧ (inRangeMicros n = true ↔ InWindow .micros n.toNat) ∧
    (inRangeMillis n = true ↔ InWindow .millis n.toNat) ∧ (inRangeSeconds n = true ↔ InWindow .seconds n.toNat) := by
  simp only [inRangeNanos, inRangeMicros, inRangeMillis, inRangeSeconds, decide_eq_true_iff, InWindow, nanosPer]
  omega

theorem window_unique {u v : TimestampUnits} {n : Nat} (hu : InWindow u n) (hv : InWindow v n) : u = v := by
  cases u <;> cases v <;> simp only [InWindow, nanosPer] at hu hv <;> first | rfl | omega

theorem mulU64_exact (ov : Overflow) (n : Nanos) (k : Nat) (h : n.toNat * k < 2 ^ 64) (hk : k < 2 ^ 64) : ∃ ts, mulU64 ov n k = .ok ts ∧ ts.toNat = n.toNat * k := by
  refine ⟨n * BitVec.ofNat 64 k, ?_, ?_⟩
  · unfold mulU64; cases ov
    · simp [h]
    · rfl
  · rw [BitVec.toNat_mul, BitVec.toNat_ofNat, Nat.mod_eq_of_lt hk, Nat.mod_eq_of_lt h]

theorem mulU64_panics {n : Nanos} {k : Nat} {ts : Nanos} (h : mulU64 .panics n k = .ok ts) : n.toNat * k < 2 ^ 64 := by
  unfold mulU64 at h; simp only at h; split at h
  · assumption
  · simp at h

theorem scaleUnits_exact (ov : Overflow) (u : TimestampUnits) (n : Nanos) (h : n.toNat * nanosPer u < 2 ^ 64) :
    ∃ ts, scaleUnits ov u n = .ok ts ∧ ts.toNat = n.toNat * nanosPer u := by
  cases u
  · exact mulU64_exact ov n _ h (by decide)
  · exact mulU64_exact ov n _ h (by decide)
  · exact mulU64_exact ov n _ h (by decide)
  · exact ⟨n, rfl, by simp [nanosPer]⟩

theorem scaleUnits_panics {u : TimestampUnits} {n ts : Nanos} (h : scaleUnits .panics u n = .ok ts) : n.toNat * nanosPer u < 2 ^ 64 := by
  cases u
  · exact mulU64_panics h
  · exact mulU64_panics h
  · exact mulU64_panics h
  · simp only [nanosPer]; omega

theorem digits_all {s : Str} (h : Digits s) : s.all isDigit = true := by
  rw [List.all_eq_true]; intro c hc; exact (isDigit_iff c).2 (h.2 c hc)

theorem parse_window (ov : Overflow) (lib : DateLib) (tz : ChopperTz lib) {s : Str} {u : TimestampUnits} (hd : Digits s)
    (hw : InWindow u (decimalValue s)) : parseDatetimeRangeElement ov lib tz s = scaleUnits ov u (BitVec.ofNat 64 (decimalValue s)) ∧
      decimalValue s < 2 ^ 64 := by
  have hlt : decimalValue s < 2 ^ 64 := by cases u <;> simp only [InWindow, nanosPer] at hw <;> omega
  refine ⟨?_, hlt⟩
  have hn : (BitVec.ofNat 64 (decimalValue s)).toNat = decimalValue s := by rw [BitVec.toNat_ofNat, Nat.mod_eq_of_lt hlt]
  unfold parseDatetimeRangeElement
  rw [if_pos (digits_all hd), parseU64_digits hd, if_pos hlt]
  simp only
  obtain ⟨i1, i2, i3, i4⟩ := inRange_iff (BitVec.ofNat 64 (decimalValue s))
  rw [hn] at i1 i2 i3 i4
  have no : ∀ {v : TimestampUnits} {b : Bool}, (b = true ↔ InWindow v (decimalValue s)) → v ≠ u → ¬ (b = true) :=
    fun h hne hb => hne (window_unique (h.1 hb) hw)
  cases u
  · rw [if_neg (no i1 (by decide)), if_neg (no i2 (by decide)), if_neg (no i3 (by decide)), if_pos (i4.2 hw)]; rfl
  · rw [if_neg (no i1 (by decide)), if_neg (no i2 (by decide)), if_pos (i3.2 hw)]; rfl
  · rw [if_neg (no i1 (by decide)), if_pos (i2.2 hw)]; rfl
  · rw [if_pos (i1.2 hw)]; rfl

theorem parse_outside (ov : Overflow) (lib : DateLib) (tz : ChopperTz lib) {s : Str} (hd : Digits s)
    (hw : ∀ u, ¬ InWindow u (decimalValue s)) (hlt : decimalValue s < 2 ^ 64) :
    parseDatetimeRangeElement ov lib tz s = parseRangeDatetime ov lib tz true s := by
  have hn : (BitVec.ofNat 64 (decimalValue s)).toNat = decimalValue s := by rw [BitVec.toNat_ofNat, Nat.mod_eq_of_lt hlt]
  unfold parseDatetimeRangeElement
  rw [if_pos (digits_all hd), parseU64_digits hd, if_pos hlt]
  simp only
  obtain ⟨i1, i2, i3, i4⟩ := inRange_iff (BitVec.ofNat 64 (decimalValue s))
  rw [hn] at i1 i2 i3 i4
  rw [if_neg (fun h => hw _ (i1.1 h)), if_neg (fun h => hw _ (i2.1 h)), if_neg (fun h => hw _ (i3.1 h)), if_neg (fun h => hw _ (i4.1 h))]

theorem fits_iff (x : Int) : fitsI64 x = true ↔ (- 2 ^ 63 ≤ x ∧ x < 2 ^ 63) := by simp [fitsI64]

theorem ofInt_toNat (x : Int) : ((BitVec.ofInt 64 x).toNat : Int) = x % 2 ^ 64 := by
  rw [BitVec.toNat_ofInt]
  omega

theorem timestampNanos_follows (ov : Overflow) (i : Instant) : Follows ov (some i) (timestampNanos ov i) := by
  unfold Follows timestampNanos
  cases ov with
  | wraps => exact .inl ⟨_, rfl, ofInt_toNat _⟩
  | panics =>
    simp only
    split
    · exact .inl ⟨_, rfl, ofInt_toNat _⟩
    · rename_i h
      refine .inr ⟨trivial, rfl, ?_⟩
      rw [Bool.and_eq_true, fits_iff, fits_iff] at h
      have : (10 : Int) ^ 9 = 1000000000 := rfl
      rw [this]
      omega

theorem tryRange_outcome (ov : Overflow) (lib : DateLib) (tz : ChopperTz lib) (t : Str) (hiso : lib.parseTz "%+".toList t = none) :
    ∀ (pre rest : List Str), (∀ f ∈ pre, lib.parseNaive f t = none) →
      ∃ o, DateOutcome lib tz (pre ++ rest) t o ∧ Follows ov o (tryRangeFormats ov lib tz t rest)
  | pre, [], hpre => ⟨none, .unknown hiso (by simpa using hpre), _, rfl⟩
  | pre, f :: fs, hpre => by
    simp only [tryRangeFormats]
    cases hf : lib.parseNaive f t with
    | none =>
      simp only
      have := tryRange_outcome ov lib tz t hiso (pre ++ [f]) fs (by
        intro g hg
        rcases List.mem_append.1 hg with h | h
        · exact hpre g h
        · simp at h; subst h; exact hf)
      simpa using this
    | some x =>
      simp only
      have hk : (pre ++ f :: fs)[pre.length]? = some f := by simp
      have hj : ∀ (j : Nat) g, j < pre.length → (pre ++ f :: fs)[j]? = some g → lib.parseNaive g t = none := by
        intro j g hj hg
        rw [List.getElem?_append_left hj] at hg
        exact hpre g (List.mem_of_getElem? hg)
      cases htz : tz with
      | none => exact ⟨none, .badZone hiso hk hf hj (by simp), _, rfl⟩
      | some zone =>
        cases hz : zone x with
        | none => exact ⟨none, .badZone hiso hk hf hj (by rintro z h; cases h; exact hz), by simp [Follows, fromLocalDatetime, hz]⟩
        | some i =>
          refine ⟨some i, .local hiso hk hf hj rfl hz, ?_⟩
          have : (fromLocalDatetime (lib := lib) (some zone) x).bind (timestampNanos ov) = timestampNanos ov i := by simp [fromLocalDatetime, hz]
          rw [this]
          exact timestampNanos_follows ov i

theorem iso_eq : fmtIso = "%+".toList := by decide

theorem parseRange_outcome (ov : Overflow) (lib : DateLib) (tz : ChopperTz lib) (d : Bool) (s : Str) :
    ∃ o, DateOutcome lib tz rangeFormats (autocomplete d s) o ∧ Follows ov o (parseRangeDatetime ov lib tz d s) := by
  unfold parseRangeDatetime
  rw [iso_eq]
  cases h : lib.parseTz "%+".toList (autocomplete d s) with
  | some i => simp only [h]; exact ⟨some i, .iso h, timestampNanos_follows ov i⟩
  | none => simp only [h]; simpa using tryRange_outcome ov lib tz _ h [] rangeFormats (by simp)

theorem utf8Len_digits {s : Str} (h : Digits s) : utf8Len s = s.length := by
  have : ∀ s : Str, (∀ c ∈ s, c.toNat < 128) → utf8Len s = s.length := by
    intro s
    induction s with
    | nil => intro _; rfl
    | cons c cs ih =>
      intro h
      have e : utf8Len (c :: cs) = (encodeChar c).length + utf8Len cs := by simp [utf8Len, utf8Encode]
      rw [e, ih (fun x hx => h x (by simp [hx]))]
      have : (encodeChar c).length = 1 := by
        unfold encodeChar
        rw [if_pos (h c (by simp))]; rfl
      rw [this, List.length_cons]; omega
  exact this s (fun c hc => by have := (h.2 c hc).2; omega)

theorem decimal_lt {s : Str} (h : ∀ c ∈ s, 48 ≤ c.toNat ∧ c.toNat ≤ 57) : decimalValue s < 10 ^ s.length := by
  induction s with
  | nil => decide
  | cons c cs ih =>
    have h1 := ih (fun x hx => h x (by simp [hx]))
    have h2 := h c (by simp)
    have h3 : (c.toNat - 48) * 10 ^ cs.length ≤ 9 * 10 ^ cs.length := Nat.mul_le_mul_right _ (by omega)
    show (c.toNat - 48) * 10 ^ cs.length + decimalValue cs < 10 ^ (cs.length + 1)
    rw [Nat.pow_succ]; omega

theorem autocomplete_digits {s : Str} (h : Digits s) : autocomplete true s =
    if s.length = 4 then s ++ "0101-00:00:00".toList else if s.length = 6 then s ++ "01-00:00:00".toList
    else if s.length = 8 then s ++ "-00:00:00".toList else s := by
  unfold autocomplete
  rw [utf8Len_digits h, if_pos rfl]
  simp only [List.append_assoc]
  rfl

theorem fromLocal_ok {lib : DateLib} {tz : ChopperTz lib} {x : lib.Naive} {i : Instant} (h : fromLocalDatetime tz x = .ok i) :
    ∃ zone, tz = some zone ∧ zone x = some i := by
  unfold fromLocalDatetime at h
  cases tz with
  | none => simp at h
  | some zone =>
    simp only at h
    cases hz : zone x with
    | none => rw [hz] at h; simp at h
    | some j => rw [hz] at h; simp at h; subst h; exact ⟨zone, rfl, hz⟩

theorem detectUnits_ok {text : Str} {fmt : TimestampFmt} (h : detectUnits text = .ok fmt) :
    ∃ u, fmt = .units u ∧ Digits text ∧ InWindow u (decimalValue text) := by
  unfold detectUnits at h
  split at h
  · rename_i hd
    cases hp : parseU64 text with
    | none => rw [hp] at h; simp at h
    | some n =>
      obtain ⟨t, ht, h1, h2, h3⟩ := (parseU64_iff text n).1 hp
      have : text = t := by
        rcases ht with rfl | rfl
        · rfl
        · rw [List.all_eq_true] at hd
          have := hd '+' (by simp)
          exact absurd this (by decide)
      subst this
      rw [hp] at h
      simp only at h
      obtain ⟨i1, i2, i3, i4⟩ := inRange_iff n
      rw [h3] at i1 i2 i3 i4
      split at h
      · rename_i hw; cases h; exact ⟨_, rfl, h1, i1.1 hw⟩
      split at h
      · rename_i hw; cases h; exact ⟨_, rfl, h1, i2.1 hw⟩
      split at h
      · rename_i hw; cases h; exact ⟨_, rfl, h1, i3.1 hw⟩
      split at h
      · rename_i hw; cases h; exact ⟨_, rfl, h1, i4.1 hw⟩
      · simp at h
  · simp at h

theorem epochText_eq (u : TimestampUnits) (ts : Nanos) : epochText u ts = natToStr (ts.toNat / nanosPer u) := by
  unfold epochText
  cases u
  · simp only [BitVec.toNat_udiv]; rfl
  · simp only [BitVec.toNat_udiv]; rfl
  · simp only [BitVec.toNat_udiv]; rfl
  · simp [nanosPer]

theorem natToStr_zero {n : Nat} (h : (natToStr n).head? = some '0') : natToStr n = "0".toList := by
  obtain ⟨p, h1, h2, h3, h4, h5⟩ := natDigitsAux_spec (n + 1) n [] (by omega)
  unfold natToStr at *
  rw [h1, List.append_nil] at h ⊢
  by_cases hn : n = 0
  · exact h5 hn
  · exact absurd h (h4 hn)

end Chopper
