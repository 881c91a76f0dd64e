import Verif.Proofs.ChronoParse

/-!
# Begin/end values, ISO texts and time zones
-/
namespace Chopper.Chrono
open Chopper Spec

theorem range_items : rangeFormats.map items = [[], ['/'], ['-']].flatMap fun a => [[' '], ['-'], ['T']].flatMap fun s => [[':'], []].flatMap fun b =>
    [false, true].map fun fr => rangeItems a s b fr := by decide +kernel

theorem sep_a {a : Str} (h : a ∈ [[], ['/'], ['-']]) : Sep a := by
  simp only [List.mem_cons, List.not_mem_nil, or_false] at h
  rcases h with rfl | rfl | rfl
  · exact .inl rfl
  · exact .inr ⟨_, rfl, by decide, by decide⟩
  · exact .inr ⟨_, rfl, by decide, by decide⟩
theorem sep_s {a : Str} (h : a ∈ [[' '], ['-'], ['T']]) : Sep2 a := by
  simp only [List.mem_cons, List.not_mem_nil, or_false] at h
  rcases h with rfl | rfl | rfl
  · exact .inl rfl
  · exact .inr ⟨_, rfl, by decide, by decide⟩
  · exact .inr ⟨_, rfl, by decide, by decide⟩
theorem sep_b {a : Str} (h : a ∈ ([[':'], []] : List Str)) : Sep a := by
  simp only [List.mem_cons, List.not_mem_nil, or_false] at h
  rcases h with rfl | rfl
  · exact .inr ⟨_, rfl, by decide, by decide⟩
  · exact .inl rfl

/-- The text of a clock, in its parts. -/
structure Parts (c : Clock) (y : Nat) (a sep b tf t : Str) : Prop where
  ha : Sep a
  hsep : Sep2 sep
  hb : Sep b
  year : c.date.year = y
  frac : FractionText c.nanos tf
  text : ∃ ty tmo td th tmi ts : Str, HasDigits 4 y ty ∧ HasDigits 2 c.date.month tmo ∧ HasDigits 2 c.date.day td ∧ HasDigits 2 c.hour th ∧ HasDigits 2 c.minute tmi ∧
    HasDigits 2 c.second ts ∧ t = ty ++ a ++ tmo ++ a ++ td ++ (sep ++ (th ++ b ++ tmi ++ b ++ ts ++ tf))

theorem clockText_parts {c : Clock} {t : Str} (h : ClockText c t) : ∃ y a sep b tf, Parts c y a sep b tf t ∧ a ∈ ([[], ['/'], ['-']] : List Str) ∧
    sep ∈ ([[' '], ['-'], ['T']] : List Str) ∧ b ∈ ([[':'], []] : List Str) := by
  obtain ⟨a, sep, b, td, tt, tf, ha, hs, hb, ⟨y, ty, tmo, tdd, hy, h1, h2, h3, rfl⟩, ⟨th, tmi, ts, h4, h5, h6, rfl⟩, hf, rfl⟩ := h
  have ma : a ∈ ([[], ['/'], ['-']] : List Str) := by rcases ha with rfl | rfl | rfl <;> decide
  have ms : sep ∈ ([[' '], ['-'], ['T']] : List Str) := by rcases hs with rfl | rfl | rfl <;> decide
  have mb : b ∈ ([[':'], []] : List Str) := by rcases hb with rfl | rfl <;> decide
  exact ⟨y, a, sep, b, tf, ⟨sep_a ma, sep_s ms, sep_b mb, hy, hf, ty, tmo, tdd, th, tmi, ts, h1, h2, h3, h4, h5, h6, by simp⟩, ma, ms, mb⟩

theorem hasDigits_lt {k n : Nat} {s : Str} (h : HasDigits k n s) : n < 10 ^ k := by
  have := decimalValue_lt h.2.1
  rw [h.1, h.2.2] at this; exact this

theorem Parts.year_lt {c : Clock} {y : Nat} {a sep b tf t : Str} (h : Parts c y a sep b tf t) : y < 10000 := by
  obtain ⟨ty, tmo, td, th, tmi, ts, h1, _⟩ := h.text
  exact hasDigits_lt h1

/-- What one of the formats makes of the text. -/
theorem parse_range {c : Clock} {y : Nat} {a sep b tf t : Str} (h : Parts c y a sep b tf t) {a' s' b' : Str} (ha' : Sep a') (hs' : Sep2 s') (hb' : Sep b') (fr : Bool) :
    parseItems (rangeItems a' s' b' fr) {} t = if a' = a ∧ s' = sep ∧ b' = b ∧ (fr = true ∨ tf = []) then some (clockParsed y c (if tf = [] then none else some c.nanos)) else none := by
  obtain ⟨ty, tmo, td, th, tmi, ts, h1, h2, h3, h4, h5, h6, rfl⟩ := h.text
  have hfr : ∀ p : Parsed, p.nano = none → parseItems (fracItems fr) p tf = if fr = true ∨ tf = [] then some (if tf = [] then p else { p with nano := some c.nanos }) else none := by
    intro p hp
    cases fr with
    | true =>
      have := parse_fraction h.frac (.inl rfl) none p hp
      rw [List.append_nil] at this
      have e : fracItems true = [.fraction none] := rfl
      simp only [e, parseItems, this, Option.bind_some, if_true, true_or]
    | false =>
      have e : fracItems false = [] := rfl
      rw [e]
      by_cases htf : tf = [] <;> simp [parseItems, htf]
  unfold rangeItems
  rw [parse_date ha' h.ha h1 h2 h3]
  by_cases haa : a' = a
  · rw [if_pos haa, parse_time hs' h.hsep hb' h.hb h4 h5 h6 tf _ _ ⟨rfl, rfl, rfl⟩]
    by_cases hsb : s' = sep ∧ b' = b
    · rw [if_pos hsb, hfr _ rfl]
      by_cases hx : fr = true ∨ tf = []
      · rw [if_pos hx]
        have hall : a' = a ∧ s' = sep ∧ b' = b ∧ (fr = true ∨ tf = []) := ⟨haa, hsb.1, hsb.2, hx⟩
        simp only [hall, and_self, if_true]
        by_cases htf : tf = [] <;> simp [htf, clockParsed]
      · rw [if_neg hx, if_neg (fun h => hx h.2.2.2)]
    · rw [if_neg hsb, if_neg (fun h => hsb ⟨h.2.1, h.2.2.1⟩)]
  · rw [if_neg haa, if_neg (fun h => haa h.1)]

/-- The local time the texts stands for. -/
theorem parts_naive {c : Clock} {y : Nat} {a sep b tf t : Str} (h : Parts c y a sep b tf t) :
    toNaive (clockParsed y c (if tf = [] then none else some c.nanos)) = toNaive (clockParsed y c (some c.nanos)) := by
  by_cases htf : tf = []
  · rw [if_pos htf, toNaive_nano]
    have : c.nanos = 0 := by
      rcases h.frac with ⟨_, h0⟩ | ⟨ds, h0, _⟩
      · exact h0
      · rw [htf] at h0; cases h0
    rw [this]; rfl
  · rw [if_neg htf]

theorem range_parse {c : Clock} {y : Nat} {a sep b tf t : Str} (h : Parts c y a sep b tf t) (ma : a ∈ ([[], ['/'], ['-']] : List Str))
    (ms : sep ∈ ([[' '], ['-'], ['T']] : List Str)) (mb : b ∈ ([[':'], []] : List Str)) :
    (∀ f ∈ rangeFormats, chrono.parseNaive f t = none ∨ chrono.parseNaive f t = toNaive (clockParsed y c (some c.nanos))) ∧
    (∃ f ∈ rangeFormats, chrono.parseNaive f t = toNaive (clockParsed y c (some c.nanos))) := by
  constructor
  · intro f hf
    have hi : items f ∈ rangeFormats.map items := List.mem_map_of_mem hf
    rw [range_items] at hi
    simp only [List.mem_flatMap, List.mem_map] at hi
    obtain ⟨a', ha', s', hs', b', hb', fr, _, hi⟩ := hi
    have hp := parse_range h (sep_a ha') (sep_s hs') (sep_b hb') fr
    have e : chrono.parseNaive f t = (parseItems (items f) {} t).bind toNaive := rfl
    rw [e, ← hi, hp]
    split
    · right; rw [Option.bind_some, parts_naive h]
    · left; rfl
  · have hi : rangeItems a sep b true ∈ rangeFormats.map items := by
      rw [range_items]
      simp only [List.mem_flatMap, List.mem_map]
      exact ⟨a, ma, sep, ms, b, mb, true, by simp, rfl⟩
    obtain ⟨f, hf, hfi⟩ := List.mem_map.1 hi
    refine ⟨f, hf, ?_⟩
    have e : chrono.parseNaive f t = (parseItems (items f) {} t).bind toNaive := rfl
    rw [e, hfi, parse_range h h.ha h.hsep h.hb true, if_pos ⟨rfl, rfl, rfl, .inl rfl⟩, Option.bind_some, parts_naive h]

theorem tryRange_of (ov : Overflow) (tz : ChopperTz chrono) (t : Str) (x : Option Instant) : ∀ fs : List Str,
    (∀ f ∈ fs, chrono.parseNaive f t = none ∨ chrono.parseNaive f t = x) → (∃ f ∈ fs, chrono.parseNaive f t = x) →
    tryRangeFormats ov chrono tz t fs = match x with
      | some n => (fromLocalDatetime tz n).bind (timestampNanos ov)
      | none => .err (.custom "Cannot parse either begin or end datetime provided")
  | [], _, h => by obtain ⟨f, hf, _⟩ := h; cases hf
  | f :: fs, h1, h2 => by
    unfold tryRangeFormats
    cases hx : chrono.parseNaive f t with
    | some n =>
      rcases h1 f List.mem_cons_self with h | h
      · rw [hx] at h; cases h
      · rw [hx] at h; subst h; rfl
    | none =>
      simp only
      cases x with
      | none =>
        have hall : ∀ f ∈ fs, chrono.parseNaive f t = none := fun g hg => by
          rcases h1 g (List.mem_cons_of_mem _ hg) with h | h <;> exact h
        have : ∀ gs : List Str, (∀ f ∈ gs, chrono.parseNaive f t = none) → tryRangeFormats ov chrono tz t gs = .err (.custom "Cannot parse either begin or end datetime provided") := by
          intro gs
          induction gs with
          | nil => intro _; rfl
          | cons g gs ih =>
            intro hg
            unfold tryRangeFormats
            rw [hg g List.mem_cons_self]
            exact ih fun f hf => hg f (List.mem_cons_of_mem _ hf)
        exact this fs hall
      | some n =>
        refine tryRange_of ov tz t (some n) fs (fun g hg => h1 g (List.mem_cons_of_mem _ hg)) ?_
        obtain ⟨g, hg, hgx⟩ := h2
        rcases List.mem_cons.1 hg with rfl | hg
        · rw [hx] at hgx; cases hgx
        · exact ⟨g, hg, hgx⟩

/-! ## ISO -/

theorem isoNum_digits {k n : Nat} {s : Str} (h : HasDigits k n s) (r : Str) (f : Numeric) (p : Parsed) : isoNum f k p (s ++ r) = (p.set f n).map fun p => (p, r) := by
  unfold isoNum
  rw [scanNumber_digits h r (Nat.le_refl _)]; rfl

theorem scanChar_same (c : Char) (s : Str) : scanChar c (c :: s) = some s := by simp [scanChar]

theorem scanOffsetZulu_text {o : Int} {t : Str} (h : OffsetText o t) : scanOffsetZulu t = some (o, []) ∧ -86400 < o ∧ o < 86400 ∧ ∃ c r, t = c :: r ∧ isDigit c = false ∧ c ≠ '.' := by
  rcases h with ⟨rfl, rfl⟩ | ⟨h, m, th, tm, hh, hm, hh', hm', hcase⟩
  · exact ⟨by decide, by decide, by decide, 'Z', [], rfl, by decide, by decide⟩
  · obtain ⟨h1, th', rfl, dh1⟩ := hh.cons_of_pos
    have lh := hh.1
    match th', lh with
    | [h2], _ =>
      obtain ⟨m1, tm', rfl, dm1⟩ := hm.cons_of_pos
      have lm := hm.1
      match tm', lm with
      | [m2], _ =>
        have dh2 := isDigit_of_mem hh h2 (by simp)
        have dm2 := isDigit_of_mem hm m2 (by simp)
        have vh : digitVal h1 * 10 + digitVal h2 = h := by
          have := hh.2.2
          simp [decimalValue] at this
          simp only [digitVal]; omega
        have vm : digitVal m1 * 10 + digitVal m2 = m := by
          have := hm.2.2
          simp [decimalValue] at this
          simp only [digitVal]; omega
        have m6 : digitVal m1 < 6 := by
          have := (isDigit_iff m2).1 dm2
          simp only [digitVal] at vm ⊢
          omega
        have hsecs : ∀ sgn : Char, sgn = '+' ∨ sgn = '-' → scanOffsetZulu (sgn :: [h1, h2] ++ [':'] ++ [m1, m2]) =
            some (if sgn = '-' then -((h : Int) * 3600 + m * 60) else (h : Int) * 3600 + m * 60, []) := by
          intro sgn hs
          have e1 : ¬ (sgn = 'z' ∨ sgn = 'Z') := by rcases hs with rfl | rfl <;> decide
          have e2 : ¬ (sgn = 'u' ∨ sgn = 'U') := by rcases hs with rfl | rfl <;> decide
          have e3 : ((digitVal h1 : Int) * 10 + digitVal h2) * 3600 + ((digitVal m1 : Int) * 10 + digitVal m2) * 60 = (h : Int) * 3600 + m * 60 := by
            rw [← vh, ← vm]; omega
          simp only [List.cons_append, List.nil_append, scanOffsetZulu, if_neg e1, if_neg e2, scanOffset, if_pos hs, dh1, dh2, dm1, dm2, m6, scanChar, Bool.and_self, if_true,
            decide_true, e3]
        rcases hcase with ⟨rfl, rfl⟩ | ⟨rfl, rfl⟩
        · exact ⟨(hsecs '+' (.inl rfl)).trans rfl, by omega, by omega, '+', _, rfl, by decide, by decide⟩
        · exact ⟨(hsecs '-' (.inr rfl)).trans rfl, by omega, by omega, '-', _, rfl, by decide, by decide⟩

theorem parse_iso {c : Clock} {y : Nat} {o : Int} {ty tmo td th tmi ts tf to : Str} (h1 : HasDigits 4 y ty) (h2 : HasDigits 2 c.date.month tmo) (h3 : HasDigits 2 c.date.day td)
    (h4 : HasDigits 2 c.hour th) (h5 : HasDigits 2 c.minute tmi) (h6 : HasDigits 2 c.second ts) (hf : FractionText c.nanos tf) (ho : OffsetText o to) :
    parseItems (items fmtIso) {} (ty ++ ('-' :: (tmo ++ ('-' :: (td ++ ('T' :: (th ++ (':' :: (tmi ++ (':' :: (ts ++ (tf ++ to)))))))))))) =
      some { clockParsed y c (if tf = [] then none else some c.nanos) with offset := some o } := by
  obtain ⟨g1, g2, g3, oc, ot, rfl, g4, g5⟩ := scanOffsetZulu_text ho
  have e : items fmtIso = [.iso] := rfl
  rw [e]
  simp only [parseItems, parseItem]
  have hoff : ¬ (o ≤ -86400 ∨ 86400 ≤ o) := by omega
  have hT : ∀ s : Str, scanT ('T' :: s) = some s := fun s => rfl
  have hfrac : ∀ p : Parsed, p.nano = none → scanFraction p (tf ++ oc :: ot) = some (if tf = [] then p else { p with nano := some (c.nanos : Int) }, oc :: ot) :=
    fun p hp => parse_fraction hf (.inr ⟨oc, ot, rfl, g4, g5⟩) none p hp
  unfold parseIso
  simp only [isoNum_digits h1, Parsed.set, setField, Option.map_some, Option.bind_eq_bind, Option.bind_some, scanChar_same, isoNum_digits h2, isoNum_digits h3, isoNum_digits h4,
    isoNum_digits h5, isoNum_digits h6, hT]
  rw [hfrac _ rfl]
  simp only [Option.bind_some, g1, if_neg hoff]
  by_cases htf : tf = [] <;> simp [htf, Parsed.setOffset, setField, clockParsed]

theorem scanChar_digit {c : Char} (hc : isDigit c = false) {k n : Nat} {s : Str} (h : HasDigits (k + 1) n s) (r : Str) : scanChar c (s ++ r) = none := by
  obtain ⟨d, t, rfl, hd⟩ := h.cons_of_pos
  have : d ≠ c := fun e => by rw [e, hc] at hd; cases hd
  simp [scanChar, this]

/-- Without offset a text is not in ISO format. -/
theorem iso_none {c : Clock} {y : Nat} {a sep b tf t : Str} (h : Parts c y a sep b tf t) : chrono.parseTz fmtIso t = none := by
  obtain ⟨ty, tmo, td, th, tmi, ts, h1, h2, h3, h4, h5, h6, rfl⟩ := h.text
  have e : items fmtIso = [.iso] := rfl
  have e0 : ∀ t, chrono.parseTz fmtIso t = (parseItems [.iso] {} t).bind toInstant := fun _ => rfl
  rw [e0]
  suffices hn : parseIso {} (ty ++ a ++ tmo ++ a ++ td ++ (sep ++ (th ++ b ++ tmi ++ b ++ ts ++ tf))) = none by
    simp only [parseItems, parseItem, hn]; rfl
  unfold parseIso
  simp only [List.append_assoc, isoNum_digits h1, Parsed.set, setField, Option.map_some, Option.bind_eq_bind, Option.bind_some]
  have hchar : ∀ (x c : Char) (s : Str), x ≠ c → scanChar c (x :: s) = none := fun x c s h => by simp [scanChar, h]
  rcases h.ha with rfl | ⟨ca, rfl, _, _⟩
  · rw [List.nil_append, scanChar_digit (by decide) h2]; rfl
  by_cases hca : ca = '-'
  case neg => simp only [List.cons_append, hchar _ _ _ hca]; rfl
  subst hca
  simp only [List.cons_append, List.nil_append, scanChar_same, Option.bind_some, isoNum_digits h2, isoNum_digits h3, Parsed.set, setField, Option.map_some]
  have hT : ∀ s, scanT (sep ++ s) = none ∨ scanT (sep ++ s) = some s := by
    intro s
    rcases h.hsep with rfl | ⟨cs, rfl, _, _⟩
    · left; simp [scanT]
    · simp only [List.cons_append, List.nil_append, scanT]
      split
      · exact .inr rfl
      · exact .inl rfl
  rcases hT (th ++ (b ++ (tmi ++ (b ++ (ts ++ tf))))) with e1 | e1
  · rw [e1]; rfl
  rw [e1]
  simp only [Option.bind_some, isoNum_digits h4, Parsed.set, setField, Option.map_some]
  rcases h.hb with rfl | ⟨cb, rfl, _, _⟩
  · rw [List.nil_append, scanChar_digit (by decide) h5]; rfl
  by_cases hcb : cb = ':'
  case neg => simp only [List.cons_append, hchar _ _ _ hcb]; rfl
  subst hcb
  simp only [List.cons_append, List.nil_append, scanChar_same, Option.bind_some, isoNum_digits h5, isoNum_digits h6, Parsed.set, setField, Option.map_some]
  have hfrac : ∀ p : Parsed, p.nano = none → scanFraction p tf = some (if tf = [] then p else { p with nano := some (c.nanos : Int) }, []) := by
    intro p hp
    have := parse_fraction h.frac (.inl rfl) none p hp
    rwa [List.append_nil] at this
  rw [hfrac _ rfl]
  rfl

/-- A text with offset. -/
theorem iso_text {c : Clock} {o : Int} {t : Str} (h : IsoClockText c o t) : ∃ y : Nat, c.date.year = y ∧ y < 10000 ∧ -86400 < o ∧ o < 86400 ∧ c.nanos < 10 ^ 9 ∧
    chrono.parseTz fmtIso t = (toNaive (clockParsed y c (some c.nanos))).map fun x => ⟨x.secs - o, x.nsec⟩ := by
  obtain ⟨td, tt, tf, to, ⟨y, ty, tmo, tdd, hy, h1, h2, h3, rfl⟩, ⟨th, tmi, ts, h4, h5, h6, rfl⟩, hf, ho, rfl⟩ := h
  obtain ⟨_, g2, g3, _⟩ := scanOffsetZulu_text ho
  refine ⟨y, hy, hasDigits_lt h1, g2, g3, fraction_lt hf, ?_⟩
  have e0 : ∀ t, chrono.parseTz fmtIso t = (parseItems (items fmtIso) {} t).bind toInstant := fun _ => rfl
  have e1 : ty ++ "-".toList ++ tmo ++ "-".toList ++ tdd ++ "T".toList ++ (th ++ ":".toList ++ tmi ++ ":".toList ++ ts) ++ tf ++ to =
      ty ++ ('-' :: (tmo ++ ('-' :: (tdd ++ ('T' :: (th ++ (':' :: (tmi ++ (':' :: (ts ++ (tf ++ to))))))))))) := by simp
  rw [e0, e1, parse_iso h1 h2 h3 h4 h5 h6 hf ho, Option.bind_some]
  have hn : ∀ p : Parsed, toInstant { p with offset := some o } = (toNaive p).map fun x => ⟨x.secs - o, x.nsec⟩ := by
    intro p
    have e2 : toNaive { p with offset := some o } = toNaive p := rfl
    unfold toInstant
    simp only [Option.bind_eq_bind, Option.bind_some]
    rw [e2]
    cases toNaive p with
    | none => rfl
    | some x => simp only [Option.bind_some, Option.map_some]; rw [if_neg (by omega)]
  rw [hn]
  congr 1
  by_cases htf : tf = []
  · rw [if_pos htf, toNaive_nano]
    have : c.nanos = 0 := by
      rcases hf with ⟨_, h0⟩ | ⟨ds, h0, _⟩
      · exact h0
      · rw [htf] at h0; cases h0
    rw [this]; rfl
  · rw [if_neg htf]

/-! ## Time zones -/

theorem spans_mem {start : Option Int} {o : Int} {rest : List (Int × Int)} {s : Option Int × Option Int × Int} (h : s ∈ spansFrom start o rest) :
    (s.1 = start ∧ s.2.2 = o ∧ s.2.1 = (rest.head?).map (·.1)) ∨ ∃ (i : Nat) (c : Int × Int), rest[i]? = some c ∧ s = (some c.1, (rest[i + 1]?).map (·.1), c.2) := by
  induction rest generalizing start o with
  | nil => simp [spansFrom] at h; subst h; exact .inl ⟨rfl, rfl, rfl⟩
  | cons c rest ih =>
    simp only [spansFrom, List.mem_cons] at h
    rcases h with rfl | h
    · exact .inl ⟨rfl, rfl, rfl⟩
    · right
      rcases ih h with ⟨h1, h2, h3⟩ | ⟨i, c', h1, h2⟩
      · refine ⟨0, c, rfl, ?_⟩
        obtain ⟨s1, s2, s3⟩ := s
        simp only at h1 h2 h3
        subst h1 h2 h3
        simp [List.head?_eq_getElem?]
      · exact ⟨i + 1, c', by simpa using h1, by simpa using h2⟩

theorem spans_first (start : Option Int) (o : Int) (rest : List (Int × Int)) : (start, (rest.head?).map (·.1), o) ∈ spansFrom start o rest := by
  cases rest with
  | nil => simp [spansFrom]
  | cons c rest => simp [spansFrom]

theorem spans_at {start : Option Int} {o : Int} {rest : List (Int × Int)} {i : Nat} {c : Int × Int} (h : rest[i]? = some c) :
    (some c.1, (rest[i + 1]?).map (·.1), c.2) ∈ spansFrom start o rest := by
  induction rest generalizing start o i with
  | nil => simp at h
  | cons d rest ih =>
    simp only [spansFrom, List.mem_cons]
    right
    cases i with
    | zero =>
      simp only [List.getElem?_cons_zero, Option.some.injEq] at h
      subst h
      have := spans_first (some d.1) d.2 rest
      rw [List.head?_eq_getElem?] at this
      simpa using this
    | succ i => simpa using ih (start := some d.1) (o := d.2) (by simpa using h)

theorem sorted_get {rest : List (Int × Int)} (h : rest.Pairwise fun a b => a.1 < b.1) {i j : Nat} {a b : Int × Int} (ha : rest[i]? = some a) (hb : rest[j]? = some b) (hij : i < j) :
    a.1 < b.1 := by
  obtain ⟨hi, rfl⟩ := List.getElem?_eq_some_iff.1 ha
  obtain ⟨hj, rfl⟩ := List.getElem?_eq_some_iff.1 hb
  exact List.pairwise_iff_getElem.1 h i j hi hj hij

theorem inSpan_iff (s : Option Int × Option Int × Int) (t : Int) : inSpan s t = true ↔ (∀ a, s.1 = some a → a ≤ t) ∧ ∀ b, s.2.1 = some b → t < b := by
  obtain ⟨a, b, o⟩ := s
  cases a <;> cases b <;> simp [inSpan]

theorem offsetIs_iff {z : TzSpans} (hz : InOrder z) (t o : Int) : OffsetIs z t o ↔ ∃ s ∈ z.spans, inSpan s t = true ∧ s.2.2 = o := by
  constructor
  · intro h
    cases h with
    | first h =>
      refine ⟨_, spans_first none z.first z.rest, ?_, rfl⟩
      rw [inSpan_iff]
      refine ⟨by simp, fun b hb => ?_⟩
      simp only [Option.map_eq_some_iff] at hb
      obtain ⟨c, hc, rfl⟩ := hb
      exact h c (List.mem_of_mem_head? hc)
    | @since i c hc h1 h2 =>
      refine ⟨_, spans_at hc, ?_, rfl⟩
      rw [inSpan_iff]
      refine ⟨by simpa using h1, fun b hb => ?_⟩
      simp only [Option.map_eq_some_iff] at hb
      obtain ⟨d, hd, rfl⟩ := hb
      refine h2 d (List.mem_iff_getElem?.2 ⟨0, ?_⟩)
      rw [List.getElem?_drop]; exact hd
  · rintro ⟨s, hs, h1, rfl⟩
    rw [inSpan_iff] at h1
    rcases spans_mem hs with ⟨g1, g2, g3⟩ | ⟨i, c, g1, rfl⟩
    · rw [g2]
      refine .first fun c hc => ?_
      cases hr : z.rest with
      | nil => rw [hr] at hc; cases hc
      | cons d r =>
        have hd : t < d.1 := h1.2 d.1 (by rw [g3, hr]; rfl)
        rw [hr] at hc
        rcases List.mem_cons.1 hc with rfl | hc
        · exact hd
        · have := hz
          unfold InOrder at this
          rw [hr] at this
          have := (List.pairwise_cons.1 this).1 c hc
          omega
    · refine .since g1 (h1.1 _ rfl) fun d hd => ?_
      obtain ⟨k, hk⟩ := List.mem_iff_getElem?.1 hd
      rw [List.getElem?_drop] at hk
      cases he : z.rest[i + 1]? with
      | none =>
        have h3 := List.getElem?_eq_none_iff.1 he
        have h4 := (List.getElem?_eq_some_iff.1 hk).1
        omega
      | some e =>
        have h5 : t < e.1 := h1.2 e.1 (by simp [he])
        by_cases hk0 : k = 0
        · subst hk0
          rw [Nat.add_zero, he] at hk
          simp only [Option.some.injEq] at hk
          subst hk; exact h5
        · have := sorted_get hz he hk (by omega)
          omega

theorem spans_start {a : Int} {o : Int} {rest : List (Int × Int)} (h : ∀ c ∈ rest, a < c.1) {s} (hs : s ∈ spansFrom (some a) o rest) : ∃ b, s.1 = some b ∧ a ≤ b := by
  rcases spans_mem hs with ⟨g1, _, _⟩ | ⟨i, c, g1, rfl⟩
  · exact ⟨a, g1, Int.le_refl _⟩
  · exact ⟨c.1, rfl, Int.le_of_lt (h c (List.mem_of_getElem? g1))⟩

theorem spans_disjoint {start : Option Int} {o : Int} {rest : List (Int × Int)} (h : rest.Pairwise fun a b => a.1 < b.1) :
    (spansFrom start o rest).Pairwise fun s s' => ∀ t, inSpan s t = true → inSpan s' t = false := by
  induction rest generalizing start o with
  | nil => simp [spansFrom]
  | cons c rest ih =>
    have hc := List.pairwise_cons.1 h
    simp only [spansFrom, List.pairwise_cons]
    refine ⟨fun s' hs' t ht => ?_, ih hc.2⟩
    obtain ⟨b, hb, hab⟩ := spans_start hc.1 hs'
    rw [inSpan_iff] at ht
    have h1 := ht.2 c.1 rfl
    cases hx : inSpan s' t with
    | false => rfl
    | true => have := ((inSpan_iff _ _).1 hx).1 b hb; omega

theorem spans_cover {start : Option Int} {o : Int} {rest : List (Int × Int)} {t : Int} (h : ∀ a, start = some a → a ≤ t) : ∃ s ∈ spansFrom start o rest, inSpan s t = true := by
  induction rest generalizing start o with
  | nil => exact ⟨_, List.mem_cons_self, (inSpan_iff _ _).2 ⟨h, by simp⟩⟩
  | cons c rest ih =>
    by_cases hc : t < c.1
    · exact ⟨_, List.mem_cons_self, (inSpan_iff _ _).2 ⟨h, by simpa using hc⟩⟩
    · obtain ⟨s, hs, ht⟩ := ih (start := some c.1) (o := c.2) (by intro a ha; cases ha; omega)
      exact ⟨s, List.mem_cons_of_mem _ hs, ht⟩

theorem offsetAt_spec {z : TzSpans} (hz : InOrder z) (t : Int) : OffsetIs z t (z.offsetAt t) := by
  rw [offsetIs_iff hz]
  obtain ⟨s, hs, ht⟩ := spans_cover (start := none) (o := z.first) (rest := z.rest) (t := t) (by simp)
  cases hf : z.spans.find? (fun s => inSpan s t) with
  | none =>
    have := List.find?_eq_none.1 hf s hs
    exact absurd ht this
  | some s' =>
    refine ⟨s', List.mem_of_find?_eq_some hf, by simpa using List.find?_some hf, ?_⟩
    simp [TzSpans.offsetAt, hf]

theorem pairwise_unique {α : Type} {R : α → α → Prop} {l : List α} (h : l.Pairwise R) {a b : α} (ha : a ∈ l) (hb : b ∈ l) (h1 : ¬ R a b) (h2 : ¬ R b a) : a = b := by
  induction l with
  | nil => cases ha
  | cons c l ih =>
    have hc := List.pairwise_cons.1 h
    rcases List.mem_cons.1 ha with rfl | ha'
    · rcases List.mem_cons.1 hb with rfl | hb'
      · rfl
      · exact absurd (hc.1 b hb') h1
    · rcases List.mem_cons.1 hb with rfl | hb'
      · exact absurd (hc.1 a ha') h2
      · exact ih hc.2 ha' hb'

theorem offsetIs_unique {z : TzSpans} (hz : InOrder z) {t o o' : Int} (h : OffsetIs z t o) (h' : OffsetIs z t o') : o = o' := by
  obtain ⟨s, hs, ht, rfl⟩ := (offsetIs_iff hz _ _).1 h
  obtain ⟨s', hs', ht', rfl⟩ := (offsetIs_iff hz _ _).1 h'
  have : s = s' := pairwise_unique (spans_disjoint hz) hs hs' (fun hd => by have := hd t ht; rw [ht'] at this; cases this)
    (fun hd => by have := hd t ht'; rw [ht] at this; cases this)
  rw [this]

theorem shows_iff {z : TzSpans} (hz : InOrder z) (t loc : Int) : Shows z t loc ↔ ∃ s ∈ z.spans.filter (fun s => inSpan s (loc - s.2.2)), t = loc - s.2.2 := by
  constructor
  · rintro ⟨o, ho, rfl⟩
    obtain ⟨s, hs, ht, rfl⟩ := (offsetIs_iff hz _ _).1 ho
    exact ⟨s, List.mem_filter.2 ⟨hs, by simpa using ht⟩, by omega⟩
  · rintro ⟨s, hs, rfl⟩
    obtain ⟨hs, ht⟩ := List.mem_filter.1 hs
    exact ⟨s.2.2, (offsetIs_iff hz _ _).2 ⟨s, hs, ht, rfl⟩, by omega⟩

/-- Local times are converted if they occur exactly once. -/
theorem fromLocal_iff {z : TzSpans} (hz : InOrder z) (x i : Instant) : z.fromLocal x = some i ↔ i.nsec = x.nsec ∧ OnlyTime z x.secs i.secs := by
  unfold TzSpans.fromLocal
  generalize hf : z.spans.filter (fun s => inSpan s (x.secs - s.2.2)) = l
  have hsh : ∀ t, Shows z t x.secs ↔ ∃ s ∈ l, t = x.secs - s.2.2 := fun t => by rw [← hf]; exact shows_iff hz t x.secs
  have hin : ∀ s ∈ l, s ∈ z.spans ∧ inSpan s (x.secs - s.2.2) = true := fun s hs => by rw [← hf] at hs; exact List.mem_filter.1 hs
  have hp : l.Pairwise fun s s' => ∀ t, inSpan s t = true → inSpan s' t = false := by rw [← hf]; exact (spans_disjoint hz).filter _
  constructor
  · intro h
    split at h
    · rename_i s
      simp only [Option.some.injEq] at h
      subst h
      refine ⟨rfl, (hsh _).2 ⟨s, List.mem_singleton.2 rfl, rfl⟩, fun t' ht' => ?_⟩
      obtain ⟨s', hs', rfl⟩ := (hsh _).1 ht'
      rw [List.mem_singleton.1 hs']
    · cases h
  · rintro ⟨h1, h2, h3⟩
    obtain ⟨s, hs, hi⟩ := (hsh _).1 h2
    have hall : ∀ s' ∈ l, x.secs - s'.2.2 = i.secs := fun s' hs' => h3 _ ((hsh _).2 ⟨s', hs', rfl⟩)
    match l, hp, hall, hin, hs with
    | [s'], _, _, _, hs =>
      have := List.mem_singleton.1 hs
      subst this
      simp only
      rw [← hi, ← h1]
    | s1 :: s2 :: l, hp, hall, hin, _ =>
      have d := (List.pairwise_cons.1 hp).1 s2 (by simp) i.secs
      have i1 := (hin s1 (by simp)).2
      have i2 := (hin s2 (by simp)).2
      rw [hall s1 (by simp)] at i1
      rw [hall s2 (by simp)] at i2
      rw [d i1] at i2; cases i2

theorem fromLocal_none {z : TzSpans} (hz : InOrder z) (x : Instant) : z.fromLocal x = none ↔ ∀ t, ¬ OnlyTime z x.secs t := by
  constructor
  · intro h t ht
    have := (fromLocal_iff hz x ⟨t, x.nsec⟩).2 ⟨rfl, ht⟩
    rw [h] at this; cases this
  · intro h
    cases hx : z.fromLocal x with
    | none => rfl
    | some i => exact absurd ((fromLocal_iff hz x i).1 hx).2 (h _)

end Chopper.Chrono
