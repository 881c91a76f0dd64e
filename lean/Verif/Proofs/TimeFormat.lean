import Verif.Proofs.ChronoColumns
import Verif.Spec.TimeFormat

/-!
# Reading times in formats of the user
-/
namespace Chopper.Chrono
open Chopper Spec

/-- What has been read when these parts have been seen. -/
def parsedOf (c : Clock) (o : Int) (ps : List Part) : Parsed where
  year := if .year ∈ ps then some c.date.year else none
  month := if .month ∈ ps then some (c.date.month : Int) else none
  day := if .day ∈ ps then some (c.date.day : Int) else none
  hour := if .hour ∈ ps then some (c.hour : Int) else none
  minute := if .minute ∈ ps then some (c.minute : Int) else none
  second := if .second ∈ ps then some (c.second : Int) else none
  nano := if .nanos ∈ ps then some (c.nanos : Int) else none
  offset := if .offset ∈ ps then some o else none

theorem setField_if (p : Prop) [Decidable p] (v : Int) : setField (if p then some v else none) v = some (some v) := by
  split <;> simp [setField]

theorem set_year (c : Clock) (o : Int) (qs : List Part) : (parsedOf c o qs).set .year c.date.year = some (parsedOf c o (qs ++ [.year])) := by
  simp [Parsed.set, parsedOf, setField_if]
theorem set_month (c : Clock) (o : Int) (qs : List Part) : (parsedOf c o qs).set .month c.date.month = some (parsedOf c o (qs ++ [.month])) := by
  simp [Parsed.set, parsedOf, setField_if]
theorem set_day (c : Clock) (o : Int) (qs : List Part) : (parsedOf c o qs).set .day c.date.day = some (parsedOf c o (qs ++ [.day])) := by
  simp [Parsed.set, parsedOf, setField_if]
theorem set_hour (c : Clock) (o : Int) (qs : List Part) : (parsedOf c o qs).set .hour c.hour = some (parsedOf c o (qs ++ [.hour])) := by
  simp [Parsed.set, parsedOf, setField_if]
theorem set_minute (c : Clock) (o : Int) (qs : List Part) : (parsedOf c o qs).set .minute c.minute = some (parsedOf c o (qs ++ [.minute])) := by
  simp [Parsed.set, parsedOf, setField_if]
theorem set_second (c : Clock) (o : Int) (qs : List Part) : (parsedOf c o qs).set .second c.second = some (parsedOf c o (qs ++ [.second])) := by
  simp [Parsed.set, parsedOf, setField_if]
theorem set_nano (c : Clock) (o : Int) (qs : List Part) : (parsedOf c o qs).setNano c.nanos = some (parsedOf c o (qs ++ [.nanos])) := by
  simp [Parsed.setNano, parsedOf, setField_if]
theorem set_offset (c : Clock) (o : Int) (qs : List Part) : (parsedOf c o qs).setOffset o = some (parsedOf c o (qs ++ [.offset])) := by
  simp [Parsed.setOffset, parsedOf, setField_if]

theorem noDigit_cases {s : Str} (h : NoDigitFirst s) : s = [] ∨ ∃ c t, s = c :: t ∧ isDigit c = false := by
  cases s with
  | nil => exact .inl rfl
  | cons c t =>
    refine .inr ⟨c, t, rfl, ?_⟩
    have := h c rfl
    cases hd : isDigit c with
    | false => rfl
    | true => exact absurd ((isDigit_iff c).1 hd) this

theorem noDigit_iff {s : Str} : NoDigitFirst s ↔ s = [] ∨ ∃ c t, s = c :: t ∧ isDigit c = false := by
  refine ⟨noDigit_cases, ?_⟩
  rintro (rfl | ⟨c, t, rfl, h⟩) x hx
  · cases hx
  · cases hx
    intro hd
    rw [(isDigit_iff c).2 hd] at h; cases h

theorem scanNumber_number {least most n : Nat} {t r : Str} (h : Number least most n t r) : scanNumber least most (t ++ r) = some ((n : Int), r) := by
  obtain ⟨h1, h2, h3, h4, h5⟩ := h
  have hall : ∀ c ∈ t, isDigit c = true := fun c hc => (isDigit_iff c).2 (h3 c hc)
  have e : ((t ++ r).take most).takeWhile isDigit = t := by
    rcases h5 with h5 | h5
    · rw [← h5, List.take_left]
      have := List.takeWhile_append_of_pos (l₂ := []) hall
      simpa using this
    · rw [List.take_append, List.take_of_length_le h2, List.takeWhile_append_of_pos hall]
      rcases noDigit_cases h5 with rfl | ⟨c, u, rfl, hc⟩
      · simp
      · cases most - t.length with
        | zero => simp
        | succ k => simp [hc]
  unfold scanNumber
  simp only [e]
  rw [if_neg (by omega), List.drop_left, digitsVal_acc, h4]
  simp

theorem white_drop {ws s : Str} (h : White ws) (hs : ∀ y, s.head? = some y → isWhite y = false) : (ws ++ s).dropWhile isWhite = s := by
  induction ws with
  | nil =>
    cases s with
    | nil => rfl
    | cons y s => simp [hs y rfl]
  | cons w ws ih =>
    rw [List.cons_append, List.dropWhile_cons, if_pos (h w List.mem_cons_self)]
    exact ih fun x hx => h x (List.mem_cons_of_mem _ hx)

theorem number_head {most n : Nat} {t r : Str} (h : Number 1 most n t r) : ∀ y, (t ++ r).head? = some y → isWhite y = false := by
  intro y hy
  cases t with
  | nil => have := h.1; simp at this
  | cons c t =>
    cases hy
    exact isDigit_not_white ((isDigit_iff y).2 (h.2.2.1 y List.mem_cons_self))

theorem digits_head {t r : Str} (h : Digits t) : ∃ c u, t ++ r = c :: u ∧ isDigit c = true := by
  cases t with
  | nil => exact absurd rfl h.1
  | cons c t => exact ⟨c, t ++ r, rfl, (isDigit_iff c).2 (h.2 c List.mem_cons_self)⟩

theorem scanNumber_rest {t r : Str} (h : Digits t) (hr : NoDigitFirst r) : scanNumber 1 (t ++ r).length (t ++ r) = some ((decimalValue t : Int), r) := by
  refine scanNumber_number ⟨?_, by simp, h.2, rfl, .inr hr⟩
  have := h.1
  cases t with
  | nil => exact absurd rfl this
  | cons => simp

theorem scanOffset_part {o : Int} {sep t : Str} (h : OffsetPart o sep t) {colon : Str → Option Str} (hc : ∀ (d : Char) (u : Str), isDigit d = true → colon (sep ++ d :: u) = some (d :: u)) (r : Str) :
    scanOffset colon (t ++ r) = some (o, r) := by
  have key : ∀ {h m : Nat} {th tm : Str}, HasDigits 2 h th → HasDigits 2 m tm → m < 60 → ∀ sgn : Char, sgn = '+' ∨ sgn = '-' →
      scanOffset colon (sgn :: th ++ sep ++ tm ++ r) = some (if sgn = '-' then -((h : Int) * 3600 + m * 60) else (h : Int) * 3600 + m * 60, r) := by
    intro h m th tm hh hm hm' sgn hs
    obtain ⟨h1, th', rfl, dh1⟩ := hh.cons_of_pos
    have lh := hh.1
    match th', lh with
    | [h2], _ =>
      obtain ⟨m1, tm', rfl, dm1⟩ := hm.cons_of_pos
      have lm := hm.1
      match tm', lm with
      | [m2], _ =>
        have dh2 := isDigit_of_mem hh h2 (by simp)
        have dm2 := isDigit_of_mem hm m2 (by simp)
        have vh : digitVal h1 * 10 + digitVal h2 = h := by
          have := hh.2.2
          simp [decimalValue] at this
          simp only [digitVal]; omega
        have vm : digitVal m1 * 10 + digitVal m2 = m := by
          have := hm.2.2
          simp [decimalValue] at this
          simp only [digitVal]; omega
        have m6 : digitVal m1 < 6 := by
          have := (isDigit_iff m2).1 dm2
          simp only [digitVal] at vm ⊢
          omega
        have e3 : ((digitVal h1 : Int) * 10 + digitVal h2) * 3600 + ((digitVal m1 : Int) * 10 + digitVal m2) * 60 = (h : Int) * 3600 + m * 60 := by
          rw [← vh, ← vm]; omega
        have e4 : sgn :: [h1, h2] ++ sep ++ [m1, m2] ++ r = sgn :: h1 :: h2 :: (sep ++ m1 :: m2 :: r) := by simp
        rw [e4]
        simp only [scanOffset, if_pos hs, dh1, dh2, dm1, dm2, m6, hc m1 (m2 :: r) dm1, Bool.and_self, if_true, decide_true, e3]
  cases h with
  | ahead h1 h2 h3 => rw [key h1 h2 h3 '+' (.inl rfl), if_neg (by decide)]
  | behind h1 h2 h3 => rw [key h1 h2 h3 '-' (.inr rfl), if_pos rfl]

theorem offset_head {o : Int} {sep t : Str} (h : OffsetPart o sep t) : ∃ c u, t = c :: u ∧ (c = '+' ∨ c = '-') := by
  cases h with
  | ahead => exact ⟨'+', _, rfl, .inl rfl⟩
  | behind => exact ⟨'-', _, rfl, .inr rfl⟩

theorem skip_colons {sep : Str} (h : ∀ x ∈ sep, x = ':' ∨ isWhite x = true) (d : Char) (u : Str) (hd : isDigit d = true) : skipColons (sep ++ d :: u) = d :: u := by
  unfold skipColons
  induction sep with
  | nil =>
    have h1 : (d == ':') = false := by
      cases hx : d == ':' with
      | false => rfl
      | true => rw [eq_of_beq hx] at hd; exact absurd hd (by decide)
    simp [h1, isDigit_not_white hd]
  | cons x sep ih =>
    have hx : (x == ':' || isWhite x) = true := by
      rcases h x List.mem_cons_self with rfl | hx
      · rfl
      · simp [hx]
    rw [List.cons_append, List.dropWhile_cons, if_pos hx]
    exact ih fun y hy => h y (List.mem_cons_of_mem _ hy)

theorem scan_fraction {c : Clock} {o : Int} {qs sf : List Part} {t s : Str} (h : FractionPart c sf t s) : scanFraction (parsedOf c o qs) (t ++ s) = some (parsedOf c o (qs ++ sf), s) := by
  cases h with
  | @digits ds _ h1 h2 h3 =>
    have : scanFraction (parsedOf c o qs) ('.' :: ds ++ s) = (scanNano (ds ++ s)).bind fun x => ((parsedOf c o qs).setNano x.1).map fun p => (p, x.2) := rfl
    rw [this, scanNano_digits h1 (noDigit_cases h3), Option.bind_some]
    simp only
    rw [← h2, set_nano]; rfl
  | nothing h =>
    rw [List.nil_append, List.append_nil]
    unfold scanFraction
    split
    · exact absurd rfl h
    · rfl

theorem scan_zulu {o : Int} {t : Str} (h : IsoOffset o t) (r : Str) : scanOffsetZulu (t ++ r) = some (o, r) ∧ -86400 < o ∧ o < 86400 := by
  cases h with
  | offset h h1 h2 =>
    refine ⟨?_, h1, h2⟩
    have hs := scanOffset_part h (colon := scanChar ':') (fun d u _ => by simp [scanChar]) r
    obtain ⟨c, u, rfl, hc⟩ := offset_head h
    have e1 : ¬ (c = 'z' ∨ c = 'Z') := by rcases hc with rfl | rfl <;> decide
    have e2 : ¬ (c = 'u' ∨ c = 'U') := by rcases hc with rfl | rfl <;> decide
    simp only [List.cons_append, scanOffsetZulu, if_neg e1, if_neg e2] at hs ⊢
    exact hs
  | zulu hx => exact ⟨by simp [scanOffsetZulu, hx], by decide, by decide⟩
  | @utc x y z hx hy hz =>
    have e1 : ¬ (x = 'z' ∨ x = 'Z') := by rcases hx with rfl | rfl <;> decide
    exact ⟨by simp only [List.cons_append, List.nil_append, scanOffsetZulu, if_neg e1, if_pos hx, hy, hz, and_self, if_true], by decide, by decide⟩

theorem parse_iso_part {c : Clock} {o : Int} {qs sf : List Part} {y : Nat} {ty tm td th tmi ts tf to : Str} {tT : Char} {s : Str} (h1 : HasDigits 4 y ty) (hy : c.date.year = y)
    (h2 : HasDigits 2 c.date.month tm) (h3 : HasDigits 2 c.date.day td) (hT : tT = 't' ∨ tT = 'T') (h4 : HasDigits 2 c.hour th) (h5 : HasDigits 2 c.minute tmi) (h6 : HasDigits 2 c.second ts)
    (hf : FractionPart c sf tf (to ++ s)) (ho : IsoOffset o to) :
    parseIso (parsedOf c o qs) ((ty ++ '-' :: tm ++ '-' :: td ++ tT :: th ++ ':' :: tmi ++ ':' :: ts ++ tf ++ to) ++ s) =
      some (parsedOf c o (qs ++ ([.year, .month, .day, .hour, .minute, .second] ++ sf ++ [.offset])), s) := by
  obtain ⟨g1, g2, g3⟩ := scan_zulu ho s
  have hT' : ∀ u : Str, scanT (tT :: u) = some u := fun u => by simp [scanT, hT]
  have e : (ty ++ '-' :: tm ++ '-' :: td ++ tT :: th ++ ':' :: tmi ++ ':' :: ts ++ tf ++ to) ++ s =
      ty ++ ('-' :: (tm ++ ('-' :: (td ++ (tT :: (th ++ (':' :: (tmi ++ (':' :: (ts ++ (tf ++ (to ++ s)))))))))))) := by simp
  rw [e]
  have hoff : ¬ (o ≤ -86400 ∨ 86400 ≤ o) := by omega
  unfold parseIso
  simp only [isoNum_digits h1, ← hy, set_year, Option.map_some, Option.bind_eq_bind, Option.bind_some, scanChar_same, isoNum_digits h2, set_month, isoNum_digits h3, set_day, hT',
    isoNum_digits h4, set_hour, isoNum_digits h5, set_minute, isoNum_digits h6, set_second]
  rw [scan_fraction hf]
  simp only [Option.bind_some, g1, if_neg hoff, set_offset, Option.map_some, List.append_assoc, List.cons_append, List.nil_append]

theorem items_letter {x : Char} (h : x ≠ '%') (hw : isWhite x = false) (f : Str) : items (x :: f) = .lit x :: items f := by
  rw [items.eq_def]
  split <;> simp_all

theorem items_space {x : Char} (hw : isWhite x = true) (f : Str) : items (x :: f) = .space :: items f := by
  have hx : x ≠ '%' := fun h => by subst h; exact absurd hw (by decide)
  rw [items.eq_def]
  split <;> simp_all

/-- A field is read by its specifier. -/
theorem parse_field {c : Clock} {o : Int} {spec t s : Str} {shown : List Part} (h : SpecifierText c o spec shown t s) : ∃ i, (∀ f, items (spec ++ f) = i :: items f) ∧
    ∀ qs, parseItem i (parsedOf c o qs) (t ++ s) = some (parsedOf c o (qs ++ shown), s) := by
  cases h with
  | @year ws t _ y h1 h2 h3 =>
    refine ⟨.num .year true, fun _ => rfl, fun qs => ?_⟩
    have e : scanYear (t ++ s) = scanNumber 1 4 (t ++ s) := by
      have hd : ∀ y, (t ++ s).head? = some y → y ≠ '-' ∧ y ≠ '+' := by
        intro y hy
        cases t with
        | nil => have := h2.1; simp at this
        | cons x t => cases hy; have := h2.2.2.1 y List.mem_cons_self; exact ⟨fun e => by subst e; revert this; decide, fun e => by subst e; revert this; decide⟩
      unfold scanYear
      split
      · rename_i heq; exact absurd rfl (hd '-' (by rw [heq]; rfl)).1
      · rename_i heq; exact absurd rfl (hd '+' (by rw [heq]; rfl)).2
      · rfl
    simp only [parseItem]
    rw [List.append_assoc, white_drop h1 (number_head h2), e, scanNumber_number h2, Option.bind_some]
    simp only
    rw [← h3, set_year]; rfl
  | @laterYear ws t _ h1 h2 h3 h4 =>
    refine ⟨.num .year true, fun _ => rfl, fun qs => ?_⟩
    simp only [parseItem]
    rw [List.append_assoc, white_drop h1 (fun y hy => by cases hy; decide)]
    simp only [List.cons_append, scanYear]
    rw [scanNumber_rest h2 h3, Option.bind_some]
    simp only
    rw [← h4, set_year]; rfl
  | @yearBefore ws t _ h1 h2 h3 h4 =>
    refine ⟨.num .year true, fun _ => rfl, fun qs => ?_⟩
    simp only [parseItem]
    rw [List.append_assoc, white_drop h1 (fun y hy => by cases hy; decide)]
    simp only [List.cons_append, scanYear]
    rw [scanNumber_rest h2 h3, Option.map_some, Option.bind_some]
    simp only
    rw [← h4, set_year]; rfl
  | month h1 h2 =>
    refine ⟨.num .month true, fun _ => rfl, fun qs => ?_⟩
    simp only [parseItem]
    rw [List.append_assoc, white_drop h1 (number_head h2), scanNumber_number h2, Option.bind_some]
    simp only
    rw [set_month]; rfl
  | day h1 h2 =>
    refine ⟨.num .day true, fun _ => rfl, fun qs => ?_⟩
    simp only [parseItem]
    rw [List.append_assoc, white_drop h1 (number_head h2), scanNumber_number h2, Option.bind_some]
    simp only
    rw [set_day]; rfl
  | hour h0 h1 h2 =>
    have h0 : ∃ b, ∀ f, items (spec ++ f) = .num .hour b :: items f := by
      simp only [List.mem_cons, List.not_mem_nil, or_false] at h0
      rcases h0 with rfl | rfl
      · exact ⟨true, fun _ => rfl⟩
      · exact ⟨false, fun _ => rfl⟩
    obtain ⟨b, h0⟩ := h0
    refine ⟨.num .hour b, h0, fun qs => ?_⟩
    simp only [parseItem]
    rw [List.append_assoc, white_drop h1 (number_head h2), scanNumber_number h2, Option.bind_some]
    simp only
    rw [set_hour]; rfl
  | minute h1 h2 =>
    refine ⟨.num .minute true, fun _ => rfl, fun qs => ?_⟩
    simp only [parseItem]
    rw [List.append_assoc, white_drop h1 (number_head h2), scanNumber_number h2, Option.bind_some]
    simp only
    rw [set_minute]; rfl
  | second h1 h2 =>
    refine ⟨.num .second true, fun _ => rfl, fun qs => ?_⟩
    simp only [parseItem]
    rw [List.append_assoc, white_drop h1 (number_head h2), scanNumber_number h2, Option.bind_some]
    simp only
    rw [set_second]; rfl
  | fraction h0 h =>
    have h0 : ∃ k, ∀ f, items (spec ++ f) = .fraction k :: items f := by
      simp only [List.mem_cons, List.not_mem_nil, or_false] at h0
      rcases h0 with rfl | rfl | rfl | rfl
      · exact ⟨none, fun _ => rfl⟩
      · exact ⟨some 3, fun _ => rfl⟩
      · exact ⟨some 6, fun _ => rfl⟩
      · exact ⟨some 9, fun _ => rfl⟩
    obtain ⟨k, h0⟩ := h0
    exact ⟨.fraction k, h0, fun qs => scan_fraction h⟩
  | @millis ms _ _ h1 h2 =>
    refine ⟨.millis, fun _ => rfl, fun qs => ?_⟩
    have e2 : ((ms : Int) * 1000000) = (c.nanos : Int) := by rw [h2]; omega
    simp only [parseItem]
    rw [scanNumber_digits h1 s (Nat.le_refl _)]
    simp only [Option.bind_some]
    rw [e2, set_nano]; rfl
  | @offset _ ws sep t _ h0 h1 h2 h3 =>
    have h0 : ∃ k, ∀ f, items (spec ++ f) = .offset k :: items f := by
      simp only [List.mem_cons, List.not_mem_nil, or_false] at h0
      rcases h0 with rfl | rfl
      · exact ⟨false, fun _ => rfl⟩
      · exact ⟨true, fun _ => rfl⟩
    obtain ⟨k, h0⟩ := h0
    refine ⟨.offset k, h0, fun qs => ?_⟩
    have hh : ∀ y, (t ++ s).head? = some y → isWhite y = false := by
      intro y hy
      obtain ⟨c, u, rfl, hc⟩ := offset_head h3
      cases hy
      rcases hc with rfl | rfl <;> decide
    simp only [parseItem]
    rw [List.append_assoc, white_drop h1 hh, scanOffset_part h3 (fun d u hd => by rw [skip_colons h2 d u hd]), Option.bind_some]
    simp only
    rw [set_offset]; rfl
  | iso h1 hy h2 h3 hT h4 h5 h6 hf ho => exact ⟨.iso, fun _ => rfl, fun qs => parse_iso_part h1 hy h2 h3 hT h4 h5 h6 hf ho⟩
  | space h1 h2 h3 =>
    refine ⟨.space, fun f => items_space h1 f, fun qs => ?_⟩
    simp only [parseItem]
    rw [white_drop h2 h3, List.append_nil]
  | percent =>
    refine ⟨.lit '%', fun _ => rfl, fun qs => ?_⟩
    simp only [parseItem, List.cons_append, List.nil_append, scanChar_same, Option.map_some, List.append_nil]
  | @letter x _ h1 h2 =>
    refine ⟨.lit x, fun f => items_letter h1 h2 f, fun qs => ?_⟩
    simp only [parseItem, List.cons_append, List.nil_append, scanChar_same, Option.map_some, List.append_nil]

/-- A text in a format is read by that format. -/
theorem parse_inFormat {c : Clock} {o : Int} {ps : List Part} {f s : Str} (h : InFormat c o ps f s) : ∀ qs,
    parseItems (items f) (parsedOf c o qs) s = some (parsedOf c o (qs ++ ps)) := by
  induction h with
  | done => intro qs; simp [items, parseItems]
  | field h1 _ ih =>
    intro qs
    obtain ⟨i, hi, hp⟩ := parse_field h1
    rw [hi, parseItems, hp, Option.bind_some]
    simp only
    rw [ih, List.append_assoc]
  | date _ ih => exact ih
  | time _ ih => exact ih
  | shortTime _ ih => exact ih

instance (ps : List Part) : Decidable (ShowsDate ps) := inferInstanceAs (Decidable (_ ∧ _))

theorem parsed_date {c : Clock} {o : Int} {ps : List Part} : toDate (parsedOf c o ps) = if ShowsDate ps then ymd c.date.year c.date.month c.date.day else none := by
  unfold toDate parsedOf ShowsDate
  by_cases h1 : Part.year ∈ ps <;> by_cases h2 : Part.month ∈ ps <;> by_cases h3 : Part.day ∈ ps <;> simp [h1, h2, h3]

theorem ymd_of_real {d : Date} (h1 : -262144 ≤ d.year) (h2 : d.year ≤ 262143) (h : RealDate d) : ymd d.year d.month d.day = some (dayNumber d.year d.month d.day) := by
  obtain ⟨g1, g2, g3, g4⟩ := (realDate_iff d).1 h
  unfold ymd
  simp only [Int.toNat_natCast]
  rw [if_pos (by omega)]

theorem ymd_of_unreal {d : Date} (h : ¬ RealDate d) : ymd d.year d.month d.day = none := by
  unfold ymd
  rw [if_neg]
  rintro ⟨_, _, h1, h2, h3, h4⟩
  refine h ((realDate_iff d).2 ⟨by omega, by omega, by omega, ?_⟩)
  simp only [Int.toNat_natCast] at h4
  omega

theorem parsed_time {c : Clock} {o : Int} {ps : List Part} (h : ShowsTime c ps) : toTime (parsedOf c o ps) =
    if 24 ≤ c.hour ∨ 60 ≤ c.minute ∨ 61 ≤ c.second then none
    else if c.second = 60 then some ((c.hour * 3600 + c.minute * 60 + 59 : Int), c.nanos + 1000000000) else some ((c.hour * 3600 + c.minute * 60 + c.second : Int), c.nanos) := by
  obtain ⟨h1, h2, h3, h4⟩ := h
  have e1 : (parsedOf c o ps).hour = some (c.hour : Int) := if_pos h1
  have e2 : (parsedOf c o ps).minute = some (c.minute : Int) := if_pos h2
  have e3 : (parsedOf c o ps).second.getD 0 = c.second := by
    show (if _ then _ else _ : Option Int).getD 0 = _
    split
    · rfl
    · rename_i hs
      rcases h3 with h3 | h3
      · exact absurd h3 hs
      · rw [h3.1]; rfl
  have e4 : ((parsedOf c o ps).nano.getD 0).toNat = c.nanos := by
    show ((if _ then _ else _ : Option Int).getD 0).toNat = _
    split
    · simp
    · rename_i hs
      rcases h4 with h4 | h4
      · exact absurd h4 hs
      · rw [h4]; rfl
  have e5 : ¬ ((parsedOf c o ps).nano.isSome ∧ (parsedOf c o ps).second = none) := by
    show ¬ ((if _ then _ else _ : Option Int).isSome ∧ (if _ then _ else _ : Option Int) = none)
    rcases h3 with h3 | h3
    · simp [h3]
    · simp [h3.2]
  unfold toTime
  simp only [e1, e2, e3, e4, e5, Option.bind_eq_bind, Option.bind_some, if_false]
  by_cases g1 : 24 ≤ c.hour ∨ 60 ≤ c.minute
  · rw [if_pos (show 24 ≤ c.hour ∨ 60 ≤ c.minute ∨ 61 ≤ c.second by omega)]
    rw [if_pos (show 24 ≤ (c.hour : Int) ∨ 60 ≤ (c.minute : Int) by omega)]; rfl
  · rw [if_neg (show ¬ (24 ≤ (c.hour : Int) ∨ 60 ≤ (c.minute : Int)) by omega)]
    by_cases g2 : 61 ≤ c.second
    · rw [if_pos (show 24 ≤ c.hour ∨ 60 ≤ c.minute ∨ 61 ≤ c.second by omega)]
      rw [if_pos (show 61 ≤ (c.second : Int) by omega)]; rfl
    · rw [if_neg (show ¬ 61 ≤ (c.second : Int) by omega), if_neg (show ¬ (24 ≤ c.hour ∨ 60 ≤ c.minute ∨ 61 ≤ c.second) by omega)]
      by_cases g3 : c.second = 60
      · rw [if_pos g3]; simp [g3]
      · have : ¬ ((c.second : Int) = 60) := by omega
        rw [if_neg g3]; simp [this]

/-- A possible time. -/
theorem parsed_real {c : Clock} {o : Int} {ps : List Part} (hd : ShowsDate ps) (ht : ShowsTime c ps) (hy : YearInRange c) (hc : RealClock c) {loc : Int} (hloc : ClockSeconds c loc) :
    toNaive (parsedOf c o ps) = some ⟨loc, c.nanos⟩ := by
  obtain ⟨hr, h1, h2, h3⟩ := hc
  obtain ⟨n, hn, rfl⟩ := hloc
  obtain ⟨_, rfl⟩ := (daysFrom1970_iff _ _).1 hn
  unfold toNaive
  rw [parsed_date, if_pos hd, ymd_of_real hy.1 hy.2 hr, parsed_time ht, if_neg (by omega), if_neg (by omega)]
  simp only [Option.bind_eq_bind, Option.bind_some, Option.some.injEq, Instant.mk.injEq, and_true]
  omega

/-- An impossible one. -/
theorem parsed_unreal {c : Clock} {o : Int} {ps : List Part} (ht : ShowsTime c ps) (hc : ¬ RealDate c.date ∨ 24 ≤ c.hour ∨ 60 ≤ c.minute ∨ 61 ≤ c.second) :
    toNaive (parsedOf c o ps) = none := by
  unfold toNaive
  rw [parsed_date, parsed_time ht]
  by_cases h : RealDate c.date
  · rw [if_pos (show 24 ≤ c.hour ∨ 60 ≤ c.minute ∨ 61 ≤ c.second by rcases hc with hc | hc; exact absurd h hc; exact hc)]
    cases (if ShowsDate ps then ymd c.date.year c.date.month c.date.day else none) <;> rfl
  · rw [ymd_of_unreal h]
    split <;> rfl

end Chopper.Chrono
