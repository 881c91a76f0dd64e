import Verif.Proofs.ChronoRange

/-!
# Time columns of CSV inputs
-/
namespace Chopper.Chrono
open Chopper Spec

theorem tryNaive_none (tz : ChopperTz chrono) (t : Str) : ∀ fs : List Str, (∀ f ∈ fs, chrono.parseNaive f t = none) → tryNaiveFormats chrono tz t fs = none
  | [], _ => rfl
  | f :: fs, h => by
    unfold tryNaiveFormats
    rw [h f List.mem_cons_self]
    exact tryNaive_none tz t fs fun g hg => h g (List.mem_cons_of_mem _ hg)

/-- Only one of the formats may fit. -/
theorem tryNaive_of (tz : ChopperTz chrono) (t f : Str) (x : Instant) : ∀ fs : List Str, f ∈ fs → (∀ g ∈ fs, g ≠ f → chrono.parseNaive g t = none) →
    chrono.parseNaive f t = some x → tryNaiveFormats chrono tz t fs = some ((fromLocalDatetime tz x).bind fun _ => .ok (.dateTimeNeedsExternalTz f))
  | [], h, _, _ => by cases h
  | g :: fs, h, hn, hx => by
    unfold tryNaiveFormats
    by_cases hg : g = f
    · subst hg
      rw [hx]
    · rw [hn g List.mem_cons_self hg]
      have hf : f ∈ fs := by
        rcases List.mem_cons.1 h with e | e
        · exact absurd e.symm hg
        · exact e
      exact tryNaive_of tz t f x fs hf (fun k hk => hn k (List.mem_cons_of_mem _ hk)) hx

/-- The four forms of one column: separators and format. -/
def oneForms : List ((Str × Str × Str) × Str) :=
  [(([], ['.'], []), "%Y%m%d.%H%M%S".toList), (([], [' '], []), "%Y%m%d %H%M%S".toList), (([], [' '], [':']), "%Y%m%d %H:%M:%S".toList),
   ((['/'], ['-'], [':']), "%Y/%m/%d-%H:%M:%S".toList)]

theorem one_forms_formats : oneForms.map (·.2) = timeFormats := rfl

theorem one_forms_items : ∀ x ∈ oneForms, items x.2 = rangeItems x.1.1 x.1.2.1 x.1.2.2 false := by decide +kernel

theorem one_forms_sep : ∀ x ∈ oneForms, Sep x.1.1 ∧ Sep2 x.1.2.1 ∧ Sep x.1.2.2 := by
  intro x hx
  simp only [oneForms, List.mem_cons, List.not_mem_nil, or_false] at hx
  rcases hx with rfl | rfl | rfl | rfl
  · exact ⟨.inl rfl, .inr ⟨_, rfl, by decide, by decide⟩, .inl rfl⟩
  · exact ⟨.inl rfl, .inl rfl, .inl rfl⟩
  · exact ⟨.inl rfl, .inl rfl, .inr ⟨_, rfl, by decide, by decide⟩⟩
  · exact ⟨.inr ⟨_, rfl, by decide, by decide⟩, .inr ⟨_, rfl, by decide, by decide⟩, .inr ⟨_, rfl, by decide, by decide⟩⟩

theorem one_forms_unique : ∀ x ∈ oneForms, ∀ y ∈ oneForms, (x.1 = y.1 ↔ x.2 = y.2) := by decide +kernel

theorem oneColumn_parts {c : Clock} {f t : Str} (h : OneColumnText c f t) : ∃ (y : Nat) (a sep b : Str), Parts c y a sep b [] t ∧ ((a, sep, b), f) ∈ oneForms := by
  cases h with
  | dot h0 hd ht =>
    obtain ⟨y, ty, tmo, tdd, hy, h1, h2, h3, rfl⟩ := hd
    obtain ⟨th, tmi, ts, h4, h5, h6, rfl⟩ := ht
    have m : ((([] : Str), ['.'], ([] : Str)), "%Y%m%d.%H%M%S".toList) ∈ oneForms := by decide
    exact ⟨y, _, _, _, ⟨(one_forms_sep _ m).1, (one_forms_sep _ m).2.1, (one_forms_sep _ m).2.2, hy, .inl ⟨rfl, h0⟩, ty, tmo, tdd, th, tmi, ts, h1, h2, h3, h4, h5, h6, by simp⟩, m⟩
  | space h0 hd ht =>
    obtain ⟨y, ty, tmo, tdd, hy, h1, h2, h3, rfl⟩ := hd
    obtain ⟨th, tmi, ts, h4, h5, h6, rfl⟩ := ht
    have m : ((([] : Str), [' '], ([] : Str)), "%Y%m%d %H%M%S".toList) ∈ oneForms := by decide
    exact ⟨y, _, _, _, ⟨(one_forms_sep _ m).1, (one_forms_sep _ m).2.1, (one_forms_sep _ m).2.2, hy, .inl ⟨rfl, h0⟩, ty, tmo, tdd, th, tmi, ts, h1, h2, h3, h4, h5, h6, by simp⟩, m⟩
  | colons h0 hd ht =>
    obtain ⟨y, ty, tmo, tdd, hy, h1, h2, h3, rfl⟩ := hd
    obtain ⟨th, tmi, ts, h4, h5, h6, rfl⟩ := ht
    have m : ((([] : Str), [' '], [':']), "%Y%m%d %H:%M:%S".toList) ∈ oneForms := by decide
    exact ⟨y, _, _, _, ⟨(one_forms_sep _ m).1, (one_forms_sep _ m).2.1, (one_forms_sep _ m).2.2, hy, .inl ⟨rfl, h0⟩, ty, tmo, tdd, th, tmi, ts, h1, h2, h3, h4, h5, h6, by simp⟩, m⟩
  | slashes h0 hd ht =>
    obtain ⟨y, ty, tmo, tdd, hy, h1, h2, h3, rfl⟩ := hd
    obtain ⟨th, tmi, ts, h4, h5, h6, rfl⟩ := ht
    have m : ((['/'], ['-'], [':']), "%Y/%m/%d-%H:%M:%S".toList) ∈ oneForms := by decide
    exact ⟨y, _, _, _, ⟨(one_forms_sep _ m).1, (one_forms_sep _ m).2.1, (one_forms_sep _ m).2.2, hy, .inl ⟨rfl, h0⟩, ty, tmo, tdd, th, tmi, ts, h1, h2, h3, h4, h5, h6, by simp⟩, m⟩

/-- What the formats of one column make of such a text. -/
theorem oneColumn_parse {c : Clock} {f t : Str} (h : OneColumnText c f t) : ∃ y : Nat, c.date.year = y ∧ y < 10000 ∧ c.nanos = 0 ∧ f ∈ timeFormats ∧
    chrono.parseTz fmtIso t = none ∧ chrono.parseNaive f t = toNaive (clockParsed y c (some 0)) ∧ (∀ g ∈ timeFormats, g ≠ f → chrono.parseNaive g t = none) ∧
    chrono.parseDate fmtDate t = none ∧ ¬ (t.all isDigit = true) := by
  obtain ⟨y, a, sep, b, hp, hm⟩ := oneColumn_parts h
  have h0 : c.nanos = 0 := by
    rcases hp.frac with ⟨_, e⟩ | ⟨_, e, _⟩
    · exact e
    · cases e
  have hnaive := parts_naive hp
  rw [h0] at hnaive
  rw [if_pos rfl] at hnaive
  have key : ∀ x ∈ oneForms, chrono.parseNaive x.2 t = if x.2 = f then toNaive (clockParsed y c (some 0)) else none := by
    intro x hx
    have e : chrono.parseNaive x.2 t = (parseItems (items x.2) {} t).bind toNaive := rfl
    obtain ⟨s1, s2, s3⟩ := one_forms_sep x hx
    rw [e, one_forms_items x hx, parse_range hp s1 s2 s3]
    have hiff := one_forms_unique x hx _ hm
    by_cases hxf : x.2 = f
    · have hx1 := hiff.2 hxf
      have e1 : x.1.1 = a := by rw [hx1]
      have e2 : x.1.2.1 = sep := by rw [hx1]
      have e3 : x.1.2.2 = b := by rw [hx1]
      have hall : x.1.1 = a ∧ x.1.2.1 = sep ∧ x.1.2.2 = b ∧ (false = true ∨ ([] : Str) = []) := ⟨e1, e2, e3, .inr rfl⟩
      simp only [hall, if_true, hxf]
      exact hnaive
    · rw [if_neg hxf, if_neg]
      · rfl
      · rintro ⟨e1, e2, e3, _⟩
        exact hxf (hiff.1 (Prod.ext e1 (Prod.ext e2 e3)))
  have hmf : f ∈ timeFormats := by rw [← one_forms_formats]; exact List.mem_map.2 ⟨_, hm, rfl⟩
  refine ⟨y, hp.year, hp.year_lt, h0, hmf, iso_none hp, ?_, ?_, ?_, ?_⟩
  · have := key _ hm; rwa [if_pos rfl] at this
  · intro g hg hgf
    rw [← one_forms_formats] at hg
    obtain ⟨x, hx, rfl⟩ := List.mem_map.1 hg
    rw [key x hx, if_neg hgf]
    rfl
  · obtain ⟨ty, tmo, td, th, tmi, ts, h1, h2, h3, h4, h5, h6, rfl⟩ := hp.text
    have e : ∀ t, chrono.parseDate fmtDate t = ((parseItems (dateItems [] ++ []) {} t).bind toDate).map fun d => ⟨d * 86400, 0⟩ := fun _ => rfl
    rw [e, parse_date (.inl rfl) hp.ha h1 h2 h3]
    have hne : sep ≠ [] := by
      rcases hp.hsep with rfl | ⟨_, rfl, _⟩ <;> simp
    by_cases ha : [] = a
    · rw [if_pos ha]
      simp [parseItems, hne]
      rfl
    · rw [if_neg ha]; rfl
  · obtain ⟨ty, tmo, td, th, tmi, ts, h1, h2, h3, h4, h5, h6, rfl⟩ := hp.text
    rw [List.all_eq_true]
    intro hall
    rcases hp.hsep with rfl | ⟨x, rfl, hx, _⟩
    · have := hall ' ' (by simp); revert this; decide
    · have := hall x (by simp); rw [hx] at this; cases this

/-! ## A date and a time column -/

theorem parse_hour {h : Nat} {th : Str} (hh : HasDigits 1 h th ∨ HasDigits 2 h th) (r : Str) (hr : ∃ c t, r = c :: t ∧ isDigit c = false) (b : Bool) (p : Parsed) :
    parseItem (.num .hour b) p (th ++ r) = (p.set .hour h).map fun p => (p, r) := by
  rcases hh with hh | hh
  · simp only [parseItem]
    rw [dropWhile_white_digits hh]
    have e : scanNumber 1 2 (th ++ r) = some ((h : Int), r) := by
      obtain ⟨c, t, rfl, hc⟩ := hr
      have hth : th = [th.head (by intro e; rw [e] at hh; cases hh.1)] := by
        match th, hh.1 with
        | [x], _ => rfl
      generalize th.head _ = x at hth
      subst hth
      have hx : isDigit x = true := isDigit_of_mem hh x (by simp)
      unfold scanNumber
      have hv := hh.2.2
      simp only [List.singleton_append, List.take_succ_cons, List.take_zero, List.takeWhile_cons, hx, hc, if_true, Bool.false_eq_true, if_false, List.length_singleton, Nat.lt_irrefl,
        List.drop_succ_cons, List.drop_zero]
      rw [digitsVal_acc, hv]
      simp
    rw [e]; rfl
  · exact parse_num (by decide) hh r b p

/-- What has been read of the date. -/
def dateParsed (y : Nat) (d : Date) : Parsed := { year := some y, month := some d.month, day := some d.day }

theorem two_date {d : Date} {td : Str} (hd : DateText d [] td) : ∃ y : Nat, d.year = y ∧ y < 10000 ∧
    ∀ (is : List Item) (r : Str), parseItems (dateItems [] ++ is) {} (td ++ r) = parseItems is (dateParsed y d) r := by
  obtain ⟨y, ty, tmo, tdd, hy, h1, h2, h3, rfl⟩ := hd
  refine ⟨y, hy, hasDigits_lt h1, fun is r => ?_⟩
  rw [parse_date (.inl rfl) (.inl rfl) h1 h2 h3, if_pos rfl]; rfl

theorem two_hash {time : Str} (p : Parsed) (is : List Item) : parseItems (.lit '#' :: is) p ('#' :: time) = parseItems is p time := by
  simp only [parseItems, parseItem, scanChar_same, Option.map_some, Option.bind_some]

theorem two_mem {f : Str} (h : f ∈ dateTimeFormats) (td time : Str) (p : Parsed) (hd : ∀ (is : List Item) (r : Str), parseItems (dateItems [] ++ is) {} (td ++ r) = parseItems is p r) :
    (f = "%Y%m%d#%H%M%S%3f".toList ∧ chrono.parseNaive f (td ++ '#' :: time) = (parseItems (sepItems ['#'] ++ (timeItems [] ++ [.millis])) p ('#' :: time)).bind toNaive) ∨
    (f = "%Y%m%d#%H%M%S".toList ∧ chrono.parseNaive f (td ++ '#' :: time) = (parseItems (sepItems ['#'] ++ (timeItems [] ++ [])) p ('#' :: time)).bind toNaive) ∨
    (f = "%Y%m%d#%H:%M:%S".toList ∧ chrono.parseNaive f (td ++ '#' :: time) = (parseItems (sepItems ['#'] ++ (timeItems [':'] ++ [])) p ('#' :: time)).bind toNaive) ∨
    (f = "%Y%m%d#%-H:%M".toList ∧ chrono.parseNaive f (td ++ '#' :: time) = (parseItems [.num .hour false, .lit ':', .num .minute true] p time).bind toNaive) := by
  have e0 : ∀ f t, chrono.parseNaive f t = (parseItems (items f) {} t).bind toNaive := fun _ _ => rfl
  simp only [dateTimeFormats, List.mem_cons, List.not_mem_nil, or_false] at h
  rcases h with rfl | rfl | rfl | rfl
  · left
    refine ⟨rfl, ?_⟩
    rw [e0, show items "%Y%m%d#%H%M%S%3f".toList = dateItems [] ++ (sepItems ['#'] ++ (timeItems [] ++ [.millis])) from by decide +kernel, hd]
  · right; left
    refine ⟨rfl, ?_⟩
    rw [e0, show items "%Y%m%d#%H%M%S".toList = dateItems [] ++ (sepItems ['#'] ++ (timeItems [] ++ [])) from by decide +kernel, hd]
  · right; right; left
    refine ⟨rfl, ?_⟩
    rw [e0, show items "%Y%m%d#%H:%M:%S".toList = dateItems [] ++ (sepItems ['#'] ++ (timeItems [':'] ++ [])) from by decide +kernel, hd]
  · right; right; right
    refine ⟨rfl, ?_⟩
    rw [e0, show items "%Y%m%d#%-H:%M".toList = dateItems [] ++ (.lit '#' :: [.num .hour false, .lit ':', .num .minute true]) from by decide +kernel, hd, two_hash]

theorem lit_item (c : Char) (p : Parsed) (s : Str) : parseItem (.lit c) p (c :: s) = some (p, s) := by
  simp only [parseItem, scanChar_same, Option.map_some]

theorem sep_colon : Sep [':'] := .inr ⟨_, rfl, by decide, by decide⟩
theorem sep2_hash : Sep2 ['#'] := .inr ⟨_, rfl, by decide, by decide⟩

/-- Hour and minute only, of a longer time text. -/
theorem minutes_none {h m : Nat} {th tm b r : Str} (hh : HasDigits 2 h th) (hm : HasDigits 2 m tm) (hb : b = [] ∨ b = [':']) (hr : r ≠ []) (p : Parsed) (hp : p.hour = none ∧ p.minute = none) :
    parseItems [.num .hour false, .lit ':', .num .minute true] p (th ++ (b ++ (tm ++ r))) = none := by
  obtain ⟨p1, p2⟩ := hp
  simp only [parseItems, parse_num (show Numeric.hour ≠ .year by decide) hh, Parsed.set, setField, p1, Option.map_some, Option.bind_some]
  rcases hb with rfl | rfl
  · simp only [List.nil_append, parseItem, scanChar_digit (show isDigit ':' = false by decide) hm]; rfl
  · have e : parseItem (.lit ':') { p with hour := some (h : Int) } ([':'] ++ (tm ++ r)) = some ({ p with hour := some (h : Int) }, tm ++ r) := by
      simp [parseItem, scanChar_same]
    rw [e]
    simp only [Option.bind_some, parse_num (show Numeric.minute ≠ .year by decide) hm, Parsed.set, setField, p2, Option.map_some]
    rw [if_neg hr]

theorem minutes_some {h m : Nat} {th tm : Str} (hh : HasDigits 1 h th ∨ HasDigits 2 h th) (hm : HasDigits 2 m tm) (p : Parsed) (hp : p.hour = none ∧ p.minute = none) :
    parseItems [.num .hour false, .lit ':', .num .minute true] p (th ++ (':' :: tm)) = some { p with hour := some (h : Int), minute := some (m : Int) } := by
  obtain ⟨p1, p2⟩ := hp
  have e2 := parse_num (show Numeric.minute ≠ .year by decide) hm [] true { p with hour := some (h : Int) }
  rw [List.append_nil] at e2
  simp only [parseItems, parse_hour hh (':' :: tm) ⟨_, _, rfl, by decide⟩, Parsed.set, setField, p1, Option.map_some, Option.bind_some, lit_item]
  simp only [p2, Parsed.set, setField, Option.map_some] at e2
  simp only [p2, e2, Option.bind_some, if_true]

/-- Seconds are missing. -/
theorem seconds_none {b' : Str} (hb' : b' = [] ∨ b' = [':']) {h m : Nat} {th tm : Str} (hh : HasDigits 1 h th ∨ HasDigits 2 h th) (hm : HasDigits 2 m tm) (is : List Item) (p : Parsed)
    (hp : p.hour = none ∧ p.minute = none) : parseItems (sepItems ['#'] ++ (timeItems b' ++ is)) p ('#' :: (th ++ (':' :: tm))) = none := by
  obtain ⟨p1, p2⟩ := hp
  have e : sepItems ['#'] = [.lit '#'] := rfl
  rw [e]
  simp only [timeItems, List.cons_append, List.nil_append]
  rw [two_hash]
  simp only [parseItems, parse_hour hh (':' :: tm) ⟨_, _, rfl, by decide⟩, Parsed.set, setField, p1, Option.map_some, Option.bind_some]
  rcases hb' with rfl | rfl
  · simp only [List.map_nil, List.nil_append, List.cons_append, parseItems]
    rw [parse_num_none (by decide) (.inr ⟨_, _, rfl, by decide, by decide⟩)]; rfl
  · have e2 := parse_num (show Numeric.minute ≠ .year by decide) hm [] true { p with hour := some (h : Int) }
    rw [List.append_nil] at e2
    simp only [List.map_cons, List.map_nil, List.cons_append, List.nil_append, parseItems, lit_item, Option.bind_some]
    simp only [p2, Parsed.set, setField, Option.map_some] at e2
    simp only [p2, e2, Option.bind_some]
    rfl

/-- What the formats of two columns make of such texts. -/
theorem twoColumn_parse {c : Clock} {f td time : Str} (h : TwoColumnText c f td time) : ∃ y : Nat, c.date.year = y ∧ y < 10000 ∧ f ∈ dateTimeFormats ∧
    chrono.parseNaive f (td ++ '#' :: time) = toNaive (clockParsed y c (some c.nanos)) ∧ (∀ g ∈ dateTimeFormats, g ≠ f → chrono.parseNaive g (td ++ '#' :: time) = none) := by
  have hsec : ∀ {y : Nat} {b tt r : Str} (is : List Item) (b' : Str), Sep b' → Sep b → TimeText c b tt →
      parseItems (sepItems ['#'] ++ (timeItems b' ++ is)) (dateParsed y c.date) ('#' :: (tt ++ r)) = if b' = b then parseItems is (clockParsed y c none) r else none := by
    rintro y b tt r is b' hb' hb ⟨th, tm, ts, h1, h2, h3, rfl⟩
    have := parse_time sep2_hash sep2_hash hb' hb h1 h2 h3 r is (dateParsed y c.date) ⟨rfl, rfl, rfl⟩
    simp only [List.singleton_append] at this
    rw [this]
    by_cases hbb : b' = b
    · simp only [hbb, and_self, if_true]; rfl
    · rw [if_neg (fun h => hbb h.2), if_neg hbb]
  have hmin : ∀ {y : Nat} {b tt r : Str}, (b = [] ∨ b = [':']) → TimeText c b tt → parseItems [.num .hour false, .lit ':', .num .minute true] (dateParsed y c.date) (tt ++ r) = none := by
    rintro y b tt r hb ⟨th, tm, ts, h1, h2, h3, rfl⟩
    have := minutes_none (r := b ++ (ts ++ r)) h1 h2 hb (by
      have : ts ≠ [] := by intro e; rw [e] at h3; cases h3.1
      simp [this]) (dateParsed y c.date) ⟨rfl, rfl⟩
    simpa using this
  cases h with
  | @millis _ tt tf ms hd ht hm hn =>
    obtain ⟨y, hy, hy', hp⟩ := two_date hd
    have hms : ∀ p : Parsed, p.nano = none → parseItems [.millis] p tf = some { p with nano := some (c.nanos : Int) } := by
      intro p hp
      have := scanNumber_digits hm [] (Nat.le_refl 3)
      rw [List.append_nil] at this
      simp only [parseItems, parseItem, this, Option.bind_some, Parsed.setNano, setField, hp, Option.map_some, if_true]
      rw [hn]; rfl
    refine ⟨y, hy, hy', by decide, ?_, ?_⟩
    · rcases two_mem (f := "%Y%m%d#%H%M%S%3f".toList) (by decide) td (tt ++ tf) _ hp with ⟨_, e⟩ | ⟨e, _⟩ | ⟨e, _⟩ | ⟨e, _⟩
      · rw [e, hsec _ _ (.inl rfl) (.inl rfl) ht, if_pos rfl, hms _ rfl]; rfl
      all_goals exact absurd e (by decide)
    · intro g hg hgf
      rcases two_mem hg td (tt ++ tf) _ hp with ⟨e, _⟩ | ⟨_, e⟩ | ⟨_, e⟩ | ⟨_, e⟩
      · exact absurd e hgf
      · have hne : tf ≠ [] := by intro e; rw [e] at hm; cases hm.1
        rw [e, hsec _ _ (.inl rfl) (.inl rfl) ht, if_pos rfl]
        simp only [parseItems, if_neg hne]; rfl
      · rw [e, hsec _ _ sep_colon (.inl rfl) ht, if_neg (by decide)]; rfl
      · rw [e, hmin (.inl rfl) ht]; rfl
  | plain h0 hd ht =>
    obtain ⟨y, hy, hy', hp⟩ := two_date hd
    have ht' : ∀ (is : List Item) (b' : Str), Sep b' →
      parseItems (sepItems ['#'] ++ (timeItems b' ++ is)) (dateParsed y c.date) ('#' :: time) = if b' = [] then parseItems is (clockParsed y c none) [] else none := by
      intro is b' hb'
      have := hsec (y := y) (r := []) is b' hb' (.inl rfl) ht
      rwa [List.append_nil] at this
    refine ⟨y, hy, hy', by decide, ?_, ?_⟩
    · rcases two_mem (f := "%Y%m%d#%H%M%S".toList) (by decide) td time _ hp with ⟨e, _⟩ | ⟨_, e⟩ | ⟨e, _⟩ | ⟨e, _⟩
      · exact absurd e (by decide)
      · rw [e, ht' _ _ (.inl rfl), if_pos rfl]
        simp only [parseItems, if_true, Option.bind_some, h0]
        exact toNaive_nano y c
      all_goals exact absurd e (by decide)
    · intro g hg hgf
      rcases two_mem hg td time _ hp with ⟨_, e⟩ | ⟨e, _⟩ | ⟨_, e⟩ | ⟨_, e⟩
      · rw [e, ht' _ _ (.inl rfl), if_pos rfl]; rfl
      · exact absurd e hgf
      · rw [e, ht' _ _ sep_colon, if_neg (by decide)]; rfl
      · have := hmin (y := y) (r := []) (.inl rfl) ht
        rw [List.append_nil] at this
        rw [e, this]; rfl
  | colons h0 hd ht =>
    obtain ⟨y, hy, hy', hp⟩ := two_date hd
    have ht' : ∀ (is : List Item) (b' : Str), Sep b' →
      parseItems (sepItems ['#'] ++ (timeItems b' ++ is)) (dateParsed y c.date) ('#' :: time) = if b' = [':'] then parseItems is (clockParsed y c none) [] else none := by
      intro is b' hb'
      have := hsec (y := y) (r := []) is b' hb' sep_colon ht
      rwa [List.append_nil] at this
    refine ⟨y, hy, hy', by decide, ?_, ?_⟩
    · rcases two_mem (f := "%Y%m%d#%H:%M:%S".toList) (by decide) td time _ hp with ⟨e, _⟩ | ⟨e, _⟩ | ⟨_, e⟩ | ⟨e, _⟩
      · exact absurd e (by decide)
      · exact absurd e (by decide)
      · rw [e, ht' _ _ sep_colon, if_pos rfl]
        simp only [parseItems, if_true, Option.bind_some, h0]
        exact toNaive_nano y c
      all_goals exact absurd e (by decide)
    · intro g hg hgf
      rcases two_mem hg td time _ hp with ⟨_, e⟩ | ⟨_, e⟩ | ⟨e, _⟩ | ⟨_, e⟩
      · rw [e, ht' _ _ (.inl rfl), if_neg (by decide)]; rfl
      · rw [e, ht' _ _ (.inl rfl), if_neg (by decide)]; rfl
      · exact absurd e hgf
      · have := hmin (y := y) (r := []) (.inr rfl) ht
        rw [List.append_nil] at this
        rw [e, this]; rfl
  | @minutes _ th tm h0 hs hd hh hm =>
    obtain ⟨y, hy, hy', hp⟩ := two_date hd
    have et : th ++ ":".toList ++ tm = th ++ (':' :: tm) := by simp
    refine ⟨y, hy, hy', by decide, ?_, ?_⟩
    · rcases two_mem (f := "%Y%m%d#%-H:%M".toList) (by decide) td (th ++ ":".toList ++ tm) _ hp with ⟨e, _⟩ | ⟨e, _⟩ | ⟨e, _⟩ | ⟨_, e⟩
      · exact absurd e (by decide)
      · exact absurd e (by decide)
      · exact absurd e (by decide)
      · rw [e, et, minutes_some hh hm _ ⟨rfl, rfl⟩, h0]
        simp only [Option.bind_some]
        unfold toNaive
        have e1 : toDate { dateParsed y c.date with hour := some (c.hour : Int), minute := some (c.minute : Int) } = toDate (clockParsed y c (some 0)) := rfl
        have e2 : toTime { dateParsed y c.date with hour := some (c.hour : Int), minute := some (c.minute : Int) } = toTime (clockParsed y c (some 0)) := by
          simp [toTime, dateParsed, clockParsed, hs]
        rw [e1, e2]; rfl
    · intro g hg hgf
      rcases two_mem hg td (th ++ ":".toList ++ tm) _ hp with ⟨_, e⟩ | ⟨_, e⟩ | ⟨_, e⟩ | ⟨e, _⟩
      · rw [e, et, seconds_none (.inl rfl) hh hm _ _ ⟨rfl, rfl⟩]; rfl
      · rw [e, et, seconds_none (.inl rfl) hh hm _ _ ⟨rfl, rfl⟩]; rfl
      · rw [e, et, seconds_none (.inr rfl) hh hm _ _ ⟨rfl, rfl⟩]; rfl
      · exact absurd e hgf

/-! ## Digits only -/

theorem scanNumber_all {s : Str} (h : ∀ c ∈ s, isDigit c = true) (k : Nat) (hk : 1 ≤ k) :
    scanNumber 1 k s = if s = [] then none else some ((decimalValue (s.take k) : Int), s.drop k) := by
  by_cases hs : s = []
  · rw [if_pos hs, scanNumber_none (.inl hs) (by decide)]
  · rw [if_neg hs]
    have hlen : 0 < s.length := List.length_pos_iff.2 hs
    have e : (s.take k).takeWhile isDigit = s.take k := by
      have := List.takeWhile_append_of_pos (l₂ := []) (p := isDigit) (l₁ := s.take k) (fun c hc => h c (List.mem_of_mem_take hc))
      simpa using this
    unfold scanNumber
    simp only [e, List.length_take]
    rw [if_neg (by omega), digitsVal_acc]
    congr 2
    · simp
    · by_cases hks : k ≤ s.length
      · rw [Nat.min_eq_left hks]
      · rw [Nat.min_eq_right (by omega), List.drop_eq_nil_of_le (Nat.le_refl _), List.drop_eq_nil_of_le (by omega)]

theorem white_all {s : Str} (h : ∀ c ∈ s, isDigit c = true) : s.dropWhile isWhite = s := by
  cases s with
  | nil => rfl
  | cons c t => rw [List.dropWhile_cons, isDigit_not_white (h c List.mem_cons_self)]; rfl

theorem parse_all_num {s : Str} (h : ∀ c ∈ s, isDigit c = true) {f : Numeric} (hf : f ≠ .year) (b : Bool) (p : Parsed) (is : List Item) :
    parseItems (.num f b :: is) p s = if s = [] then none else (p.set f (decimalValue (s.take 2))).bind fun p => parseItems is p (s.drop 2) := by
  have e : parseItem (.num f b) p s = (scanNumber 1 2 (s.dropWhile isWhite)).bind fun x => (p.set f x.1).map fun p => (p, x.2) := by
    cases f <;> first | exact absurd rfl hf | rfl
  simp only [parseItems, e, white_all h, scanNumber_all h 2 (by decide)]
  by_cases hs : s = []
  · rw [if_pos hs, if_pos hs]; rfl
  · rw [if_neg hs, if_neg hs]
    simp only [Option.bind_some]
    cases p.set f (decimalValue (s.take 2)) <;> rfl

theorem scanYear_all {s : Str} (h : ∀ c ∈ s, isDigit c = true) : scanYear s = scanNumber 1 4 s := by
  unfold scanYear
  split
  · exact absurd (h '-' List.mem_cons_self) (by decide)
  · exact absurd (h '+' List.mem_cons_self) (by decide)
  · rfl

theorem parse_all_year {s : Str} (h : ∀ c ∈ s, isDigit c = true) (b : Bool) (is : List Item) :
    parseItems (.num .year b :: is) {} s = if s = [] then none else parseItems is { year := some (decimalValue (s.take 4) : Int) } (s.drop 4) := by
  simp only [parseItems, parseItem, white_all h, scanYear_all h, scanNumber_all h 4 (by decide)]
  by_cases hs : s = []
  · rw [if_pos hs, if_pos hs]; rfl
  · rw [if_neg hs, if_neg hs]
    rfl

theorem parse_all_space {s : Str} (h : ∀ c ∈ s, isDigit c = true) (p : Parsed) (is : List Item) : parseItems (.space :: is) p s = parseItems is p s := by
  simp only [parseItems, parseItem, white_all h, Option.bind_some]

theorem parse_all_lit {s : Str} (h : ∀ c ∈ s, isDigit c = true) {c : Char} (hc : isDigit c = false) (p : Parsed) (is : List Item) : parseItems (.lit c :: is) p s = none := by
  have : scanChar c s = none := by
    cases s with
    | nil => rfl
    | cons x t =>
      have hx := h x List.mem_cons_self
      have : x ≠ c := by intro e; rw [e, hc] at hx; cases hx
      simp [scanChar, this]
  simp only [parseItems, parseItem, this]; rfl

/-- The clock that the digits would show. -/
def digitsClock (s : Str) : Clock :=
  ⟨⟨(decimalValue (s.take 4) : Nat), decimalValue ((s.drop 4).take 2), decimalValue ((s.drop 6).take 2)⟩, decimalValue ((s.drop 8).take 2), decimalValue ((s.drop 10).take 2),
    decimalValue ((s.drop 12).take 2), 0⟩

theorem parse_all_space_format {s : Str} (h : ∀ c ∈ s, isDigit c = true) :
    parseItems (rangeItems [] [' '] [] false) {} s = if s.length = 13 ∨ s.length = 14 then some (clockParsed (decimalValue (s.take 4)) (digitsClock s) none) else none := by
  have hd : ∀ k, ∀ c ∈ s.drop k, isDigit c = true := fun k c hc => h c (List.mem_of_mem_drop hc)
  have e : rangeItems [] [' '] [] false = [.num .year true, .num .month true, .num .day true, .space, .num .hour true, .num .minute true, .num .second true] := rfl
  rw [e, parse_all_year h, parse_all_num (hd 4) (by decide), List.drop_drop]
  have hlen : ∀ k, s.drop k = [] ↔ s.length ≤ k := fun k => List.drop_eq_nil_iff
  have h0 : s = [] ↔ s.length ≤ 0 := by simp
  simp only [Parsed.set, setField, Option.map_some, Option.bind_some]
  rw [parse_all_num (hd _) (by decide), List.drop_drop]
  simp only [Parsed.set, setField, Option.map_some, Option.bind_some]
  rw [parse_all_space (hd _), parse_all_num (hd _) (by decide), List.drop_drop]
  simp only [Parsed.set, setField, Option.map_some, Option.bind_some]
  rw [parse_all_num (hd _) (by decide), List.drop_drop]
  simp only [Parsed.set, setField, Option.map_some, Option.bind_some]
  rw [parse_all_num (hd _) (by decide), List.drop_drop]
  simp only [Parsed.set, setField, Option.map_some, Option.bind_some, parseItems, hlen, h0]
  by_cases hl : s.length = 13 ∨ s.length = 14
  · rw [if_pos hl, if_neg (by omega), if_neg (by omega), if_neg (by omega), if_neg (by omega), if_neg (by omega), if_neg (by omega), if_pos (by omega)]
    rfl
  · rw [if_neg hl]
    by_cases h12 : s.length ≤ 12
    · repeat' split
      all_goals first | rfl | omega
    · rw [if_neg (by omega), if_neg (by omega), if_neg (by omega), if_neg (by omega), if_neg (by omega), if_neg (by omega), if_neg (by omega)]

theorem digits_chunk {s : Str} (h : ∀ c ∈ s, 48 ≤ c.toNat ∧ c.toNat ≤ 57) (i k : Nat) (hl : i + k ≤ s.length) : HasDigits k (decimalValue ((s.drop i).take k)) ((s.drop i).take k) :=
  ⟨by rw [List.length_take, List.length_drop]; omega, fun c hc => h c (List.mem_of_mem_drop (List.mem_of_mem_take hc)), rfl⟩

end Chopper.Chrono
