import Verif.Spec.CliApp
import Verif.Props.Cli2
import Verif.Props.Cli4

/-! # C103: command lines -/
namespace Chopper.Props
open Chopper Chopper.Spec

theorem valuesOf_mem {g : Given} (h : (g.map (·.1)).Nodup) {n : Str} {vs : List Str} (hm : (n, vs) ∈ g) : g.valuesOf n = some vs := by
  unfold Given.valuesOf
  induction g with
  | nil => cases hm
  | cons x g ih =>
    rw [List.map_cons, List.nodup_cons] at h
    rcases List.mem_cons.1 hm with rfl | hm
    · simp
    · have hne : x.1 ≠ n := fun he => h.1 (by rw [he]; exact List.mem_map.2 ⟨_, hm, rfl⟩)
      rw [List.find?_cons_of_neg (by simpa using hne)]
      exact ih h.2 hm

theorem valuesOf_none {g : Given} {n : Str} (h : ¬ g.has n) : g.valuesOf n = none := by
  unfold Given.valuesOf
  rw [Option.map_eq_none_iff, List.find?_eq_none]
  intro x hx he
  exact h ⟨x.2, by rw [← (by simpa using he : x.1 = n)]; exact hx⟩

theorem valuesOf_some {g : Given} {n : Str} {vs : List Str} (h : g.valuesOf n = some vs) : (n, vs) ∈ g := by
  unfold Given.valuesOf at h
  rw [Option.map_eq_some_iff] at h
  obtain ⟨x, hx, rfl⟩ := h
  have h1 := List.find?_some hx
  have h2 := List.mem_of_find?_eq_some hx
  rw [← (by simpa using h1 : x.1 = n)]
  exact h2

theorem hasValues_of {g : Given} (h : (g.map (·.1)).Nodup) (n : String) : HasValues g n (g.valuesOf n.toList) :=
  ⟨fun _ hm => valuesOf_mem h hm, valuesOf_none⟩

theorem hasValue_of {g : Given} (h : (g.map (·.1)).Nodup) (n : String) (d : Option String)
    (hd : (cliApp.find? fun x => x.name == n.toList).bind (·.default) = d.map String.toList) : HasValue g n d (g.valueOf cliApp n.toList) := by
  refine ⟨fun v hm => ?_, fun hn => ?_⟩
  · unfold Given.valueOf
    rw [valuesOf_mem h hm]
    rfl
  · unfold Given.valueOf
    rw [valuesOf_none hn]
    exact hd

/-- An option with one value has a value, if it is given or has a default. -/
theorem valueOf_given {g : Given} (hc : Clap cliApp g) {n : Str} {d : OptDecl} (hd : d ∈ cliApp) (hn : d.name = n) (ht : d.takesValue = true) (hg : g.has n) :
    ∃ v vs, g.valueOf cliApp n = some v ∧ (n, vs) ∈ g ∧ v ∈ vs := by
  obtain ⟨vs, hm⟩ := hg
  have := hc.values d hd vs (by rw [hn]; exact hm)
  rw [if_pos ht] at this
  obtain ⟨v, l, rfl⟩ := List.exists_cons_of_ne_nil this.1
  refine ⟨v, _, ?_, hm, by simp⟩
  unfold Given.valueOf
  rw [valuesOf_mem hc.once hm]
  rfl

theorem hasValue_default {g : Given} {n : String} {d : String} {v : Option Str} (h : HasValue g n (some d) v) (hn : ¬ g.has n.toList) : v = some d.toList := h.2 hn

/-- The value of an option with possible values is one of them, as spelt there or, where case is ignored, up to case. -/
theorem valueOf_possible {g : Given} (hc : Clap cliApp g) {n : Str} {d : OptDecl} (hd : d ∈ cliApp) (hn : d.name = n) (ht : d.takesValue = true)
    (hf : (cliApp.find? fun x => x.name == n).bind (·.default) = d.default) {ps : List Str} (hp : d.possible = some ps) (hdef : ∀ x, d.default = some x → x ∈ ps) {v : Str}
    (hv : g.valueOf cliApp n = some v) :
    if d.ignoreCase then ∃ p ∈ ps, lowerAscii v = lowerAscii p else v ∈ ps := by
  by_cases hg : g.has n
  · obtain ⟨w, vs, h1, h2, h3⟩ := valueOf_given hc hd hn ht hg
    rw [hv] at h1
    cases h1
    exact hc.possible d hd ps hp vs (by rw [hn]; exact h2) _ h3
  · unfold Given.valueOf at hv
    rw [valuesOf_none hg] at hv
    simp only at hv
    rw [hf] at hv
    have := hdef v hv
    split
    · exact ⟨v, this, rfl⟩
    · exact this

theorem valueOf_default {g : Given} (hc : Clap cliApp g) {n : Str} {d : OptDecl} (hd : d ∈ cliApp) (hn : d.name = n) (ht : d.takesValue = true)
    (hf : ((cliApp.find? fun x => x.name == n).bind (·.default)).isSome) : ∃ v, g.valueOf cliApp n = some v := by
  by_cases hg : g.has n
  · obtain ⟨w, vs, h1, h2, h3⟩ := valueOf_given hc hd hn ht hg
    exact ⟨w, h1⟩
  · unfold Given.valueOf
    rw [valuesOf_none hg]
    exact Option.isSome_iff_exists.1 hf

theorem isSome_has {g : Given} {n : Str} (h : (g.valueOf cliApp n).isSome) (hd : (cliApp.find? fun x => x.name == n).bind (·.default) = none) : g.has n := by
  refine Classical.byContradiction fun hn => ?_
  unfold Given.valueOf at h
  rw [valuesOf_none hn] at h
  simp only at h
  rw [hd] at h
  cases h

theorem decl_at (i : Nat) {d : OptDecl} (h : cliApp[i]? = some d) : d ∈ cliApp := List.mem_of_getElem? h

/-- **C103 (look-up).** A command line that `clap` accepts yields settings without error or panic; each has the value of its option or its default; and they are as C71 and C76
take for granted. -/
theorem C103_settings (g : Given) (hc : Clap cliApp g) : ∃ a, g.args = .ok a ∧ Says g a ∧ a.Accepted lowerAscii := by
  obtain ⟨hs, hhs⟩ := valueOf_default hc (decl_at 13 rfl) rfl rfl (n := "csv_in_has_header".toList) (by decide)
  obtain ⟨del, hdel⟩ := valueOf_default hc (decl_at 12 rfl) rfl rfl (n := "csv_out_delimiter".toList) (by decide)
  obtain ⟨pt, hpt⟩ := valueOf_default hc (decl_at 14 rfl) rfl rfl (n := "csv_out_print_time_col".toList) (by decide)
  have hhs2 := valueOf_possible hc (decl_at 13 rfl) rfl rfl (by decide) rfl (by decide) hhs
  have hpt2 := valueOf_possible hc (decl_at 14 rfl) rfl rfl (by decide) rfl (by decide) hpt
  simp only [if_true] at hhs2 hpt2
  obtain ⟨hh, hyes⟩ : ∃ hh, yesNoAuto hs = .ok hh ∧ ((lowerAscii hs = "yes".toList ∧ hh = .yes) ∨ (lowerAscii hs = "no".toList ∧ hh = .no) ∨ (lowerAscii hs = "auto".toList ∧ hh = .auto)) := by
    obtain ⟨p, hp, he⟩ := hhs2
    unfold yesNoAuto
    simp only [List.mem_cons, List.not_mem_nil, or_false] at hp
    rcases hp with rfl | rfl | rfl
    · exact ⟨.yes, by rw [he]; rfl, .inl ⟨he, rfl⟩⟩
    · exact ⟨.no, by rw [he]; rfl, .inr (.inl ⟨he, rfl⟩)⟩
    · exact ⟨.auto, by rw [he]; rfl, .inr (.inr ⟨he, rfl⟩)⟩
  refine ⟨_, by unfold Given.args; simp only [hhs, hyes.1, hdel, hpt, Res.bind_ok, Res.unwrap]; rfl, ?_, ?_⟩
  · have hv := hasValue_of hc.once
    refine ⟨hasValues_of hc.once _, hasValues_of hc.once _, hv "output" none (by decide), hv "timezone" none (by decide), hv "begin" none (by decide), hv "end" none (by decide),
      hv "csv_in_delimiter" none (by decide), ⟨hs, by rw [← hhs]; exact hv "csv_in_has_header" (some "auto") (by decide), hyes.2⟩, hv "csv_in_ts_fmt_date" none (by decide),
      hv "csv_in_ts_fmt_time" none (by decide), hv "csv_in_ts_fmt" none (by decide), hv "csv_in_epoch" none (by decide), hv "csv_in_ts_col_date" none (by decide),
      hv "csv_in_ts_col_time" none (by decide), hv "csv_in_ts_col" none (by decide), by simp only; rw [← hdel]; exact hv "csv_out_delimiter" (some ",") (by decide),
      by simp only; rw [← hpt]; exact hv "csv_out_print_time_col" (some "yes") (by decide), hv "csv_out_time_col_name" none (by decide), ?_,
      hv "csv_out_time_col_units" (some "ns") (by decide)⟩
    simp only [Given.isPresent]
    constructor
    · intro h
      obtain ⟨vs, h⟩ := Option.isSome_iff_exists.1 h
      exact ⟨vs, valuesOf_some h⟩
    · rintro ⟨vs, h⟩
      rw [valuesOf_mem hc.once h]
      rfl
  · have hne : ∀ {n : Str} {d : OptDecl}, d ∈ cliApp → d.name = n → d.takesValue = true → g.valuesOf n ≠ some [] := by
      intro n d hd hn ht h
      have := hc.values d hd [] (by rw [hn]; exact valuesOf_some h)
      rw [if_pos ht] at this
      exact this.1 rfl
    have hreq : ∀ {n m : Str} {d d' : OptDecl}, d ∈ cliApp → d.name = n → m ∈ d.requires → d' ∈ cliApp → d'.name = m → d'.takesValue = true →
        (cliApp.find? fun x => x.name == n).bind (·.default) = none → (g.valueOf cliApp n).isSome → (g.valueOf cliApp m).isSome := by
      intro n m d d' h1 h2 h3 h4 h5 h6 h7 h8
      have := hc.requires d h1 (by rw [h2]; exact isSome_has h8 h7) m h3
      obtain ⟨v, vs, h9, _⟩ := valueOf_given hc h4 h5 h6 this
      rw [h9]
      rfl
    refine ⟨hne (decl_at 0 rfl) rfl rfl, hne (decl_at 2 rfl) rfl rfl, ?_, ?_, ?_, ?_, ?_⟩
    · exact hreq (decl_at 19 rfl) rfl (by decide) (decl_at 20 rfl) rfl rfl (by decide)
    · exact hreq (decl_at 16 rfl) rfl (by decide) (decl_at 17 rfl) rfl rfl (by decide)
    · intro u hu
      exact valueOf_possible hc (decl_at 21 rfl) rfl rfl (by decide) rfl (by decide) hu
    · intro u hu
      exact valueOf_possible hc (decl_at 10 rfl) rfl rfl (by decide) rfl (by decide) hu
    · obtain ⟨p, hp, he⟩ := hpt2
      simp only [List.mem_cons, List.not_mem_nil, or_false] at hp
      simp only
      rw [he]
      rcases hp with rfl | rfl <;> decide

/-! ### Which command lines are accepted -/

/-- The options with a choice of values, in the table. -/
def choices : List (Str × List Str × Bool) :=
  [("csv_out_time_col_units".toList, ["s".toList, "ms".toList, "us".toList, "ns".toList], false),
   ("csv_in_epoch".toList, ["s".toList, "ms".toList, "us".toList, "ns".toList], false),
   ("csv_in_has_header".toList, ["yes".toList, "no".toList, "auto".toList], true),
   ("csv_out_print_time_col".toList, ["yes".toList, "no".toList], true)]

theorem any_case {ps : List Str} (hps : ∀ p ∈ ps, lowerAscii p = p) (v : Str) : (∃ p ∈ ps, lowerAscii v = lowerAscii p) ↔ lowerAscii v ∈ ps := by
  constructor
  · rintro ⟨p, hp, h⟩; rw [h, hps p hp]; exact hp
  · intro h; exact ⟨_, h, (hps _ h).symm⟩

theorem valueAllowed_iff (n v : Str) : ValueAllowed n v ↔ ∀ c ∈ choices, c.1 = n → if c.2.2 then ∃ p ∈ c.2.1, lowerAscii v = lowerAscii p else v ∈ c.2.1 := by
  have h3 : ∀ p ∈ ["yes".toList, "no".toList, "auto".toList], lowerAscii p = p := by decide +kernel
  have h2 : ∀ p ∈ ["yes".toList, "no".toList], lowerAscii p = p := by decide +kernel
  constructor
  · rintro ⟨h, h', h''⟩ c hc rfl
    simp only [choices, List.mem_cons, List.not_mem_nil, or_false] at hc
    rcases hc with rfl | rfl | rfl | rfl
    · exact h (.inl rfl)
    · exact h (.inr rfl)
    · exact (any_case h3 v).2 (h' rfl)
    · exact (any_case h2 v).2 (h'' rfl)
  · intro h
    refine ⟨?_, ?_, ?_⟩
    · rintro (rfl | rfl)
      · exact h ("csv_out_time_col_units".toList, _, false) (List.mem_of_getElem? (i := 0) rfl) rfl
      · exact h ("csv_in_epoch".toList, _, false) (List.mem_of_getElem? (i := 1) rfl) rfl
    · rintro rfl
      exact (any_case h3 v).1 (h ("csv_in_has_header".toList, _, true) (List.mem_of_getElem? (i := 2) rfl) rfl)
    · rintro rfl
      exact (any_case h2 v).1 (h ("csv_out_print_time_col".toList, _, true) (List.mem_of_getElem? (i := 3) rfl) rfl)

/-- **C103 (usage).** The command lines accepted are exactly the proper ones: known options, none twice, with an allowed value each; no two that are refused together; no half of a pair. -/
theorem C103_usage (g : Given) : Clap cliApp g ↔ Usage g := by
  constructor
  · intro hc
    refine ⟨hc.once, ?_, ?_, ?_⟩
    · intro n vs hm
      obtain ⟨d, hd, rfl⟩ := hc.declared n vs hm
      have hv := hc.values d hd vs hm
      have kinds : ∀ d ∈ cliApp, (d.takesValue = false ∧ d.name ∈ flagOptions) ∨ (d.takesValue = true ∧ d.many = true ∧ d.name ∈ listOptions) ∨
          (d.takesValue = true ∧ d.many = false ∧ d.name ∈ valueOptions) := by decide +kernel
      rcases kinds d hd with ⟨h1, h2⟩ | ⟨h1, h2, h3⟩ | ⟨h1, h2, h3⟩
      · rw [h1] at hv; exact .inl ⟨h2, by simpa using hv⟩
      · rw [h1] at hv; exact .inr (.inl ⟨h3, by simp at hv; exact hv.1⟩)
      · rw [h1] at hv
        simp only [if_true] at hv
        have hl := hv.2 h2
        match vs, hl with
        | [v], _ =>
          refine .inr (.inr ⟨h3, v, rfl, (valueAllowed_iff _ _).2 ?_⟩)
          intro c hcc hn
          have inTable : ∀ c ∈ choices, ∀ d ∈ cliApp, c.1 = d.name → d.possible = some c.2.1 ∧ d.ignoreCase = c.2.2 := by decide +kernel
          obtain ⟨h4, h5⟩ := inTable c hcc d hd hn
          rw [← h5]
          exact hc.possible d hd _ h4 [v] hm v (by simp)
    · rintro p hp ⟨h1, h2⟩
      have inTable : ∀ p ∈ refused, ∃ d ∈ cliApp, d.name = p.1 ∧ p.2 ∈ d.conflicts := by decide +kernel
      obtain ⟨d, hd, e, hm⟩ := inTable p hp
      exact hc.conflicts d hd (e ▸ h1) _ hm h2
    · intro p hp h1
      have inTable : ∀ p ∈ belonging, ∃ d ∈ cliApp, d.name = p.1.toList ∧ p.2.toList ∈ d.requires := by decide +kernel
      obtain ⟨d, hd, e, hm⟩ := inTable p hp
      exact hc.requires d hd (e ▸ h1) _ hm
  · intro hu
    have names : ∀ n vs, (n, vs) ∈ g → ∃ d ∈ cliApp, d.name = n := by
      intro n vs hm
      have h1 : ∀ n ∈ flagOptions, ∃ d ∈ cliApp, d.name = n := by decide +kernel
      have h2 : ∀ n ∈ listOptions, ∃ d ∈ cliApp, d.name = n := by decide +kernel
      have h3 : ∀ n ∈ valueOptions, ∃ d ∈ cliApp, d.name = n := by decide +kernel
      rcases hu.known n vs hm with ⟨h, _⟩ | ⟨h, _⟩ | ⟨h, _⟩
      · exact h1 n h
      · exact h2 n h
      · exact h3 n h
    refine ⟨names, hu.once, ?_, ?_, ?_, ?_⟩
    · intro d hd vs hm
      have k1 : ∀ d ∈ cliApp, d.name ∈ flagOptions → d.takesValue = false := by decide +kernel
      have k2 : ∀ d ∈ cliApp, d.name ∈ listOptions → d.takesValue = true ∧ d.many = true := by decide +kernel
      have k3 : ∀ d ∈ cliApp, d.name ∈ valueOptions → d.takesValue = true := by decide +kernel
      rcases hu.known _ vs hm with ⟨h, e⟩ | ⟨h, e⟩ | ⟨h, v, e, _⟩
      · rw [k1 d hd h]; simpa using e
      · obtain ⟨h1, h2⟩ := k2 d hd h
        rw [h1, h2]; simpa using e
      · rw [k3 d hd h]; simp [e]
    · intro d hd ps hps vs hm v hv
      have inTable : ∀ d ∈ cliApp, ∀ ps ∈ d.possible.toList, (d.name, ps, d.ignoreCase) ∈ choices := by decide +kernel
      have h0 := inTable d hd ps (by simp [hps])
      have noChoice : ∀ n ∈ listOptions, ∀ c ∈ choices, c.1 ≠ n := by decide +kernel
      rcases hu.known _ vs hm with ⟨_, e⟩ | ⟨h, _⟩ | ⟨_, w, e, ha⟩
      · rw [e] at hv; simp at hv
      · exact absurd rfl (noChoice _ h _ h0)
      · rw [e] at hv; simp at hv; subst hv
        exact (valueAllowed_iff _ _).1 ha _ h0 rfl
    · intro d hd hg n hn
      have inTable : ∀ d ∈ cliApp, ∀ n ∈ d.requires, ∃ p ∈ belonging, p.1.toList = d.name ∧ p.2.toList = n := by decide +kernel
      obtain ⟨p, hp, e1, e2⟩ := inTable d hd n hn
      exact e2 ▸ hu.together p hp (e1 ▸ hg)
    · intro d hd hg n hn hgn
      have inTable : ∀ d ∈ cliApp, ∀ n ∈ d.conflicts, (d.name, n) ∈ refused ∨ ∀ d' ∈ cliApp, d'.name ≠ n := by decide +kernel
      rcases inTable d hd n hn with h | h
      · exact hu.apart _ h ⟨hg, hgn⟩
      · obtain ⟨vs, hvs⟩ := hgn
        obtain ⟨d', hd', e⟩ := names _ _ hvs
        exact h d' hd' e

/-- **C103 (the whole tool).** An improper command line is refused and nothing runs; a proper one runs the tool (C61, C62, …) with the settings it says. -/
theorem C103_tool (e : CliEnv) (g : Given) :
    (¬ Usage g → chopperMain e g = none) ∧ (Usage g → ∃ a, Says g a ∧ a.Accepted lowerAscii ∧ chopperMain e g = some (chopperCli e a)) := by
  unfold chopperMain
  refine ⟨fun h => if_neg (fun hc => h ((C103_usage g).1 hc)), fun h => ?_⟩
  have hc := (C103_usage g).2 h
  obtain ⟨a, ha, hs, hacc⟩ := C103_settings g hc
  exact ⟨a, hs, hacc, by rw [if_pos hc, ha]⟩

/-- **C103, stated in full**: `clap` refuses command lines with options that contradict each other, and those with one of two options that belong together. -/
def C103_full : Prop := ∀ g, Clap cliApp g → (∀ p ∈ contradicting, ¬ (g.has p.1.toList ∧ g.has p.2.toList)) ∧ ∀ p ∈ belonging, g.has p.1.toList → g.has p.2.toList

/-- **C103 (partial).** Half of two options that belong together is always refused (also a date format without a time format, although the help text promises a default for the
latter). All contradictions are refused but these three: `-E` with `-H`, and `--csv-in-epoch` with `--csv-in-ts-fmt-date` or `--csv-in-ts-fmt-time`. -/
theorem C103_refused_partial (g : Given) (hc : Clap cliApp g) :
    (∀ p ∈ contradicting, p ≠ ("csv_out_time_fmt_epoch", "csv_out_time_fmt_human") → p ≠ ("csv_in_epoch", "csv_in_ts_fmt_date") → p ≠ ("csv_in_epoch", "csv_in_ts_fmt_time") →
      ¬ (g.has p.1.toList ∧ g.has p.2.toList)) ∧
    ∀ p ∈ belonging, g.has p.1.toList → g.has p.2.toList := by
  have hcon : ∀ {n m : Str} {d : OptDecl}, d ∈ cliApp → d.name = n → m ∈ d.conflicts → ¬ (g.has m ∧ g.has n) := by
    rintro n m d h1 h2 h3 ⟨h4, h5⟩
    exact hc.conflicts d h1 (by rw [h2]; exact h5) m h3 h4
  have hreq : ∀ {n m : Str} {d : OptDecl}, d ∈ cliApp → d.name = n → m ∈ d.requires → g.has n → g.has m := by
    rintro n m d h1 h2 h3 h4
    exact hc.requires d h1 (by rw [h2]; exact h4) m h3
  constructor
  · intro p hp h1 h2 h3
    simp only [contradicting, List.mem_cons, List.not_mem_nil, or_false] at hp
    rcases hp with rfl | rfl | rfl | rfl | rfl | rfl | rfl | rfl | rfl | rfl
    · exact hcon (decl_at 21 rfl) rfl (by decide)
    · exact hcon (decl_at 19 rfl) rfl (by decide)
    · exact hcon (decl_at 20 rfl) rfl (by decide)
    · exact hcon (decl_at 16 rfl) rfl (by decide)
    · exact hcon (decl_at 17 rfl) rfl (by decide)
    · exact fun h => hcon (decl_at 21 rfl) rfl (by decide) ⟨h.2, h.1⟩
    · exact fun h => hcon (decl_at 21 rfl) rfl (by decide) ⟨h.2, h.1⟩
    · exact absurd rfl h1
    · exact absurd rfl h2
    · exact absurd rfl h3
  · intro p hp
    simp only [belonging, List.mem_cons, List.not_mem_nil, or_false] at hp
    rcases hp with rfl | rfl | rfl | rfl
    · exact hreq (decl_at 19 rfl) rfl (by decide)
    · exact hreq (decl_at 20 rfl) rfl (by decide)
    · exact hreq (decl_at 16 rfl) rfl (by decide)
    · exact hreq (decl_at 17 rfl) rfl (by decide)

/-- **C103 (ignored).** What the three contradictions mean: `-H` has no effect; with a date format the epoch unit has no effect. -/
theorem C103_ignored (e : CliEnv) (g : Given) (hc : Clap cliApp g) :
    ∃ a, g.args = .ok a ∧
      (g.has "csv_out_time_fmt_epoch".toList → ∀ st, parseSettings e a = .ok st → st.outCfg.style = .epoch) ∧
      (∀ d t, ("csv_in_ts_fmt_date".toList, [d]) ∈ g → ("csv_in_ts_fmt_time".toList, [t]) ∈ g → ∀ st, parseSettings e a = .ok st → st.inCfg.tsFmt = .dateTimeExplicit d t) := by
  obtain ⟨a, h1, h2, h3⟩ := C103_settings g hc
  refine ⟨a, h1, fun h st hst => ((C76_settings lowerAscii e a h3 st hst).2.style).2 (h2.outEpoch.2 h), ?_⟩
  intro d t hd ht st hst
  have hfmt : parseTsFmt a = .ok (.dateTimeExplicit d t) := by
    unfold parseTsFmt
    rw [h2.tsFmtDate.1 d hd, h2.tsFmtTime.1 t ht]
    rfl
  unfold parseSettings at hst
  rw [Res.bind_eq_ok] at hst
  obtain ⟨z, _, hst⟩ := hst
  rw [Res.bind_eq_ok] at hst
  obtain ⟨r, _, hst⟩ := hst
  rw [Res.bind_eq_ok] at hst
  obtain ⟨is, _, hst⟩ := hst
  rw [Res.bind_eq_ok] at hst
  obtain ⟨ic, hic, hst⟩ := hst
  rw [Res.bind_eq_ok] at hst
  obtain ⟨oc, _, hst⟩ := hst
  cases hst
  simp only
  unfold parseCsvInputConfig at hic
  rw [hfmt, Res.bind_ok, Res.bind_eq_ok] at hic
  obtain ⟨c, _, hic⟩ := hic
  unfold CsvInputConfig.new at hic
  split at hic
  · cases hic; rfl
  · rw [Res.bind_eq_ok] at hic
    obtain ⟨_, _, hic⟩ := hic
    cases hic
    rfl

/-- **C103 (no crash).** No accepted command line crashes the program while it is being read, if `--print-time` is not given in upper case (C71), the time zone is known
and the range can be converted. -/
theorem C103_no_crash_partial (e : CliEnv) (g : Given) (hc : Clap cliApp g) (hp : ∀ v, ("csv_out_print_time_col".toList, [v]) ∈ g → v = "yes".toList ∨ v = "no".toList)
    (hz : ∀ a, g.args = .ok a → resolveTimezone e.tzParse e.tzMap e.tzVar a.timezone ≠ .panic)
    (hr : ∀ a, g.args = .ok a → ∀ z, TimestampRange.new e.csv.ov e.csv.lib z a.beginTs a.endTs ≠ .panic) :
    ∃ a, g.args = .ok a ∧ parseSettings e a ≠ .panic := by
  obtain ⟨a, h1, h2, h3⟩ := C103_settings g hc
  refine ⟨a, h1, C71_no_crash_partial lowerAscii e a h3 (hz a h1) (hr a h1) ?_⟩
  by_cases h : g.has "csv_out_print_time_col".toList
  · obtain ⟨vs, h⟩ := h
    have := hc.values _ (decl_at 14 rfl) vs h
    rw [if_pos rfl] at this
    obtain ⟨v, rfl⟩ := List.length_eq_one_iff.1 (this.2 rfl)
    have h4 := h2.printTime.1 v h
    cases h4
    exact hp _ h
  · have h4 := h2.printTime.2 h
    rw [Option.map_some, Option.some.injEq] at h4
    exact .inl h4

/-! ### Examples -/

/-- Checks the contract by going through the table. -/
def clapCheck (decls : List OptDecl) (g : Given) : Bool :=
  g.all (fun x => decls.any fun d => d.name == x.1) &&
  decide (g.map (·.1)).Nodup &&
  decls.all (fun d => g.all fun x => x.1 != d.name || (if d.takesValue then x.2 != [] && (d.many || x.2.length == 1) else x.2 == [])) &&
  decls.all (fun d => match d.possible with
    | none => true
    | some ps => g.all fun x => x.1 != d.name || x.2.all fun v => if d.ignoreCase then ps.any (fun p => lowerAscii v == lowerAscii p) else ps.contains v) &&
  decls.all (fun d => g.all fun x => x.1 != d.name || d.requires.all fun n => g.any fun y => y.1 == n) &&
  decls.all (fun d => g.all fun x => x.1 != d.name || d.conflicts.all fun n => g.all fun y => y.1 != n)

theorem clapCheck_sound {decls : List OptDecl} {g : Given} (h : clapCheck decls g = true) : Clap decls g := by
  unfold clapCheck at h
  simp only [Bool.and_eq_true, List.all_eq_true, decide_eq_true_eq, List.any_eq_true, Bool.or_eq_true, bne_iff_ne, beq_iff_eq] at h
  obtain ⟨⟨⟨⟨⟨h1, h2⟩, h3⟩, h4⟩, h5⟩, h6⟩ := h
  refine ⟨fun n vs hm => h1 _ hm, h2, ?_, ?_, ?_, ?_⟩
  · intro d hd vs hm
    rcases h3 d hd _ hm with h | h
    · exact absurd rfl h
    · split
      · rename_i ht
        rw [if_pos ht] at h
        simp only [Bool.and_eq_true, Bool.or_eq_true, bne_iff_ne, beq_iff_eq] at h
        refine ⟨h.1, fun hm => h.2.elim (fun h => ?_) id⟩
        rw [hm] at h
        cases h
      · rename_i ht
        rw [if_neg ht] at h
        simpa using h
  · intro d hd ps hp vs hm v hv
    have := h4 d hd
    rw [hp] at this
    simp only [List.all_eq_true, Bool.or_eq_true, bne_iff_ne] at this
    rcases this _ hm with h | h
    · exact absurd rfl h
    · have := h v hv
      split
      · rename_i ht
        rw [if_pos ht] at this
        simp only [List.any_eq_true, beq_iff_eq] at this
        exact this
      · rename_i ht
        rw [if_neg ht] at this
        simpa using this
  · rintro d hd ⟨vs, hm⟩ n hn
    rcases h5 d hd _ hm with h | h
    · exact absurd rfl h
    · obtain ⟨y, hy, he⟩ := h n hn
      exact ⟨y.2, by rw [← he]; exact hy⟩
  · rintro d hd ⟨vs, hm⟩ n hn ⟨ws, hw⟩
    rcases h6 d hd _ hm with h | h
    · exact absurd rfl h
    · exact h n hn _ hw rfl

/-- The command line `-E -H in.csv` is accepted. -/
def bothStyles : Given := [("csv_out_time_fmt_epoch".toList, []), ("csv_out_time_fmt_human".toList, []), ("input".toList, ["in.csv".toList])]
/-- The command line `--csv-in-epoch s --csv-in-ts-fmt-date %Y --csv-in-ts-fmt-time %H in.csv` is accepted. -/
def epochAndFormat : Given := [("csv_in_epoch".toList, ["s".toList]), ("csv_in_ts_fmt_date".toList, ["%Y".toList]), ("csv_in_ts_fmt_time".toList, ["%H".toList]),
  ("input".toList, ["in.csv".toList])]

theorem bothStyles_accepted : Clap cliApp bothStyles := clapCheck_sound (by decide +kernel)
theorem epochAndFormat_accepted : Clap cliApp epochAndFormat := clapCheck_sound (by decide +kernel)

/-- **C103 is false**: each of the three remaining contradictions is accepted. -/
theorem C103_counterexample : ¬ C103_full ∧ ∀ p ∈ contradicting, (p = ("csv_out_time_fmt_epoch", "csv_out_time_fmt_human") ∨ p = ("csv_in_epoch", "csv_in_ts_fmt_date") ∨
    p = ("csv_in_epoch", "csv_in_ts_fmt_time")) → ∃ g, Clap cliApp g ∧ g.has p.1.toList ∧ g.has p.2.toList := by
  refine ⟨fun h => (h _ bothStyles_accepted).1 ("csv_out_time_fmt_epoch", "csv_out_time_fmt_human") (by decide) ⟨⟨[], by decide⟩, ⟨[], by decide⟩⟩, ?_⟩
  rintro p _ (rfl | rfl | rfl)
  · exact ⟨_, bothStyles_accepted, ⟨[], by decide⟩, ⟨[], by decide⟩⟩
  · exact ⟨_, epochAndFormat_accepted, ⟨["s".toList], by decide⟩, ⟨["%Y".toList], by decide⟩⟩
  · exact ⟨_, epochAndFormat_accepted, ⟨["s".toList], by decide⟩, ⟨["%H".toList], by decide⟩⟩

/-- A longer command line: formats, a range, explicit settings. -/
example : Clap cliApp [("format".toList, ["csv".toList, "auto".toList]), ("begin".toList, ["2020".toList]), ("csv_in_has_header".toList, ["YES".toList]),
    ("csv_in_ts_col_date".toList, ["0".toList]), ("csv_in_ts_col_time".toList, ["1".toList]), ("output".toList, ["o.dc".toList]),
    ("csv_out_print_time_col".toList, ["no".toList]), ("input".toList, ["a".toList, "b".toList, "c".toList])] := clapCheck_sound (by decide +kernel)

/-- The empty command line: everything from standard input to standard output, human readable times in nanoseconds. -/
example : Clap cliApp [] ∧ Given.args [] = .ok {} := ⟨clapCheck_sound (by decide +kernel), rfl⟩

end Chopper.Props
