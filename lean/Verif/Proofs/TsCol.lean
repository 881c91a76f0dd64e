import Verif.Spec.Timestamp
import Verif.Proofs.CsvUtil

namespace Chopper
open Spec

/-! ## Leftmost match -/

/-- First name of a class, with its index (counted from `i`) and what the class extracts. -/
def firstMatch {α : Type} (c : Str → Option α) (i : Nat) : List Str → Option (Nat × α)
  | [] => none
  | n :: ns => match c n with
    | some a => some (i, a)
    | none => firstMatch c (i + 1) ns

theorem firstMatch_none {α : Type} {c : Str → Option α} : ∀ {ns : List Str} {i : Nat}, firstMatch c i ns = none ↔ ∀ n ∈ ns, c n = none
  | [], i => by simp [firstMatch]
  | n :: ns, i => by
    simp only [firstMatch, List.forall_mem_cons]
    cases h : c n with
    | some a => simp
    | none => simp only [true_and]; exact firstMatch_none

theorem firstMatch_some {α : Type} {c : Str → Option α} : ∀ {ns : List Str} {i k : Nat} {a : α}, firstMatch c i ns = some (k, a) →
    ∃ j n, k = i + j ∧ ns[j]? = some n ∧ c n = some a ∧ ∀ j' n', j' < j → ns[j']? = some n' → c n' = none
  | [], i, k, a, h => by simp [firstMatch] at h
  | n :: ns, i, k, a, h => by
    simp only [firstMatch] at h
    cases hc : c n with
    | some b =>
      simp only [hc, Option.some.injEq, Prod.mk.injEq] at h
      obtain ⟨rfl, rfl⟩ := h
      exact ⟨0, n, rfl, rfl, hc, fun j' n' h => by omega⟩
    | none =>
      simp only [hc] at h
      obtain ⟨j, m, h1, h2, h3, h4⟩ := firstMatch_some h
      refine ⟨j + 1, m, by omega, by rw [List.getElem?_cons_succ]; exact h2, h3, ?_⟩
      intro j' n' hj hn
      cases j' with
      | zero => simp at hn; subst hn; exact hc
      | succ j' => rw [List.getElem?_cons_succ] at hn; exact h4 j' n' (by omega) hn

theorem firstMatch_leftmost {α : Type} {c : Str → Option α} {P : Str → Prop} (hP : ∀ n, P n ↔ (c n).isSome = true) {ns : List Str} {k : Nat} {a : α}
    (h : firstMatch c 0 ns = some (k, a)) : Leftmost P ns k ∧ ∃ n, ns[k]? = some n ∧ c n = some a := by
  obtain ⟨j, n, h1, h2, h3, h4⟩ := firstMatch_some h
  have : k = j := by omega
  subst this
  refine ⟨⟨⟨n, h2, (hP n).2 (by rw [h3]; rfl)⟩, ?_⟩, n, h2, h3⟩
  intro j' n' hj hn hp
  have := (hP n').1 hp
  rw [h4 j' n' hj hn] at this
  simp at this

theorem firstMatch_nowhere {α : Type} {c : Str → Option α} {P : Str → Prop} (hP : ∀ n, P n ↔ (c n).isSome = true) {ns : List Str}
    (h : firstMatch c 0 ns = none) : Nowhere P ns := by
  intro n hn hp
  have := (hP n).1 hp
  rw [firstMatch_none.1 h n hn] at this
  simp at this

theorem leftmost_unique {P : Str → Prop} {ns : List Str} {i j : Nat} (hi : Leftmost P ns i) (hj : Leftmost P ns j) : i = j := by
  obtain ⟨⟨n, h1, h2⟩, h3⟩ := hi
  obtain ⟨⟨m, g1, g2⟩, g3⟩ := hj
  rcases Nat.lt_trichotomy i j with h | h | h
  · exact absurd h2 (g3 i n h h1)
  · exact h
  · exact absurd g2 (h3 j m h g1)

theorem leftmost_nowhere {P : Str → Prop} {ns : List Str} {i : Nat} (hi : Leftmost P ns i) (h : Nowhere P ns) : False := by
  obtain ⟨⟨n, h1, h2⟩, _⟩ := hi
  exact h n (List.mem_of_getElem? h1) h2

/-! ## The classes as computed -/

def cTime (n : Str) : Option Unit := if n = strTime then some () else none
def cDate (n : Str) : Option Unit := if n = strDate then some () else none
def cTU (n : Str) : Option TimestampUnits :=
  if n = strTime then none else if n = strDate then none else if strTime.isPrefixOf n then unitNamed (n.drop 4) else none
def cPD (n : Str) : Option Str :=
  if n = strTime then none else if n = strDate then none else if strTime.isPrefixOf n then none
  else if strDate.isSuffixOf n then some (n.take (n.length - 4)) else none
def cPT (n : Str) : Option Str :=
  if n = strTime then none else if n = strDate then none else if strTime.isPrefixOf n then none
  else if strDate.isSuffixOf n then none else if strTime.isSuffixOf n then some (n.take (n.length - 4)) else none
def cPTU (n : Str) : Option (Str × TimestampUnits) :=
  if n = strTime then none else if n = strDate then none else if strTime.isPrefixOf n then none
  else if strDate.isSuffixOf n then none else if strTime.isSuffixOf n then none
  else match lastSplit strTime n with
    | none => none
    | some (p, s) => match unitNamed s with
      | some u => some (p, u)
      | none => none

theorem strDate_ne : strDate ≠ strTime := by decide
theorem strTime_pre : strTime.isPrefixOf strDate = false := by decide

local macro "step_tac" : tactic => `(tactic| (
  rename_i st i n
  by_cases h1 : n = strTime
  · subst h1; rfl
  simp only [if_neg h1]
  by_cases h2 : n = strDate
  · subst h2; rfl
  simp only [if_neg h2]
  cases h3 : strTime.isPrefixOf n
  case true => simp only [if_true]; cases unitNamed (n.drop 4) <;> rfl
  case false =>
  simp only [Bool.false_eq_true, if_false]
  cases h4 : strDate.isSuffixOf n
  case true => rfl
  case false =>
  simp only [Bool.false_eq_true, if_false]
  cases h5 : strTime.isSuffixOf n
  case true => rfl
  case false =>
  simp only [Bool.false_eq_true, if_false]
  rcases h6 : lastSplit strTime n with _ | ⟨p, q⟩
  · rfl
  · simp only []
    cases unitNamed q <;> rfl))

theorem step_time (st : ColScan) (i : Nat) (n : Str) : (colStep st i n).time = (match cTime n with | some _ => some i | none => st.time) := by
  unfold colStep cTime; revert st i n; intros; step_tac
theorem step_date (st : ColScan) (i : Nat) (n : Str) : (colStep st i n).date = (match cDate n with | some _ => some i | none => st.date) := by
  unfold colStep cDate; revert st i n; intros; step_tac
theorem step_tu (st : ColScan) (i : Nat) (n : Str) : (colStep st i n).timeWithUnits = (match cTU n with | some u => some (i, u) | none => st.timeWithUnits) := by
  unfold colStep cTU; revert st i n; intros; step_tac
theorem step_pd (st : ColScan) (i : Nat) (n : Str) : (colStep st i n).prefixedDate = (match cPD n with | some p => some (p, i) | none => st.prefixedDate) := by
  unfold colStep cPD; revert st i n; intros; step_tac
theorem step_pt (st : ColScan) (i : Nat) (n : Str) : (colStep st i n).prefixedTime = (match cPT n with | some p => some (p, i) | none => st.prefixedTime) := by
  unfold colStep cPT; revert st i n; intros; step_tac
theorem step_ptu (st : ColScan) (i : Nat) (n : Str) : (colStep st i n).prefixedTimeWithUnits =
    (match cPTU n with | some (p, u) => some (p, i, u) | none => st.prefixedTimeWithUnits) := by
  unfold colStep cPTU; revert st i n; intros; step_tac

theorem scan_fields : ∀ (ns : List Str) (i : Nat),
    (colScan i ns).time = (firstMatch cTime i ns).map (·.1) ∧
    (colScan i ns).date = (firstMatch cDate i ns).map (·.1) ∧
    (colScan i ns).timeWithUnits = firstMatch cTU i ns ∧
    (colScan i ns).prefixedDate = (firstMatch cPD i ns).map (fun x => (x.2, x.1)) ∧
    (colScan i ns).prefixedTime = (firstMatch cPT i ns).map (fun x => (x.2, x.1)) ∧
    (colScan i ns).prefixedTimeWithUnits = (firstMatch cPTU i ns).map (fun x => (x.2.1, x.1, x.2.2))
  | [], i => by simp [colScan, firstMatch]
  | n :: ns, i => by
    obtain ⟨h1, h2, h3, h4, h5, h6⟩ := scan_fields ns (i + 1)
    simp only [colScan, firstMatch]
    rw [step_time, step_date, step_tu, step_pd, step_pt, step_ptu, h1, h2, h3, h4, h5, h6]
    refine ⟨?_, ?_, ?_, ?_, ?_, ?_⟩
    · cases cTime n <;> rfl
    · cases cDate n <;> rfl
    · cases cTU n <;> rfl
    · cases cPD n <;> rfl
    · cases cPT n <;> rfl
    · cases cPTU n <;> rfl

/-! ## The classes as specified -/

theorem timeWord_eq : timeWord = strTime := by decide
theorem dateWord_eq : dateWord = strDate := by decide

theorem unitNamed_iff (s : Str) (u : TimestampUnits) : unitNamed s = some u ↔ s = unitName u := by
  unfold unitNamed timestampUnits
  constructor
  · intro h
    simp only [List.find?_cons, List.find?_nil] at h
    repeat' split at h
    all_goals simp at h
    all_goals subst h
    all_goals rename_i he
    all_goals rw [beq_iff_eq] at he
    all_goals rw [← he]
    all_goals decide
  · rintro rfl
    cases u <;> decide

theorem cTime_iff (n : Str) : IsTimeName n ↔ (cTime n).isSome = true := by
  unfold IsTimeName cTime; rw [timeWord_eq]; split <;> simp_all
theorem cDate_iff (n : Str) : IsDateName n ↔ (cDate n).isSome = true := by
  unfold IsDateName cDate; rw [dateWord_eq]; split <;> simp_all

theorem cTU_iff (n : Str) (u : TimestampUnits) : TimeUnit u n ↔ cTU n = some u := by
  unfold TimeUnit cTU; rw [timeWord_eq]
  constructor
  · rintro rfl
    cases u <;> decide
  · intro h
    split at h
    · simp at h
    split at h
    · simp at h
    split at h
    · rename_i h3
      rw [unitNamed_iff] at h
      rw [List.isPrefixOf_iff_prefix] at h3
      obtain ⟨t, rfl⟩ := h3
      rw [← h]; rfl
    · simp at h

theorem cPD_iff (n p : Str) : PrefixDate p n ↔ cPD n = some p := by
  unfold PrefixDate cPD; rw [timeWord_eq, dateWord_eq, ← List.isPrefixOf_iff_prefix]
  constructor
  · rintro ⟨rfl, hp, h⟩
    have hs : strDate.isSuffixOf (p ++ strDate) = true := by rw [List.isSuffixOf_iff_suffix]; exact ⟨p, rfl⟩
    have hl : (p ++ strDate).length = p.length + 4 := by simp [strDate]
    rw [if_neg, if_neg, if_neg h, if_pos hs, hl]
    · simp
    · intro e; have := congrArg List.length e; rw [hl] at this; simp [strDate] at this; exact hp this
    · intro e; rw [e] at h; exact h (by decide)
  · intro h
    split at h
    · simp at h
    split at h
    · simp at h
    rename_i hd
    split at h
    · simp at h
    rename_i ht
    split at h
    · rename_i hs
      rw [List.isSuffixOf_iff_suffix] at hs
      obtain ⟨q, rfl⟩ := hs
      have hl : (q ++ strDate).length = q.length + 4 := by simp [strDate]
      rw [hl] at h
      simp at h
      subst h
      exact ⟨rfl, by rintro rfl; exact hd rfl, ht⟩
    · simp at h

theorem cPT_iff (n p : Str) : PrefixTime p n ↔ cPT n = some p := by
  unfold PrefixTime cPT; rw [timeWord_eq, ← List.isPrefixOf_iff_prefix]
  constructor
  · rintro ⟨rfl, hp, h⟩
    have hs : strTime.isSuffixOf (p ++ strTime) = true := by rw [List.isSuffixOf_iff_suffix]; exact ⟨p, rfl⟩
    have hnd : ¬ strDate.isSuffixOf (p ++ strTime) = true := by
      rw [List.isSuffixOf_iff_suffix]
      rintro ⟨q, hq⟩
      have := (List.append_inj' hq (by decide)).2
      exact absurd this (by decide)
    have hl : (p ++ strTime).length = p.length + 4 := by simp [strTime]
    rw [if_neg, if_neg, if_neg h, if_neg hnd, if_pos hs, hl]
    · simp
    · intro e; exact hnd (by rw [e]; decide)
    · intro e; have := congrArg List.length e; rw [hl] at this; simp [strTime] at this; exact hp this
  · intro h
    split at h
    · simp at h
    rename_i hd
    split at h
    · simp at h
    split at h
    · simp at h
    rename_i ht
    split at h
    · simp at h
    split at h
    · rename_i hs
      rw [List.isSuffixOf_iff_suffix] at hs
      obtain ⟨q, rfl⟩ := hs
      have hl : (q ++ strTime).length = q.length + 4 := by simp [strTime]
      rw [hl] at h
      simp at h
      subst h
      exact ⟨rfl, by rintro rfl; exact hd rfl, ht⟩
    · simp at h

theorem lastSplit_sound {pat : Str} : ∀ {s p q : Str}, lastSplit pat s = some (p, q) → s = p ++ pat ++ q
  | [], p, q, h => by simp [lastSplit] at h
  | c :: cs, p, q, h => by
    simp only [lastSplit] at h
    cases hl : lastSplit pat cs with
    | some x =>
      obtain ⟨p', q'⟩ := x
      simp only [hl, Option.some.injEq, Prod.mk.injEq] at h
      obtain ⟨rfl, rfl⟩ := h
      rw [lastSplit_sound hl]; simp
    | none =>
      simp only [hl] at h
      split at h
      · rename_i hp
        simp only [Option.some.injEq, Prod.mk.injEq] at h
        obtain ⟨rfl, rfl⟩ := h
        rw [List.isPrefixOf_iff_prefix] at hp
        obtain ⟨t, ht⟩ := hp
        rw [← ht]; simp
      · simp at h

theorem lastSplit_append (c : Char) (pat q : Str) (h : lastSplit (c :: pat) (pat ++ q) = none) :
    ∀ p : Str, lastSplit (c :: pat) (p ++ (c :: pat) ++ q) = some (p, q)
  | [] => by
    simp only [List.nil_append, List.cons_append, lastSplit, h]
    have : (c :: pat).isPrefixOf (c :: (pat ++ q)) = true := by rw [List.isPrefixOf_iff_prefix]; exact ⟨q, rfl⟩
    rw [if_pos this]; simp
  | x :: p => by
    simp only [List.cons_append, lastSplit]
    have := lastSplit_append c pat q h p
    rw [this]

theorem cPTU_iff (n : Str) (u : TimestampUnits) : PrefixTimeUnit u n ↔ ∃ p, cPTU n = some (p, u) := by
  unfold PrefixTimeUnit cPTU; simp only [timeWord_eq, ← List.isPrefixOf_iff_prefix]
  constructor
  · rintro ⟨p, rfl, h⟩
    refine ⟨p, ?_⟩
    have hls : lastSplit strTime (p ++ strTime ++ unitName u) = some (p, unitName u) := by
      apply lastSplit_append
      cases u <;> decide
    have hn : ∀ w : Str, w.length = 4 → w.getLast? = some 'e' → ¬ w.isSuffixOf (p ++ strTime ++ unitName u) = true := by
      intro w hw he hsuf
      rw [List.isSuffixOf_iff_suffix] at hsuf
      obtain ⟨q, hq⟩ := hsuf
      have h2 := congrArg List.getLast? hq
      rw [List.getLast?_append, he, List.getLast?_append] at h2
      cases u <;> (simp [unitName] at h2)
    rw [if_neg, if_neg, if_neg h, if_neg (hn _ rfl rfl), if_neg (hn _ rfl rfl), hls]
    · simp only
      rw [(unitNamed_iff _ _).2 rfl]
    · intro e; exact hn strDate rfl rfl (by rw [e]; decide)
    · intro e; exact hn strTime rfl rfl (by rw [e]; decide)
  · rintro ⟨p, h⟩
    split at h
    · simp at h
    split at h
    · simp at h
    split at h
    · simp at h
    rename_i ht
    split at h
    · simp at h
    split at h
    · simp at h
    split at h
    · simp at h
    · rename_i p' s hls
      split at h
      · rename_i u' hu
        simp only [Option.some.injEq, Prod.mk.injEq] at h
        obtain ⟨rfl, rfl⟩ := h
        rw [unitNamed_iff] at hu
        subst hu
        exact ⟨p', lastSplit_sound hls, ht⟩
      · simp at h

theorem isSome_iff' {α : Type} {o : Option α} : o.isSome = true ↔ ∃ a, o = some a := Option.isSome_iff_exists

theorem anyTU (n : Str) : AnyTimeUnit n ↔ (cTU n).isSome = true := by
  unfold AnyTimeUnit; simp only [cTU_iff]; rw [isSome_iff']
theorem anyPTU (n : Str) : AnyPrefixTimeUnit n ↔ (cPTU n).isSome = true := by
  unfold AnyPrefixTimeUnit; simp only [cPTU_iff]; rw [isSome_iff']
  constructor
  · rintro ⟨u, p, h⟩; exact ⟨_, h⟩
  · rintro ⟨⟨p, u⟩, h⟩; exact ⟨u, p, h⟩
theorem anyPD (n : Str) : AnyPrefixDate n ↔ (cPD n).isSome = true := by
  unfold AnyPrefixDate; simp only [cPD_iff]; rw [isSome_iff']
theorem anyPT (n : Str) : AnyPrefixTime n ↔ (cPT n).isSome = true := by
  unfold AnyPrefixTime; simp only [cPT_iff]; rw [isSome_iff']

theorem leftmost_firstMatch {α : Type} {c : Str → Option α} {P : Str → Prop} (hP : ∀ n, P n ↔ (c n).isSome = true) {ns : List Str} {k : Nat}
    (h : Leftmost P ns k) : ∃ a n, firstMatch c 0 ns = some (k, a) ∧ ns[k]? = some n ∧ c n = some a := by
  rcases e : firstMatch c 0 ns with _ | ⟨k', a⟩
  · exact absurd (firstMatch_nowhere hP e) (fun h' => leftmost_nowhere h h')
  · obtain ⟨h1, n, h2, h3⟩ := firstMatch_leftmost hP e
    have := leftmost_unique h h1
    subst this
    exact ⟨a, n, rfl, h2, h3⟩

theorem nowhere_firstMatch {α : Type} {c : Str → Option α} {P : Str → Prop} (hP : ∀ n, P n ↔ (c n).isSome = true) {ns : List Str}
    (h : Nowhere P ns) : firstMatch c 0 ns = none := by
  rw [firstMatch_none]
  intro n hn
  cases hc : c n with
  | none => rfl
  | some a => exact absurd ((hP n).2 (by rw [hc]; rfl)) (h n hn)

theorem chosen_decide {names : List Str} {c : TimestampCol} {h : Option TimestampUnits} (a : Chosen names c h) : colDecide (colScan 0 names) = (c, h) := by
  obtain ⟨h1, h2, h3, h4, h5, h6⟩ := scan_fields names 0
  unfold colDecide
  rw [h1, h2, h3, h4, h5, h6]
  cases a with
  | timeUnit l g t =>
    obtain ⟨a, n, e, g', t'⟩ := leftmost_firstMatch anyTU l
    rw [g] at g'; cases g'
    rw [cTU_iff, t'] at t; cases t
    rw [e]
  | dateTime n1 l m =>
    obtain ⟨_, _, e, _⟩ := leftmost_firstMatch cDate_iff l
    obtain ⟨_, _, e', _⟩ := leftmost_firstMatch cTime_iff m
    rw [nowhere_firstMatch anyTU n1, e, e']; rfl
  | date n1 l n2 =>
    obtain ⟨_, _, e, _⟩ := leftmost_firstMatch cDate_iff l
    rw [nowhere_firstMatch anyTU n1, e, nowhere_firstMatch cTime_iff n2]; rfl
  | time n1 n2 l =>
    obtain ⟨_, _, e, _⟩ := leftmost_firstMatch cTime_iff l
    rw [nowhere_firstMatch anyTU n1, e, nowhere_firstMatch cDate_iff n2]; rfl
  | prefTimeUnit n1 n2 n3 l g t =>
    obtain ⟨a, n, e, g', t'⟩ := leftmost_firstMatch anyPTU l
    rw [g] at g'; cases g'
    rw [cPTU_iff, t'] at t
    obtain ⟨p, t⟩ := t
    cases t
    rw [nowhere_firstMatch anyTU n1, nowhere_firstMatch cDate_iff n2, nowhere_firstMatch cTime_iff n3, e]; rfl
  | prefDateTime n1 n2 n3 n4 l m gd gt pd pt =>
    obtain ⟨a, n, e, g', t'⟩ := leftmost_firstMatch anyPD l
    rw [gd] at g'; cases g'
    rw [cPD_iff, t'] at pd; cases pd
    obtain ⟨a', n', e', g'', t''⟩ := leftmost_firstMatch anyPT m
    rw [gt] at g''; cases g''
    rw [cPT_iff, t''] at pt; cases pt
    rw [nowhere_firstMatch anyTU n1, nowhere_firstMatch cDate_iff n2, nowhere_firstMatch cTime_iff n3, nowhere_firstMatch anyPTU n4, e, e']
    simp
  | prefDate n1 n2 n3 n4 l gd pd hno =>
    obtain ⟨a, n, e, g', t'⟩ := leftmost_firstMatch anyPD l
    rw [gd] at g'; cases g'
    rw [cPD_iff, t'] at pd; cases pd
    rw [nowhere_firstMatch anyTU n1, nowhere_firstMatch cDate_iff n2, nowhere_firstMatch cTime_iff n3, nowhere_firstMatch anyPTU n4, e]
    rcases e' : firstMatch cPT 0 names with _ | ⟨t, q⟩
    · rfl
    · obtain ⟨a', n', b', c'⟩ := firstMatch_leftmost anyPT e'
      have := hno t n' a' b'
      rw [cPT_iff, c'] at this
      simp only [Option.map_some, Option.map_none]
      rw [if_neg (fun h => this (by rw [h]))]
  | prefTime n1 n2 n3 n4 n5 l =>
    obtain ⟨_, _, e, _⟩ := leftmost_firstMatch anyPT l
    rw [nowhere_firstMatch anyTU n1, nowhere_firstMatch cDate_iff n2, nowhere_firstMatch cTime_iff n3, nowhere_firstMatch anyPTU n4,
      nowhere_firstMatch anyPD n5, e]; rfl
  | first n1 n2 n3 n4 n5 n6 =>
    rw [nowhere_firstMatch anyTU n1, nowhere_firstMatch cDate_iff n2, nowhere_firstMatch cTime_iff n3, nowhere_firstMatch anyPTU n4,
      nowhere_firstMatch anyPD n5, nowhere_firstMatch anyPT n6]; rfl

theorem decide_chosen (names : List Str) : Chosen names (colDecide (colScan 0 names)).1 (colDecide (colScan 0 names)).2 := by
  obtain ⟨h1, h2, h3, h4, h5, h6⟩ := scan_fields names 0
  unfold colDecide
  rw [h1, h2, h3, h4, h5, h6]
  cases e3 : firstMatch cTU 0 names with
  | some x =>
    obtain ⟨i, u⟩ := x
    obtain ⟨a, n, b, c⟩ := firstMatch_leftmost anyTU e3
    exact .timeUnit a b ((cTU_iff n u).2 c)
  | none =>
    have n3 := firstMatch_nowhere anyTU e3
    cases e2 : firstMatch cDate 0 names with
    | some x =>
      obtain ⟨d, _⟩ := x
      have l2 := (firstMatch_leftmost cDate_iff e2).1
      cases e1 : firstMatch cTime 0 names with
      | some x => exact .dateTime n3 l2 (firstMatch_leftmost cTime_iff e1).1
      | none => exact .date n3 l2 (firstMatch_nowhere cTime_iff e1)
    | none =>
      have n2 := firstMatch_nowhere cDate_iff e2
      cases e1 : firstMatch cTime 0 names with
      | some x => exact .time n3 n2 (firstMatch_leftmost cTime_iff e1).1
      | none =>
        have n1 := firstMatch_nowhere cTime_iff e1
        cases e6 : firstMatch cPTU 0 names with
        | some x =>
          obtain ⟨i, p, u⟩ := x
          obtain ⟨a, n, b, c⟩ := firstMatch_leftmost anyPTU e6
          exact .prefTimeUnit n3 n2 n1 a b ((cPTU_iff n u).2 ⟨p, c⟩)
        | none =>
          have n6 := firstMatch_nowhere anyPTU e6
          cases e4 : firstMatch cPD 0 names with
          | some x =>
            obtain ⟨d, p⟩ := x
            obtain ⟨a, n, b, c⟩ := firstMatch_leftmost anyPD e4
            cases e5 : firstMatch cPT 0 names with
            | none =>
              refine .prefDate n3 n2 n1 n6 a b ((cPD_iff n p).2 c) ?_
              intro t nt hl
              exact absurd (firstMatch_nowhere anyPT e5) (fun h => leftmost_nowhere hl h)
            | some y =>
              obtain ⟨t, q⟩ := y
              obtain ⟨a', n', b', c'⟩ := firstMatch_leftmost anyPT e5
              simp only [Option.map_some, Option.map_none]
              by_cases hpq : p = q
              · rw [if_pos hpq]
                subst hpq
                exact .prefDateTime n3 n2 n1 n6 a a' b b' ((cPD_iff n p).2 c) ((cPT_iff n' p).2 c')
              · rw [if_neg hpq]
                refine .prefDate n3 n2 n1 n6 a b ((cPD_iff n p).2 c) ?_
                intro t' nt hl hnt hp
                have := leftmost_unique hl a'
                subst this
                rw [b'] at hnt
                cases hnt
                rw [cPT_iff, c'] at hp
                exact hpq (by cases hp; rfl)
          | none =>
            have n4 := firstMatch_nowhere anyPD e4
            cases e5 : firstMatch cPT 0 names with
            | some x => exact .prefTime n3 n2 n1 n6 n4 (firstMatch_leftmost anyPT e5).1
            | none => exact .first n3 n2 n1 n6 n4 (firstMatch_nowhere anyPT e5)

end Chopper
