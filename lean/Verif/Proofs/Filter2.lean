import Verif.Proofs.Filter
import Verif.Props.Driver
import Verif.Props.HeaderGraph

/-!
# Widths of rows in graphs of built-in nodes
-/
namespace Chopper
open Spec Props

/-- The sink can work on rows of width `w`. -/
def BSink.okFor : BSink → Nat → Prop
  | .mergeJoin, _ => True
  | .equal i _, w => i < w
  | .greater i _, w => i < w
  | .delete i, w => i < w
  | .writer _, _ => True

/-- Width of the rows leaving the sink. -/
def BSink.outWidth : BSink → Nat → Nat
  | .delete _, w => w - 1
  | _, w => w

/-- `W c k` is the width of rows at node `k` of chain `c`. -/
def WidthOk (W : Nat → Nat → Nat) (gs : List (DChain BSink)) : Prop :=
  ∀ (c : Nat) ch (k : Nat) n, gs[c]? = some ch → ch[k]? = some n →
    match n with
    | .sink s => s.okFor (W c k) ∧ W c (k + 1) = s.outWidth (W c k)
    | .merge d => d < gs.length ∧ W c (k + 1) = W c k ∧ (gs[d]? = some [] ∨ W d 0 = W c k)
    | .split ds => W c (k + 1) = W c k ∧ ∀ d ∈ ds, d < gs.length ∧ (gs[d]? = some [] ∨ W d 0 = W c k)

/-- The comparison done by sink `s` on row `r` ends the process. -/
def ComparisonExits (s : BSink) (r : Row) : Prop :=
  ∃ i v x, r.values[i]? = some x ∧ ((s = .equal i v ∧ x.eq v = .panic) ∨ (s = .greater i v ∧ x.partialCmp v = .panic))

theorem write_width {s s' : BSink} {row : Row} {w : Nat} {r : Res (List Row)} (hok : s.okFor w) (hw : row.values.length = w)
    (h : s.write row = (s', r)) :
    s'.okFor w ∧ s'.outWidth w = s.outWidth w ∧ (∀ rows, r = .ok rows → ∀ x ∈ rows, x.values.length = s.outWidth w) ∧
    (r = .panic → ComparisonExits s row) := by
  cases s with
  | mergeJoin => simp [BSink.write] at h; obtain ⟨rfl, rfl⟩ := h; simp [BSink.okFor, BSink.outWidth, hw]
  | writer rows => simp [BSink.write] at h; obtain ⟨rfl, rfl⟩ := h; simp [BSink.okFor, BSink.outWidth, hw]
  | delete i =>
    simp only [BSink.okFor] at hok
    simp only [BSink.write, vecRemove, hw, hok, if_true, Res.bind_ok, Prod.mk.injEq] at h
    obtain ⟨rfl, rfl⟩ := h
    refine ⟨hok, rfl, ?_, by simp⟩
    intro rows hr x hx
    simp at hr; subst hr; simp at hx; subst hx
    simp [List.length_eraseIdx, hw, hok, BSink.outWidth]
  | equal i v =>
    simp only [BSink.okFor] at hok
    have hget : row.values[i]? = some (row.values[i]'(by omega)) := List.getElem?_eq_getElem _
    generalize row.values[i]'(by omega) = x at hget
    simp only [BSink.write, hget, Res.unwrap_some, Res.bind_ok, Prod.mk.injEq] at h
    obtain ⟨rfl, rfl⟩ := h
    refine ⟨hok, rfl, ?_, ?_⟩
    · intro rows hr y hy
      cases hx : x.eq v <;> simp [hx] at hr
      split at hr <;> subst hr <;> simp at hy
      subst hy; exact hw
    · intro hp
      cases hx : x.eq v <;> simp [hx] at hp
      exact ⟨i, v, x, hget, .inl ⟨rfl, hx⟩⟩
  | greater i v =>
    simp only [BSink.okFor] at hok
    have hget : row.values[i]? = some (row.values[i]'(by omega)) := List.getElem?_eq_getElem _
    generalize row.values[i]'(by omega) = x at hget
    simp only [BSink.write, hget, Res.unwrap_some, Res.bind_ok, Prod.mk.injEq] at h
    obtain ⟨rfl, rfl⟩ := h
    refine ⟨hok, rfl, ?_, ?_⟩
    · intro rows hr y hy
      cases hx : x.partialCmp v <;> simp [hx] at hr
      split at hr
      · subst hr; simp at hy; subst hy; exact hw
      · subst hr; simp at hy
    · intro hp
      cases hx : x.partialCmp v <;> simp [hx] at hp
      exact ⟨i, v, x, hget, .inr ⟨rfl, hx⟩⟩

theorem WidthOk.put {W : Nat → Nat → Nat} {gs : List (DChain BSink)} (h : WidthOk W gs) {c i : Nat} {ch : DChain BSink} {s s' : BSink}
    (hc : gs[c]? = some ch) (hi : ch[i]? = some (.sink s)) (h1 : s'.okFor (W c i)) (h2 : s'.outWidth (W c i) = s.outWidth (W c i)) :
    WidthOk W (gs.modify c (fun ch => ch.set i (.sink s'))) := by
  intro c1 ch1 k n hc1 hk
  have hlen : (gs.modify c (fun ch => ch.set i (.sink s'))).length = gs.length := by simp
  by_cases hcc : c1 = c
  · subst hcc
    rw [List.getElem?_modify] at hc1
    simp [hc] at hc1
    subst hc1
    by_cases hki : k = i
    · subst hki
      have : k < ch.length := (List.getElem?_eq_some_iff.1 hi).1
      rw [List.getElem?_set_self this] at hk
      simp at hk; subst hk
      have := h c1 ch k _ hc hi
      exact ⟨h1, by rw [h2]; exact this.2⟩
    · rw [List.getElem?_set_ne (by omega)] at hk
      have := h c1 ch k n hc hk
      cases n with
      | sink s => exact this
      | split ds =>
        refine ⟨this.1, fun d hd => ⟨by rw [hlen]; exact (this.2 d hd).1, ?_⟩⟩
        rcases (this.2 d hd).2 with h3 | h3
        · left; rw [List.getElem?_modify]
          by_cases e : c1 = d
          · subst e; rw [hc] at h3; simp at h3; subst h3; simp at hi
          · simp [e, h3]
        · right; exact h3
      | merge d =>
        refine ⟨by rw [hlen]; exact this.1, this.2.1, ?_⟩
        rcases this.2.2 with h3 | h3
        · left; rw [List.getElem?_modify]
          by_cases e : c1 = d
          · subst e; rw [hc] at h3; simp at h3; subst h3; simp at hi
          · simp [e, h3]
        · right; exact h3
  · rw [List.getElem?_modify] at hc1
    have hne : ¬ c = c1 := fun e => hcc e.symm
    simp [hne] at hc1
    have := h c1 ch1 k n hc1 hk
    cases n with
    | sink s => exact this
    | split ds =>
      refine ⟨this.1, fun d hd => ⟨by rw [hlen]; exact (this.2 d hd).1, ?_⟩⟩
      rcases (this.2 d hd).2 with h3 | h3
      · left; rw [List.getElem?_modify]
        by_cases e : c = d
        · subst e; rw [hc] at h3; simp at h3; subst h3; simp at hi
        · simp [e, h3]
      · right; exact h3
    | merge d =>
      refine ⟨by rw [hlen]; exact this.1, this.2.1, ?_⟩
      rcases this.2.2 with h3 | h3
      · left; rw [List.getElem?_modify]
        by_cases e : c = d
        · subst e; rw [hc] at h3; simp at h3; subst h3; simp at hi
        · simp [e, h3]
      · right; exact h3

/-- What a piece of work on the graph guarantees: the graph keeps its widths, every sink call got a row of the right width, and the only
panic is a comparison. -/
structure WidthStep (W : Nat → Nat → Nat) (g g' : DGraph BSink) (r : Res Unit) : Prop where
  ok : WidthOk W g'.chains
  len : g'.chains.length = g.chains.length
  empty : ∀ c : Nat, g.chains[c]? = some [] ↔ g'.chains[c]? = some []
  log : ∃ evs, g'.log = g.log ++ evs ∧ ∀ c k row, Event.write c k row ∈ evs → row.values.length = W c k
  panic : r = .panic → ∃ c k row s, .write c k row ∈ g'.log ∧ sinkAt g'.chains c k = some s ∧ ComparisonExits s row

theorem WidthStep.refl {W g r} (h : WidthOk W g.chains) (hr : r ≠ .panic) : WidthStep W g g r :=
  ⟨h, rfl, fun _ => Iff.rfl, ⟨[], by simp, by simp⟩, fun e => absurd e hr⟩

theorem WidthStep.trans {W g g' g'' r r'} (h1 : WidthStep W g g' r) (h2 : WidthStep W g' g'' r') : WidthStep W g g'' r' := by
  refine ⟨h2.ok, h2.len.trans h1.len, fun c => (h1.empty c).trans (h2.empty c), ?_, h2.panic⟩
  obtain ⟨e1, l1, w1⟩ := h1.log
  obtain ⟨e2, l2, w2⟩ := h2.log
  refine ⟨e1 ++ e2, by rw [l2, l1, List.append_assoc], ?_⟩
  intro c k row hm
  rcases List.mem_append.1 hm with hm | hm
  · exact w1 c k row hm
  · exact w2 c k row hm

theorem WidthStep.outcome {W g g' r r'} (h : WidthStep W g g' r) (hr : r' ≠ .panic) : WidthStep W g g' r' :=
  ⟨h.ok, h.len, h.empty, h.log, fun e => absurd e hr⟩

/-- Same chains, the same ones empty. -/
def SameShape (g g' : DGraph BSink) : Prop :=
  g'.chains.length = g.chains.length ∧ ∀ c : Nat, g.chains[c]? = some [] ↔ g'.chains[c]? = some []

theorem runAll_width {α : Type} {W : Nat → Nat → Nat} (f : α → DGraph BSink → DGraph BSink × Res Unit) (g0 : DGraph BSink) :
    ∀ (l : List α), (∀ a ∈ l, ∀ g, SameShape g0 g → WidthOk W g.chains → WidthStep W g (f a g).1 (f a g).2) →
      ∀ g, SameShape g0 g → WidthOk W g.chains → WidthStep W g (runAll f l g).1 (runAll f l g).2
  | [], _, g, _, hg => .refl hg (by simp [runAll])
  | a :: as, hf, g, hs, hg => by
    have h1 := hf a (by simp) g hs hg
    simp only [runAll]
    rcases hr : f a g with ⟨g', _ | _ | _ | _⟩ <;> rw [hr] at h1
    · exact h1.trans (runAll_width f g0 as (fun b hb => hf b (by simp [hb])) g'
        ⟨h1.len.trans hs.1, fun c => (hs.2 c).trans (h1.empty c)⟩ h1.ok)
    all_goals exact h1

theorem sinkAt_set {S : Type} {gs : List (DChain S)} {c i : Nat} {ch : DChain S} {s s' : S} (hc : gs[c]? = some ch)
    (hi : ch[i]? = some (.sink s)) : sinkAt (gs.modify c (fun ch => ch.set i (.sink s'))) c i = some s' := by
  have : i < ch.length := (List.getElem?_eq_some_iff.1 hi).1
  simp [sinkAt, List.getElem?_modify, hc, this]

theorem setSink_empty {S : Type} {gs : List (DChain S)} {c i : Nat} {s : S} (d : Nat) :
    gs[d]? = some [] ↔ (gs.modify c (fun ch => ch.set i (.sink s)))[d]? = some [] := by
  rw [List.getElem?_modify]
  cases h : gs[d]? with
  | none => simp
  | some ch => by_cases e : c = d <;> simp [e]

theorem exits_keep {s s' : BSink} {row : Row} {r : Res (List Row)} (h : s.write row = (s', r)) (he : ComparisonExits s row) : s' = s := by
  obtain ⟨i, v, x, _, ⟨rfl, _⟩ | ⟨rfl, _⟩⟩ := he <;> simp [BSink.write] at h <;> exact h.1.symm

theorem processRow_width {W : Nat → Nat → Nat} : ∀ (fuel : Nat) (c i : Nat) (row : Row) (g : DGraph BSink), WidthOk W g.chains →
    c < g.chains.length → (g.chains[c]? = some [] ∨ row.values.length = W c i) →
    WidthStep W g (processRow builtinOps fuel c i row g).1 (processRow builtinOps fuel c i row g).2
  | 0, c, i, row, g, hg, _, _ => .refl hg (by simp [processRow])
  | fuel + 1, c, i, row, g, hg, hlt, hw => by
    have hc : g.chains[c]? = some (g.chains[c]) := List.getElem?_eq_getElem _
    generalize g.chains[c] = ch at hc
    simp only [processRow, hc]
    cases hi : ch[i]? with
    | none => exact .refl hg (by simp)
    | some n =>
      have hw' : row.values.length = W c i := by
        rcases hw with h | h
        · rw [hc] at h; simp at h; subst h; simp at hi
        · exact h
      have hn := hg c ch i n hc hi
      cases n with
      | sink s =>
        simp only [builtinOps]
        rcases hwr : s.write row with ⟨s', r⟩
        obtain ⟨p1, p2, p3, p4⟩ := write_width hn.1 hw' hwr
        have hg' := hg.put hc hi p1 p2
        have step : ∀ r' : Res Unit, (r' = .panic → r = .panic) →
            WidthStep W g (g.setSink c i s' (.write c i row)) r' := by
          intro r' hr'
          refine ⟨hg', by simp [DGraph.setSink], fun d => setSink_empty d, ⟨[.write c i row], rfl, ?_⟩, ?_⟩
          · intro c1 k1 row1 hm
            simp at hm; obtain ⟨rfl, rfl, rfl⟩ := hm; exact hw'
          · intro e
            have he := p4 (hr' e)
            have := exits_keep hwr he
            subst this
            exact ⟨c, i, row, s', by simp [DGraph.setSink], sinkAt_set hc hi, he⟩
        cases r with
        | ok rows =>
          have s1 := step (.ok ()) (by simp)
          refine s1.trans (runAll_width _ g rows ?_ _ ⟨s1.len, s1.empty⟩ s1.ok)
          intro r hr g1 hs1 hg1
          refine processRow_width fuel c (i + 1) r g1 hg1 (by rw [hs1.1]; exact hlt) (.inr ?_)
          rw [p3 rows rfl r hr, hn.2]
        | err e => exact step _ (by simp)
        | panic => exact step _ (by simp)
        | diverge => exact step _ (by simp)
      | split ds =>
        obtain ⟨m2, m3⟩ := hn
        have h1 := runAll_width (W := W) (fun d g => processRow builtinOps fuel d 0 row g) g ds (by
          intro d hd g1 hs1 hg1
          refine processRow_width fuel d 0 row g1 hg1 (by rw [hs1.1]; exact (m3 d hd).1) ?_
          exact (m3 d hd).2.imp (hs1.2 d).1 (fun h => by rw [hw', h])) g ⟨rfl, fun _ => Iff.rfl⟩ hg
        rcases hr : runAll (fun d g => processRow builtinOps fuel d 0 row g) ds g with ⟨g', _ | _ | _ | _⟩ <;> rw [hr] at h1 <;> simp only [hr]
        · exact h1.trans (processRow_width fuel c (i + 1) row g' h1.ok (by rw [h1.len]; exact hlt) (.inr (by rw [hw', m2])))
        all_goals exact h1
      | merge d =>
        obtain ⟨m1, m2, m3⟩ := hn
        have h1 := processRow_width fuel d 0 row g hg m1 (m3.imp id (fun h => by rw [hw', h]))
        rcases hr : processRow builtinOps fuel d 0 row g with ⟨g', _ | _ | _ | _⟩ <;> rw [hr] at h1 <;> simp only [hr]
        · exact h1.trans (processRow_width fuel c (i + 1) row g' h1.ok (by rw [h1.len]; exact hlt) (.inr (by rw [hw', m2])))
        all_goals exact h1

theorem flush_width {W : Nat → Nat → Nat} : ∀ (fuel : Nat) (c i : Nat) (g : DGraph BSink), WidthOk W g.chains →
    c < g.chains.length → WidthStep W g (flushFrom builtinOps fuel c i g).1 (flushFrom builtinOps fuel c i g).2
  | 0, c, i, g, hg, _ => .refl hg (by simp [flushFrom])
  | fuel + 1, c, i, g, hg, hlt => by
    have hc : g.chains[c]? = some (g.chains[c]) := List.getElem?_eq_getElem _
    generalize g.chains[c] = ch at hc
    simp only [flushFrom, hc]
    cases hi : ch[i]? with
    | none => exact .refl hg (by simp)
    | some n =>
      have hn := hg c ch i n hc hi
      cases n with
      | sink s =>
        simp only [builtinOps]
        have hg' := hg.put hc hi hn.1 rfl
        have s1 : WidthStep W g (g.setSink c i s (.flush c i)) (.ok ()) :=
          ⟨hg', by simp [DGraph.setSink], fun d => setSink_empty d, ⟨[.flush c i], rfl, by simp⟩, by simp⟩
        exact s1.trans (flush_width fuel c (i + 1) _ s1.ok (by rw [s1.len]; exact hlt))
      | split ds =>
        obtain ⟨m2, m3⟩ := hn
        have h1 := runAll_width (W := W) (fun d g => flushFrom builtinOps fuel d 0 g) g ds (by
          intro d hd g1 hs1 hg1
          exact flush_width fuel d 0 g1 hg1 (by rw [hs1.1]; exact (m3 d hd).1)) g ⟨rfl, fun _ => Iff.rfl⟩ hg
        rcases hr : runAll (fun d g => flushFrom builtinOps fuel d 0 g) ds g with ⟨g', _ | _ | _ | _⟩ <;> rw [hr] at h1 <;> simp only [hr]
        · exact h1.trans (flush_width fuel c (i + 1) g' h1.ok (by rw [h1.len]; exact hlt))
        all_goals exact h1
      | merge d =>
        obtain ⟨m1, m2, m3⟩ := hn
        have h1 := flush_width fuel d 0 g hg m1
        rcases hr : flushFrom builtinOps fuel d 0 g with ⟨g', _ | _ | _ | _⟩ <;> rw [hr] at h1 <;> simp only [hr]
        · exact h1.trans (flush_width fuel c (i + 1) g' h1.ok (by rw [h1.len]; exact hlt))
        all_goals exact h1

theorem perform_width {W : Nat → Nat → Nat} (gfuel : Nat) (g0 : DGraph BSink) (out : Res Unit) :
    ∀ (cs : List Call), (∀ c row, Call.feed c row ∈ cs → c < g0.chains.length ∧ (g0.chains[c]? = some [] ∨ row.values.length = W c 0)) →
      (∀ c, Call.flush c ∈ cs → c < g0.chains.length) → ∀ g, SameShape g0 g → WidthOk W g.chains →
      ∀ g' r, perform (fun c r g => processRow builtinOps gfuel c 0 r g) (fun c g => flushFrom builtinOps gfuel c 0 g) cs out g = (g', r) →
      ∃ r', WidthStep W g g' r' ∧ (r = r' ∨ r' = .ok () ∧ r = out)
  | [], _, _, g, _, hg, g', r, h => by
    simp [perform] at h; obtain ⟨rfl, rfl⟩ := h
    exact ⟨.ok (), .refl hg (by simp), .inr ⟨rfl, rfl⟩⟩
  | .feed c row :: cs, hf, hfl, g, hs, hg, g', r, h => by
    simp only [perform] at h
    obtain ⟨f1, f2⟩ := hf c row (by simp)
    have h1 := processRow_width gfuel c 0 row g hg (by rw [hs.1]; exact f1) (f2.imp (hs.2 c).1 id)
    rcases hr : processRow builtinOps gfuel c 0 row g with ⟨g1, _ | _ | _ | _⟩ <;> rw [hr] at h1 <;> simp only [hr] at h
    · obtain ⟨r', h2, h3⟩ := perform_width gfuel g0 out cs (fun c row hm => hf c row (by simp [hm])) (fun c hm => hfl c (by simp [hm])) g1
        ⟨h1.len.trans hs.1, fun c => (hs.2 c).trans (h1.empty c)⟩ h1.ok g' r h
      exact ⟨r', h1.trans h2, h3⟩
    all_goals (simp at h; obtain ⟨rfl, rfl⟩ := h; exact ⟨_, h1, .inl rfl⟩)
  | .flush c :: cs, hf, hfl, g, hs, hg, g', r, h => by
    simp only [perform] at h
    have h1 := flush_width gfuel c 0 g hg (by rw [hs.1]; exact hfl c (by simp))
    rcases hr : flushFrom builtinOps gfuel c 0 g with ⟨g1, _ | _ | _ | _⟩ <;> rw [hr] at h1 <;> simp only [hr] at h
    · obtain ⟨r', h2, h3⟩ := perform_width gfuel g0 out cs (fun c row hm => hf c row (by simp [hm])) (fun c hm => hfl c (by simp [hm])) g1
        ⟨h1.len.trans hs.1, fun c => (hs.2 c).trans (h1.empty c)⟩ h1.ok g' r h
      exact ⟨r', h1.trans h2, h3⟩
    all_goals (simp at h; obtain ⟨rfl, rfl⟩ := h; exact ⟨_, h1, .inl rfl⟩)

/-! ## Setup with built-in header sinks gives a graph with consistent widths -/

/-- Width of the header current at node `k` of chain `c`; `dflt` where there is none. -/
def widthAt (dflt : Nat) (chains : List (HChain BSink)) (entry : Nat → Option Header) (c k : Nat) : Nat :=
  match entry c, chains[c]? with
  | some h, some ch => match headerAt h ch k with
    | some h' => h'.names.length
    | none => dflt
  | _, _ => dflt

theorem builtin_sink {f : Header → Res (BSink × Header)} (hf : BuiltinSink f) {h h' : Header} {d : BSink} (he : f h = .ok (d, h')) :
    d.okFor h.names.length ∧ h'.names.length = d.outWidth h.names.length := by
  have fc : ∀ {name i}, findCol name h.names 0 = some i → i < h.names.length := by
    intro name i hi
    obtain ⟨n, h1, _⟩ := (findCol_some hi).2.1
    exact (List.getElem?_eq_some_iff.1 h1).1
  cases hf with
  | equal name v =>
    simp only [equalHeader] at he
    split at he <;> simp at he
    obtain ⟨rfl, rfl⟩ := he
    exact ⟨fc ‹_›, rfl⟩
  | greater name v =>
    simp only [greaterHeader] at he
    split at he <;> simp at he
    obtain ⟨rfl, rfl⟩ := he
    exact ⟨fc ‹_›, rfl⟩
  | delete name =>
    simp only [deleteHeader] at he
    split at he
    · have := fc ‹_›
      simp only [vecRemove, this, if_true, Res.bind_ok] at he
      split at he <;> simp at he
      obtain ⟨rfl, rfl⟩ := he
      exact ⟨this, by simp [List.length_eraseIdx, this, BSink.outWidth]⟩
    · simp at he
  | output =>
    simp only [writerHeader, Res.ok.injEq, Prod.mk.injEq] at he
    obtain ⟨rfl, rfl⟩ := he
    exact ⟨trivial, rfl⟩

/-- Width of the header at node `k` of a chain entered with `h`. -/
def hw (dflt : Nat) (h : Header) (ch : HChain BSink) (k : Nat) : Nat :=
  match headerAt h ch k with
  | some h' => h'.names.length
  | none => dflt

theorem built_width {dflt : Nat} {A C : Nat → Header → Prop} {h : Header} {ch : HChain BSink} {ds : DChain BSink}
    (hb : ChainBuilt .mergeJoin A C h ch ds) (hbi : ∀ n ∈ ch, BuiltinNode n ∨ ∃ ids m, n = .splitSink ids m) :
    ∀ (k : Nat) n, ds[k]? = some n →
      match n with
      | .sink s => s.okFor (hw dflt h ch k) ∧ hw dflt h ch (k + 1) = s.outWidth (hw dflt h ch k)
      | .merge d => hw dflt h ch (k + 1) = hw dflt h ch k ∧ ∃ h', A d h' ∧ hw dflt h ch k = h'.names.length
      | .split ids => hw dflt h ch (k + 1) = hw dflt h ch k ∧
          ∀ d ∈ ids, ∃ h', (d, h') ∈ splitsFrom h ch ∧ hw dflt h ch k = h'.names.length := by
  have h0 : ∀ (h : Header) (ch : HChain BSink), hw dflt h ch 0 = h.names.length := by intro h ch; simp [hw, headerAt]
  induction hb with
  | nil => intro k n hk; simp at hk
  | @sink h h' f d ns ds hf _ ih =>
    have hs : ∀ k, hw dflt h (.sink f :: ns) (k + 1) = hw dflt h' ns k := by intro k; simp only [hw, headerAt, hf]
    intro k n hk
    cases k with
    | zero =>
      simp at hk; subst hk
      rw [hs, h0, h0]
      have hbf : BuiltinSink f := by
        have := hbi _ (List.mem_cons_self ..)
        rcases this with this | ⟨_, _, e⟩
        · cases this with | sink hb => exact hb
        · cases e
      exact builtin_sink hbf hf
    | succ k =>
      rw [hs, hs]
      have := ih (fun n hn => hbi n (List.mem_cons_of_mem _ hn)) k n (by simpa using hk)
      have e : splitsFrom h (.sink f :: ns) = splitsFrom h' ns := by simp only [splitsFrom, hf]
      rw [e]; exact this
  | @mergeSink h s m ns ds _ ih =>
    have hs : ∀ k, hw dflt h (.mergeSink s m :: ns) (k + 1) = hw dflt h ns k := by intro k; simp only [hw, headerAt]
    intro k n hk
    cases k with
    | zero =>
      simp at hk; subst hk
      rw [hs, h0, h0]
      exact ⟨trivial, rfl⟩
    | succ k =>
      rw [hs, hs]
      exact ih (fun n hn => hbi n (List.mem_cons_of_mem _ hn)) k n (by simpa using hk)
  | @split h ids m ns ds _ _ ih =>
    have hs : ∀ k, hw dflt h (.splitSink ids m :: ns) (k + 1) = hw dflt h ns k := by intro k; simp only [hw, headerAt]
    intro k n hk
    cases k with
    | zero =>
      simp at hk; subst hk
      show hw dflt h _ (0 + 1) = _ ∧ _
      rw [hs, h0, h0]
      exact ⟨rfl, fun d hd => ⟨h, List.mem_append_left _ (List.mem_map.2 ⟨d, hd, rfl⟩), rfl⟩⟩
    | succ k =>
      rw [hs, hs]
      have := ih (fun n hn => hbi n (List.mem_cons_of_mem _ hn)) k n (by simpa using hk)
      cases n with
      | sink _ => exact this
      | merge _ => exact this
      | split js =>
        refine ⟨this.1, fun d hd => ?_⟩
        obtain ⟨h', p1, p2⟩ := this.2 d hd
        exact ⟨h', List.mem_append_right _ p1, p2⟩
  | @merge h m ns ds ha _ ih =>
    have hs : ∀ k, hw dflt h (.merge m :: ns) (k + 1) = hw dflt h ns k := by intro k; simp only [hw, headerAt]
    intro k n hk
    cases k with
    | zero =>
      simp at hk; subst hk
      show hw dflt h _ (0 + 1) = _ ∧ _
      rw [hs, h0, h0]
      exact ⟨rfl, h, ha, rfl⟩
    | succ k =>
      rw [hs, hs]
      exact ih (fun n hn => hbi n (List.mem_cons_of_mem _ hn)) k n (by simpa using hk)

theorem setup_widthOk {dflt : Nat} {chains : List (HChain BSink)} {headers : List Header} {data : List (DChain BSink)}
    {entry : Nat → Option Header} {arrived : Nat → List Header} (hs : Setup .mergeJoin chains headers data entry arrived)
    (hb : ∀ ch ∈ chains, ∀ n ∈ ch, BuiltinNode n ∨ ∃ ids m, n = .splitSink ids m)
    (hsp : ∀ (c d : Nat) h ch hd, entry c = some h → chains[c]? = some ch → (d, hd) ∈ splitsFrom h ch →
      d < chains.length ∧ ∀ h', entry d = some h' → h'.names.length = hd.names.length) :
    WidthOk (widthAt dflt chains entry) data := by
  intro c dch k n hc hk
  have hlt : c < chains.length := by rw [← hs.length]; exact (List.getElem?_eq_some_iff.1 hc).1
  have hch : chains[c]? = some chains[c] := List.getElem?_eq_getElem _
  cases he : entry c with
  | none =>
    have := hs.idle c hlt he
    rw [hc] at this; simp at this; subst this; simp at hk
  | some h =>
    obtain ⟨dch', h1, h2⟩ := hs.built c _ h hch he
    rw [hc] at h1; simp at h1; subst h1
    have h3 := built_width (dflt := dflt) h2 (hb _ (List.getElem_mem _)) k n hk
    have hW : ∀ j, widthAt dflt chains entry c j = hw dflt h chains[c] j := by
      intro j; simp only [widthAt, he, hch, hw]
    rw [hW, hW]
    cases n with
    | sink s => exact h3
    | split ds =>
      refine ⟨h3.1, fun d hd => ?_⟩
      obtain ⟨h', p1, p2⟩ := h3.2 d hd
      obtain ⟨hdlt, q⟩ := hsp c d h _ h' he hch p1
      refine ⟨by rw [hs.length]; exact hdlt, ?_⟩
      have hdc : chains[d]? = some chains[d] := List.getElem?_eq_getElem _
      cases hed : entry d with
      | none => left; exact hs.idle d hdlt hed
      | some h'' =>
        right
        rw [p2, ← q _ hed]
        simp only [widthAt, hed, hdc, headerAt]
    | merge d =>
      obtain ⟨e1, h', e2, e3⟩ := h3
      have hm : isMergeChain chains d = true := hs.arrivedAt d (List.ne_nil_of_mem e2)
      obtain ⟨_, _, _, hd⟩ := isMergeChain_iff.1 hm
      have hdlt := (List.getElem?_eq_some_iff.1 hd).1
      refine ⟨by rw [hs.length]; exact hdlt, e1, ?_⟩
      cases hed : entry d with
      | none => left; exact hs.idle d hdlt hed
      | some h'' =>
        right
        have := hs.sameEntry d _ _ e2 hed
        subst this
        simp only [widthAt, hed, hd, headerAt]
        exact e3.symm

theorem entry_lt {D : Type} {dbg : Bool} {mj : D} {fuel : Nat} {chains : List (HChain D)} {headers : List Header} {g : DGraph D}
    (hok : processHeader dbg mj fuel chains headers = .ok g) {c : Nat} (hc : c < headers.length) : c < chains.length := by
  unfold processHeader at hok
  cases hp : processHeadersFrom dbg mj fuel 0 headers ⟨chains, chains.map (fun _ => [])⟩ with
  | ok σ =>
    obtain ⟨_, _, h⟩ := processHeadersFrom_spec (w := 0) headers 0 _ σ (by simp) hp
    obtain ⟨⟨_, _, h1⟩, _⟩ := h c headers[c] (by simp)
    have := (List.getElem?_eq_some_iff.1 h1).1
    simpa using this
  | err e => simp [hp] at hok
  | panic => simp [hp] at hok
  | diverge => simp [hp] at hok

end Chopper
