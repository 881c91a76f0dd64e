import Verif.Spec.Moments
import Verif.Proofs.Routes
import Verif.Proofs.Driver3

/-!
# Proofs about runs that may stop anywhere
-/
namespace Chopper
open Spec

variable {S : Type}

theorem turns_append (c i : Nat) (a b : List Event) : turns c i (a ++ b) = turns c i a ++ turns c i b := by simp [turns]

theorem rowTurns_append (a b : List (Option Row)) : rowTurns (a ++ b) = rowTurns a ++ rowTurns b := by simp [rowTurns]

theorem rowTurns_turns (c i : Nat) (ev : List Event) : rowTurns (turns c i ev) = written c i ev := by
  induction ev with
  | nil => rfl
  | cons e ev ih =>
    have h1 : turns c i (e :: ev) = turns c i [e] ++ turns c i ev := turns_append c i [e] ev
    have h2 : written c i (e :: ev) = written c i [e] ++ written c i ev := written_append c i [e] ev
    rw [h1, h2, rowTurns_append, ih]
    congr 1
    cases e with
    | write c' i' r => by_cases h : c' = c ∧ i' = i <;> simp [turns, written, rowTurns, h]
    | flush c' i' => by_cases h : c' = c ∧ i' = i <;> simp [turns, written, rowTurns, h]

theorem Spec.Did.trans {ops : SinkOps S} {a b c : S} {t1 t2 : List (Option Row)} (h1 : Did ops a t1 b) (h2 : Did ops b t2 c) : Did ops a (t1 ++ t2) c := by
  induction h2 with
  | start => simpa using h1
  | write _ hw ih => rw [← List.append_assoc]; exact .write ih hw
  | flush _ hf ih => rw [← List.append_assoc]; exact .flush ih hf

theorem Spec.Did.tried {ops : SinkOps S} {a b c : S} {t1 t2 : List (Option Row)} (h1 : Did ops a t1 b) (h2 : Tried ops b t2 c) : Tried ops a (t1 ++ t2) c := by
  cases h2 with
  | did h => exact .did (h1.trans h)
  | write h hw => rw [← List.append_assoc]; exact .write (h1.trans h) hw
  | flush h hf => rw [← List.append_assoc]; exact .flush (h1.trans h) hf

/-- What a part of a run does to the graph: without failure (`true`), or stopping at a failure. -/
def Goes (ops : SinkOps S) (ok : Bool) (g g' : DGraph S) (ev : List Event) : Prop :=
  g'.shape = g.shape ∧ g'.log = g.log ++ ev ∧ ∀ c i s, sinkAt g.chains c i = some s → ∃ s', sinkAt g'.chains c i = some s' ∧
    Tried ops s (turns c i ev) s' ∧ (ok = true → Did ops s (turns c i ev) s')

theorem Goes.refl (ops : SinkOps S) (ok : Bool) (g : DGraph S) : Goes ops ok g g [] :=
  ⟨rfl, by simp, fun c i s h => ⟨s, h, .did (.start s), fun _ => .start s⟩⟩

theorem Goes.trans {ops : SinkOps S} {ok : Bool} {a b c : DGraph S} {e1 e2 : List Event} (h1 : Goes ops true a b e1) (h2 : Goes ops ok b c e2) :
    Goes ops ok a c (e1 ++ e2) := by
  obtain ⟨s1, l1, k1⟩ := h1
  obtain ⟨s2, l2, k2⟩ := h2
  refine ⟨s2.trans s1, by rw [l2, l1]; simp, ?_⟩
  intro c i s hs
  obtain ⟨s', h3, _, h4⟩ := k1 c i s hs
  obtain ⟨s'', h5, h6, h7⟩ := k2 c i s' h3
  rw [turns_append]
  exact ⟨s'', h5, (h4 rfl).tried h6, fun h => (h4 rfl).trans (h7 h)⟩

theorem goes_write {ops : SinkOps S} {g : DGraph S} {c i : Nat} {ch : DChain S} {s s' : S} {row : Row} {x : Res (List Row)} {ok : Bool}
    (hc : g.chains[c]? = some ch) (hi : ch[i]? = some (.sink s)) (hw : ops.write s row = (s', x)) (hx : ok = true → ∃ out, x = .ok out) :
    Goes ops ok g (g.setSink c i s' (.write c i row)) [.write c i row] := by
  refine ⟨setSink_shape hc hi, rfl, ?_⟩
  intro c' i' s0 h0
  by_cases he : c' = c ∧ i' = i
  · obtain ⟨rfl, rfl⟩ := he
    rw [sinkAt_of hc hi] at h0
    cases h0
    have : turns c' i' [Event.write c' i' row] = [] ++ [some row] := by simp [turns]
    rw [this]
    refine ⟨s', sinkAt_setSink_eq (sinkAt_of hc hi), .write (.start _) hw, fun h => ?_⟩
    obtain ⟨out, rfl⟩ := hx h
    exact .write (.start _) hw
  · have : turns c' i' [Event.write c i row] = [] := by
      simp only [turns, List.filterMap_cons, List.filterMap_nil]
      rw [if_neg (by rintro ⟨rfl, rfl⟩; exact he ⟨rfl, rfl⟩)]
    rw [this]
    exact ⟨s0, by rw [sinkAt_setSink_ne he]; exact h0, .did (.start _), fun _ => .start _⟩

theorem goes_flush {ops : SinkOps S} {g : DGraph S} {c i : Nat} {ch : DChain S} {s s' : S} {x : Res Unit} {ok : Bool}
    (hc : g.chains[c]? = some ch) (hi : ch[i]? = some (.sink s)) (hw : ops.flush s = (s', x)) (hx : ok = true → x = .ok ()) :
    Goes ops ok g (g.setSink c i s' (.flush c i)) [.flush c i] := by
  refine ⟨setSink_shape hc hi, rfl, ?_⟩
  intro c' i' s0 h0
  by_cases he : c' = c ∧ i' = i
  · obtain ⟨rfl, rfl⟩ := he
    rw [sinkAt_of hc hi] at h0
    cases h0
    have : turns c' i' [Event.flush c' i'] = [] ++ [none] := by simp [turns]
    rw [this]
    refine ⟨s', sinkAt_setSink_eq (sinkAt_of hc hi), .flush (.start _) hw, fun h => ?_⟩
    cases hx h
    exact .flush (.start _) hw
  · have : turns c' i' [Event.flush c i] = [] := by
      simp only [turns, List.filterMap_cons, List.filterMap_nil]
      rw [if_neg (by rintro ⟨rfl, rfl⟩; exact he ⟨rfl, rfl⟩)]
    rw [this]
    exact ⟨s0, by rw [sinkAt_setSink_ne he]; exact h0, .did (.start _), fun _ => .start _⟩

/-- Whether a result is a success. -/
def isOk {α : Type} : Res α → Bool
  | .ok _ => true
  | _ => false

/-- A part of a run, with a bound on what reaches the place `t`: exactly `b` if it succeeds, a beginning of `b` otherwise. -/
def Reaches (ops : SinkOps S) (t : Place) (b : List Row) (g : DGraph S) (o : DGraph S × Res Unit) : Prop :=
  ∃ ev, Goes ops (isOk o.2) g o.1 ev ∧ written t.1 t.2 ev <+: b ∧ (isOk o.2 = true → written t.1 t.2 ev = b)

theorem Reaches.stop {ops : SinkOps S} {t : Place} {b : List Row} {g : DGraph S} {r : Res Unit} (h : isOk r = false) : Reaches ops t b g (g, r) :=
  ⟨[], .refl _ _ _, by simp [written], by simp [h]⟩

theorem Reaches.ok_nil {ops : SinkOps S} {t : Place} {g : DGraph S} : Reaches ops t [] g (g, .ok ()) :=
  ⟨[], .refl _ _ _, by simp [written], fun _ => by simp [written]⟩

/-- Going on after a success. -/
theorem Reaches.andThen {ops : SinkOps S} {t : Place} {b1 b2 : List Row} {g g1 : DGraph S} {o : DGraph S × Res Unit}
    (h1 : Reaches ops t b1 g (g1, .ok ())) (h2 : Reaches ops t b2 g1 o) : Reaches ops t (b1 ++ b2) g o := by
  obtain ⟨e1, k1, _, q1⟩ := h1
  obtain ⟨e2, k2, p2, q2⟩ := h2
  refine ⟨e1 ++ e2, Goes.trans k1 k2, ?_, ?_⟩
  · rw [written_append, q1 rfl]
    obtain ⟨x, hx⟩ := p2
    exact ⟨x, by rw [List.append_assoc, hx]⟩
  · intro h; rw [written_append, q1 rfl, q2 h]

/-- Stopping at a failure. -/
theorem Reaches.fails {ops : SinkOps S} {t : Place} {b1 b2 : List Row} {g : DGraph S} {o : DGraph S × Res Unit} (h1 : Reaches ops t b1 g o) (hf : isOk o.2 = false) :
    Reaches ops t (b1 ++ b2) g o := by
  obtain ⟨e1, k1, p1, _⟩ := h1
  exact ⟨e1, k1, p1.trans (List.prefix_append _ _), by simp [hf]⟩

/-- All sinks are in states they can be in, and stay so. -/
theorem Goes.allInv {ops : SinkOps S} {inv : Place → S → Prop} {f} (ha : Acts ops inv f) {g g' : DGraph S} {ev} (h : Goes ops true g g' ev) (hi : AllInv inv g.chains) :
    AllInv inv g'.chains := by
  intro c i s' hs'
  obtain ⟨s, hs⟩ := sinkAt_shape h.1 hs'
  obtain ⟨_, _, hk⟩ := h
  obtain ⟨s2, h2, _, h3⟩ := hk c i s hs
  rw [hs'] at h2
  cases h2
  have : ∀ {a ts b}, Did ops a ts b → inv (c, i) a → inv (c, i) b := by
    intro a ts b hd
    induction hd with
    | start => exact id
    | write _ hw ih => exact fun h => (ha.write _ _ _ _ _ (ih h) hw).2
    | flush _ hf ih => exact fun h => ha.flush _ _ _ (ih h) hf
  exact this (h3 rfl) (hi c i s hs)

theorem routes_stay {g g' : DGraph S} (h : g'.shape = g.shape) {t c i rs} (hr : Routes g.chains t c i rs) : Routes g'.chains t c i rs :=
  routes_of_shape (by rw [h]; exact hr.shape)

theorem processRow_reaches {ops : SinkOps S} {inv : Place → S → Prop} {f} (ha : Acts ops inv f) (h1 : ∀ p row, (f p row).length ≤ 1) {t : Place} :
    ∀ (fuel c i : Nat) (row : Row) (g : DGraph S) (rs), AllInv inv g.chains → Routes g.chains t c i rs →
      Reaches ops t (rs.flatMap fun q => along f q row) g (processRow ops fuel c i row g) := by
  intro fuel
  induction fuel with
  | zero => intro c i row g rs _ _; exact Reaches.stop rfl
  | succ fuel ih =>
    intro c i row g rs hinv hr
    rw [processRow]
    cases hr with
    | done hc hi => simp only [hc, hi]; exact Reaches.ok_nil
    | @sink _ _ ch s rs' hc hi hr' =>
      simp only [hc, hi]
      rcases hw : ops.write s row with ⟨s', x⟩
      have hw1 : ops.1 s row = (s', x) := hw
      simp only [hw1]
      have e1 : (((if (c, i) = t then [[]] else []) ++ rs'.map ((c, i) :: ·)).flatMap fun q => along f q row) =
          (if (c, i) = t then [row] else []) ++ rs'.flatMap fun q => (f (c, i) row).flatMap (along f q) := by
        rw [List.flatMap_append, List.flatMap_map]
        congr 1
        by_cases ht : (c, i) = t
        · rw [if_pos ht, if_pos ht]; simp [along]
        · rw [if_neg ht, if_neg ht]; rfl
      rw [e1]
      have hwr : written t.1 t.2 [Event.write c i row] = (if (c, i) = t then [row] else []) := by
        rw [written_cons_write]; simp [written]
      have bad : ∀ r : Res Unit, isOk r = false → Reaches ops t ((if (c, i) = t then [row] else []) ++ rs'.flatMap fun q => (f (c, i) row).flatMap (along f q)) g
          (g.setSink c i s' (.write c i row), r) := by
        intro r hb
        refine ⟨[.write c i row], ?_, by rw [hwr]; exact List.prefix_append _ _, by simp [hb]⟩
        exact goes_write hc hi hw (by simp [hb])
      cases x with
      | err e => exact bad (.err e) rfl
      | panic => exact bad .panic rfl
      | diverge => exact bad .diverge rfl
      | ok rows =>
        simp only
        have hg : Goes ops true g (g.setSink c i s' (.write c i row)) [.write c i row] := goes_write hc hi hw (fun _ => ⟨rows, rfl⟩)
        have hfirst : Reaches ops t (if (c, i) = t then [row] else []) g (g.setSink c i s' (.write c i row), .ok ()) :=
          ⟨[.write c i row], hg, by rw [hwr]; exact List.prefix_refl _, fun _ => hwr⟩
        have hact := ha.write (c, i) s row s' rows (hinv c i s (sinkAt_of hc hi)) hw
        refine hfirst.andThen ?_
        have hlen := h1 (c, i) row
        rw [← hact.1] at hlen ⊢
        match rows, hlen with
        | [], _ =>
          simp only [List.flatMap_nil, runAll]
          rw [show (List.flatMap (fun _ => ([] : List Row)) rs') = [] by simp]
          exact Reaches.ok_nil
        | [x], _ =>
          simp only [List.flatMap_cons, List.flatMap_nil, List.append_nil, runAll]
          have := ih c (i + 1) x _ rs' (hg.allInv ha hinv) (routes_stay hg.1 hr')
          rcases hp : processRow ops fuel c (i + 1) x (g.setSink c i s' (.write c i row)) with ⟨g2, u | _ | _ | _⟩ <;> rw [hp] at this <;> exact this
        | _ :: _ :: _, hl => simp at hl
    | @merge _ _ ch d rs1 rs2 hc hi hr1 hr2 =>
      simp only [hc, hi]
      rw [List.flatMap_append]
      have h2 := ih d 0 row g rs1 hinv hr1
      rcases hp : processRow ops fuel d 0 row g with ⟨g1, u | _ | _ | _⟩ <;> rw [hp] at h2 <;> simp only
      · obtain ⟨ev, hg, hh⟩ := h2
        exact Reaches.andThen ⟨ev, hg, hh⟩ (ih c (i + 1) row g1 rs2 (Goes.allInv ha hg hinv) (routes_stay hg.1 hr2))
      all_goals exact h2.fails rfl
    | @split _ _ ch ds rss rs2 hc hi hl hr1 hr2 =>
      simp only [hc, hi]
      rw [List.flatMap_append]
      have hall : ∀ (ds : List Nat) (rss : List (List (List Place))) (g : DGraph S), rss.length = ds.length → AllInv inv g.chains →
          (∀ (j d : Nat) rs, ds[j]? = some d → rss[j]? = some rs → Routes g.chains t d 0 rs) →
          Reaches ops t (rss.flatten.flatMap fun q => along f q row) g (runAll (fun d g => processRow ops fuel d 0 row g) ds g) := by
        intro ds
        induction ds with
        | nil =>
          intro rss g hl _ _
          cases rss with
          | nil => exact Reaches.ok_nil
          | cons a b => simp at hl
        | cons d ds ihd =>
          intro rss g hl hinv hrr
          cases rss with
          | nil => simp at hl
          | cons rs rss =>
            rw [List.flatten_cons, List.flatMap_append, runAll]
            have h2 := ih d 0 row g rs hinv (hrr 0 d rs rfl rfl)
            rcases hp : processRow ops fuel d 0 row g with ⟨g1, u | _ | _ | _⟩ <;> rw [hp] at h2 <;> simp only
            · obtain ⟨ev, hg, hh⟩ := h2
              exact Reaches.andThen ⟨ev, hg, hh⟩ (ihd rss g1 (by simpa using hl) (Goes.allInv ha hg hinv)
                (fun j d rs a b => routes_stay hg.1 (hrr (j + 1) d rs a b)))
            all_goals exact h2.fails rfl
      have h2 := hall ds rss g hl hinv hr1
      rcases hp : runAll (fun d g => processRow ops fuel d 0 row g) ds g with ⟨g1, u | _ | _ | _⟩ <;> rw [hp] at h2 <;> simp only
      · obtain ⟨ev, hg, hh⟩ := h2
        exact Reaches.andThen ⟨ev, hg, hh⟩ (ih c (i + 1) row g1 rs2 (Goes.allInv ha hg hinv) (routes_stay hg.1 hr2))
      all_goals exact h2.fails rfl

theorem flushFrom_goes (ops : SinkOps S) : ∀ (fuel c i : Nat) (g : DGraph S),
    ∃ ev, Goes ops (isOk (flushFrom ops fuel c i g).2) g (flushFrom ops fuel c i g).1 ev := by
  intro fuel
  induction fuel with
  | zero => intro c i g; exact ⟨[], .refl _ _ _⟩
  | succ fuel ih =>
    intro c i g
    rw [flushFrom]
    cases hc : g.chains[c]? with
    | none => exact ⟨[], .refl _ _ _⟩
    | some ch =>
      simp only
      cases hi : ch[i]? with
      | none => exact ⟨[], .refl _ _ _⟩
      | some nd =>
        cases nd with
        | sink s =>
          simp only
          rcases hw : ops.flush s with ⟨s', u | _ | _ | _⟩ <;> (have hw1 : ops.2 s = _ := hw; simp only [hw1])
          · obtain ⟨ev, h⟩ := ih c (i + 1) (g.setSink c i s' (.flush c i))
            exact ⟨_, Goes.trans (goes_flush hc hi hw (fun _ => rfl)) h⟩
          all_goals exact ⟨_, goes_flush hc hi hw (by simp [isOk])⟩
        | merge d =>
          simp only
          obtain ⟨ev, h⟩ := ih d 0 g
          rcases hp : flushFrom ops fuel d 0 g with ⟨g1, u | _ | _ | _⟩ <;> rw [hp] at h <;> simp only
          · obtain ⟨ev2, h2⟩ := ih c (i + 1) g1
            exact ⟨_, Goes.trans h h2⟩
          all_goals exact ⟨_, h⟩
        | split ds =>
          simp only
          have hall : ∀ (ds : List Nat) (g : DGraph S), ∃ ev, Goes ops (isOk (runAll (fun d g => flushFrom ops fuel d 0 g) ds g).2) g
              (runAll (fun d g => flushFrom ops fuel d 0 g) ds g).1 ev := by
            intro ds
            induction ds with
            | nil => intro g; exact ⟨[], .refl _ _ _⟩
            | cons d ds ihd =>
              intro g
              rw [runAll]
              obtain ⟨ev, h⟩ := ih d 0 g
              rcases hp : flushFrom ops fuel d 0 g with ⟨g1, u | _ | _ | _⟩ <;> rw [hp] at h <;> simp only
              · obtain ⟨ev2, h2⟩ := ihd g1
                exact ⟨_, Goes.trans h h2⟩
              all_goals exact ⟨_, h⟩
          obtain ⟨ev, h⟩ := hall ds g
          rcases hp : runAll (fun d g => flushFrom ops fuel d 0 g) ds g with ⟨g1, u | _ | _ | _⟩ <;> rw [hp] at h <;> simp only
          · obtain ⟨ev2, h2⟩ := ih c (i + 1) g1
            exact ⟨_, Goes.trans h h2⟩
          all_goals exact ⟨_, h⟩

theorem flushFrom_reaches (ops : SinkOps S) (fuel c i : Nat) (g : DGraph S) (t : Place) : Reaches ops t [] g (flushFrom ops fuel c i g) := by
  obtain ⟨ev, h⟩ := flushFrom_goes ops fuel c i g
  have hw := flushFrom_written ops fuel c i g t
  rw [h.2.1, written_append] at hw
  have : written t.1 t.2 ev = [] := by simpa using hw
  exact ⟨ev, h, by rw [this]; exact List.prefix_refl _, fun _ => this⟩

/-- Any part of a run. -/
theorem perform_reaches {ops : SinkOps S} {inv : Place → S → Prop} {f} (ha : Acts ops inv f) (h1 : ∀ p row, (f p row).length ≤ 1) {t : Place} {gfuel : Nat}
    (R : Nat → List (List Place)) : ∀ (cs : List Call) (out : Res Unit) (g : DGraph S), AllInv inv g.chains → (∀ p ∈ fed cs, Routes g.chains t p.1 0 (R p.1)) →
    Reaches ops t ((fed cs).flatMap fun p => (R p.1).flatMap fun q => along f q p.2) g
      (perform (fun c r g => processRow ops gfuel c 0 r g) (fun c g => flushFrom ops gfuel c 0 g) cs out g)
  | [], out, g, _, _ => ⟨[], .refl _ _ _, by simp [written, fed], fun _ => by simp [written, fed]⟩
  | .feed c r :: cs, out, g, hinv, hr => by
    rw [perform, fed_feed, List.flatMap_cons]
    have h2 := processRow_reaches ha h1 gfuel c 0 r g (R c) hinv (hr (c, r) (by rw [fed_feed]; simp))
    rcases hp : processRow ops gfuel c 0 r g with ⟨g1, u | _ | _ | _⟩ <;> rw [hp] at h2 <;> simp only
    · obtain ⟨ev, hg, hh⟩ := h2
      exact Reaches.andThen ⟨ev, hg, hh⟩ (perform_reaches ha h1 R cs out g1 (Goes.allInv ha hg hinv) (fun p hp => routes_stay hg.1 (hr p (by rw [fed_feed]; simp [hp]))))
    all_goals exact h2.fails rfl
  | .flush c :: cs, out, g, hinv, hr => by
    rw [perform, fed_flush]
    have h2 := flushFrom_reaches ops gfuel c 0 g t
    rcases hp : flushFrom ops gfuel c 0 g with ⟨g1, u | _ | _ | _⟩ <;> rw [hp] at h2 <;> simp only
    · obtain ⟨ev, hg, hh⟩ := h2
      have := Reaches.andThen ⟨ev, hg, hh⟩ (perform_reaches (gfuel := gfuel) ha h1 R cs out g1 (Goes.allInv ha hg hinv) (fun p hp => routes_stay hg.1 (hr p (by rw [fed_flush]; exact hp))))
      simpa using this
    all_goals exact h2.fails rfl

end Chopper
