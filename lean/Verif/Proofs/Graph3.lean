import Verif.Proofs.Graph2

namespace Chopper
open Spec
variable {S : Type}

/-! ## Frame: a row only touches, and only depends on, the sinks on its paths -/

theorem sinkAt_setSink_ne {g : DGraph S} {c i c' i' : Nat} {s : S} {e : Event} (h : ¬ (c' = c ∧ i' = i)) :
    sinkAt (g.setSink c i s e).chains c' i' = sinkAt g.chains c' i' := by
  unfold sinkAt DGraph.setSink
  simp only [List.getElem?_modify]
  by_cases hc : c = c'
  · subst hc
    have hi : i ≠ i' := fun hh => h ⟨rfl, hh.symm⟩
    cases g.chains[c]? with
    | none => simp
    | some ch => simp [List.getElem?_set, hi]
  · cases g.chains[c']? <;> simp [hc]

theorem sinkAt_setSink_eq {g : DGraph S} {c i : Nat} {s s' : S} {e : Event} (h : sinkAt g.chains c i = some s) :
    sinkAt (g.setSink c i s' e).chains c i = some s' := by
  unfold sinkAt at h ⊢
  simp only [DGraph.setSink, List.getElem?_modify]
  cases hc : g.chains[c]? with
  | none => simp [hc] at h
  | some ch =>
    simp only [hc] at h
    cases hi : ch[i]? with
    | none => simp [hi] at h
    | some n =>
      have : i < ch.length := by rcases List.getElem?_eq_some_iff.1 hi with ⟨h, _⟩; exact h
      simp [this]

theorem sinkAt_of {g : DGraph S} {c i : Nat} {ch : DChain S} {s : S} (hc : g.chains[c]? = some ch) (hi : ch[i]? = some (.sink s)) :
    sinkAt g.chains c i = some s := by simp [sinkAt, hc, hi]

/-- The two graphs have the same nodes and the same states on the sinks in `P`. -/
def Agree (P : Nat → Nat → Prop) (g1 g2 : DGraph S) : Prop :=
  g1.shape = g2.shape ∧ ∀ c i, P c i → sinkAt g1.chains c i = sinkAt g2.chains c i

/-- Same outcome, same sink calls, and still agreeing. -/
def Same (P : Nat → Nat → Prop) (g1 g2 : DGraph S) (r1 r2 : DGraph S × Res Unit) : Prop :=
  r1.2 = r2.2 ∧ Agree P r1.1 r2.1 ∧ ∃ ev, r1.1.log = g1.log ++ ev ∧ r2.1.log = g2.log ++ ev

theorem Same.trans' {P} {g1 g2 : DGraph S} {r1 r2 : DGraph S × Res Unit} {f : DGraph S → DGraph S × Res Unit}
    (h : Same P g1 g2 r1 r2) (h' : Same P r1.1 r2.1 (f r1.1) (f r2.1)) : Same P g1 g2 (f r1.1) (f r2.1) := by
  obtain ⟨_, _, ev1, a1, a2⟩ := h
  obtain ⟨h1, h2, ev2, b1, b2⟩ := h'
  exact ⟨h1, h2, ev1 ++ ev2, by rw [b1, a1]; simp, by rw [b2, a2]; simp⟩

theorem runAll_same {α : Type} {f : α → DGraph S → DGraph S × Res Unit} {P : Nat → Nat → Prop} {sh} (l : List α)
    (hsh : ∀ a ∈ l, ∀ g : DGraph S, g.shape = sh → (f a g).1.shape = sh)
    (hf : ∀ a ∈ l, ∀ g1 g2 : DGraph S, g1.shape = sh → Agree P g1 g2 → Same P g1 g2 (f a g1) (f a g2)) :
    ∀ g1 g2 : DGraph S, g1.shape = sh → Agree P g1 g2 → Same P g1 g2 (runAll f l g1) (runAll f l g2) := by
  induction l with
  | nil => intro g1 g2 _ h; exact ⟨rfl, h, [], by simp [runAll], by simp [runAll]⟩
  | cons a l ih =>
    intro g1 g2 hs h
    have h1 := hf a (by simp) g1 g2 hs h
    have hs1 := hsh a (by simp) g1 hs
    simp only [runAll]
    rcases e1 : f a g1 with ⟨g1', r1⟩
    rcases e2 : f a g2 with ⟨g2', r2⟩
    rw [e1, e2] at h1; rw [e1] at hs1
    have : r1 = r2 := h1.1
    subst this
    cases r1
    · exact h1.trans' (f := fun g => runAll f l g) (ih (fun a h => hsh a (by simp [h])) (fun a h => hf a (by simp [h])) g1' g2' hs1 h1.2.1)
    all_goals exact h1

theorem same_shape_node {g1 g2 : DGraph S} (h : g1.shape = g2.shape) {c i : Nat} {ch : DChain S} {n : DNode S}
    (hc : g1.chains[c]? = some ch) (hi : ch[i]? = some n) :
    ∃ ch2 n2, g2.chains[c]? = some ch2 ∧ ch2[i]? = some n2 ∧ n2.kind = n.kind := by
  have h1 : g1.shape[c]? = some (ch.map DNode.kind) := by rw [shape_get, hc]; rfl
  rw [h, shape_get] at h1
  cases h2 : g2.chains[c]? with
  | none => simp [h2] at h1
  | some ch2 =>
    simp only [h2, Option.map_some, Option.some.injEq] at h1
    have h3 : (ch.map DNode.kind)[i]? = some n.kind := by simp [hi]
    rw [← h1, List.getElem?_map] at h3
    cases h4 : ch2[i]? with
    | none => simp [h4] at h3
    | some n2 => simp only [h4, Option.map_some, Option.some.injEq] at h3; exact ⟨ch2, n2, rfl, h4, h3⟩

theorem processRow_same (ops : SinkOps S) {sh : List (List (DNode Unit))} {P : Nat → Nat → Prop} :
    ∀ (fuel c i : Nat) (row : Row) (g1 g2 : DGraph S), g1.shape = sh → (∀ c' i', Reach sh c i c' i' → P c' i') →
    Agree P g1 g2 → Same P g1 g2 (processRow ops fuel c i row g1) (processRow ops fuel c i row g2) := by
  intro fuel
  induction fuel with
  | zero => intro c i row g1 g2 _ _ h; exact ⟨rfl, h, [], by simp [processRow], by simp [processRow]⟩
  | succ fuel ih =>
    intro c i row g1 g2 hs hP h
    have triv : Same P g1 g2 (g1, .ok ()) (g2, .ok ()) := ⟨rfl, h, [], by simp, by simp⟩
    have trivp : Same P g1 g2 (g1, .panic) (g2, .panic) := ⟨rfl, h, [], by simp, by simp⟩
    have hpres : ∀ c i row (g : DGraph S), g.shape = sh → (processRow ops fuel c i row g).1.shape = sh :=
      fun c i row g hg => (processRow_ext ops sh fuel c i row g hg).1.trans hg
    simp only [processRow]
    cases hc : g1.chains[c]? with
    | none =>
      have : g2.chains[c]? = none := by
        have h1 : g1.shape[c]? = none := by rw [shape_get, hc]; rfl
        rw [h.1, shape_get] at h1; simpa using h1
      simp only [this]; exact trivp
    | some ch =>
      have hsc : sh[c]? = some (ch.map DNode.kind) := by rw [← hs, shape_get, hc]; rfl
      cases hi : ch[i]? with
      | none =>
        have : ∃ ch2 : DChain S, g2.chains[c]? = some ch2 ∧ ch2[i]? = none := by
          have h1 : g1.shape[c]? = some (ch.map DNode.kind) := by rw [shape_get, hc]; rfl
          rw [h.1, shape_get] at h1
          cases h2 : g2.chains[c]? with
          | none => simp [h2] at h1
          | some ch2 =>
            simp only [h2, Option.map_some, Option.some.injEq] at h1
            refine ⟨ch2, rfl, ?_⟩
            have h3 : (ch.map DNode.kind)[i]? = none := by simpa using hi
            rw [← h1] at h3; simpa using h3
        obtain ⟨ch2, e1, e2⟩ := this
        simp only [e1, e2, hi]; exact triv
      | some n =>
        have hsi : (ch.map DNode.kind)[i]? = some n.kind := by simp [hi]
        obtain ⟨ch2, n2, hc2, hi2, hk⟩ := same_shape_node h.1 hc hi
        have hnext : ∀ c' i', Reach sh c (i + 1) c' i' → P c' i' := fun c' i' hr => hP c' i' (.next hsc hsi hr)
        cases n with
        | sink s =>
          cases n2 with
          | merge d => simp [DNode.kind] at hk
          | split d => simp [DNode.kind] at hk
          | sink s2 =>
            have hPi : P c i := hP c i (.here hsc hsi)
            have : s2 = s := by
              have := h.2 c i hPi
              rw [sinkAt_of hc hi, sinkAt_of hc2 hi2] at this
              simpa using this.symm
            subst this
            simp only [hc2, hi, hi2]
            have hag : ∀ s', Agree P (g1.setSink c i s' (.write c i row)) (g2.setSink c i s' (.write c i row)) := by
              intro s'
              refine ⟨by rw [setSink_shape hc hi, setSink_shape hc2 hi2]; exact h.1, ?_⟩
              intro c' i' hp
              by_cases he : c' = c ∧ i' = i
              · obtain ⟨rfl, rfl⟩ := he
                rw [sinkAt_setSink_eq (sinkAt_of hc hi), sinkAt_setSink_eq (sinkAt_of hc2 hi2)]
              · rw [sinkAt_setSink_ne he, sinkAt_setSink_ne he]; exact h.2 c' i' hp
            have hsame : ∀ s' (r : Res Unit), Same P g1 g2 (g1.setSink c i s' (.write c i row), r) (g2.setSink c i s' (.write c i row), r) :=
              fun s' r => ⟨rfl, hag s', [.write c i row], rfl, rfl⟩
            rcases hw : ops.write s2 row with ⟨s', rows | e | _ | _⟩ <;> simp only [hw]
            · refine (hsame s' (.ok ())).trans' (f := fun g => runAll (fun r g => processRow ops fuel c (i + 1) r g) rows g) ?_
              exact runAll_same (sh := sh) rows (fun r _ g hg => hpres c (i + 1) r g hg)
                (fun r _ g1 g2 hg hA => ih c (i + 1) r g1 g2 hg hnext hA) _ _ ((setSink_shape hc hi).trans hs) (hag s')
            · exact hsame s' _
            · exact hsame s' _
            · exact hsame s' _
        | merge d =>
          cases n2 with
          | sink d => simp [DNode.kind] at hk
          | split d => simp [DNode.kind] at hk
          | merge d2 =>
            simp only [DNode.kind, DNode.merge.injEq] at hk; subst hk
            simp only [hc2, hi, hi2]
            have h1 := ih d2 0 row g1 g2 hs (fun c' i' hr => hP c' i' (.merge hsc hsi hr)) h
            have hs1 := hpres d2 0 row g1 hs
            rcases e1 : processRow ops fuel d2 0 row g1 with ⟨g1', r1⟩
            rcases e2 : processRow ops fuel d2 0 row g2 with ⟨g2', r2⟩
            rw [e1, e2] at h1; rw [e1] at hs1
            have : r1 = r2 := h1.1
            subst this
            cases r1
            · exact h1.trans' (f := fun g => processRow ops fuel c (i + 1) row g) (ih c (i + 1) row g1' g2' hs1 hnext h1.2.1)
            all_goals exact h1
        | split ds =>
          cases n2 with
          | sink d => simp [DNode.kind] at hk
          | merge d => simp [DNode.kind] at hk
          | split ds2 =>
            simp only [DNode.kind, DNode.split.injEq] at hk; subst hk
            simp only [hc2, hi, hi2]
            have h1 := runAll_same (f := fun d g => processRow ops fuel d 0 row g) (sh := sh) (P := P) ds2
              (fun d _ g hg => hpres d 0 row g hg)
              (fun d hd g1 g2 hg hA => ih d 0 row g1 g2 hg (fun c' i' hr => hP c' i' (.split hsc hsi hd hr)) hA) g1 g2 hs h
            have hs1 : (runAll (fun d g => processRow ops fuel d 0 row g) ds2 g1).1.shape = sh :=
              (runAll_ext (ok := fun _ => True) (sh := sh) ds2
                (fun d _ g hg => (processRow_ext ops sh fuel d 0 row g hg).mono (fun _ _ => trivial)) g1 hs).1.trans hs
            rcases e1 : runAll (fun d g => processRow ops fuel d 0 row g) ds2 g1 with ⟨g1', r1⟩
            rcases e2 : runAll (fun d g => processRow ops fuel d 0 row g) ds2 g2 with ⟨g2', r2⟩
            rw [e1, e2] at h1; rw [e1] at hs1
            have : r1 = r2 := h1.1
            subst this
            cases r1
            · exact h1.trans' (f := fun g => processRow ops fuel c (i + 1) row g) (ih c (i + 1) row g1' g2' hs1 hnext h1.2.1)
            all_goals exact h1

/-- Sinks not written to keep their state. -/
def Untouched (g g' : DGraph S) : Prop :=
  g'.shape = g.shape ∧ ∃ ev, g'.log = g.log ++ ev ∧
    ∀ c i, (∀ r, Event.write c i r ∉ ev) → sinkAt g'.chains c i = sinkAt g.chains c i

theorem Untouched.refl (g : DGraph S) : Untouched g g := ⟨rfl, [], by simp, fun _ _ _ => rfl⟩
theorem Untouched.trans {a b c : DGraph S} (h : Untouched a b) (h' : Untouched b c) : Untouched a c := by
  obtain ⟨s1, e1, l1, u1⟩ := h
  obtain ⟨s2, e2, l2, u2⟩ := h'
  refine ⟨s2.trans s1, e1 ++ e2, by rw [l2, l1]; simp, ?_⟩
  intro c i hn
  rw [u2 c i (fun r hr => hn r (by simp [hr])), u1 c i (fun r hr => hn r (by simp [hr]))]

theorem processRow_untouched (ops : SinkOps S) : ∀ (fuel c i : Nat) (row : Row) (g : DGraph S),
    Untouched g (processRow ops fuel c i row g).1 := by
  intro fuel
  induction fuel with
  | zero => intro c i row g; exact Untouched.refl g
  | succ fuel ih =>
    intro c i row g
    simp only [processRow]
    cases hc : g.chains[c]? with
    | none => exact Untouched.refl g
    | some ch =>
      simp only []
      cases hi : ch[i]? with
      | none => exact Untouched.refl g
      | some n =>
        cases n with
        | sink s =>
          simp only []
          have h0 : ∀ s', Untouched g (g.setSink c i s' (.write c i row)) := by
            intro s'
            refine ⟨setSink_shape hc hi, [.write c i row], rfl, ?_⟩
            intro c' i' hn
            apply sinkAt_setSink_ne
            rintro ⟨rfl, rfl⟩; exact hn row (by simp)
          rcases hw : ops.write s row with ⟨s', rows | e | _ | _⟩ <;> simp only [hw]
          · exact (h0 s').trans (runAll_inv Untouched Untouched.refl (fun _ _ _ => Untouched.trans) rows (fun r _ g => ih c (i + 1) r g) _)
          all_goals exact h0 s'
        | merge d =>
          simp only []
          have h1 := ih d 0 row g
          rcases h : processRow ops fuel d 0 row g with ⟨g', _ | _ | _ | _⟩ <;> rw [h] at h1
          · exact h1.trans (ih c (i + 1) row g')
          all_goals exact h1
        | split ds =>
          simp only []
          have h1 := runAll_inv (f := fun d g => processRow ops fuel d 0 row g) Untouched Untouched.refl (fun _ _ _ => Untouched.trans) ds (fun d _ g => ih d 0 row g) g
          rcases h : runAll (fun d g => processRow ops fuel d 0 row g) ds g with ⟨g', _ | _ | _ | _⟩ <;> rw [h] at h1
          · exact h1.trans (ih c (i + 1) row g')
          all_goals exact h1

/-! ## `OnPath` = `Reach` on the shape -/

theorem onPath_reach {g : DGraph S} {c i c' i'} (h : OnPath g.chains c i c' i') : Reach g.shape c i c' i' := by
  have conv : ∀ {c : Nat} {ch : DChain S}, g.chains[c]? = some ch → g.shape[c]? = some (ch.map DNode.kind) := by
    intro c ch h; rw [shape_get, h]; rfl
  induction h with
  | here hc hi => exact .here (conv hc) (by simp [hi, DNode.kind])
  | next hc hi _ ih => exact .next (conv hc) (by simp [hi]; rfl) ih
  | merge hc hi _ ih => exact .merge (conv hc) (by simp [hi, DNode.kind]) ih
  | split hc hi hd _ ih => exact .split (conv hc) (by simp [hi, DNode.kind]) hd ih

theorem reach_onPath {g : DGraph S} {sh} (hg : g.shape = sh) {c i c' i'} (h : Reach sh c i c' i') : OnPath g.chains c i c' i' := by
  have conv : ∀ {c i : Nat} {ch : List (DNode Unit)} {n : DNode Unit}, sh[c]? = some ch → ch[i]? = some n →
      ∃ (dch : DChain S) (dn : DNode S), g.chains[c]? = some dch ∧ dch[i]? = some dn ∧ dn.kind = n := by
    intro c i ch n h1 h2
    rw [← hg, shape_get] at h1
    cases hc : g.chains[c]? with
    | none => simp [hc] at h1
    | some dch =>
      simp only [hc, Option.map_some, Option.some.injEq] at h1
      rw [← h1, List.getElem?_map] at h2
      cases hi : dch[i]? with
      | none => simp [hi] at h2
      | some dn => simp only [hi, Option.map_some, Option.some.injEq] at h2; exact ⟨dch, dn, rfl, hi, h2⟩
  induction h with
  | here hc hi =>
    obtain ⟨dch, dn, a, b, k⟩ := conv hc hi
    cases dn <;> simp [DNode.kind] at k
    exact .here a b
  | next hc hi _ ih => obtain ⟨dch, dn, a, b, k⟩ := conv hc hi; exact .next a b ih
  | merge hc hi _ ih =>
    obtain ⟨dch, dn, a, b, k⟩ := conv hc hi
    cases dn <;> simp [DNode.kind] at k
    subst k; exact .merge a b ih
  | split hc hi hd _ ih =>
    obtain ⟨dch, dn, a, b, k⟩ := conv hc hi
    cases dn <;> simp [DNode.kind] at k
    subst k; exact .split a b hd ih

end Chopper
