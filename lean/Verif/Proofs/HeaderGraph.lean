import Verif.Spec.HeaderGraph

namespace Chopper
open Spec

variable {D : Type}

/-! ## Basics -/

theorem hSwapRemove_lt {chains : List (HChain D)} {c : Nat} {ch : HChain D} (h : chains[c]? = some ch) :
    hSwapRemove chains c = some (ch, chains.set c []) := by
  have hc := (List.getElem?_eq_some_iff.1 h).1
  unfold hSwapRemove
  have h1 : (chains ++ [[]])[c]? = some ch := by rw [List.getElem?_append_left hc]; exact h
  have h2 : (chains ++ [[]]).getLast? = some [] := by simp
  simp only [h1, h2]
  have h3 : (chains ++ [([] : HChain D)]).set c [] = chains.set c [] ++ [[]] := by
    rw [List.set_append_left c _ hc]
  rw [h3, List.dropLast_concat]

theorem hSwapRemove_eq {chains : List (HChain D)} {c : Nat} (h : c = chains.length) :
    hSwapRemove chains c = some ([], chains) := by
  unfold hSwapRemove
  have h1 : (chains ++ [[]])[c]? = some [] := by simp [h]
  have h2 : (chains ++ [([] : HChain D)]).getLast? = some [] := by simp
  simp only [h1, h2]
  have h3 : (chains ++ [([] : HChain D)]).set c [] = chains ++ [[]] := by simp [h]
  rw [h3, List.dropLast_concat]

theorem hSwapRemove_gt {chains : List (HChain D)} {c : Nat} (h : chains.length < c) :
    hSwapRemove chains c = none := by
  unfold hSwapRemove
  have h1 : (chains ++ [([] : HChain D)])[c]? = none := by simp; omega
  simp [h1]

/-! ## Ghost trace of a setup -/

inductive HCause where
  | split (src : Nat)
  | merge
deriving DecidableEq

inductive HEv where
  | enter (c : Nat) (k : HCause) (h : Header)
  | arrive (src : Nat) (m : Nat) (h : Header)
deriving DecidableEq

def ents (x : Nat) (tr : List HEv) : List (HCause × Header) :=
  tr.filterMap (fun e => match e with
    | .enter c k h => if c = x then some (k, h) else none
    | _ => none)

def arrs (x : Nat) (tr : List HEv) : List Header :=
  tr.filterMap (fun e => match e with
    | .arrive _ m h => if m = x then some h else none
    | _ => none)

def arrFrom (s : Nat) (x : Nat) (tr : List HEv) : Nat :=
  tr.countP (fun e => match e with
    | .arrive s' m _ => s' == s && m == x
    | _ => false)

@[simp] theorem ents_nil (x) : ents x [] = [] := rfl
@[simp] theorem arrs_nil (x) : arrs x [] = [] := rfl
@[simp] theorem arrFrom_nil (s x) : arrFrom s x [] = 0 := rfl
theorem ents_append (x a b) : ents x (a ++ b) = ents x a ++ ents x b := by simp [ents]
theorem arrs_append (x a b) : arrs x (a ++ b) = arrs x a ++ arrs x b := by simp [arrs]
theorem arrFrom_append (s x a b) : arrFrom s x (a ++ b) = arrFrom s x a + arrFrom s x b := by simp [arrFrom]
theorem ents_enter (x c k h t) : ents x (.enter c k h :: t) = if c = x then (k, h) :: ents x t else ents x t := by
  simp only [ents, List.filterMap_cons]; split <;> simp_all
theorem ents_arrive (x s m h t) : ents x (.arrive s m h :: t) = ents x t := rfl
theorem arrs_enter (x c k h t) : arrs x (.enter c k h :: t) = arrs x t := rfl
theorem arrs_arrive (x s m h t) : arrs x (.arrive s m h :: t) = if m = x then h :: arrs x t else arrs x t := by
  simp only [arrs, List.filterMap_cons]; split <;> simp_all
theorem arrFrom_enter (s x c k h t) : arrFrom s x (.enter c k h :: t) = arrFrom s x t := by simp [arrFrom]
theorem arrFrom_arrive (s x s' m h t) :
    arrFrom s x (.arrive s' m h :: t) = arrFrom s x t + if s' = s ∧ m = x then 1 else 0 := by
  simp only [arrFrom, List.countP_cons]; simp

theorem mem_ents {x k h} {tr : List HEv} : (k, h) ∈ ents x tr ↔ HEv.enter x k h ∈ tr := by
  simp only [ents, List.mem_filterMap]
  constructor
  · rintro ⟨e, he, h2⟩
    cases e <;> simp at h2
    obtain ⟨rfl, rfl, rfl⟩ := h2; exact he
  · intro hh; exact ⟨_, hh, by simp⟩

theorem mem_arrs {x h} {tr : List HEv} : h ∈ arrs x tr ↔ ∃ s, HEv.arrive s x h ∈ tr := by
  simp only [arrs, List.mem_filterMap]
  constructor
  · rintro ⟨e, he, h2⟩
    cases e <;> simp at h2
    obtain ⟨rfl, rfl⟩ := h2; exact ⟨_, he⟩
  · rintro ⟨s, hh⟩; exact ⟨_, hh, by simp⟩

/-! ## Merge slots -/

/-- Headers `a` arrived at the chain without completing it. -/
def MStep (ch : HChain D) (a : List Header) (ch' : HChain D) : Prop :=
  (a = [] ∧ ch' = ch) ∨
  ∃ s k ns h0, ch = .mergeSink s k :: ns ∧ ch' = .mergeSink (some h0) (k - a.length) :: ns ∧ a ≠ [] ∧ a.length < k ∧
    (∀ h ∈ a, h = h0) ∧ (s = none ∨ s = some h0)

/-- The chain is entered with header `h` after headers `a` arrived. -/
def MEnter (ch : HChain D) (a : List Header) (h : Header) : Prop :=
  (a = [] ∧ ∀ s k ns, ch = .mergeSink s k :: ns → s = none) ∨
  ∃ s k ns, ch = .mergeSink s k :: ns ∧ a.length = k ∧ a ≠ [] ∧ (∀ x ∈ a, x = h) ∧ (s = none ∨ s = some h)

theorem MStep.trans {a b : List Header} {c1 c2 c3 : HChain D} (h1 : MStep c1 a c2) (h2 : MStep c2 b c3) :
    MStep c1 (a ++ b) c3 := by
  rcases h1 with ⟨rfl, rfl⟩ | ⟨s, k, ns, h0, rfl, rfl, ha, hk, hall, hs⟩
  · simpa using h2
  · rcases h2 with ⟨rfl, rfl⟩ | ⟨s', k', ns', h0', he, rfl, hb, hk', hall', hs'⟩
    · exact .inr ⟨s, k, ns, h0, rfl, by simp, by simpa using ha, by simpa using hk, by simpa using hall, hs⟩
    · simp only [List.cons.injEq, HNode.mergeSink.injEq] at he
      obtain ⟨⟨rfl, rfl⟩, rfl⟩ := he
      have : h0 = h0' := by simpa using hs'
      subst this
      refine .inr ⟨s, k, ns, h0, rfl, ?_, by simp [ha], by simp; omega, ?_, hs⟩
      · simp only [List.length_append]; rw [Nat.sub_sub]
      · intro h hh; rcases List.mem_append.1 hh with hh | hh
        · exact hall h hh
        · exact hall' h hh

theorem MStep.enter {a b : List Header} {h : Header} {c1 c2 : HChain D} (h1 : MStep c1 a c2) (h2 : MEnter c2 b h) :
    MEnter c1 (a ++ b) h := by
  rcases h1 with ⟨rfl, rfl⟩ | ⟨s, k, ns, h0, rfl, rfl, ha, hk, hall, hs⟩
  · simpa using h2
  · rcases h2 with ⟨rfl, hb⟩ | ⟨s', k', ns', he, hl, hb, hall', hs'⟩
    · have := hb _ _ _ rfl; simp at this
    · simp only [List.cons.injEq, HNode.mergeSink.injEq] at he
      obtain ⟨⟨rfl, rfl⟩, rfl⟩ := he
      have : h0 = h := by simpa using hs'
      subst this
      refine .inr ⟨s, k, ns, rfl, by simp; omega, by simp [ha], ?_, hs⟩
      intro x hh; rcases List.mem_append.1 hh with hh | hh
      · exact hall x hh
      · exact hall' x hh

theorem MStep.nonempty {a : List Header} {n : HNode D} {ns : HChain D} {c2 : HChain D} (h : MStep (n :: ns) a c2) :
    ∃ n', c2 = n' :: ns := by
  rcases h with ⟨_, rfl⟩ | ⟨s, k, ns', h0, he, rfl, _⟩
  · exact ⟨n, rfl⟩
  · cases he; exact ⟨_, rfl⟩

theorem MStep.mergeStart {a : List Header} {n : HNode D} {ns : HChain D} {s k rest} (h : MStep (n :: ns) a (.mergeSink s k :: rest)) :
    ∃ s' k', n = .mergeSink s' k' := by
  rcases h with ⟨_, he⟩ | ⟨s, k, ns', h0, he, _, _⟩
  · cases he; exact ⟨_, _, rfl⟩
  · cases he; exact ⟨_, _, rfl⟩

theorem Spec.ChainBuilt.mono {mj : D} {A A' C C' : Nat → Header → Prop} (hA : ∀ m h, A m h → A' m h) (hC : ∀ d h, C d h → C' d h)
    {h ch ds} (hb : ChainBuilt mj A C h ch ds) : ChainBuilt mj A' C' h ch ds := by
  induction hb with
  | nil => exact .nil
  | sink hf _ ih => exact .sink hf ih
  | mergeSink _ ih => exact .mergeSink ih
  | split hc _ ih => exact .split (fun d hd => hC d _ (hc d hd)) ih
  | merge ha _ ih => exact .merge (hA _ _ ha) ih

theorem Spec.ChainBuilt.mstep {mj : D} {A C : Nat → Header → Prop} {a ch ch' h ds} (hm : MStep ch a ch')
    (hb : ChainBuilt mj A C h ch' ds) : ChainBuilt mj A C h ch ds := by
  rcases hm with ⟨_, rfl⟩ | ⟨s, k, ns', h0, rfl, rfl, _⟩
  · exact hb
  · cases hb with | mergeSink hb => exact .mergeSink hb

theorem Spec.ChainBuilt.append {mj : D} {A C : Nat → Header → Prop} {h n h' ns d ds}
    (h1 : ∀ ns ds, ChainBuilt mj A C h' ns ds → ChainBuilt mj A C h (n :: ns) (d :: ds)) (hb : ChainBuilt mj A C h' ns ds) :
    ChainBuilt mj A C h (n :: ns) (d :: ds) := h1 _ _ hb

/-! ## Effect of a part of the setup -/

def Arr (tr : List HEv) (c : Nat) (m : Nat) (h : Header) : Prop := .arrive c m h ∈ tr

def Called (σ : HState D) (tr : List HEv) (c : Nat) (d : Nat) (h : Header) : Prop :=
  .enter d (.split c) h ∈ tr ∨ σ.chains[d]? = some [] ∨ d = σ.chains.length ∨ ents d tr ≠ []

structure Eff (mj : D) (actO actD : Nat → Prop) (tr : List HEv) (σ σ' : HState D) : Prop where
  lenC : σ'.chains.length = σ.chains.length
  lenD : σ'.data.length = σ.data.length
  dead : ∀ x, σ.chains[x]? = some [] → σ'.chains[x]? = some [] ∧ ents x tr = [] ∧ arrs x tr = [] ∧
    (¬ actD x → σ'.data[x]? = σ.data[x]?)
  live : ∀ x n ns, σ.chains[x]? = some (n :: ns) →
    (ents x tr = [] ∧ σ'.data[x]? = σ.data[x]? ∧ ∃ ch', σ'.chains[x]? = some ch' ∧ MStep (n :: ns) (arrs x tr) ch') ∨
    (∃ k h ds old, ents x tr = [(k, h)] ∧ σ'.chains[x]? = some [] ∧ σ.data[x]? = some old ∧ σ'.data[x]? = some (old ++ ds) ∧
      ChainBuilt mj (Arr tr x) (Called σ tr x) h (n :: ns) ds ∧ MEnter (n :: ns) (arrs x tr) h)
  oob : ∀ x, σ.chains[x]? = none → ents x tr = [] ∧ arrs x tr = [] ∧ σ'.data[x]? = σ.data[x]?
  ord : ∀ p q c m h, tr = p ++ .arrive c m h :: q → actO c ∨ ents c p ≠ []
  ordS : ∀ p q c d h, tr = p ++ .enter d (.split c) h :: q → actO c ∨ ents c p ≠ []
  ordM : ∀ p q s m h, tr = p ++ .arrive s m h :: q → ents m p = []
  cm : ∀ c h, .enter c .merge h ∈ tr → ∃ s n rest, σ.chains[c]? = some (.mergeSink s n :: rest)

theorem Eff.refl (mj : D) (aO aD : Nat → Prop) (σ : HState D) : Eff mj aO aD [] σ σ where
  lenC := rfl
  lenD := rfl
  dead := fun x h => ⟨h, rfl, rfl, fun _ => rfl⟩
  live := fun x n ns h => .inl ⟨rfl, rfl, _, h, .inl ⟨rfl, rfl⟩⟩
  oob := fun x _ => ⟨rfl, rfl, rfl⟩
  ord := by intro p q c m h hh; simp at hh
  ordS := by intro p q c m h hh; simp at hh
  ordM := by intro p q c m h hh; simp at hh
  cm := by intro c h hh; simp at hh

theorem Eff.mono {mj : D} {aO aO' aD aD' : Nat → Prop} {tr} {σ σ' : HState D} (h : Eff mj aO aD tr σ σ')
    (hO : ∀ x, aO x → aO' x) (hD : ∀ x, aD x → aD' x) : Eff mj aO' aD' tr σ σ' where
  lenC := h.lenC
  lenD := h.lenD
  dead := fun x hx => let ⟨a, b, c, d⟩ := h.dead x hx; ⟨a, b, c, fun hn => d (fun hh => hn (hD x hh))⟩
  live := h.live
  oob := h.oob
  ord := fun p q c m hh e => (h.ord p q c m hh e).imp (hO c) id
  ordS := fun p q c m hh e => (h.ordS p q c m hh e).imp (hO c) id
  ordM := h.ordM
  cm := h.cm

/-- Splitting a position in a concatenation. -/
theorem append_eq_mid {α : Type} {a b p q : List α} {e : α} (h : a ++ b = p ++ e :: q) :
    (∃ q', a = p ++ e :: q' ∧ q = q' ++ b) ∨ (∃ p', p = a ++ p' ∧ b = p' ++ e :: q) := by
  rcases List.append_eq_append_iff.1 h with ⟨as, h1, h2⟩ | ⟨as, h1, h2⟩
  · exact .inr ⟨as, h1, h2⟩
  · cases as with
    | nil => simp at h1 h2; exact .inr ⟨[], by simp [h1], by simp [h2]⟩
    | cons x as =>
      simp only [List.cons_append, List.cons.injEq] at h2
      obtain ⟨rfl, rfl⟩ := h2
      exact .inl ⟨as, h1, rfl⟩

theorem Eff.slot {mj : D} {aO aD : Nat → Prop} {tr} {σ σ' : HState D} (h : Eff mj aO aD tr σ σ') {x : Nat}
    (hx : σ'.chains[x]? = some []) : σ.chains[x]? = some [] ∨ ents x tr ≠ [] := by
  cases hs : σ.chains[x]? with
  | none =>
    have h1 := (List.getElem?_eq_some_iff.1 hx).1
    have h2 := List.getElem?_eq_none_iff.1 hs
    have := h.lenC; omega
  | some ch =>
    cases ch with
    | nil => exact .inl rfl
    | cons n ns =>
      rcases h.live x n ns hs with ⟨_, _, ch', h2, h3⟩ | ⟨k, hh, ds, old, h1, _⟩
      · obtain ⟨n', rfl⟩ := h3.nonempty; rw [h2] at hx; simp at hx
      · exact .inr (by simp [h1])

theorem Eff.trans {mj : D} {aO aD : Nat → Prop} {t1 t2} {σ1 σ2 σ3 : HState D} (h1 : Eff mj aO aD t1 σ1 σ2)
    (h2 : Eff mj aO aD t2 σ2 σ3) (hact : ∀ x, aD x → σ1.chains[x]? = some []) : Eff mj aO aD (t1 ++ t2) σ1 σ3 where
  lenC := h2.lenC.trans h1.lenC
  lenD := h2.lenD.trans h1.lenD
  dead := by
    intro x hx
    obtain ⟨a1, b1, c1, d1⟩ := h1.dead x hx
    obtain ⟨a2, b2, c2, d2⟩ := h2.dead x a1
    exact ⟨a2, by simp [ents_append, b1, b2], by simp [arrs_append, c1, c2], fun hn => (d2 hn).trans (d1 hn)⟩
  oob := by
    intro x hx
    obtain ⟨a1, b1, c1⟩ := h1.oob x hx
    have hx' : σ2.chains[x]? = none := by
      rw [List.getElem?_eq_none_iff] at hx ⊢; have := h1.lenC; omega
    obtain ⟨a2, b2, c2⟩ := h2.oob x hx'
    exact ⟨by simp [ents_append, a1, a2], by simp [arrs_append, b1, b2], c2.trans c1⟩
  live := by
    intro x n ns hx
    have carr : ∀ (y : Nat) m hh, Arr t2 y m hh → Arr (t1 ++ t2) y m hh := fun y m hh ha => by simp [Arr] at ha ⊢; exact .inr ha
    have carr1 : ∀ (y : Nat) m hh, Arr t1 y m hh → Arr (t1 ++ t2) y m hh := fun y m hh ha => by simp [Arr] at ha ⊢; exact .inl ha
    have ccal1 : ∀ (y : Nat) d hh, Called σ1 t1 y d hh → Called σ1 (t1 ++ t2) y d hh := by
      intro y d hh ha
      rcases ha with ha | ha | ha | ha
      · exact .inl (by simp [ha])
      · exact .inr (.inl ha)
      · exact .inr (.inr (.inl ha))
      · exact .inr (.inr (.inr (by rw [ents_append]; simp [ha])))
    have ccal : ∀ (y : Nat) d hh, Called σ2 t2 y d hh → Called σ1 (t1 ++ t2) y d hh := by
      intro y d hh ha
      rcases ha with ha | ha | ha | ha
      · exact .inl (by simp [ha])
      · rcases h1.slot ha with hb | hb
        · exact .inr (.inl hb)
        · exact .inr (.inr (.inr (by rw [ents_append]; simp [hb])))
      · exact .inr (.inr (.inl (by rw [ha, h1.lenC])))
      · exact .inr (.inr (.inr (by rw [ents_append]; simp [ha])))
    rcases h1.live x n ns hx with ⟨e1, d1, ch', c1, m1⟩ | ⟨k, h, ds, old, e1, c1, o1, d1, b1, m1⟩
    · obtain ⟨n', rfl⟩ := m1.nonempty
      rcases h2.live x n' ns c1 with ⟨e2, d2, ch'', c2, m2⟩ | ⟨k, h, ds, old, e2, c2, o2, d2, b2, m2⟩
      · exact .inl ⟨by simp [ents_append, e1, e2], d2.trans d1, ch'', c2, by rw [arrs_append]; exact m1.trans m2⟩
      · refine .inr ⟨k, h, ds, old, by simp [ents_append, e1, e2], c2, by rw [← d1]; exact o2, d2, ?_, by
          rw [arrs_append]; exact m1.enter m2⟩
        exact (b2.mono (carr x) (ccal x)).mstep m1
    · obtain ⟨a2, b2, c2, d2⟩ := h2.dead x c1
      have hna : ¬ aD x := fun hh => by rw [hact x hh] at hx; simp at hx
      exact .inr ⟨k, h, ds, old, by simp [ents_append, e1, b2], a2, o1, by rw [d2 hna]; exact d1,
          b1.mono (carr1 x) (ccal1 x), by rw [arrs_append, c2]; simpa using m1⟩
  ord := by
    intro p q c m h he
    rcases append_eq_mid he with ⟨q', h3, _⟩ | ⟨p', rfl, h3⟩
    · exact h1.ord p q' c m h h3
    · exact (h2.ord p' q c m h h3).imp id (fun hh => by rw [ents_append]; simp [hh])
  ordS := by
    intro p q c m h he
    rcases append_eq_mid he with ⟨q', h3, _⟩ | ⟨p', rfl, h3⟩
    · exact h1.ordS p q' c m h h3
    · exact (h2.ordS p' q c m h h3).imp id (fun hh => by rw [ents_append]; simp [hh])
  ordM := by
    intro p q s m h he
    rcases append_eq_mid he with ⟨q', h3, _⟩ | ⟨p', rfl, h3⟩
    · exact h1.ordM p q' s m h h3
    · rw [ents_append, h2.ordM p' q s m h h3, List.append_nil]
      have hne : arrs m t2 ≠ [] := by
        intro hh
        have : h ∈ arrs m t2 := mem_arrs.2 ⟨s, by rw [h3]; simp⟩
        rw [hh] at this; simp at this
      cases hs : σ1.chains[m]? with
      | none => exact (h1.oob m hs).1
      | some ch =>
        cases ch with
        | nil => exact (h1.dead m hs).2.1
        | cons n ns =>
          rcases h1.live m n ns hs with ⟨e1, _⟩ | ⟨k, hh, ds, old, e1, c1, _⟩
          · exact e1
          · exact absurd (h2.dead m c1).2.2.1 hne
  cm := by
    intro c h hh
    rcases List.mem_append.1 hh with hh | hh
    · exact h1.cm c h hh
    · obtain ⟨s, n, rest, hc⟩ := h2.cm c h hh
      cases hs : σ1.chains[c]? with
      | none =>
        have h1' := (List.getElem?_eq_some_iff.1 hc).1
        have h2' := List.getElem?_eq_none_iff.1 hs
        have := h1.lenC; omega
      | some ch =>
        cases ch with
        | nil => have := (h1.dead c hs).1; rw [hc] at this; simp at this
        | cons n0 ns =>
          rcases h1.live c n0 ns hs with ⟨e1, _, ch', c1, m1⟩ | ⟨k, hh, ds, old, e1, c1, _⟩
          · rw [c1] at hc; simp at hc; subst hc
            obtain ⟨s', k', rfl⟩ := m1.mergeStart
            exact ⟨s', k', ns, rfl⟩
          · rw [c1] at hc; simp at hc

end Chopper
