import Verif.Proofs.HeaderGraph

namespace Chopper
open Spec

variable {D : Type}

def dat (σ : HState D) (c : Nat) : DChain D := (σ.data[c]?).getD []

/-- Where an entry into a chain comes from. -/
def Orig (tr : List HEv) (σ : HState D) : HCause → Nat → Header → Prop
  | .split c, d, h => ∃ ch k0 h0, σ.chains[c]? = some ch ∧ .enter c k0 h0 ∈ tr ∧ (d, h) ∈ splitsFrom h0 ch
  | .merge, d, _ => (∃ s n rest, σ.chains[d]? = some (.mergeSink s n :: rest)) ∧ arrs d tr ≠ []

structure Full (mj : D) (aO aD : Nat → Prop) (oL oR : Nat → Nat → Nat) (okE : HCause → Nat → Header → Prop) (tr : List HEv)
    (σ σ' : HState D) : Prop where
  eff : Eff mj aO aD tr σ σ'
  cnt : ∀ c m, mergesTo m (dat σ' c) + oL c m = mergesTo m (dat σ c) + arrFrom c m tr + oR c m
  orig : ∀ d k h, .enter d k h ∈ tr → okE k d h ∨ Orig tr σ k d h
  grow : ∀ x, dat σ x <+: dat σ' x

theorem Full.refl (mj : D) (aO aD oL okE) (σ : HState D) : Full mj aO aD oL oL okE [] σ σ where
  eff := Eff.refl ..
  cnt := by intro c m; simp
  orig := by intro c d h hh; simp at hh
  grow := fun x => List.prefix_refl _

theorem splitsFrom_mstep {a : List Header} {ch ch' : HChain D} {h : Header} (hm : MStep ch a ch') : splitsFrom h ch' = splitsFrom h ch := by
  rcases hm with ⟨_, rfl⟩ | ⟨s, k, ns', h0, rfl, rfl, _⟩ <;> rfl

theorem Eff.back {mj : D} {aO aD : Nat → Prop} {t1} {σ1 σ2 : HState D} (h1 : Eff mj aO aD t1 σ1 σ2) {c : Nat} {n : HNode D} {ns}
    (hc : σ2.chains[c]? = some (n :: ns)) : ∃ n1 a, σ1.chains[c]? = some (n1 :: ns) ∧ MStep (n1 :: ns) a (n :: ns) := by
  cases hs : σ1.chains[c]? with
  | none =>
    have h1' := (List.getElem?_eq_some_iff.1 hc).1
    have h2' := List.getElem?_eq_none_iff.1 hs
    have := h1.lenC; omega
  | some ch =>
    cases ch with
    | nil => have := (h1.dead c hs).1; rw [hc] at this; simp at this
    | cons n0 ns0 =>
      rcases h1.live c n0 ns0 hs with ⟨e1, _, ch', c1, m1⟩ | ⟨k, hh, ds, old, e1, c1, _⟩
      · rw [c1] at hc; simp at hc; subst hc
        obtain ⟨n', he⟩ := m1.nonempty
        cases he
        exact ⟨n0, _, rfl, m1⟩
      · rw [c1] at hc; simp at hc

theorem Orig.left {t1 t2 : List HEv} {σ : HState D} : ∀ {k d h}, Orig t1 σ k d h → Orig (t1 ++ t2) σ k d h
  | .split _, _, _, ⟨ch, k0, h0, a, b, c⟩ => ⟨ch, k0, h0, a, by simp [b], c⟩
  | .merge, _, _, ⟨a, b⟩ => ⟨a, by rw [arrs_append]; simp [b]⟩

theorem Eff.origOf {mj : D} {aO aD : Nat → Prop} {t1 t2} {σ1 σ2 : HState D} (h1 : Eff mj aO aD t1 σ1 σ2) :
    ∀ {k d h}, Orig t2 σ2 k d h → Orig (t1 ++ t2) σ1 k d h
  | .split _, _, _, ⟨ch, k0, h0, a, b, c⟩ => by
    cases ch with
    | nil => simp [splitsFrom] at c
    | cons n ns =>
      obtain ⟨n1, aa, h2, h3⟩ := h1.back a
      exact ⟨_, k0, h0, h2, by simp [b], by rw [← splitsFrom_mstep h3]; exact c⟩
  | .merge, _, _, ⟨⟨s, n, rest, a⟩, b⟩ => by
    obtain ⟨n1, aa, h2, h3⟩ := h1.back a
    obtain ⟨s', k', rfl⟩ := h3.mergeStart
    exact ⟨⟨_, _, _, h2⟩, by rw [arrs_append]; simp [b]⟩

theorem Full.trans {mj : D} {aO aD o1 o2 o3 o4 okE t1 t2} {σ1 σ2 σ3 : HState D}
    (h1 : Full mj aO aD o1 o2 okE t1 σ1 σ2) (h2 : Full mj aO aD o3 o4 okE t2 σ2 σ3)
    (hact : ∀ x, aD x → σ1.chains[x]? = some []) :
    Full mj aO aD (fun c m => o1 c m + o3 c m) (fun c m => o2 c m + o4 c m) okE (t1 ++ t2) σ1 σ3 where
  eff := h1.eff.trans h2.eff hact
  cnt := by
    intro c m
    have a := h1.cnt c m
    have b := h2.cnt c m
    rw [arrFrom_append]; omega
  orig := by
    intro c d h hh
    rcases List.mem_append.1 hh with hh | hh
    · exact (h1.orig c d h hh).imp id Orig.left
    · exact (h2.orig c d h hh).imp id h1.eff.origOf
  grow := fun x => (h1.grow x).trans (h2.grow x)

theorem Full.mono {mj : D} {aO aO' aD aD' oL oR oL' oR' okE okE' tr} {σ σ' : HState D} (h : Full mj aO aD oL oR okE tr σ σ')
    (hO : ∀ x, aO x → aO' x) (hD : ∀ x, aD x → aD' x)
    (ho : ∀ c m, oL' c m + oR c m = oL c m + oR' c m)
    (hT : ∀ k d h, okE k d h → okE' k d h) :
    Full mj aO' aD' oL' oR' okE' tr σ σ' where
  eff := h.eff.mono hO hD
  cnt := by intro c m; have := h.cnt c m; have := ho c m; omega
  orig := fun c d hh hm => (h.orig c d hh hm).imp (hT _ _ _) id
  grow := h.grow

theorem Eff.calledOf {mj : D} {aO aD : Nat → Prop} {t1 t2} {σ1 σ2 : HState D} (h1 : Eff mj aO aD t1 σ1 σ2)
    {y d hh} (ha : Called σ2 t2 y d hh) : Called σ1 (t1 ++ t2) y d hh := by
  rcases ha with ha | ha | ha | ha
  · exact .inl (by simp [ha])
  · rcases h1.slot ha with hb | hb
    · exact .inr (.inl hb)
    · exact .inr (.inr (.inr (by rw [ents_append]; simp [hb])))
  · exact .inr (.inr (.inl (by rw [ha, h1.lenC])))
  · exact .inr (.inr (.inr (by rw [ents_append]; simp [ha])))

theorem Called.left {t1 t2} {σ : HState D} {y d hh} (ha : Called σ t1 y d hh) : Called σ (t1 ++ t2) y d hh := by
  rcases ha with ha | ha | ha | ha
  · exact .inl (by simp [ha])
  · exact .inr (.inl ha)
  · exact .inr (.inr (.inl ha))
  · exact .inr (.inr (.inr (by rw [ents_append]; simp [ha])))

def RecSpec (mj : D) (rec : Nat → Header → HState D → Res (HState D)) : Prop :=
  ∀ c k h σ σ', σ.data.length = σ.chains.length →
    (k = .merge → ∃ s n rest, σ.chains[c]? = some (.mergeSink s n :: rest)) →
    rec c h σ = .ok σ' → ∃ tr,
      Full mj (fun x => k = .split x) (fun _ => False) (fun _ _ => 0) (fun _ _ => 0) (fun k' d h' => k' = k ∧ d = c ∧ h' = h) tr σ σ' ∧
      ((∃ rest, tr = .enter c k h :: rest) ∨ σ.chains[c]? = some [] ∨ c = σ.chains.length)

/-! ### add_node -/

theorem addNode_some {data data' : List (DChain D)} {c n} (h : addNode data c n = some data') :
    ∃ old, data[c]? = some old ∧ data' = data.set c (old ++ [n]) := by
  unfold addNode at h
  split at h
  · rename_i hc
    simp only [Option.some.injEq] at h
    refine ⟨data[c], by simp [hc], ?_⟩
    rw [← h]
    apply List.ext_getElem?
    intro i
    rw [List.getElem?_modify, List.getElem?_set]
    by_cases hi : c = i
    · subst hi; simp [hc]
    · simp [hi]
  · simp at h

theorem mergesTo_append (m : Nat) (a b : DChain D) : mergesTo m (a ++ b) = mergesTo m a + mergesTo m b := by
  simp [mergesTo]

theorem addNode_full {mj : D} {aO okE} {σ : HState D} {c : Nat} {n : DNode D} {data'} (hc : σ.chains[c]? = some [])
    (h : addNode σ.data c n = some data') :
    (∃ old, σ.data[c]? = some old ∧ data'[c]? = some (old ++ [n])) ∧
    Full mj aO (· = c) (fun _ _ => 0) (fun c' m => if c' = c then mergesTo m [n] else 0) okE [] σ { σ with data := data' } := by
  obtain ⟨old, h1, rfl⟩ := addNode_some h
  have hlt := (List.getElem?_eq_some_iff.1 h1).1
  have hset : ∀ x, (σ.data.set c (old ++ [n]))[x]? = if x = c then some (old ++ [n]) else σ.data[x]? := by
    intro x
    rw [List.getElem?_set]
    by_cases hx : c = x
    · subst hx; simp [hlt]
    · simp [hx, Ne.symm hx]
  refine ⟨⟨old, h1, by rw [hset]; simp⟩, ?_⟩
  constructor
  · constructor
    · rfl
    · simp
    · intro x hx
      refine ⟨hx, rfl, rfl, fun hn => ?_⟩
      simp only [hset, if_neg hn]
    · intro x n' ns hx
      have hxc : x ≠ c := by rintro rfl; rw [hc] at hx; simp at hx
      exact .inl ⟨rfl, by simp only [hset, if_neg hxc], _, hx, .inl ⟨rfl, rfl⟩⟩
    · intro x hx
      have hxc : x ≠ c := by rintro rfl; rw [hc] at hx; simp at hx
      exact ⟨rfl, rfl, by simp only [hset, if_neg hxc]⟩
    · intro p q c m h hh; simp at hh
    · intro p q c m h hh; simp at hh
    · intro p q c m h hh; simp at hh
    · intro c h hh; simp at hh
  · intro c' m
    simp only [dat, hset, arrFrom_nil]
    by_cases hx : c' = c
    · subst hx; simp [h1, mergesTo_append]
    · simp [hx]
  · intro c d h hh; simp at hh
  · intro x
    simp only [dat, hset]
    by_cases hx : x = c
    · subst hx; simp [h1]
    · simp [hx]

/-! ### check_merge_header -/

theorem dat_chains (σ : HState D) (chs) : dat { σ with chains := chs } = dat σ := rfl

theorem checkMerge_spec {mj : D} {rec : Nat → Header → HState D → Res (HState D)} (hrec : RecSpec mj rec) {s : Nat} {m : Nat}
    {h : Header} {σ σ' : HState D} (hlen : σ.data.length = σ.chains.length) (hok : checkMergeHeader rec m h σ = .ok σ')
    (okE : HCause → Nat → Header → Prop) :
    ∃ tr, Full mj (fun x => x = s) (fun _ => False) (fun c' m' => if c' = s ∧ m' = m then 1 else 0) (fun _ _ => 0) okE
      (.arrive s m h :: tr) σ σ' := by
  unfold checkMergeHeader at hok
  cases hm : σ.chains[m]? with
  | none => simp [hm] at hok
  | some ch =>
    match ch, hm with
    | [], hm => simp [hm] at hok
    | .sink _ :: _, hm => simp [hm] at hok
    | .splitSink _ _ :: _, hm => simp [hm] at hok
    | .merge _ :: _, hm => simp [hm] at hok
    | .mergeSink seen n :: rest, hm =>
      simp only [hm] at hok
      have hmlt := (List.getElem?_eq_some_iff.1 hm).1
      split at hok
      · simp at hok
      rename_i hn0
      have key : ∀ h0, mergeCheckHeader seen h = some h0 →
          h = h0 ∧ (seen = none ∨ seen = some h0) := by
        intro h0 hh
        unfold mergeCheckHeader at hh
        cases seen with
        | none => simp at hh; exact ⟨hh, .inl rfl⟩
        | some h1 =>
          simp only at hh
          split at hh
          · rename_i he; simp at hh; subst hh; exact ⟨he, .inr rfl⟩
          · simp at hh
      generalize hg : mergeCheckHeader seen h = chk at hok key
      cases chk with
      | none => simp at hok
      | some h0 =>
        obtain ⟨rfl, hs⟩ := key h0 rfl
        simp only at hok
        have hset : ∀ (v : HChain D) x, (σ.chains.set m v)[x]? = if x = m then some v else σ.chains[x]? := by
          intro v x
          rw [List.getElem?_set]
          by_cases hx : m = x
          · subst hx; simp [hmlt]
          · simp [hx, Ne.symm hx]
        split at hok
        · -- completing
          rename_i hn1
          have hn : n = 1 := by omega
          subst hn
          obtain ⟨tr, hf, hcall⟩ := hrec m .merge h _ σ' (by simpa using hlen)
            (fun _ => ⟨none, 1 - 1, rest, by simp [hset]⟩) hok
          have hent : ∃ rest', tr = .enter m .merge h :: rest' := by
            rcases hcall with hc | hc | hc
            · exact hc
            · simp [hset] at hc
            · simp at hc; omega
          refine ⟨tr, ?_, ?_, ?_, ?_⟩
          · have e := hf.eff
            constructor
            · simpa using e.lenC
            · exact e.lenD
            · intro x hx
              have hxm : x ≠ m := by rintro rfl; rw [hm] at hx; simp at hx
              obtain ⟨a, b, c, d⟩ := e.dead x (by simp only [hset, if_neg hxm]; exact hx)
              exact ⟨a, by rw [ents_arrive]; exact b, by rw [arrs_arrive, if_neg (Ne.symm hxm)]; exact c, d⟩
            · intro x n ns hx
              have ccal : ∀ y d hh, Called { σ with chains := σ.chains.set m (.mergeSink none (1 - 1) :: rest) } tr y d hh →
                  Called σ (.arrive s m h :: tr) y d hh := by
                intro y d hh ha
                rcases ha with ha | ha | ha | ha
                · exact .inl (by simp [ha])
                · simp only [hset] at ha
                  split at ha
                  · simp at ha
                  · exact .inr (.inl ha)
                · simp at ha; exact .inr (.inr (.inl ha))
                · exact .inr (.inr (.inr (by rw [ents_arrive]; exact ha)))
              have carr : ∀ y m' hh, Arr tr y m' hh → Arr (.arrive s m h :: tr) y m' hh := fun y m' hh ha => by
                simp [Arr] at ha ⊢; exact .inr ha
              by_cases hxm : x = m
              · subst hxm
                rw [hm] at hx; simp at hx; obtain ⟨rfl, rfl⟩ := hx
                rcases e.live x (.mergeSink none (1 - 1)) rest (by simp [hset]) with ⟨e1, _⟩ | ⟨k, h', ds, old, e1, c1, o1, d1, b1, m1⟩
                · obtain ⟨rest', rfl⟩ := hent; simp [ents_enter] at e1
                · right
                  have hh : h' = h := by
                    obtain ⟨rest', rfl⟩ := hent
                    simp [ents_enter] at e1
                    exact e1.1.2.symm
                  subst hh
                  have harr : arrs x tr = [] := by
                    rcases m1 with ⟨ha, _⟩ | ⟨_, _, _, he, hl, hne, _⟩
                    · exact ha
                    · simp at he; obtain ⟨⟨_, rfl⟩, _⟩ := he; simp at hl; exact absurd hl hne
                  refine ⟨k, h', ds, old, by rw [ents_arrive]; exact e1, c1, o1, d1, ?_, ?_⟩
                  · cases (b1.mono (carr x) (ccal x)) with | mergeSink hb => exact .mergeSink hb
                  · rw [arrs_arrive]; simp only [if_true, harr]
                    exact .inr ⟨seen, 1, rest, rfl, rfl, by simp, by simp, hs⟩
              · have hx' : (σ.chains.set m (.mergeSink none (1 - 1) :: rest))[x]? = some (n :: ns) := by
                  rw [hset, if_neg hxm]; exact hx
                rw [ents_arrive, arrs_arrive, if_neg (Ne.symm hxm)]
                rcases e.live x n ns hx' with hl | ⟨k, h', ds, old, e1, c1, o1, d1, b1, m1⟩
                · exact .inl hl
                · exact .inr ⟨k, h', ds, old, e1, c1, o1, d1, b1.mono (carr x) (ccal x), m1⟩
            · intro x hx
              have hxm : x ≠ m := by rintro rfl; rw [hm] at hx; simp at hx
              obtain ⟨a, b, c⟩ := e.oob x (by simp only [hset, if_neg hxm]; exact hx)
              exact ⟨by rw [ents_arrive]; exact a, by rw [arrs_arrive, if_neg (Ne.symm hxm)]; exact b, c⟩
            · intro p q c m' hh he
              cases p with
              | nil => simp at he; left; exact he.1.1.symm
              | cons e0 p =>
                simp only [List.cons_append, List.cons.injEq] at he
                obtain ⟨rfl, he⟩ := he
                rcases e.ord p q c m' hh he with h1 | h1
                · simp at h1
                · right; rw [ents_arrive]; exact h1
            · intro p q c d hh he
              cases p with
              | nil => simp at he
              | cons e0 p =>
                simp only [List.cons_append, List.cons.injEq] at he
                obtain ⟨rfl, he⟩ := he
                rcases e.ordS p q c d hh he with h1 | h1
                · simp at h1
                · right; rw [ents_arrive]; exact h1
            · intro p q s' m' hh he
              cases p with
              | nil => rfl
              | cons e0 p =>
                simp only [List.cons_append, List.cons.injEq] at he
                obtain ⟨rfl, he⟩ := he
                rw [ents_arrive]; exact e.ordM p q s' m' hh he
            · intro c hh he
              simp only [List.mem_cons, reduceCtorEq, false_or] at he
              obtain ⟨s', n', rest', hc⟩ := e.cm c hh he
              simp only [hset] at hc
              split at hc
              · rename_i hcm; subst hcm; exact ⟨_, _, _, hm⟩
              · exact ⟨_, _, _, hc⟩
          · intro c' m'
            have : mergesTo m' (dat σ' c') + 0 = mergesTo m' (dat σ c') + arrFrom c' m' tr + 0 := hf.cnt c' m'
            rw [arrFrom_arrive]
            have e1 : (s = c' ∧ m = m') ↔ (c' = s ∧ m' = m) :=
              ⟨fun ⟨a, b⟩ => ⟨a.symm, b.symm⟩, fun ⟨a, b⟩ => ⟨a.symm, b.symm⟩⟩
            simp only [e1]; omega
          · intro d k hh he
            right
            simp only [List.mem_cons, reduceCtorEq, false_or] at he
            rcases hf.orig d k hh he with ⟨rfl, rfl, rfl⟩ | h1
            · exact ⟨⟨_, _, _, hm⟩, by rw [arrs_arrive]; simp⟩
            · cases k with
              | split c =>
                obtain ⟨ch, k0, h0, a, b, cc⟩ := h1
                simp only [hset] at a
                split at a
                · rename_i hcm
                  simp at a; subst a; subst hcm
                  exact ⟨_, k0, h0, hm, by simp [b], cc⟩
                · exact ⟨ch, k0, h0, a, by simp [b], cc⟩
              | merge =>
                obtain ⟨⟨s', n', rest', a⟩, b⟩ := h1
                refine ⟨?_, by rw [arrs_arrive]; split <;> simp [b]⟩
                simp only [hset] at a
                split at a
                · rename_i hcm; rw [hcm]; exact ⟨_, _, _, hm⟩
                · exact ⟨_, _, _, a⟩
          · exact hf.grow
        · -- not yet complete
          rename_i hn1
          simp only [Res.ok.injEq] at hok
          subst hok
          refine ⟨[], ?_, ?_, ?_, ?_⟩
          · constructor
            · simp
            · rfl
            · intro x hx
              have hxm : x ≠ m := by rintro rfl; rw [hm] at hx; simp at hx
              exact ⟨by simp only [hset, if_neg hxm]; exact hx, rfl, by rw [arrs_arrive, if_neg (Ne.symm hxm)]; rfl, fun _ => rfl⟩
            · intro x n' ns hx
              left
              by_cases hxm : x = m
              · subst hxm
                rw [hm] at hx; simp at hx; obtain ⟨rfl, rfl⟩ := hx
                refine ⟨rfl, rfl, _, by simp [hset]; rfl, ?_⟩
                rw [arrs_arrive]; simp only [if_true, arrs_nil]
                exact .inr ⟨seen, n, rest, h, rfl, rfl, by simp, by simp; omega, by simp, hs⟩
              · refine ⟨rfl, rfl, _, by simp only [hset, if_neg hxm]; exact hx, ?_⟩
                rw [arrs_arrive, if_neg (Ne.symm hxm)]; exact .inl ⟨rfl, rfl⟩
            · intro x hx
              have hxm : x ≠ m := by rintro rfl; rw [hm] at hx; simp at hx
              exact ⟨rfl, by rw [arrs_arrive, if_neg (Ne.symm hxm)]; rfl, rfl⟩
            · intro p q c m' hh he
              cases p with
              | nil => simp at he; left; exact he.1.1.symm
              | cons e0 p => simp at he
            · intro p q c d hh he
              cases p with
              | nil => simp at he
              | cons e0 p => simp at he
            · intro p q s' m' hh he
              cases p with
              | nil => rfl
              | cons e0 p => simp at he
            · intro c hh he; simp at he
          · intro c' m'
            rw [dat_chains, arrFrom_arrive]
            have e1 : (s = c' ∧ m = m') ↔ (c' = s ∧ m' = m) :=
              ⟨fun ⟨a, b⟩ => ⟨a.symm, b.symm⟩, fun ⟨a, b⟩ => ⟨a.symm, b.symm⟩⟩
            simp only [e1, arrFrom_nil]; omega
          · intro c d hh he; simp at he
          · intro x; rw [dat_chains]; exact List.prefix_refl _

/-! ### The loops -/

theorem splitLoop_spec {mj : D} {rec : Nat → Header → HState D → Res (HState D)} (hrec : RecSpec mj rec) (dbg : Bool) (c : Nat) (h : Header)
    (ids0 : List Nat) : ∀ (ids : List Nat), (∀ d ∈ ids, d ∈ ids0) → ∀ (n : Nat) (σ σ' : HState D), σ.data.length = σ.chains.length →
    splitLoop dbg rec h ids n σ = .ok σ' →
    ∃ tr, Full mj (fun x => x = c) (fun _ => False) (fun _ _ => 0) (fun _ _ => 0) (fun k d h' => k = .split c ∧ d ∈ ids0 ∧ h' = h) tr σ σ' ∧
      ∀ d ∈ ids, Called σ tr c d h := by
  intro ids
  induction ids with
  | nil => intro _ n σ σ' _ hok; simp [splitLoop] at hok; subst hok; exact ⟨[], Full.refl .., by simp⟩
  | cons d ids ih =>
    intro hsub n σ σ' hlen hok
    simp only [splitLoop] at hok
    cases hr : rec d h σ with
    | ok σ1 =>
      simp only [hr] at hok
      split at hok
      · simp at hok
      obtain ⟨t1, hf1, hcall⟩ := hrec d (.split c) h σ σ1 hlen (by simp) hr
      have hlen1 : σ1.data.length = σ1.chains.length := by rw [hf1.eff.lenC, hf1.eff.lenD]; exact hlen
      obtain ⟨t2, hf2, hcall2⟩ := ih (fun d' hd' => hsub d' (by simp [hd'])) _ _ _ hlen1 hok
      have hf1' : Full mj (fun x => x = c) (fun _ => False) (fun _ _ => 0) (fun _ _ => 0) (fun k d h' => k = .split c ∧ d ∈ ids0 ∧ h' = h) t1 σ σ1 :=
        hf1.mono (by intro x hx; simp at hx; exact hx.symm) (fun _ hx => hx) (fun _ _ => rfl)
          (by rintro k' d' h' ⟨rfl, rfl, rfl⟩; exact ⟨rfl, hsub _ (by simp), rfl⟩)
      refine ⟨t1 ++ t2, hf1'.trans hf2 (by simp), ?_⟩
      intro d' hd'
      rcases List.mem_cons.1 hd' with rfl | hd'
      · rcases hcall with ⟨rest, rfl⟩ | hc | hc
        · exact .inl (by simp)
        · exact .inr (.inl hc)
        · exact .inr (.inr (.inl hc))
      · exact hf1.eff.calledOf (hcall2 d' hd')
    | _ => simp [hr] at hok

theorem nodesLoop_spec {mj : D} {rec : Nat → Header → HState D → Res (HState D)} (hrec : RecSpec mj rec) (dbg : Bool) (c : Nat) :
    ∀ (ns : HChain D) (h : Header) (σ σ' : HState D), σ.data.length = σ.chains.length → σ.chains[c]? = some [] →
    nodesLoop dbg mj rec c ns h σ = .ok σ' →
    ∃ tr, Full mj (· = c) (· = c) (fun _ _ => 0) (fun _ _ => 0) (fun k d h' => k = .split c ∧ (d, h') ∈ splitsFrom h ns) tr σ σ' ∧
      ∃ old ds, σ.data[c]? = some old ∧ σ'.data[c]? = some (old ++ ds) ∧ ChainBuilt mj (Arr tr c) (Called σ tr c) h ns ds := by
  intro ns
  induction ns with
  | nil =>
    intro h σ σ' hlen hc hok
    simp [nodesLoop] at hok; subst hok
    have hlt := (List.getElem?_eq_some_iff.1 hc).1
    have : σ.data[c]? = some (σ.data[c]'(by omega)) := by simp
    exact ⟨[], Full.refl .., _, [], this, by simpa using this, .nil⟩
  | cons n ns ih =>
    intro h σ σ' hlen hc hok
    have glue : ∀ {t1 : List HEv} {σ1 : HState D} {h' : Header} {old : DChain D} {dn : DNode D},
        Full mj (· = c) (· = c) (fun _ _ => 0) (fun _ _ => 0) (fun k d h' => k = .split c ∧ (d, h') ∈ splitsFrom h (n :: ns)) t1 σ σ1 →
        (∀ p, p ∈ splitsFrom h' ns → p ∈ splitsFrom h (n :: ns)) →
        σ.data[c]? = some old → σ1.data[c]? = some (old ++ [dn]) →
        (∀ t2 ds, ChainBuilt mj (Arr (t1 ++ t2) c) (Called σ (t1 ++ t2) c) h' ns ds →
          ChainBuilt mj (Arr (t1 ++ t2) c) (Called σ (t1 ++ t2) c) h (n :: ns) (dn :: ds)) →
        nodesLoop dbg mj rec c ns h' σ1 = .ok σ' →
        ∃ tr, Full mj (· = c) (· = c) (fun _ _ => 0) (fun _ _ => 0) (fun k d h' => k = .split c ∧ (d, h') ∈ splitsFrom h (n :: ns)) tr σ σ' ∧
          ∃ old ds, σ.data[c]? = some old ∧ σ'.data[c]? = some (old ++ ds) ∧ ChainBuilt mj (Arr tr c) (Called σ tr c) h (n :: ns) ds := by
      intro t1 σ1 h' old dn hf1 hsub ho h1 hb hok'
      have hlen1 : σ1.data.length = σ1.chains.length := by rw [hf1.eff.lenC, hf1.eff.lenD]; exact hlen
      obtain ⟨t2, hf2, old2, ds, ho2, hd2, hb2⟩ := ih h' σ1 σ' hlen1 (hf1.eff.dead c hc).1 hok'
      rw [h1] at ho2; simp at ho2; subst ho2
      refine ⟨t1 ++ t2, hf1.trans (hf2.mono (fun _ h => h) (fun _ h => h) (fun _ _ => rfl)
        (fun _ _ _ h => ⟨h.1, hsub _ h.2⟩)) (by rintro x rfl; exact hc), old, dn :: ds, ho, by simpa using hd2, ?_⟩
      apply hb
      exact hb2.mono (fun m hh ha => by simp [Arr] at ha ⊢; exact .inr ha) (fun d hh ha => hf1.eff.calledOf ha)
    cases n with
    | sink f =>
      simp only [nodesLoop] at hok
      cases hf : f h with
      | ok p =>
        obtain ⟨d, h'⟩ := p
        simp only [hf] at hok
        cases ha : addNode σ.data c (.sink d) with
        | none => simp [ha] at hok
        | some data =>
          simp only [ha] at hok
          obtain ⟨⟨old, ho, h1⟩, hfull⟩ := addNode_full (mj := mj) (aO := (· = c)) (okE := fun _ _ _ => False) hc ha
          exact glue (hfull.mono (fun _ h => h) (fun _ h => h) (by intro c m; split <;> simp [mergesTo]) (fun _ _ _ h => h.elim))
            (fun p hp => by simp only [splitsFrom, hf]; exact hp) ho h1 (fun t2 ds hb => .sink hf hb) hok
      | _ => simp [hf] at hok
    | mergeSink seen k =>
      simp only [nodesLoop] at hok
      cases seen with
      | some _ => simp at hok
      | none =>
        simp only at hok
        cases ha : addNode σ.data c (.sink mj) with
        | none => simp [ha] at hok
        | some data =>
          simp only [ha] at hok
          obtain ⟨⟨old, ho, h1⟩, hfull⟩ := addNode_full (mj := mj) (aO := (· = c)) (okE := fun _ _ _ => False) hc ha
          exact glue (hfull.mono (fun _ h => h) (fun _ h => h) (by intro c m; split <;> simp [mergesTo]) (fun _ _ _ h => h.elim))
            (fun p hp => hp) ho h1 (fun t2 ds hb => .mergeSink hb) hok
    | splitSink ids k =>
      simp only [nodesLoop] at hok
      split at hok
      · simp at hok
      cases hs : splitLoop dbg rec h ids k σ with
      | ok σ1 =>
        simp only [hs] at hok
        cases ha : addNode σ1.data c (.split ids) with
        | none => simp [ha] at hok
        | some data =>
          simp only [ha] at hok
          obtain ⟨t1, hf1, hcall⟩ := splitLoop_spec hrec dbg c h ids ids (fun _ h => h) k σ σ1 hlen hs
          have hc1 := (hf1.eff.dead c hc).1
          have hd1 := (hf1.eff.dead c hc).2.2.2 (fun h => h)
          obtain ⟨⟨old, ho, h1⟩, hfull⟩ := addNode_full (mj := mj) (aO := (· = c)) (okE := fun k d h' => k = .split c ∧ d ∈ ids ∧ h' = h) hc1 ha
          have hboth := (hf1.mono (aD' := (· = c)) (oL' := fun _ _ => 0) (oR' := fun _ _ => 0) (fun _ h => h) (fun _ h => h.elim)
            (fun _ _ => rfl) (fun _ _ _ h => h)).trans hfull (by rintro x rfl; exact hc)
          rw [List.append_nil] at hboth
          refine glue (t1 := t1) (dn := .split ids) (hboth.mono (fun _ h => h) (fun _ h => h) (by intro c m; split <;> simp [mergesTo]) ?_)
            (fun p hp => by simp only [splitsFrom, List.mem_append]; exact .inr hp)
            (by rw [← hd1]; exact ho) h1 (fun t2 ds hb => .split (fun d hd => (hcall d hd).left) hb) hok
          rintro k d h' ⟨rfl, hd, rfl⟩
          exact ⟨rfl, by simp [splitsFrom, hd]⟩
      | _ => simp [hs] at hok
    | merge m =>
      simp only [nodesLoop] at hok
      cases ha : addNode σ.data c (.merge m) with
      | none => simp [ha] at hok
      | some data =>
        simp only [ha] at hok
        cases hcm : checkMergeHeader rec m h { σ with data := data } with
        | ok σ1 =>
          simp only [hcm] at hok
          obtain ⟨⟨old, ho, h1⟩, hfull⟩ := addNode_full (mj := mj) (aO := (· = c)) (okE := fun _ _ _ => False) hc ha
          have hlen1 : data.length = σ.chains.length := by
            have := hfull.eff.lenD; simp at this; omega
          obtain ⟨t1, hf1⟩ := checkMerge_spec hrec (s := c) (σ := { σ with data := data }) hlen1 hcm (fun _ _ _ => False)
          have hd1 := (hf1.eff.dead c hc).2.2.2 (fun h => h)
          have hboth := hfull.trans (hf1.mono (aD' := (· = c)) (oL' := fun c' m' => if c' = c ∧ m' = m then 1 else 0) (oR' := fun _ _ => 0)
            (aO' := (· = c)) (fun x h => by simpa using h) (fun _ h => h.elim)
            (by intro c' m'; simp) (fun _ _ _ h => h.elim)) (by rintro x rfl; exact hc)
          rw [List.nil_append] at hboth
          refine glue (t1 := .arrive c m h :: t1) (dn := .merge m) (hboth.mono (fun _ h => h) (fun _ h => h) ?_ (fun _ _ _ h => h.elim))
            (fun p hp => hp) ho (by rw [hd1]; exact h1) (fun t2 ds hb => .merge (by simp [Arr]) hb) hok
          intro c' m'
          by_cases hcc : c' = c
          · by_cases hmm : m' = m
            · subst hmm; simp [hcc, mergesTo]
            · simp [hcc, hmm, mergesTo, Ne.symm hmm]
          · simp [hcc]
        | _ => simp [hcm] at hok

/-! ### match_remove_chain -/

theorem matchRemove_spec (mj : D) (dbg : Bool) : ∀ fuel, RecSpec mj (matchRemoveChain dbg mj fuel) := by
  intro fuel
  induction fuel with
  | zero => intro c k h σ σ' _ _ hok; simp [matchRemoveChain] at hok
  | succ fuel ih =>
    intro c k h σ σ' hlen hk hok
    simp only [matchRemoveChain] at hok
    cases hc : σ.chains[c]? with
    | none =>
      have hge := List.getElem?_eq_none_iff.1 hc
      by_cases he : c = σ.chains.length
      · rw [hSwapRemove_eq he] at hok
        simp only [nodesLoop, Res.ok.injEq] at hok
        subst hok
        exact ⟨[], Full.refl .., .inr (.inr he)⟩
      · rw [hSwapRemove_gt (by omega)] at hok; simp at hok
    | some ch =>
      have hclt := (List.getElem?_eq_some_iff.1 hc).1
      rw [hSwapRemove_lt hc] at hok
      simp only at hok
      have hset : ∀ x, (σ.chains.set c [])[x]? = if x = c then some [] else σ.chains[x]? := by
        intro x
        rw [List.getElem?_set]
        by_cases hx : c = x
        · subst hx; simp [hclt]
        · simp [hx, Ne.symm hx]
      cases ch with
      | nil =>
        simp only [nodesLoop, Res.ok.injEq] at hok
        subst hok
        have hsame : σ.chains.set c [] = σ.chains := by
          apply List.ext_getElem?; intro i; rw [hset]; split
          · rename_i hi; subst hi; exact hc.symm
          · rfl
        refine ⟨[], ?_, .inr (.inl rfl)⟩
        rw [hsame]; exact Full.refl ..
      | cons n ns =>
        obtain ⟨t, hf, old, ds, ho, hd, hb⟩ := nodesLoop_spec ih dbg c (n :: ns) h { σ with chains := σ.chains.set c [] } σ'
          (by simpa using hlen) (by simp [hset]) hok
        have hdeadc := hf.eff.dead c (by simp [hset])
        refine ⟨.enter c k h :: t, ?_, .inl ⟨t, rfl⟩⟩
        have carr : ∀ y m hh, Arr t y m hh → Arr (.enter c k h :: t) y m hh := fun y m hh ha => by
          simp [Arr] at ha ⊢; exact ha
        have ccal : ∀ y d hh, Called { σ with chains := σ.chains.set c [] } t y d hh → Called σ (.enter c k h :: t) y d hh := by
          intro y d hh ha
          rcases ha with ha | ha | ha | ha
          · exact .inl (by simp [ha])
          · simp only [hset] at ha
            split at ha
            · rename_i hdc; subst hdc; exact .inr (.inr (.inr (by simp [ents_enter])))
            · exact .inr (.inl ha)
          · simp at ha; exact .inr (.inr (.inl ha))
          · exact .inr (.inr (.inr (by rw [ents_enter]; split <;> simp [ha])))
        have entne : ∀ x p, ents x p ≠ [] → ents x (.enter c k h :: p) ≠ [] := by
          intro x p hp; rw [ents_enter]; split <;> simp [hp]
        refine ⟨?_, ?_, ?_, ?_⟩
        · have e := hf.eff
          constructor
          · simpa using e.lenC
          · exact e.lenD
          · intro x hx
            have hxc : x ≠ c := by rintro rfl; rw [hc] at hx; simp at hx
            obtain ⟨a, b, cc, d⟩ := e.dead x (by simp only [hset, if_neg hxc]; exact hx)
            exact ⟨a, by rw [ents_enter, if_neg (Ne.symm hxc)]; exact b, by rw [arrs_enter]; exact cc, fun _ => d hxc⟩
          · intro x n' ns' hx
            by_cases hxc : x = c
            · subst hxc
              rw [hc] at hx; simp at hx; obtain ⟨rfl, rfl⟩ := hx
              right
              refine ⟨k, h, ds, old, ?_, hdeadc.1, ho, hd, hb.mono (carr x) (ccal x), ?_⟩
              · rw [ents_enter]; simp [hdeadc.2.1]
              · rw [arrs_enter, hdeadc.2.2.1]
                left
                refine ⟨rfl, ?_⟩
                intro s k' ns'' he
                simp at he
                obtain ⟨rfl, rfl⟩ := he
                -- the loop succeeded past a merge sink, so it had seen no header
                simp only [nodesLoop] at hok
                cases s with
                | none => rfl
                | some _ => simp at hok
            · rw [ents_enter, if_neg (Ne.symm hxc), arrs_enter]
              rcases e.live x n' ns' (by simp only [hset, if_neg hxc]; exact hx) with hl | ⟨k', h', ds', old', e1, c1, o1, d1, b1, m1⟩
              · exact .inl hl
              · exact .inr ⟨k', h', ds', old', e1, c1, o1, d1, b1.mono (carr x) (ccal x), m1⟩
          · intro x hx
            have hxc : x ≠ c := by rintro rfl; rw [hc] at hx; simp at hx
            obtain ⟨a, b, cc⟩ := e.oob x (by simp only [hset, if_neg hxc]; exact hx)
            exact ⟨by rw [ents_enter, if_neg (Ne.symm hxc)]; exact a, by rw [arrs_enter]; exact b, cc⟩
          · intro p q c' m' hh he
            cases p with
            | nil => simp at he
            | cons e0 p =>
              simp only [List.cons_append, List.cons.injEq] at he
              obtain ⟨rfl, he⟩ := he
              right
              rcases e.ord p q c' m' hh he with h1 | h1
              · rw [ents_enter, if_pos h1.symm]; simp
              · exact entne _ _ h1
          · intro p q c' d hh he
            cases p with
            | nil => simp at he; left; exact he.1.2.1
            | cons e0 p =>
              simp only [List.cons_append, List.cons.injEq] at he
              obtain ⟨rfl, he⟩ := he
              right
              rcases e.ordS p q c' d hh he with h1 | h1
              · rw [ents_enter, if_pos h1.symm]; simp
              · exact entne _ _ h1
          · intro p q s' m' hh he
            cases p with
            | nil => rfl
            | cons e0 p =>
              simp only [List.cons_append, List.cons.injEq] at he
              obtain ⟨rfl, he⟩ := he
              have h1 := e.ordM p q s' m' hh he
              rw [ents_enter]
              split
              · rename_i hcm
                subst hcm
                -- nothing arrives at a chain that was removed
                have : hh ∈ arrs c t := mem_arrs.2 ⟨s', by rw [he]; simp⟩
                rw [hdeadc.2.2.1] at this; simp at this
              · exact h1
          · intro c' hh he
            rcases List.mem_cons.1 he with he | he
            · cases he; exact hk rfl |>.imp fun s hs => by simpa [hc] using hs
            · obtain ⟨s, n', rest, hcc⟩ := e.cm c' hh he
              simp only [hset] at hcc
              split at hcc
              · simp at hcc
              · exact ⟨_, _, _, hcc⟩
        · intro c' m'
          rw [arrFrom_enter]; exact hf.cnt c' m'
        · intro d k' hh he
          rcases List.mem_cons.1 he with he | he
          · cases he; exact .inl ⟨rfl, rfl, rfl⟩
          · right
            rcases hf.orig d k' hh he with ⟨rfl, h1⟩ | h1
            · exact ⟨_, k, h, hc, by simp, h1⟩
            · cases k' with
              | split c' =>
                obtain ⟨ch, k0, h0, a, b, cc⟩ := h1
                simp only [hset] at a
                split at a
                · simp at a; subst a; simp [splitsFrom] at cc
                · exact ⟨ch, k0, h0, a, by simp [b], cc⟩
              | merge =>
                obtain ⟨⟨s', n', rest', a⟩, b⟩ := h1
                refine ⟨?_, by rw [arrs_enter]; exact b⟩
                simp only [hset] at a
                split at a
                · simp at a
                · exact ⟨_, _, _, a⟩
        · exact hf.grow

end Chopper
