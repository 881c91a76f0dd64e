import Verif.Spec.Routes
import Verif.Proofs.Graph3
import Verif.Proofs.Driver2

/-!
# Proofs about routes
-/
namespace Chopper
open Spec

variable {S : Type}

/-- Only the kinds of the nodes matter for routes. -/
theorem Spec.Routes.shape {g : DGraph S} {t : Place} {c i rs} (h : Routes g.chains t c i rs) : Routes g.shape t c i rs := by
  induction h with
  | done hc hi => exact .done (by rw [shape_get, hc]; rfl) (by rw [List.getElem?_map, hi]; rfl)
  | sink hc hi _ ih => exact .sink (s := ()) (by rw [shape_get, hc]; rfl) (by rw [List.getElem?_map, hi]; rfl) ih
  | merge hc hi _ _ ih1 ih2 => exact .merge (by rw [shape_get, hc]; rfl) (by rw [List.getElem?_map, hi]; rfl) ih1 ih2
  | split hc hi hl _ _ ih1 ih2 => exact .split (by rw [shape_get, hc]; rfl) (by rw [List.getElem?_map, hi]; rfl) hl ih1 ih2

theorem routes_of_shape {g : DGraph S} {t : Place} {c i rs} (h : Routes g.shape t c i rs) : Routes g.chains t c i rs := by
  have node : ∀ {c i : Nat} {ch : List (DNode Unit)} {n : Option (DNode Unit)}, g.shape[c]? = some ch → ch[i]? = n →
      ∃ ch', g.chains[c]? = some ch' ∧ (ch'[i]?).map DNode.kind = n := by
    intro c i ch n hc hi
    rw [shape_get] at hc
    cases h2 : g.chains[c]? with
    | none => simp [h2] at hc
    | some ch' =>
      simp only [h2, Option.map_some, Option.some.injEq] at hc
      subst hc
      exact ⟨ch', rfl, by rw [← hi, List.getElem?_map]⟩
  induction h with
  | done hc hi =>
    obtain ⟨ch', h1, h2⟩ := node hc hi
    exact .done h1 (by simpa using h2)
  | @sink _ i _ _ _ hc hi _ ih =>
    obtain ⟨ch', h1, h2⟩ := node hc hi
    rcases hn : ch'[i]? with _ | _ | _ | _ <;> rw [hn] at h2 <;> simp [DNode.kind] at h2
    exact .sink h1 hn ih
  | @merge _ i _ _ _ _ hc hi _ _ ih1 ih2 =>
    obtain ⟨ch', h1, h2⟩ := node hc hi
    rcases hn : ch'[i]? with _ | _ | _ | _ <;> rw [hn] at h2 <;> simp [DNode.kind] at h2
    subst h2
    exact .merge h1 hn ih1 ih2
  | @split _ i _ _ _ _ hc hi hl _ _ ih1 ih2 =>
    obtain ⟨ch', h1, h2⟩ := node hc hi
    rcases hn : ch'[i]? with _ | _ | _ | _ <;> rw [hn] at h2 <;> simp [DNode.kind] at h2
    subst h2
    exact .split h1 hn hl ih1 ih2

theorem Spec.Routes.unique {chains : List (DChain S)} {t : Place} {c i rs} (h : Routes chains t c i rs) : ∀ {rs'}, Routes chains t c i rs' → rs = rs' := by
  induction h with
  | done hc hi =>
    intro rs' h'
    cases h' with
    | done => rfl
    | sink hc' hi' => rw [hc] at hc'; cases hc'; rw [hi] at hi'; cases hi'
    | merge hc' hi' => rw [hc] at hc'; cases hc'; rw [hi] at hi'; cases hi'
    | split hc' hi' => rw [hc] at hc'; cases hc'; rw [hi] at hi'; cases hi'
  | sink hc hi _ ih =>
    intro rs' h'
    cases h' with
    | done hc' hi' => rw [hc] at hc'; cases hc'; rw [hi] at hi'; cases hi'
    | sink hc' hi' h => rw [ih h]
    | merge hc' hi' => rw [hc] at hc'; cases hc'; rw [hi] at hi'; cases hi'
    | split hc' hi' => rw [hc] at hc'; cases hc'; rw [hi] at hi'; cases hi'
  | merge hc hi _ _ ih1 ih2 =>
    intro rs' h'
    cases h' with
    | done hc' hi' => rw [hc] at hc'; cases hc'; rw [hi] at hi'; cases hi'
    | sink hc' hi' => rw [hc] at hc'; cases hc'; rw [hi] at hi'; cases hi'
    | merge hc' hi' h1 h2 =>
      rw [hc] at hc'; cases hc'; rw [hi] at hi'; cases hi'
      rw [ih1 h1, ih2 h2]
    | split hc' hi' => rw [hc] at hc'; cases hc'; rw [hi] at hi'; cases hi'
  | @split c i ch ds rss rs1 hc hi hl _ _ ih1 ih2 =>
    intro rs' h'
    cases h' with
    | done hc' hi' => rw [hc] at hc'; cases hc'; rw [hi] at hi'; cases hi'
    | sink hc' hi' => rw [hc] at hc'; cases hc'; rw [hi] at hi'; cases hi'
    | merge hc' hi' => rw [hc] at hc'; cases hc'; rw [hi] at hi'; cases hi'
    | @split _ _ _ _ rss' _ hc' hi' hl' h1 h2 =>
      rw [hc] at hc'; cases hc'; rw [hi] at hi'; cases hi'
      rw [ih2 h2]
      have : rss = rss' := by
        apply List.ext_getElem (hl.trans hl'.symm)
        intro j hj hj'
        have hd : ds[j]? = some ds[j] := List.getElem?_eq_getElem (by omega)
        exact ih1 j _ _ hd (List.getElem?_eq_getElem hj) (h1 j _ _ hd (List.getElem?_eq_getElem hj'))
      rw [this]

/-- In a graph without cycles whose targets all exist, routes exist. -/
theorem routes_exist {chains : List (DChain S)} {rank : Nat → Nat} (ha : Acyclic chains rank)
    (hm : ∀ (c : Nat) (ch : DChain S) (d : Nat), chains[c]? = some ch → DNode.merge d ∈ ch → d < chains.length)
    (hs : ∀ (c : Nat) (ch : DChain S) (ds : List Nat), chains[c]? = some ch → DNode.split ds ∈ ch → ∀ d ∈ ds, d < chains.length) (t : Place) :
    ∀ (n c : Nat), rank c < n → c < chains.length → ∀ (k i : Nat), (∀ ch, chains[c]? = some ch → ch.length ≤ i + k) → ∃ rs, Routes chains t c i rs := by
  intro n
  induction n with
  | zero => intro c h; omega
  | succ n ihn =>
    intro c hr hc k
    have hch : chains[c]? = some chains[c] := List.getElem?_eq_getElem hc
    induction k with
    | zero =>
      intro i hk
      exact ⟨[], .done hch (List.getElem?_eq_none (by simpa using hk _ hch))⟩
    | succ k ihk =>
      intro i hk
      obtain ⟨rs, hrs⟩ := ihk (i + 1) (fun ch h => by have := hk ch h; omega)
      cases hi : chains[c][i]? with
      | none => exact ⟨[], .done hch hi⟩
      | some nd =>
        have hmem := List.mem_of_getElem? hi
        cases nd with
        | sink s => exact ⟨_, .sink hch hi hrs⟩
        | merge d =>
          obtain ⟨rs1, h1⟩ := ihn d (by have := (ha c _ hch).1 d hmem; omega) (hm c _ d hch hmem) _ 0 (fun ch h => by
            rw [Nat.zero_add]; exact Nat.le_of_eq (by rw [show ch = chains[d]'(hm c _ d hch hmem) from by
              rw [List.getElem?_eq_getElem (hm c _ d hch hmem)] at h; exact (Option.some.inj h).symm]))
          exact ⟨_, .merge hch hi h1 hrs⟩
        | split ds =>
          have : ∀ l : List Nat, (∀ d ∈ l, d ∈ ds) → ∃ rss : List (List (List Place)), rss.length = l.length ∧
              ∀ (j d : Nat) rs, l[j]? = some d → rss[j]? = some rs → Routes chains t d 0 rs := by
            intro l
            induction l with
            | nil => intro _; exact ⟨[], rfl, by simp⟩
            | cons d l ih =>
              intro hl
              obtain ⟨rss, h1, h2⟩ := ih (fun d h => hl d (by simp [h]))
              have hd := hs c _ ds hch hmem d (hl d (by simp))
              obtain ⟨rs1, h3⟩ := ihn d (by have := (ha c _ hch).2 ds hmem d (hl d (by simp)); omega) hd chains[d].length 0 (fun ch h => by
                rw [List.getElem?_eq_getElem hd] at h; cases h; simp)
              refine ⟨rs1 :: rss, by simp [h1], ?_⟩
              intro j d' rs' a b
              cases j with
              | zero => simp at a b; subst a b; exact h3
              | succ j => exact h2 j d' rs' a b
          obtain ⟨rss, h1, h2⟩ := this ds (fun d h => h)
          exact ⟨_, .split hch hi h1 h2 hrs⟩

/-! ## The states of the sinks -/

/-- The sinks of `g'` are those of `g` after what the log says. -/
def Follows (ops : SinkOps S) (g g' : DGraph S) : Prop :=
  g'.shape = g.shape ∧ ∃ ev, g'.log = g.log ++ ev ∧ ∀ c i s, sinkAt g.chains c i = some s → ∃ s', sinkAt g'.chains c i = some s' ∧ Took ops s (written c i ev) s'

theorem Spec.Took.trans {ops : SinkOps S} {a b c : S} {r1 r2 : List Row} (h1 : Took ops a r1 b) (h2 : Took ops b r2 c) : Took ops a (r1 ++ r2) c := by
  induction h2 with
  | start => simpa using h1
  | write _ hw ih => rw [← List.append_assoc]; exact .write ih hw
  | flush _ hf ih => exact .flush ih hf

theorem Follows.refl (ops : SinkOps S) (g : DGraph S) : Follows ops g g := ⟨rfl, [], by simp, fun c i s h => ⟨s, h, .start s⟩⟩

theorem Follows.trans {ops : SinkOps S} {a b c : DGraph S} (h1 : Follows ops a b) (h2 : Follows ops b c) : Follows ops a c := by
  obtain ⟨s1, e1, l1, k1⟩ := h1
  obtain ⟨s2, e2, l2, k2⟩ := h2
  refine ⟨s2.trans s1, e1 ++ e2, by rw [l2, l1]; simp, ?_⟩
  intro c i s hs
  obtain ⟨s', h3, h4⟩ := k1 c i s hs
  obtain ⟨s'', h5, h6⟩ := k2 c i s' h3
  exact ⟨s'', h5, by rw [written_append]; exact h4.trans h6⟩

theorem follows_write {ops : SinkOps S} {g : DGraph S} {c i : Nat} {ch : DChain S} {s s' : S} {row : Row} {out : List Row}
    (hc : g.chains[c]? = some ch) (hi : ch[i]? = some (.sink s)) (hw : ops.write s row = (s', .ok out)) : Follows ops g (g.setSink c i s' (.write c i row)) := by
  refine ⟨setSink_shape hc hi, [.write c i row], rfl, ?_⟩
  intro c' i' s0 h0
  by_cases he : c' = c ∧ i' = i
  · obtain ⟨rfl, rfl⟩ := he
    rw [sinkAt_of hc hi] at h0
    cases h0
    refine ⟨s', sinkAt_setSink_eq (sinkAt_of hc hi), ?_⟩
    have : written c' i' [Event.write c' i' row] = [row] := by simp [written]
    rw [this]
    exact .write (rows := []) (.start _) hw
  · refine ⟨s0, by rw [sinkAt_setSink_ne he]; exact h0, ?_⟩
    have : written c' i' [Event.write c i row] = [] := by
      simp only [written, List.filterMap_cons, List.filterMap_nil]
      rw [if_neg (by rintro ⟨rfl, rfl⟩; exact he ⟨rfl, rfl⟩)]
    rw [this]
    exact .start _

theorem follows_flush {ops : SinkOps S} {g : DGraph S} {c i : Nat} {ch : DChain S} {s s' : S}
    (hc : g.chains[c]? = some ch) (hi : ch[i]? = some (.sink s)) (hw : ops.flush s = (s', .ok ())) : Follows ops g (g.setSink c i s' (.flush c i)) := by
  refine ⟨setSink_shape hc hi, [.flush c i], rfl, ?_⟩
  intro c' i' s0 h0
  have hn : written c' i' [Event.flush c i] = [] := by simp [written]
  rw [hn]
  by_cases he : c' = c ∧ i' = i
  · obtain ⟨rfl, rfl⟩ := he
    rw [sinkAt_of hc hi] at h0
    cases h0
    exact ⟨s', sinkAt_setSink_eq (sinkAt_of hc hi), .flush (.start _) hw⟩
  · exact ⟨s0, by rw [sinkAt_setSink_ne he]; exact h0, .start _⟩

theorem runAll_follows {α : Type} {ops : SinkOps S} {f : α → DGraph S → DGraph S × Res Unit} (l : List α)
    (hf : ∀ a g g', f a g = (g', .ok ()) → Follows ops g g') : ∀ g g', runAll f l g = (g', .ok ()) → Follows ops g g' := by
  induction l with
  | nil => intro g g' h; cases h; exact .refl _ _
  | cons a l ih =>
    intro g g' h
    rw [runAll] at h
    rcases h1 : f a g with ⟨g1, u | _ | _ | _⟩ <;> rw [h1] at h <;> try (cases h; done)
    exact (hf _ _ _ h1).trans (ih _ _ h)

theorem processRow_follows (ops : SinkOps S) : ∀ (fuel c i : Nat) (row : Row) (g g' : DGraph S), processRow ops fuel c i row g = (g', .ok ()) → Follows ops g g' := by
  intro fuel
  induction fuel with
  | zero => intro c i row g g' h; cases h
  | succ fuel ih =>
    intro c i row g g' h
    rw [processRow] at h
    cases hc : g.chains[c]? with
    | none => rw [hc] at h; cases h
    | some ch =>
      rw [hc] at h
      simp only at h
      cases hi : ch[i]? with
      | none => rw [hi] at h; cases h; exact .refl _ _
      | some nd =>
        rw [hi] at h
        cases nd with
        | sink s =>
          simp only at h
          rcases hw : ops.write s row with ⟨s', rows | _ | _ | _⟩ <;> simp only [hw] at h <;> try (cases h; done)
          exact (follows_write hc hi hw).trans (runAll_follows rows (fun r g g' hh => ih _ _ _ _ _ hh) _ _ h)
        | merge d =>
          simp only at h
          rcases h1 : processRow ops fuel d 0 row g with ⟨g1, u | _ | _ | _⟩ <;> simp only [h1] at h <;> try (cases h; done)
          exact (ih _ _ _ _ _ h1).trans (ih _ _ _ _ _ h)
        | split ds =>
          simp only at h
          rcases h1 : runAll (fun d g => processRow ops fuel d 0 row g) ds g with ⟨g1, u | _ | _ | _⟩ <;> simp only [h1] at h <;> try (cases h; done)
          exact (runAll_follows ds (fun r g g' hh => ih _ _ _ _ _ hh) _ _ h1).trans (ih _ _ _ _ _ h)

theorem flushFrom_follows (ops : SinkOps S) : ∀ (fuel c i : Nat) (g g' : DGraph S), flushFrom ops fuel c i g = (g', .ok ()) → Follows ops g g' := by
  intro fuel
  induction fuel with
  | zero => intro c i g g' h; cases h
  | succ fuel ih =>
    intro c i g g' h
    rw [flushFrom] at h
    cases hc : g.chains[c]? with
    | none => rw [hc] at h; cases h
    | some ch =>
      rw [hc] at h
      simp only at h
      cases hi : ch[i]? with
      | none => rw [hi] at h; cases h; exact .refl _ _
      | some nd =>
        rw [hi] at h
        cases nd with
        | sink s =>
          simp only at h
          rcases hw : ops.flush s with ⟨s', rows | _ | _ | _⟩ <;> simp only [hw] at h <;> try (cases h; done)
          exact (follows_flush hc hi hw).trans (ih _ _ _ _ h)
        | merge d =>
          simp only at h
          rcases h1 : flushFrom ops fuel d 0 g with ⟨g1, u | _ | _ | _⟩ <;> simp only [h1] at h <;> try (cases h; done)
          exact (ih _ _ _ _ h1).trans (ih _ _ _ _ h)
        | split ds =>
          simp only at h
          rcases h1 : runAll (fun d g => flushFrom ops fuel d 0 g) ds g with ⟨g1, u | _ | _ | _⟩ <;> simp only [h1] at h <;> try (cases h; done)
          exact (runAll_follows ds (fun r g g' hh => ih _ _ _ _ hh) _ _ h1).trans (ih _ _ _ _ h)

theorem flushFrom_written (ops : SinkOps S) (fuel c i : Nat) (g : DGraph S) (t : Place) :
    written t.1 t.2 (flushFrom ops fuel c i g).1.log = written t.1 t.2 g.log := by
  obtain ⟨_, ev, hl, he⟩ := flushFrom_ext ops g.shape fuel c i g rfl
  rw [hl, written_append]
  have : written t.1 t.2 ev = [] := by
    unfold written
    rw [List.filterMap_eq_nil_iff]
    intro e h
    obtain ⟨c', i', rfl, _⟩ := he e h
    rfl
  rw [this, List.append_nil]

/-! ## Rows along routes -/

/-- The rows reaching `t` if `row` is at node `i` of chain `c`, the routes being `R c i`. -/
def arrivals (f : Place → Row → List Row) (R : Nat → Nat → List (List Place)) (j : Job) : List Row := (R j.1 j.2.1).flatMap fun q => along f q j.2.2

/-- A relation between lists of rows that allows the exchange needed at a sink that emits several rows. -/
structure Exchange (f : Place → Row → List Row) (P : List Row → List Row → Prop) : Prop where
  refl : ∀ a, P a a
  trans : ∀ a b c, P a b → P b c → P a c
  app : ∀ a b c d, P a b → P c d → P (a ++ c) (b ++ d)
  swap : ∀ p row (rs : List (List Place)), P ((f p row).flatMap fun r => rs.flatMap fun q => along f q r) (rs.flatMap fun q => (f p row).flatMap (along f q))

theorem flatMap_swap {α β γ : Type} (f : α → β → List γ) (as : List α) : ∀ (bs : List β),
    (as.flatMap fun a => bs.flatMap fun b => f a b).Perm (bs.flatMap fun b => as.flatMap fun a => f a b)
  | [] => by simp
  | b :: bs => by
    have ih := flatMap_swap f as bs
    simp only [List.flatMap_cons]
    refine List.Perm.trans ?_ (List.Perm.append_left _ ih)
    clear ih
    induction as with
    | nil => simp
    | cons a as iha =>
      simp only [List.flatMap_cons, List.append_assoc]
      refine List.Perm.append_left _ ?_
      refine (List.Perm.append_left _ iha).trans ?_
      rw [← List.append_assoc, ← List.append_assoc]
      exact List.Perm.append_right _ List.perm_append_comm

theorem exchange_perm (f : Place → Row → List Row) : Exchange f List.Perm where
  refl a := .refl a
  trans a b c := .trans
  app a b c d := .append
  swap p row rs := flatMap_swap (fun r q => along f q r) _ _

theorem exchange_eq {f : Place → Row → List Row} (h : ∀ p row, (f p row).length ≤ 1) : Exchange f Eq where
  refl a := rfl
  trans a b c := .trans
  app a b c d h1 h2 := by rw [h1, h2]
  swap p row rs := by
    have := h p row
    match hf : f p row with
    | [] => simp
    | [r] => simp
    | _ :: _ :: _ => rw [hf] at this; simp at this

theorem Spec.Took.inv {ops : SinkOps S} {inv : Place → S → Prop} {f} (ha : Acts ops inv f) {p : Place} {s s' : S} {rows} (h : Took ops s rows s') (hs : inv p s) : inv p s' := by
  induction h with
  | start => exact hs
  | write _ hw ih => exact (ha.write _ _ _ _ _ ih hw).2
  | flush _ hf ih => exact ha.flush _ _ _ ih hf

/-- All sinks are in states they can be in. -/
def AllInv (inv : Place → S → Prop) (chains : List (DChain S)) : Prop := ∀ c i s, sinkAt chains c i = some s → inv (c, i) s

theorem sinkAt_shape {g g' : DGraph S} (h : g'.shape = g.shape) {c i s'} (hs : sinkAt g'.chains c i = some s') : ∃ s, sinkAt g.chains c i = some s := by
  unfold sinkAt at hs
  cases hc : g'.chains[c]? with
  | none => rw [hc] at hs; cases hs
  | some ch =>
    rw [hc] at hs
    simp only at hs
    cases hi : ch[i]? with
    | none => rw [hi] at hs; cases hs
    | some n =>
      obtain ⟨ch2, n2, h1, h2, h3⟩ := same_shape_node h hc hi
      rw [hi] at hs
      cases n with
      | sink s0 =>
        cases n2 with
        | sink s2 => exact ⟨s2, sinkAt_of h1 h2⟩
        | merge d => cases h3
        | split d => cases h3
      | merge d => cases hs
      | split d => cases hs

theorem Follows.allInv {ops : SinkOps S} {inv : Place → S → Prop} {f} (ha : Acts ops inv f) {g g' : DGraph S} (h : Follows ops g g') (hi : AllInv inv g.chains) :
    AllInv inv g'.chains := by
  intro c i s' hs'
  obtain ⟨s, hs⟩ := sinkAt_shape h.1 hs'
  obtain ⟨_, ev, _, hk⟩ := h
  obtain ⟨s2, h2, h3⟩ := hk c i s hs
  rw [hs'] at h2
  cases h2
  exact h3.inv ha (hi c i s hs)

theorem written_cons_write (t : Place) (c i : Nat) (row : Row) (ev : List Event) :
    written t.1 t.2 (.write c i row :: ev) = (if (c, i) = t then [row] else []) ++ written t.1 t.2 ev := by
  obtain ⟨tc, ti⟩ := t
  simp only [written, List.filterMap_cons, Prod.mk.injEq]
  by_cases h : c = tc ∧ i = ti
  · rw [if_pos h, if_pos h]; rfl
  · rw [if_neg h, if_neg h]; rfl

theorem deliver_routes {ops : SinkOps S} {inv : Place → S → Prop} {f} (ha : Acts ops inv f) {P} (hP : Exchange f P) {t : Place} {sh : List (List (DNode Unit))}
    {R : Nat → Nat → List (List Place)} (hR : ∀ c i rs, Routes sh t c i rs → R c i = rs) {todo : List Job} {gs gs' : List (DChain S)} {ev : List Event}
    (h : Deliver ops todo gs gs' ev) : AllInv inv gs → (DGraph.shape ⟨gs, []⟩) = sh → (∀ j ∈ todo, ∃ rs, Routes sh t j.1 j.2.1 rs) →
    P (written t.1 t.2 ev) (todo.flatMap (arrivals f R)) := by
  have shapeNode : ∀ {gs : List (DChain S)} {c i : Nat} {ch : DChain S} {n : Option (DNode S)}, (DGraph.shape ⟨gs, []⟩) = sh → gs[c]? = some ch → ch[i]? = n →
      sh[c]? = some (ch.map DNode.kind) ∧ (ch.map DNode.kind)[i]? = n.map DNode.kind := by
    intro gs c i ch n hsh hc hi
    exact ⟨by rw [← hsh, shape_get]; show Option.map _ gs[c]? = _; rw [hc]; rfl, by rw [List.getElem?_map, hi]⟩
  induction h with
  | nil => intro _ _ _; exact hP.refl _
  | @done c i row todo gs gs' ev ch hc hi _ ih =>
    intro hinv hsh hr
    have h1 := ih hinv hsh (fun j hj => hr j (by simp [hj]))
    obtain ⟨a1, a2⟩ := shapeNode hsh hc hi
    rw [List.flatMap_cons, arrivals, hR c i [] (.done a1 a2)]
    exact h1
  | @sink c i row todo gs gs' ev ch s s' rows hc hi hw _ ih =>
    intro hinv hsh hr
    obtain ⟨a1, a2⟩ := shapeNode hsh hc hi
    obtain ⟨rs0, hrs0⟩ := hr _ (List.mem_cons_self)
    have hrs : ∃ rs, Routes sh t c (i + 1) rs := by
      simp only at hrs0
      cases hrs0 with
      | done hc' hi' => rw [a1] at hc'; cases hc'; rw [a2] at hi'; cases hi'
      | sink hc' hi' h => exact ⟨_, h⟩
      | merge hc' hi' => rw [a1] at hc'; cases hc'; rw [a2] at hi'; cases hi'
      | split hc' hi' => rw [a1] at hc'; cases hc'; rw [a2] at hi'; cases hi'
    obtain ⟨rs, hrs⟩ := hrs
    have hact := ha.write (c, i) s row s' rows (hinv c i s (sinkAt_of (g := ⟨gs, []⟩) hc hi)) hw
    have hfol : Follows ops ⟨gs, []⟩ (DGraph.setSink ⟨gs, []⟩ c i s' (.write c i row)) := follows_write hc hi hw
    have h1 := ih (hfol.allInv ha hinv) (hfol.1.trans hsh) (by
      intro j hj
      rcases List.mem_append.1 hj with hj | hj
      · obtain ⟨r, _, rfl⟩ := List.mem_map.1 hj
        exact ⟨rs, hrs⟩
      · exact hr j (by simp [hj]))
    rw [List.flatMap_append] at h1
    rw [written_cons_write, List.flatMap_cons]
    have e1 : arrivals f R (c, i, row) = (if (c, i) = t then [row] else []) ++ rs.flatMap fun q => (f (c, i) row).flatMap (along f q) := by
      unfold arrivals
      rw [hR c i _ (.sink (s := ()) a1 a2 hrs), List.flatMap_append, List.flatMap_map]
      congr 1
      by_cases ht : (c, i) = t
      · rw [if_pos ht, if_pos ht]; simp [along]
      · rw [if_neg ht, if_neg ht]; rfl
    have e2 : (rows.map fun r => ((c, i + 1, r) : Job)).flatMap (arrivals f R) = (f (c, i) row).flatMap fun r => rs.flatMap fun q => along f q r := by
      rw [List.flatMap_map, hact.1]
      congr 1
      funext r
      unfold arrivals
      rw [hR c (i + 1) rs hrs]
    rw [e1, List.append_assoc]
    refine hP.app _ _ _ _ (hP.refl _) (hP.trans _ _ _ h1 (hP.app _ _ _ _ ?_ (hP.refl _)))
    rw [e2]
    exact hP.swap _ _ _
  | @merge c i row todo gs gs' ev ch d hc hi _ ih =>
    intro hinv hsh hr
    obtain ⟨a1, a2⟩ := shapeNode hsh hc hi
    obtain ⟨rs0, hrs0⟩ := hr _ (List.mem_cons_self)
    have hrs : ∃ rs rs', Routes sh t d 0 rs ∧ Routes sh t c (i + 1) rs' := by
      simp only at hrs0
      cases hrs0 with
      | done hc' hi' => rw [a1] at hc'; cases hc'; rw [a2] at hi'; cases hi'
      | sink hc' hi' h => rw [a1] at hc'; cases hc'; rw [a2] at hi'; cases hi'
      | merge hc' hi' h1 h2 => rw [a1] at hc'; cases hc'; rw [a2] at hi'; cases hi'; exact ⟨_, _, h1, h2⟩
      | split hc' hi' => rw [a1] at hc'; cases hc'; rw [a2] at hi'; cases hi'
    obtain ⟨rs, rs', hrs, hrs'⟩ := hrs
    have h1 := ih hinv hsh (by
      intro j hj
      rcases List.mem_cons.1 hj with rfl | hj
      · exact ⟨_, hrs⟩
      rcases List.mem_cons.1 hj with rfl | hj
      · exact ⟨_, hrs'⟩
      · exact hr j (by simp [hj]))
    simp only [List.flatMap_cons] at h1 ⊢
    have : arrivals f R (c, i, row) = arrivals f R (d, 0, row) ++ arrivals f R (c, i + 1, row) := by
      simp only [arrivals]
      rw [hR c i _ (.merge a1 a2 hrs hrs'), hR d 0 _ hrs, hR c (i + 1) _ hrs', List.flatMap_append]
    rw [this, List.append_assoc]
    exact h1
  | @split c i row todo gs gs' ev ch ds hc hi _ ih =>
    intro hinv hsh hr
    obtain ⟨a1, a2⟩ := shapeNode hsh hc hi
    obtain ⟨rs0, hrs0⟩ := hr _ (List.mem_cons_self)
    have hrs : ∃ (rss : List (List (List Place))) (rs' : List (List Place)), rss.length = ds.length ∧ (∀ (j d : Nat) rs, ds[j]? = some d → rss[j]? = some rs → Routes sh t d 0 rs) ∧ Routes sh t c (i + 1) rs' := by
      simp only at hrs0
      cases hrs0 with
      | done hc' hi' => rw [a1] at hc'; cases hc'; rw [a2] at hi'; cases hi'
      | sink hc' hi' h => rw [a1] at hc'; cases hc'; rw [a2] at hi'; cases hi'
      | merge hc' hi' h1 h2 => rw [a1] at hc'; cases hc'; rw [a2] at hi'; cases hi'
      | split hc' hi' hl h1 h2 => rw [a1] at hc'; cases hc'; rw [a2] at hi'; cases hi'; exact ⟨_, _, hl, h1, h2⟩
    obtain ⟨rss, rs', hl, hrs, hrs'⟩ := hrs
    have hd : ∀ d ∈ ds, ∃ rs, Routes sh t d 0 rs := by
      intro d hd
      obtain ⟨j, hj⟩ := List.mem_iff_getElem?.1 hd
      have hlt := (List.getElem?_eq_some_iff.1 hj).1
      exact ⟨rss[j]'(by omega), hrs j d _ hj (List.getElem?_eq_getElem (by omega))⟩
    have h1 := ih hinv hsh (by
      intro j hj
      rcases List.mem_append.1 hj with hj | hj
      · obtain ⟨d, hdd, rfl⟩ := List.mem_map.1 hj
        exact hd d hdd
      rcases List.mem_cons.1 hj with rfl | hj
      · exact ⟨_, hrs'⟩
      · exact hr j (by simp [hj]))
    rw [List.flatMap_append, List.flatMap_cons] at h1
    rw [List.flatMap_cons]
    have hrss : rss.flatten = ds.flatMap fun d => R d 0 := by
      have : rss = ds.map fun d => R d 0 := by
        apply List.ext_getElem?
        intro j
        rw [List.getElem?_map]
        cases hj : ds[j]? with
        | none =>
          rw [Option.map_none]
          exact List.getElem?_eq_none (by rw [hl]; exact List.getElem?_eq_none_iff.1 hj)
        | some d =>
          have hlt := (List.getElem?_eq_some_iff.1 hj).1
          have h2 : rss[j]? = some (rss[j]'(by omega)) := List.getElem?_eq_getElem (by omega)
          rw [h2, Option.map_some, hR d 0 _ (hrs j d _ hj h2)]
      rw [this, List.flatMap_def]
    have : arrivals f R (c, i, row) = (ds.map fun d => ((d, 0, row) : Job)).flatMap (arrivals f R) ++ arrivals f R (c, i + 1, row) := by
      rw [List.flatMap_map]
      simp only [arrivals]
      rw [hR c i _ (.split a1 a2 hl hrs hrs'), hR c (i + 1) _ hrs', List.flatMap_append, hrss, List.flatMap_assoc]
    rw [this, List.append_assoc]
    exact h1

theorem processRow_routes {ops : SinkOps S} {inv : Place → S → Prop} {f} (ha : Acts ops inv f) {P} (hP : Exchange f P) {t : Place} {fuel c : Nat} {row : Row}
    {g g' : DGraph S} (hinv : AllInv inv g.chains) {rs} (hr : Routes g.chains t c 0 rs) (h : processRow ops fuel c 0 row g = (g', .ok ())) :
    ∃ ev, g'.log = g.log ++ ev ∧ P (written t.1 t.2 ev) (rs.flatMap fun q => along f q row) := by
  obtain ⟨ev, hl, hd⟩ := processRow_deliver ops fuel c 0 row g g' h
  have h1 := hd [] g'.chains [] .nil
  rw [List.append_nil] at h1
  have hr' := hr.shape
  classical
  let R : Nat → Nat → List (List Place) := fun c i => if h : ∃ rs, Routes g.shape t c i rs then h.choose else []
  have hR : ∀ c i rs, Routes g.shape t c i rs → R c i = rs := by
    intro c i rs h
    have hex : ∃ rs, Routes g.shape t c i rs := ⟨rs, h⟩
    simp only [R, dif_pos hex]
    exact hex.choose_spec.unique h
  have := deliver_routes ha hP hR h1 hinv rfl (by intro j hj; simp at hj; subst hj; exact ⟨rs, hr'⟩)
  refine ⟨ev, hl, ?_⟩
  simp only [List.flatMap_cons, List.flatMap_nil, List.append_nil, arrivals] at this
  rw [hR c 0 rs hr'] at this
  exact this

/-- A whole run. -/
theorem perform_routes {ops : SinkOps S} {inv : Place → S → Prop} {f} (ha : Acts ops inv f) {P} (hP : Exchange f P) {t : Place} {gfuel : Nat} :
    ∀ (cs : List Call) {g g' : DGraph S} {out : Res Unit}, AllInv inv g.chains → (∀ p ∈ fed cs, ∃ rs, Routes g.chains t p.1 0 rs) →
    perform (fun c r g => processRow ops gfuel c 0 r g) (fun c g => flushFrom ops gfuel c 0 g) cs out g = (g', .ok ()) →
    Follows ops g g' ∧ ∃ blocks : List (List Row), blocks.length = (fed cs).length ∧ written t.1 t.2 g'.log = written t.1 t.2 g.log ++ blocks.flatten ∧
      ∀ (j c : Nat) (r : Row) (rs) (b : List Row), (fed cs)[j]? = some (c, r) → blocks[j]? = some b → Routes g.chains t c 0 rs → P b (rs.flatMap fun q => along f q r)
  | [], g, g', out, hinv, hr, h => by
    cases h
    exact ⟨.refl _ _, [], rfl, by simp, by simp⟩
  | .feed c r :: cs, g, g', out, hinv, hr, h => by
    rw [perform] at h
    rcases h1 : processRow ops gfuel c 0 r g with ⟨g1, u | _ | _ | _⟩ <;> simp only [h1] at h <;> try (cases h; done)
    have hf := processRow_follows ops gfuel c 0 r g g1 h1
    obtain ⟨rs, hrs⟩ := hr (c, r) (by rw [fed_feed]; simp)
    obtain ⟨ev, hl, hp⟩ := processRow_routes ha hP hinv hrs h1
    have tr : ∀ {c rs}, Routes g.chains t c 0 rs → Routes g1.chains t c 0 rs := fun hh => routes_of_shape (by rw [hf.1]; exact hh.shape)
    have tr' : ∀ {c rs}, Routes g1.chains t c 0 rs → Routes g.chains t c 0 rs := fun hh => routes_of_shape (by rw [← hf.1]; exact hh.shape)
    obtain ⟨hf2, blocks, hbl, hw, hb⟩ := perform_routes ha hP cs (hf.allInv ha hinv) (fun p hp => by
      obtain ⟨rs, h⟩ := hr p (by rw [fed_feed]; simp [hp]); exact ⟨rs, tr h⟩) h
    refine ⟨hf.trans hf2, written t.1 t.2 ev :: blocks, by rw [fed_feed]; simp [hbl], ?_, ?_⟩
    · rw [hw, hl, written_append]; simp
    · intro j c' r' rs' b hj hbj hrs'
      rw [fed_feed] at hj
      cases j with
      | zero =>
        simp at hj hbj
        obtain ⟨rfl, rfl⟩ := hj
        subst hbj
        rw [← hrs.unique hrs']
        exact hp
      | succ j => exact hb j c' r' rs' b hj hbj (tr hrs')
  | .flush c :: cs, g, g', out, hinv, hr, h => by
    rw [perform] at h
    rcases h1 : flushFrom ops gfuel c 0 g with ⟨g1, u | _ | _ | _⟩ <;> simp only [h1] at h <;> try (cases h; done)
    have hf := flushFrom_follows ops gfuel c 0 g g1 h1
    have tr : ∀ {c rs}, Routes g.chains t c 0 rs → Routes g1.chains t c 0 rs := fun hh => routes_of_shape (by rw [hf.1]; exact hh.shape)
    obtain ⟨hf2, blocks, hbl, hw, hb⟩ := perform_routes ha hP cs (hf.allInv ha hinv) (fun p hp => by
      obtain ⟨rs, h⟩ := hr p (by rw [fed_flush]; exact hp); exact ⟨rs, tr h⟩) h
    refine ⟨hf.trans hf2, blocks, by rw [fed_flush]; exact hbl, ?_, ?_⟩
    · rw [hw]
      have := flushFrom_written ops gfuel c 0 g t
      rw [h1] at this
      rw [this]
    · intro j c' r' rs' b hj hbj hrs'
      rw [fed_flush] at hj
      exact hb j c' r' rs' b hj hbj (tr hrs')

end Chopper
