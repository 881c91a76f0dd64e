import Verif.Model.Graph

namespace Chopper

variable {S : Type}

/-! ## Shape of a graph (sink states forgotten) -/

/-- Forget the state of a sink. -/
def DNode.kind : DNode S → DNode Unit
  | .sink _ => .sink ()
  | .merge d => .merge d
  | .split ds => .split ds

def DGraph.shape (g : DGraph S) : List (List (DNode Unit)) := g.chains.map (fun ch => ch.map DNode.kind)

theorem shape_get (g : DGraph S) (c : Nat) : g.shape[c]? = (g.chains[c]?).map (fun ch => ch.map DNode.kind) := by
  simp [DGraph.shape]

theorem setSink_shape {g : DGraph S} {c i : Nat} {ch : DChain S} {s s' : S} {e : Event}
    (hc : g.chains[c]? = some ch) (hi : ch[i]? = some (.sink s)) : (g.setSink c i s' e).shape = g.shape := by
  apply List.ext_getElem?
  intro k
  simp only [DGraph.setSink, DGraph.shape, List.getElem?_map, List.getElem?_modify]
  by_cases hk : c = k
  · subst hk
    simp only [hc, Option.map_some, if_true, Option.map_eq_map]
    congr 1
    apply List.ext_getElem?
    intro j
    simp only [List.getElem?_map, List.getElem?_set]
    by_cases hj : i = j
    · subst hj
      have : i < ch.length := by rcases List.getElem?_eq_some_iff.1 hi with ⟨h, _⟩; exact h
      simp only [this, if_true, Option.map_some, hi, DNode.kind]
    · simp [hj]
  · simp [hk]

/-! ## Generic facts about `runAll` -/

theorem runAll_inv {α G : Type} {f : α → G → G × Res Unit} (P : G → G → Prop) (hr : ∀ g, P g g)
    (ht : ∀ a b c, P a b → P b c → P a c) (l : List α) (hf : ∀ a ∈ l, ∀ g, P g (f a g).1) :
    ∀ g, P g (runAll f l g).1 := by
  induction l with
  | nil => intro g; exact hr g
  | cons a l ih =>
    intro g
    have h1 := hf a (by simp) g
    simp only [runAll]
    rcases h : f a g with ⟨g', _ | _ | _ | _⟩ <;> rw [h] at h1
    · exact ht _ _ _ h1 (ih (fun a h => hf a (by simp [h])) g')
    all_goals exact h1

theorem runAll_append {α G : Type} (f : α → G → G × Res Unit) (l m : List α) (g : G) :
    runAll f (l ++ m) g = match runAll f l g with
      | (g', .ok ()) => runAll f m g'
      | (g', r) => (g', r) := by
  induction l generalizing g with
  | nil => simp [runAll]
  | cons a l ih =>
    simp only [List.cons_append, runAll]
    rcases f a g with ⟨g', _ | _ | _ | _⟩
    · exact ih g'
    all_goals rfl

theorem runAll_ok_cons {α G : Type} {f : α → G → G × Res Unit} {a : α} {l : List α} {g g' : G} :
    runAll f (a :: l) g = (g', .ok ()) ↔ ∃ g1, f a g = (g1, .ok ()) ∧ runAll f l g1 = (g', .ok ()) := by
  simp only [runAll]
  rcases f a g with ⟨g1, _ | _ | _ | _⟩ <;> simp

theorem runAll_ne_diverge {α G : Type} {f : α → G → G × Res Unit} (P : G → Prop) (l : List α)
    (hf : ∀ a ∈ l, ∀ g, P g → (f a g).2 ≠ .diverge ∧ P (f a g).1) : ∀ g, P g → (runAll f l g).2 ≠ .diverge ∧ P (runAll f l g).1 := by
  induction l with
  | nil => intro g hg; exact ⟨by simp [runAll], hg⟩
  | cons a l ih =>
    intro g hg
    have h1 := hf a (by simp) g hg
    simp only [runAll]
    rcases h : f a g with ⟨g', _ | _ | _ | _⟩ <;> rw [h] at h1
    · exact ih (fun a h => hf a (by simp [h])) g' h1.2
    all_goals simp_all

theorem runAll_congr_ok {α G : Type} {f f' : α → G → G × Res Unit} (l : List α)
    (hf : ∀ a ∈ l, ∀ g, (f a g).2 ≠ .diverge → f' a g = f a g) : ∀ g, (runAll f l g).2 ≠ .diverge → runAll f' l g = runAll f l g := by
  induction l with
  | nil => intro g _; rfl
  | cons a l ih =>
    intro g h
    have h1 := hf a (by simp) g
    simp only [runAll] at h ⊢
    rcases h2 : f a g with ⟨g', _ | _ | _ | _⟩ <;> rw [h2] at h1 <;> simp only [h2] at h
    · rw [h1 (by simp)]; exact ih (fun a h => hf a (by simp [h])) g' h
    · rw [h1 (by simp)]
    · rw [h1 (by simp)]
    · exact absurd rfl h

/-! ## Shape is preserved, the log only grows, and only by writes (resp. flushes) at reachable sinks -/

/-- Sink `(c', i')` lies on some path from node `i` of chain `c`. -/
inductive Reach (sh : List (List (DNode Unit))) : Nat → Nat → Nat → Nat → Prop
  | here {c i ch} : sh[c]? = some ch → ch[i]? = some (.sink ()) → Reach sh c i c i
  | next {c i c' i' ch n} : sh[c]? = some ch → ch[i]? = some n → Reach sh c (i + 1) c' i' → Reach sh c i c' i'
  | merge {c i c' i' ch d} : sh[c]? = some ch → ch[i]? = some (.merge d) → Reach sh d 0 c' i' → Reach sh c i c' i'
  | split {c i c' i' ch ds d} : sh[c]? = some ch → ch[i]? = some (.split ds) → d ∈ ds → Reach sh d 0 c' i' →
      Reach sh c i c' i'

/-- `g'` arises from `g` by sink calls that satisfy `ok`. -/
def Ext (ok : Event → Prop) (g g' : DGraph S) : Prop :=
  g'.shape = g.shape ∧ ∃ ev, g'.log = g.log ++ ev ∧ ∀ e ∈ ev, ok e

theorem Ext.refl (ok : Event → Prop) (g : DGraph S) : Ext ok g g := ⟨rfl, [], by simp, by simp⟩

theorem Ext.trans {ok : Event → Prop} {a b c : DGraph S} (h : Ext ok a b) (h' : Ext ok b c) : Ext ok a c := by
  obtain ⟨h1, e1, h2, h3⟩ := h
  obtain ⟨k1, e2, k2, k3⟩ := h'
  refine ⟨k1.trans h1, e1 ++ e2, by rw [k2, h2]; simp, ?_⟩
  intro e he; rcases List.mem_append.1 he with he | he
  · exact h3 e he
  · exact k3 e he

theorem Ext.mono {ok ok' : Event → Prop} (hm : ∀ e, ok e → ok' e) {a b : DGraph S} (h : Ext ok a b) : Ext ok' a b :=
  ⟨h.1, h.2.imp fun _ hh => ⟨hh.1, fun e he => hm e (hh.2 e he)⟩⟩

def WriteAt (sh : List (List (DNode Unit))) (c i : Nat) (e : Event) : Prop :=
  ∃ c' i' r, e = .write c' i' r ∧ Reach sh c i c' i'

def FlushAt (sh : List (List (DNode Unit))) (c i : Nat) (e : Event) : Prop :=
  ∃ c' i', e = .flush c' i' ∧ Reach sh c i c' i'

theorem ext_setSink {g : DGraph S} {c i : Nat} {ch : DChain S} {s s' : S} {e : Event} {ok : Event → Prop}
    (hc : g.chains[c]? = some ch) (hi : ch[i]? = some (.sink s)) (he : ok e) : Ext ok g (g.setSink c i s' e) :=
  ⟨setSink_shape hc hi, [e], rfl, by simpa using he⟩

theorem runAll_ext {α : Type} {f : α → DGraph S → DGraph S × Res Unit} {ok : Event → Prop} {sh} (l : List α)
    (hf : ∀ a ∈ l, ∀ g : DGraph S, g.shape = sh → Ext ok g (f a g).1) :
    ∀ g : DGraph S, g.shape = sh → Ext ok g (runAll f l g).1 := by
  induction l with
  | nil => intro g _; exact Ext.refl _ g
  | cons a l ih =>
    intro g hg
    have h1 := hf a (by simp) g hg
    simp only [runAll]
    rcases h : f a g with ⟨g', _ | _ | _ | _⟩ <;> rw [h] at h1
    · exact h1.trans (ih (fun a h => hf a (by simp [h])) g' (h1.1.trans hg))
    all_goals exact h1

theorem processRow_ext (ops : SinkOps S) (sh : List (List (DNode Unit))) : ∀ (fuel c i : Nat) (row : Row) (g : DGraph S),
    g.shape = sh → Ext (WriteAt sh c i) g (processRow ops fuel c i row g).1 := by
  intro fuel
  induction fuel with
  | zero => intro c i row g _; exact Ext.refl _ g
  | succ fuel ih =>
    intro c i row g hg
    simp only [processRow]
    cases hc : g.chains[c]? with
    | none => exact Ext.refl _ g
    | some ch =>
      have hsc : sh[c]? = some (ch.map DNode.kind) := by rw [← hg, shape_get, hc]; rfl
      simp only []
      cases hi : ch[i]? with
      | none => exact Ext.refl _ g
      | some n =>
        have hsi : (ch.map DNode.kind)[i]? = some n.kind := by simp [hi]
        have mono : ∀ e, WriteAt sh c (i + 1) e → WriteAt sh c i e := by
          rintro e ⟨c', i', r, rfl, h⟩; exact ⟨c', i', r, rfl, .next hsc hsi h⟩
        cases n with
        | sink s =>
          simp only []
          have h0 : ∀ s', Ext (WriteAt sh c i) g (g.setSink c i s' (.write c i row)) := fun s' =>
            ext_setSink hc hi ⟨c, i, row, rfl, .here hsc hsi⟩
          rcases hw : ops.write s row with ⟨s', _ | _ | _ | _⟩ <;> simp only [hw]
          · refine (h0 s').trans ?_
            exact runAll_ext (sh := sh) _ (fun r _ g hg => (ih c (i + 1) r g hg).mono mono) _ ((h0 s').1.trans hg)
          all_goals exact h0 s'
        | merge d =>
          simp only []
          have hd : ∀ e, WriteAt sh d 0 e → WriteAt sh c i e := by
            rintro e ⟨c', i', r, rfl, h⟩; exact ⟨c', i', r, rfl, .merge hsc hsi h⟩
          have h1 := (ih d 0 row g hg).mono hd
          rcases h : processRow ops fuel d 0 row g with ⟨g', _ | _ | _ | _⟩ <;> rw [h] at h1
          · exact h1.trans ((ih c (i + 1) row g' (h1.1.trans hg)).mono mono)
          all_goals exact h1
        | split ds =>
          simp only []
          have hd : ∀ d ∈ ds, ∀ e, WriteAt sh d 0 e → WriteAt sh c i e := by
            rintro d hdd e ⟨c', i', r, rfl, h⟩; exact ⟨c', i', r, rfl, .split hsc hsi hdd h⟩
          have h1 := runAll_ext (f := fun d g => processRow ops fuel d 0 row g) (ok := WriteAt sh c i) (sh := sh) ds
            (fun d hdd g hg => (ih d 0 row g hg).mono (hd d hdd)) g hg
          rcases h : runAll (fun d g => processRow ops fuel d 0 row g) ds g with ⟨g', _ | _ | _ | _⟩ <;> rw [h] at h1
          · exact h1.trans ((ih c (i + 1) row g' (h1.1.trans hg)).mono mono)
          all_goals exact h1

theorem flushFrom_ext (ops : SinkOps S) (sh : List (List (DNode Unit))) : ∀ (fuel c i : Nat) (g : DGraph S),
    g.shape = sh → Ext (FlushAt sh c i) g (flushFrom ops fuel c i g).1 := by
  intro fuel
  induction fuel with
  | zero => intro c i g _; exact Ext.refl _ g
  | succ fuel ih =>
    intro c i g hg
    simp only [flushFrom]
    cases hc : g.chains[c]? with
    | none => exact Ext.refl _ g
    | some ch =>
      have hsc : sh[c]? = some (ch.map DNode.kind) := by rw [← hg, shape_get, hc]; rfl
      simp only []
      cases hi : ch[i]? with
      | none => exact Ext.refl _ g
      | some n =>
        have hsi : (ch.map DNode.kind)[i]? = some n.kind := by simp [hi]
        have mono : ∀ e, FlushAt sh c (i + 1) e → FlushAt sh c i e := by
          rintro e ⟨c', i', rfl, h⟩; exact ⟨c', i', rfl, .next hsc hsi h⟩
        cases n with
        | sink s =>
          simp only []
          have h0 : ∀ s', Ext (FlushAt sh c i) g (g.setSink c i s' (.flush c i)) := fun s' =>
            ext_setSink hc hi ⟨c, i, rfl, .here hsc hsi⟩
          rcases hw : ops.flush s with ⟨s', _ | _ | _ | _⟩ <;> simp only [hw]
          · exact (h0 s').trans ((ih c (i + 1) _ ((h0 s').1.trans hg)).mono mono)
          all_goals exact h0 s'
        | merge d =>
          simp only []
          have hd : ∀ e, FlushAt sh d 0 e → FlushAt sh c i e := by
            rintro e ⟨c', i', rfl, h⟩; exact ⟨c', i', rfl, .merge hsc hsi h⟩
          have h1 := (ih d 0 g hg).mono hd
          rcases h : flushFrom ops fuel d 0 g with ⟨g', _ | _ | _ | _⟩ <;> rw [h] at h1
          · exact h1.trans ((ih c (i + 1) g' (h1.1.trans hg)).mono mono)
          all_goals exact h1
        | split ds =>
          simp only []
          have hd : ∀ d ∈ ds, ∀ e, FlushAt sh d 0 e → FlushAt sh c i e := by
            rintro d hdd e ⟨c', i', rfl, h⟩; exact ⟨c', i', rfl, .split hsc hsi hdd h⟩
          have h1 := runAll_ext (f := fun d g => flushFrom ops fuel d 0 g) (ok := FlushAt sh c i) (sh := sh) ds
            (fun d hdd g hg => (ih d 0 g hg).mono (hd d hdd)) g hg
          rcases h : runAll (fun d g => flushFrom ops fuel d 0 g) ds g with ⟨g', _ | _ | _ | _⟩ <;> rw [h] at h1
          · exact h1.trans ((ih c (i + 1) g' (h1.1.trans hg)).mono mono)
          all_goals exact h1

/-! ## A successful flush reaches every reachable sink -/

/-- New events of `g'` relative to `g`. -/
def newEvents (g g' : DGraph S) : List Event := g'.log.drop g.log.length

theorem Ext.newEvents {ok : Event → Prop} {g g' : DGraph S} (h : Ext ok g g') :
    g'.log = g.log ++ newEvents g g' ∧ ∀ e ∈ newEvents g g', ok e := by
  obtain ⟨_, ev, h, hok⟩ := h
  have : Chopper.newEvents g g' = ev := by simp [Chopper.newEvents, h]
  rw [this]; exact ⟨h, hok⟩

theorem mem_new_of {ok ok' : Event → Prop} {g g1 g2 : DGraph S} (h : Ext ok g g1) (h' : Ext ok' g1 g2) {e : Event} :
    (e ∈ newEvents g g1 ∨ e ∈ newEvents g1 g2) → e ∈ newEvents g g2 := by
  have a := h.newEvents.1
  have b := h'.newEvents.1
  have : newEvents g g2 = newEvents g g1 ++ newEvents g1 g2 := by
    conv => lhs; unfold newEvents
    rw [b, a]; simp
  rw [this]; simp

theorem runAll_flush_mem {ops : SinkOps S} {sh fuel} (ds : List Nat) {e : Event} :
    ∀ {g g' : DGraph S}, g.shape = sh → runAll (fun d g => flushFrom ops fuel d 0 g) ds g = (g', .ok ()) →
    (∃ d ∈ ds, ∀ g g' : DGraph S, g.shape = sh → flushFrom ops fuel d 0 g = (g', .ok ()) → e ∈ newEvents g g') →
    e ∈ newEvents g g' := by
  induction ds with
  | nil => intro g g' _ _ h; obtain ⟨d, hd, _⟩ := h; simp at hd
  | cons a ds ih =>
    intro g g' hg hr hd
    obtain ⟨g1, h1, h2⟩ := runAll_ok_cons.1 hr
    have e1 := flushFrom_ext ops sh fuel a 0 g hg
    rw [h1] at e1
    have e2 := runAll_ext (f := fun d g => flushFrom ops fuel d 0 g) (ok := fun _ => True) (sh := sh) ds
      (fun d _ g hg => (flushFrom_ext ops sh fuel d 0 g hg).mono (fun _ _ => trivial)) g1 (e1.1.trans hg)
    rw [h2] at e2
    obtain ⟨d, hd, hx⟩ := hd
    rcases List.mem_cons.1 hd with rfl | hd
    · exact mem_new_of e1 e2 (.inl (hx g g1 hg h1))
    · exact mem_new_of e1 e2 (.inr (ih (e1.1.trans hg) h2 ⟨d, hd, hx⟩))

theorem flushFrom_reach (ops : SinkOps S) {sh c i c' i'} (hr : Reach sh c i c' i') :
    ∀ (fuel : Nat) (g g' : DGraph S), g.shape = sh → flushFrom ops fuel c i g = (g', .ok ()) →
    Event.flush c' i' ∈ newEvents g g' := by
  have base : ∀ {c : Nat} {ch : List (DNode Unit)} {g : DGraph S}, sh[c]? = some ch → g.shape = sh → ∃ dch : DChain S, g.chains[c]? = some dch ∧ ch = dch.map DNode.kind := by
    intro c ch g h hg
    rw [← hg, shape_get] at h
    cases hc : g.chains[c]? with
    | none => simp [hc] at h
    | some dch => simp [hc] at h; exact ⟨dch, rfl, h.symm⟩
  induction hr with
  | @here c i ch hc hi =>
    intro fuel g g' hg hf
    obtain ⟨dch, hdc, rfl⟩ := base hc hg
    cases fuel with
    | zero => simp [flushFrom] at hf
    | succ fuel =>
      simp only [List.getElem?_map, Option.map_eq_some_iff] at hi
      obtain ⟨n, hn, hk⟩ := hi
      cases n with
      | sink s =>
        simp only [flushFrom, hdc, hn] at hf
        have e0 : Ext (fun _ => True) g (g.setSink c i (ops.flush s).1 (.flush c i)) := ext_setSink hdc hn trivial
        rcases hw : ops.flush s with ⟨s', _ | _ | _ | _⟩ <;> simp [hw] at hf e0
        have e1 := flushFrom_ext ops sh fuel c (i + 1) _ (e0.1.trans hg)
        rw [hf] at e1
        exact mem_new_of e0 e1 (.inl (by simp [newEvents, DGraph.setSink]))
      | merge d => simp [DNode.kind] at hk
      | split d => simp [DNode.kind] at hk
  | @next c i c' i' ch n hc hi _ ih =>
    intro fuel g g' hg hf
    obtain ⟨dch, hdc, rfl⟩ := base hc hg
    cases fuel with
    | zero => simp [flushFrom] at hf
    | succ fuel =>
      simp only [List.getElem?_map, Option.map_eq_some_iff] at hi
      obtain ⟨n, hn, hk⟩ := hi
      cases n with
      | sink s =>
        simp only [flushFrom, hdc, hn] at hf
        have e0 : Ext (fun _ => True) g (g.setSink c i (ops.flush s).1 (.flush c i)) := ext_setSink hdc hn trivial
        rcases hw : ops.flush s with ⟨s', _ | _ | _ | _⟩ <;> simp [hw] at hf e0
        have e1 := flushFrom_ext ops sh fuel c (i + 1) _ (e0.1.trans hg)
        have := ih fuel _ g' (e0.1.trans hg) hf
        rw [hf] at e1
        exact mem_new_of e0 e1 (.inr this)
      | merge d =>
        simp only [flushFrom, hdc, hn] at hf
        have e0 := flushFrom_ext ops sh fuel d 0 g hg
        rcases hw : flushFrom ops fuel d 0 g with ⟨g1, _ | _ | _ | _⟩ <;> simp [hw] at hf e0
        have e1 := flushFrom_ext ops sh fuel c (i + 1) _ (e0.1.trans hg)
        have := ih fuel _ g' (e0.1.trans hg) hf
        rw [hf] at e1
        exact mem_new_of e0 e1 (.inr this)
      | split ds =>
        simp only [flushFrom, hdc, hn] at hf
        have e0 := runAll_ext (f := fun d g => flushFrom ops fuel d 0 g) (ok := fun _ => True) (sh := sh) ds
          (fun d _ g hg => (flushFrom_ext ops sh fuel d 0 g hg).mono (fun _ _ => trivial)) g hg
        rcases hw : runAll (fun d g => flushFrom ops fuel d 0 g) ds g with ⟨g1, _ | _ | _ | _⟩ <;> simp [hw] at hf e0
        have e1 := flushFrom_ext ops sh fuel c (i + 1) _ (e0.1.trans hg)
        have := ih fuel _ g' (e0.1.trans hg) hf
        rw [hf] at e1
        exact mem_new_of e0 e1 (.inr this)
  | @merge c i c' i' ch d hc hi _ ih =>
    intro fuel g g' hg hf
    obtain ⟨dch, hdc, rfl⟩ := base hc hg
    cases fuel with
    | zero => simp [flushFrom] at hf
    | succ fuel =>
      simp only [List.getElem?_map, Option.map_eq_some_iff] at hi
      obtain ⟨n, hn, hk⟩ := hi
      cases n with
      | sink s => simp [DNode.kind] at hk
      | split d => simp [DNode.kind] at hk
      | merge d' =>
        simp only [DNode.kind, DNode.merge.injEq] at hk; subst hk
        simp only [flushFrom, hdc, hn] at hf
        have e0 := flushFrom_ext ops sh fuel d' 0 g hg
        rcases hw : flushFrom ops fuel d' 0 g with ⟨g1, _ | _ | _ | _⟩ <;> simp [hw] at hf e0
        have e1 := flushFrom_ext ops sh fuel c (i + 1) _ (e0.1.trans hg)
        have := ih fuel g g1 hg hw
        rw [hf] at e1
        exact mem_new_of e0 e1 (.inl this)
  | @split c i c' i' ch ds d hc hi hd _ ih =>
    intro fuel g g' hg hf
    obtain ⟨dch, hdc, rfl⟩ := base hc hg
    cases fuel with
    | zero => simp [flushFrom] at hf
    | succ fuel =>
      simp only [List.getElem?_map, Option.map_eq_some_iff] at hi
      obtain ⟨n, hn, hk⟩ := hi
      cases n with
      | sink s => simp [DNode.kind] at hk
      | merge d => simp [DNode.kind] at hk
      | split ds' =>
        simp only [DNode.kind, DNode.split.injEq] at hk; subst hk
        simp only [flushFrom, hdc, hn] at hf
        have e0 := runAll_ext (f := fun d g => flushFrom ops fuel d 0 g) (ok := fun _ => True) (sh := sh) ds'
          (fun d _ g hg => (flushFrom_ext ops sh fuel d 0 g hg).mono (fun _ _ => trivial)) g hg
        rcases hw : runAll (fun d g => flushFrom ops fuel d 0 g) ds' g with ⟨g1, _ | _ | _ | _⟩ <;> simp [hw] at hf e0
        have e1 := flushFrom_ext ops sh fuel c (i + 1) _ (e0.1.trans hg)
        have := runAll_flush_mem ds' hg hw ⟨d, hd, fun g g' hg hf => ih fuel g g' hg hf⟩
        rw [hf] at e1
        exact mem_new_of e0 e1 (.inl this)

/-! ## Fuel -/

theorem processRow_mono (ops : SinkOps S) : ∀ (fuel c i : Nat) (row : Row) (g : DGraph S) (k : Nat),
    (processRow ops fuel c i row g).2 ≠ .diverge → processRow ops (fuel + k) c i row g = processRow ops fuel c i row g := by
  intro fuel
  induction fuel with
  | zero => intro c i row g k h; simp [processRow] at h
  | succ fuel ih =>
    intro c i row g k h
    rw [show fuel + 1 + k = (fuel + k) + 1 by omega]
    simp only [processRow] at h ⊢
    cases hc : g.chains[c]? with
    | none => rfl
    | some ch =>
      simp only [hc] at h ⊢
      cases hi : ch[i]? with
      | none => rfl
      | some n =>
        simp only [hi] at h ⊢
        cases n with
        | sink s =>
          simp only [] at h ⊢
          rcases hw : ops.write s row with ⟨s', _ | _ | _ | _⟩ <;> simp only [hw] at h ⊢
          exact runAll_congr_ok _ (fun r _ g hg => ih c (i + 1) r g k hg) _ h
        | merge d =>
          simp only [] at h ⊢
          have h1 := ih d 0 row g k
          rcases hw : processRow ops fuel d 0 row g with ⟨g', _ | _ | _ | _⟩ <;> rw [hw] at h1 <;> simp only [hw] at h <;>
            first
            | exact absurd rfl h
            | (rw [h1 (by simp)]; exact ih c (i + 1) row g' k h)
            | (rw [h1 (by simp)])
        | split ds =>
          simp only [] at h ⊢
          have h1 := runAll_congr_ok (f := fun d g => processRow ops fuel d 0 row g)
            (f' := fun d g => processRow ops (fuel + k) d 0 row g) ds (fun d _ g hg => ih d 0 row g k hg) g
          rcases hw : runAll (fun d g => processRow ops fuel d 0 row g) ds g with ⟨g', _ | _ | _ | _⟩ <;> rw [hw] at h1 <;> simp only [hw] at h <;>
            first
            | exact absurd rfl h
            | (rw [h1 (by simp)]; exact ih c (i + 1) row g' k h)
            | (rw [h1 (by simp)])

/-- A sink call never "diverges" by itself. -/
def SinkOps.Total (ops : SinkOps S) : Prop := (∀ s r, (ops.write s r).2 ≠ .diverge) ∧ ∀ s, (ops.flush s).2 ≠ .diverge

/-- `rank` decreases along every edge of the graph: there is no cycle. -/
def Ranked (sh : List (List (DNode Unit))) (rank : Nat → Nat) : Prop :=
  ∀ (c : Nat) (ch : List (DNode Unit)), sh[c]? = some ch →
    (∀ d, .merge d ∈ ch → rank d < rank c) ∧ (∀ ds, .split ds ∈ ch → ∀ d ∈ ds, rank d < rank c)

theorem processRow_total (ops : SinkOps S) (ht : ops.Total) {sh : List (List (DNode Unit))} {rank : Nat → Nat} (hr : Ranked sh rank) {M : Nat}
    (hM : ∀ (c : Nat) (ch : List (DNode Unit)), sh[c]? = some ch → ch.length ≤ M) :
    ∀ (fuel c i : Nat) (row : Row) (g : DGraph S), g.shape = sh → rank c * (M + 1) + (M - i) + 1 ≤ fuel →
      (processRow ops fuel c i row g).2 ≠ .diverge := by
  intro fuel
  induction fuel with
  | zero => intro c i row g _ h; omega
  | succ fuel ih =>
    intro c i row g hg hf
    simp only [processRow]
    cases hc : g.chains[c]? with
    | none => simp
    | some ch =>
      have hsc : sh[c]? = some (ch.map DNode.kind) := by rw [← hg, shape_get, hc]; rfl
      simp only []
      cases hi : ch[i]? with
      | none => simp
      | some n =>
        have hsi : (ch.map DNode.kind)[i]? = some n.kind := by simp [hi]
        have hiM : i < M := by
          have := hM c _ hsc
          rcases List.getElem?_eq_some_iff.1 hi with ⟨h, _⟩
          simp at this; omega
        have hmem : n.kind ∈ ch.map DNode.kind := List.mem_of_getElem? hsi
        have hnext : ∀ row (g : DGraph S), g.shape = sh → (processRow ops fuel c (i + 1) row g).2 ≠ .diverge := by
          intro row g hg; apply ih c (i + 1) row g hg
          omega
        have hjump : ∀ d, rank d < rank c → ∀ (g : DGraph S), g.shape = sh → (processRow ops fuel d 0 row g).2 ≠ .diverge := by
          intro d hd g hg; apply ih d 0 row g hg
          have : (rank d + 1) * (M + 1) ≤ rank c * (M + 1) := Nat.mul_le_mul_right _ hd
          rw [Nat.add_mul] at this
          omega
        cases n with
        | sink s =>
          simp only []
          have h0 := ht.1 s row
          have hsh : ∀ s', (g.setSink c i s' (.write c i row)).shape = sh := fun s' => (setSink_shape hc hi).trans hg
          rcases hw : ops.write s row with ⟨s', _ | _ | _ | _⟩ <;> simp only [hw] at h0 ⊢
          · exact (runAll_ne_diverge (fun g => g.shape = sh) _ (fun r _ g hg => ⟨hnext r g hg, ((processRow_ext ops sh _ _ _ _ g hg).1.trans hg)⟩) _ (hsh s')).1
          · simp
          · simp
          · exact absurd rfl h0
        | merge d =>
          simp only []
          have h1 := hjump d ((hr c _ hsc).1 d hmem) g hg
          have h2 := processRow_ext ops sh fuel d 0 row g hg
          rcases hw : processRow ops fuel d 0 row g with ⟨g', _ | _ | _ | _⟩ <;> simp only [hw] at h1 h2 ⊢
          · exact hnext row g' (h2.1.trans hg)
          · simp
          · simp
          · exact h1
        | split ds =>
          simp only []
          have h1 := runAll_ne_diverge (f := fun d g => processRow ops fuel d 0 row g) (fun g => g.shape = sh) ds
            (fun d hd g hg => ⟨hjump d ((hr c _ hsc).2 ds hmem d hd) g hg, ((processRow_ext ops sh _ _ _ _ g hg).1.trans hg)⟩) g hg
          rcases hw : runAll (fun d g => processRow ops fuel d 0 row g) ds g with ⟨g', _ | _ | _ | _⟩ <;> simp only [hw] at h1 ⊢
          · exact hnext row g' h1.2
          · simp
          · simp
          · exact h1.1

theorem flushFrom_total (ops : SinkOps S) (ht : ops.Total) {sh : List (List (DNode Unit))} {rank : Nat → Nat} (hr : Ranked sh rank) {M : Nat}
    (hM : ∀ (c : Nat) (ch : List (DNode Unit)), sh[c]? = some ch → ch.length ≤ M) :
    ∀ (fuel c i : Nat) (g : DGraph S), g.shape = sh → rank c * (M + 1) + (M - i) + 1 ≤ fuel →
      (flushFrom ops fuel c i g).2 ≠ .diverge := by
  intro fuel
  induction fuel with
  | zero => intro c i g _ h; omega
  | succ fuel ih =>
    intro c i g hg hf
    simp only [flushFrom]
    cases hc : g.chains[c]? with
    | none => simp
    | some ch =>
      have hsc : sh[c]? = some (ch.map DNode.kind) := by rw [← hg, shape_get, hc]; rfl
      simp only []
      cases hi : ch[i]? with
      | none => simp
      | some n =>
        have hsi : (ch.map DNode.kind)[i]? = some n.kind := by simp [hi]
        have hiM : i < M := by
          have := hM c _ hsc
          rcases List.getElem?_eq_some_iff.1 hi with ⟨h, _⟩
          simp at this; omega
        have hmem : n.kind ∈ ch.map DNode.kind := List.mem_of_getElem? hsi
        have hnext : ∀ (g : DGraph S), g.shape = sh → (flushFrom ops fuel c (i + 1) g).2 ≠ .diverge := by
          intro g hg; apply ih c (i + 1) g hg
          omega
        have hjump : ∀ d, rank d < rank c → ∀ (g : DGraph S), g.shape = sh → (flushFrom ops fuel d 0 g).2 ≠ .diverge := by
          intro d hd g hg; apply ih d 0 g hg
          have : (rank d + 1) * (M + 1) ≤ rank c * (M + 1) := Nat.mul_le_mul_right _ hd
          rw [Nat.add_mul] at this
          omega
        cases n with
        | sink s =>
          simp only []
          have h0 := ht.2 s
          have hsh : ∀ s', (g.setSink c i s' (.flush c i)).shape = sh := fun s' => (setSink_shape hc hi).trans hg
          rcases hw : ops.flush s with ⟨s', _ | _ | _ | _⟩ <;> simp only [hw] at h0 ⊢
          · exact hnext _ (hsh s')
          · simp
          · simp
          · exact h0
        | merge d =>
          simp only []
          have h1 := hjump d ((hr c _ hsc).1 d hmem) g hg
          have h2 := flushFrom_ext ops sh fuel d 0 g hg
          rcases hw : flushFrom ops fuel d 0 g with ⟨g', _ | _ | _ | _⟩ <;> simp only [hw] at h1 h2 ⊢
          · exact hnext g' (h2.1.trans hg)
          · simp
          · simp
          · exact h1
        | split ds =>
          simp only []
          have h1 := runAll_ne_diverge (f := fun d g => flushFrom ops fuel d 0 g) (fun g => g.shape = sh) ds
            (fun d hd g hg => ⟨hjump d ((hr c _ hsc).2 ds hmem d hd) g hg, ((flushFrom_ext ops sh _ _ _ g hg).1.trans hg)⟩) g hg
          rcases hw : runAll (fun d g => flushFrom ops fuel d 0 g) ds g with ⟨g', _ | _ | _ | _⟩ <;> simp only [hw] at h1 ⊢
          · exact hnext g' h1.2
          · simp
          · simp
          · exact h1.1

end Chopper
