import Verif.Model.DriverObj
import Verif.Proofs.Driver4
import Verif.Props.Graph

/-!
# C100: calling the driver again
-/
namespace Chopper.Props
open Chopper Spec

variable {S : Type}

/-- The first row of the input can be had: there is one in the range, or the input comes to its regular end (or to the end of the range) first. -/
def Starts (range : TimestampRange) (s : Source) : Prop := selected range s.rows ≠ [] ∨ endingWithin range s = .eof

/-- The input fails with `e` before it has delivered a row. -/
def FailsFirst (range : TimestampRange) (s : Source) (e : Err) : Prop := selected range s.rows = [] ∧ endingWithin range s = .fail e

theorem new_starts {range : TimestampRange} {s : Source} (h : Starts range s) (i : ChainId) : ∃ b, RowBuffer.new s i range = .ok b := by
  rcases matchNextRow_cases range s.rows s.ending with ⟨r', rs, s', h1, h2, h3, h4, _⟩ | ⟨h1, s', h2⟩
  · exact ⟨_, by simp only [RowBuffer.new, h2]; rfl⟩
  · rcases h with h | h
    · exact absurd h1 h
    · rw [h] at h2
      exact ⟨_, by simp only [RowBuffer.new, h2]; rfl⟩

theorem new_failsFirst {range : TimestampRange} {s : Source} {e : Err} (h : FailsFirst range s e) (i : ChainId) : RowBuffer.new s i range = .err e := by
  rcases matchNextRow_cases range s.rows s.ending with ⟨r', rs, s', h1, h2, h3, h4, _⟩ | ⟨h1, s', h2⟩
  · rw [h.1] at h1; cases h1
  · rw [h.2] at h2
    simp only [RowBuffer.new, h2]

theorem popRowBuffers_snd (range : TimestampRange) : ∀ (popped : List Source) (i : ChainId),
    (popRowBuffers range i popped).2 = getRowBuffersFrom range i popped := by
  intro popped
  induction popped with
  | nil => intro i; rfl
  | cons s ss ih =>
    intro i
    simp only [popRowBuffers, getRowBuffersFrom, Res.bind_eq]
    cases RowBuffer.new s i range with
    | ok b =>
      simp only [Res.bind_ok]
      rw [← ih (i + 1)]
      rcases popRowBuffers range (i + 1) ss with ⟨l, _ | _ | _ | _⟩ <;> rfl
    | err e => rfl
    | panic => rfl
    | diverge => rfl

theorem popRowBuffers_starts (range : TimestampRange) : ∀ (popped : List Source) (i : ChainId), (∀ s ∈ popped, Starts range s) →
    ∃ bufs, popRowBuffers range i popped = ([], .ok bufs) := by
  intro popped
  induction popped with
  | nil => intro i _; exact ⟨[], rfl⟩
  | cons s ss ih =>
    intro i h
    obtain ⟨b, hb⟩ := new_starts (h s (by simp)) i
    obtain ⟨bs, hbs⟩ := ih (i + 1) (fun x hx => h x (by simp [hx]))
    exact ⟨b :: bs, by simp only [popRowBuffers, hb, hbs]⟩

theorem popRowBuffers_fails (range : TimestampRange) (s : Source) (e : Err) (post : List Source) (hs : FailsFirst range s e) :
    ∀ (pre : List Source) (i : ChainId), (∀ s ∈ pre, Starts range s) → popRowBuffers range i (pre ++ s :: post) = (post, .err e) := by
  intro pre
  induction pre with
  | nil => intro i _; simp only [List.nil_append, popRowBuffers, new_failsFirst hs]
  | cons x xs ih =>
    intro i h
    obtain ⟨b, hb⟩ := new_starts (h x (by simp)) i
    simp only [List.cons_append, popRowBuffers, hb, ih (i + 1) (fun x hx => h x (by simp [hx]))]

theorem popRowBuffers_shorter (range : TimestampRange) : ∀ (popped : List Source) (i : ChainId), popped ≠ [] →
    (popRowBuffers range i popped).1.length < popped.length := by
  intro popped
  induction popped with
  | nil => intro i h; exact absurd rfl h
  | cons s ss ih =>
    intro i _
    simp only [popRowBuffers]
    cases RowBuffer.new s i range with
    | ok b =>
      by_cases h : ss = []
      · subst h; simp [popRowBuffers]
      · have := ih (i + 1) h
        rcases e : popRowBuffers range (i + 1) ss with ⟨l, _ | _ | _ | _⟩ <;> rw [e] at this <;> simp only [List.length_cons] at * <;> omega
    | err e => simp
    | panic => simp
    | diverge => simp

/-- A successful opening leaves no source behind. -/
theorem popRowBuffers_ok (range : TimestampRange) : ∀ (popped : List Source) (i : ChainId) (left : List Source) (bufs : List RowBuffer),
    popRowBuffers range i popped = (left, .ok bufs) → left = [] := by
  intro popped
  induction popped with
  | nil => intro i left bufs h; simp only [popRowBuffers, Prod.mk.injEq] at h; exact h.1.symm
  | cons s ss ih =>
    intro i left bufs h
    simp only [popRowBuffers] at h
    cases hb : RowBuffer.new s i range with
    | ok b =>
      simp only [hb] at h
      rcases e : popRowBuffers range (i + 1) ss with ⟨l, _ | _ | _ | _⟩ <;> simp only [e] at h
      · rw [← (Prod.mk.inj h).1]; exact ih _ _ _ e
      all_goals cases (Prod.mk.inj h).2
    | err e => simp [hb] at h
    | panic => simp [hb] at h
    | diverge => simp [hb] at h

theorem drive_empty (ops : SinkOps S) (gfuel fuel : Nat) (g : DGraph S) (range : TimestampRange) :
    (DriverObj.mk [] g range).drive ops gfuel fuel = (⟨[], g, range⟩, .ok ()) := by
  cases fuel <;> rfl

/-- The first call is the run that the other properties speak about. -/
theorem C100_first (ops : SinkOps S) (gfuel fuel : Nat) (d : DriverObj S) :
    ((d.drive ops gfuel fuel).1.graph, (d.drive ops gfuel fuel).2) = driveGraph ops d.range gfuel fuel d.sources d.graph ∧
    (d.drive ops gfuel fuel).1.range = d.range := by
  have h := popRowBuffers_snd d.range d.sources.reverse 0
  unfold DriverObj.drive driveGraph drive getRowBuffers
  rw [← h]
  rcases popRowBuffers d.range 0 d.sources.reverse with ⟨l, _ | _ | _ | _⟩ <;> exact ⟨rfl, rfl⟩

/-- **C100.** Unless an input failed before its first row, a driver that has been called once does nothing when it is called again, and reports success: nothing is
written or flushed.  This is so whatever the first call returned, in particular if it stopped at an error: the rows it had not delivered are lost. -/
theorem C100_again (ops : SinkOps S) (gfuel fuel : Nat) (d : DriverObj S) (h : ∀ s ∈ d.sources, Starts d.range s) (gfuel' fuel' : Nat) :
    (d.drive ops gfuel fuel).1.sources = [] ∧
    (d.drive ops gfuel fuel).1.drive ops gfuel' fuel' = ((d.drive ops gfuel fuel).1, .ok ()) := by
  obtain ⟨bufs, hb⟩ := popRowBuffers_starts d.range d.sources.reverse 0 (by simpa using h)
  have hs : (d.drive ops gfuel fuel).1.sources = [] := by
    simp only [DriverObj.drive, hb]; rfl
  refine ⟨hs, ?_⟩
  generalize (d.drive ops gfuel fuel).1 = d' at hs
  obtain ⟨ss, g, r⟩ := d'
  simp only at hs
  subst hs
  exact drive_empty ..

/-- After a successful call every further call does nothing and succeeds. -/
theorem C100_after_success (ops : SinkOps S) (gfuel fuel : Nat) (d : DriverObj S) (h : (d.drive ops gfuel fuel).2 = .ok ()) (gfuel' fuel' : Nat) :
    (d.drive ops gfuel fuel).1.drive ops gfuel' fuel' = ((d.drive ops gfuel fuel).1, .ok ()) := by
  have hs : (d.drive ops gfuel fuel).1.sources = [] := by
    unfold DriverObj.drive at h ⊢
    rcases e : popRowBuffers d.range 0 d.sources.reverse with ⟨l, bufs | _ | _ | _⟩ <;> rw [e] at h <;> simp only at h ⊢
    · have := popRowBuffers_ok _ _ _ _ _ e
      subst this; rfl
    all_goals cases h
  generalize (d.drive ops gfuel fuel).1 = d' at hs
  obtain ⟨ss, g, r⟩ := d'
  simp only at hs
  subst hs
  exact drive_empty ..

/-- **C100 (an input that fails before its first row).** The inputs are asked for their first rows from the last to the first.  If one of them fails, nothing has
been written, and exactly the inputs listed before it are still in the driver: the next call runs with these, and only these, as if the others had never
been given. -/
theorem C100_unopened (ops : SinkOps S) (gfuel fuel : Nat) (d : DriverObj S) (before after : List Source) (s : Source) (e : Err)
    (hd : d.sources = before ++ s :: after) (ha : ∀ x ∈ after, Starts d.range x) (hs : FailsFirst d.range s e) :
    d.drive ops gfuel fuel = (⟨before, d.graph, d.range⟩, .err e) := by
  have : popRowBuffers d.range 0 d.sources.reverse = (before.reverse, .err e) := by
    rw [hd, List.reverse_append, List.reverse_cons, List.append_assoc, List.singleton_append]
    exact popRowBuffers_fails d.range s e before.reverse hs after.reverse 0 (by simpa using ha)
  simp only [DriverObj.drive, this, List.reverse_reverse]

theorem drive_shorter (ops : SinkOps S) (gfuel fuel : Nat) (d : DriverObj S) (h : d.sources ≠ []) :
    (d.drive ops gfuel fuel).1.sources.length < d.sources.length := by
  have hs := popRowBuffers_shorter d.range d.sources.reverse 0 (by simpa using h)
  rw [List.length_reverse] at hs
  unfold DriverObj.drive
  rcases e : popRowBuffers d.range 0 d.sources.reverse with ⟨l, _ | _ | _ | _⟩ <;> rw [e] at hs <;> simpa using hs

/-- **C100 (calling until it succeeds).** Whatever happens, after at most as many calls as there are inputs every further call does nothing and succeeds. -/
theorem C100_eventually (ops : SinkOps S) (gfuel fuel : Nat) : ∀ (n : Nat) (d : DriverObj S), d.sources.length ≤ n →
    (d.after ops gfuel fuel n).drive ops gfuel fuel = (d.after ops gfuel fuel n, .ok ()) := by
  have e : ∀ (m : Nat) (g : DGraph S) (r : TimestampRange), DriverObj.after ops gfuel fuel m ⟨[], g, r⟩ = ⟨[], g, r⟩ := by
    intro m g r
    induction m with
    | zero => rfl
    | succ m ih => unfold DriverObj.after; rw [drive_empty]; exact ih
  intro n
  induction n with
  | zero =>
    intro d h
    obtain ⟨ss, g, r⟩ := d
    have : ss = [] := by simpa using h
    subst this
    rw [e]; exact drive_empty ..
  | succ n ih =>
    intro d h
    by_cases hs : d.sources = []
    · obtain ⟨ss, g, r⟩ := d
      simp only at hs
      subst hs
      rw [e]; exact drive_empty ..
    · have := drive_shorter ops gfuel fuel d hs
      unfold DriverObj.after
      exact ih _ (by omega)

/-- A run that stops at an error of its second input, whose rows start later: the second call reports success, and the second row of the first input never arrives. -/
example : let d : DriverObj Nat := ⟨[⟨[⟨1, []⟩, ⟨5, []⟩], .eof⟩, ⟨[⟨2, []⟩], .fail (.io .other)⟩], ⟨[[.sink 0], [.sink 0]], []⟩, .all⟩
    (∀ s ∈ d.sources, Starts d.range s) ∧ (d.drive doubling 9 9).2 = .err (.io .other) ∧
    ((d.drive doubling 9 9).1.drive doubling 9 9).2 = .ok () ∧
    Event.write 1 0 ⟨5, []⟩ ∉ ((d.drive doubling 9 9).1.drive doubling 9 9).1.graph.log := by
  refine ⟨?_, by decide +kernel, by decide +kernel, by decide +kernel⟩
  intro s hs
  left
  simp only [List.mem_cons, List.not_mem_nil, or_false] at hs
  rcases hs with rfl | rfl <;> decide +kernel

/-- **C100 (a retry can use the wrong chain).** Two inputs, the second of which fails at once: the first call reports it; the second call succeeds, but the rows
of the first input, whose chain would have been chain 1 had the second input delivered a row, are processed by chain 0. -/
theorem C100_wrong_chain : ∃ (d : DriverObj Nat) (r : Row), d.sources = [⟨[r], .eof⟩, ⟨[], .fail (.io .other)⟩] ∧
    d.drive doubling 9 9 = (⟨[⟨[r], .eof⟩], d.graph, d.range⟩, .err (.io .other)) ∧
    (∀ (r' : Row), fedTo 1 (calls d.range 9 [⟨[r], .eof⟩, ⟨[⟨9, r'.values⟩], .eof⟩]).1 = [r]) ∧
    fedTo 0 (calls d.range 9 [⟨[r], .eof⟩]).1 = [r] ∧
    ((⟨[⟨[r], .eof⟩], d.graph, d.range⟩ : DriverObj Nat).drive doubling 9 9).2 = .ok () :=
  ⟨⟨[⟨[⟨1, []⟩], .eof⟩, ⟨[], .fail (.io .other)⟩], ⟨[[.sink 0], [.sink 0]], []⟩, .all⟩, ⟨1, []⟩, rfl,
    C100_unopened doubling 9 9 _ [_] [] _ _ rfl (by simp) ⟨rfl, rfl⟩, fun _ => rfl, by decide +kernel, by decide +kernel⟩

end Chopper.Props
