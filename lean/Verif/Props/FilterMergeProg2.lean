import Verif.Props.FilterMergeProg
import Verif.Props.Cli3

/-!
# Runs of the example program `filter_and_merge` that meet the hypotheses of C142, and one that refutes its full claim
-/
namespace Chopper.Props
open Chopper Chopper.Spec

def exC : List Byte := (dcWriteFile .panics ⟨["a".toList, "b".toList], [.int, .string]⟩ [⟨6, [.int 1, .none]⟩]).out

def fmWorld : World := { exCliWorld with file := fun p => if p = utf8Encode "x.dc".toList then some ⟨exA, [.bytes 3], none⟩ else if p = utf8Encode "y.dc".toList then some ⟨exC, [], none⟩ else none }

def fmEnv : CliEnv := { exEnv with world := fmWorld }

def exFileC : FileSource := ⟨⟨["a".toList, "b".toList], [.int, .string]⟩, ⟨[⟨6, [.int 1, .none]⟩], .eof⟩⟩

theorem fm_openA : createFromInput (newInputs fmEnv.csv fmEnv.dec fmEnv.zip fmEnv.world none [] []) fmEnv.world ⟨.path "x.dc".toList, .auto⟩ = .ok exFileA := by
  rw [C66_dc_file fmEnv.csv _ fmEnv.zip fmEnv.world none "x.dc".toList .auto ⟨exA, [.bytes 3], none⟩ (by decide +kernel) (by decide +kernel) (by decide +kernel)
    (by decide +kernel) (by decide +kernel) (noFail_none (by simp)) (.inl ⟨"x".toList, by decide +kernel, rfl⟩)]
  decide +kernel

theorem fm_openC : createFromInput (newInputs fmEnv.csv fmEnv.dec fmEnv.zip fmEnv.world none [] []) fmEnv.world ⟨.path "y.dc".toList, .auto⟩ = .ok exFileC := by
  rw [C66_dc_file fmEnv.csv _ fmEnv.zip fmEnv.world none "y.dc".toList .auto ⟨exC, [], none⟩ (by decide +kernel) (by decide +kernel) (by decide +kernel)
    (by decide +kernel) (by decide +kernel) (noFail_none (by simp)) (.inl ⟨"y".toList, by decide +kernel, rfl⟩)]
  decide +kernel

theorem fm_opens : ExampleOpens fmEnv "x.dc".toList "y.dc".toList exFileA exFileC := ⟨fm_openA, fm_openC⟩

theorem fm_good : GoodInputs ⟨none, none⟩ exFileA.header [exFileA, exFileC] := by
  refine ⟨?_, ?_, ?_, ?_⟩ <;> intro f hf <;> simp only [List.mem_cons, List.not_mem_nil, or_false] at hf <;> rcases hf with rfl | rfl
  · rfl
  · rfl
  · show List.Pairwise _ _; decide +kernel
  · show List.Pairwise _ _; decide +kernel
  · exact ⟨⟨5, [.int 1, .none]⟩, by decide +kernel, by decide +kernel⟩
  · exact ⟨⟨6, [.int 1, .none]⟩, by decide +kernel, by decide +kernel⟩
  · decide +kernel
  · decide +kernel

theorem fm_reliable : Reliable fmEnv.out.stdout := by intro k; simp [fmEnv, exEnv]

theorem fm_cols : ∀ c, c = "a".toList ∨ c = "a".toList → ∃ i, FirstCol c exFileA.header.names i := by
  rintro c (rfl | rfl) <;> exact ⟨0, findCol_iff.1 (by decide +kernel)⟩

theorem fm_printable : ∀ f ∈ [exFileA, exFileC], ∀ r ∈ f.source.rows, ∀ v ∈ r.values, ¬ Unprintable v := by
  intro f hf r hr v hv hu
  simp only [List.mem_cons, List.not_mem_nil, or_false] at hf
  rcases hf with rfl | rfl <;> simp [exFileA, exFileC] at hr
  · rcases hr with rfl | rfl <;> simp at hv <;> rcases hv with rfl | rfl <;> (rcases hu with ⟨_, hu⟩ | ⟨_, hu⟩ <;> cases hu)
  · subst hr; simp at hv; rcases hv with rfl | rfl <;> (rcases hu with ⟨_, hu⟩ | ⟨_, hu⟩ <;> cases hu)

theorem fm_greater (rows out : List Row) : ThroughAll [.greater "a".toList (.int 1)] exFileA.header rows out ↔
    (∀ r ∈ rows, (BSink.greater 0 (.int 1)).write r ≠ (.greater 0 (.int 1), .panic)) ∧ out = rows.filter (sinkKept (.greater 0 (.int 1))) :=
  through_filter ⟨_, rfl, rfl⟩ (keeps_greater 0 (.int 1)) rows out

theorem fm_equal (rows out : List Row) : ThroughAll [.equal "a".toList (.int 9)] exFileA.header rows out ↔
    (∀ r ∈ rows, (BSink.equal 0 (.int 9)).write r ≠ (.equal 0 (.int 9), .panic)) ∧ out = rows.filter (sinkKept (.equal 0 (.int 9))) :=
  through_filter ⟨_, rfl, rfl⟩ (keeps_equal 0 (.int 9)) rows out

/-- The run on two different files succeeds … -/
theorem fm_through : ThroughAll [.greater "a".toList (.int 1)] exFileA.header exFileC.source.rows [] ∧ ThroughAll [.equal "a".toList (.int 9)] exFileA.header exFileA.source.rows [] :=
  ⟨(fm_greater _ _).2 (by decide +kernel), (fm_equal _ _).2 (by decide +kernel)⟩

/-- … and prints no row, although the first row of the first file with `a > 1` is wanted: **the full claim is false**. -/
theorem C142_counterexample : ¬ C142_full := by
  intro hfull
  obtain ⟨h1, h2⟩ := C142_crossed_partial fmEnv "x.dc".toList "y.dc".toList "a".toList (.int 1) "a".toList (.int 9) exFileA exFileC fm_opens fm_good fm_reliable fm_cols fm_printable
  have hok := h1.2 ⟨[], [], fm_through.1, fm_through.2⟩
  obtain ⟨out, rows, text, e1, hm, ⟨body, e2, e3⟩, e4⟩ := h2 [] [] fm_through.1 fm_through.2
  obtain ⟨out', rows', text', w1, ⟨a, b, wa, _, _, wp⟩, ⟨body', w2, w3⟩, w4⟩ := hfull fmEnv "x.dc".toList "y.dc".toList "a".toList (.int 1) "a".toList (.int 9) exFileA exFileC
    fm_opens fm_good fm_reliable fm_cols fm_printable hok
  have hrows : rows = [] := by
    have := (merge_wanted hm).2
    simpa using this
  subst hrows
  cases e2
  obtain rfl : out = out' := Option.some.inj (e1.symm.trans w1)
  have hbody : body' = [] := by
    have h5 : text' = text := List.append_cancel_left (w4.symm.trans e4)
    rw [w3, e3] at h5
    exact List.append_cancel_left (utf8Encode_inj h5)
  subst hbody
  have ha : a = [⟨7, [.int 2, .string ['x']]⟩] := by
    rw [((fm_greater _ _).1 wa).2]
    decide +kernel
  have hne : rows' ≠ [] := by
    rintro rfl
    rw [ha] at wp
    exact absurd wp.length_eq (by simp)
  generalize hb : ([] : Str) = bb at w2
  cases w2 with
  | nil => exact hne rfl
  | cons _ _ _ => exact absurd hb (by simp)

/-- The program as it is: the same file twice. -/
example : (filterMergeExample fmEnv "x.dc".toList "x.dc".toList "a".toList (.int 1) "a".toList (.int 9)).result = .ok () := by
  refine (C142_same_input fmEnv "x.dc".toList "a".toList (.int 1) "a".toList (.int 9) exFileA fm_openA ?_ fm_reliable fm_cols ?_).1.2 ?_
  · exact ⟨fun f hf => fm_good.header f (by simp at hf ⊢; exact .inl hf), fun f hf => fm_good.sorted f (by simp at hf ⊢; exact .inl hf),
      fun f hf => fm_good.some f (by simp at hf ⊢; exact .inl hf), fun f hf => fm_good.readable f (by simp at hf ⊢; exact .inl hf)⟩
  · exact fm_printable exFileA (.head _)
  · exact ⟨[⟨7, [.int 2, .string ['x']]⟩], [⟨7, [.int 2, .string ['x']]⟩], [], (fm_greater _ _).2 (by decide +kernel), (fm_equal _ _).2 (by decide +kernel), by show List.Pairwise _ _; decide +kernel, .refl _⟩

/-- A column that does not exist. -/
example : (filterMergeExample fmEnv "x.dc".toList "y.dc".toList "z".toList (.int 1) "a".toList (.int 9)).result ≠ .ok () :=
  (C142_unsuitable fmEnv _ _ _ _ _ _ exFileA exFileC fm_opens (.inr (.inl (by
    rintro ⟨i, hi⟩
    have := findCol_iff.2 hi
    rw [show findCol "z".toList exFileA.header.names 0 = none from by decide +kernel] at this
    cases this)))).1

end Chopper.Props
