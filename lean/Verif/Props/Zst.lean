import Verif.Proofs.Zst

/-!
# Properties of zstd input: C78, C79
-/
namespace Chopper.Props
open Chopper Chopper.Spec

/-- **C78.** Reading an undamaged frame is reading its content: whatever the sizes of the buffers, the sizes of the blocks and of the window, every call
answers exactly as a reader that holds the content and delivers as much as fits. -/
theorem C78_exact (f : ZstFrame) (hf : f.damaged = false) (sizes : List Nat) :
    answers zstRead sizes ⟨f, []⟩ = answers Inner.read sizes (plainReader (ZstFrame.content f)) := by
  have key : ∀ (sizes : List Nat) (d : FrameDecoder), d.frame.damaged = false → answers zstRead sizes d = answers Inner.read sizes (plainReader d.rest) := by
    intro sizes
    induction sizes with
    | nil => intros; rfl
    | cons n ns ih =>
      intro d hd
      rcases zstRead_spec d n with ⟨d', h1, h2, h3, _⟩ | ⟨d', _, _, h3, _⟩
      · have hr : Inner.read (plainReader d.rest) n = (.ok (d.rest.take n), plainReader (d.rest.drop n)) := rfl
        simp only [answers, h1, hr]
        rw [ih d' (by rw [h3, hd]), h2]
      · rw [hd] at h3; cases h3
  exact key sizes ⟨f, []⟩ hf

/-- **C78 (damaged data).** The bytes delivered are the beginning of the content, every answer is bytes or an I/O error, and no call with a non-empty buffer ever
reports the end of the data. -/
theorem C78_damaged (f : ZstFrame) (hf : f.damaged = true) (sizes : List Nat) :
    deliveredBytes (answers zstRead sizes ⟨f, []⟩) <+: ZstFrame.content f ∧
    (∀ a ∈ answers zstRead sizes ⟨f, []⟩, (∃ bs, a = .ok bs) ∨ a = .err (.io .other)) ∧
    ((∀ n ∈ sizes, 0 < n) → Res.ok [] ∉ answers zstRead sizes ⟨f, []⟩) := by
  have key : ∀ (sizes : List Nat) (d : FrameDecoder), d.frame.damaged = true →
      deliveredBytes (answers zstRead sizes d) <+: d.rest ∧ (∀ a ∈ answers zstRead sizes d, (∃ bs, a = .ok bs) ∨ a = .err (.io .other)) ∧
      ((∀ n ∈ sizes, 0 < n) → Res.ok [] ∉ answers zstRead sizes d) := by
    intro sizes
    induction sizes with
    | nil => intro d _; exact ⟨List.nil_prefix, by simp [answers], by simp [answers]⟩
    | cons n ns ih =>
      intro d hd
      rcases zstRead_spec d n with ⟨d', h1, h2, h3, h4⟩ | ⟨d', h1, h2, _, h3⟩
      · obtain ⟨i1, i2, i3⟩ := ih d' (by rw [h3, hd])
        simp only [answers, h1, deliveredBytes]
        refine ⟨?_, ?_, ?_⟩
        · rw [h2] at i1
          obtain ⟨t, ht⟩ := i1
          exact ⟨t, by rw [List.append_assoc, ht, List.take_append_drop]⟩
        · intro a ha
          rcases List.mem_cons.1 ha with rfl | ha
          · exact .inl ⟨_, rfl⟩
          · exact i2 a ha
        · intro hn hmem
          rcases List.mem_cons.1 hmem with h | h
          · have hpos := hn n (by simp)
            have hlen := h4 hd
            injection h with h
            have := congrArg List.length h
            simp only [List.length_nil, List.length_take] at this
            omega
          · exact i3 (fun m hm => hn m (by simp [hm])) h
      · obtain ⟨i1, i2, i3⟩ := ih d' h3
        simp only [answers, h1, deliveredBytes]
        refine ⟨by rw [← h2]; exact i1, ?_, ?_⟩
        · intro a ha
          rcases List.mem_cons.1 ha with rfl | ha
          · exact .inr rfl
          · exact i2 a ha
        · intro hn hmem
          rcases List.mem_cons.1 hmem with h | h
          · cases h
          · exact i3 (fun m hm => hn m (by simp [hm])) h
  exact key sizes ⟨f, []⟩ hf

/-- A frame with two blocks and a window of two bytes, read with buffers of various sizes; and the same frame, damaged. -/
example : answers zstRead [2, 1, 9, 1] ⟨⟨[[1, 2, 3], [4]], false, 2⟩, []⟩ = [.ok [1, 2], .ok [3], .ok [4], .ok []] ∧
    answers zstRead [1, 2, 1] ⟨⟨[[1, 2, 3], [4]], true, 2⟩, []⟩ = [.ok [1], .err (.io .other), .ok [2]] := by decide

/-! ### C79: several frames -/

/-- **C79, stated in full**: a file that consists of undamaged frames is read as the contents of all frames, one after the other. -/
def C79_full : Prop := ∀ frames : List ZstFrame, frames ≠ [] → (∀ f ∈ frames, f.damaged = false) →
  ∃ d, zstNew frames = .ok d ∧ ∀ sizes, answers zstRead sizes d = answers Inner.read sizes (plainReader (frames.flatMap ZstFrame.content))

/-- **C79 (partial).** True for a single frame; with several frames the content of the first one is read and nothing more. -/
theorem C79_first_frame_partial (f : ZstFrame) (fs : List ZstFrame) (hf : f.damaged = false) :
    ∃ d, zstNew (f :: fs) = .ok d ∧ ∀ sizes, answers zstRead sizes d = answers Inner.read sizes (plainReader (ZstFrame.content f)) :=
  ⟨_, rfl, C78_exact f hf⟩

/-- **C79 is false**: two frames of one byte each are read as one byte, without an error. -/
theorem C79_counterexample : ¬ C79_full := by
  intro h
  obtain ⟨d, h1, h2⟩ := h [⟨[[1]], false, 0⟩, ⟨[[2]], false, 0⟩] (by simp) (by simp)
  simp only [zstNew, Res.ok.injEq] at h1
  subst h1
  exact absurd (h2 [9]) (by decide)

end Chopper.Props
