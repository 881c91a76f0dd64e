import Verif.Spec.Zst

namespace Chopper
open Spec

/-- What has not been read yet. -/
def FrameDecoder.rest (d : FrameDecoder) : List Byte := d.decoded ++ d.frame.blocks.flatten

theorem decodeLoop_spec (damaged : Bool) : ∀ (bs : List (List Byte)) (n : Nat) (acc : List Byte), ∃ r bs' acc',
    decodeLoop damaged n bs acc = (r, bs', acc') ∧ acc' ++ bs'.flatten = acc ++ bs.flatten ∧
    ((r = .ok () ∧ (bs ≠ [] → bs'.length < bs.length) ∧ (bs = [] → damaged = false)) ∨ (r = .err (.io .other) ∧ damaged = true))
  | [], n, acc => by
    cases damaged
    · exact ⟨_, _, _, rfl, rfl, .inl ⟨rfl, by simp, by simp⟩⟩
    · exact ⟨_, _, _, rfl, rfl, .inr ⟨rfl, rfl⟩⟩
  | b :: bs, n, acc => by
    unfold decodeLoop
    split
    · exact ⟨_, _, _, rfl, by simp, .inl ⟨rfl, by simp, by simp⟩⟩
    · rename_i hcond
      obtain ⟨r, bs', acc', h1, h2, h3⟩ := decodeLoop_spec damaged bs (n - b.length) (acc ++ b)
      refine ⟨r, bs', acc', h1, by rw [h2]; simp, ?_⟩
      rcases h3 with ⟨h3, h4, h5⟩ | h3
      · refine .inl ⟨h3, fun _ => ?_, by simp⟩
        by_cases hb : bs = []
        · exact absurd (.inr ⟨hb, h5 hb⟩) hcond
        · have := h4 hb
          simp only [List.length_cons]
          omega
      · exact .inr h3

theorem zstLoop_spec : ∀ (fuel n : Nat) (d : FrameDecoder), d.frame.blocks.length < fuel → ∃ r d', zstLoop fuel n d = (r, d') ∧ d'.rest = d.rest ∧
    d'.frame.damaged = d.frame.damaged ∧
    ((r = .ok () ∧ (d'.isFinished = true ∨ n ≤ d'.canCollect)) ∨ (r = .err (.io .other) ∧ d.frame.damaged = true))
  | 0, n, d, h => absurd h (Nat.not_lt_zero _)
  | fuel + 1, n, d, h => by
    unfold zstLoop
    split
    · exact ⟨_, _, rfl, rfl, rfl, .inl ⟨rfl, .inl (by assumption)⟩⟩
    · split
      · exact ⟨_, _, rfl, rfl, rfl, .inl ⟨rfl, .inr (by assumption)⟩⟩
      · rename_i hf hc
        unfold FrameDecoder.decodeBlocks
        obtain ⟨r, bs', acc', h1, h2, h3⟩ := decodeLoop_spec d.frame.damaged d.frame.blocks (n - d.canCollect) d.decoded
        rw [h1]
        rcases h3 with ⟨rfl, h4, h5⟩ | ⟨rfl, h4⟩
        · have hb : d.frame.blocks ≠ [] := by
            intro hb
            apply hf
            simp [FrameDecoder.isFinished, hb, h5 hb]
          have := h4 hb
          obtain ⟨r, d', g1, g2, g3, g4⟩ := zstLoop_spec fuel n ⟨{ d.frame with blocks := bs' }, acc'⟩ (by simp only; omega)
          exact ⟨r, d', g1, by rw [g2]; exact h2, g3, g4⟩
        · exact ⟨_, _, rfl, h2, rfl, .inr ⟨rfl, h4⟩⟩

/-- One `read`: the next bytes, as many as fit; or an error, only if the frame is damaged. -/
theorem zstRead_spec (d : FrameDecoder) (n : Nat) :
    (∃ d', zstRead d n = (.ok (d.rest.take n), d') ∧ d'.rest = d.rest.drop n ∧ d'.frame.damaged = d.frame.damaged ∧
      (d.frame.damaged = true → n ≤ d.rest.length)) ∨
    (∃ d', zstRead d n = (.err (.io .other), d') ∧ d'.rest = d.rest ∧ d.frame.damaged = true ∧ d'.frame.damaged = true) := by
  obtain ⟨r, d', h1, h2, h3, h4⟩ := zstLoop_spec (d.frame.blocks.length + 2) n d (by omega)
  unfold zstRead
  rw [h1]
  rcases h4 with ⟨rfl, h4⟩ | ⟨rfl, h4⟩
  · left
    simp only [FrameDecoder.read]
    by_cases hfin : d'.isFinished = true
    · have hb : d'.frame.blocks = [] ∧ d'.frame.damaged = false := by
        simpa [FrameDecoder.isFinished] using hfin
      have hc : d'.canCollect = d'.decoded.length := by simp [FrameDecoder.canCollect, hfin]
      have hrest : d.rest = d'.decoded := by rw [← h2]; simp [FrameDecoder.rest, hb.1]
      refine ⟨⟨d'.frame, d'.decoded.drop (min n d'.canCollect)⟩, ?_, ?_, h3, fun hd => ?_⟩
      · rw [hc, hrest, ← List.take_eq_take_min]
      · simp only [FrameDecoder.rest, hb.1, List.flatten_nil, List.append_nil]
        rw [hc, show d.decoded ++ d.frame.blocks.flatten = d.rest from rfl, hrest, ← List.drop_eq_drop_min]
      · rw [← h3, hb.2] at hd; cases hd
    · have hn : n ≤ d'.canCollect := h4.resolve_left hfin
      have hle : n ≤ d'.decoded.length := by
        unfold FrameDecoder.canCollect at hn
        rw [if_neg hfin] at hn
        omega
      refine ⟨⟨d'.frame, d'.decoded.drop (min n d'.canCollect)⟩, ?_, ?_, h3, fun _ => ?_⟩
      · rw [Nat.min_eq_left hn, ← h2, FrameDecoder.rest, List.take_append_of_le_length hle]
      · rw [Nat.min_eq_left hn, ← h2]
        simp only [FrameDecoder.rest]
        rw [List.drop_append_of_le_length hle]
      · rw [← h2]
        simp only [FrameDecoder.rest, List.length_append]
        omega
  · right
    exact ⟨d', rfl, h2, h4, by rw [h3, h4]⟩

end Chopper
