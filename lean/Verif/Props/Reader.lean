import Verif.Proofs.Reader2

/-!
# Properties of readers: C01, C02, C03

For every content, every way in which the underlying reader splits it into short reads and fails now and then or at the end (`Inner.sched`, `Inner.ending`), every buffer
size, every sequence of client operations.
-/
namespace Chopper.Props
open Chopper Spec

/-! ### C01: the byte stream is preserved -/

/-- **C01.** After previewing, whatever the client does: the bytes it got are a prefix of the underlying bytes, in order; if an operation
that asks for at least one byte yields none, the client already has all of them and the underlying reader ended normally (an error in place of the
end of file is never hidden); and every answer is bytes or an I/O error reported by the
underlying reader - nothing is lost by errors, and there is no panic. -/
theorem C01_stream (capacity : Nat) (hc : 0 < capacity) (inner : Inner) (p : Previewer) (hp : Previewer.new capacity inner = .ok p)
    (ops : List ReadOp) :
    deliveredBytes (runOps ops p.reader).1 <+: inner.data ∧
    (∀ op : ReadOp, 0 < op.asks → (op.run (runOps ops p.reader).2).1 = .ok [] →
      deliveredBytes (runOps ops p.reader).1 = inner.data ∧ inner.ending = none) ∧
    (∀ a ∈ (runOps ops p.reader).1, (∃ bs, a = .ok bs) ∨ ∃ e, a = .err (.io e) ∧ CanFail inner e) := by
  rcases previewer_spec capacity hc inner with ⟨p', h1, h2, h3, _, _, _, h7, _⟩ | ⟨e, h1, _⟩
  · rw [hp] at h1; simp at h1; subst h1
    obtain ⟨i1, i2, i3, _, _, i6⟩ := runOps_spec ops p.reader h2
    refine ⟨⟨_, by rw [i2, h3]⟩, ?_, fun a ha => (runOps_errors ops p.reader h2 a ha).imp id fun ⟨e, h, h'⟩ => ⟨e, h, previewer_canFail hp e h'⟩⟩
    intro op ha he
    rcases op_spec op _ i1 with ⟨out, r', g1, g2, g3, g4, _⟩ | ⟨e, r', g1, _⟩
    · rw [g1] at he; simp at he; subst he
      obtain ⟨this, hen⟩ := g4 ha rfl
      rw [this, List.append_nil] at i2
      exact ⟨by rw [i2, h3], by rw [← h7, ← i6]; exact hen⟩
    · rw [g1] at he; simp at he
  · rw [hp] at h1; simp at h1

/-- **C01 (completeness).** If the underlying reader reports no error, previewing succeeds, every operation succeeds, and once the client has
made as many operations as there are bytes (each asking for at least one) it has exactly the underlying bytes. -/
theorem C01_complete (capacity : Nat) (hc : 0 < capacity) (inner : Inner) (hn : NoFail inner) :
    ∃ p, Previewer.new capacity inner = .ok p ∧
      ∀ ops : List ReadOp, (∀ op ∈ ops, 0 < op.asks) → inner.data.length ≤ ops.length →
        deliveredBytes (runOps ops p.reader).1 = inner.data ∧ ∀ a ∈ (runOps ops p.reader).1, ∃ bs, a = .ok bs := by
  rcases previewer_spec capacity hc inner with ⟨p, h1, h2, h3, _, _, h6, _⟩ | ⟨e, h1, h2⟩
  · refine ⟨p, h1, ?_⟩
    intro ops ha hl
    obtain ⟨i1, i2, i3, i4, _⟩ := runOps_spec ops p.reader h2
    have := runOps_complete ops p.reader h2 (h6 hn) ha (by rw [h3]; exact hl)
    rw [this, List.append_nil] at i2
    exact ⟨by rw [i2, h3], (i4 (h6 hn)).2⟩
  · exact absurd h2 (hn e)

/-- **C01 (errors while previewing).** Previewing fails only with an error the underlying reader reported; and if the content is shorter than the
buffer and the underlying reader reports an error instead of the end of file, previewing does fail. -/
theorem C01_preview_errors (capacity : Nat) (hc : 0 < capacity) (inner : Inner) :
    ((∃ p, Previewer.new capacity inner = .ok p) ∨ ∃ e, Previewer.new capacity inner = .err (.io e) ∧ CanFail inner e) ∧
    (inner.data.length < capacity → inner.ending ≠ none → ∃ e, Previewer.new capacity inner = .err (.io e)) := by
  rcases previewer_spec capacity hc inner with ⟨p, h1, _, _, _, _, _, _, h8⟩ | ⟨e, h1, h2⟩
  · exact ⟨.inl ⟨p, h1⟩, fun hl he => absurd (h8 hl) he⟩
  · exact ⟨.inr ⟨e, h1, h2⟩, fun _ _ => ⟨e, h1⟩⟩

example : Previewer.new 4 ⟨[1, 2, 3], [.bytes 2], some .invalidData⟩ = .err (.io .invalidData) ∧
    (Previewer.new 3 ⟨[1, 2, 3], [.bytes 2], some .invalidData⟩).map (·.trimmed) = .ok [1, 2, 3] := by decide +kernel

/-- Ten bytes, short reads, a buffer of four bytes, a mix of operations. -/
example : (runOps [.read 3, .fillConsume 2, .read 100, .read 1, .fillConsume 9]
    (match Previewer.new 4 ⟨[1, 2, 3, 4, 5, 6, 7, 8, 9, 10], [.bytes 3, .bytes 1, .bytes 2, .fail .other], none⟩ with
      | .ok p => p.reader
      | _ => ⟨⟨[], [], none⟩, [], 0, 0⟩)).1 = [.ok [1, 2, 3], .ok [4], .ok [5, 6], .err (.io .other), .ok [7, 8, 9, 10]] := by decide +kernel

/-! ### C02: preview lines -/

/-- **C02.** The preview holds the first `capacity` bytes. Split them into newline terminated pieces and an unterminated rest (always possible,
in one way). The lines reported are the pieces, followed by the rest if it is not empty and the whole content is shorter than the buffer, each
without one trailing carriage return, decoded as UTF-8; if one of them is not UTF-8, no lines are reported (`decodeAll`). -/
theorem C02_lines (capacity : Nat) (hc : 0 < capacity) (inner : Inner) (p : Previewer) (hp : Previewer.new capacity inner = .ok p) :
    p.trimmed = inner.data.take capacity ∧
    (∃ pieces rest, IsLines (inner.data.take capacity) pieces rest) ∧
    ∀ pieces rest, IsLines (inner.data.take capacity) pieces rest →
      p.lines = decodeAll ((pieces ++ if rest = [] ∨ capacity ≤ inner.data.length then [] else [rest]).map dropCr) := by
  rcases previewer_spec capacity hc inner with ⟨p', h1, _, _, h4, h5, _⟩ | ⟨e, h1, _⟩
  · rw [hp] at h1; simp at h1; subst h1
    exact ⟨h4, isLines_exists _, h5⟩
  · rw [hp] at h1; simp at h1

/-- `decodeAll` gives the texts whose encodings the lines are, and nothing iff one of them is no encoding of a text. -/
theorem C02_decodeAll (ls : List (List Byte)) (ss : List Str) : decodeAll ls = some ss ↔ ls = ss.map utf8Encode := by
  induction ls generalizing ss with
  | nil => simp [decodeAll]
  | cons l ls ih =>
    simp only [decodeAll]
    cases hd : utf8Decode l with
    | none =>
      simp only [reduceCtorEq, false_iff]
      intro h
      cases ss with
      | nil => simp at h
      | cons s ss =>
        simp at h
        rw [utf8Decode_iff.2 h.1] at hd; simp at hd
    | some s =>
      rw [utf8Decode_iff] at hd
      subst hd
      cases ss with
      | nil => simp
      | cons s' ss =>
        simp only [Option.map_eq_some_iff, List.cons.injEq, List.map_cons]
        constructor
        · rintro ⟨ss', h1, rfl, rfl⟩
          exact ⟨rfl, (ih _).1 h1⟩
        · rintro ⟨h1, h2⟩
          exact ⟨ss, (ih _).2 h2, utf8Encode_inj h1, rfl⟩

/-- "a\r\nb" in a buffer of 8 bytes: both lines; in a buffer of 4 bytes: only the first. Not UTF-8: none. -/
example : (Previewer.new 8 ⟨[97, 13, 10, 98], [.bytes 2], none⟩).map (·.lines) = .ok (some [['a'], ['b']]) ∧
    (Previewer.new 4 ⟨[97, 13, 10, 98], [], none⟩).map (·.lines) = .ok (some [['a']]) ∧
    (Previewer.new 8 ⟨[97, 10, 0xC0, 10], [], none⟩).map (·.lines) = .ok none := by decide +kernel

/-! ### C03: file comparison -/

/-- **C03.** If reading reports no error, the comparison terminates and answers whether the contents are equal, however the reads are
split. -/
theorem C03_same (f1 f2 : Inner) (h1 : NoFail f1) (h2 : NoFail f2) (fuel : Nat) (hf : f1.data.length < fuel) :
    areContentsSame fuel f1 f2 = .ok (decide (f1.data = f2.data)) := by
  rcases sameLoop_spec defaultBufSize (by decide) fuel f1 f2 hf with h | ⟨e, h, _⟩ | ⟨e, h, _⟩ | ⟨e, h, _⟩
  · exact h
  · exact absurd h (h1 e)
  · exact absurd h (h2 e)
  · exact absurd h (h2 e)

/-- **C03 (errors).** In any case it terminates without panic, an error is one the operating system reported, and an answer is correct, provided
reading the second file never itself reports the error kind "unexpected end of file" (no file system does). -/
theorem C03_errors (f1 f2 : Inner) (h2 : ¬ CanFail f2 .unexpectedEof) (fuel : Nat) (hf : f1.data.length < fuel) :
    areContentsSame fuel f1 f2 = .ok (decide (f1.data = f2.data)) ∨
    ∃ e, areContentsSame fuel f1 f2 = .err (.io e) ∧ (CanFail f1 e ∨ CanFail f2 e) := by
  rcases sameLoop_spec defaultBufSize (by decide) fuel f1 f2 hf with h | ⟨e, h, h'⟩ | ⟨e, h, h'⟩ | ⟨e, h, h'⟩
  · exact .inl h
  · exact .inr ⟨e, h', .inl h⟩
  · have : e ≠ .unexpectedEof := by rintro rfl; exact h2 h
    rw [if_neg this] at h'
    exact .inr ⟨e, h', .inr h⟩
  · exact .inr ⟨e, h', .inr h⟩

example : areContentsSame 9 ⟨[1, 2, 3, 4], [.bytes 1, .bytes 2], none⟩ ⟨[1, 2, 3, 4], [.bytes 1, .bytes 1], none⟩ = .ok true ∧
    areContentsSame 9 ⟨[1, 2, 3], [.bytes 1], none⟩ ⟨[1, 2, 3, 4], [], none⟩ = .ok false ∧
    areContentsSame 9 ⟨[1, 2, 3, 4], [], none⟩ ⟨[1, 2, 3], [.bytes 1], none⟩ = .ok false := by decide +kernel

end Chopper.Props
