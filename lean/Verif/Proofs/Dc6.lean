import Verif.Proofs.Dc3

/-!
# Rows read from DC fit the header
-/
namespace Chopper
open Spec

theorem readString_small {s s' : Stream} {a : Str} (h : readString s = (.ok a, s')) : (utf8Encode a).length < 2 ^ 32 := by
  unfold readString at h
  obtain ⟨short, s1, h1, h2⟩ := Rd.bind_ok_inv h
  obtain ⟨n, s2, h3, h4⟩ := Rd.bind_ok_inv h2
  obtain ⟨bs, s3, h5, h6⟩ := Rd.bind_ok_inv h4
  obtain ⟨rfl, _⟩ := rdUtf8_inv h6
  obtain ⟨_, hl⟩ := readN_inv _ _ _ _ h5
  obtain ⟨_, hs⟩ := readU_inv h1
  have hs : short < 2 ^ 16 := by simpa using hs
  rw [hl]
  split at h3
  · obtain ⟨_, hn⟩ := readU_inv h3
    have : (256 : Nat) ^ 4 = 2 ^ 32 := by decide
    omega
  · simp only [Rd.pure, Prod.mk.injEq, Res.ok.injEq] at h3
    obtain ⟨rfl, _⟩ := h3
    split <;> omega

theorem readValue_fits {t : FieldType} {s s' : Stream} {v : FieldValue} (h : readValue t s = (.ok v, s')) : Fits t v := by
  cases t
  case boolean => simp [readValue, Rd.err] at h
  case byteBuf => simp [readValue, Rd.err] at h
  case string =>
    obtain ⟨a, s1, h1, h2⟩ := Rd.bind_ok_inv h
    simp only [Rd.pure, Prod.mk.injEq, Res.ok.injEq] at h2
    obtain ⟨rfl, _⟩ := h2
    exact readString_small h1
  all_goals
    obtain ⟨n, s1, h1, h2⟩ := Rd.bind_ok_inv h
    simp only [Rd.pure, Prod.mk.injEq, Res.ok.injEq] at h2
    obtain ⟨rfl, _⟩ := h2
    exact trivial

/-- The values so far fit the first types. -/
def FitSoFar (types : List FieldType) (acc : List FieldValue) : Prop :=
  acc.length ≤ types.length ∧ ∀ (i : Nat) t v, types[i]? = some t → acc[i]? = some v → Fits t v

theorem fits_none (t : FieldType) : Fits t .none := by cases t <;> exact trivial

theorem readGroup_fits (types : List FieldType) : ∀ (j : Nat) (b : Byte) (acc res : List FieldValue) (s s' : Stream), FitSoFar types acc →
    readGroup types j b acc s = (.ok res, s') → FitSoFar types res ∧ min types.length (acc.length + j) ≤ res.length
  | 0, b, acc, res, s, s', ha, h => by
    simp only [readGroup, Rd.pure, Prod.mk.injEq, Res.ok.injEq] at h
    obtain ⟨rfl, _⟩ := h
    exact ⟨ha, by omega⟩
  | j + 1, b, acc, res, s, s', ha, h => by
    rw [readGroup] at h
    cases ht : types[acc.length]? with
    | none => rw [ht] at h; simp [Rd.panic] at h
    | some t =>
      rw [ht] at h
      simp only at h
      obtain ⟨v, s1, h1, h2⟩ := Rd.bind_ok_inv h
      have hv : Fits t v := by
        split at h1
        · exact readValue_fits h1
        · simp only [Rd.pure, Prod.mk.injEq, Res.ok.injEq] at h1
          rw [← h1.1]
          exact fits_none t
      have hlt := (List.getElem?_eq_some_iff.1 ht).1
      have hacc : FitSoFar types (acc ++ [v]) := by
        refine ⟨by simp; omega, ?_⟩
        intro i t' v' h3 h4
        by_cases hi : i < acc.length
        · rw [List.getElem?_append_left hi] at h4
          exact ha.2 i t' v' h3 h4
        · rw [List.getElem?_append_right (by omega)] at h4
          have : i - acc.length = 0 := by
            have := (List.getElem?_eq_some_iff.1 h4).1
            simp at this
            omega
          rw [this] at h4
          have hi' : i = acc.length := by omega
          subst hi'
          rw [ht] at h3
          simp only [List.getElem?_cons_zero, Option.some.injEq] at h3 h4
          rw [← h3, ← h4]
          exact hv
      split at h2
      · simp only [Rd.pure, Prod.mk.injEq, Res.ok.injEq] at h2
        obtain ⟨rfl, _⟩ := h2
        exact ⟨hacc, by simp; omega⟩
      · obtain ⟨h5, h6⟩ := readGroup_fits types j _ _ _ _ _ hacc h2
        refine ⟨h5, ?_⟩
        simp only [List.length_append, List.length_cons, List.length_nil] at h6
        omega

theorem readGroups_fits (types : List FieldType) : ∀ (bs : List Byte) (acc res : List FieldValue) (s s' : Stream), FitSoFar types acc →
    readGroups types bs acc s = (.ok res, s') → FitSoFar types res ∧ min types.length (acc.length + 8 * bs.length) ≤ res.length
  | [], acc, res, s, s', ha, h => by
    simp only [readGroups, Rd.pure, Prod.mk.injEq, Res.ok.injEq] at h
    obtain ⟨rfl, _⟩ := h
    exact ⟨ha, by simp; omega⟩
  | b :: bs, acc, res, s, s', ha, h => by
    obtain ⟨a1, s1, h1, h2⟩ := Rd.bind_ok_inv h
    obtain ⟨h3, h4⟩ := readGroup_fits types 8 b acc _ _ _ ha h1
    obtain ⟨h5, h6⟩ := readGroups_fits types bs _ _ _ _ h3 h2
    refine ⟨h5, ?_⟩
    simp only [List.length_cons]
    omega

theorem nextRow_fits {src src' : DcSource} {r : Row} (h : src.nextRow = (.ok (some r), src')) : RowFits src.header.types r := by
  unfold DcSource.nextRow at h
  rcases hw : readU 8 src.stream with ⟨_ | _ | _ | _, s1⟩
  case ok ts =>
    simp only [hw] at h
    rcases hb : readRowBody src.header.types s1 with ⟨_ | _ | _ | _, s2⟩
    case ok vs =>
      simp only [hb, Prod.mk.injEq, Res.ok.injEq, Option.some.injEq] at h
      obtain ⟨rfl, rfl⟩ := h
      obtain ⟨bm, s3, h3, h4⟩ := Rd.bind_ok_inv hb
      obtain ⟨_, h5⟩ := readN_inv _ _ _ _ h3
      obtain ⟨h6, h7⟩ := readGroups_fits _ _ _ _ _ _ ⟨by simp, by simp⟩ h4
      refine ⟨?_, h6.2⟩
      have := h6.1
      simp only [List.length_nil, h5] at h7
      show vs.length = _
      omega
    all_goals simp [hb] at h
  all_goals simp [hw] at h

theorem delivers_fits {src fin : DcSource} {rows : List Row} (h : Delivers src rows fin) : ∀ r ∈ rows, RowFits src.header.types r := by
  induction h with
  | nil => simp
  | @cons src src' fin r rs h1 h2 ih =>
    have hh : src'.header = src.header := by rw [← nextRow_header src, h1]
    intro x hx
    rcases List.mem_cons.1 hx with rfl | hx
    · exact nextRow_fits h1
    · rw [← hh]; exact ih x hx

end Chopper
