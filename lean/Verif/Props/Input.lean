import Verif.Proofs.Input2
import Verif.Props.MultiFile
import Verif.Props.Reader
import Verif.Props.Csv

/-!
# Properties of input detection: C55, C56, C57, C58, C59
-/
namespace Chopper.Props
open Chopper Chopper.Spec

variable {α : Type}

/-! ### C55: recognition by content -/

/-- **C55.** Content is taken for a compression format exactly if it starts with that format's magic bytes. -/
theorem C55_magic (content : List Byte) (c : Option CompFormat) : compressionOfContent content = c ↔ ContentIs content c :=
  (contentIs_iff content c).symm

/-- **C55 (through the preview).** The same, for the content of a reader that was previewed. -/
theorem C55_preview (inner : Inner) (p : Previewer) (hp : Previewer.new defaultBufSize inner = .ok p) (c : Option CompFormat) :
    compressionOfContent p.trimmed = c ↔ ContentIs inner.data c := by
  rcases previewer_spec defaultBufSize (by decide) inner with ⟨p', h1, _, _, h4, _⟩ | ⟨e, h1, _⟩
  · rw [hp] at h1
    injection h1 with h1; subst h1
    rw [C55_magic, h4]
    have key : ∀ f m, Magic f m → (m <+: inner.data.take defaultBufSize ↔ m <+: inner.data) := by
      intro f m hm
      have hl : m.length ≤ 8 := by cases hm <;> simp
      constructor
      · intro h; exact h.trans (List.take_prefix _ _)
      · intro h
        rw [List.prefix_iff_eq_take] at h ⊢
        rw [List.take_take, Nat.min_eq_left (Nat.le_trans hl (by decide)), ← h]
    cases c with
    | some f =>
      constructor
      · rintro ⟨m, h1, h2⟩; exact ⟨m, h1, (key f m h1).1 h2⟩
      · rintro ⟨m, h1, h2⟩; exact ⟨m, h1, (key f m h1).2 h2⟩
    | none =>
      constructor
      · intro h f m h1 h2; exact h f m h1 ((key f m h1).2 h2)
      · intro h f m h1 h2; exact h f m h1 ((key f m h1).1 h2)
  · rw [hp] at h1; simp at h1

/-- **C55 (at most one format).** -/
theorem C55_unique (content : List Byte) (c c' : Option CompFormat) (h : ContentIs content c) (h' : ContentIs content c') : c = c' :=
  ((C55_magic content c).2 h).symm.trans ((C55_magic content c').2 h')

/-- **C55 (short content).** Fewer than four bytes are never taken for compressed. -/
theorem C55_short (content : List Byte) (h : content.length < 4) : compressionOfContent content = none := by
  rw [C55_magic]
  intro f m hm hp
  have := magic_length hm
  have := hp.length_le
  omega

example : compressionOfContent [0x1F, 0x8B, 8, 0, 77] = some .gz := by decide +kernel
example : compressionOfContent [0x4C, 0x5A, 0x34, 0x42, 0x6C, 0x6F, 0x63, 0x6B, 1] = some .lz4 := by decide +kernel
example : compressionOfContent [0x4C, 0x5A, 0x34, 0x42, 0x6C, 0x6F, 0x63, 0x6C, 1] = none := by decide +kernel

/-! ### C56: recognition by name -/

/-- **C56.** A name is recognised exactly if it ends in a compression extension, and what is left is the name without it; other names are left alone. -/
theorem C56_name (name : Str) :
    (∀ f base, compressionOfName name = some (f, base) ↔ name = base ++ (extension f).toList) ∧
    (compressionOfName name = none ↔ ∀ f base, name ≠ base ++ (extension f).toList) :=
  ⟨fun f base => compressionOfName_iff name f base, compressionOfName_none name⟩

/-- **C56 (what is done).** Opening by name takes the data through the decoder of the extension and goes on with the name without it. -/
theorem C56_decoder (dec : Decoders) (p : Previewer) (name : Str) (c : Option CompFormat) (base : Str) (h : NameSplits name c base) :
    decompressByName dec p name = (decoded dec c p).bind fun p' => .ok (c.isSome, p', base) :=
  decompressByName_eq h

/-- Every name splits in exactly one way. -/
theorem C56_split (name : Str) : ∃ c base, NameSplits name c base ∧ ∀ c' base', NameSplits name c' base' → c' = c ∧ base' = base := by
  cases hc : compressionOfName name with
  | none =>
    have hn := (compressionOfName_none name).1 hc
    refine ⟨none, name, ⟨rfl, hn⟩, ?_⟩
    intro c' base' h'
    cases c' with
    | none => exact ⟨rfl, h'.1⟩
    | some f => exact absurd h' (hn f base')
  | some x =>
    have hx := (compressionOfName_iff name x.1 x.2).1 hc
    refine ⟨some x.1, x.2, hx, ?_⟩
    intro c' base' h'
    cases c' with
    | none => exact absurd hx (h'.2 _ _)
    | some f =>
      have := ext_unique (h'.symm.trans hx)
      exact ⟨by rw [this.1], this.2⟩

example : NameSplits "a.b.csv.lz4".toList (some .lz4) "a.b.csv".toList := by show _ = _; decide +kernel
example : compressionOfName "gz".toList = none := by decide +kernel

/-! ### C57: explicit formats, names, contents -/

/-- `e` with a leading dot: itself if it has one. -/
def Dotted (e full : Str) : Prop := (full = e ∧ ∃ r, e = '.' :: r) ∨ (full = '.' :: e ∧ ∀ r, e ≠ '.' :: r)

theorem dotted_iff (e full : Str) : Dotted e full ↔ withDot e = full := by
  unfold Dotted withDot
  constructor
  · rintro (⟨rfl, r, rfl⟩ | ⟨rfl, h⟩)
    · rfl
    · split
      · rename_i r; exact absurd rfl (h r)
      · rfl
  · intro h
    split at h
    · rename_i r; exact .inl ⟨h.symm, r, rfl⟩
    · rename_i hn; exact .inr ⟨h.symm, fun r hr => hn r hr⟩

/-- **C57 (explicit format).** With an explicit format the decoder is the one of its compression extension and the source is made by the first factory
for the rest of it; if there is none the result is an error. File name and content detection play no part: the equations hold for every `name`, and on the
right side only the decoder and the chosen factory see the content. -/
theorem C57_explicit (dec : Decoders) (sfs : List (Factory α)) (p : Previewer) (name : Option Str) (e full : Str) (hd : Dotted e full)
    (c : Option CompFormat) (base : Str) (hs : NameSplits full c base) :
    (∀ f, FirstOf sfs (·.canFormat base) f → createFromPreviewer dec sfs p name (.extension e) = (decoded dec c p).bind f.create) ∧
    ((∀ f ∈ sfs, f.canFormat base = false) → ∀ p', decoded dec c p = .ok p' → IsCustomError (createFromPreviewer dec sfs p name (.extension e))) ∧
    (∀ x, decoded dec c p = .err x → createFromPreviewer dec sfs p name (.extension e) = .err x) := by
  rw [dotted_iff] at hd
  have heq : createFromPreviewer dec sfs p name (.extension e) = (decoded dec c p).bind fun p' => createFromFormat p' base sfs := by
    unfold createFromPreviewer
    simp only
    rw [hd, decompressByName_eq hs]
    cases decoded dec c p <;> rfl
  rw [heq]
  refine ⟨?_, ?_, ?_⟩
  · intro f hf
    congr 1
    funext p'
    rw [createFromFormat_eq, createByName_first hf]
  · intro hn p' hp'
    rw [hp', Res.bind_ok, createFromFormat_eq, createByName_none hn]
    exact ⟨_, rfl⟩
  · intro x hx
    rw [hx, Res.bind_err]

/-- **C57 (name before content).** With `auto` and a name: the name's compression extension decides about decoding, and if a factory knows the rest of the
name the first such factory is taken, whatever the content. -/
theorem C57_name_first (dec : Decoders) (sfs : List (Factory α)) (p : Previewer) (name : Str) (c : Option CompFormat) (base : Str)
    (hs : NameSplits name c base) (f : Factory α) (hf : FirstOf sfs (·.canFormat base) f) :
    createFromPreviewer dec sfs p (some name) .auto = (decoded dec c p).bind f.create := by
  unfold createFromPreviewer
  simp only
  rw [decompressByName_eq hs]
  cases hd : decoded dec c p with
  | ok p' => simp only [Res.bind_ok]; exact createByName_first hf
  | err e => rfl
  | panic => rfl
  | diverge => rfl

/-- The source made from the content alone: the first factory that recognises it, otherwise an error. -/
def MadeFromContent (sfs : List (Factory α)) (p : Previewer) (res : Res α) : Prop :=
  (∃ f, FirstOf sfs (·.canPreview p) f ∧ res = f.create p) ∨ ((∀ f ∈ sfs, f.canPreview p = false) ∧ IsCustomError res)

theorem madeFromContent (sfs : List (Factory α)) (p : Previewer) : MadeFromContent sfs p (createFromContent p sfs) := by
  rcases firstOf_cases sfs (·.canPreview p) with ⟨f, hf⟩ | hn
  · exact .inl ⟨f, hf, createFromContent_first hf⟩
  · exact .inr ⟨hn, createFromContent_none hn⟩

/-- **C57 (content, after an unhelpful name).** If no factory knows the name, the content decides: a compression extension has been dealt with by name and the
decoded content is not decompressed again; without one the content's magic bytes decide about decoding. -/
theorem C57_then_content (dec : Decoders) (sfs : List (Factory α)) (p : Previewer) (name : Str) (c : Option CompFormat) (base : Str)
    (hs : NameSplits name c base) (hn : ∀ f ∈ sfs, f.canFormat base = false) :
    (∀ f p', c = some f → decoded dec (some f) p = .ok p' → MadeFromContent sfs p' (createFromPreviewer dec sfs p (some name) .auto)) ∧
    (∀ k p', c = none → ContentIs p.trimmed k → decoded dec k p = .ok p' → MadeFromContent sfs p' (createFromPreviewer dec sfs p (some name) .auto)) ∧
    (∀ f x, c = some f → decoded dec (some f) p = .err x → createFromPreviewer dec sfs p (some name) .auto = .err x) ∧
    (∀ k x, c = none → ContentIs p.trimmed k → decoded dec k p = .err x → createFromPreviewer dec sfs p (some name) .auto = .err x) := by
  have heq : createFromPreviewer dec sfs p (some name) .auto = (decoded dec c p).bind fun p' =>
      (if c.isSome then .ok p' else decompressByContent dec p').bind fun p'' => createFromContent p'' sfs := by
    unfold createFromPreviewer
    simp only
    rw [decompressByName_eq hs]
    cases hd : decoded dec c p with
    | ok p' => simp only [Res.bind_ok]; exact createByName_none hn
    | err e => rfl
    | panic => rfl
    | diverge => rfl
  rw [heq]
  refine ⟨?_, ?_, ?_, ?_⟩
  · rintro f p' rfl hd
    simp only [hd, Res.bind_ok, Option.isSome_some, if_true]
    exact madeFromContent sfs p'
  · rintro k p' rfl hk hd
    have : decoded dec none p = .ok p := rfl
    simp only [this, Res.bind_ok, Option.isSome_none, Bool.false_eq_true, if_false]
    rw [decompressByContent_eq, (C55_magic _ _).2 hk, hd, Res.bind_ok]
    exact madeFromContent sfs p'
  · rintro f x rfl hd
    rw [hd, Res.bind_err]
  · rintro k x rfl hk hd
    have : decoded dec none p = .ok p := rfl
    simp only [this, Res.bind_ok, Option.isSome_none, Bool.false_eq_true, if_false]
    rw [decompressByContent_eq, (C55_magic _ _).2 hk, hd, Res.bind_err]

/-- **C57 (content, without a name).** -/
theorem C57_content_only (dec : Decoders) (sfs : List (Factory α)) (p : Previewer) (k : Option CompFormat) (hk : ContentIs p.trimmed k) :
    (∀ p', decoded dec k p = .ok p' → MadeFromContent sfs p' (createFromPreviewer dec sfs p none .auto)) ∧
    (∀ x, decoded dec k p = .err x → createFromPreviewer dec sfs p none .auto = .err x) := by
  have heq : createFromPreviewer dec sfs p none .auto = (decoded dec k p).bind fun p' => createFromContent p' sfs := by
    unfold createFromPreviewer
    simp only
    rw [decompressByContent_eq, (C55_magic _ _).2 hk]
  rw [heq]
  constructor
  · intro p' hd
    rw [hd, Res.bind_ok]; exact madeFromContent sfs p'
  · intro x hd
    rw [hd, Res.bind_err]

/-- The hypotheses are met: a name with a compression extension and factories for two formats. -/
def exFactory (ext : Str) (n : Nat) : Factory Nat := ⟨fun s => endsWith s ext, fun _ => false, fun _ => .ok n⟩
example : FirstOf [exFactory ".csv".toList 1, exFactory ".dc".toList 2] (·.canFormat "x.dc".toList) (exFactory ".dc".toList 2) :=
  ⟨[exFactory ".csv".toList 1], [], rfl, by decide +kernel, by intro g hg; simp at hg; subst hg; decide +kernel⟩
example : NameSplits "x.dc.gz".toList (some .gz) "x.dc".toList := by show _ = _; decide +kernel
example : Dotted "dc.gz".toList ".dc.gz".toList := .inr ⟨rfl, by intro r; simp⟩

/-! ### C58: DC content -/

/-- The start of a DC file: magic number and version. -/
def dcStart : List Byte := [0, 0, 0, 0, 0x44, 0x43, 0x41, 0x54, 0, 2]

/-- The DC factory recognises exactly the content that starts like a DC file. -/
theorem C58_recognised (buf : List Byte) : dcCanPreview buf = true ↔ dcStart <+: buf := by
  have h8 : beBytes 8 dcMagic = [0, 0, 0, 0, 0x44, 0x43, 0x41, 0x54] := by decide +kernel
  have h2 : beBytes 2 dcVersion = [0, 2] := by decide +kernel
  constructor
  · intro h
    unfold dcCanPreview at h
    rcases hw : readU 8 (ofBytes buf) with ⟨_ | _ | _ | _, rest⟩
    case ok magic =>
      simp only [hw] at h
      by_cases hm : magic = dcMagic
      · subst hm
        simp only [ne_eq, not_true, if_false] at h
        rcases hv : readU 2 rest with ⟨_ | _ | _ | _, rest'⟩
        case ok v =>
          simp only [hv, beq_iff_eq] at h
          subst h
          have a1 := (readU_inv hw).1
          have a2 := (readU_inv hv).1
          rw [h8] at a1
          rw [h2] at a2
          rw [a2] at a1
          have hk : ∀ s : Stream, ofBytes buf = ofBytes dcStart ++ s → ∃ t, s = ofBytes t ∧ buf = dcStart ++ t := by
            intro s hs
            refine ⟨buf.drop dcStart.length, ?_, ?_⟩
            · have := congrArg (List.drop dcStart.length) hs
              rw [List.drop_left' (by simp [ofBytes])] at this
              rw [← this]; simp [ofBytes]
            · have := congrArg (List.take dcStart.length) hs
              rw [List.take_left' (by simp [ofBytes])] at this
              have h' : buf.take dcStart.length = dcStart := by
                have e : ofBytes (buf.take dcStart.length) = ofBytes dcStart := by rw [← this]; simp [ofBytes]
                exact List.map_inj_right (fun a b h => by injection h) |>.1 e
              conv => lhs; rw [← List.take_append_drop dcStart.length buf, h']
          obtain ⟨t, _, ht⟩ := hk rest' (by rw [a1]; simp [ofBytes, dcStart])
          exact ⟨t, ht.symm⟩
        all_goals simp [hv] at h
      · simp [hm] at h
    all_goals simp [hw] at h
  · rintro ⟨t, rfl⟩
    unfold dcCanPreview
    have u1 : Uses (readU 8) dcMagic (beBytes 8 dcMagic) := uses_readU (by decide)
    have u2 : Uses (readU 2) dcVersion (beBytes 2 dcVersion) := uses_readU (by decide)
    have : ofBytes (dcStart ++ t) = ofBytes (beBytes 8 dcMagic) ++ (ofBytes (beBytes 2 dcVersion) ++ ofBytes t) := by
      rw [h8, h2]; simp [ofBytes, dcStart]
    rw [this, u1.here]
    simp only [ne_eq, not_true, if_false]
    rw [u2.here]
    simp

theorem dcStart_content {buf : List Byte} (h : dcStart <+: buf) : ContentIs buf none := by
  intro f m hm hp
  obtain ⟨t, rfl⟩ := h
  cases hm <;> simp [dcStart, List.cons_prefix_cons] at hp

theorem dcStart_take {buf : List Byte} (h : dcStart <+: buf) : dcStart <+: buf.take defaultBufSize := by
  rw [List.prefix_iff_eq_take] at h ⊢
  rw [List.take_take, Nat.min_eq_left (by decide), ← h]

/-- What happens to DC content when neither format nor name says otherwise. -/
theorem C58_chosen (env : CsvEnv) (dec : Decoders) (cfg : CsvInputConfig env.lib) (inner : Inner) (p : Previewer)
    (hp : Previewer.new defaultBufSize inner = .ok p) (hd : dcStart <+: inner.data) :
    createFromPreviewer dec (defaultFactories env (some cfg)) p none .auto =
      (if p.lines.isSome then (csvFactory env cfg).create p else (dcFactory env.ov).create p) ∧
    createFromPreviewer dec (defaultFactories env none) p none .auto = (dcFactory env.ov).create p := by
  rcases previewer_spec defaultBufSize (by decide) inner with ⟨p', h1, _, _, h4, _⟩ | ⟨e, h1, _⟩
  · rw [hp] at h1
    injection h1 with h1; subst h1
    have htr : dcStart <+: p.trimmed := by rw [h4]; exact dcStart_take hd
    have hdc : (dcFactory env.ov).canPreview p = true := (C58_recognised _).2 htr
    have heq : ∀ sfs : List (Factory FileSource), createFromPreviewer dec sfs p none .auto = createFromContent p sfs := by
      intro sfs
      unfold createFromPreviewer
      simp only
      rw [decompressByContent_eq, (C55_magic _ _).2 (dcStart_content htr)]
      rfl
    rw [heq, heq]
    constructor
    · by_cases hl : p.lines.isSome = true
      · rw [if_pos hl]
        have : (csvFactory env cfg).canPreview p = true := hl
        simp only [defaultFactories, createFromContent, this, if_true]
      · rw [if_neg hl]
        have : (csvFactory env cfg).canPreview p = false := by show p.lines.isSome = false; simpa using hl
        simp only [defaultFactories, createFromContent, this, hdc, if_true, Bool.false_eq_true, if_false]
    · simp only [defaultFactories, createFromContent, hdc, if_true]
  · rw [hp] at h1; simp at h1

/-- The full property C58: content that starts like a DC file is opened as DC. -/
def C58_full : Prop := ∀ (env : CsvEnv) (dec : Decoders) (csv : Option (CsvInputConfig env.lib)) (inner : Inner) (p : Previewer),
  Previewer.new defaultBufSize inner = .ok p → dcStart <+: inner.data →
  createFromPreviewer dec (defaultFactories env csv) p none .auto = (dcFactory env.ov).create p

/-- **C58 without a CSV configuration.** What `C58_full` says holds if CSV input is not configured. -/
theorem C58_no_csv_partial (env : CsvEnv) (dec : Decoders) (inner : Inner) (p : Previewer)
    (hp : Previewer.new defaultBufSize inner = .ok p) (hd : dcStart <+: inner.data) :
    createFromPreviewer dec (defaultFactories env none) p none .auto = (dcFactory env.ov).create p := by
  exact (C58_chosen env dec ⟨none, .auto, .auto, .auto, none⟩ inner p hp hd).2

theorem encodeChar_ff (c : Char) : (0xFF : Byte) ∉ encodeChar c := by
  have hc : c.toNat < 0x110000 := by
    have := c.valid
    rcases this with h | h
    · have : c.toNat < 0xD800 := h; omega
    · exact h.2
  have key : ∀ n, n < 0xFF → ¬ (0xFF : Byte) = BitVec.ofNat 8 n := by
    intro n hn h
    have := congrArg BitVec.toNat h
    simp at this
    omega
  unfold encodeChar
  simp only
  split
  · simp only [List.mem_cons, List.not_mem_nil, or_false]; exact key _ (by omega)
  · split
    · simp only [List.mem_cons, List.not_mem_nil, or_false]
      rintro (h | h)
      · exact key _ (by omega) h
      · exact key _ (by omega) h
    · split
      · simp only [List.mem_cons, List.not_mem_nil, or_false]
        rintro (h | h | h)
        · exact key _ (by omega) h
        · exact key _ (by omega) h
        · exact key _ (by omega) h
      · simp only [List.mem_cons, List.not_mem_nil, or_false]
        rintro (h | h | h | h)
        · exact key _ (by omega) h
        · exact key _ (by omega) h
        · exact key _ (by omega) h
        · exact key _ (by omega) h

theorem decodeAll_ff {ls : List (List Byte)} {l : List Byte} (hl : l ∈ ls) (h : (0xFF : Byte) ∈ l) : decodeAll ls = none := by
  cases hd : decodeAll ls with
  | none => rfl
  | some ss =>
    have := (C02_decodeAll ls ss).1 hd
    rw [this] at hl
    obtain ⟨s, _, rfl⟩ := List.mem_map.1 hl
    unfold utf8Encode at h
    obtain ⟨c, _, hc⟩ := List.mem_flatMap.1 h
    exact absurd hc (encodeChar_ff c)

theorem dropCr_ff {l : List Byte} (h : (0xFF : Byte) ∈ l) : (0xFF : Byte) ∈ dropCr l := by
  unfold dropCr
  split
  · rename_i hl
    have hne : l ≠ [] := by rintro rfl; simp at h
    have h2 : l = l.dropLast ++ [l.getLast hne] := (List.dropLast_concat_getLast hne).symm
    have hlast : l.getLast hne = 13 := by
      rw [List.getLast?_eq_some_getLast hne] at hl
      exact Option.some.inj hl
    rw [h2, hlast] at h
    rcases List.mem_append.1 h with h | h
    · exact h
    · simp at h
  · exact h

/-- **C58, partial.** What `C58_full` says, for DC content with a byte FF that is followed by a line break within the first 8192 bytes, and for content
shorter than 8192 bytes with a byte FF (every header this program writes has one: `C58_written`). Missing: other content, for which it is
false (`C58_counterexample`, `C58_large_never`). -/
theorem C58_opened_partial (env : CsvEnv) (dec : Decoders) (csv : Option (CsvInputConfig env.lib)) (inner : Inner) (p : Previewer)
    (hp : Previewer.new defaultBufSize inner = .ok p) (hd : dcStart <+: inner.data) (pre post : List Byte)
    (hff : inner.data.take defaultBufSize = pre ++ 0xFF :: post) (hnl : inner.data.length < defaultBufSize ∨ (10 : Byte) ∈ post) :
    createFromPreviewer dec (defaultFactories env csv) p none .auto = (dcFactory env.ov).create p := by
  cases csv with
  | none => exact C58_no_csv_partial env dec inner p hp hd
  | some cfg =>
    rw [(C58_chosen env dec cfg inner p hp hd).1]
    obtain ⟨pieces, rest, hl⟩ := isLines_exists (inner.data.take defaultBufSize)
    have hlines := C02_lines defaultBufSize (by decide) inner p hp
    have hnone : p.lines = none := by
      rw [hlines.2.2 pieces rest hl]
      have hmem : (0xFF : Byte) ∈ pieces.flatMap (· ++ [10]) ++ rest := by rw [← hl.1, hff]; simp
      have inPieces : (0xFF : Byte) ∈ pieces.flatMap (· ++ [10]) → decodeAll ((pieces ++ if rest = [] ∨ defaultBufSize ≤ inner.data.length then [] else [rest]).map dropCr) = none := by
        intro h
        obtain ⟨q, hq, hq'⟩ := List.mem_flatMap.1 h
        have hq'' : (0xFF : Byte) ∈ q := by
          rcases List.mem_append.1 hq' with h | h
          · exact h
          · simp at h
        exact decodeAll_ff (List.mem_map.2 ⟨q, by simp [hq], rfl⟩) (dropCr_ff hq'')
      rcases hnl with hlen | h10
      · rcases List.mem_append.1 hmem with h | h
        · exact inPieces h
        · have hr : rest ≠ [] := by rintro rfl; simp at h
          refine decodeAll_ff (List.mem_map.2 ⟨rest, ?_, rfl⟩) (dropCr_ff h)
          rw [if_neg (by simp only [not_or]; exact ⟨hr, by omega⟩)]
          simp
      · apply inPieces
        have e : pieces.flatMap (· ++ [10]) ++ rest = pre ++ 0xFF :: post := by rw [← hl.1, hff]
        rcases List.append_eq_append_iff.1 e with ⟨a, e1, e2⟩ | ⟨c, e1, e2⟩
        · exfalso
          apply hl.2.2
          rw [e2]; exact List.mem_append_right _ (List.mem_cons_of_mem _ h10)
        · cases c with
          | nil =>
            exfalso
            apply hl.2.2
            rw [List.nil_append] at e2; rw [← e2]; exact List.mem_cons_of_mem _ h10
          | cons x c =>
            rw [List.cons_append, List.cons.injEq] at e2
            rw [e1, ← e2.1]; exact List.mem_append_right _ List.mem_cons_self
    rw [hnone]; rfl

theorem wr_bind_ok {β γ : Type} {x : Wr β} {f : β → Wr γ} {c : γ} (h : (Wr.bind x f).res = .ok c) :
    ∃ a, x.res = .ok a ∧ (Wr.bind x f).out = x.out ++ (f a).out ∧ (f a).res = .ok c := by
  obtain ⟨out, res⟩ := x
  cases res with
  | ok a => exact ⟨a, rfl, rfl, h⟩
  | err e => simp [Wr.bind] at h
  | panic => simp [Wr.bind] at h
  | diverge => simp [Wr.bind] at h

/-- Every DC file this program writes has a byte FF in its header, and starts like a DC file. -/
theorem C58_written (ov : Overflow) (h : Header) (rows : List Row) (hne : h.types ≠ []) (hok : (dcWriteFile ov h rows).res = .ok ()) :
    dcStart <+: (dcWriteFile ov h rows).out ∧ (0xFF : Byte) ∈ (dcWriteFile ov h rows).out := by
  have hst : beBytes 8 dcMagic ++ beBytes 2 dcVersion = dcStart := by decide +kernel
  obtain ⟨k, h1, h2, _⟩ := wr_bind_ok (x := dcProcessHeader ov h) (f := fun k => dcWriteRows k rows) hok
  obtain ⟨_, h3, h4, _⟩ := wr_bind_ok (x := writeHeader h) h1
  obtain ⟨_, _, h6, h7⟩ := wr_bind_ok (x := Wr.put (beBytes 8 dcMagic ++ beBytes 2 dcVersion ++ beBytes 4 0 ++ beBytes 4 h.types.length)) h3
  have hout : ∀ b, b ∈ (writeHeader h).out → b ∈ (dcWriteFile ov h rows).out := by
    intro b hb
    unfold dcWriteFile
    rw [h2]
    apply List.mem_append_left
    unfold dcProcessHeader
    rw [h4]
    exact List.mem_append_left _ hb
  constructor
  · unfold dcWriteFile
    rw [h2]
    unfold dcProcessHeader
    rw [h4]
    unfold writeHeader
    rw [h6, ← hst]
    simp only [Wr.put, List.append_assoc]
    rw [← List.append_assoc]
    exact List.prefix_append _ _
  · apply hout
    unfold writeHeader
    rw [h6]
    apply List.mem_append_right
    by_cases hl : h.names.length ≠ h.types.length
    · rw [if_pos hl] at h7; simp at h7
    · rw [if_neg hl] at h7 ⊢
      cases hz : h.names.zip h.types with
      | nil =>
        exfalso
        have := congrArg List.length hz
        simp only [List.length_zip, List.length_nil] at this
        have : 0 < h.types.length := List.length_pos_iff.2 hne
        omega
      | cons nt rest =>
        rw [hz] at h7
        obtain ⟨_, _, a1, a2⟩ := wr_bind_ok (x := Wr.put (sizedString nt.1)) h7
        obtain ⟨_, _, a3, a4⟩ := wr_bind_ok (x := writeFieldType nt.2) a2
        obtain ⟨_, _, a5, _⟩ := wr_bind_ok (x := Wr.put (beBytes 4 (2 ^ 32 - 1))) a4
        show _ ∈ (Wr.bind (Wr.put (sizedString nt.1)) _).out
        rw [a1, a3, a5]
        apply List.mem_append_right
        apply List.mem_append_right
        apply List.mem_append_left
        decide +kernel

/-- **C58 is false for long content without early line breaks**: if CSV input is configured and the first 8192 bytes hold no line break, the CSV reader is taken,
whatever the content. -/
theorem C58_large_never (env : CsvEnv) (dec : Decoders) (cfg : CsvInputConfig env.lib) (inner : Inner) (p : Previewer)
    (hp : Previewer.new defaultBufSize inner = .ok p) (hd : dcStart <+: inner.data) (hl : defaultBufSize ≤ inner.data.length)
    (hn : (10 : Byte) ∉ inner.data.take defaultBufSize) :
    createFromPreviewer dec (defaultFactories env (some cfg)) p none .auto = (csvFactory env cfg).create p := by
  rw [(C58_chosen env dec cfg inner p hp hd).1]
  have := (C02_lines defaultBufSize (by decide) inner p hp).2.2 [] (inner.data.take defaultBufSize) ⟨by simp, by simp, hn⟩
  rw [if_pos (.inr hl)] at this
  rw [this]
  rfl

/-- A DC file with one column: name "a", type "I", display hint 0. -/
def exDc : List Byte := dcStart ++ [0, 0, 0, 0] ++ [0, 0, 0, 1] ++ [0, 0, 0, 1, 97] ++ [0, 0, 0, 1, 73] ++ [0, 0, 0, 0]

/-- It is a DC header. -/
example : IsDcHeader exDc ⟨[['a']], [.int]⟩ :=
  ⟨[], [⟨['a'], .int, "I", 0⟩], by decide, by decide, by decide,
    by intro c hc; simp at hc; subst hc; exact ⟨.int, by decide +kernel, by decide, by decide⟩, by decide +kernel, rfl, by decide +kernel⟩

/-- **C58 is false**: a DC file whose bytes are all below 128 is taken for CSV. -/
theorem C58_counterexample : ¬ C58_full := by
  intro h
  rcases previewer_spec defaultBufSize (by decide) ⟨exDc, [], none⟩ with ⟨p, h1, _, h3, _, _, h6, h7, _⟩ | ⟨e, _, he⟩
  · have hstart : dcStart <+: exDc := ⟨_, by unfold exDc; rw [List.append_assoc, List.append_assoc, List.append_assoc, List.append_assoc]⟩
    have hc := h (recordsEnv []) ⟨fun r => r.inner, fun r => r.inner, fun r => r.inner, fun _ => none, fun _ => none⟩ (some secondsCfg)
      ⟨exDc, [], none⟩ p h1 hstart
    rw [(C58_chosen (recordsEnv []) _ secondsCfg _ p h1 hstart).1] at hc
    have hlen : exDc.length < defaultBufSize := by decide
    have htake : exDc.take defaultBufSize = exDc := List.take_of_length_le (Nat.le_of_lt hlen)
    have hlines := (C02_lines defaultBufSize (by decide) ⟨exDc, [], none⟩ p h1).2.2 [] exDc (by rw [htake]; exact ⟨by simp, by simp, by decide⟩)
    rw [if_neg (by simp only [not_or]; exact ⟨by decide, by omega⟩)] at hlines
    have hsome : p.lines.isSome = true := by rw [hlines]; decide +kernel
    rw [if_pos hsome] at hc
    have hcsv : (csvFactory (recordsEnv []) secondsCfg).create p = .panic := by
      show (csvOpen (recordsEnv []) secondsCfg p).bind (fun src => .ok (src.toFile (recordsEnv []) secondsCfg.tz)) = _
      rw [C46_always_panics (recordsEnv []) secondsCfg p (.ok []) ⟨44, rfl, rfl⟩]
      rfl
    have hdc : (dcFactory (recordsEnv []).ov).create p = (dcOpen .panics (ofBytes exDc)).bind fun src => .ok src.toFile := by
      show (dcOpen .panics (streamOf p.reader)).bind (fun src => .ok src.toFile) = _
      rw [streamOf_eq _ (fun e he => (h6 (noFail_none (by simp))) e (.inl he)), h3, h7]
      simp [endItems]
    rw [hcsv, hdc] at hc
    have : dcOpen .panics (ofBytes exDc) = .ok ⟨[], ⟨[['a']], [.int]⟩⟩ := by decide +kernel
    rw [this] at hc
    simp at hc
  · exact absurd he (noFail_none (by simp) e)

/-- The hypotheses of `C58_opened_partial` are met by a file this program writes. -/
example : (dcWriteFile .panics ⟨[['a'], ['b']], [.int, .int]⟩ [⟨1, [.int 1, .int 2]⟩]).res = .ok () ∧
    (dcWriteFile .panics ⟨[['a'], ['b']], [.int, .int]⟩ [⟨1, [.int 1, .int 2]⟩]).out.length < defaultBufSize := by decide +kernel

/-! ### C59: transports -/

/-- The full property C59. -/
def C59_full : Prop := ∀ (env : CsvEnv) (dec : Decoders) (zip : ZipLib) (w : World) (csv : Option (CsvInputConfig env.lib))
  (user : List (Transport Inner)) (t : Transport Inner) (path : Path) (inner : Inner), t ∈ user → t.canOpen path = true → t.openPath path = .ok inner →
  createPreviewer (newInputs env dec zip w csv [] user).streaming path = (Previewer.new defaultBufSize inner).bind fun p => .ok (some p)

theorem openLoop_last {β : Type} {path : Path} : ∀ {ts : List (Transport β)} {acc : Option β}, (∀ t ∈ ts, t.canOpen path = true → ∃ b, t.openPath path = .ok b) →
    ((∀ t ∈ ts, t.canOpen path = false) → openLoop path ts acc = .ok acc) ∧
    (∀ before t after b, ts = before ++ t :: after → t.canOpen path = true → (∀ u ∈ after, u.canOpen path = false) → t.openPath path = .ok b →
      openLoop path ts acc = .ok (some b))
  | [], acc, _ => ⟨fun _ => rfl, fun before t after b h => by simp at h⟩
  | u :: us, acc, hok => by
    have ih := fun a => openLoop_last (path := path) (ts := us) (acc := a) fun t ht => hok t (by simp [ht])
    constructor
    · intro h
      unfold openLoop
      rw [h u (by simp)]
      simp only [Bool.false_eq_true, if_false]
      exact (ih acc).1 fun t ht => h t (by simp [ht])
    · intro before t after b h h1 h2 h3
      cases before with
      | nil =>
        simp only [List.nil_append, List.cons.injEq] at h
        obtain ⟨rfl, rfl⟩ := h
        unfold openLoop
        rw [if_pos h1, h3, Res.bind_ok]
        exact (ih _).1 h2
      | cons x before =>
        simp only [List.cons_append, List.cons.injEq] at h
        obtain ⟨rfl, rfl⟩ := h
        unfold openLoop
        cases hx : u.canOpen path with
        | false =>
          simp only [Bool.false_eq_true, if_false]
          exact (ih acc).2 before t after b rfl h1 h2 h3
        | true =>
          obtain ⟨c, hc⟩ := hok u (by simp) hx
          simp only [if_true, hc, Res.bind_ok]
          exact (ih (some c)).2 before t after b rfl h1 h2 h3

/-- **C59 (what happens).** All transports that can open the path open it, and the data of the last one is used. -/
theorem C59_last_wins (ts : List (Transport Inner)) (path : Path) (hok : ∀ t ∈ ts, t.canOpen path = true → ∃ b, t.openPath path = .ok b) :
    ((∀ t ∈ ts, t.canOpen path = false) → createPreviewer ts path = .ok none) ∧
    (∀ before t after inner, ts = before ++ t :: after → t.canOpen path = true → (∀ u ∈ after, u.canOpen path = false) → t.openPath path = .ok inner →
      createPreviewer ts path = (Previewer.new defaultBufSize inner).bind fun p => .ok (some p)) := by
  have := openLoop_last (path := path) (ts := ts) (acc := none) hok
  constructor
  · intro h
    unfold createPreviewer
    rw [this.1 h, Res.bind_ok]
  · intro before t after inner h h1 h2 h3
    unfold createPreviewer
    rw [this.2 before t after inner h h1 h2 h3, Res.bind_ok]

/-- The same for the transports that are asked first, for archives. -/
theorem C59_seekable_last_wins (ts : List (Transport (List Byte))) (path : Path) (hok : ∀ t ∈ ts, t.canOpen path = true → ∃ b, t.openPath path = .ok b) :
    ((∀ t ∈ ts, t.canOpen path = false) → createSeekable ts path = .ok none) ∧
    (∀ before t after file, ts = before ++ t :: after → t.canOpen path = true → (∀ u ∈ after, u.canOpen path = false) → t.openPath path = .ok file →
      createSeekable ts path = .ok (some file)) := openLoop_last (path := path) (ts := ts) (acc := none) hok

theorem openLoop_err {β : Type} {path : Path} {t : Transport β} {after : List (Transport β)} {e : Err} (hc : t.canOpen path = true) (he : t.openPath path = .err e) :
    ∀ {before : List (Transport β)} {acc : Option β}, (∀ u ∈ before, u.canOpen path = true → ∃ b, u.openPath path = .ok b) →
      openLoop path (before ++ t :: after) acc = .err e
  | [], acc, _ => by rw [List.nil_append, openLoop, if_pos hc, he]; rfl
  | u :: us, acc, h => by
    rw [List.cons_append, openLoop]
    cases hu : u.canOpen path with
    | false => exact openLoop_err hc he fun v hv => h v (by simp [hv])
    | true =>
      obtain ⟨b, hb⟩ := h u (by simp) hu
      rw [if_pos rfl, hb, Res.bind_ok]
      exact openLoop_err hc he fun v hv => h v (by simp [hv])

/-- The first transport that can open the path but fails to decides, even if a later one would succeed. -/
theorem C59_first_failure (before after : List (Transport Inner)) (t : Transport Inner) (path : Path) (e : Err)
    (hb : ∀ u ∈ before, u.canOpen path = true → ∃ b, u.openPath path = .ok b) (hc : t.canOpen path = true) (he : t.openPath path = .err e) :
    createPreviewer (before ++ t :: after) path = .err e := by
  unfold createPreviewer
  rw [openLoop_err hc he hb]; rfl

/-- Two archives under the same path: the later transport's is taken. -/
example : createSeekable [⟨fun _ => true, fun _ => .ok [1]⟩, ⟨fun _ => true, fun _ => .ok [2]⟩, ⟨fun _ => false, fun _ => .ok [3]⟩] [97] = .ok (some [2]) :=
  (C59_seekable_last_wins _ _ (by intro t ht _; simp at ht; rcases ht with rfl | rfl | rfl <;> exact ⟨_, rfl⟩)).2
    [⟨fun _ => true, fun _ => .ok [1]⟩] ⟨fun _ => true, fun _ => .ok [2]⟩ [⟨fun _ => false, fun _ => .ok [3]⟩] [2] rfl rfl (by simp) rfl

example : createPreviewer [⟨fun _ => true, fun _ => .err (.io .other)⟩, ⟨fun _ => true, fun _ => .ok ⟨[2], [], none⟩⟩] [97] = .err (.io .other) :=
  C59_first_failure [] _ _ [97] _ (by simp) rfl rfl

/-- **C59 is false whenever the path also is a file**: the file is read, not the user's transport. -/
theorem C59_file_wins (env : CsvEnv) (dec : Decoders) (zip : ZipLib) (w : World) (csv : Option (CsvInputConfig env.lib))
    (user : List (Transport Inner)) (path : Path) (file : Inner) (hu : ∀ t ∈ user, t.canOpen path = true → ∃ b, t.openPath path = .ok b)
    (he : w.pathExists path = true) (hf : w.file path = some file) (hh : (httpTransport w).canOpen path = false) :
    createPreviewer (newInputs env dec zip w csv [] user).streaming path = (Previewer.new defaultBufSize file).bind fun p => .ok (some p) := by
  refine (C59_last_wins _ path ?_).2 user (fileTransport w) [httpTransport w] file rfl he ?_ ?_
  · intro t ht hc
    rcases List.mem_append.1 ht with ht | ht
    · exact hu t ht hc
    · simp only [List.mem_cons, List.not_mem_nil, or_false] at ht
      rcases ht with rfl | rfl
      · exact ⟨file, by simp [fileTransport, hf, Res.okOr]⟩
      · rw [hh] at hc; simp at hc
  · intro u hu'
    simp only [List.mem_cons, List.not_mem_nil, or_false] at hu'
    subst hu'; exact hh
  · simp [fileTransport, hf, Res.okOr]

/-- **C59, partial.** What `C59_full` says, if the other transports cannot open the path. Missing: the path is also an existing file, an http address or
opened by a later user transport; then that one is used (`C59_last_wins`, `C59_file_wins`). -/
theorem C59_user_transport_partial (env : CsvEnv) (dec : Decoders) (zip : ZipLib) (w : World) (csv : Option (CsvInputConfig env.lib))
    (before after : List (Transport Inner)) (t : Transport Inner) (path : Path) (inner : Inner) (hc : t.canOpen path = true) (ho : t.openPath path = .ok inner)
    (hb : ∀ u ∈ before, u.canOpen path = true → ∃ b, u.openPath path = .ok b) (ha : ∀ u ∈ after, u.canOpen path = false)
    (he : w.pathExists path = false) (hh : (httpTransport w).canOpen path = false) :
    createPreviewer (newInputs env dec zip w csv [] (before ++ t :: after)).streaming path = (Previewer.new defaultBufSize inner).bind fun p => .ok (some p) := by
  have hlate : ∀ u ∈ after ++ [fileTransport w, httpTransport w], u.canOpen path = false := by
    intro u hu
    rcases List.mem_append.1 hu with hu | hu
    · exact ha u hu
    · simp only [List.mem_cons, List.not_mem_nil, or_false] at hu
      rcases hu with rfl | rfl
      · exact he
      · exact hh
  refine (C59_last_wins _ path ?_).2 before t (after ++ [fileTransport w, httpTransport w]) inner (by simp [newInputs]) hc hlate ho
  intro u hu hcu
  have hu : u ∈ before ++ t :: (after ++ [fileTransport w, httpTransport w]) := by simpa [newInputs] using hu
  rcases List.mem_append.1 hu with hu | hu
  · exact hb u hu hcu
  · rcases List.mem_cons.1 hu with rfl | hu
    · exact ⟨_, ho⟩
    · rw [hlate u hu] at hcu; simp at hcu

def exWorld : World := ⟨fun _ => true, fun _ => false, fun _ => some ⟨[1], [], none⟩, fun _ => none, fun _ => .err (.io .other), ⟨[], [], none⟩⟩

/-- **C59 is false.** -/
theorem C59_counterexample (zip : ZipLib) : ¬ C59_full := by
  intro h
  have e := h (recordsEnv []) ⟨fun r => r.inner, fun r => r.inner, fun r => r.inner, fun _ => none, fun _ => none⟩ zip exWorld none
    [⟨fun _ => true, fun _ => .ok ⟨[2], [], none⟩⟩] ⟨fun _ => true, fun _ => .ok ⟨[2], [], none⟩⟩ [97] ⟨[2], [], none⟩ (by simp) rfl rfl
  rw [C59_file_wins (recordsEnv []) _ zip exWorld none _ [97] ⟨[1], [], none⟩ (by intro t ht _; simp at ht; subst ht; exact ⟨_, rfl⟩) rfl rfl
    (by decide +kernel)] at e
  rcases previewer_spec defaultBufSize (by decide) ⟨[1], [], none⟩ with ⟨p, h1, _, _, h4, _⟩ | ⟨e, _, he⟩
  · rcases previewer_spec defaultBufSize (by decide) ⟨[2], [], none⟩ with ⟨p', h1', _, _, h4', _⟩ | ⟨e, _, he⟩
    · rw [h1, h1', Res.bind_ok, Res.bind_ok] at e
      simp only [Res.ok.injEq, Option.some.injEq] at e
      subst e
      rw [h4] at h4'
      have e1 : ([1] : List Byte).take defaultBufSize = [1] := List.take_of_length_le (by decide)
      have e2 : ([2] : List Byte).take defaultBufSize = [2] := List.take_of_length_le (by decide)
      simp only at h4'
      rw [e1, e2] at h4'
      simp at h4'
    · exact absurd he (noFail_none (by simp) e)
  · exact absurd he (noFail_none (by simp) e)

end Chopper.Props
