import Verif.Proofs.Filter2
import Verif.Proofs.Utf8

/-!
# Properties of values and of the built-in filters: C32, C33, C34, C35
-/
namespace Chopper.Props
open Chopper Spec

/-! ### C34: comparison of values -/

/-- **C34 (equality).** `==` answers true exactly for equal values (`Spec.EqualValues`: same type and content; floating point by the numbers
denoted), never true or false for two booleans or two byte buffers (the process ends), and false in all other cases, in particular for
values of different types. -/
theorem C34_equality (x y : FieldValue) :
    (x.eq y = .ok true ↔ EqualValues x y) ∧
    (x.eq y = .panic ↔ kindOf x = kindOf y ∧ ¬ Supported x) ∧
    (x.eq y = .ok false ↔ ¬ EqualValues x y ∧ (kindOf x ≠ kindOf y ∨ Supported x)) := by
  refine ⟨eq_true_iff x y, eq_panic_iff x y, ?_⟩
  have h1 := eq_true_iff x y
  have h2 := eq_panic_iff x y
  rcases eq_total x y with h | h | h
  · rw [h] at h1 h2 ⊢; simp at h1 h2 ⊢; intro h3; exact absurd h1 h3
  · rw [h] at h1 h2 ⊢; simp at h1 h2 ⊢
    refine ⟨h1, ?_⟩
    by_cases hk : kindOf x = kindOf y
    · exact .inr (h2 hk)
    · exact .inl hk
  · rw [h] at h1 h2 ⊢; simp at h1 h2 ⊢; intro _; exact h2

/-- **C34 (ordering).** `partial_cmp` answers equal / less / greater exactly for equal / smaller / greater values of one supported type,
has no answer exactly when one of two numbers is NaN, and ends the process exactly for different or unsupported types. -/
theorem C34_ordering (x y : FieldValue) :
    (x.partialCmp y = .ok (some .eq) ↔ EqualValues x y) ∧
    (x.partialCmp y = .ok (some .lt) ↔ LessThan x y) ∧
    (x.partialCmp y = .ok (some .gt) ↔ LessThan y x) ∧
    (x.partialCmp y = .panic ↔ kindOf x ≠ kindOf y ∨ ¬ Supported x) ∧
    (x.partialCmp y = .ok none ↔ kindOf x = kindOf y ∧ (IsNaN x ∨ IsNaN y)) := by
  refine ⟨cmp_eq_iff x y, cmp_lt_iff x y, cmp_gt_iff x y, cmp_panic_iff x y, ?_⟩
  rw [cmp_eq']
  cases x <;> cases y <;> simp [FieldValue.partialCmp', kindOf]
  case double.double a b => rw [isNaN_double, isNaN_double]; cases h1 : fnan 64 52 a <;> cases h2 : fnan 64 52 b <;> simp [fcmp, h1, h2]
  case float.float a b => rw [isNaN_float, isNaN_float]; cases h1 : fnan 32 23 a <;> cases h2 : fnan 32 23 b <;> simp [fcmp, h1, h2]
  all_goals simp [IsNaN]

theorem bytesCmp_lt : ∀ a b : List Byte, bytesCmp a b = .lt ↔ a < b
  | [], [] => by simp [bytesCmp]
  | [], _ :: _ => by simp [bytesCmp]
  | _ :: _, [] => by simp [bytesCmp]
  | a :: as, b :: bs => by
    rw [List.cons_lt_cons_iff, bytesCmp, BitVec.lt_def, ← bytesCmp_lt as bs]
    rcases Nat.lt_trichotomy a.toNat b.toNat with h | h | h
    · simp [Nat.compare_eq_lt.2 h, h]
    · simp [Nat.compare_eq_eq.2 h, h, BitVec.eq_of_toNat_eq h]
    · have hne : a ≠ b := by rintro rfl; exact Nat.lt_irrefl _ h
      simp [Nat.compare_eq_gt.2 h, hne, Nat.lt_asymm h]

/-- **C34 (texts).** Of two texts, the smaller one is the one whose UTF-8 bytes come first in lexicographic order. -/
theorem C34_texts (x y : Str) :
    (FieldValue.partialCmp (.string x) (.string y) = .ok (some .lt) ↔ utf8Encode x < utf8Encode y) ∧
    (FieldValue.partialCmp (.string x) (.string y) = .ok (some .gt) ↔ utf8Encode y < utf8Encode x) := by
  have h : FieldValue.partialCmp (.string x) (.string y) = .ok (some (strCmp x y)) := rfl
  rw [h, ← bytesCmp_lt, ← bytesCmp_lt, bytesCmp_swap (utf8Encode x) (utf8Encode y), bytesCmp_utf8]
  cases strCmp x y <;> simp [Ordering.swap]

/-- **C34 (laws).** Equality is symmetric and transitive; ordering is transitive and turns around when the operands are swapped; equality and
ordering agree; equal values are ordered alike; only NaN is not equal to itself. -/
theorem C34_laws (x y z : FieldValue) :
    (x.eq y = .ok true → y.eq x = .ok true) ∧
    (x.eq y = .ok true → y.eq z = .ok true → x.eq z = .ok true) ∧
    (x.eq y = .ok true ↔ x.partialCmp y = .ok (some .eq)) ∧
    (∀ o, x.partialCmp y = .ok o → y.partialCmp x = .ok (o.map Ordering.swap)) ∧
    (x.partialCmp y = .ok (some .lt) → y.partialCmp z = .ok (some .lt) → x.partialCmp z = .ok (some .lt)) ∧
    (x.eq y = .ok true → x.partialCmp z = y.partialCmp z) ∧
    (Supported x → (x.eq x = .ok true ↔ ¬ IsNaN x)) := by
  refine ⟨?_, ?_, ?_, cmp_swap x y, ?_, ?_, ?_⟩
  · rw [eq_true_iff, eq_true_iff]
    intro h
    cases h with
    | double a b h1 h2 h3 => exact .double b a h2 h1 h3.symm
    | float a b h1 h2 h3 => exact .float b a h2 h1 h3.symm
    | _ => constructor
  · rw [eq_true_iff, eq_true_iff, eq_true_iff]
    intro h h'
    cases h with
    | double a b h1 h2 h3 => cases h' with | double _ c h4 h5 h6 => exact .double a c h1 h5 (h3.trans h6)
    | float a b h1 h2 h3 => cases h' with | float _ c h4 h5 h6 => exact .float a c h1 h5 (h3.trans h6)
    | _ => exact h'
  · rw [eq_true_iff, cmp_eq_iff]
  · rw [cmp_lt_iff, cmp_lt_iff, cmp_lt_iff]
    intro h h'
    cases h with
    | double h1 h2 h3 => cases h' with | double h4 h5 h6 => exact .double h1 h5 (Int.lt_trans h3 h6)
    | float h1 h2 h3 => cases h' with | float h4 h5 h6 => exact .float h1 h5 (Int.lt_trans h3 h6)
    | byte h => cases h' with | byte h' => exact .byte (Nat.lt_trans h h')
    | char h => cases h' with | char h' => exact .char (Nat.lt_trans h h')
    | int h => cases h' with | int h' => exact .int (Int.lt_trans h h')
    | long h => cases h' with | long h' => exact .long (Int.lt_trans h h')
    | short h => cases h' with | short h' => exact .short (Int.lt_trans h h')
    | string h => cases h' with
      | string h' => exact .string ((strCmp_lt _ _).1 (strCmp_lt_trans ((strCmp_lt _ _).2 h) ((strCmp_lt _ _).2 h')))
  · rw [eq_true_iff, cmp_eq', cmp_eq']
    intro h
    cases h with
    | double a b h1 h2 h3 =>
      have : fcmp 64 52 a b = some .eq :=
        (fcmp_some a b _).2 ⟨(bnot_iff (isNaN_double a)).2 h1, (bnot_iff (isNaN_double b)).2 h2, (cmpInt_eq _ _).2 h3⟩
      cases z <;> simp [FieldValue.partialCmp']
      exact fcmp_eq_lt this
    | float a b h1 h2 h3 =>
      have : fcmp 32 23 a b = some .eq :=
        (fcmp_some a b _).2 ⟨(bnot_iff (isNaN_float a)).2 h1, (bnot_iff (isNaN_float b)).2 h2, (cmpInt_eq _ _).2 h3⟩
      cases z <;> simp [FieldValue.partialCmp']
      exact fcmp_eq_lt this
    | _ => rfl
  · intro hs
    rw [eq_true_iff]
    constructor
    · intro h
      cases h with
      | double _ _ h1 _ _ => exact h1
      | float _ _ h1 _ _ => exact h1
      | _ => simp [IsNaN]
    · intro hn
      cases x with
      | double a => exact .double a a hn hn rfl
      | float a => exact .float a a hn hn rfl
      | boolean b => simp [Supported, kindOf] at hs
      | byteBuf b => simp [Supported, kindOf] at hs
      | _ => constructor

/-- Plus and minus zero are equal, a NaN is not equal to itself, -1.0 < 1.0, 2.0 > 1.5, and text is ordered by its bytes. -/
example : (FieldValue.double 0).eq (.double 0x8000000000000000) = .ok true ∧
    (FieldValue.double 0x7FF8000000000000).eq (.double 0x7FF8000000000000) = .ok false ∧
    (FieldValue.double 0xBFF0000000000000).partialCmp (.double 0x3FF0000000000000) = .ok (some .lt) ∧
    (FieldValue.double 0x4000000000000000).partialCmp (.double 0x3FF8000000000000) = .ok (some .gt) ∧
    (FieldValue.string ['a', 'b']).partialCmp (.string ['a']) = .ok (some .gt) ∧
    (FieldValue.int (BitVec.ofInt 32 (-1))).partialCmp (.int 1) = .ok (some .lt) := by decide +kernel

/-- The order of the bit patterns is the order of the numbers: e.g. 1.5 = 3 · 2⁻¹ in units of 2⁻¹⁰⁷⁴ is 3 · 2¹⁰⁷³. -/
example : ieeeVal 64 52 0x3FF8000000000000 = 3 * 2 ^ 1073 := by decide +kernel

/-! ### C32: row filters -/

/-- **C32 (equality filter).** Without a column of the given name setup fails; otherwise the header is kept, and with `i` the first such
column the filter keeps a row - unchanged - exactly if its value there equals `v`, and drops it otherwise (for a value of a type that
cannot be compared the process ends). Its own state never changes. -/
theorem C32_equal (name : Str) (v : FieldValue) (h : Header) :
    (NoCol name h.names → ∃ e, equalHeader name v h = .err e) ∧
    (∀ i, FirstCol name h.names i → ∃ s, equalHeader name v h = .ok (s, h) ∧
      ∀ (row : Row) x, row.values[i]? = some x →
        (EqualValues x v → builtinOps.write s row = (s, .ok [row])) ∧
        (¬ EqualValues x v → (kindOf x ≠ kindOf v ∨ Supported x) → builtinOps.write s row = (s, .ok [])) ∧
        (kindOf x = kindOf v → ¬ Supported x → builtinOps.write s row = (s, .panic))) := by
  refine ⟨fun hn => by simp [equalHeader, findCol_of_noCol hn], ?_⟩
  intro i hi
  refine ⟨.equal i v, by simp only [equalHeader, findCol_of_firstCol hi], ?_⟩
  intro row x hx
  obtain ⟨e1, e2, e3⟩ := C34_equality x v
  simp only [builtinOps, BSink.write, hx, Res.unwrap_some, Res.bind_ok]
  refine ⟨fun h => ?_, fun h h' => ?_, fun h h' => ?_⟩
  · rw [e1.2 h]; rfl
  · rw [e3.2 ⟨h, h'⟩]; rfl
  · rw [e2.2 ⟨h, h'⟩]; rfl

/-- **C32 (greater filter).** Likewise, keeping the rows whose value compares strictly greater; NaN is never greater; comparing with a value
of another (or of an unsupported) type ends the process. -/
theorem C32_greater (name : Str) (v : FieldValue) (h : Header) :
    (NoCol name h.names → ∃ e, greaterHeader name v h = .err e) ∧
    (∀ i, FirstCol name h.names i → ∃ s, greaterHeader name v h = .ok (s, h) ∧
      ∀ (row : Row) x, row.values[i]? = some x →
        (LessThan v x → builtinOps.write s row = (s, .ok [row])) ∧
        (¬ LessThan v x → kindOf x = kindOf v → Supported x → builtinOps.write s row = (s, .ok [])) ∧
        ((kindOf x ≠ kindOf v ∨ ¬ Supported x) → builtinOps.write s row = (s, .panic))) := by
  refine ⟨fun hn => by simp [greaterHeader, findCol_of_noCol hn], ?_⟩
  intro i hi
  refine ⟨.greater i v, by simp only [greaterHeader, findCol_of_firstCol hi], ?_⟩
  intro row x hx
  obtain ⟨_, _, e3, e4, _⟩ := C34_ordering x v
  simp only [builtinOps, BSink.write, hx, Res.unwrap_some, Res.bind_ok]
  refine ⟨fun h => ?_, fun h h1 h2 => ?_, fun h => ?_⟩
  · rw [e3.2 h]; rfl
  · rcases cmp_total x v with ⟨o, ho⟩ | hp
    · rw [ho]
      have : some .gt ≠ o := by intro e; subst e; exact h (e3.1 ho)
      simp [this]
    · rcases e4.1 hp with h3 | h3
      · exact absurd h1 h3
      · exact absurd h2 h3
  · rw [e4.2 h]; rfl

/-- Setup and run of both filters; the name is matched without regard to case, the first match counts. -/
example : let h : Header := ⟨["a".toList, "Price".toList, "price".toList], [.int, .int, .int]⟩
    FirstCol "PRICE".toList h.names 1 ∧
    greaterHeader "PRICE".toList (.int 5) h = .ok (.greater 1 (.int 5), h) ∧
    builtinOps.write (.greater 1 (.int 5)) ⟨0, [.int 1, .int 6, .int 1]⟩ = (.greater 1 (.int 5), .ok [⟨0, [.int 1, .int 6, .int 1]⟩]) ∧
    builtinOps.write (.greater 1 (.int 5)) ⟨0, [.int 9, .int 5, .int 9]⟩ = (.greater 1 (.int 5), .ok []) := by
  refine ⟨?_, by decide +kernel, by decide +kernel, by decide +kernel⟩
  have := (findCol_some (name := "PRICE".toList) (names := ["a".toList, "Price".toList, "price".toList]) (k := 0) (i := 1) (by decide +kernel)).2
  exact this

/-! ### C33: deleting a column -/

/-- **C33.** Without a column of the given name setup fails. Otherwise, with `i` the first such column and as many types as names, position
`i` is removed from the names and from the types, and from every row that has a value there, the timestamp and the other values staying as they
are; hence what stands under a remaining column of the new header is what stood under the same column of the old one. -/
theorem C33_delete (name : Str) (h : Header) :
    (NoCol name h.names → ∃ e, deleteHeader name h = .err e) ∧
    (∀ i, FirstCol name h.names i → h.types.length = h.names.length → ∃ s, deleteHeader name h = .ok (s, ⟨h.names.eraseIdx i, h.types.eraseIdx i⟩) ∧
      ∀ (row : Row), i < row.values.length →
        builtinOps.write s row = (s, .ok [⟨row.timestamp, row.values.eraseIdx i⟩])) := by
  refine ⟨fun hn => by simp [deleteHeader, findCol_of_noCol hn], ?_⟩
  intro i hi hl
  have hlt : i < h.names.length := by
    obtain ⟨n, h1, _⟩ := hi.1
    exact (List.getElem?_eq_some_iff.1 h1).1
  refine ⟨.delete i, by simp [deleteHeader, findCol_of_firstCol hi, vecRemove, hl, hlt], ?_⟩
  intro row hr
  simp [builtinOps, BSink.write, vecRemove, hr]

/-- **C33 (alignment).** Whatever stood in the header and in a header-wide row at a position other than the deleted one stands together at
one position of the new header and the new row, and both are one shorter. -/
theorem C33_alignment (name : Str) (h : Header) (i : Nat) (hi : FirstCol name h.names i) (hl : h.types.length = h.names.length)
    (row : Row) (hr : row.values.length = h.names.length) :
    ∃ s h' row', deleteHeader name h = .ok (s, h') ∧ builtinOps.write s row = (s, .ok [row']) ∧ row'.timestamp = row.timestamp ∧
      h'.names.length = h.names.length - 1 ∧ h'.types.length = h.names.length - 1 ∧ row'.values.length = h.names.length - 1 ∧
      ∀ j, j < h.names.length → j ≠ i → ∃ j' : Nat, h'.names[j']? = h.names[j]? ∧ h'.types[j']? = h.types[j]? ∧ row'.values[j']? = row.values[j]? := by
  have hlt : i < h.names.length := by
    obtain ⟨n, h1, _⟩ := hi.1
    exact (List.getElem?_eq_some_iff.1 h1).1
  obtain ⟨s, h1, h2⟩ := (C33_delete name h).2 i hi hl
  refine ⟨s, _, _, h1, h2 row (by omega), rfl, by simp [List.length_eraseIdx, hlt], by simp [List.length_eraseIdx, hlt, hl],
    by simp [List.length_eraseIdx, hlt, hr], ?_⟩
  intro j hj hji
  by_cases hlt' : j < i
  · exact ⟨j, by simp [List.getElem?_eraseIdx, hlt']⟩
  · refine ⟨j - 1, ?_⟩
    have e : ¬ (j - 1 < i) := by omega
    have e2 : j - 1 + 1 = j := by omega
    simp [List.getElem?_eraseIdx, e, e2]

/-- A duplicate name: only the first is removed. -/
example : let h : Header := ⟨["a".toList, "B".toList, "b".toList], [.int, .long, .char]⟩
    deleteHeader "b".toList h = .ok (.delete 1, ⟨["a".toList, "b".toList], [.int, .char]⟩) ∧
    builtinOps.write (.delete 1) ⟨7, [.int 1, .long 2, .char 3]⟩ = (.delete 1, .ok [⟨7, [.int 1, .char 3]⟩]) := by decide +kernel

/-! ### C35: widths -/

theorem splitsFrom_prefix {D : Type} : ∀ (ch : HChain D) (h : Header),
    (splitsFrom h ch).map Prod.fst <+: ch.flatMap splitIds
  | [], h => by simp [splitsFrom]
  | .sink f :: ns, h => by
    simp only [splitsFrom, List.flatMap_cons, splitIds, List.nil_append]
    split
    · exact splitsFrom_prefix ns _
    · simp
  | .mergeSink _ _ :: ns, h => by
    simp only [splitsFrom, List.flatMap_cons, splitIds, List.nil_append]
    exact splitsFrom_prefix ns _
  | .merge _ :: ns, h => by
    simp only [splitsFrom, List.flatMap_cons, splitIds, List.nil_append]
    exact splitsFrom_prefix ns _
  | .splitSink ids _ :: ns, h => by
    have e : (ids.map (fun d => (d, h))).map Prod.fst = ids := by simp [Function.comp_def]
    simp only [splitsFrom, List.map_append, e]
    exact (List.prefix_append_right_inj _).2 (splitsFrom_prefix ns _)

theorem nodup_flatMap_index {α β : Type} (f : α → List β) : ∀ (l : List α), (l.flatMap f).Nodup → ∀ {i j : Nat} {a b : α} {x : β},
    l[i]? = some a → l[j]? = some b → x ∈ f a → x ∈ f b → i = j
  | [], _, i, j, a, b, x, h, _, _, _ => by simp at h
  | y :: ys, hn, i, j, a, b, x, hi, hj, ha, hb => by
    rw [List.flatMap_cons, List.nodup_append] at hn
    obtain ⟨_, h2, h3⟩ := hn
    have hin : ∀ {k : Nat} {b}, ys[k]? = some b → x ∈ f b → x ∈ ys.flatMap f := fun h hx =>
      List.mem_flatMap.2 ⟨_, List.mem_of_getElem? h, hx⟩
    cases i with
    | zero =>
      cases j with
      | zero => rfl
      | succ j =>
        simp at hi hj; subst hi
        exact absurd rfl (h3 x ha x (hin hj hb))
    | succ i =>
      cases j with
      | zero =>
        simp at hi hj; subst hj
        exact absurd rfl (h3 x hb x (hin hi ha))
      | succ j =>
        simp at hi hj
        rw [nodup_flatMap_index f ys h2 hi hj ha hb]

theorem nodup_fst_unique {α β : Type} : ∀ (l : List (α × β)), (l.map Prod.fst).Nodup → ∀ {a : α} {b c : β}, (a, b) ∈ l → (a, c) ∈ l → b = c
  | [], _, a, b, c, h, _ => by simp at h
  | (x, y) :: l, hn, a, b, c, hb, hc => by
    simp only [List.map_cons, List.nodup_cons] at hn
    have hin : ∀ {z}, (x, z) ∈ l → False := fun h => hn.1 (List.mem_map.2 ⟨_, h, rfl⟩)
    rcases List.mem_cons.1 hb with hb | hb <;> rcases List.mem_cons.1 hc with hc | hc
    · cases hb; cases hc; rfl
    · cases hb; exact (hin hc).elim
    · cases hc; exact (hin hb).elim
    · exact nodup_fst_unique l hn.2 hb hc

/-- **C35, with splits.** The same for graphs that also contain splits, if every split leads to existing chains and its rows are as wide as
the header the target was configured with. (A chain is configured once, with the header of the first route that reaches it; see
`C35_counterexample_split` for what happens otherwise.) -/
theorem C35_splits (dbg : Bool) (fuel : Nat) (chains : List (HChain BSink)) (headers : List Header) (g : DGraph BSink)
    (hok : processHeader dbg .mergeJoin fuel chains headers = .ok g)
    (hb : ∀ ch ∈ chains, ∀ n ∈ ch, BuiltinNode n ∨ ∃ ids m, n = .splitSink ids m) (gfuel : Nat) (cs : List Call) (out : Res Unit)
    (hfeed : ∀ c row, Call.feed c row ∈ cs → ∃ h, headers[c]? = some h ∧ row.values.length = h.names.length)
    (hflush : ∀ c, Call.flush c ∈ cs → c < headers.length)
    (g' : DGraph BSink) (r : Res Unit)
    (hrun : perform (fun c r g => processRow builtinOps gfuel c 0 r g) (fun c g => flushFrom builtinOps gfuel c 0 g) cs out g = (g', r)) :
    ∃ entry arrived, Setup .mergeJoin chains headers g.chains entry arrived ∧
      ((∀ (c d : Nat) h ch hd, entry c = some h → chains[c]? = some ch → (d, hd) ∈ splitsFrom h ch →
        d < chains.length ∧ ∀ h', entry d = some h' → h'.names.length = hd.names.length) →
      (∀ c k row, Event.write c k row ∈ g'.log → ∃ h ch hk, entry c = some h ∧ chains[c]? = some ch ∧ headerAt h ch k = some hk ∧
        row.values.length = hk.names.length) ∧
      (r = .panic → out = .panic ∨
        ∃ c k row i v x, .write c k row ∈ g'.log ∧ row.values[i]? = some x ∧
          ((sinkAt g'.chains c k = some (.equal i v) ∧ kindOf x = kindOf v ∧ ¬ Supported x) ∨
           (sinkAt g'.chains c k = some (.greater i v) ∧ (kindOf x ≠ kindOf v ∨ ¬ Supported x))))) := by
  obtain ⟨entry, arrived, hs⟩ := setup_spec hok
  refine ⟨entry, arrived, hs, ?_⟩
  intro hsp
  have hlog : g.log = [] := by
    unfold processHeader at hok
    split at hok <;> simp at hok
    rw [← hok]
  have hin : ∀ c, c < headers.length → c < g.chains.length := by
    intro c hc
    rw [hs.length]; exact entry_lt hok hc
  have hwid : ∀ dflt c row, Call.feed c row ∈ cs → c < g.chains.length ∧ (g.chains[c]? = some [] ∨ row.values.length = widthAt dflt chains entry c 0) := by
    intro dflt c row hm
    obtain ⟨h, h1, h2⟩ := hfeed c row hm
    have hlt := hin c (List.getElem?_eq_some_iff.1 h1).1
    have hlt' : c < chains.length := by rw [← hs.length]; exact hlt
    have hc : chains[c]? = some chains[c] := List.getElem?_eq_getElem _
    refine ⟨hlt, ?_⟩
    cases he : entry c with
    | none => left; exact hs.idle c hlt' he
    | some h' =>
      right
      have : h' = h := by
        cases hmc : isMergeChain chains c with
        | true => exact (hs.sameEntry c _ _ (hs.inputMerge c h h1 hmc) he).symm
        | false => have := hs.inputEnter c h h1 hmc; rw [he] at this; simpa using this
      subst this
      simp only [widthAt, he, hc, headerAt, h2]
  have key : ∀ dflt, ∃ r', WidthStep (widthAt dflt chains entry) g g' r' ∧ (r = r' ∨ r' = .ok () ∧ r = out) := fun dflt =>
    perform_width gfuel g out cs (hwid dflt) (fun c hm => hin c (hflush c hm)) g ⟨rfl, fun _ => Iff.rfl⟩ (setup_widthOk hs hb hsp) g' r hrun
  refine ⟨?_, ?_⟩
  · intro c k row hm
    obtain ⟨_, w0, _⟩ := key 0
    obtain ⟨_, w1, _⟩ := key 1
    obtain ⟨e0, l0, g0⟩ := w0.log
    obtain ⟨e1, l1, g1⟩ := w1.log
    rw [hlog, List.nil_append] at l0 l1
    have a0 := g0 c k row (by rw [← l0]; exact hm)
    have a1 := g1 c k row (by rw [← l1]; exact hm)
    rw [a0] at a1
    cases he : entry c with
    | none => simp [widthAt, he] at a1
    | some h =>
      cases hc : chains[c]? with
      | none => simp [widthAt, he, hc] at a1
      | some ch =>
        cases hk : headerAt h ch k with
        | none => simp [widthAt, he, hc, hk] at a1
        | some hk' => exact ⟨h, ch, hk', rfl, rfl, hk, by simpa [widthAt, he, hc, hk] using a0⟩
  · intro hp
    obtain ⟨r', w0, h1 | ⟨_, h1⟩⟩ := key 0
    · right
      obtain ⟨c, k, row, s, p1, p2, i, v, x, p3, p4⟩ := w0.panic (by rw [← h1]; exact hp)
      refine ⟨c, k, row, i, v, x, p1, p3, ?_⟩
      rcases p4 with ⟨rfl, p4⟩ | ⟨rfl, p4⟩
      · exact .inl ⟨p2, (eq_panic_iff _ _).1 p4⟩
      · exact .inr ⟨p2, (cmp_panic_iff _ _).1 p4⟩
    · left; rw [← h1]; exact hp

/-- **C35.** Take any graph of built-in nodes (filters, outputs, merges) that setup accepted. Perform on it any sequence of the driver's
calls (`C23_run_is_calls`: every run is one) that feeds to chain `c` only rows as wide as the header of input `c`. Then every row
written to a sink at node `k` of chain `c` is as wide as the header current at that node when it was configured, and a panic can only come
from a comparison of values of different or unsupported types - never from a missing value or a missing chain. -/
theorem C35_widths (dbg : Bool) (fuel : Nat) (chains : List (HChain BSink)) (headers : List Header) (g : DGraph BSink)
    (hok : processHeader dbg .mergeJoin fuel chains headers = .ok g)
    (hb : ∀ ch ∈ chains, ∀ n ∈ ch, BuiltinNode n) (gfuel : Nat) (cs : List Call) (out : Res Unit)
    (hfeed : ∀ c row, Call.feed c row ∈ cs → ∃ h, headers[c]? = some h ∧ row.values.length = h.names.length)
    (hflush : ∀ c, Call.flush c ∈ cs → c < headers.length)
    (g' : DGraph BSink) (r : Res Unit)
    (hrun : perform (fun c r g => processRow builtinOps gfuel c 0 r g) (fun c g => flushFrom builtinOps gfuel c 0 g) cs out g = (g', r)) :
    ∃ entry arrived, Setup .mergeJoin chains headers g.chains entry arrived ∧
      (∀ c k row, Event.write c k row ∈ g'.log → ∃ h ch hk, entry c = some h ∧ chains[c]? = some ch ∧ headerAt h ch k = some hk ∧
        row.values.length = hk.names.length) ∧
      (r = .panic → out = .panic ∨
        ∃ c k row i v x, .write c k row ∈ g'.log ∧ row.values[i]? = some x ∧
          ((sinkAt g'.chains c k = some (.equal i v) ∧ kindOf x = kindOf v ∧ ¬ Supported x) ∨
           (sinkAt g'.chains c k = some (.greater i v) ∧ (kindOf x ≠ kindOf v ∨ ¬ Supported x)))) := by
  obtain ⟨entry, arrived, hs, H⟩ := C35_splits dbg fuel chains headers g hok (fun ch hc n hn => .inl (hb ch hc n hn)) gfuel cs out hfeed hflush g' r hrun
  refine ⟨entry, arrived, hs, H ?_⟩
  intro c d h ch hd _ hch hm
  exfalso
  have hm' : d ∈ ch.flatMap splitIds :=
    (splitsFrom_prefix ch h).subset (List.mem_map.2 ⟨_, hm, rfl⟩)
  obtain ⟨n, hn, hd'⟩ := List.mem_flatMap.1 hm'
  cases hb ch (List.mem_of_getElem? hch) n hn <;> simp [splitIds] at hd'

/-- **C35, with splits to chains of their own.** If every split target is a chain that is neither that of an input nor a merge and is the
target of one split only, the rows are as wide as the headers everywhere. -/
theorem C35_split_targets (dbg : Bool) (fuel : Nat) (chains : List (HChain BSink)) (headers : List Header) (g : DGraph BSink)
    (hok : processHeader dbg .mergeJoin fuel chains headers = .ok g)
    (hb : ∀ ch ∈ chains, ∀ n ∈ ch, BuiltinNode n ∨ ∃ ids m, n = .splitSink ids m) 
    (hnew : ∀ d ∈ splitTargets chains, headers.length ≤ d ∧ d < chains.length ∧ isMergeChain chains d = false)
    (hone : (splitTargets chains).Nodup) (gfuel : Nat) (cs : List Call) (out : Res Unit)
    (hfeed : ∀ c row, Call.feed c row ∈ cs → ∃ h, headers[c]? = some h ∧ row.values.length = h.names.length)
    (hflush : ∀ c, Call.flush c ∈ cs → c < headers.length)
    (g' : DGraph BSink) (r : Res Unit)
    (hrun : perform (fun c r g => processRow builtinOps gfuel c 0 r g) (fun c g => flushFrom builtinOps gfuel c 0 g) cs out g = (g', r)) :
    ∃ entry arrived, Setup .mergeJoin chains headers g.chains entry arrived ∧
      (∀ c k row, Event.write c k row ∈ g'.log → ∃ h ch hk, entry c = some h ∧ chains[c]? = some ch ∧ headerAt h ch k = some hk ∧
        row.values.length = hk.names.length) ∧
      (r = .panic → out = .panic ∨
        ∃ c k row i v x, .write c k row ∈ g'.log ∧ row.values[i]? = some x ∧
          ((sinkAt g'.chains c k = some (.equal i v) ∧ kindOf x = kindOf v ∧ ¬ Supported x) ∨
           (sinkAt g'.chains c k = some (.greater i v) ∧ (kindOf x ≠ kindOf v ∨ ¬ Supported x)))) := by
  obtain ⟨entry, arrived, hs, H⟩ := C35_splits dbg fuel chains headers g hok hb gfuel cs out hfeed hflush g' r hrun
  refine ⟨entry, arrived, hs, H ?_⟩
  intro c d h ch hd he hch hm
  have hmem : ∀ {c : Nat} {h ch hd}, chains[c]? = some ch → (d, hd) ∈ splitsFrom h ch → d ∈ splitTargets [ch] := by
    intro c h ch hd _ hm
    have := (splitsFrom_prefix ch h).subset (List.mem_map.2 ⟨_, hm, rfl⟩)
    simpa [splitTargets] using this
  have hall : d ∈ splitTargets chains := by
    have := hmem hch hm
    simp only [splitTargets, List.flatMap_cons, List.flatMap_nil, List.append_nil] at this
    exact List.mem_flatMap.2 ⟨ch, List.mem_of_getElem? hch, this⟩
  obtain ⟨n1, n2, n3⟩ := hnew d hall
  refine ⟨n2, fun h' he' => ?_⟩
  rcases hs.origin d h' he' with ⟨h1, _⟩ | ⟨c', h1, ch', e1, e2, e3⟩ | ⟨s, n, rest, e1, _⟩
  · have := (List.getElem?_eq_some_iff.1 h1).1; omega
  · have hcc : c' = c := nodup_flatMap_index _ chains hone e2 hch (by simpa [splitTargets] using hmem e2 e3)
      (by simpa [splitTargets] using hmem hch hm)
    subst hcc
    rw [hch] at e2; cases e2
    rw [he] at e1; cases e1
    have hnd : ((splitsFrom h ch).map Prod.fst).Nodup := by
      have hsub := (splitsFrom_prefix ch h).sublist
      refine hsub.nodup (List.Sublist.nodup ?_ hone)
      obtain ⟨a, b, e⟩ := List.append_of_mem (List.mem_of_getElem? hch)
      rw [e, splitTargets, List.flatMap_append, List.flatMap_cons]
      exact (List.sublist_append_left _ _).trans (List.sublist_append_right _ _)
    have := nodup_fst_unique _ hnd e3 hm
    rw [this]
  · rw [isMergeChain_iff.2 ⟨s, n, rest, e1⟩] at n3; simp at n3

/-- What one would like to be true with splits: rows as wide as their input's header never meet a missing value. -/
def C35_split_full : Prop := ∀ (chains : List (HChain BSink)) (headers : List Header) (g : DGraph BSink) (c : Nat) (h : Header) (row : Row),
  processHeader true .mergeJoin 9 chains headers = .ok g →
  (∀ ch ∈ chains, ∀ n ∈ ch, BuiltinNode n ∨ ∃ ids m, n = .splitSink ids m) → (∀ d ∈ splitTargets chains, d < chains.length) →
  headers[c]? = some h → row.values.length = h.names.length → (∀ x ∈ row.values, kindOf x = some .int) →
  (∀ ch ∈ chains, ∀ f, HNode.sink f ∈ ch → (∃ name, f = deleteHeader name) ∨ f = writerHeader) →
  (processRow builtinOps 9 c 0 row g).2 ≠ .panic

/-- A chain that is the target of two splits with different headers is accepted, but configured for the first: the shorter rows end the
process in `Vec::remove`. -/
theorem C35_counterexample_split : ¬ C35_split_full := by
  intro H
  have := H [[.splitSink [1] 1, .sink (deleteHeader ['a']), .splitSink [1] 1], [.sink (deleteHeader ['b']), .sink writerHeader]]
    [⟨[['a'], ['b']], [.int, .int]⟩] _ 0 _ ⟨7, [.int 1, .int 2]⟩ rfl (by
      intro ch hch n hn
      simp only [List.mem_cons, List.not_mem_nil, or_false] at hch
      rcases hch with rfl | rfl <;> simp only [List.mem_cons, List.not_mem_nil, or_false] at hn
      · rcases hn with rfl | rfl | rfl
        · exact .inr ⟨_, _, rfl⟩
        · exact .inl (.sink (.delete _))
        · exact .inr ⟨_, _, rfl⟩
      · rcases hn with rfl | rfl
        · exact .inl (.sink (.delete _))
        · exact .inl (.sink .output)) (by decide) rfl rfl (by decide) (by
      intro ch hch f hn
      simp only [List.mem_cons, List.not_mem_nil, or_false] at hch
      rcases hch with rfl | rfl <;> simp only [List.mem_cons, List.not_mem_nil, or_false, reduceCtorEq, false_or, HNode.sink.injEq] at hn
      · exact .inl ⟨_, hn⟩
      · rcases hn with rfl | rfl
        · exact .inl ⟨_, rfl⟩
        · exact .inr rfl)
  exact this (by decide +kernel)

/-- Two inputs of three columns, one loses its first column and is filtered, the other its last; both merged towards an output. -/
def c35Chains : List (HChain BSink) :=
  [[.sink (deleteHeader ['a']), .sink (greaterHeader ['b'] (.int 1)), .merge 2], [.sink (deleteHeader ['d']), .merge 2],
   [.mergeSink none 2, .sink writerHeader]]

def c35Headers : List Header := [⟨[['a'], ['b'], ['c']], [.int, .int, .int]⟩, ⟨[['b'], ['c'], ['d']], [.int, .int, .int]⟩]

/-- The hypotheses of `C35_widths` are met: setup succeeds, all nodes are built in, and rows of width 3 come out with width 2. -/
example : (∀ ch ∈ c35Chains, ∀ n ∈ ch, BuiltinNode n) ∧
    ∃ g, processHeader true .mergeJoin 4 c35Chains c35Headers = .ok g ∧
      (perform (fun c r g => processRow builtinOps 9 c 0 r g) (fun c g => flushFrom builtinOps 9 c 0 g)
        [.feed 0 ⟨1, [.int 1, .int 2, .int 3]⟩, .feed 1 ⟨2, [.int 4, .int 5, .int 6]⟩, .flush 0] (.ok ()) g).1.chains[2]? =
        some [.sink .mergeJoin, .sink (.writer [⟨1, [.int 2, .int 3]⟩, ⟨2, [.int 4, .int 5]⟩])] := by
  refine ⟨?_, _, rfl, by decide +kernel⟩
  intro ch hch n hn
  simp only [c35Chains, List.mem_cons, List.not_mem_nil, or_false] at hch
  rcases hch with rfl | rfl | rfl <;> simp only [List.mem_cons, List.not_mem_nil, or_false] at hn
  · rcases hn with rfl | rfl | rfl
    · exact .sink (.delete _)
    · exact .sink (.greater _ _)
    · exact .merge _
  · rcases hn with rfl | rfl
    · exact .sink (.delete _)
    · exact .merge _
  · rcases hn with rfl | rfl
    · exact .mergeSink _ _
    · exact .sink .output

/-- The hypotheses of `C35_split_targets` are met: an input split into two chains that drop different columns. -/
def c35Split : List (HChain BSink) :=
  [[.splitSink [1, 2] 2], [.sink (deleteHeader ['a']), .sink writerHeader], [.sink (deleteHeader ['b']), .sink writerHeader]]

example : (∀ ch ∈ c35Split, ∀ n ∈ ch, BuiltinNode n ∨ ∃ ids m, n = .splitSink ids m) ∧
    (∀ d ∈ splitTargets c35Split, 1 ≤ d ∧ d < c35Split.length ∧ isMergeChain c35Split d = false) ∧ (splitTargets c35Split).Nodup ∧
    ∃ g, processHeader true .mergeJoin 4 c35Split [⟨[['a'], ['b'], ['c']], [.int, .int, .int]⟩] = .ok g ∧
      (perform (fun c r g => processRow builtinOps 9 c 0 r g) (fun c g => flushFrom builtinOps 9 c 0 g)
        [.feed 0 ⟨1, [.int 1, .int 2, .int 3]⟩, .flush 0] (.ok ()) g).1.chains =
        [[.split [1, 2]], [.sink (.delete 0), .sink (.writer [⟨1, [.int 2, .int 3]⟩])],
         [.sink (.delete 1), .sink (.writer [⟨1, [.int 1, .int 3]⟩])]] := by
  refine ⟨?_, by decide, by decide, _, rfl, by decide +kernel⟩
  intro ch hch n hn
  simp only [c35Split, List.mem_cons, List.not_mem_nil, or_false] at hch
  rcases hch with rfl | rfl | rfl <;> simp only [List.mem_cons, List.not_mem_nil, or_false] at hn
  · exact .inr ⟨_, _, hn⟩
  all_goals
    rcases hn with rfl | rfl
    · exact .inl (.sink (.delete _))
    · exact .inl (.sink .output)

end Chopper.Props
