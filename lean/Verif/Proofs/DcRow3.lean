import Verif.Proofs.DcRow2
import Verif.Spec.Input

/-!
# Proofs about DC files: which errors are reported, and when the data is taken to have ended
-/
namespace Chopper
open Spec

/-- `x` reports an error `e` exactly on streams that begin with bytes `c` with `E c e`, or stop before something else happened. -/
structure ErrsOn {α : Type} (x : Rd α) (E : List Byte → Err → Prop) : Prop where
  there : ∀ c e, E c e → ∀ t, ∃ s, x (ofBytes c ++ t) = (.err e, s)
  only : ∀ s e s', x s = (.err e, s') → (∃ c t, s = ofBytes c ++ t ∧ E c e) ∨ ∃ p tl k, s = ofBytes p ++ tl ∧ StopsWith tl k ∧ e = .io k
  ends : ∀ s s', x s ≠ (.diverge, s')

namespace ErrsOn
variable {α β : Type}

theorem pure (a : α) : ErrsOn (Rd.pure a) (fun _ _ => False) :=
  ⟨fun _ _ h => h.elim, fun s e s' h => by simp [Rd.pure] at h, fun s s' h => by simp [Rd.pure] at h⟩
theorem err (e : Err) : ErrsOn (Rd.err e : Rd α) (fun c e' => c = [] ∧ e' = e) :=
  ⟨fun c e' h t => ⟨t, by obtain ⟨rfl, rfl⟩ := h; rfl⟩, fun s e' s' h => .inl ⟨[], s, rfl, rfl, by simpa [Rd.err] using (Prod.mk.inj h).1.symm⟩,
    fun s s' h => by simp [Rd.err] at h⟩
theorem panic : ErrsOn (Rd.panic : Rd α) (fun _ _ => False) :=
  ⟨fun _ _ h => h.elim, fun s e s' h => by simp [Rd.panic] at h, fun s s' h => by simp [Rd.panic] at h⟩

theorem congr {x : Rd α} {P Q : List Byte → Err → Prop} (h : ErrsOn x P) (e : ∀ c e, P c e ↔ Q c e) : ErrsOn x Q :=
  ⟨fun c e' hc => h.there c e' ((e c e').2 hc), fun s e' s' hs => (h.only s e' s' hs).imp
    (fun ⟨c, t, h1, h2⟩ => ⟨c, t, h1, (e c e').1 h2⟩) id, h.ends⟩

theorem bind {x : Rd α} {f : α → Rd β} {P : List Byte → Err → Prop} {Q : α → List Byte → Err → Prop} (hg : Good x) (hx : ErrsOn x P)
    (hf : ∀ a c, Uses x a c → ErrsOn (f a) (Q a)) : ErrsOn (Rd.bind x f) (fun c e => P c e ∨ ∃ a c1 c2, Uses x a c1 ∧ Q a c2 e ∧ c = c1 ++ c2) := by
  refine ⟨?_, ?_, ?_⟩
  · rintro c e (h | ⟨a, c1, c2, hu, hq, rfl⟩) t
    · obtain ⟨s, hs⟩ := hx.there c e h t
      exact ⟨s, by simp [Rd.bind, hs]⟩
    · obtain ⟨s, hs⟩ := (hf a c1 hu).there c2 e hq t
      refine ⟨s, ?_⟩
      rw [ofBytes_append, List.append_assoc, Rd.bind_of_ok (hu.here _)]
      exact hs
  · intro s e s' h
    unfold Rd.bind at h
    rcases hr : x s with ⟨a | e' | _ | _, s1⟩ <;> rw [hr] at h
    · obtain ⟨c1, rfl, hu⟩ := hg s a s1 hr
      rcases (hf a c1 hu).only _ _ _ h with ⟨c2, t, h2, hq⟩ | ⟨p, tl, k, h2, h3, h4⟩
      · exact .inl ⟨c1 ++ c2, t, by rw [h2]; simp [ofBytes_append], .inr ⟨a, c1, c2, hu, hq, rfl⟩⟩
      · exact .inr ⟨c1 ++ p, tl, k, by rw [h2]; simp [ofBytes_append], h3, h4⟩
    · simp only [Prod.mk.injEq, Res.err.injEq] at h
      obtain ⟨rfl, rfl⟩ := h
      exact (hx.only _ _ _ hr).imp (fun ⟨c, t, h1, h2⟩ => ⟨c, t, h1, .inl h2⟩) id
    · cases h
    · cases h
  · intro s s' h
    unfold Rd.bind at h
    rcases hr : x s with ⟨a | e' | _ | _, s1⟩ <;> rw [hr] at h
    · obtain ⟨c1, rfl, hu⟩ := hg s a s1 hr
      exact (hf a c1 hu).ends _ _ h
    · cases h
    · cases h
    · exact hx.ends _ _ hr

theorem readN : ∀ n, ErrsOn (readN n) (fun _ _ => False)
  | 0 => pure _
  | n + 1 => by
    have ih := ErrsOn.bind (f := fun bs => Rd.pure (α := List Byte) bs) (Good.readN n) (ErrsOn.readN n) (fun _ _ _ => pure _)
    refine ⟨fun _ _ h => h.elim, fun s e s' h => ?_, fun s s' h => ?_⟩
    · rw [Chopper.readN] at h
      match s, h with
      | [], h => simp only [Prod.mk.injEq, Res.err.injEq] at h; exact .inr ⟨[], [], _, rfl, .ends, h.1.symm⟩
      | .fail k :: s, h => simp only [Prod.mk.injEq, Res.err.injEq] at h; exact .inr ⟨[], _, k, rfl, .fails k s, h.1.symm⟩
      | .byte b :: s, h =>
        simp only [Rd.bind] at h
        rcases hr : Chopper.readN n s with ⟨_ | e' | _ | _, s1⟩ <;> rw [hr] at h <;> simp [Rd.pure] at h
        obtain ⟨rfl, rfl⟩ := h
        rcases (ErrsOn.readN n).only _ _ _ hr with ⟨c, t, h1, h2⟩ | ⟨p, tl, k, rfl, h2, h3⟩
        · exact h2.elim
        · exact .inr ⟨b :: p, tl, k, rfl, h2, h3⟩
    · rw [Chopper.readN] at h
      match s, h with
      | [], h => simp at h
      | .fail e :: s, h => simp at h
      | .byte b :: s, h =>
        simp only [Rd.bind] at h
        rcases hr : Chopper.readN n s with ⟨_ | e' | _ | _, s1⟩ <;> rw [hr] at h <;> simp [Rd.pure] at h
        exact (ErrsOn.readN n).ends _ _ hr

/-- Errors of the second part only. -/
theorem bind' {x : Rd α} {f : α → Rd β} {Q : α → List Byte → Err → Prop} (hg : Good x) (hx : ErrsOn x (fun _ _ => False))
    (hf : ∀ a, ErrsOn (f a) (Q a)) : ErrsOn (Rd.bind x f) (fun c e => ∃ a c1 c2, Uses x a c1 ∧ Q a c2 e ∧ c = c1 ++ c2) :=
  (ErrsOn.bind hg hx fun a _ _ => hf a).congr fun c e => by simp

/-- No errors of its own. -/
theorem bind0 {x : Rd α} {f : α → Rd β} (hg : Good x) (hx : ErrsOn x (fun _ _ => False))
    (hf : ∀ a, ErrsOn (f a) (fun _ _ => False)) : ErrsOn (Rd.bind x f) (fun _ _ => False) :=
  (ErrsOn.bind' hg hx hf).congr fun c e => by simp

theorem readU (k : Nat) : ErrsOn (readU k) (fun _ _ => False) := bind0 (Good.readN k) (ErrsOn.readN k) fun _ => pure _
theorem utf8 (bs : List Byte) : ErrsOn (rdUtf8 bs) (fun _ _ => False) := by
  unfold rdUtf8; split; exact pure _; exact panic
theorem readString : ErrsOn readString (fun _ _ => False) := by
  rw [readString_eq]
  refine bind0 good_textLen (bind0 (Good.readU 2) (ErrsOn.readU 2) fun n => ?_) fun n => bind0 (Good.readN n) (ErrsOn.readN n) utf8
  split
  · exact ErrsOn.readU 4
  · exact pure _

end ErrsOn

/-- The error for a type that is not supported. -/
def unsupported : FieldType → Err
  | .boolean => .custom "DCReader -- boolean field type is not supported"
  | _ => .custom "DCReader -- ByteBuffer field type is not supported"

theorem errs_readValue (t : FieldType) : ErrsOn (readValue t) (fun c e => (t = .boolean ∨ t = .byteBuf) ∧ c = [] ∧ e = unsupported t) := by
  cases t <;> unfold readValue
  case boolean => exact (ErrsOn.err _).congr fun c e => by simp [unsupported]
  case byteBuf => exact (ErrsOn.err _).congr fun c e => by simp [unsupported]
  case string => exact (ErrsOn.bind0 Good.readString ErrsOn.readString fun _ => ErrsOn.pure _).congr fun c e => by simp
  all_goals exact (ErrsOn.bind0 (Good.readU _) (ErrsOn.readU _) fun _ => ErrsOn.pure _).congr fun c e => by simp

/-- Fields up to a value of a type that is not supported. -/
def UnCols (cs : List (FieldType × Bool)) (c : List Byte) (e : Err) : Prop :=
  ∃ (i : Nat) (ps : List (List Byte)) (vs : List FieldValue) (t : FieldType), Cols (cs.take i) ps vs ∧ cs[i]? = some (t, false) ∧ (t = .boolean ∨ t = .byteBuf) ∧
    e = unsupported t ∧ c = ps.flatten

theorem unCols_cons {t : FieldType} {n : Bool} {cs : List (FieldType × Bool)} {c : List Byte} {e : Err} : UnCols ((t, n) :: cs) c e ↔
    (n = false ∧ (t = .boolean ∨ t = .byteBuf) ∧ c = [] ∧ e = unsupported t) ∨ (n = true ∧ UnCols cs c e) ∨
      (n = false ∧ ∃ p v d, StoredValue t p v ∧ UnCols cs d e ∧ c = p ++ d) := by
  constructor
  · rintro ⟨i, ps, vs, u, h1, h2, h3, h4, rfl⟩
    cases i with
    | zero =>
      simp only [List.take_zero] at h1
      cases h1
      simp only [List.getElem?_cons_zero, Option.some.injEq, Prod.mk.injEq] at h2
      obtain ⟨rfl, rfl⟩ := h2
      exact .inl ⟨rfl, h3, rfl, h4⟩
    | succ i =>
      rw [List.take_succ_cons] at h1
      rw [List.getElem?_cons_succ] at h2
      cases h1 with
      | null h1 => exact .inr (.inl ⟨rfl, i, _, _, u, h1, h2, h3, h4, by simp⟩)
      | value hv h1 => exact .inr (.inr ⟨rfl, _, _, _, hv, ⟨i, _, _, u, h1, h2, h3, h4, rfl⟩, by simp⟩)
  · rintro (⟨rfl, h, rfl, h4⟩ | ⟨rfl, i, ps, vs, u, h1, h2, h3, h4, rfl⟩ | ⟨rfl, p, v, d, hv, ⟨i, ps, vs, u, h1, h2, h3, h4, rfl⟩, rfl⟩)
    · exact ⟨0, [], [], t, .nil, rfl, h, h4, rfl⟩
    · exact ⟨i + 1, _, _, u, .null h1, h2, h3, h4, by simp⟩
    · exact ⟨i + 1, _, _, u, .value hv h1, h2, h3, h4, by simp⟩

theorem errs_readCols : ∀ cs, ErrsOn (readCols cs) (UnCols cs)
  | [] => (ErrsOn.pure _).congr fun c e => ⟨False.elim, by rintro ⟨i, ps, vs, t, h1, h2, _⟩; simp at h2⟩
  | (t, n) :: cs => by
    rw [readCols]
    have ih' : ∀ v : FieldValue, ErrsOn (Rd.bind (readCols cs) fun vs => Rd.pure (v :: vs)) (UnCols cs) := fun v =>
      (ErrsOn.bind (good_readCols cs) (errs_readCols cs) fun _ _ _ => ErrsOn.pure _).congr fun c e => by simp
    cases n with
    | true =>
      rw [if_pos rfl, Rd.bind_pure_left]
      refine (ih' _).congr fun c e => ?_
      rw [unCols_cons]; simp
    | false =>
      rw [if_neg (by simp)]
      refine (ErrsOn.bind (Good.readValue t) (errs_readValue t) fun v _ _ => ih' v).congr fun c e => ?_
      rw [unCols_cons]
      simp only [uses_readValue_iff, true_and, Bool.true_eq_false, Bool.false_eq_true, false_and, false_or]
      refine or_congr_right ⟨?_, ?_⟩
      · rintro ⟨v, p, d, h1, h2, h3⟩; exact ⟨p, v, d, h1, h2, h3⟩
      · rintro ⟨p, v, d, h1, h2, h3⟩; exact ⟨v, p, d, h1, h2, h3⟩

theorem errs_rowBody {types : List FieldType} (hne : types ≠ []) : ErrsOn (readRowBody types) (fun c e =>
    ∃ (bitmap : List Byte) (i : Nat) (ps : List (List Byte)) (vs : List FieldValue) (t : FieldType), bitmap.length = (types.length + 7) / 8 ∧
      StoredFields (types.take i) bitmap ps vs ∧ types[i]? = some t ∧ (t = .boolean ∨ t = .byteBuf) ∧ bitOf bitmap i = false ∧
      c = bitmap ++ ps.flatten ∧ e = unsupported t) := by
  rw [readRowBody_cols hne]
  refine (ErrsOn.bind' (Good.readN _) (ErrsOn.readN _) fun _ => errs_readCols _).congr fun c e => ?_
  constructor
  · rintro ⟨bm, c1, c2, h1, ⟨i, ps, vs, t, h3, h4, h5, h6, rfl⟩, rfl⟩
    obtain ⟨rfl, hl⟩ := uses_readN_iff.1 h1
    rw [List.getElem?_zip_eq_some] at h4
    have hi := (List.getElem?_eq_some_iff.1 h4.1).1
    rw [flatBits_get bm i (by omega)] at h4
    exact ⟨bm, i, ps, vs, t, hl, (cols_fields (by omega) i).1 h3, h4.1, h5, Option.some.inj h4.2, rfl, h6⟩
  · rintro ⟨bm, i, ps, vs, t, hl, h3, h4, h5, h6, rfl, h7⟩
    have hi := (List.getElem?_eq_some_iff.1 h4).1
    refine ⟨bm, bm, _, uses_readN_iff.2 ⟨rfl, hl⟩, ⟨i, ps, vs, t, (cols_fields (by omega) i).2 h3, ?_, h5, h7, rfl⟩, rfl⟩
    rw [List.getElem?_zip_eq_some, flatBits_get bm i (by omega), h6]
    exact ⟨h4, rfl⟩

theorem nextRow_unsupported {src : DcSource} (hne : src.header.types ≠ []) {c : List Byte} {t : Stream} {ty : FieldType}
    (hs : src.stream = ofBytes c ++ t) (h : UnsupportedRow src.header.types c ty) : src.nextRow.1 = .err (unsupported ty) := by
  obtain ⟨ts, bm, i, ps, vs, hts, hl, a1, a2, a3, a4, rfl⟩ := h
  obtain ⟨s, hp⟩ := (errs_rowBody hne).there _ _ ⟨bm, i, ps, vs, ty, hl, a1, a2, a3, a4, rfl, rfl⟩ t
  unfold DcSource.nextRow
  rw [hs, ← beBytes_eq, List.append_assoc, ofBytes_append, List.append_assoc, (uses_readU (by omega)).here]
  simp only
  rw [hp]

theorem stops_eq {p q : List Byte} {s t : Stream} {k l : IoKind} (h : ofBytes p ++ s = ofBytes q ++ t) (hs : StopsWith s k) (ht : StopsWith t l) :
    p = q ∧ k = l ∧ s = t := by
  induction p generalizing q with
  | nil =>
    cases q with
    | nil =>
      have h' : s = t := by simpa [ofBytes] using h
      subst h'
      cases hs <;> cases ht <;> exact ⟨rfl, rfl, rfl⟩
    | cons b q =>
      have h' : s = .byte b :: (ofBytes q ++ t) := by simpa [ofBytes] using h
      subst h'
      cases hs
  | cons a p ih =>
    cases q with
    | nil =>
      have h' : .byte a :: (ofBytes p ++ s) = t := by simpa [ofBytes] using h
      subst h'
      cases ht
    | cons b q =>
      have h' : a = b ∧ ofBytes p ++ s = ofBytes q ++ t := by simpa [ofBytes] using h
      obtain ⟨rfl, h'⟩ := h'
      obtain ⟨rfl, h2⟩ := ih h'
      exact ⟨rfl, h2⟩

theorem prefix_stops {c p : List Byte} {s t : Stream} {k : IoKind} (h : ofBytes c ++ s = ofBytes p ++ t) (ht : StopsWith t k) : c <+: p := by
  induction c generalizing p with
  | nil => exact List.nil_prefix
  | cons a c ih =>
    cases p with
    | nil =>
      have h' : .byte a :: (ofBytes c ++ s) = t := by simpa [ofBytes] using h
      subst h'
      cases ht
    | cons b p =>
      have h' : a = b ∧ ofBytes c ++ s = ofBytes p ++ t := by simpa [ofBytes] using h
      obtain ⟨rfl, h'⟩ := h'
      exact List.prefix_cons_inj a |>.2 (ih h')

theorem readU_stops {k : Nat} {p : List Byte} {tl : Stream} {e : IoKind} (hp : p.length < k) (ht : StopsWith tl e) :
    ∃ s, readU k (ofBytes p ++ tl) = (.err (.io e), s) := by
  obtain ⟨m, rfl⟩ : ∃ m, k = p.length + (m + 1) := ⟨k - p.length - 1, by omega⟩
  unfold readU
  cases ht with
  | ends => exact ⟨_, by rw [List.append_nil]; exact Rd.bind_of_err (readN_eof p m)⟩
  | fails e t => exact ⟨_, Rd.bind_of_err (readN_fail p m e t)⟩

/-- The data is taken to have ended exactly if it stops within the next eight bytes. -/
theorem nextRow_none {src : DcSource} : src.nextRow.1 = .ok none ↔
    ∃ p tl k, src.stream = ofBytes p ++ tl ∧ StopsWith tl k ∧ p.length < 8 := by
  constructor
  · intro h
    unfold DcSource.nextRow at h
    rcases h1 : readU 8 src.stream with ⟨ts | e | _ | _, s⟩ <;> rw [h1] at h <;> simp only [reduceCtorEq] at h
    · rcases h2 : readRowBody src.header.types s with ⟨vs | _ | _ | _, s'⟩ <;> rw [h2] at h <;> simp only [reduceCtorEq, Res.ok.injEq] at h
    · rcases (ErrsOn.readU 8).only _ _ _ h1 with ⟨c, t, _, h2⟩ | ⟨p, tl, k, h2, h3, h4⟩
      · exact h2.elim
      · refine ⟨p, tl, k, h2, h3, Nat.lt_of_not_le fun h8 => ?_⟩
        have e : p = p.take 8 ++ p.drop 8 := by simp
        have hl : (p.take 8).length = 8 := by rw [List.length_take]; omega
        have : readN 8 src.stream = (.ok (p.take 8), ofBytes (p.drop 8) ++ tl) := by
          have := readN_ok (p.take 8) (ofBytes (p.drop 8) ++ tl)
          rwa [hl, ← List.append_assoc, ← ofBytes_append, ← e, ← h2] at this
        rw [readU, Rd.bind_of_ok this] at h1
        simp [Rd.pure] at h1
  · rintro ⟨p, tl, k, hs, ht, hp⟩
    obtain ⟨s, h⟩ := readU_stops hp ht
    unfold DcSource.nextRow
    rw [hs, h]

theorem nextRow_ends (src : DcSource) (hne : src.header.types ≠ []) : src.nextRow.1 ≠ .diverge := by
  intro h
  unfold DcSource.nextRow at h
  rcases h1 : readU 8 src.stream with ⟨ts | e | _ | _, s⟩ <;> rw [h1] at h <;> simp only [reduceCtorEq] at h
  · rcases h2 : readRowBody src.header.types s with ⟨vs | _ | _ | _, s'⟩ <;> rw [h2] at h <;> simp only [reduceCtorEq] at h
    exact (errs_rowBody hne).ends _ _ h2
  · exact (ErrsOn.readU 8).ends _ _ h1

theorem nextRow_err {src : DcSource} (hne : src.header.types ≠ []) {e : Err} : src.nextRow.1 = .err e ↔
    (∃ c t ty, src.stream = ofBytes c ++ t ∧ UnsupportedRow src.header.types c ty ∧ e = unsupported ty) ∨
    (∃ p tl k, src.stream = ofBytes p ++ tl ∧ StopsWith tl k ∧ 8 ≤ p.length ∧ RowUnfinished src.header.types p ∧ e = .io k) := by
  constructor
  · intro h
    have hall := h
    unfold DcSource.nextRow at h
    rcases h1 : readU 8 src.stream with ⟨ts | e | _ | _, s⟩ <;> rw [h1] at h <;> simp only [reduceCtorEq] at h
    rcases h2 : readRowBody src.header.types s with ⟨vs | e' | _ | _, s'⟩ <;> rw [h2] at h <;> simp only [reduceCtorEq, Res.err.injEq] at h
    subst h
    obtain ⟨e1, hts⟩ := readU_inv h1
    rcases (errs_rowBody hne).only _ _ _ h2 with ⟨c, t, e2, bm, i, ps, vs, ty, hl, a1, a2, a3, a4, rfl, a5⟩ | ⟨p, tl, k, e2, ht, rfl⟩
    · refine .inl ⟨bigEndian 8 ts ++ bm ++ ps.flatten, t, ty, ?_, ⟨ts, bm, i, ps, vs, by omega, hl, a1, a2, a3, a4, rfl⟩, a5⟩
      rw [e1, e2, beBytes_eq]; simp [ofBytes_append]
    · have hs : src.stream = ofBytes (beBytes 8 ts ++ p) ++ tl := by rw [e1, e2]; simp [ofBytes_append]
      refine .inr ⟨beBytes 8 ts ++ p, tl, k, hs, ht, by rw [List.length_append, beBytes_length]; omega, ?_, rfl⟩
      intro c hc
      obtain ⟨d, hd⟩ := hc
      have hs' : src.stream = ofBytes c ++ (ofBytes d ++ tl) := by rw [hs, ← hd]; simp [ofBytes_append]
      refine ⟨fun r hr => ?_, fun hr => ?_, fun ty hr => ?_⟩
      · have := (nextRow_iff hne (r := r) (src' := ⟨ofBytes d ++ tl, src.header⟩)).2 ⟨rfl, c, hs', hr⟩
        rw [this] at hall; cases hall
      · rw [(nextRow_panic hne).2 ⟨c, _, hs', hr⟩] at hall; cases hall
      · rw [nextRow_unsupported hne hs' hr] at hall
        simp only [Res.err.injEq] at hall
        obtain ⟨ts', bm, i, ps, vs, hts', hl, a1, a2, a3, a4, rfl⟩ := hr
        rcases a3 with rfl | rfl <;> cases hall
  · rintro (⟨c, t, ty, hs, hu, rfl⟩ | ⟨p, tl, k, hs, ht, h8, hu, rfl⟩)
    · exact nextRow_unsupported hne hs hu
    · rcases hr : src.nextRow with ⟨o | e' | _ | _, src'⟩
      · cases o with
        | none =>
          have : src.nextRow.1 = .ok none := by rw [hr]
          obtain ⟨q, tl', k', hs', ht', hq⟩ := nextRow_none.1 this
          obtain ⟨rfl, _⟩ := stops_eq (hs.symm.trans hs') ht ht'
          omega
        | some r =>
          obtain ⟨_, c, hs', hc⟩ := (nextRow_iff hne).1 hr
          exact absurd hc ((hu c (prefix_stops (hs'.symm.trans hs) ht)).1 r)
      · have herr : src.nextRow.1 = .err e' := by rw [hr]
        unfold DcSource.nextRow at herr
        rcases h1 : readU 8 src.stream with ⟨ts | e | _ | _, s⟩ <;> rw [h1] at herr <;> simp only [reduceCtorEq] at herr
        rcases h2 : readRowBody src.header.types s with ⟨vs | e'' | _ | _, s'⟩ <;> rw [h2] at herr <;> simp only [reduceCtorEq, Res.err.injEq] at herr
        subst herr
        obtain ⟨e1, hts⟩ := readU_inv h1
        rcases (errs_rowBody hne).only _ _ _ h2 with ⟨c, t, e2, bm, i, ps, vs, ty, hl, a1, a2, a3, a4, rfl, a5⟩ | ⟨p', tl', k', e2, ht', rfl⟩
        · have hs' : src.stream = ofBytes (bigEndian 8 ts ++ bm ++ ps.flatten) ++ t := by rw [e1, e2, beBytes_eq]; simp [ofBytes_append]
          exact absurd ⟨ts, bm, i, ps, vs, by omega, hl, a1, a2, a3, a4, rfl⟩ ((hu _ (prefix_stops (hs'.symm.trans hs) ht)).2.2 ty)
        · have hs' : src.stream = ofBytes (beBytes 8 ts ++ p') ++ tl' := by rw [e1, e2]; simp [ofBytes_append]
          obtain ⟨_, rfl, _⟩ := stops_eq (hs.symm.trans hs') ht ht'
          rfl
      · have : src.nextRow.1 = .panic := by rw [hr]
        obtain ⟨c, t, hs', hc⟩ := (nextRow_panic hne).1 this
        exact absurd hc (hu c (prefix_stops (hs'.symm.trans hs) ht)).2.1
      · exact absurd (by rw [hr]) (nextRow_ends src hne)

/-! ## Errors in headers -/

theorem errs_sizedString : ErrsOn getSizedString (fun _ _ => False) :=
  ErrsOn.bind0 (Good.readU 4) (ErrsOn.readU 4) fun n => ErrsOn.bind0 (Good.readN n) (ErrsOn.readN n) ErrsOn.utf8

/-- The error about display hints. -/
def hintErr : Err := .custom "unexpected display hint value"

/-- A description of a column with a display hint out of range. -/
def BadHint (c : List Byte) : Prop :=
  ∃ (name ty : Str) (hint : Int), (utf8Encode name).length < 2 ^ 32 ∧ (utf8Encode ty).length < 2 ^ 32 ∧ -2 ^ 31 ≤ hint ∧ hint < 2 ^ 31 ∧ (hint < -1 ∨ 6 < hint) ∧
    c = sized name ++ sized ty ++ bigEndian 4 (BitVec.ofInt 32 hint).toNat

theorem hint_bad {n : Nat} (h : n < 2 ^ 32) : ¬ (n = 2 ^ 32 - 1 ∨ n ≤ 6) ↔
    ∃ z : Int, -2 ^ 31 ≤ z ∧ z < 2 ^ 31 ∧ (z < -1 ∨ 6 < z) ∧ (BitVec.ofInt 32 z).toNat = n := by
  constructor
  · intro hn
    by_cases h31 : n < 2 ^ 31
    · refine ⟨n, by omega, by omega, by omega, ?_⟩
      simp; omega
    · refine ⟨(n : Int) - 2 ^ 32, by omega, by omega, by omega, ?_⟩
      simp; omega
  · rintro ⟨z, z1, z2, z3, rfl⟩
    simp
    omega

theorem errs_descriptor : ErrsOn fieldDescriptor (fun c e => BadHint c ∧ e = hintErr) := by
  have hh : ∀ a : Str × Str, ErrsOn (readHint a) (fun c e => ∃ n, n < 2 ^ 32 ∧ ¬ (n = 2 ^ 32 - 1 ∨ n ≤ 6) ∧ c = bigEndian 4 n ∧ e = hintErr) := fun a => by
    have hi : ∀ n : Nat, ErrsOn (if n = 2 ^ 32 - 1 ∨ n ≤ 6 then Rd.pure a else Rd.err hintErr) (fun c e => ¬ (n = 2 ^ 32 - 1 ∨ n ≤ 6) ∧ c = [] ∧ e = hintErr) := by
      intro n
      split
      · next h => exact (ErrsOn.pure a).congr fun c e => by simp [h]
      · next h => exact (ErrsOn.err hintErr).congr fun c e => by simp [h]
    refine (ErrsOn.bind' (Good.readU 4) (ErrsOn.readU 4) hi).congr fun c e => ?_
    constructor
    · rintro ⟨n, c1, c2, h1, ⟨h2, rfl, rfl⟩, rfl⟩
      obtain ⟨rfl, h3⟩ := uses_readU_iff.1 h1
      exact ⟨n, h3, h2, by simp [beBytes_eq], rfl⟩
    · rintro ⟨n, h1, h2, rfl, rfl⟩
      exact ⟨n, _, [], uses_readU h1, ⟨h2, rfl, rfl⟩, by simp [beBytes_eq]⟩
  refine (ErrsOn.bind' Good.sizedString errs_sizedString fun name => ErrsOn.bind' Good.sizedString errs_sizedString fun ty => hh (name, ty)).congr fun c e => ?_
  constructor
  · rintro ⟨name, c1, c2, h1, ⟨ty, c3, c4, h2, ⟨n, h3, h4, rfl, rfl⟩, rfl⟩, rfl⟩
    obtain ⟨l1, rfl⟩ := uses_sizedString_iff.1 h1
    obtain ⟨l2, rfl⟩ := uses_sizedString_iff.1 h2
    obtain ⟨z, z1, z2, z3, rfl⟩ := (hint_bad h3).1 h4
    exact ⟨⟨name, ty, z, l1, l2, z1, z2, z3, by simp⟩, rfl⟩
  · rintro ⟨⟨name, ty, z, l1, l2, z1, z2, z3, rfl⟩, rfl⟩
    exact ⟨name, _, _, uses_sizedString_iff.2 ⟨l1, rfl⟩, ⟨ty, _, _, uses_sizedString_iff.2 ⟨l2, rfl⟩, ⟨_, BitVec.isLt _, (hint_bad (BitVec.isLt _)).2 ⟨z, z1, z2, z3, rfl⟩, rfl, rfl⟩, rfl⟩, by simp⟩

/-- Valid columns, fewer than `n`, and then one with a display hint out of range. -/
def BadHints (n : Nat) (c : List Byte) : Prop :=
  ∃ (cols : List Column) (bad : List Byte), cols.length < n ∧ (∀ x ∈ cols, x.Valid) ∧ BadHint bad ∧ c = (cols.map Column.bytes).flatten ++ bad

theorem errs_descriptors : ∀ n i, ErrsOn (readDescriptors n i) (fun c e => BadHints n c ∧ e = hintErr)
  | 0, i => (ErrsOn.pure _).congr fun c e => ⟨False.elim, by rintro ⟨⟨cols, bad, h, _⟩, _⟩; omega⟩
  | n + 1, i => by
    have hf : ∀ a : Str × Str, ErrsOn (match typeOfString a.2 with
        | none => Rd.panic
        | some ft => Rd.bind (readDescriptors n (i + 1)) fun rest => Rd.pure ((if a.1 = [] then defaultName i else a.1, ft) :: rest))
        (fun c e => typeOfString a.2 ≠ none ∧ BadHints n c ∧ e = hintErr) := by
      rintro ⟨name, ty⟩
      simp only
      cases h : typeOfString ty with
      | none => exact ErrsOn.panic.congr fun c e => by simp
      | some ft =>
        exact (ErrsOn.bind (good_descriptors n (i + 1)) (errs_descriptors n (i + 1)) fun _ _ _ => ErrsOn.pure _).congr fun c e => by simp
    have := ErrsOn.bind good_descriptor errs_descriptor fun a _ _ => hf a
    rw [readDescriptors]
    refine this.congr fun c e => ?_
    constructor
    · rintro (⟨h, rfl⟩ | ⟨⟨name, ty⟩, c1, c2, hu, ⟨hn, ⟨cols, bad, h1, h2, h3, rfl⟩, rfl⟩, rfl⟩)
      · exact ⟨⟨[], _, by simp, by simp, h, by simp⟩, rfl⟩
      · obtain ⟨z, z1, z2, l1, l2, rfl⟩ := uses_descriptor_iff.1 hu
        obtain ⟨ft, hft⟩ := Option.ne_none_iff_exists'.1 hn
        have hs := typeOfString_iff.1 hft
        refine ⟨⟨⟨name, ft, String.ofList ty, z⟩ :: cols, bad, by simpa using h1, ?_, h3, by simp [Column.bytes]⟩, rfl⟩
        intro c hc
        rcases List.mem_cons.1 hc with rfl | hc
        · exact ⟨typeName_iff.2 (by simpa using hs), l1, z1, z2⟩
        · exact h2 c hc
    · rintro ⟨⟨cols, bad, h1, h2, h3, rfl⟩, rfl⟩
      cases cols with
      | nil => exact .inl ⟨by simpa using h3, rfl⟩
      | cons x cols =>
        have hx := h2 x (by simp)
        refine .inr ⟨(x.name, x.typeName.toList), x.bytes, (cols.map Column.bytes).flatten ++ bad, uses_fieldDescriptor hx, ⟨?_, ⟨cols, bad, by simpa using h1,
          fun y hy => h2 y (by simp [hy]), h3, rfl⟩, rfl⟩, by simp⟩
        simp only
        rw [typeOfString_iff.2 (typeName_iff.1 hx.1)]
        simp

theorem ErrsOn.ite {α : Type} {x y : Rd α} {P Q : List Byte → Err → Prop} (p : Prop) [Decidable p] (hx : ErrsOn x P) (hy : ErrsOn y Q) :
    ErrsOn (if p then x else y) (fun c e => (p ∧ P c e) ∨ (¬ p ∧ Q c e)) := by
  split
  · next h => exact hx.congr fun c e => by simp [h]
  · next h => exact hy.congr fun c e => by simp [h]

theorem errs_dcTail (ov : Overflow) (n : Nat) (hn : n < 2 ^ 32) : ErrsOn (Rd.bind (fun s => (getBitsetBytes ov n, s)) fun bitset => Rd.bind (rdAlloc bitset) fun _ =>
      Rd.bind (readDescriptors n 0) fun fields => Rd.pure (⟨fields.map (·.1), fields.map (·.2)⟩ : Header))
      (fun c e => BadHints n c ∧ e = hintErr) := by
  by_cases h0 : n = 0
  · subst h0
    have hb := bitset_zero ov
    have hp : (Rd.bind (fun s => (getBitsetBytes ov 0, s)) fun bitset => Rd.bind (rdAlloc bitset) fun _ =>
      Rd.bind (readDescriptors 0 0) fun fields => Rd.pure (⟨fields.map (·.1), fields.map (·.2)⟩ : Header)) = Rd.panic := by
      funext s
      unfold Rd.bind rdAlloc Rd.panic
      cases hg : getBitsetBytes ov 0 with
      | ok k => rw [hg, Res.bind_ok] at hb; simp [hb]
      | err e => rw [hg] at hb; simp [Res.bind] at hb
      | panic => rfl
      | diverge => rw [hg] at hb; simp [Res.bind] at hb
    rw [hp]
    exact ErrsOn.panic.congr fun c e => ⟨False.elim, by rintro ⟨⟨cols, bad, h, _⟩, _⟩; omega⟩
  · have hal : allocBytes (1 + (n - 1) / 8) = .ok () := if_pos (by omega)
    have hra : rdAlloc (1 + (n - 1) / 8) = fun s => (.ok (), s) := by funext s; simp only [rdAlloc, hal]
    rw [getBitsetBytes_pos h0, rdConst_ok, hra, rdConst_ok]
    exact (ErrsOn.bind (good_descriptors n 0) (errs_descriptors n 0) fun _ _ _ => ErrsOn.pure _).congr fun c e => by simp

theorem errs_dcHeader (ov : Overflow) : ErrsOn (dcHeader ov) (fun c e => ∃ msg, RejectedHeader c msg ∧ e = .custom msg) := by
  have h4 : ∀ u : Nat, ErrsOn (Rd.bind (readN u) fun _ => Rd.bind (readU 4) fun n => Rd.bind (fun s => (getBitsetBytes ov n, s)) fun bitset =>
      Rd.bind (rdAlloc bitset) fun _ => Rd.bind (readDescriptors n 0) fun fields => Rd.pure (⟨fields.map (·.1), fields.map (·.2)⟩ : Header)) _ := fun u =>
    ErrsOn.bind' (Good.readN u) (ErrsOn.readN u) fun _ => ErrsOn.bind (Good.readU 4) (ErrsOn.readU 4) fun n c hu => errs_dcTail ov n (uses_readU_iff.1 hu).2
  have h2 := ErrsOn.bind' (Good.readU 4) (ErrsOn.readU 4) h4
  have h1 : ∀ v : Nat, ErrsOn (if v ≠ dcVersion then Rd.err (.custom "DCReader -- wrong version") else _) _ := fun v =>
    ErrsOn.ite (v ≠ dcVersion) (ErrsOn.err _) h2
  have h0 : ∀ m : Nat, ErrsOn (if m ≠ dcMagic then Rd.err (.custom "DCReader -- wrong magic number") else _) _ := fun m =>
    ErrsOn.ite (m ≠ dcMagic) (ErrsOn.err _) (ErrsOn.bind' (Good.readU 2) (ErrsOn.readU 2) h1)
  refine (ErrsOn.bind' (Good.readU 8) (ErrsOn.readU 8) h0).congr fun c e => ?_
  constructor
  · rintro ⟨m, c1, c2, u1, h, rfl⟩
    obtain ⟨rfl, hm8⟩ := uses_readU_iff.1 u1
    rcases h with ⟨hm, rfl, rfl⟩ | ⟨hm, v, c3, c4, u2, h, rfl⟩
    · rw [List.append_nil]
      refine ⟨_, .magic (beBytes_length 8 m) fun he => hm ?_, rfl⟩
      rw [← magic_bytes] at he
      have := congrArg beVal he
      rw [beVal_beBytes, beVal_beBytes, Nat.mod_eq_of_lt hm8] at this
      rw [this]; decide
    rw [Decidable.not_not] at hm
    subst hm
    obtain ⟨rfl, hv2⟩ := uses_readU_iff.1 u2
    rcases h with ⟨hv, rfl, rfl⟩ | ⟨hv, us, c5, c6, u3, h, rfl⟩
    · rw [List.append_nil, magic_bytes]
      refine ⟨_, .version (beBytes_length 2 v) fun he => hv ?_, rfl⟩
      rw [← version_bytes] at he
      have := congrArg beVal he
      rw [beVal_beBytes, beVal_beBytes, Nat.mod_eq_of_lt hv2] at this
      rw [this]; decide
    rw [Decidable.not_not] at hv
    subst hv
    obtain ⟨user, c7, c8, u4, h5, rfl⟩ := h
    rcases h5 with h5 | ⟨n, c9, c10, u5, ⟨⟨cols, bad, b1, b2, ⟨name, ty, z, l1, l2, z1, z2, z3, rfl⟩, rfl⟩, rfl⟩, rfl⟩
    · exact h5.elim
    obtain ⟨rfl, hus⟩ := uses_readU_iff.1 u3
    obtain ⟨rfl, rfl⟩ := uses_readN_iff.1 u4
    obtain ⟨rfl, hn⟩ := uses_readU_iff.1 u5
    refine ⟨_, ?_, rfl⟩
    have := RejectedHeader.hint hus hn b1 b2 l1 l2 z1 z2 z3
    rw [magic_bytes, version_bytes, beBytes_eq, beBytes_eq]
    simpa using this
  · rintro ⟨msg, h, rfl⟩
    cases h with
    | magic h1 h2 =>
      refine ⟨beVal c, c, [], ?_, .inl ⟨fun he => h2 ?_, rfl, rfl⟩, by simp⟩
      · have := uses_readU (k := c.length) (n := beVal c) (beVal_lt c)
        rw [beBytes_beVal] at this
        rwa [h1] at this
      · rw [← magic_bytes, ← he, ← h1, beBytes_beVal]
    | @version v h1 h2 =>
      refine ⟨dcMagic, _, v, uses_readU (by decide), .inr ⟨by simp, beVal v, v, [], ?_, .inl ⟨fun he => h2 ?_, rfl, rfl⟩, by simp⟩, by rw [magic_bytes]⟩
      · have := uses_readU (k := v.length) (n := beVal v) (beVal_lt v)
        rw [beBytes_beVal] at this
        rwa [h1] at this
      · rw [← version_bytes, ← he, ← h1, beBytes_beVal]
    | @hint user n cols name ty z hus hn b1 b2 l1 l2 z1 z2 z3 =>
      refine ⟨dcMagic, _, _, uses_readU (by decide), .inr ⟨by simp, dcVersion, _, _, uses_readU (by decide), .inr ⟨by simp, user.length, _, _, uses_readU hus,
        ⟨user, _, _, uses_readN user, .inr ⟨n, _, _, uses_readU hn, ⟨⟨cols, _, b1, b2, ⟨name, ty, z, l1, l2, z1, z2, z3, rfl⟩, rfl⟩, rfl⟩, rfl⟩, rfl⟩, rfl⟩, rfl⟩, ?_⟩
      rw [magic_bytes, version_bytes, beBytes_eq, beBytes_eq]; simp

theorem dcOpen_ends (ov : Overflow) (s : Stream) : dcOpen ov s ≠ .diverge := by
  intro h
  unfold dcOpen at h
  rcases hh : dcHeader ov s with ⟨_ | _ | _ | _, s'⟩ <;> rw [hh] at h <;> simp only [reduceCtorEq] at h
  exact (errs_dcHeader ov).ends _ _ hh

theorem dcOpen_rejected {ov : Overflow} {c : List Byte} {t : Stream} {msg : String} (h : RejectedHeader c msg) : dcOpen ov (ofBytes c ++ t) = .err (.custom msg) := by
  obtain ⟨s, hs⟩ := (errs_dcHeader ov).there c _ ⟨msg, h, rfl⟩ t
  unfold dcOpen
  rw [hs]

theorem dcOpen_err {ov : Overflow} {s : Stream} {e : Err} : dcOpen ov s = .err e ↔
    (∃ c t msg, s = ofBytes c ++ t ∧ RejectedHeader c msg ∧ e = .custom msg) ∨
    (∃ p tl k, s = ofBytes p ++ tl ∧ StopsWith tl k ∧ HeaderUnfinished p ∧ e = .io k) := by
  have split : dcOpen ov s = .err e → (∃ c t msg, s = ofBytes c ++ t ∧ RejectedHeader c msg ∧ e = .custom msg) ∨ ∃ p tl k, s = ofBytes p ++ tl ∧ StopsWith tl k ∧ e = .io k := by
    intro h
    unfold dcOpen at h
    rcases hh : dcHeader ov s with ⟨_ | _ | _ | _, s'⟩ <;> rw [hh] at h <;> simp only [reduceCtorEq, Res.err.injEq] at h
    subst h
    exact ((errs_dcHeader ov).only _ _ _ hh).imp (fun ⟨c, t, h1, msg, h2, h3⟩ => ⟨c, t, msg, h1, h2, h3⟩) id
  constructor
  · intro h
    rcases split h with h' | ⟨p, tl, k, hs, ht, rfl⟩
    · exact .inl h'
    · refine .inr ⟨p, tl, k, hs, ht, ?_, rfl⟩
      rintro c ⟨d, rfl⟩
      have hs' : s = ofBytes c ++ (ofBytes d ++ tl) := by rw [hs]; simp [ofBytes_append]
      refine ⟨fun hd hh => ?_, fun hc => ?_, fun msg hr => ?_⟩
      · have := (dcOpen_iff (ov := ov) (s := s) (src := ⟨ofBytes d ++ tl, hd⟩)).2 ⟨c, hs', hh⟩
        rw [this] at h; cases h
      · rw [dcOpen_panic.2 ⟨c, _, hs', hc⟩] at h; cases h
      · rw [hs', dcOpen_rejected hr] at h; cases h
  · rintro (⟨c, t, msg, rfl, hr, rfl⟩ | ⟨p, tl, k, hs, ht, hu, rfl⟩)
    · exact dcOpen_rejected hr
    · cases hr : dcOpen ov s with
      | ok src =>
        obtain ⟨c, hs', hh⟩ := dcOpen_iff.1 hr
        exact absurd hh ((hu c (prefix_stops (hs'.symm.trans hs) ht)).1 _)
      | err e =>
        by_cases he : e = .io k
        · rw [he]
        · exfalso
          have h : dcOpen ov s = .err e := hr
          unfold dcOpen at h
          rcases hh : dcHeader ov s with ⟨_ | _ | _ | _, s'⟩ <;> rw [hh] at h <;> simp only [reduceCtorEq, Res.err.injEq] at h
          subst h
          rcases (errs_dcHeader ov).only _ _ _ hh with ⟨c, t, hs', msg, h2, h3⟩ | ⟨p', tl', k', hs', ht', rfl⟩
          · exact (hu c (prefix_stops (hs'.symm.trans hs) ht)).2.2 msg h2
          · obtain ⟨_, rfl, _⟩ := stops_eq (hs.symm.trans hs') ht ht'
            exact he rfl
      | panic =>
        obtain ⟨c, t, hs', hc⟩ := dcOpen_panic.1 hr
        exact absurd hc (hu c (prefix_stops (hs'.symm.trans hs) ht)).2.1
      | diverge => exact absurd hr (dcOpen_ends ov s)

/-! ## Whole files -/

theorem types_of_header {c : List Byte} {h : Header} (hc : IsDcHeader c h) : h.types ≠ [] := by
  obtain ⟨user, cols, _, hne, _, _, _, ht, _⟩ := hc
  rw [ht]; simpa using hne

theorem delivers_parts {src fin : DcSource} {rows : List Row} (hne : src.header.types ≠ []) : Delivers src rows fin ↔
    fin.header = src.header ∧ ∃ parts : List (List Byte), src.stream = ofBytes parts.flatten ++ fin.stream ∧ parts.length = rows.length ∧
      ∀ (i : Nat) p r, parts[i]? = some p → rows[i]? = some r → IsDcRow src.header.types p r := by
  constructor
  · intro h
    induction h with
    | nil src => exact ⟨rfl, [], by simp [ofBytes], rfl, by simp⟩
    | @cons src src' fin r rs h1 _ ih =>
      obtain ⟨hh, c, hs, hc⟩ := (nextRow_iff hne).1 h1
      obtain ⟨hh2, parts, hs2, hl, hp⟩ := ih (by rw [hh]; exact hne)
      refine ⟨hh2.trans hh, c :: parts, by rw [hs, hs2]; simp [ofBytes_append], by simp [hl], ?_⟩
      intro i p r a b
      cases i with
      | zero => simp at a b; subst a b; exact hc
      | succ i => rw [← hh]; exact hp i p r a b
  · rintro ⟨hh, parts, hs, hl, hp⟩
    induction rows generalizing src parts with
    | nil =>
      rw [List.eq_nil_of_length_eq_zero hl] at hs
      have : fin = src := by
        cases fin; cases src
        simp only [ofBytes, List.flatten_nil, List.map_nil, List.nil_append] at hs hh
        rw [hs, hh]
      rw [this]; exact .nil _
    | cons r rs ih =>
      match parts, hl, hs, hp with
      | c :: parts, hl, hs, hp =>
        have h1 : src.nextRow = (.ok (some r), ⟨ofBytes parts.flatten ++ fin.stream, src.header⟩) :=
          (nextRow_iff hne).2 ⟨rfl, c, by rw [hs]; simp [ofBytes_append], hp 0 c r rfl rfl⟩
        exact .cons h1 (ih (src := ⟨_, src.header⟩) hne hh parts rfl (by simpa using hl) fun i p r a b => hp (i + 1) p r a b)

theorem yields_delivers {src fin : DcSource} {rows : List Row} : Yields DcSource.nextRow src rows fin ↔ Delivers src rows fin := by
  constructor
  · intro h
    induction h with
    | nil s => exact .nil s
    | cons h1 _ ih => exact .cons h1 ih
  · intro h
    induction h with
    | nil s => exact .nil s
    | cons h1 _ ih => exact .cons h1 ih

theorem unsupported_text {t : FieldType} (h : t = .boolean ∨ t = .byteBuf) :
    unsupported t = .custom ("DCReader -- " ++ (if t = .boolean then "boolean" else "ByteBuffer") ++ " field type is not supported") := by
  rcases h with rfl | rfl <;> rfl

theorem unsupported_type {types : List FieldType} {c : List Byte} {t : FieldType} (h : UnsupportedRow types c t) : t = .boolean ∨ t = .byteBuf := by
  obtain ⟨_, _, _, _, _, _, _, _, _, h, _⟩ := h
  exact h

/-- How the source ends once the rows are delivered. -/
theorem ending_iff {rest : List Byte} {h : Header} (hne : h.types ≠ []) {e : Ending} : DcEnding h.types rest e ↔
    match (DcSource.nextRow ⟨ofBytes rest, h⟩).1 with
    | .ok none => e = .eof
    | .err x => e = .fail x
    | .panic => e = .crash
    | .diverge => e = .crash
    | .ok (some _) => False := by
  constructor
  · intro hd
    cases hd with
    | eof hl =>
      have := (nextRow_none (src := ⟨ofBytes rest, h⟩)).2 ⟨rest, [], _, by simp, .ends, hl⟩
      rw [this]
    | crash hp hc =>
      obtain ⟨d, rfl⟩ := hp
      have := (nextRow_panic (src := ⟨ofBytes _, h⟩) hne).2 ⟨_, ofBytes d, ofBytes_append _ _, hc⟩
      rw [this]
    | @unsupported c _ _ _ hp hc hm =>
      obtain ⟨d, rfl⟩ := hp
      have := nextRow_unsupported (src := ⟨ofBytes (c ++ d), h⟩) hne (c := c) (t := ofBytes d) (ofBytes_append _ _) hc
      rw [this, hm, unsupported_text (unsupported_type hc)]
    | cut h8 hu =>
      have := (nextRow_err (src := ⟨ofBytes rest, h⟩) hne (e := .io .unexpectedEof)).2 (.inr ⟨rest, [], _, by simp, .ends, h8, hu, rfl⟩)
      rw [this]
  · intro hm
    cases hr : (DcSource.nextRow ⟨ofBytes rest, h⟩).1 with
    | ok o =>
      cases o with
      | none =>
        rw [hr] at hm
        simp only at hm
        subst hm
        obtain ⟨p, tl, k, hs, ht, hl⟩ := nextRow_none.1 hr
        obtain ⟨rfl, _⟩ := stops_eq (show ofBytes rest ++ [] = ofBytes p ++ tl by simpa using hs) .ends ht
        exact .eof hl
      | some r => rw [hr] at hm; exact hm.elim
    | err x =>
      rw [hr] at hm
      simp only at hm
      subst hm
      rcases (nextRow_err hne).1 hr with ⟨c, t, ty, hs, hu, rfl⟩ | ⟨p, tl, k, hs, ht, h8, hu, rfl⟩
      · obtain ⟨d, hd, _⟩ := ofBytes_eq_append hs
        rw [unsupported_text (unsupported_type hu)]
        exact .unsupported ⟨d, hd.symm⟩ hu rfl
      · obtain ⟨rfl, rfl, _⟩ := stops_eq (show ofBytes rest ++ [] = ofBytes p ++ tl by simpa using hs) .ends ht
        exact .cut h8 hu
    | panic =>
      rw [hr] at hm
      simp only at hm
      subst hm
      obtain ⟨c, t, hs, hc⟩ := (nextRow_panic hne).1 hr
      obtain ⟨d, hd, _⟩ := ofBytes_eq_append hs
      exact .crash ⟨d, hd.symm⟩ hc
    | diverge => exact absurd hr (nextRow_ends ⟨ofBytes rest, h⟩ hne)

theorem isDcFile_iff {bytes : List Byte} {h : Header} {src : Source} (ov : Overflow) : IsDcFile bytes h src ↔
    ∃ s, dcOpen ov (ofBytes bytes) = .ok s ∧ s.header = h ∧ RunsAs DcSource.nextRow s src := by
  constructor
  · rintro ⟨hdr, parts, rest, rfl, hh, hl, hp, he⟩
    have hne := types_of_header hh
    refine ⟨⟨ofBytes (parts.flatten ++ rest), h⟩, dcOpen_iff.2 ⟨hdr, by simp [ofBytes_append], hh⟩, rfl, ⟨ofBytes rest, h⟩, ?_, ?_⟩
    · exact yields_delivers.2 ((delivers_parts (src := ⟨ofBytes (parts.flatten ++ rest), h⟩) hne).2 ⟨rfl, parts, by simp [ofBytes_append], hl, hp⟩)
    · exact (ending_iff hne).1 he
  · rintro ⟨s, ho, rfl, fin, hy, he⟩
    obtain ⟨hdr, hs, hh⟩ := dcOpen_iff.1 ho
    have hne := types_of_header hh
    obtain ⟨hfh, parts, hs2, hl, hp⟩ := (delivers_parts hne).1 (yields_delivers.1 hy)
    obtain ⟨d, rfl, hd⟩ := ofBytes_eq_append hs
    obtain ⟨rest, rfl, hrest⟩ := ofBytes_eq_append (hd.symm.trans hs2)
    refine ⟨hdr, parts, rest, by simp, hh, hl, hp, (ending_iff hne).2 ?_⟩
    have : fin = ⟨ofBytes rest, s.header⟩ := by cases fin; simp only at hrest hfh; rw [hrest, hfh]
    rw [this] at he
    exact he

end Chopper
