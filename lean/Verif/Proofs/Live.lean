import Verif.Model.Live
import Verif.Proofs.Driver5
import Verif.Proofs.Driver4

/-!
# The driver on sources of any kind, compared with the driver on lists of rows
-/
namespace Chopper
open Spec

variable {σ G : Type}

/-- `Agrees next ok n s src`: for the next `n` questions the source `s` answers as the list source `src`, in all worlds that are `ok`. -/
def Agrees (next : Next σ G) (ok : G → Prop) : Nat → σ → Source → Prop
  | 0, _, _ => True
  | n + 1, s, src => ∀ g, ok g → (next s g).1 = src.nextRow.1 ∧ Agrees next ok n (next s g).2 src.nextRow.2

theorem agrees_weaken {next : Next σ G} {ok : G → Prop} : ∀ {n m : Nat} {s : σ} {src : Source}, m ≤ n → Agrees next ok n s src → Agrees next ok m s src
  | _, 0, _, _, _, _ => trivial
  | n + 1, m + 1, _, _, hm, h => fun g hg => ⟨(h g hg).1, agrees_weaken (by omega) (h g hg).2⟩

theorem match_agrees {next : Next σ G} {ok : G → Prop} (range : TimestampRange) {g : G} (hg : ok g) (n : Nat) : ∀ (f : Nat) (s : σ) (src : Source),
    Agrees next ok (n + f) s src →
    ((liveMatch next range f s g).1 = .diverge ∧ f ≤ src.rows.length) ∨
      ((liveMatch next range f s g).1 = (matchNextRow range src.rows src.ending).1 ∧ Agrees next ok n (liveMatch next range f s g).2 (matchNextRow range src.rows src.ending).2)
  | 0, _, _, _ => .inl ⟨rfl, Nat.zero_le _⟩
  | f + 1, s, ⟨rows, ending⟩, h => by
    obtain ⟨h1, h2⟩ := h g hg
    rw [liveMatch]
    have h3 : Agrees next ok n (next s g).2 (Source.nextRow ⟨rows, ending⟩).2 := agrees_weaken (Nat.le_add_right n f) h2
    rcases hx : next s g with ⟨x, s'⟩
    rw [hx] at h1 h2 h3
    simp only at h1 h2 h3
    subst h1
    cases rows with
    | nil =>
      right
      cases ending <;> exact ⟨rfl, h3⟩
    | cons r rs =>
      have e1 : (Source.nextRow ⟨r :: rs, ending⟩) = (.ok (some r), ⟨rs, ending⟩) := rfl
      rw [e1] at h2 h3 ⊢
      simp only [matchNextRow]
      cases filterDataRange range r.timestamp with
      | stop => exact .inr ⟨rfl, h3⟩
      | write => exact .inr ⟨rfl, h3⟩
      | skip =>
        rcases match_agrees range hg n f s' ⟨rs, ending⟩ h2 with ⟨h4, h5⟩ | h4
        · exact .inl ⟨h4, by simp only [List.length_cons] at h5 ⊢; omega⟩
        · exact .inr h4

/-- A buffer over a source of any kind and one over a list. -/
structure LikeBuf (next : Next σ G) (ok : G → Prop) (n : Nat) (l : LiveBuffer σ) (r : RowBuffer) : Prop where
  chain : l.chain = r.chain
  ts : l.timestamp = r.timestamp
  row : l.row = r.row
  source : Agrees next ok n l.source r.source

inductive LikeBufs (next : Next σ G) (ok : G → Prop) (n : Nat) : List (LiveBuffer σ) → List RowBuffer → Prop
  | nil : LikeBufs next ok n [] []
  | cons {l r ls rs} : LikeBuf next ok n l r → LikeBufs next ok n ls rs → LikeBufs next ok n (l :: ls) (r :: rs)

variable {next : Next σ G} {ok : G → Prop}

theorem LikeBuf.weaken {n m : Nat} {l : LiveBuffer σ} {r : RowBuffer} (hm : m ≤ n) (h : LikeBuf next ok n l r) : LikeBuf next ok m l r :=
  ⟨h.chain, h.ts, h.row, agrees_weaken hm h.source⟩

theorem LikeBufs.weaken {n m : Nat} {ls : List (LiveBuffer σ)} {rs : List RowBuffer} (hm : m ≤ n) (h : LikeBufs next ok n ls rs) : LikeBufs next ok m ls rs := by
  induction h with
  | nil => exact .nil
  | cons h _ ih => exact .cons (h.weaken hm) ih

theorem LikeBufs.get {n : Nat} {ls : List (LiveBuffer σ)} {rs : List RowBuffer} (h : LikeBufs next ok n ls rs) : ∀ i : Nat,
    (ls[i]? = none ∧ rs[i]? = none) ∨ ∃ l r, ls[i]? = some l ∧ rs[i]? = some r ∧ LikeBuf next ok n l r := by
  induction h with
  | nil => intro i; left; simp
  | @cons l r ls rs h _ ih =>
    intro i
    cases i with
    | zero => right; exact ⟨l, r, rfl, rfl, h⟩
    | succ i => simpa using ih i

theorem LikeBufs.set {n : Nat} {ls : List (LiveBuffer σ)} {rs : List RowBuffer} (h : LikeBufs next ok n ls rs) {l : LiveBuffer σ} {r : RowBuffer} (hb : LikeBuf next ok n l r) :
    ∀ i : Nat, LikeBufs next ok n (ls.set i l) (rs.set i r) := by
  induction h with
  | nil => intro i; exact .nil
  | cons h ht ih =>
    intro i
    cases i with
    | zero => exact .cons hb ht
    | succ i => exact .cons h (ih i)

theorem LikeBufs.erase {n : Nat} {ls : List (LiveBuffer σ)} {rs : List RowBuffer} (h : LikeBufs next ok n ls rs) : ∀ i : Nat,
    LikeBufs next ok n (ls.eraseIdx i) (rs.eraseIdx i) := by
  induction h with
  | nil => intro i; exact .nil
  | cons h ht ih =>
    intro i
    cases i with
    | zero => exact ht
    | succ i => exact .cons h (ih i)

theorem likeBufs_min {n : Nat} {ls : List (LiveBuffer σ)} {rs : List RowBuffer} (h : LikeBufs next ok n ls rs) : ∀ (idx : Nat) (best : Nanos) (j : Nat),
    liveMinFrom idx best j ls = minIndexFrom idx best j rs := by
  induction h with
  | nil => intros; rfl
  | cons h _ ih =>
    intro idx best j
    simp only [liveMinFrom, minIndexFrom, h.ts, ih]

theorem likeBufs_index {n : Nat} {ls : List (LiveBuffer σ)} {rs : List RowBuffer} (h : LikeBufs next ok n ls rs) : liveNextIndex ls = nextBufferIndex rs := by
  cases h with
  | nil => rfl
  | cons h ht => simp only [liveNextIndex, nextBufferIndex, h.ts, likeBufs_min ht]

theorem hasNext_agrees (range : TimestampRange) {g : G} (hg : ok g) {n f : Nat} {l : LiveBuffer σ} {r : RowBuffer} (h : LikeBuf next ok (n + f) l r) :
    ((l.hasNext next range f g).1 = .diverge ∧ f ≤ r.source.rows.length) ∨ ((l.hasNext next range f g).1 = (r.hasNext range).1 ∧ LikeBuf next ok n (l.hasNext next range f g).2 (r.hasNext range).2) := by
  have h1 := match_agrees range hg n f l.source r.source h.source
  unfold LiveBuffer.hasNext RowBuffer.hasNext
  rcases hx : liveMatch next range f l.source g with ⟨x, s⟩
  rcases hy : matchNextRow range r.source.rows r.source.ending with ⟨y, t⟩
  rw [hx, hy] at h1
  simp only at h1
  rcases h1 with ⟨rfl, h2⟩ | ⟨rfl, h2⟩
  · exact .inl ⟨rfl, h2⟩
  · right
    rcases x with (_ | v) | _ | _ | _
    · exact ⟨rfl, h.chain, h.ts, h.row, h2⟩
    · exact ⟨rfl, h.chain, rfl, rfl, h2⟩
    · exact ⟨rfl, h.chain, h.ts, h.row, h2⟩
    · exact ⟨rfl, h.chain, h.ts, h.row, h2⟩
    · exact ⟨rfl, h.chain, h.ts, h.row, h2⟩

/-- The calls of the loop. -/
def loopCalls (range : TimestampRange) (fuel : Nat) (bufs : List RowBuffer) : List Call :=
  (driveLoop (fun c r l => (l ++ [Call.feed c r], .ok ())) (fun c l => (l ++ [.flush c], .ok ())) range fuel bufs []).1

theorem loopCalls_from (range : TimestampRange) (fuel : Nat) (bufs : List RowBuffer) (l : List Call) :
    (driveLoop (fun c r l => (l ++ [Call.feed c r], .ok ())) (fun c l => (l ++ [.flush c], .ok ())) range fuel bufs l).1 = l ++ loopCalls range fuel bufs := by
  unfold loopCalls
  obtain ⟨cs, out, h⟩ := driveLoop_perform range fuel bufs
  simp only [h, perform_log, List.nil_append]

/-- The world is fine whenever a source is asked after a row has been processed. -/
def OkAfter (ok : G → Prop) (process : ChainId → Row → G → G × Res Unit) (flush : ChainId → G → G × Res Unit) (cs : List Call) (g : G) : Prop :=
  ∀ pre c r g', pre ++ [.feed c r] <+: cs → perform process flush (pre ++ [.feed c r]) (.ok ()) g = (g', .ok ()) → ok g'

theorem okAfter_feed {process : ChainId → Row → G → G × Res Unit} {flush : ChainId → G → G × Res Unit} {c : ChainId} {r : Row} {cs : List Call} {g g' : G}
    (h : OkAfter ok process flush (.feed c r :: cs) g) (hp : process c r g = (g', .ok ())) : ok g' ∧ OkAfter ok process flush cs g' := by
  refine ⟨h [] c r g' (by simp) (by simp [perform, hp]), fun pre c' r' g'' hpre hperf => ?_⟩
  refine h (.feed c r :: pre) c' r' g'' ?_ ?_
  · obtain ⟨u, hu⟩ := hpre
    exact ⟨u, by rw [← hu]; rfl⟩
  · rw [List.cons_append, perform, hp]; exact hperf

theorem okAfter_flush {process : ChainId → Row → G → G × Res Unit} {flush : ChainId → G → G × Res Unit} {c : ChainId} {cs : List Call} {g g' : G}
    (h : OkAfter ok process flush (.flush c :: cs) g) (hp : flush c g = (g', .ok ())) : OkAfter ok process flush cs g' := by
  refine fun pre c' r' g'' hpre hperf => ?_
  refine h (.flush c :: pre) c' r' g'' ?_ ?_
  · obtain ⟨u, hu⟩ := hpre
    exact ⟨u, by rw [← hu]; rfl⟩
  · rw [List.cons_append, perform, hp]; exact hperf

/-- Some source still has so many rows. -/
def LongBuf (f : Nat) (rs : List RowBuffer) : Prop := ∃ r ∈ rs, f ≤ r.source.rows.length

theorem longBuf_set {f : Nat} {rs : List RowBuffer} {i : Nat} {r b : RowBuffer} (hi : rs[i]? = some r) (hb : b.source.rows.length ≤ r.source.rows.length)
    (h : LongBuf f (rs.set i b)) : LongBuf f rs := by
  obtain ⟨x, hx, hl⟩ := h
  rcases List.mem_or_eq_of_mem_set hx with hx | rfl
  · exact ⟨x, hx, hl⟩
  · exact ⟨r, List.mem_of_getElem? hi, by omega⟩

theorem match_shorter (range : TimestampRange) (rows : List Row) (e : Ending) : (matchNextRow range rows e).2.rows.length ≤ rows.length := by
  induction rows with
  | nil => cases e <;> simp [matchNextRow]
  | cons x xs ih =>
    simp only [matchNextRow, List.length_cons]
    cases filterDataRange range x.timestamp <;> simp only <;> omega

theorem match_ne_diverge (range : TimestampRange) (rows : List Row) (e : Ending) : (matchNextRow range rows e).1 ≠ .diverge := by
  induction rows with
  | nil => cases e <;> simp [matchNextRow]
  | cons x xs ih =>
    simp only [matchNextRow]
    cases filterDataRange range x.timestamp <;> simp only
    · simp
    · simp
    · exact ih

theorem hasNext_shorter (range : TimestampRange) (r : RowBuffer) : (r.hasNext range).2.source.rows.length ≤ r.source.rows.length := by
  have := match_shorter range r.source.rows r.source.ending
  unfold RowBuffer.hasNext
  rcases hx : matchNextRow range r.source.rows r.source.ending with ⟨(_ | _) | _ | _ | _, s⟩ <;> rw [hx] at this <;> exact this

theorem live_loop (process : ChainId → Row → G → G × Res Unit) (flush : ChainId → G → G × Res Unit) (range : TimestampRange) (f : Nat) :
    ∀ (fuel : Nat) (ls : List (LiveBuffer σ)) (rs : List RowBuffer) (g : G), LikeBufs next ok (fuel * f) ls rs → OkAfter ok process flush (loopCalls range fuel rs) g →
    liveLoop next process flush range f fuel ls g = driveLoop process flush range fuel rs g ∨
    ((liveLoop next process flush range f fuel ls g).2 = .diverge ∧ LongBuf f rs ∧ ∃ cs, cs <+: loopCalls range fuel rs ∧ (liveLoop next process flush range f fuel ls g).1 = (perform process flush cs (.ok ()) g).1) := by
  intro fuel
  induction fuel with
  | zero =>
    intro ls rs g h _
    left
    cases h <;> rfl
  | succ fuel ih =>
    intro ls rs g h hok
    rw [Nat.succ_mul] at h
    unfold loopCalls at hok ⊢
    rw [driveLoop] at hok ⊢
    rw [liveLoop, driveLoop, likeBufs_index h]
    cases hi : nextBufferIndex rs with
    | none => exact .inl rfl
    | some i =>
      simp only [hi] at hok
      rcases h.get i with ⟨h1, h2⟩ | ⟨l, r, h1, h2, hlr⟩
      · simp only [h1, h2]; exact .inl trivial
      · simp only [h1, h2] at hok ⊢
        rw [hlr.row, hlr.chain]
        cases hr : r.row with
        | none => exact .inl rfl
        | some row =>
          simp only [hr] at hok ⊢
          rcases hp : process r.chain row g with ⟨g', x⟩
          cases x with
          | ok u =>
            simp only
            have hfeed : ∀ (cs : List Call), OkAfter ok process flush ([] ++ [Call.feed r.chain row] ++ cs) g → ok g' ∧ OkAfter ok process flush cs g' :=
              fun cs h => okAfter_feed (cs := cs) h hp
            have hpre : ∀ cs, ([Call.feed r.chain row] : List Call) <+: [] ++ [Call.feed r.chain row] ++ cs := fun cs => ⟨cs, rfl⟩
            have hg' : ok g' := by
              rcases hn : r.hasNext range with ⟨(_ | _) | _ | _ | _, b'⟩ <;> simp only [hn] at hok
              · rw [loopCalls_from, List.append_assoc] at hok; exact (hfeed _ hok).1
              · rw [loopCalls_from] at hok; exact (hfeed _ hok).1
              all_goals exact (hfeed [] (by rw [List.append_nil]; exact hok)).1
            rcases hasNext_agrees range hg' hlr with ⟨hd, hlong⟩ | ⟨he, hb⟩
            · right
              rcases hl : l.hasNext next range f g' with ⟨y, b⟩
              rw [hl] at hd
              simp only at hd
              subst hd
              refine ⟨rfl, ⟨r, List.mem_of_getElem? h2, hlong⟩, [.feed r.chain row], ?_, by simp [perform, hp]⟩
              rcases hn : r.hasNext range with ⟨(_ | _) | _ | _ | _, b'⟩ <;> simp only
              · rw [loopCalls_from, List.append_assoc]; exact hpre _
              · rw [loopCalls_from]; exact hpre _
              all_goals exact ⟨[], by simp⟩
            · rcases hl : l.hasNext next range f g' with ⟨y, b⟩
              rcases hn : r.hasNext range with ⟨z, b'⟩
              rw [hl, hn] at he hb
              simp only at he hb
              subst he
              rw [hn] at hok
              rcases y with (_ | _) | _ | _ | _
              · simp only at hok ⊢
                rw [loopCalls_from] at hok ⊢
                rcases hf : flush r.chain g' with ⟨g'', z⟩
                cases z with
                | ok u =>
                  simp only
                  have hok2 := okAfter_flush (hfeed _ (by rw [List.append_assoc] at hok; exact hok)).2 hf
                  rcases ih (ls.eraseIdx i) (rs.eraseIdx i) g'' ((h.weaken (by omega)).erase i) hok2 with h3 | ⟨h3, hlong, cs, h4, h5⟩
                  · exact .inl h3
                  · refine .inr ⟨h3, (by obtain ⟨x, hx, hl⟩ := hlong; exact ⟨x, List.mem_of_mem_eraseIdx hx, hl⟩), .feed r.chain row :: .flush r.chain :: cs, ?_, by rw [h5, perform, hp]; simp only [perform, hf]⟩
                    obtain ⟨v, hv⟩ := h4
                    exact ⟨v, by rw [← hv]; rfl⟩
                | err x => exact .inl rfl
                | panic => exact .inl rfl
                | diverge => exact .inl rfl
              · simp only at hok ⊢
                rw [loopCalls_from] at hok ⊢
                rcases ih (ls.set i b) (rs.set i b') g' ((h.weaken (by omega)).set hb i) (hfeed _ hok).2 with h3 | ⟨h3, hlong, cs, h4, h5⟩
                · exact .inl h3
                · refine .inr ⟨h3, (longBuf_set h2 (by have := hasNext_shorter range r; rw [hn] at this; exact this) hlong), .feed r.chain row :: cs, ?_, by rw [h5, perform, hp]⟩
                  obtain ⟨v, hv⟩ := h4
                  exact ⟨v, by rw [← hv]; rfl⟩
              all_goals exact .inl rfl
          | err x => exact .inl rfl
          | panic => exact .inl rfl
          | diverge => exact .inl rfl

inductive AgreesAll (next : Next σ G) (ok : G → Prop) (n : Nat) : List σ → List Source → Prop
  | nil : AgreesAll next ok n [] []
  | cons {l r ls rs} : Agrees next ok n l r → AgreesAll next ok n ls rs → AgreesAll next ok n (l :: ls) (r :: rs)

theorem new_agrees (range : TimestampRange) {g : G} (hg : ok g) {n f : Nat} {s : σ} {src : Source} (h : Agrees next ok (n + f) s src) (i : ChainId) :
    (LiveBuffer.new next range f s i g = .diverge ∧ f ≤ src.rows.length) ∨
    (∃ l r, LiveBuffer.new next range f s i g = .ok l ∧ RowBuffer.new src i range = .ok r ∧ LikeBuf next ok n l r ∧ r.source.rows.length ≤ src.rows.length) ∨
    (∃ e, LiveBuffer.new next range f s i g = .err e ∧ RowBuffer.new src i range = .err e) ∨
    (LiveBuffer.new next range f s i g = .panic ∧ RowBuffer.new src i range = .panic) := by
  have h1 := match_agrees range hg n f s src h
  unfold LiveBuffer.new RowBuffer.new
  rcases hx : liveMatch next range f s g with ⟨x, s'⟩
  rcases hy : matchNextRow range src.rows src.ending with ⟨y, t⟩
  rw [hx, hy] at h1
  simp only at h1
  have h3 := match_shorter range src.rows src.ending
  rw [hy] at h3
  rcases h1 with ⟨rfl, h2⟩ | ⟨rfl, h2⟩
  · exact .inl ⟨rfl, h2⟩
  · rcases x with (_ | v) | _ | _ | _
    · exact .inr (.inl ⟨_, _, rfl, rfl, ⟨rfl, rfl, rfl, h2⟩, h3⟩)
    · exact .inr (.inl ⟨_, _, rfl, rfl, ⟨rfl, rfl, rfl, h2⟩, h3⟩)
    · exact .inr (.inr (.inl ⟨_, rfl, rfl⟩))
    · exact .inr (.inr (.inr ⟨rfl, rfl⟩))
    · exact absurd (congrArg Prod.fst hy) (match_ne_diverge range src.rows src.ending)

theorem bufs_agree (range : TimestampRange) {g : G} (hg : ok g) {n f : Nat} {ss : List σ} {rs : List Source} (h : AgreesAll next ok (n + f) ss rs) : ∀ (i : ChainId),
    (liveRowBuffersFrom next range f g i ss = .diverge ∧ ∃ r ∈ rs, f ≤ r.rows.length) ∨
    (∃ l r, liveRowBuffersFrom next range f g i ss = .ok l ∧ getRowBuffersFrom range i rs = .ok r ∧ LikeBufs next ok n l r ∧ (LongBuf f r → ∃ r ∈ rs, f ≤ r.rows.length)) ∨
    (∃ e, liveRowBuffersFrom next range f g i ss = .err e ∧ getRowBuffersFrom range i rs = .err e) ∨
    (liveRowBuffersFrom next range f g i ss = .panic ∧ getRowBuffersFrom range i rs = .panic) := by
  induction h with
  | nil => intro i; exact .inr (.inl ⟨[], [], rfl, rfl, .nil, fun ⟨_, h, _⟩ => by simp at h⟩)
  | @cons s r ss rs h1 _ ih =>
    intro i
    rw [liveRowBuffersFrom, getRowBuffersFrom]
    simp only [Res.bind_eq, Res.pure_eq]
    rcases new_agrees range hg h1 i with ⟨h2, h8⟩ | ⟨l, b, h2, h3, h4, h8⟩ | ⟨e, h2, h3⟩ | ⟨h2, h3⟩
    · rw [h2]; exact .inl ⟨rfl, r, List.mem_cons_self, h8⟩
    · rw [h2, h3]
      simp only [Res.bind]
      rcases ih (i + 1) with ⟨h5, x, hx, hl⟩ | ⟨ls, bs, h5, h6, h7, h9⟩ | ⟨e, h5, h6⟩ | ⟨h5, h6⟩
      · rw [h5]; exact .inl ⟨rfl, x, List.mem_cons_of_mem _ hx, hl⟩
      · rw [h5, h6]
        refine .inr (.inl ⟨_, _, rfl, rfl, .cons h4 h7, ?_⟩)
        rintro ⟨y, hy, hl⟩
        rcases List.mem_cons.1 hy with rfl | hy
        · exact ⟨r, List.mem_cons_self, by omega⟩
        · obtain ⟨x, hx, hl⟩ := h9 ⟨y, hy, hl⟩
          exact ⟨x, List.mem_cons_of_mem _ hx, hl⟩
      · rw [h5, h6]; exact .inr (.inr (.inl ⟨_, rfl, rfl⟩))
      · rw [h5, h6]; exact .inr (.inr (.inr ⟨rfl, rfl⟩))
    · rw [h2, h3]; exact .inr (.inr (.inl ⟨_, rfl, rfl⟩))
    · rw [h2, h3]; exact .inr (.inr (.inr ⟨rfl, rfl⟩))

theorem AgreesAll.append {n : Nat} {a c : List σ} {b d : List Source} (h : AgreesAll next ok n a b) (h' : AgreesAll next ok n c d) : AgreesAll next ok n (a ++ c) (b ++ d) := by
  induction h with
  | nil => exact h'
  | cons h _ ih => exact .cons h ih

theorem AgreesAll.reverse {n : Nat} {a : List σ} {b : List Source} (h : AgreesAll next ok n a b) : AgreesAll next ok n a.reverse b.reverse := by
  induction h with
  | nil => exact .nil
  | cons h _ ih => rw [List.reverse_cons, List.reverse_cons]; exact ih.append (.cons h .nil)

/-- A run over sources that answer like lists is the run over the lists, unless it gets stuck skipping rows; then it has made a beginning of the same calls. -/
theorem live_drive (process : ChainId → Row → G → G × Res Unit) (flush : ChainId → G → G × Res Unit) (range : TimestampRange) (f fuel : Nat) {ss : List σ} {rs : List Source} (g : G)
    (h : AgreesAll next ok (fuel * f + f) ss rs) (hg : ok g) (hok : OkAfter ok process flush (calls range fuel rs).1 g) :
    liveDrive next process flush range f fuel ss g = drive process flush range fuel rs g ∨
    ((liveDrive next process flush range f fuel ss g).2 = .diverge ∧ (∃ r ∈ rs, f ≤ r.rows.length) ∧
      ∃ cs, cs <+: (calls range fuel rs).1 ∧ (liveDrive next process flush range f fuel ss g).1 = (perform process flush cs (.ok ()) g).1) := by
  unfold liveDrive drive
  unfold calls drive at hok ⊢
  unfold getRowBuffers at hok ⊢
  rcases bufs_agree range hg h.reverse 0 with ⟨h1, h2⟩ | ⟨l, r, h1, h2, h3, h4⟩ | ⟨e, h1, h2⟩ | ⟨h1, h2⟩
  · rw [h1]; exact .inr ⟨rfl, by simpa using h2, [], List.nil_prefix, rfl⟩
  · rw [h1, h2]
    rw [h2] at hok
    rcases live_loop process flush range f fuel l r g h3 hok with h5 | ⟨h5, h6, h7⟩
    · exact .inl h5
    · exact .inr ⟨h5, by simpa using h4 h6, h7⟩
  · rw [h1, h2]; exact .inl rfl
  · rw [h1, h2]; exact .inl rfl

/-- A list source is a source. -/
theorem agrees_list (ok : G → Prop) : ∀ (n : Nat) (s : Source), Agrees (fun (s : Source) (_ : G) => s.nextRow) ok n s s
  | 0, _ => trivial
  | n + 1, s => fun _ _ => ⟨rfl, agrees_list ok n _⟩

theorem agreesAll_list (ok : G → Prop) (n : Nat) : ∀ ss : List Source, AgreesAll (fun (s : Source) (_ : G) => s.nextRow) ok n ss ss
  | [] => .nil
  | s :: ss => .cons (agrees_list ok n s) (agreesAll_list ok n ss)

theorem okAfter_true (process : ChainId → Row → G → G × Res Unit) (flush : ChainId → G → G × Res Unit) (cs : List Call) (g : G) : OkAfter (fun _ => True) process flush cs g :=
  fun _ _ _ _ _ _ => trivial

/-- The first rows of an endless input, as a list. -/
theorem agrees_endless (ok : G → Prop) (row : Nat → Row) : ∀ (n m p : Nat), n ≤ m → Agrees Endless.next ok n ⟨row, p⟩ ⟨(List.range' p m).map row, .eof⟩
  | 0, _, _, _ => trivial
  | n + 1, m + 1, p, h => fun _ _ => ⟨rfl, agrees_endless ok row n m (p + 1) (by omega)⟩

theorem agreesAll_endless (ok : G → Prop) (n m : Nat) (h : n ≤ m) : ∀ (inputs : List (Nat → Row)),
    AgreesAll Endless.next ok n (inputs.map fun row => ⟨row, 0⟩) (inputs.map fun row => ⟨(List.range m).map row, .eof⟩)
  | [] => .nil
  | row :: inputs => .cons (by rw [List.range_eq_range']; exact agrees_endless ok row n m 0 h) (agreesAll_endless ok n m h inputs)

/-- More iterations only add calls. -/
theorem loopCalls_mono (range : TimestampRange) (k : Nat) : ∀ (fuel : Nat) (bufs : List RowBuffer), loopCalls range fuel bufs <+: loopCalls range (fuel + k) bufs := by
  intro fuel
  induction fuel with
  | zero => intro bufs; cases bufs <;> exact List.nil_prefix
  | succ fuel ih =>
    intro bufs
    rw [show fuel + 1 + k = (fuel + k) + 1 by omega]
    unfold loopCalls
    rw [driveLoop, driveLoop]
    cases hi : nextBufferIndex bufs with
    | none => exact List.prefix_refl _
    | some i =>
      simp only
      cases hb : bufs[i]? with
      | none => exact List.prefix_refl _
      | some b =>
        simp only
        cases hr : b.row with
        | none => exact List.prefix_refl _
        | some row =>
          simp only
          rcases b.hasNext range with ⟨(_ | _) | _ | _ | _, b'⟩ <;> simp only
          · rw [loopCalls_from, loopCalls_from]
            exact (List.prefix_append_right_inj _).2 (ih _)
          · rw [loopCalls_from, loopCalls_from]
            exact (List.prefix_append_right_inj _).2 (ih _)
          all_goals exact List.prefix_refl _

theorem calls_prefix_mono (range : TimestampRange) (fuel k : Nat) (sources : List Source) : (calls range fuel sources).1 <+: (calls range (fuel + k) sources).1 := by
  unfold calls drive
  cases getRowBuffers range sources with
  | ok bufs => exact loopCalls_mono range k fuel bufs
  | err e => exact List.prefix_refl _
  | panic => exact List.prefix_refl _
  | diverge => exact List.prefix_refl _

end Chopper
