import Verif.Proofs.GraphemeChunk
import Verif.Model.GraphemeClient

/-! Forward iteration over chunks. -/
namespace Proofs.Grapheme
open Data Spec.Segment Model Model.Grapheme Proofs.Punycode

variable {gcb : Nat → GCB} {ext : Bool}

/-- A chunk that can follow another one: it starts neither with a regional indicator nor with `Extend+ E_Modifier`. -/
def GoodStart (gcb : Nat → GCB) (d : List Nat) : Prop :=
  (∀ x t, d = x :: t → gcb x ≠ .RegionalIndicator) ∧
  (∀ e m t, d = e ++ m :: t → e ≠ [] → AllExtend gcb e → gcb m ≠ .EModifier)

theorem At.isBoundary_in {ra1 ra2 b1 R : List Nat} {c : Cursor} (h : At gcb ext (ra1 ++ ra2) (b1 ++ R) c)
    (h1 : ra1 ≠ []) (h2 : b1 ≠ [])
    (hR : ∀ y t, b1 = y :: t → gcb y = .RegionalIndicator → c.risCount = none → ra2 = [] ∨ ¬ AllRI gcb ra1)
    (hE : ∀ y t, b1 = y :: t → gcb y = .EModifier → ra2 = [] ∨ ¬ AllExtend gcb ra1) :
    ∃ c', c.isBoundary gcb (ra1.reverse ++ b1) (blen ra2) = .ok (c', .ok (bd gcb ext (ra1 ++ ra2) (b1 ++ R))) ∧
      At gcb ext (ra1 ++ ra2) (b1 ++ R) c' ∧ c'.resuming = c.resuming ∧ (c'.risCount = none → c.risCount = none) := by
  rcases h.state with ⟨hst, hra, hb⟩ | hst
  case inr =>
    refine ⟨c, ?_, h, rfl, id⟩
    cases hb : bd gcb ext (ra1 ++ ra2) (b1 ++ R) <;> simp [hb] at hst <;> simp [Cursor.isBoundary, hst]
  obtain ⟨x, ra1, rfl⟩ := List.exists_cons_of_ne_nil h1
  obtain ⟨y, b1, rfl⟩ := List.exists_cons_of_ne_nil h2
  have hoff : c.offset = blen (x :: ra1) + blen ra2 := by rw [h.off, blen_append]
  have hp1 := blen_pos x ra1
  have hp2 := blen_pos y b1
  have hlen : blen ((x :: ra1).reverse ++ y :: b1) = blen (x :: ra1) + blen (y :: b1) := by
    rw [blen_append, blen_reverse]
  have hsub : c.offset - blen ra2 = blen (x :: ra1).reverse := by rw [hoff, blen_reverse]; omega
  have hto := sliceTo_append (x :: ra1).reverse (y :: b1)
  have hfrom := sliceFrom_append (x :: ra1).reverse (y :: b1)
  rw [← hsub] at hto hfrom
  generalize hs : (x :: ra1).reverse ++ y :: b1 = s at *
  unfold Cursor.isBoundary
  rw [if_neg (by simp [hst]), if_neg (by simp [hst]), if_neg (by omega), h.pre]
  simp only
  rw [if_neg (by omega)]
  have hafter : c.afterCat gcb s (c.offset - blen ra2) = .ok (gcb y) := by
    unfold Cursor.afterCat
    cases hc : c.catAfter with
    | none => simp only [hfrom]
    | some k => obtain ⟨x', s', h1, h2⟩ := h.after k hc; cases h1; rw [h2]
  rw [hafter]
  simp only [bind_ok]
  rw [if_neg (by omega)]
  have hbefore : c.beforeCat gcb s (c.offset - blen ra2) = .ok (gcb x) := by
    unfold Cursor.beforeCat
    cases hc : c.catBefore with
    | none => simp [hto]
    | some k => obtain ⟨x', s', h1, h2⟩ := h.before k hc; cases h1; rw [h2]
  have hbefore' : ({ c with catAfter := some (gcb y), preContextOffset := none } : Cursor).beforeCat gcb s (c.offset - blen ra2) = .ok (gcb x) := hbefore
  unfold Cursor.isBoundaryInside
  rw [hbefore']
  simp only [bind_ok]
  obtain ⟨r, e1, e2, e3⟩ := decidePair_chunk (gcb := gcb) (ext := ext) (b := b1 ++ R) (chunk := s) (ra1 := x :: ra1) (ra2 := ra2) (x := x) (y := y)
    (start := blen ra2) (off := c.offset - blen ra2)
    (c := { c with catAfter := some (gcb y), catBefore := some (gcb x), preContextOffset := none })
    h.extd rfl h.ris rfl
    (fun _ hy hn => ⟨hto, (hR y b1 rfl hy hn).imp (fun h => by subst h; exact ⟨rfl, rfl⟩) id⟩)
    (fun _ hy => ⟨hto, (hE y b1 rfl hy).imp (fun h => by subst h; exact ⟨rfl, rfl⟩) id⟩)
  refine ⟨_, e1, ⟨h.off, h.len, h.extd, fun k hk => ⟨x, ra1 ++ ra2, rfl, (Option.some.inj hk).symm⟩,
    fun k hk => ⟨y, b1 ++ R, rfl, (Option.some.inj hk).symm⟩, rfl, e2, Or.inr rfl⟩, rfl, e3⟩

theorem At.isBoundary_inside {ra1 ra2 b1 R : List Nat} {c : Cursor} (h : At gcb ext (ra1 ++ ra2) (b1 ++ R) c)
    (h1 : ra1 ≠ []) (h2 : b1 ≠ [])
    (hris : c.risCount = none → ra2 = []) (hgood : ra2 ≠ [] → GoodStart gcb (ra1.reverse ++ b1)) :
    ∃ c', c.isBoundary gcb (ra1.reverse ++ b1) (blen ra2) = .ok (c', .ok (bd gcb ext (ra1 ++ ra2) (b1 ++ R))) ∧
      At gcb ext (ra1 ++ ra2) (b1 ++ R) c' ∧ c'.resuming = c.resuming ∧ (c'.risCount = none → ra2 = []) := by
  obtain ⟨c', e1, e2, e3, e4⟩ := h.isBoundary_in h1 h2 (fun _ _ _ _ hn => Or.inl (hris hn)) (by
    rintro y t rfl hy
    by_cases h0 : ra2 = []
    · exact Or.inl h0
    · refine Or.inr fun hall => (hgood h0).2 ra1.reverse y t rfl (by simpa using h1) ?_ hy
      intro z hz; exact hall z (by simpa using hz))
  exact ⟨c', e1, e2, e3, fun hn => hris (e4 hn)⟩

theorem At.isBoundary_start {ra b1 R : List Nat} {y : Nat} {c : Cursor} (h : At gcb ext ra (y :: b1 ++ R) c) (hra : ra ≠ [])
    (hcat : c.catBefore ≠ none) (hy1 : gcb y ≠ .RegionalIndicator) (hy2 : gcb y ≠ .EModifier) :
    ∃ c', c.isBoundary gcb (y :: b1) (blen ra) = .ok (c', .ok (bd gcb ext ra (y :: b1 ++ R))) ∧
      At gcb ext ra (y :: b1 ++ R) c' ∧ c'.resuming = c.resuming ∧ (c'.risCount = none → c.risCount = none) := by
  rcases h.state with ⟨hst, _, _⟩ | hst
  case inr =>
    refine ⟨c, ?_, h, rfl, id⟩
    cases hb : bd gcb ext ra (y :: b1 ++ R) <;> simp only [hb] at hst <;> simp [Cursor.isBoundary, hst]
  obtain ⟨x, ra, rfl⟩ := List.exists_cons_of_ne_nil hra
  have hp1 := blen_pos x ra
  have hp2 := blen_pos y b1
  have hoff := h.off
  unfold Cursor.isBoundary
  rw [if_neg (by simp [hst]), if_neg (by simp [hst]), if_neg (by omega), h.pre]
  simp only
  rw [if_neg (by omega)]
  have hafter : c.afterCat gcb (y :: b1) (c.offset - blen (x :: ra)) = .ok (gcb y) := by
    unfold Cursor.afterCat
    cases hc : c.catAfter with
    | none => simp only [hoff, Nat.sub_self, sliceFrom]
    | some k => obtain ⟨x', s', h1, h2⟩ := h.after k hc; cases h1; rw [h2]
  obtain ⟨k, hk⟩ := Option.ne_none_iff_exists'.mp hcat
  have hk' : k = gcb x := by obtain ⟨x', s', h1, h2⟩ := h.before k hk; cases h1; exact h2
  subst hk'
  rw [hafter]
  simp only [bind_ok]
  rw [if_pos hoff]
  have hat : ∀ c' : Cursor, c'.catBefore = some (gcb x) → c'.atChunkStart (gcb y) = (c'.state, false) := by
    intro c' hc'
    unfold Cursor.atChunkStart
    cases hgy : gcb y <;> simp_all
  rw [hat { c with catAfter := some (gcb y), preContextOffset := none } hk]
  simp only [Bool.false_eq_true, if_false]
  unfold Cursor.isBoundaryInside
  simp only [Cursor.beforeCat, hk, bind_ok]
  obtain ⟨r, e1, e2, e3⟩ := decidePair_chunk (gcb := gcb) (ext := ext) (b := b1 ++ R) (chunk := y :: b1) (ra1 := []) (ra2 := x :: ra) (x := x) (y := y)
    (start := blen (x :: ra)) (off := c.offset - blen (x :: ra))
    (c := { c with catAfter := some (gcb y), catBefore := some (gcb x), preContextOffset := none })
    h.extd rfl h.ris rfl (fun _ hy => absurd hy hy1) (fun _ hy => absurd hy hy2)
  refine ⟨_, e1, ⟨h.off, h.len, h.extd, fun k hk => ⟨x, ra, rfl, (Option.some.inj hk).symm⟩,
    fun k hk => ⟨y, b1 ++ R, rfl, (Option.some.inj hk).symm⟩, rfl, e2, Or.inr rfl⟩, rfl, e3⟩

/-- a cursor decided by pre-context -/
theorem ask_pass {α : Type} {query : Cursor → Outcome (Cursor × Except Incomplete α)} {ctx : List (List Nat)} {c c' : Cursor}
    {r : Except Incomplete α} (h : query c = .ok (c', r)) (hr : ∀ n, r ≠ .error (.PreContext n)) : ask gcb query ctx c = .ok (c', r) := by
  cases ctx with
  | nil => exact h
  | cons p ctx =>
    unfold ask
    rw [h]
    simp only [bind_ok]
    cases r with
    | ok a => rfl
    | error e =>
      cases e with
      | PreContext n => exact absurd rfl (hr n)
      | _ => rfl

theorem ask_more {α : Type} {query : Cursor → Outcome (Cursor × Except Incomplete α)} {p : List Nat} {ctx : List (List Nat)} {c c' c'' : Cursor} {n : Nat}
    (h : query c = .ok (c', .error (.PreContext n))) (h2 : c'.provideContext gcb p (n - blen p) = .ok c'') :
    ask gcb query (p :: ctx) c = ask gcb query ctx c'' := by
  rw [ask, h]
  simp only [bind_ok]
  rw [h2]
  simp only [bind_ok]

theorem getLast?_map_reverse (p : List Nat) : p.getLast? = p.reverse.head? := by simp

theorem provideContext_eq {c : Cursor} {p : List Nat} {k : Nat} (hp : p ≠ []) (hpre : c.preContextOffset = some (k + blen p))
    (hst : c.state = .Regional ∨ c.state = .Emoji) :
    c.provideContext gcb p k = .ok (if c.isExtended = true ∧ k + blen p = c.offset ∧ p.reverse.head?.map gcb = some GraphemeClusterBreak.Prepend then
        { c with preContextOffset := none }.decide false
      else if c.state = .Regional then { c with preContextOffset := none }.handleRegionalLoop gcb k p.reverse (c.risCount.getD 0)
      else { c with preContextOffset := none }.handleEmojiLoop gcb k p.reverse) := by
  unfold Cursor.provideContext
  rw [hpre]
  simp only [ne_eq, not_true_eq_false, if_false]
  obtain ⟨q, x, rfl⟩ := (List.eq_nil_or_concat p).resolve_left hp
  rw [List.concat_eq_append] at *
  simp only [List.getLast?_append, List.getLast?_singleton, Option.some_or, List.reverse_append, List.reverse_cons, List.reverse_nil,
    List.nil_append, List.singleton_append, List.head?_cons, Option.map_some, Option.some.injEq]
  have hrest : (match c.state with
      | .Regional => (.ok ({ c with preContextOffset := none }.handleRegional gcb (q ++ [x]) k) : Outcome Cursor)
      | .Emoji => .ok ({ c with preContextOffset := none }.handleEmoji gcb (q ++ [x]) k)
      | _ => .panic) = .ok (if c.state = .Regional then { c with preContextOffset := none }.handleRegionalLoop gcb k (x :: q.reverse) (c.risCount.getD 0)
      else { c with preContextOffset := none }.handleEmojiLoop gcb k (x :: q.reverse)) := by
    rcases hst with hst | hst <;> rw [hst] <;> simp [Cursor.handleRegional, Cursor.handleEmoji]
  by_cases h1 : c.isExtended = true ∧ k + blen (q ++ [x]) = c.offset
  · rw [if_pos h1]
    by_cases h2 : gcb x = .Prepend
    · rw [if_pos h2, if_pos ⟨h1.1, h1.2, h2⟩]
    · rw [if_neg h2, if_neg (fun h => h2 h.2.2)]
      exact hrest
  · rw [if_neg h1, if_neg (fun h => h1 ⟨h.1, h.2.1⟩)]
    exact hrest

theorem head?_append_ne {p X : List Nat} (hp : p ≠ []) : (p ++ X).head? = p.head? := by
  obtain ⟨x, p, rfl⟩ := List.exists_cons_of_ne_nil hp; rfl

theorem ask_emoji {α : Type} {query : Cursor → Outcome (Cursor × Except Incomplete α)} {c : Cursor} (hst : c.state = .Emoji) (hext : c.isExtended = ext)
    (hq : ∀ m, query { c with preContextOffset := some m } = .ok ({ c with preContextOffset := some m }, .error (.PreContext m)))
    (ctx : List (List Nat)) (hctx : ctx ≠ []) (hne : ∀ p ∈ ctx, p ≠ []) :
    ∀ (w : List Nat), AllExtend gcb w → c.offset = blen w + blen ctx.reverse.flatten →
    ∃ ctx', ask gcb query ctx { c with preContextOffset := some (blen ctx.reverse.flatten) } =
      ask gcb query ctx' ({ c with preContextOffset := none }.decide
        (if ext = true ∧ (w ++ ctx.reverse.flatten.reverse).head?.map gcb = some GraphemeClusterBreak.Prepend then false
         else !emojiBase ((w ++ ctx.reverse.flatten.reverse).map gcb))) := by
  induction ctx with
  | nil => exact absurd rfl hctx
  | cons p ctx ih =>
    intro w hw hoff
    have hp := hne p (by simp)
    have hX : (p :: ctx).reverse.flatten = ctx.reverse.flatten ++ p := by simp
    rw [hX] at hoff ⊢
    generalize hXX : ctx.reverse.flatten = X at *
    have hsub : blen (X ++ p) - blen p = blen X := by rw [blen_append]; omega
    have hpc := provideContext_eq (gcb := gcb) (k := blen X) (c := { c with preContextOffset := some (blen (X ++ p)) }) hp (by simp [blen_append]) (Or.inr hst)
    rw [← hsub] at hpc
    rw [ask_more (hq _) hpc, hsub]
    rw [if_neg (by simp [hst] : ¬ c.state = .Regional)]
    rw [blen_append] at hoff
    have hpr : (c.isExtended = true ∧ blen X + blen p = c.offset ∧ p.reverse.head?.map gcb = some GraphemeClusterBreak.Prepend) ↔
        (ext = true ∧ (w ++ (X ++ p).reverse).head?.map gcb = some .Prepend) := by
      rw [hext, List.reverse_append]
      cases w with
      | nil =>
        rw [List.nil_append, head?_append_ne (by simpa using hp)]
        simp only [blen_nil] at hoff
        constructor
        · rintro ⟨a, _, b⟩; exact ⟨a, b⟩
        · rintro ⟨a, b⟩; exact ⟨a, by omega, b⟩
      | cons z w =>
        have := blen_pos z w
        constructor
        · rintro ⟨a, b, _⟩; omega
        · rintro ⟨a, b⟩; simp [hw z (by simp)] at b
    by_cases hprep : ext = true ∧ (w ++ (X ++ p).reverse).head?.map gcb = some .Prepend
    · rw [if_pos hprep, if_pos (hpr.mpr hprep)]
      exact ⟨ctx, rfl⟩
    · rw [if_neg hprep, if_neg (mt hpr.mp hprep)]
      rw [List.reverse_append, emojiBase_all hw]
      by_cases hdec : blen X = 0 ∨ ¬ AllExtend gcb p.reverse
      · rw [handleEmojiLoop_decided _ _ _ hdec]
        refine ⟨ctx, ?_⟩
        congr 2
        rcases hdec with h0 | h0
        · have := (blen_eq_zero X).mp h0; subst this; simp
        · rw [emojiBase_not_all h0]
      · have h0 : blen X ≠ 0 := fun h => hdec (Or.inl h)
        have hall : AllExtend gcb p.reverse := by by_contra h; exact hdec (Or.inr h)
        rw [handleEmojiLoop_more _ _ _ h0 hall]
        have hctx' : ctx ≠ [] := by rintro rfl; subst hXX; exact h0 rfl
        obtain ⟨ctx', e⟩ := ih hctx' (fun q hq => hne q (by simp [hq])) (w ++ p.reverse)
          (by intro z hz; rcases List.mem_append.mp hz with hz | hz
              · exact hw z hz
              · exact hall z hz) (by rw [blen_append, blen_reverse]; omega)
        refine ⟨ctx', e.trans ?_⟩
        rw [List.append_assoc, ← List.reverse_append, if_neg hprep, emojiBase_all hw, List.reverse_append]

theorem ask_regional {α : Type} {query : Cursor → Outcome (Cursor × Except Incomplete α)} {c : Cursor} (hst : c.state = .Regional) (hext : c.isExtended = ext)
    (hq : ∀ m r, query { c with preContextOffset := some m, risCount := r } = .ok ({ c with preContextOffset := some m, risCount := r }, .error (.PreContext m)))
    (ctx : List (List Nat)) (hctx : ctx ≠ []) (hne : ∀ p ∈ ctx, p ≠ []) :
    ∀ (w : List Nat) (r : Option Nat), AllRI gcb w → r.getD 0 = w.length → c.offset = blen w + blen ctx.reverse.flatten →
    ∃ ctx' r', ask gcb query ctx { c with preContextOffset := some (blen ctx.reverse.flatten), risCount := r } =
      ask gcb query ctx' ({ c with preContextOffset := none, risCount := r' }.decide
        (if ext = true ∧ (w ++ ctx.reverse.flatten.reverse).head?.map gcb = some GraphemeClusterBreak.Prepend then false
         else riCount ((w ++ ctx.reverse.flatten.reverse).map gcb) % 2 == 0)) := by
  induction ctx with
  | nil => exact absurd rfl hctx
  | cons p ctx ih =>
    intro w r hw hr hoff
    have hp := hne p (by simp)
    have hX : (p :: ctx).reverse.flatten = ctx.reverse.flatten ++ p := by simp
    rw [hX] at hoff ⊢
    generalize hXX : ctx.reverse.flatten = X at *
    have hsub : blen (X ++ p) - blen p = blen X := by rw [blen_append]; omega
    have hpc := provideContext_eq (gcb := gcb) (k := blen X) (c := { c with preContextOffset := some (blen (X ++ p)), risCount := r }) hp (by simp [blen_append]) (Or.inl hst)
    rw [← hsub] at hpc
    rw [ask_more (hq _ _) hpc, hsub]
    rw [if_pos hst, hr]
    rw [blen_append] at hoff
    have hpr : (c.isExtended = true ∧ blen X + blen p = c.offset ∧ p.reverse.head?.map gcb = some GraphemeClusterBreak.Prepend) ↔
        (ext = true ∧ (w ++ (X ++ p).reverse).head?.map gcb = some .Prepend) := by
      rw [hext, List.reverse_append]
      cases w with
      | nil =>
        rw [List.nil_append, head?_append_ne (by simpa using hp)]
        simp only [blen_nil] at hoff
        constructor
        · rintro ⟨a, _, b⟩; exact ⟨a, b⟩
        · rintro ⟨a, b⟩; exact ⟨a, by omega, b⟩
      | cons z w =>
        have := blen_pos z w
        constructor
        · rintro ⟨a, b, _⟩; omega
        · rintro ⟨a, b⟩; simp [hw z (by simp)] at b
    by_cases hprep : ext = true ∧ (w ++ (X ++ p).reverse).head?.map gcb = some .Prepend
    · rw [if_pos hprep, if_pos (hpr.mpr hprep)]
      exact ⟨ctx, _, rfl⟩
    · rw [if_neg hprep, if_neg (mt hpr.mp hprep)]
      rw [List.reverse_append, riCount_all hw]
      by_cases hdec : blen X = 0 ∨ ¬ AllRI gcb p.reverse
      · rw [handleRegionalLoop_decided _ _ _ _ hdec]
        refine ⟨ctx, some (w.length + riCount (p.reverse.map gcb)), ?_⟩
        congr 2
        rcases hdec with h0 | h0
        · have := (blen_eq_zero X).mp h0; subst this; simp
        · rw [riCount_not_all h0]
      · have h0 : blen X ≠ 0 := fun h => hdec (Or.inl h)
        have hall : AllRI gcb p.reverse := by by_contra h; exact hdec (Or.inr h)
        rw [handleRegionalLoop_more _ _ _ _ h0 hall]
        have hctx' : ctx ≠ [] := by rintro rfl; subst hXX; exact h0 rfl
        obtain ⟨ctx', r', e⟩ := ih hctx' (fun q hq => hne q (by simp [hq])) (w ++ p.reverse) (some (w.length + p.reverse.length))
          (by intro z hz; rcases List.mem_append.mp hz with hz | hz
              · exact hw z hz
              · exact hall z hz) (by simp) (by rw [blen_append, blen_reverse]; omega)
        refine ⟨ctx', r', e.trans ?_⟩
        rw [List.append_assoc, ← List.reverse_append, if_neg hprep, riCount_all hw, List.reverse_append]

theorem ask_congr {α : Type} {query : Cursor → Outcome (Cursor × Except Incomplete α)} {ctx : List (List Nat)} {c c' : Cursor}
    (h : query c = query c') : ask gcb query ctx c = ask gcb query ctx c' := by
  cases ctx with
  | nil => exact h
  | cons p ctx => rw [ask, ask, h]

/-- no boundary strictly inside `w` -/
def NoBd (gcb : Nat → GCB) (ext : Bool) (ra w R : List Nat) : Prop :=
  ∀ u1 u2, w = u1 ++ u2 → u1 ≠ [] → u2 ≠ [] → bd gcb ext (u1.reverse ++ ra) (u2 ++ R) = false

theorem NoBd.single (ra R : List Nat) (ch : Nat) : NoBd gcb ext ra [ch] R := fun _ _ hu h1 h2 => (single_split hu h1 h2).elim

theorem NoBd.cons {ra w R : List Nat} {ch : Nat} (h : NoBd gcb ext (ch :: ra) w R) (hb : bd gcb ext (ch :: ra) (w ++ R) = false) :
    NoBd gcb ext ra (ch :: w) R := by
  intro u1 u2 hu h1 h2
  cases u1 with
  | nil => exact absurd rfl h1
  | cons x u1 =>
    simp only [List.cons_append, List.cons.injEq] at hu
    obtain ⟨rfl, rfl⟩ := hu
    cases u1 with
    | nil => simpa using hb
    | cons y u1 => simpa using h (y :: u1) u2 rfl (by simp) h2

/-- the cursor after the end of a chunk that is not the last one -/
structure Paused (gcb : Nat → GCB) (ext : Bool) (ra b : List Nat) (c : Cursor) : Prop where
  at_ : At gcb ext ra b c
  resuming : c.resuming = true
  before : c.catBefore ≠ none
  after : c.catAfter = none
  state : c.state = .Unknown

theorem At.nextLoop_chunk (iter : List Nat) {ra1 ra2 R : List Nat} {ch : Nat} {c : Cursor}
    (h : At gcb ext (ra1 ++ ra2) (ch :: iter ++ R) c)
    (hris : c.risCount = none → ra2 = [] ∨ gcb ch ≠ .RegionalIndicator) (s : List Nat) (hs : s = ra1.reverse ++ ch :: iter)
    (hgood : ra2 ≠ [] → GoodStart gcb s) :
    (∃ u v c', ch :: iter = u ++ v ∧ Piece gcb ext (ra1 ++ ra2) u (v ++ R) ∧
      c.nextLoop gcb s (blen ra2) iter ch = .ok (c', .ok (some (blen (ra1 ++ ra2) + blen u))) ∧
      At gcb ext (u.reverse ++ (ra1 ++ ra2)) (v ++ R) c' ∧ c'.resuming = false ∧ (c'.risCount = none → ra2 = []) ∧ (v = [] → R = [])) ∨
    (R ≠ [] ∧ ∃ c', c.nextLoop gcb s (blen ra2) iter ch = .ok (c', .error .NextChunk) ∧
      Paused gcb ext ((ch :: iter).reverse ++ (ra1 ++ ra2)) R c' ∧ NoBd gcb ext (ra1 ++ ra2) (ch :: iter) R) := by
  have hadv : (c.advance gcb ch).risCount = none → ra2 = [] := by
    intro hn
    simp only [Cursor.advance, h.advanceCat (ch := ch) (b := iter ++ R)] at hn
    by_cases hri : gcb ch = .RegionalIndicator
    · rw [if_pos hri] at hn
      rcases hris (by simpa using hn) with h0 | h0
      · exact h0
      · exact absurd hri h0
    · rw [if_neg hri] at hn; simp at hn
  induction iter generalizing ra1 ch c with
  | nil =>
    by_cases hR : R = []
    · subst hR
      left
      have h1 := At.advance_end (ch := ch) (by simpa using h) true
      have hlen : (c.advance gcb ch).offset = (c.advance gcb ch).len := by
        have a := h1.off; have b := h1.len
        simp only [Cursor.decide] at a b
        rw [a, b]; simp [blen_nil]
      refine ⟨[ch], [], { (c.advance gcb ch).decide true with resuming := false }, by simp,
        ⟨by simp, bd_nil_right _ _ _, NoBd.single _ _ _⟩, ?_, by simpa using h1.withResuming false, rfl, hadv, by simp⟩
      unfold Cursor.nextLoop
      simp only
      rw [if_pos hlen]
      simp only [Cursor.isBoundary, Cursor.decide, if_true, bind_ok, pure_eq]
      simp only [Cursor.advance]
      rw [h.off, blen_cons, blen_nil, Nat.add_zero]
    · right
      refine ⟨hR, { c.advance gcb ch with resuming := true }, ?_, ?_, NoBd.single _ _ _⟩
      · have hlen : ¬ (c.advance gcb ch).offset = (c.advance gcb ch).len := by
          have a := h.off; have b := h.len
          obtain ⟨z, R, rfl⟩ := List.exists_cons_of_ne_nil hR
          have := blen_pos z R
          simp only [List.singleton_append, blen_cons ch] at b
          simp only [Cursor.advance]
          omega
        unfold Cursor.nextLoop
        simp only
        rw [if_neg hlen]
      · refine ⟨⟨?_, ?_, h.extd, ?_, ?_, h.pre, h.advanceRis (ch := ch) (b := R), Or.inl ⟨rfl, by simp, hR⟩⟩, rfl, by simp [Cursor.advance], rfl, rfl⟩
        · simp [Cursor.advance, h.off, blen_append, blen_cons, blen_nil, blen_reverse, Nat.add_comm]
        · have := h.len
          simp only [List.singleton_append, blen_cons ch] at this
          simp [Cursor.advance, this, blen_append, blen_cons, blen_nil]; omega
        · intro k hk
          refine ⟨ch, ra1 ++ ra2, by simp, ?_⟩
          simp only [Cursor.advance, h.advanceCat (ch := ch) (b := R)] at hk
          exact (Option.some.inj hk).symm
        · intro k hk; simp [Cursor.advance] at hk
  | cons nx it ih =>
    have h1 := At.advance_cons (ch := ch) (nx := nx) (it := it ++ R) (by simpa using h) true
    have hs' : s = (ch :: ra1).reverse ++ nx :: it := by simp [hs]
    obtain ⟨c', e1, e2, e3, e4⟩ := At.isBoundary_inside (ra1 := ch :: ra1) (b1 := nx :: it) h1 (by simp) (by simp) hadv (by rw [← hs']; exact hgood)
    rw [← hs'] at e1
    cases hb : bd gcb ext (ch :: ra1 ++ ra2) (nx :: it ++ R) with
    | true =>
      rw [hb] at e1
      left
      refine ⟨[ch], nx :: it, { c' with resuming := false }, by simp, ⟨by simp, by simpa using hb, NoBd.single _ _ _⟩, ?_,
        by simpa using e2.withResuming false, rfl, e4, by simp⟩
      unfold Cursor.nextLoop
      simp only
      rw [e1]
      simp only [bind_ok, pure_eq]
      rw [e2.off]
      simp [blen_cons, blen_nil, Nat.add_comm]
    | false =>
      rw [hb] at e1
      have hloop : c.nextLoop gcb s (blen ra2) (nx :: it) ch = ({ c' with resuming := false }).nextLoop gcb s (blen ra2) it nx := by
        rw [Cursor.nextLoop, e1]
        simp only [bind_ok]
      rw [hloop]
      have hri' : ({ c' with resuming := false } : Cursor).risCount = none → ra2 = [] ∨ gcb nx ≠ .RegionalIndicator := fun h => Or.inl (e4 h)
      have hat := e2.withResuming false
      have hadv' : (({ c' with resuming := false } : Cursor).advance gcb nx).risCount = none → ra2 = [] := by
        intro hn
        simp only [Cursor.advance] at hn
        split at hn
        · exact e4 (by simpa using hn)
        · simp at hn
      rcases ih (ra1 := ch :: ra1) hat hri' hs' hadv' with ⟨u, v, c'', g1, g2, g3, g4, g5, g6, g7⟩ | ⟨g0, c'', g1, g2, g3⟩
      · left
        refine ⟨ch :: u, v, c'', by simp [g1], Piece.cons g2 ?_, ?_, by simpa using g4, g5, g6, g7⟩
        · rw [← List.append_assoc, ← g1]; exact hb
        · rw [g3]; simp [blen_cons]; omega
      · right
        exact ⟨g0, c'', g1, by simpa using g2, NoBd.cons g3 hb⟩

theorem sliceFrom_zero (s : List Nat) : sliceFrom s 0 = .ok s := by cases s <;> rfl

/-- how `next_boundary` goes on after the resumed query -/
def resumed (gcb : Nat → GCB) (chunk : List Nat) (start : Nat) (iter : List Nat) (ch : Nat) (c' : Cursor) :
    Except Incomplete Bool → Outcome (Cursor × Except Incomplete (Option Nat))
  | .error e => .ok (c', .error e)
  | .ok true => .ok ({ c' with resuming := false }, .ok (some c'.offset))
  | .ok false => ({ c' with resuming := false }).nextLoop gcb chunk start iter ch

theorem nextBoundary_resume {iter : List Nat} {ch start : Nat} {k : GCB} {c c' : Cursor} {r : Except Incomplete Bool} (h1 : c.offset ≠ c.len)
    (h2 : c.offset = start) (hr : c.resuming = true) (hcat : c.catAfter.getD (gcb ch) = k)
    (hq : ({ c with catAfter := some k } : Cursor).isBoundary gcb (ch :: iter) start = .ok (c', r)) :
    c.nextBoundary gcb (ch :: iter) start = resumed gcb (ch :: iter) start iter ch c' r := by
  subst h2 hcat
  unfold Cursor.nextBoundary
  rw [if_neg h1, if_neg (by omega), Nat.sub_self, sliceFrom_zero]
  simp only [bind_ok]
  rw [if_pos hr, hq]
  simp only [bind_ok]
  cases r with
  | error e => rfl
  | ok b => cases b <;> rfl

theorem At.not_end {ra b : List Nat} {y : Nat} {c : Cursor} (h : At gcb ext ra (y :: b) c) : c.offset ≠ c.len := by
  have := h.len; have := blen_pos y b; rw [h.off]; omega

/-- The resuming query at the start of a chunk whose first character is not a regional indicator: some cursor that is at the
right position and decided gives its answer. -/
theorem Paused.ask_next {ra b1 R : List Nat} {y : Nat} {c : Cursor} (h : Paused gcb ext ra (y :: b1 ++ R) c) (hra : ra ≠ [])
    (hy : gcb y ≠ .RegionalIndicator) (ctx : List (List Nat)) (hctx : ctx.reverse.flatten = ra.reverse) (hne : ∀ p ∈ ctx, p ≠ [])
    (hpass : ∀ c', At gcb ext ra (y :: b1 ++ R) c' → c'.resuming = false → ∀ c'' n,
      c'.nextLoop gcb (y :: b1) (blen ra) b1 y ≠ .ok (c'', .error (.PreContext n)) ∧
      c'.nextLoop gcb (y :: b1) (blen ra) b1 y ≠ .panic) :
    ∃ c', At gcb ext ra (y :: b1 ++ R) c' ∧ c'.resuming = false ∧
      ask gcb (·.nextBoundary gcb (y :: b1) (blen ra)) ctx c =
        if bd gcb ext ra (y :: b1 ++ R) = true then .ok (c', .ok (some (blen ra)))
        else c'.nextLoop gcb (y :: b1) (blen ra) b1 y := by
  have hat := h.at_
  -- the end of the argument for a decided cursor
  have fin : ∀ c1 c2 : Cursor, At gcb ext ra (y :: b1 ++ R) c1 → At gcb ext ra (y :: b1 ++ R) c2 → c1.resuming = true →
      ({ c1 with catAfter := some (gcb y) } : Cursor).isBoundary gcb (y :: b1) (blen ra) = .ok (c2, .ok (bd gcb ext ra (y :: b1 ++ R))) →
      ∀ ctx, ask gcb (·.nextBoundary gcb (y :: b1) (blen ra)) ctx c1 =
        if bd gcb ext ra (y :: b1 ++ R) = true then .ok ({ c2 with resuming := false }, .ok (some (blen ra)))
        else ({ c2 with resuming := false } : Cursor).nextLoop gcb (y :: b1) (blen ra) b1 y := by
    intro c1 c2 a1 a2 hr hq ctx
    have hn := nextBoundary_resume (At.not_end (b := b1 ++ R) a1) a1.off hr (At.advanceCat (b := b1 ++ R) a1) hq
    cases hb : bd gcb ext ra (y :: b1 ++ R) with
    | true =>
      rw [hb] at hn
      simp only [resumed] at hn
      rw [if_pos rfl, ← a2.off]
      rw [← a2.off] at hn
      exact ask_pass hn (by simp)
    | false =>
      rw [hb] at hn
      simp only [resumed] at hn
      rw [if_neg (by simp)]
      have := hpass _ (a2.withResuming false) rfl
      cases hl : ({ c2 with resuming := false } : Cursor).nextLoop gcb (y :: b1) (blen ra) b1 y with
      | panic => exact absurd hl (this c 0).2
      | ok p =>
        obtain ⟨c3, r⟩ := p
        rw [hl] at hn
        exact ask_pass hn (by rintro n rfl; exact (this c3 n).1 hl)
  by_cases hem : gcb y = .EModifier
  · -- pre-context is asked for
    set c2 : Cursor := { c with catAfter := some (gcb y), state := .Emoji } with hc2
    have hp2 := blen_pos y b1
    have hq : ∀ m, ({ c2 with preContextOffset := some m } : Cursor).nextBoundary gcb (y :: b1) (blen ra) =
        .ok ({ c2 with preContextOffset := some m }, .error (.PreContext m)) := by
      intro m
      have hoff := hat.off
      have hend := At.not_end (b := b1 ++ R) hat
      refine nextBoundary_resume (c := { c2 with preContextOffset := some m }) (c' := { c2 with preContextOffset := some m }) (r := .error (.PreContext m)) hend hat.off h.resuming (k := gcb y) rfl ?_
      simp only [Cursor.isBoundary, hc2]
      simp only [reduceCtorEq, if_false]
      rw [if_neg (by omega)]
    have hfirst : c.nextBoundary gcb (y :: b1) (blen ra) =
        .ok ({ c2 with preContextOffset := some (blen ra) }, .error (.PreContext (blen ra))) := by
      have hoff := hat.off
      have hpre := hat.pre
      refine nextBoundary_resume (c' := { c2 with preContextOffset := some (blen ra) }) (r := .error (.PreContext (blen ra))) (At.not_end (b := b1 ++ R) hat) hat.off h.resuming (k := gcb y) (by rw [h.after]; rfl) ?_
      simp only [Cursor.isBoundary, h.state, hpre, hc2, Cursor.afterCat, bind_ok, hem, Cursor.atChunkStart]
      simp only [reduceCtorEq, if_false]
      rw [if_neg (by omega), if_neg (by omega), if_pos hoff]
      simp
    have hctx0 : ctx ≠ [] := by
      rintro rfl
      simp at hctx
      exact hra hctx
    have hbl : blen ctx.reverse.flatten = blen ra := by rw [hctx, blen_reverse]
    obtain ⟨ctx', e⟩ := ask_emoji (gcb := gcb) (ext := ext) (query := (·.nextBoundary gcb (y :: b1) (blen ra))) (c := c2) rfl hat.extd hq ctx hctx0 hne []
      (by intro x hx; cases hx) (by rw [hbl, blen_nil, Nat.zero_add]; exact hat.off)
    rw [hbl, hctx, List.reverse_reverse, List.nil_append] at e
    have hbd := bd_EM (ext := ext) (b := b1 ++ R) hem hra
    have e0 : ask gcb (·.nextBoundary gcb (y :: b1) (blen ra)) ctx c = _ :=
      (ask_congr (query := (·.nextBoundary gcb (y :: b1) (blen ra))) (c' := { c2 with preContextOffset := some (blen ra) }) (hfirst.trans (hq _).symm)).trans e
    rw [← hbd] at e0
    set c3 : Cursor := ({ c2 with preContextOffset := none }.decide (bd gcb ext ra (y :: (b1 ++ R)))) with hc3
    have hat3 : At gcb ext ra (y :: b1 ++ R) c3 :=
      ⟨hat.off, hat.len, hat.extd, hat.before, fun k hk => ⟨y, b1 ++ R, rfl, (Option.some.inj hk).symm⟩, rfl, hat.ris, Or.inr rfl⟩
    refine ⟨{ c3 with resuming := false }, hat3.withResuming _, rfl, ?_⟩
    rw [e0]
    refine fin c3 c3 hat3 hat3 h.resuming ?_ ctx'
    have : ({ c3 with catAfter := some (gcb y) } : Cursor) = c3 := rfl
    rw [this]
    have hst : c3.state = if bd gcb ext ra (y :: b1 ++ R) then .Break else .NotBreak := rfl
    cases hb : bd gcb ext ra (y :: b1 ++ R) <;> simp only [hb, Bool.false_eq_true, if_false, if_true] at hst <;> simp [Cursor.isBoundary, hst]
  · have hat' : At gcb ext ra (y :: b1 ++ R) { c with catAfter := some (gcb y) } :=
      ⟨hat.off, hat.len, hat.extd, hat.before, fun k hk => ⟨y, b1 ++ R, rfl, (Option.some.inj hk).symm⟩, hat.pre, hat.ris, hat.state⟩
    obtain ⟨c', e1, e2, e3, e4⟩ := At.isBoundary_start hat' hra h.before hy hem
    exact ⟨{ c' with resuming := false }, e2.withResuming _, rfl, fin c c' hat e2 h.resuming e1 ctx⟩

end Proofs.Grapheme
