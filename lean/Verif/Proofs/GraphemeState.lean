import Verif.Proofs.GraphemeSpec
import Verif.Proofs.SegReplace
import Verif.Spec.SegmentNormal

/-! Extended grapheme clusters by a finite automaton: eleven states summarise the text before a position. -/
namespace Proofs.GraphemeState
open Data Spec.Segment Model.Grapheme Proofs.Grapheme

inductive GState where
  | start | cr | ctl | l | v | t | prep | zwj | odd | emoji | plain
deriving DecidableEq, Repr

def allG : List GState := [.start, .cr, .ctl, .l, .v, .t, .prep, .zwj, .odd, .emoji, .plain]
theorem mem_allG (s : GState) : s ∈ allG := by cases s <;> decide

/-- the state after a character; with `m` spacing marks are passed over, like Extend, after an emoji base -/
def next (m : Bool) (s : GState) : GCB → GState
  | .CR => .cr
  | .LF => .ctl
  | .Control => .ctl
  | .Extend => if s = .emoji then .emoji else .plain
  | .ZWJ => .zwj
  | .RegionalIndicator => if s = .odd then .plain else .odd
  | .Prepend => .prep
  | .SpacingMark => if m = true ∧ s = .emoji then .emoji else .plain
  | .L => .l
  | .V => .v
  | .T => .t
  | .LV => .v
  | .LVT => .t
  | .EBase => .emoji
  | .EBaseGAZ => .emoji
  | .EModifier => .plain
  | .GlueAfterZwj => .plain
  | .Other => .plain

/-- boundary between a text in state `s` and a character of class `y` -/
def out (s : GState) (y : GCB) : Bool :=
  match s with
  | .start => true
  | .ctl => true
  | .cr => y != .LF
  | _ =>
    if y = .Control ∨ y = .CR ∨ y = .LF then true
    else if y = .Extend ∨ y = .ZWJ ∨ y = .SpacingMark then false
    else match s with
      | .prep => false
      | .l => !(y == .L || y == .V || y == .LV || y == .LVT)
      | .v => !(y == .V || y == .T)
      | .t => !(y == .T)
      | .zwj => !(y == .GlueAfterZwj || y == .EBaseGAZ)
      | .odd => !(y == .RegionalIndicator)
      | .emoji => !(y == .EModifier)
      | _ => true

def run (m : Bool) (s : GState) (k : List GCB) : GState := k.foldl (next m) s

theorem run_append (m : Bool) (s : GState) (a b : List GCB) : run m s (a ++ b) = run m (run m s a) b := List.foldl_append

/-- boundary by the automaton -/
def cutAt (m : Bool) (a b : List GCB) : Bool :=
  match b with
  | [] => true
  | y :: _ => out (run m .start a) y

theorem run_odd (m : Bool) (l : List GCB) : run m .start l.reverse = .odd ↔ riCount l % 2 = 1 := by
  induction l with
  | nil => simp [run, riCount]
  | cons x l ih =>
    rw [List.reverse_cons, run_append]
    show next m (run m .start l.reverse) x = .odd ↔ _
    by_cases hx : x = .RegionalIndicator
    · subst hx
      simp only [next, riCount]
      split
      · rename_i h; have := ih.mp h; simp; omega
      · rename_i h; have := mt ih.mpr h; simp; omega
    · rw [riCount_nonRI _ _ hx]
      cases x <;> simp [next] at hx ⊢ <;> split <;> simp

theorem run_emoji (l : List GCB) : run false .start l.reverse = .emoji ↔ emojiBase l = true := by
  induction l with
  | nil => simp [run, emojiBase]
  | cons x l ih =>
    rw [List.reverse_cons, run_append]
    show next false (run false .start l.reverse) x = .emoji ↔ _
    cases x <;> simp [next, emojiBase]
    · exact ih
    · split <;> simp

theorem core : ∀ x ∈ allGCB, ∀ y ∈ allGCB, ∀ s ∈ allG,
    out (next false s x) y = (match checkPair x y with
      | .NotBreak => false
      | .Break => true
      | .Extended => false
      | .Regional => !(decide (next false s x = .odd))
      | .Emoji => !(decide (next false s x = .emoji))) := by decide +kernel

theorem mem_allGCB (x : GCB) : x ∈ allGCB := by cases x <;> decide

theorem bnd_cutAt (rb ra : List GCB) : bnd true rb ra = cutAt false rb.reverse ra := by
  cases ra with
  | nil => cases rb <;> rfl
  | cons y ra =>
    cases rb with
    | nil => rfl
    | cons x rb =>
      have hc := core x (mem_allGCB x) y (mem_allGCB y) (run false .start rb.reverse) (mem_allG _)
      have hr : next false (run false .start rb.reverse) x = run false .start (x :: rb).reverse := by
        rw [List.reverse_cons, run_append]; rfl
      rw [hr] at hc
      simp only [bnd, cutAt, hc]
      have h1 : (riCount (x :: rb) % 2 == 0) = !decide (run false .start (x :: rb).reverse = .odd) := by
        have := run_odd false (x :: rb)
        by_cases h : riCount (x :: rb) % 2 = 1
        · rw [decide_eq_true (this.mpr h)]; simp [h]
        · rw [decide_eq_false (mt this.mp h)]; simp; omega
      have h2 : emojiBase (x :: rb) = decide (run false .start (x :: rb).reverse = .emoji) := by
        have := run_emoji (x :: rb)
        by_cases h : emojiBase (x :: rb) = true
        · rw [decide_eq_true (this.mpr h), h]
        · rw [decide_eq_false (mt this.mp h)]; simpa using h
      rw [h1, h2]
      rfl

theorem boundary_cutAt (a b : List GCB) : GraphemeBoundary true a b ↔ cutAt false a b = true := by
  have h := bnd_spec true a.reverse b
  rw [List.reverse_reverse] at h
  rw [h, bnd_cutAt, List.reverse_reverse]

/-! ## blocks -/

/-- no boundary inside the block -/
def quiet (s : GState) : List GCB → Bool
  | [] => true
  | [_] => true
  | a :: b :: r => !out (next true s a) b && quiet (next true s a) (b :: r)

def head? : List GCB → Option GCB
  | [] => none
  | a :: _ => some a

def outs (s : GState) : List GCB → Bool
  | [] => true
  | a :: _ => out s a

/-- the two blocks are alike in every state -/
def alike (u v : List GCB) : Bool :=
  !u.isEmpty && !v.isEmpty &&
  allG.all fun s => decide (run true s u = run true s v) && (outs s u == outs s v) && quiet s u && quiet s v

theorem quiet_spec (s : GState) (a b y : List GCB) (ha : a ≠ []) (hb : b ≠ []) (h : quiet s (a ++ b) = true) :
    outs (run true s a) (b ++ y) = false := by
  induction a generalizing s with
  | nil => exact absurd rfl ha
  | cons x a ih =>
    cases a with
    | nil =>
      cases b with
      | nil => exact absurd rfl hb
      | cons z b =>
        simp only [List.singleton_append, quiet, Bool.and_eq_true, Bool.not_eq_true'] at h
        exact h.1
    | cons w a =>
      simp only [List.cons_append, quiet, Bool.and_eq_true] at h
      exact ih (next true s x) (by simp) h.2

theorem cutAt_outs (a b : List GCB) : cutAt true a b = outs (run true .start a) b := by cases b <;> rfl

theorem outs_append (s : GState) (a b : List GCB) (h : a ≠ []) : outs s (a ++ b) = outs s a := by
  cases a with
  | nil => exact absurd rfl h
  | cons x a => rfl

theorem alike_spec {gcb : Nat → GCB} {u v : List Nat} (h : alike (u.map gcb) (v.map gcb) = true) :
    Proofs.SegReplace.Alike (fun a b => cutAt true (a.map gcb) (b.map gcb) = true) u v := by
  simp only [alike, Bool.and_eq_true, List.all_eq_true, Bool.not_eq_true', decide_eq_true_eq, beq_iff_eq] at h
  obtain ⟨⟨hu, hv⟩, h⟩ := h
  have hu : u ≠ [] := by intro e; subst e; simp at hu
  have hv : v ≠ [] := by intro e; subst e; simp at hv
  have hum : u.map gcb ≠ [] := by simpa using hu
  have hvm : v.map gcb ≠ [] := by simpa using hv
  refine ⟨⟨hu, hv⟩, ?_, ?_, ?_⟩
  · intro a b y
    show cutAt true _ _ = true ↔ cutAt true _ _ = true
    rw [cutAt_outs, cutAt_outs]
    cases b with
    | cons z b => rfl
    | nil =>
      rw [List.nil_append, List.nil_append, List.map_append, List.map_append, outs_append _ _ _ hum, outs_append _ _ _ hvm,
        (h _ (mem_allG _)).1.1.2]
  · intro x a b y ha hb e
    show ¬ cutAt true _ _ = true
    rw [cutAt_outs, List.map_append, List.map_append, run_append]
    have ha' : a.map gcb ≠ [] := by simpa using ha
    have hb' : b.map gcb ≠ [] := by simpa using hb
    rw [quiet_spec _ _ _ _ ha' hb']
    · simp
    · rcases e with e | e
      · rw [← List.map_append, ← e]; exact (h _ (mem_allG _)).1.2
      · rw [← List.map_append, ← e]; exact (h _ (mem_allG _)).2
  · intro x a b
    show cutAt true _ _ = true ↔ cutAt true _ _ = true
    rw [cutAt_outs, cutAt_outs]
    simp only [List.map_append, run_append]
    rw [(h _ (mem_allG _)).1.1.1]

/-! ## texts in which no spacing mark stands between an emoji base and its modifier -/

/-- `NoSpacing` by the automaton -/
def Agree (k : List GCB) : Prop := ∀ a q, k = a ++ .EModifier :: q → run true .start a = .emoji → run false .start a = .emoji

/-- an emoji base followed by marks -/
def BaseMarks (ok : GCB → Prop) (k : List GCB) : Prop :=
  ∃ p b ms, k = p ++ b :: ms ∧ (b = .EBase ∨ b = .EBaseGAZ) ∧ ∀ x ∈ ms, ok x

theorem baseMarks_snoc (ok : GCB → Prop) (hok : ¬ ok .EBase ∧ ¬ ok .EBaseGAZ) (k : List GCB) (x : GCB) :
    BaseMarks ok (k ++ [x]) ↔ (x = .EBase ∨ x = .EBaseGAZ) ∨ (ok x ∧ BaseMarks ok k) := by
  constructor
  · rintro ⟨p, b, ms, h, hb, hm⟩
    rcases List.eq_nil_or_concat ms with rfl | ⟨ms', e, rfl⟩
    · obtain ⟨_, h2⟩ := List.append_inj' h rfl
      simp at h2; subst h2; exact .inl hb
    · rw [List.concat_eq_append] at h hm
      have : k ++ [x] = (p ++ b :: ms') ++ [e] := by rw [h]; simp
      obtain ⟨h1, h2⟩ := List.append_inj' this rfl
      simp at h2; subst h2
      exact .inr ⟨hm x (by simp), p, b, ms', h1, hb, fun y hy => hm y (by simp [hy])⟩
  · rintro (h | ⟨h, p, b, ms, e, hb, hm⟩)
    · exact ⟨k, x, [], rfl, h, by simp⟩
    · refine ⟨p, b, ms ++ [x], by rw [e]; simp, hb, ?_⟩
      intro y hy
      rcases List.mem_append.mp hy with hy | hy
      · exact hm y hy
      · simp at hy; exact hy ▸ h

theorem run_baseMarks (m : Bool) (k : List GCB) :
    run m .start k = .emoji ↔ BaseMarks (fun x => x = .Extend ∨ (m = true ∧ x = .SpacingMark)) k := by
  suffices H : ∀ l : List GCB, run m .start l.reverse = .emoji ↔ BaseMarks (fun x => x = .Extend ∨ (m = true ∧ x = .SpacingMark)) l.reverse by
    simpa using H k.reverse
  intro l
  induction l with
  | nil => simp [run, BaseMarks]
  | cons x l ih =>
    rw [List.reverse_cons, run_append, baseMarks_snoc _ (by simp), ← ih]
    show next m (run m .start l.reverse) x = .emoji ↔ _
    cases x <;> simp [next]
    · split <;> simp

theorem agree_iff (k : List GCB) : NoSpacing k ↔ Agree k := by
  constructor
  · intro h a q e h1
    obtain ⟨p, b, ms, e1, hb, hm⟩ := (run_baseMarks true a).mp h1
    refine (run_baseMarks false a).mpr ⟨p, b, ms, e1, hb, fun x hx => ?_⟩
    exact .inl (h p b ms .EModifier q (by rw [e, e1]) hb (fun x hx => by simpa using hm x hx) rfl x hx)
  · intro h p b ms m q e hb hm hmm x hx
    subst hmm
    have h1 := h (p ++ b :: ms) q e ((run_baseMarks true _).mpr ⟨p, b, ms, rfl, hb, fun x hx => by simpa using hm x hx⟩)
    obtain ⟨p', b', ms', e1, hb', hm'⟩ := (run_baseMarks false _).mp h1
    rcases List.append_eq_append_iff.mp e1 with ⟨c, hc, hd⟩ | ⟨c, hc, hd⟩
    · cases c with
      | nil =>
        simp only [List.nil_append, List.cons.injEq] at hd
        rw [hd.2] at hx
        simpa using hm' x hx
      | cons y c =>
        simp only [List.cons_append, List.cons.injEq] at hd
        have := hm b' (by rw [hd.2]; simp)
        rcases hb' with rfl | rfl <;> simp at this
    · cases c with
      | nil =>
        simp only [List.nil_append, List.cons.injEq] at hd
        rw [← hd.2] at hx
        simpa using hm' x hx
      | cons y c =>
        simp only [List.cons_append, List.cons.injEq] at hd
        have := hm' b (by rw [hd.2]; simp)
        rcases hb with rfl | rfl <;> simp at this

/-- the two automata: same state, or `emoji` against `plain` -/
def Le (f t : GState) : Prop := f = t ∨ (f = .plain ∧ t = .emoji)

theorem le_next {f t : GState} (h : Le f t) (x : GCB) : Le (next false f x) (next true t x) := by
  rcases h with rfl | ⟨rfl, rfl⟩
  · cases x <;> simp [next, Le]
    by_cases h : f = .emoji <;> simp [h]
  · cases x <;> simp [next, Le]

theorem le_run {f t : GState} (h : Le f t) (k : List GCB) : Le (run false f k) (run true t k) := by
  induction k generalizing f t with
  | nil => exact h
  | cons x k ih => exact ih (le_next h x)

theorem le_out {f t : GState} (h : Le f t) (y : GCB) (hy : y = .EModifier → t = .emoji → f = .emoji) : out f y = out t y := by
  rcases h with rfl | ⟨rfl, rfl⟩
  · rfl
  · cases y <;> first | rfl | (exact absurd (hy rfl rfl) (by simp))

theorem cutAt_agree {k : List GCB} (h : NoSpacing k) (a b : List GCB) (e : k = a ++ b) : cutAt false a b = cutAt true a b := by
  have h := (agree_iff k).mp h
  cases b with
  | nil => rfl
  | cons y b =>
    exact le_out (le_run (.inl rfl) a) y (fun hy ht => h a b (by rw [e, hy]) ht)

/-! ### the property is kept when blocks are replaced by their decomposition -/

/-- `f` differs from `g` at most by being `plain` where `g` is `emoji` -/
def alikeF (u v : List GCB) : Bool :=
  u.all (· ≠ .EModifier) && v.all (· ≠ .EModifier) &&
  allG.all fun s => decide (run false s u = run false s v ∨ (run false s u = .plain ∧ run false s v = .emoji))

def LeF (f g : GState) : Prop := f = g ∨ (f = .plain ∧ g = .emoji)

theorem leF_run {f g : GState} (h : LeF f g) (k : List GCB) : LeF (run false f k) (run false g k) := by
  induction k generalizing f g with
  | nil => exact h
  | cons x k ih =>
    refine ih ?_
    rcases h with rfl | ⟨rfl, rfl⟩
    · exact .inl rfl
    · cases x <;> simp [next, LeF]

theorem agree_replace {x u v y : List GCB} (h : Agree (x ++ u ++ y)) (h1 : alike u v = true) (h2 : alikeF u v = true) :
    Agree (x ++ v ++ y) := by
  simp only [alike, alikeF, Bool.and_eq_true, List.all_eq_true, decide_eq_true_eq] at h1 h2
  obtain ⟨_, h1⟩ := h1
  obtain ⟨⟨hu, hv⟩, h2⟩ := h2
  intro a q e ht
  rw [List.append_assoc] at e
  rcases List.append_eq_append_iff.mp e with ⟨c, hc, hd⟩ | ⟨c, hc, hd⟩
  · -- the modifier is after `x`
    rcases List.append_eq_append_iff.mp hd with ⟨d, hd1, hd2⟩ | ⟨d, hd1, hd2⟩
    · -- in `y`
      subst hc
      subst hd1
      have := h (x ++ (u ++ d)) q (by rw [hd2]; simp)
      simp only [run_append] at this ht ⊢
      rw [(h1 _ (mem_allG _)).1.1.1] at this
      have h3 := this ht
      have h4 : LeF (run false (run false .start x) u) (run false (run false .start x) v) := h2 _ (mem_allG _)
      rcases leF_run h4 d with h5 | ⟨h5, h6⟩
      · rw [← h5]; exact h3
      · exact h6
    · cases d with
      | nil =>
        rw [List.append_nil] at hd1
        rw [List.nil_append] at hd2
        subst hc
        subst hd1
        have := h (x ++ u) q (by rw [hd2])
        simp only [run_append] at this ht ⊢
        rw [(h1 _ (mem_allG _)).1.1.1] at this
        have h3 := this ht
        have h4 : LeF (run false (run false .start x) u) (run false (run false .start x) v) := h2 _ (mem_allG _)
        rcases h4 with h5 | ⟨h5, h6⟩
        · rw [← h5]; exact h3
        · exact h6
      | cons z d =>
        simp only [List.cons_append, List.cons.injEq] at hd2
        exact absurd hd2.1.symm (hv z (by rw [hd1]; simp))
  · cases c with
    | nil =>
      rw [List.append_nil] at hc
      rw [List.nil_append] at hd
      subst hc
      cases v with
      | nil => simp_all
      | cons z v =>
        simp only [List.cons_append, List.cons.injEq] at hd
        exact absurd hd.1.symm (hv z (by simp))
    | cons z c =>
      simp only [List.cons_append, List.cons.injEq] at hd
      exact h a (c ++ u ++ y) (by rw [hc, hd.1]; simp) ht

end Proofs.GraphemeState
