import Verif.Proofs.WordSeg
import Verif.Proofs.SegReplace

/-! Word boundaries when a character is replaced by its canonical mapping: by a character of the same class and Extend
characters, or a letter by letters. -/
namespace Proofs.Word
open Data Spec.Segment Model.Word Proofs.SegReplace

def runC (c : Ctx) (k : List WB) : Ctx := k.foldl Ctx.push c

theorem runC_append (c : Ctx) (a b : List WB) : runC c (a ++ b) = runC (runC c a) b := List.foldl_append

theorem C_append (wb : Nat → WB) (a b : List Nat) : C wb (a ++ b) = runC (C wb a) (b.map wb) := by
  have : ∀ l : List Nat, C wb (a ++ l.reverse) = runC (C wb a) (l.reverse.map wb) := by
    intro l
    induction l with
    | nil => simp [runC]
    | cons x l ih => rw [List.reverse_cons, ← List.append_assoc, C_snoc, ih, List.map_append, runC_append]; rfl
  simpa using this b.reverse

/-- boundary between a text with summary `c` and a text -/
def bdC (c : Ctx) : List WB → Bool
  | [] => true
  | b :: r => bnd c b (nextSig r)

theorem Bd_bdC (wb : Nat → WB) (a b : List Nat) : Bd wb a b = bdC (C wb a) (b.map wb) := by
  cases b <;> rfl

/-- same summary, or the last class is a letter in both -/
def Sim (c d : Ctx) : Prop := c = d ∨ (c.e1 = some .ALetter ∧ d.e1 = some .ALetter ∧ c.odd = d.odd ∧ c.z = d.z)

theorem joins_left (e2 e2' : Option WB) (odd : Bool) (b : WB) (b2 : Option WB) :
    joins .ALetter e2 odd b b2 = joins .ALetter e2' odd b b2 := by cases b <;> rfl

theorem joins_right (e : WB) (e2 : Option WB) (odd : Bool) (b2 b2' : Option WB) :
    joins e e2 odd .ALetter b2 = joins e e2 odd .ALetter b2' := by cases e <;> rfl

theorem Sim.bnd {c d : Ctx} (h : Sim c d) (b : WB) (b2 : Option WB) : Word.bnd c b b2 = Word.bnd d b b2 := by
  rcases h with rfl | ⟨h1, h2, h3, h4⟩
  · rfl
  · simp only [Word.bnd, h1, h2, h4, h3, joins_left c.e2 d.e2]

theorem Sim.bdC {c d : Ctx} (h : Sim c d) (k : List WB) : bdC c k = bdC d k := by
  cases k with
  | nil => rfl
  | cons b r => exact h.bnd b _

theorem Sim.push {c d : Ctx} (h : Sim c d) (x : WB) : Sim (c.push x) (d.push x) := by
  rcases h with rfl | ⟨h1, h2, h3, h4⟩
  · exact .inl rfl
  · have ho : c.open = d.open := by simp [Ctx.open, h1, h2]
    simp only [Ctx.push, ho]
    split
    · exact .inr ⟨h1, h2, h3, rfl⟩
    · left; rw [h1, h2, h3]

theorem Sim.run {c d : Ctx} (h : Sim c d) (k : List WB) : Sim (runC c k) (runC d k) := by
  induction k generalizing c d with
  | nil => exact h
  | cons x k ih => exact ih (h.push x)

/-- the two blocks are alike -/
structure AlikeW (u v : List WB) : Prop where
  nonempty : u ≠ [] ∧ v ≠ []
  run : ∀ c, Sim (runC c u) (runC c v)
  start : ∀ c r, bdC c (u ++ r) = bdC c (v ++ r)
  sig : ∀ r, nextSig (u ++ r) = nextSig (v ++ r)
  inside : ∀ c a b r, a ≠ [] → b ≠ [] → (u = a ++ b ∨ v = a ++ b) → bdC (runC c a) (b ++ r) = false

theorem alikeW_spec {wb : Nat → WB} {u v : List Nat} (h : AlikeW (u.map wb) (v.map wb)) : Alike (Boundary wb) u v := by
  have hu : u ≠ [] := by intro e; exact h.nonempty.1 (by rw [e]; rfl)
  have hv : v ≠ [] := by intro e; exact h.nonempty.2 (by rw [e]; rfl)
  have sig : ∀ b r : List WB, nextSig (b ++ (u.map wb ++ r)) = nextSig (b ++ (v.map wb ++ r)) := by
    intro b r
    induction b with
    | nil => exact h.sig r
    | cons x b ih => simp only [List.cons_append, nextSig, ih]
  refine ⟨⟨hu, hv⟩, ?_, ?_, ?_⟩
  · intro a b y
    rw [← Bd_iff, ← Bd_iff, Bd_bdC, Bd_bdC]
    cases b with
    | nil =>
      simp only [List.nil_append, List.map_append]
      rw [h.start]
    | cons x b =>
      simp only [List.cons_append, List.map_cons, List.map_append, List.append_assoc, bdC]
      rw [sig]
  · intro x a b y ha hb e
    rw [← Bd_iff, Bd_bdC, C_append, List.map_append, h.inside]
    · simp
    · simpa using ha
    · simpa using hb
    · rcases e with e | e
      · exact .inl (by rw [e, List.map_append])
      · exact .inr (by rw [e, List.map_append])
  · intro x a b
    rw [← Bd_iff, ← Bd_iff, Bd_bdC, Bd_bdC]
    simp only [C_append]
    rw [((h.run _).run _).bdC]

theorem split_two {a b : List WB} {x y : WB} (h : [x, y] = a ++ b) (ha : a ≠ []) (hb : b ≠ []) : a = [x] ∧ b = [y] := by
  match a, b, ha, hb with
  | [p], [q], _, _ => simp at h; simp [h]
  | p :: q :: r, b, _, hb => simp at h; exact absurd h.2.2.2 hb
  | [p], q :: r :: t, _, _ => simp at h

theorem split_one {a b : List WB} {x : WB} (h : [x] = a ++ b) (ha : a ≠ []) (hb : b ≠ []) : False := by
  match a, b, ha, hb with
  | p :: q, r :: t, _, _ => have := congrArg List.length h; simp at this

theorem push_open' {c : Ctx} {w : WB} (hn : isNl w = false) : (c.push w).open = true := by
  rw [Ctx.push]
  split
  · rename_i h; simp only [Bool.and_eq_true] at h; exact h.2
  · simp [Ctx.open, hn]

theorem push_z (c : Ctx) (w : WB) : (c.push w).z = (w == .ZWJ) := by
  rw [Ctx.push]; split <;> rfl

theorem open_extend {c : Ctx} (h : c.open = true) (b2 : Option WB) : Word.bnd c .Extend b2 = false := by
  unfold Word.bnd
  unfold Ctx.open at h
  split
  · rename_i he; rw [he] at h; cases h
  · rename_i e he
    rw [he] at h
    simp only [Bool.not_eq_true'] at h
    rw [h]
    simp [isNl, isIgn, wb_beq]

theorem push_extend {c : Ctx} (h : c.open = true) (hz : c.z = false) : c.push .Extend = c := by
  rw [Ctx.push, if_pos (by simp [isIgn, h])]
  cases c
  simp only at hz
  subst hz
  rfl

theorem alikeW_same (w : WB) : AlikeW [w] [w] where
  nonempty := by simp
  run c := .inl rfl
  start c r := rfl
  sig r := rfl
  inside c a b r ha hb e := (split_one (e.elim id id) ha hb).elim

theorem alikeW_extend {w : WB} (hn : isNl w = false) (hz : w ≠ .ZWJ) : AlikeW [w] [w, .Extend] where
  nonempty := by simp
  run c := by
    left
    show c.push w = (c.push w).push .Extend
    rw [push_extend (push_open' hn)]
    rw [push_z]; simpa using hz
  start c r := by simp [bdC, nextSig, isIgn]
  sig r := by cases w <;> rfl
  inside c a b r ha hb e := by
    rcases e with e | e
    · exact (split_one e ha hb).elim
    · obtain ⟨rfl, rfl⟩ := split_two e ha hb
      exact open_extend (push_open' hn) _

theorem alikeW_letters : AlikeW [.ALetter] [.ALetter, .ALetter] where
  nonempty := by simp
  run c := .inr ⟨rfl, rfl, rfl, rfl⟩
  start c r := by
    simp only [List.cons_append, List.nil_append, bdC, Word.bnd, joins_right _ _ _ (nextSig r) (nextSig (.ALetter :: r))]
  sig r := rfl
  inside c a b r ha hb e := by
    rcases e with e | e
    · exact (split_one e ha hb).elim
    · obtain ⟨rfl, rfl⟩ := split_two e ha hb
      rfl

theorem alikeW_marks : AlikeW [.Extend, .Extend] [.Extend, .Extend] where
  nonempty := by simp
  run c := .inl rfl
  start c r := rfl
  sig r := rfl
  inside c a b r ha hb e := by
    obtain ⟨rfl, rfl⟩ := split_two (e.elim id id) ha hb
    exact open_extend (push_open' rfl) _

/-! ## inserting a character does not introduce the sequences that the iterators mishandle -/

theorem ins_split {α : Type} {l1 l2 a b : List α} {e : α} (h : l1 ++ e :: l2 = a ++ b) :
    (∃ l, a = l1 ++ e :: l ∧ l2 = l ++ b) ∨ ∃ l, l1 = a ++ l ∧ b = l ++ e :: l2 := by
  rcases List.append_eq_append_iff.mp h with ⟨c, h1, h2⟩ | ⟨c, h1, h2⟩
  · cases c with
    | nil => exact .inr ⟨[], by simpa using h1.symm, by simpa using h2.symm⟩
    | cons x c =>
      simp only [List.cons_append, List.cons.injEq] at h2
      exact .inl ⟨c, by rw [h1, h2.1], h2.2⟩
  · exact .inr ⟨c, h1, h2⟩

/-- what may be inserted: Extend anywhere, a letter after a letter -/
def Insertable (l1 : List WB) (e : WB) : Prop := e = .Extend ∨ (e = .ALetter ∧ ∃ l0, l1 = l0 ++ [.ALetter])

theorem ins_tail {l1 p J : List WB} {e m : WB} (he : Insertable l1 e) (hm : m ≠ .ALetter) (hJ : ∀ i ∈ J, isIgn i = true)
    (h : l1 = p ++ m :: J) : e = .Extend := by
  rcases he with he | ⟨_, l0, h0⟩
  · exact he
  · exfalso
    rw [h] at h0
    rcases List.eq_nil_or_concat J with rfl | ⟨J', j, rfl⟩
    · obtain ⟨_, h2⟩ := List.append_inj' h0 rfl
      simp at h2; exact hm h2
    · rw [List.concat_eq_append] at hJ h0
      have : (p ++ m :: J') ++ [j] = l0 ++ [.ALetter] := by rw [← h0]; simp
      obtain ⟨_, h2⟩ := List.append_inj' this rfl
      simp at h2
      have := hJ j (by simp)
      rw [h2] at this; cases this

theorem fwdClean_insert {l1 l2 : List WB} {e : WB} (he : Insertable l1 e) (h : FwdClean (l1 ++ l2)) : FwdClean (l1 ++ e :: l2) := by
  have e1 : midQ e = false := by rcases he with rfl | ⟨rfl, _⟩ <;> rfl
  have e2 : e ≠ .ZWJ ∧ e ≠ .GlueAfterZwj ∧ e ≠ .EBaseGAZ ∧ e ≠ .EModifier := by rcases he with rfl | ⟨rfl, _⟩ <;> simp
  have inJ : ∀ {J a b : List WB}, (∀ i ∈ J, isIgn i = true) → J = a ++ e :: b → ∀ i ∈ a ++ b, isIgn i = true := by
    intro J a b hJ hj i hi
    refine hJ i ?_
    rw [hj]
    rcases List.mem_append.mp hi with hi | hi
    · simp [hi]
    · simp [hi]
  refine ⟨?_, ?_, ?_⟩
  · intro p m J g q hk hm hJ
    rcases ins_split hk with ⟨l, hp, hl⟩ | ⟨l, hl, hr⟩
    · exact h.1 (l1 ++ l) m J g q (by rw [hl]; simp) hm hJ
    · cases l with
      | nil => simp at hr; rw [hr.1, e1] at hm; cases hm
      | cons x l =>
        simp only [List.cons_append, List.cons.injEq] at hr
        obtain ⟨rfl, hr⟩ := hr
        rcases ins_split hr.symm with ⟨l', hj, hl'⟩ | ⟨l', hj, hr'⟩
        · exact h.1 p m (l ++ l') g q (by rw [hl, hl']; simp) hm (inJ hJ hj)
        · match l', hr' with
          | [], hr' => simp at hr'; exact absurd hr'.1.symm e2.1
          | [y], hr' => simp at hr'; rw [hr'.2.1]; exact ⟨e2.2.1, e2.2.2.1⟩
          | y :: z :: l'', hr' =>
            simp only [List.cons_append, List.cons.injEq] at hr'
            obtain ⟨rfl, rfl, hr'⟩ := hr'
            exact h.1 p m J g (l'' ++ l2) (by rw [hl, hj]; simp) hm hJ
  · intro p J x q hk hJ
    rcases ins_split hk with ⟨l, hp, hl⟩ | ⟨l, hl, hr⟩
    · exact h.2.1 (l1 ++ l) J x q (by rw [hl]; simp) hJ
    · match l, hr with
      | [], hr => simp at hr; exact absurd hr.1.symm e2.1
      | [y], hr => simp at hr; exact absurd hr.2.1.symm e2.2.1
      | y :: z :: l, hr =>
        simp only [List.cons_append, List.cons.injEq] at hr
        obtain ⟨rfl, rfl, hr⟩ := hr
        rcases ins_split hr.symm with ⟨l', hj, hl'⟩ | ⟨l', hj, hr'⟩
        · exact h.2.1 p (l ++ l') x q (by rw [hl, hl']; simp) (inJ hJ hj)
        · match l', hr' with
          | [], hr' =>
            simp only [List.nil_append, List.cons.injEq] at hr'
            rw [List.append_nil] at hj
            subst hj
            rw [hr'.1, ins_tail (p := p ++ [.ZWJ]) (m := .GlueAfterZwj) he (by simp) hJ (by rw [hl]; simp)]
            rfl
          | y :: l'', hr' =>
            simp only [List.cons_append, List.cons.injEq] at hr'
            obtain ⟨rfl, hr'⟩ := hr'
            exact h.2.1 p J x (l'' ++ l2) (by rw [hl, hj]; simp) hJ
  · intro p J q hk hJ
    rcases ins_split hk with ⟨l, hp, hl⟩ | ⟨l, hl, hr⟩
    · exact h.2.2 (l1 ++ l) J q (by rw [hl]; simp) hJ
    · match l, hr with
      | [], hr => simp at hr; exact absurd hr.1.symm e2.2.2.2
      | y :: l, hr =>
        simp only [List.cons_append, List.cons.injEq] at hr
        obtain ⟨rfl, hr⟩ := hr
        rcases ins_split hr.symm with ⟨l', hj, hl'⟩ | ⟨l', hj, hr'⟩
        · exact h.2.2 p (l ++ l') q (by rw [hl, hl']; simp) (inJ hJ hj)
        · match l', hr' with
          | [], hr' => simp at hr'; exact absurd hr'.1.symm e2.2.2.2
          | y :: l'', hr' =>
            simp only [List.cons_append, List.cons.injEq] at hr'
            obtain ⟨rfl, hr'⟩ := hr'
            exact h.2.2 p J (l'' ++ l2) (by rw [hl, hj]; simp) hJ

theorem bwdClean_insert {l1 l2 : List WB} {e : WB} (he : Insertable l1 e) (h : BwdClean (l1 ++ l2)) : BwdClean (l1 ++ e :: l2) := by
  have e2 : e ≠ .ZWJ ∧ e ≠ .EBase ∧ e ≠ .EModifier := by rcases he with rfl | ⟨rfl, _⟩ <;> simp
  intro p J q hk hJ
  rcases ins_split hk with ⟨l, hp, hl⟩ | ⟨l, hl, hr⟩
  · exact h (l1 ++ l) J q (by rw [hl]; simp) hJ
  · match l, hr with
    | [], hr => simp at hr; exact absurd hr.1.symm e2.1
    | [y], hr => simp at hr; exact absurd hr.2.1.symm e2.2.1
    | y :: z :: l, hr =>
      simp only [List.cons_append, List.cons.injEq] at hr
      obtain ⟨rfl, rfl, hr⟩ := hr
      rcases ins_split hr.symm with ⟨l', hj, hl'⟩ | ⟨l', hj, hr'⟩
      · refine h p (l ++ l') q (by rw [hl, hl']; simp) ?_
        intro i hi
        refine hJ i ?_
        rw [hj]
        rcases List.mem_append.mp hi with hi | hi
        · simp [hi]
        · simp [hi]
      · match l', hr' with
        | [], hr' => simp at hr'; exact absurd hr'.1.symm e2.2.2
        | y :: l'', hr' =>
          simp only [List.cons_append, List.cons.injEq] at hr'
          obtain ⟨rfl, hr'⟩ := hr'
          exact h p J (l'' ++ l2) (by rw [hl, hj]; simp) hJ

end Proofs.Word
