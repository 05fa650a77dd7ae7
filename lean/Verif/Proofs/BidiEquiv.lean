import Verif.Proofs.IdnaEquiv
import Verif.Props.Bidi
import Verif.Props.Direction

/-! Bidi classes and canonical equivalence. -/
namespace Proofs.BidiEquiv
open Data Model Model.Normal Proofs.UcdSF Proofs.StepFn Spec.Normal Spec.Bidi Proofs.Bidi Proofs.NormalScalar Proofs.IdnaEquiv Proofs.IdnaData Proofs.CompData
  Proofs.DecompData Proofs.Chunked

def clsC (c : Nat) : BidiClass := (lookupC Data.bidiClass c).getD .LeftToRight
theorem cls_eq : Ucd.bidiClass = clsC := funext fun c => by rw [Props.Direction.bidi_of]; rfl

/-- separators and explicit formatting characters -/
def special : BidiClass → Bool
  | .ParagraphSeparator | .LeftToRightEmbedding | .LeftToRightOverride | .RightToLeftEmbedding | .RightToLeftOverride | .PopDirectionalFormat
  | .LeftToRightIsolate | .RightToLeftIsolate | .FirstStrongIsolate | .PopDirectionalIsolate => true
  | _ => false
def strongR : BidiClass → Bool
  | .RightToLeft | .ArabicLetter => true
  | _ => false
/-- the direction told by the first strong character -/
def told : List BidiClass → Option Bool
  | [] => none
  | c :: cs => if isStrong c then some (strongR c) else told cs

/-- what the classes of a character and of its mapping have in common -/
def AlikeB (b : BidiClass) (m : List BidiClass) : Bool :=
  !m.isEmpty && !special b && m.all (fun x => !special x) && (told [b] == told m) && (strongR b == m.any strongR)

def canP : Option (List Nat) → BidiClass → Bool
  | none, _ => true
  | some m, b => AlikeB b (m.map clsC)
theorem can_cls (c : Nat) : canP (canonSF.eval c) (bidiClassSF.eval c) = true := SF.all₂ canP _ _ (by decide +kernel) c

def hanP : Option Unit → BidiClass → Bool
  | none, _ => true
  | some _, .LeftToRight => true
  | some _, _ => false
theorem han_cls (c : Nat) : hanP ((rangesSF hangulRanges).eval c) (bidiClassSF.eval c) = true := SF.all₂ hanP _ _ (by decide +kernel) c

def markB : Nat → BidiClass → Bool
  | k, .NonspacingMark => true
  | k, .LeftToRight => true
  | k, _ => Nat.beq k 0
theorem mark_cls (c : Nat) : markB (combiningClassSF.eval c) (bidiClassSF.eval c) = true := SF.all₂ markB _ _ (by decide +kernel) c

structure Alike (b : List BidiClass) (m : List BidiClass) : Prop where
  ne : b ≠ [] ∧ m ≠ []
  plain : ∀ x ∈ b, special x = false
  plain' : ∀ x ∈ m, special x = false
  told : told b = told m
  rtl : b.any strongR = m.any strongR

theorem alike_of {b : BidiClass} {m : List BidiClass} (h : AlikeB b m = true) : Alike [b] m := by
  simp only [AlikeB, Bool.and_eq_true, Bool.not_eq_true', List.all_eq_true, beq_iff_eq] at h
  obtain ⟨⟨⟨⟨h1, h2⟩, h3⟩, h4⟩, h5⟩ := h
  refine ⟨⟨by simp, fun e => by rw [e] at h1; simp at h1⟩, by simpa using h2, h3, h4, by simpa using h5⟩

theorem han_ltr {c : Nat} (h : (0x1100 ≤ c ∧ c ≤ 0x1112) ∨ (0x1161 ≤ c ∧ c ≤ 0x1175) ∨ (0x11A8 ≤ c ∧ c ≤ 0x11C2) ∨ (0xAC00 ≤ c ∧ c ≤ 0xD7A3)) :
    clsC c = .LeftToRight := by
  have h1 := han_cls c
  have h2 := any_sf hangulRanges (by decide) c
  have h3 : (hangulRanges.any fun r => decide (r.1 ≤ c) && decide (c ≤ r.2)) = true := by
    simp only [hangulRanges, List.any_cons, List.any_nil, Bool.or_false, Bool.or_eq_true, Bool.and_eq_true, decide_eq_true_eq]
    exact h
  rw [h3] at h2
  rw [← bidiClass_sf, cls_eq] at h1
  cases hr : (rangesSF hangulRanges).eval c with
  | none => rw [hr] at h2; simp at h2
  | some u =>
    rw [hr] at h1
    cases hm : clsC c <;> rw [hm] at h1 <;> first | rfl | simp [hanP] at h1

/-- a character and its canonical mapping -/
theorem alike_mapping {c : Nat} {m : List Nat} (h : mappingWith UcdNormal.canonicalDecomposition c = some m) : Alike [clsC c] (m.map clsC) := by
  rw [mappingWith] at h
  split at h
  · rename_i hs
    simp only [Option.some.injEq] at h
    rw [han_ltr (c := c) (by omega)]
    have hne : m ≠ [] := by rw [← h]; split <;> simp
    have hm : ∀ x ∈ m, clsC x = .LeftToRight := by
      intro x hx
      refine han_ltr ?_
      rw [← h] at hx
      split at hx <;> simp only [List.mem_cons, List.not_mem_nil, or_false] at hx <;> omega
    cases m with
    | nil => exact absurd rfl hne
    | cons a m =>
      have h1 : ∀ m : List Nat, (∀ x ∈ m, clsC x = .LeftToRight) → (m.map clsC).any strongR = false := by
        intro m hm
        rw [List.any_eq_false]
        intro b hb
        obtain ⟨x, hx, rfl⟩ := List.mem_map.1 hb
        rw [hm x hx]; simp [strongR]
      refine ⟨⟨by simp, by simp⟩, by simp [special], ?_, ?_, by rw [h1 _ hm]; rfl⟩
      · intro b hb
        obtain ⟨x, hx, rfl⟩ := List.mem_map.1 hb
        rw [hm x hx]; rfl
      · rw [List.map_cons, hm a (by simp)]; rfl
  · have h1 := can_cls c
    rw [← canonSF_eq, ← bidiClass_sf, cls_eq, h] at h1
    exact alike_of h1

theorem mark_two {c : Nat} (h : Ucd.combiningClass c > 0) : clsC c = .NonspacingMark ∨ clsC c = .LeftToRight := by
  have h1 := mark_cls c
  rw [← combiningClass_sf, ← bidiClass_sf, cls_eq] at h1
  have h0 : Nat.beq (Ucd.combiningClass c) 0 = false := by
    cases hb : Nat.beq (Ucd.combiningClass c) 0 with
    | false => rfl
    | true => have := Nat.eq_of_beq_eq_true hb; omega
  cases hm : clsC c <;> rw [hm] at h1 <;> first | exact .inl rfl | exact .inr rfl | (simp only [markB] at h1; rw [h0] at h1; simp at h1)

/-- two marks in either order -/
theorem alike_swap {a b : Nat} (ha : Ucd.combiningClass a > 0) (hb : Ucd.combiningClass b > 0) : Alike [clsC a, clsC b] [clsC b, clsC a] := by
  rcases mark_two ha with h1 | h1 <;> rcases mark_two hb with h2 | h2 <;> rw [h1, h2] <;>
    exact ⟨by simp, by simp [special], by simp [special], rfl, rfl⟩

/-! ## the level of a paragraph -/

def levelTold : Option Bool → Nat → Nat
  | some true, _ => 1
  | some false, _ => 0
  | none, n => n

theorem level_plain {v : List BidiClass} (hv : ∀ x ∈ v, special x = false) (w : List BidiClass) (d : Nat) :
    levelOfStrong (firstStrong d (v ++ w)) = if d = 0 then levelTold (told v) (levelOfStrong (firstStrong 0 w))
      else levelOfStrong (firstStrong d w) := by
  induction v with
  | nil => by_cases h : d = 0 <;> simp [told, h, levelTold]
  | cons c v ih =>
    have ih := ih fun x hx => hv x (by simp [hx])
    have hc := hv c (by simp)
    rw [List.cons_append]
    by_cases hd : d = 0
    · subst hd
      rw [firstStrong]
      simp only [if_true] at ih ⊢
      cases c <;> simp [special] at hc <;> first
        | (simp [isInitiator, isStrong, told, ih]; done)
        | simp [isInitiator, isStrong, told, levelOfStrong, strongR, levelTold]
    · rw [firstStrong]
      simp only [hd, if_false] at ih ⊢
      cases c <;> simp [special] at hc <;> simp [isInitiator, hd, ih]

theorem level_alike {b m : List BidiClass} (h : Alike b m) (w : List BidiClass) : ∀ (u : List BidiClass) (d : Nat),
    levelOfStrong (firstStrong d (u ++ b ++ w)) = levelOfStrong (firstStrong d (u ++ m ++ w)) := by
  intro u
  induction u with
  | nil => intro d; rw [List.nil_append, List.nil_append, level_plain h.plain, level_plain h.plain', h.told]
  | cons c u ih =>
    intro d
    simp only [List.cons_append, firstStrong]
    split
    · exact ih _
    · split
      · exact ih _
      · split
        · rfl
        · exact ih _

/-! ## the paragraphs -/

theorem split_prefix {cls : Nat → BidiClass} {y q : List Nat} {B : List (List Nat)}
    (h : (splitParas cls y = [] ∧ q = [] ∧ B = []) ∨ splitParas cls y = q :: B) : ∀ m : List Nat, m ≠ [] → (∀ x ∈ m, cls x ≠ .ParagraphSeparator) →
    splitParas cls (m ++ y) = (m ++ q) :: B := by
  intro m
  induction m with
  | nil => intro h; exact absurd rfl h
  | cons c m ih =>
    intro _ hm
    rw [List.cons_append, splitParas, if_neg (hm c (by simp))]
    by_cases hn : m = []
    · subst hn
      rw [List.nil_append]
      rcases h with ⟨h, rfl, rfl⟩ | h
      · rw [h]; rfl
      · rw [h]; rfl
    · rw [ih hn fun x hx => hm x (by simp [hx])]
      rfl

theorem split_at (cls : Nat → BidiClass) (y : List Nat) : ∀ x : List Nat, ∃ A p q B, ∀ m : List Nat, m ≠ [] → (∀ x ∈ m, cls x ≠ .ParagraphSeparator) →
    splitParas cls (x ++ m ++ y) = A ++ [p ++ m ++ q] ++ B := by
  intro x
  induction x with
  | nil =>
    cases h : splitParas cls y with
    | nil => exact ⟨[], [], [], [], fun m h1 h2 => split_prefix (.inl ⟨h, rfl, rfl⟩) m h1 h2⟩
    | cons q B => exact ⟨[], [], q, B, fun m h1 h2 => split_prefix (.inr h) m h1 h2⟩
  | cons c x ih =>
    obtain ⟨A, p, q, B, h⟩ := ih
    by_cases hc : cls c = .ParagraphSeparator
    · refine ⟨[c] :: A, p, q, B, fun m h1 h2 => ?_⟩
      rw [List.cons_append, List.cons_append, splitParas, if_pos hc, h m h1 h2]
      rfl
    · cases A with
      | nil =>
        refine ⟨[], c :: p, q, B, fun m h1 h2 => ?_⟩
        rw [List.cons_append, List.cons_append, splitParas, if_neg hc, h m h1 h2]
        rfl
      | cons a A =>
        refine ⟨(c :: a) :: A, p, q, B, fun m h1 h2 => ?_⟩
        rw [List.cons_append, List.cons_append, splitParas, if_neg hc, h m h1 h2]
        rfl

theorem not_sep {b : BidiClass} (h : special b = false) : b ≠ .ParagraphSeparator := by
  intro e; rw [e] at h; simp [special] at h

/-- the paragraphs agree: same text up to canonical equivalence, same level -/
def Same (p q : List Nat) : Prop := nfd p = nfd q ∧ paragraphLevel (p.map clsC) = paragraphLevel (q.map clsC)

structure Inv (s t : List Nat) : Prop where
  paras : List.Forall₂ Same (splitParas clsC s) (splitParas clsC t)
  rtl : s.any (fun c => strongR (clsC c)) = t.any (fun c => strongR (clsC c))
  special : (s.map clsC).filter special = (t.map clsC).filter special

theorem same_refl (p : List Nat) : Same p p := ⟨rfl, rfl⟩
theorem forall₂_trans {A B C : List (List Nat)} (h : List.Forall₂ Same A B) (h' : List.Forall₂ Same B C) : List.Forall₂ Same A C := by
  induction h generalizing C with
  | nil => exact h'
  | cons h1 _ ih =>
    cases h' with
    | cons h2 h3 => exact .cons ⟨h1.1.trans h2.1, h1.2.trans h2.2⟩ (ih h3)
theorem forall₂_refl (A : List (List Nat)) : List.Forall₂ Same A A := by
  induction A with
  | nil => exact .nil
  | cons p A ih => exact .cons (same_refl p) ih
theorem forall₂_symm {A B : List (List Nat)} (h : List.Forall₂ Same A B) : List.Forall₂ Same B A := by
  induction h with
  | nil => exact .nil
  | cons h1 _ ih => exact .cons ⟨h1.1.symm, h1.2.symm⟩ ih

theorem filter_plain {l : List BidiClass} (h : ∀ x ∈ l, special x = false) : l.filter special = [] := by
  rw [List.filter_eq_nil_iff]
  intro x hx
  rw [h x hx]; simp

theorem inv_step {s x y b m : List Nat} (h : Inv s (x ++ b ++ y)) (hal : Alike (b.map clsC) (m.map clsC)) (hn : nfd b = nfd m) : Inv s (x ++ m ++ y) := by
  obtain ⟨A, p, q, B, hs⟩ := split_at clsC y x
  have hb : b ≠ [] := fun e => hal.ne.1 (by rw [e]; rfl)
  have hm : m ≠ [] := fun e => hal.ne.2 (by rw [e]; rfl)
  refine ⟨?_, ?_, ?_⟩
  · refine forall₂_trans h.paras ?_
    rw [hs b hb fun x hx => not_sep (hal.plain _ (List.mem_map_of_mem hx)), hs m hm fun x hx => not_sep (hal.plain' _ (List.mem_map_of_mem hx))]
    refine List.rel_append (List.rel_append (forall₂_refl A) (.cons ⟨?_, ?_⟩ .nil)) (forall₂_refl B)
    · exact nfd_congr (nfd_congr rfl hn) rfl
    · unfold paragraphLevel
      simp only [List.map_append]
      exact level_alike hal _ _ _
  · rw [h.rtl]
    have := hal.rtl
    simp only [List.any_map, Function.comp_def] at this
    simp only [List.any_append, this]
  · rw [h.special]
    simp only [List.map_append, List.filter_append, filter_plain hal.plain, filter_plain hal.plain']

theorem inv_nfd (s : List Nat) : Inv s (nfd s) := by
  refine nfd_preserves (Inv s) ?_ ?_ s ⟨forall₂_refl _, rfl, rfl⟩
  · intro x y c m hm h
    refine inv_step h (alike_mapping hm) ?_
    have := Equivalent.expand (ccc := Ucd.combiningClass) (mapping := mappingWith UcdNormal.canonicalDecomposition) [] [] c m hm
    exact (Props.Normal.c18_equivalent [c] m).1 (by simpa using this)
  · intro x y a b h1 h2 h
    refine inv_step h (alike_swap (by omega) h2) ?_
    have := Equivalent.reorder (ccc := Ucd.combiningClass) (mapping := mappingWith UcdNormal.canonicalDecomposition) (.swap [] [] a b h1 h2)
    exact (Props.Normal.c18_equivalent [a, b] [b, a]).1 (by simpa using this)

theorem inv_equiv {s t : List Nat} (h : nfd s = nfd t) : Inv s t := by
  have a := inv_nfd s
  have b := inv_nfd t
  rw [← h] at b
  exact ⟨forall₂_trans a.paras (forall₂_symm b.paras), a.rtl.trans b.rtl.symm, a.special.trans b.special.symm⟩

end Proofs.BidiEquiv
