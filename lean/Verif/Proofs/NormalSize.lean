import Verif.Proofs.NormalGood
import Verif.Props.Normal
import Verif.Model.Utf

/-! How much decomposition can grow a text: weights of full decompositions, checked over the whole tables. -/
namespace Proofs.NormalSize
open Model Model.UcdNormal Model.Hangul Proofs.DecompGen Proofs.DecompData Proofs.CompData Proofs.NormalAlg Proofs.NormalGood Proofs.Hangul
open Spec.Normal Proofs.CanonOrder Proofs.Chunked

/-- total weight -/
def total (w : Nat → Nat) (s : List Nat) : Nat := (s.map w).sum

theorem total_nil (w : Nat → Nat) : total w [] = 0 := rfl
theorem total_cons (w : Nat → Nat) (a : Nat) (s : List Nat) : total w (a :: s) = w a + total w s := by simp [total]
theorem total_append (w : Nat → Nat) (s t : List Nat) : total w (s ++ t) = total w s + total w t := by simp [total]

/-- mapping by kernel-friendly lookups -/
def mapC (k : Bool) (c : Nat) : Option (List Nat) :=
  match canonC c with
  | some m => some m
  | none => if k then compatC c else none

theorem mapC_eq (k : Bool) (c : Nat) : tableMap canonicalDecomposition compatibilityDecomposition k c = mapC k c := by
  rw [tableMap, canonicalDecomposition_eq, compatibilityDecomposition_eq, mapC]
  cases canonC c <;> rfl

/-- weight of the full decomposition, by levels -/
def size (w : Nat → Nat) (k : Bool) : Nat → Nat → Nat
  | 0, c => w c
  | f + 1, c => if Nat.beq (lv k c) 0 then w c else match mapC k c with
    | none => w c
    | some m => m.foldr (fun x n => size w k f x + n) 0

theorem foldr_size (g : Nat → Nat) (m : List Nat) : m.foldr (fun x n => g x + n) 0 = (m.map g).sum := by
  induction m with
  | nil => rfl
  | cons a m ih => rw [List.foldr_cons, ih, List.map_cons, List.sum_cons]

theorem total_flatMap (w : Nat → Nat) (f : Nat → List Nat) (m : List Nat) : total w (m.flatMap f) = (m.map fun x => total w (f x)).sum := by
  induction m with
  | nil => rfl
  | cons a m ih => rw [List.flatMap_cons, total_append, ih, List.map_cons, List.sum_cons]

theorem size_eq (w : Nat → Nat) (k : Bool) : ∀ (f c : Nat), isSyllable c = false → lv k c ≤ f → size w k f c = total w (D k c) := by
  intro f
  induction f with
  | zero =>
    intro c hs h
    rw [D, full_none' (levelled k) hs ((levelled k).zero c (by omega)), size]
    simp [total]
  | succ f ih =>
    intro c hs h
    rw [size]
    split
    · rename_i h0
      rw [D, full_none' (levelled k) hs ((levelled k).zero c (Nat.eq_of_beq_eq_true h0))]
      simp [total]
    · cases hm : mapC k c with
      | none =>
        rw [D, full_none' (levelled k) hs (by rw [mapC_eq, hm])]
        simp [total]
      | some m =>
        rw [← mapC_eq] at hm
        have hd := (levelled k).down c m hm
        simp only
        rw [foldr_size, D, full_table (levelled k) hm, total_flatMap]
        refine congrArg List.sum (List.map_congr_left fun x hx => ?_)
        have := hd.2.2.2 x hx
        exact ih x this.1 (by omega)

/-- the check of an entry: the weight of the full decomposition of the mapping is at most `r` times that of the character -/
def chkW (w : Nat → Nat) (k : Bool) (r c : Nat) (m : List Nat) : Bool :=
  Nat.ble (m.foldr (fun x n => size w k 3 x + n) 0) (r * w c)

theorem one_false : allEntries (chkW (fun _ => 1) false 4) Data.canonicalDecomposition = true := by decide +kernel
theorem one_true : allEntries (chkW (fun _ => 1) true 18) Data.canonicalDecomposition = true := by decide +kernel
theorem one_compat : allEntries (fun c m => chkW (fun _ => 1) true 18 c m.2) Data.compatibilityDecomposition = true := by decide +kernel
theorem utf8_false : allEntries (chkW Utf.lenUtf8 false 3) Data.canonicalDecomposition = true := by decide +kernel
theorem utf8_true : allEntries (chkW Utf.lenUtf8 true 11) Data.canonicalDecomposition = true := by decide +kernel
theorem utf8_compat : allEntries (fun c m => chkW Utf.lenUtf8 true 11 c m.2) Data.compatibilityDecomposition = true := by decide +kernel

theorem tableMap_size (w : Nat → Nat) (k : Bool) (r : Nat) (h1 : allEntries (chkW w k r) Data.canonicalDecomposition = true)
    (h2 : k = true → allEntries (fun c m => chkW w k r c m.2) Data.compatibilityDecomposition = true) {c : Nat} {m : List Nat}
    (h : tableMap canonicalDecomposition compatibilityDecomposition k c = some m) : chkW w k r c m = true := by
  rw [tableMap, canonicalDecomposition_eq, compatibilityDecomposition_eq, canonC, compatC] at h
  cases hc : lookupCD Data.canonicalDecomposition c with
  | some m' =>
    rw [hc] at h
    simp only [Option.some.injEq] at h
    subst h
    exact allEntries_spec h1 (lookupCD_mem hc)
  | none =>
    rw [hc] at h
    cases k with
    | false => simp at h
    | true =>
      cases hd : lookupCD Data.compatibilityDecomposition c with
      | none => rw [hd] at h; simp at h
      | some m' =>
        rw [hd] at h
        simp only [if_true, Option.map_some, Option.some.injEq] at h
        subst h
        exact allEntries_spec (h2 rfl) (lookupCD_mem hd)

theorem D_size (w : Nat → Nat) (k : Bool) (r : Nat) (hr : 1 ≤ r) (h1 : allEntries (chkW w k r) Data.canonicalDecomposition = true)
    (h2 : k = true → allEntries (fun c m => chkW w k r c m.2) Data.compatibilityDecomposition = true)
    (hj : ∀ c, isSyllable c = true → total w (decomposeSyllable c) ≤ r * w c) (c : Nat) : total w (D k c) ≤ r * w c := by
  cases hs : isSyllable c with
  | true => rw [D, full_syllable hs]; exact hj c hs
  | false =>
    cases hm : tableMap canonicalDecomposition compatibilityDecomposition k c with
    | none =>
      rw [D, full_none' (levelled k) hs hm]
      simp only [total, List.map_cons, List.map_nil, List.sum_cons, List.sum_nil, Nat.add_zero]
      exact Nat.le_mul_of_pos_left _ hr
    | some m =>
      have h := tableMap_size w k r h1 h2 hm
      rw [chkW, Nat.ble_eq, foldr_size] at h
      have hd := (levelled k).down c m hm
      rw [D, full_table (levelled k) hm, total_flatMap]
      refine Nat.le_trans (Nat.le_of_eq ?_) h
      refine congrArg List.sum (List.map_congr_left fun x hx => ?_)
      have := hd.2.2.2 x hx
      have := lv_le k c
      exact (size_eq w k 3 x (hd.2.2.2 x hx).1 (by omega)).symm

theorem total_perm (w : Nat → Nat) {s t : List Nat} (h : s.Perm t) : total w s = total w t := by
  induction h with
  | nil => rfl
  | cons a _ ih => rw [total_cons, total_cons, ih]
  | swap a b l => simp only [total_cons]; omega
  | trans _ _ ih1 ih2 => rw [ih1, ih2]

theorem total_flatMap_le (w : Nat → Nat) (f : Nat → List Nat) (r : Nat) (h : ∀ c, total w (f c) ≤ r * w c) (s : List Nat) :
    total w (s.flatMap f) ≤ r * total w s := by
  induction s with
  | nil => simp [total]
  | cons a s ih => rw [List.flatMap_cons, total_append, total_cons, Nat.mul_add]; exact Nat.add_le_add (h a) ih

/-- composition does not make a text heavier, if it makes no pair heavier -/
theorem walk_total (w : Nat → Nat) {ccc : Nat → Nat} {comp : Nat → Nat → Option Nat} (hc : ∀ a b c, comp a b = some c → w c ≤ w a + w b) :
    ∀ (s : List Nat) (x : Walk), total w (s.foldl (walkStep ccc comp) x).text ≤ total w x.text + total w s := by
  intro s
  induction s with
  | nil => intro x; simp [total_nil]
  | cons a s ih =>
    intro x
    rw [List.foldl_cons, total_cons]
    refine Nat.le_trans (ih _) ?_
    have : total w (walkStep ccc comp x a).text ≤ total w x.text + w a := by
      obtain ⟨bef, st, aft⟩ := x
      unfold walkStep
      cases st with
      | none =>
        simp only
        split <;> simp only [Walk.text, total_append, total_cons, total_nil, List.append_nil] <;> omega
      | some l =>
        simp only
        have hret : total w (if ccc a = 0 then (⟨Walk.text ⟨bef, some l, aft⟩, some a, []⟩ : Walk) else ⟨bef, some l, aft ++ [a]⟩).text ≤
            total w (Walk.text ⟨bef, some l, aft⟩) + w a := by
          split <;> simp only [Walk.text, total_append, total_cons, total_nil, List.append_nil] <;> omega
        split
        · exact hret
        · split
          · rename_i p hp
            have := hc l a p hp
            simp only [Walk.text, total_append, total_cons, total_nil]
            omega
          · exact hret
    omega

theorem composed_total (w : Nat → Nat) {ccc : Nat → Nat} {comp : Nat → Nat → Option Nat} (hc : ∀ a b c, comp a b = some c → w c ≤ w a + w b)
    (s : List Nat) : total w (composed ccc comp s) ≤ total w s := by
  have := walk_total w (ccc := ccc) hc s ⟨[], none, []⟩
  simp only [Walk.text, List.append_nil, total_nil, Nat.zero_add] at this
  exact this

/-- no composite is longer in UTF-8 than the pair -/
def chkC (a : Nat) (l : List (Nat × Nat)) : Bool := l.all fun e => Nat.ble (Utf.lenUtf8 e.2) (Utf.lenUtf8 a + Utf.lenUtf8 e.1)
theorem comp_chk : allEntries chkC Data.canonicalComposition = true := by decide +kernel

theorem compose_utf8 (a b c : Nat) (h : compose a b = some c) : Utf.lenUtf8 c ≤ Utf.lenUtf8 a + Utf.lenUtf8 b := by
  have h3 : ∀ x, 0x800 ≤ x → x < 0x10000 → Utf.lenUtf8 x = 3 := by
    intro x h1 h2
    rw [Utf.lenUtf8, if_neg (by omega), if_neg (by omega), if_pos h2]
  rcases compose_cases h with ⟨⟨h1, h2⟩, ⟨h4, h5⟩, hc⟩ | ⟨⟨h6, h4, _⟩, h1, h2, hc⟩ | h
  · rw [h3 a (by omega) (by omega), h3 c (by omega) (by omega)]; omega
  · rw [h3 a (by omega) (by omega), h3 c (by omega) (by omega)]; omega
  · rw [compC] at h
    cases hl : lookupCD Data.canonicalComposition a with
    | none => rw [hl] at h; simp at h
    | some l =>
      rw [hl, Option.bind_some] at h
      have := List.all_eq_true.1 (allEntries_spec comp_chk (lookupCD_mem hl)) _ (lookupD_mem h)
      exact Nat.le_of_ble_eq_true this

theorem syllable_one (c : Nat) : (decomposeSyllable c).length ≤ 3 := by
  rw [decomposeSyllable_def]; split <;> simp

theorem syllable_utf8 (c : Nat) (hs : isSyllable c = true) : total Utf.lenUtf8 (decomposeSyllable c) ≤ 3 * Utf.lenUtf8 c := by
  have h3 : ∀ x, 0x800 ≤ x → x < 0x10000 → Utf.lenUtf8 x = 3 := by
    intro x h1 h2
    rw [Utf.lenUtf8, if_neg (by omega), if_neg (by omega), if_pos h2]
  have hc := (isSyllable_iff c).1 hs
  have hm : ∀ l : List Nat, (∀ x ∈ l, Utf.lenUtf8 x = 3) → total Utf.lenUtf8 l = 3 * l.length := by
    intro l
    induction l with
    | nil => intro _; rfl
    | cons a l ih =>
      intro h
      rw [total_cons, h a (by simp), ih (fun x hx => h x (by simp [hx])), List.length_cons]; omega
  rw [hm _ (fun x hx => by have := decomposeSyllable_jamo hs x hx; exact h3 x (by omega) (by omega)), h3 c (by omega) (by omega)]
  have := syllable_one c
  omega

theorem total_one (s : List Nat) : total (fun _ => 1) s = s.length := by
  induction s with
  | nil => rfl
  | cons a s ih => rw [total_cons, ih, List.length_cons]; omega

theorem D_one (k : Bool) (c : Nat) : (D k c).length ≤ if k then 18 else 4 := by
  rw [← total_one]
  cases k with
  | false => exact D_size (fun _ => 1) false 4 (by decide) one_false (by simp) (fun c _ => by rw [total_one]; have := syllable_one c; omega) c
  | true =>
    exact D_size (fun _ => 1) true 18 (by decide) one_true (fun _ => one_compat) (fun c _ => by rw [total_one]; have := syllable_one c; omega) c

theorem D_utf8 (k : Bool) (c : Nat) : total Utf.lenUtf8 (D k c) ≤ (if k then 11 else 3) * Utf.lenUtf8 c := by
  cases k with
  | false => exact D_size _ false 3 (by decide) utf8_false (by simp) syllable_utf8 c
  | true =>
    exact D_size _ true 11 (by decide) utf8_true (fun _ => utf8_compat) (fun c hs => Nat.le_trans (syllable_utf8 c hs) (Nat.mul_le_mul_right _ (by decide))) c

end Proofs.NormalSize
