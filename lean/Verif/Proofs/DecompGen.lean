import Verif.Model.UcdNormal
import Verif.Proofs.Hangul

/-! The recursive expansion of characters, for arbitrary mapping functions with bounded depth. -/
namespace Proofs.DecompGen
open Model.UcdNormal Model.Hangul Proofs.Hangul

variable (can cm : Nat → Option (List Nat)) (k : Bool)

/-- the mapping applied to a character that is neither ASCII nor a syllable -/
def tableMap (c : Nat) : Option (List Nat) :=
  match can c with
  | some m => some m
  | none => if k then cm c else none

/-- one level of expansion -/
def mapOf (c : Nat) : Option (List Nat) :=
  if c ≤ 0x7f then none else if isSyllable c then some (decomposeSyllable c) else tableMap can cm k c

/-- what the data must satisfy, for a level function -/
structure Levelled (lv : Nat → Nat) : Prop where
  zero : ∀ c, lv c = 0 → tableMap can cm k c = none
  down : ∀ c m, tableMap can cm k c = some m →
    0x7f < c ∧ isSyllable c = false ∧ m ≠ [] ∧ ∀ x ∈ m, isSyllable x = false ∧ x ≠ 0x11A7 ∧ lv x < lv c
  bound : ∀ c, lv c ≤ 3
  jamo : ∀ c, 0x1100 ≤ c → c ≤ 0x11FF → lv c = 0

theorem dWith_succ (fuel c : Nat) : dWith can cm (fuel + 1) k c =
    match mapOf can cm k c with
    | none => some [c]
    | some m => if isSyllable c && decide (0x7f < c) then some m else (m.mapM (dWith can cm fuel k)).map List.flatten := by
  rw [dWith, mapOf, tableMap]
  by_cases h1 : c ≤ 0x7f
  · simp [h1]
  · by_cases h2 : isSyllable c = true
    · have h3 : 0x7f < c := by omega
      rw [if_neg h1, if_pos h2, if_neg h1, if_pos h2]
      simp [h2, h3]
    · rw [if_neg h1, if_neg h2, if_neg h1, if_neg h2]
      simp only [h2, Bool.false_and, Bool.false_eq_true, if_false]
      cases can c with
      | some m => rfl
      | none =>
        cases k with
        | false => rfl
        | true =>
          simp only [Bool.not_true, Bool.false_eq_true, if_false, if_true]
          cases cm c <;> rfl

theorem mapM_some {f : Nat → Option (List Nat)} {g : Nat → List Nat} (m : List Nat) (h : ∀ x ∈ m, f x = some (g x)) :
    m.mapM f = some (m.map g) := by
  induction m with
  | nil => rfl
  | cons a m ih =>
    rw [List.mapM_cons, h a (by simp), ih (fun x hx => h x (by simp [hx]))]
    rfl

variable {can cm k} {lv : Nat → Nat}

/-- the full decomposition -/
def full (can cm : Nat → Option (List Nat)) (k : Bool) (c : Nat) : List Nat := (dWith can cm 4 k c).getD []

theorem syllable_map {c : Nat} (hs : isSyllable c = true) : mapOf can cm k c = some (decomposeSyllable c) := by
  have := (isSyllable_iff c).1 hs
  rw [mapOf, if_neg (by omega), if_pos hs]

theorem mapOf_table (H : Levelled can cm k lv) {c : Nat} (hs : isSyllable c = false) : mapOf can cm k c = tableMap can cm k c := by
  rw [mapOf]
  by_cases h : c ≤ 0x7f
  · rw [if_pos h]
    cases hm : tableMap can cm k c with
    | none => rfl
    | some m => have := (H.down c m hm).1; omega
  · rw [if_neg h]; simp [hs]

/-- the step, given the mapping -/
theorem dWith_syllable {c : Nat} (hs : isSyllable c = true) (fuel : Nat) :
    dWith can cm (fuel + 1) k c = some (decomposeSyllable c) := by
  have := (isSyllable_iff c).1 hs
  have h3 : 0x7f < c := by omega
  rw [dWith_succ, syllable_map hs]
  simp [hs, h3]

theorem exists_full (H : Levelled can cm k lv) : ∀ (n c : Nat), lv c ≤ n → ∃ out, ∀ fuel, n < fuel → dWith can cm fuel k c = some out := by
  intro n
  induction n with
  | zero =>
    intro c hc
    by_cases hs : isSyllable c = true
    · exact ⟨_, fun fuel hf => by obtain ⟨f, rfl⟩ : ∃ f, fuel = f + 1 := ⟨fuel - 1, by omega⟩; exact dWith_syllable hs f⟩
    · have hs : isSyllable c = false := by simpa using hs
      refine ⟨[c], fun fuel hf => ?_⟩
      obtain ⟨f, rfl⟩ : ∃ f, fuel = f + 1 := ⟨fuel - 1, by omega⟩
      rw [dWith_succ, mapOf_table H hs, H.zero c (by omega)]
  | succ n ih =>
    intro c hc
    by_cases hs : isSyllable c = true
    · exact ⟨_, fun fuel hf => by obtain ⟨f, rfl⟩ : ∃ f, fuel = f + 1 := ⟨fuel - 1, by omega⟩; exact dWith_syllable hs f⟩
    · have hs : isSyllable c = false := by simpa using hs
      cases hm : tableMap can cm k c with
      | none =>
        refine ⟨[c], fun fuel hf => ?_⟩
        obtain ⟨f, rfl⟩ : ∃ f, fuel = f + 1 := ⟨fuel - 1, by omega⟩
        rw [dWith_succ, mapOf_table H hs, hm]
      | some m =>
        have hd := H.down c m hm
        have hex : ∀ x, ∃ out, x ∈ m → ∀ fuel, n < fuel → dWith can cm fuel k x = some out := by
          intro x
          by_cases hx : x ∈ m
          · have := (hd.2.2.2 x hx).2.2
            obtain ⟨o, ho⟩ := ih x (by omega)
            exact ⟨o, fun _ => ho⟩
          · exact ⟨[], fun h => absurd h hx⟩
        refine ⟨(m.map fun x => (hex x).choose).flatten, fun fuel hf => ?_⟩
        obtain ⟨f, rfl⟩ : ∃ f, fuel = f + 1 := ⟨fuel - 1, by omega⟩
        rw [dWith_succ, mapOf_table H hs, hm]
        simp only [hs, Bool.false_and, Bool.false_eq_true, if_false]
        rw [mapM_some m (g := fun x => (hex x).choose) (fun x hx => (hex x).choose_spec hx f (by omega))]
        rfl

theorem dWith_full (H : Levelled can cm k lv) (c fuel : Nat) (hf : lv c < fuel) : dWith can cm fuel k c = some (full can cm k c) := by
  obtain ⟨o, ho⟩ := exists_full H (lv c) c (Nat.le_refl _)
  rw [full, ho 4 (by have := H.bound c; omega), ho fuel hf]
  rfl

theorem full_syllable {c : Nat} (hs : isSyllable c = true) : full can cm k c = decomposeSyllable c := by
  rw [full, dWith_syllable hs 3, Option.getD_some]

theorem full_none {c : Nat} (h : mapOf can cm k c = none) : full can cm k c = [c] := by
  rw [full, dWith_succ, h]; rfl

theorem full_table (H : Levelled can cm k lv) {c : Nat} {m : List Nat} (h : tableMap can cm k c = some m) :
    full can cm k c = m.flatMap (full can cm k) := by
  have hd := H.down c m h
  have h1 := H.bound c
  have : dWith can cm 4 k c = some (m.flatMap (full can cm k)) := by
    rw [dWith_succ, mapOf_table H hd.2.1, h]
    simp only [hd.2.1, Bool.false_and, Bool.false_eq_true, if_false]
    rw [mapM_some m (g := full can cm k)]
    · simp [List.flatMap_def]
    · intro x hx
      exact dWith_full H x 3 (by have := (hd.2.2.2 x hx).2.2; omega)
  rw [full, this]; rfl

theorem full_none' (H : Levelled can cm k lv) {c : Nat} (hs : isSyllable c = false) (h : tableMap can cm k c = none) :
    full can cm k c = [c] := full_none (by rw [mapOf_table H hs, h])

/-- induction over levels -/
theorem level_induction (H : Levelled can cm k lv) (P : Nat → Prop)
    (hsyl : ∀ c, isSyllable c = true → P c)
    (hleaf : ∀ c, isSyllable c = false → tableMap can cm k c = none → P c)
    (hnode : ∀ c m, isSyllable c = false → tableMap can cm k c = some m → (∀ x ∈ m, P x) → P c) : ∀ c, P c := by
  intro c
  have : ∀ n c, lv c ≤ n → P c := by
    intro n
    induction n with
    | zero =>
      intro c hc
      by_cases hs : isSyllable c = true
      · exact hsyl c hs
      · exact hleaf c (by simpa using hs) (H.zero c (by omega))
    | succ n ih =>
      intro c hc
      by_cases hs : isSyllable c = true
      · exact hsyl c hs
      · cases hm : tableMap can cm k c with
        | none => exact hleaf c (by simpa using hs) hm
        | some m =>
          exact hnode c m (by simpa using hs) hm fun x hx => ih x (by have := ((H.down c m hm).2.2.2 x hx).2.2; omega)
  exact this _ c (Nat.le_refl _)

theorem jamo_not_syllable {x : Nat} (h1 : x ≤ 0x11FF) : isSyllable x = false := by
  cases h : isSyllable x with
  | false => rfl
  | true => have := (isSyllable_iff x).1 h; omega

theorem full_jamo (H : Levelled can cm k lv) {x : Nat} (h1 : 0x1100 ≤ x) (h2 : x ≤ 0x11FF) : full can cm k x = [x] :=
  full_none' H (jamo_not_syllable h2) (H.zero x (H.jamo x h1 h2))

theorem decomposeSyllable_jamo {c : Nat} (hs : isSyllable c = true) : ∀ x ∈ decomposeSyllable c, 0x1100 ≤ x ∧ x ≤ 0x11FF ∧ x ≠ 0x11A7 := by
  have := (isSyllable_iff c).1 hs
  intro x hx
  rw [decomposeSyllable_def] at hx
  split at hx <;> simp only [List.mem_cons, List.not_mem_nil, or_false] at hx <;> omega

theorem decomposeSyllable_ne {c : Nat} : decomposeSyllable c ≠ [] := by
  rw [decomposeSyllable_def]; split <;> simp

theorem full_ne (H : Levelled can cm k lv) : ∀ c, full can cm k c ≠ [] := by
  refine level_induction H _ (fun c hs => ?_) (fun c hs hm => ?_) (fun c m hs hm ih => ?_)
  · rw [full_syllable hs]; exact decomposeSyllable_ne
  · rw [full_none' H hs hm]; simp
  · rw [full_table H hm]
    have := (H.down c m hm).2.2.1
    cases m with
    | nil => exact absurd rfl this
    | cons a m => simp [ih a (by simp)]

theorem full_irr (H : Levelled can cm k lv) : ∀ c, ∀ x ∈ full can cm k c, full can cm k x = [x] := by
  refine level_induction H _ (fun c hs => ?_) (fun c hs hm => ?_) (fun c m hs hm ih => ?_)
  · rw [full_syllable hs]
    intro x hx
    have := decomposeSyllable_jamo hs x hx
    exact full_jamo H this.1 this.2.1
  · rw [full_none' H hs hm]
    intro x hx
    rw [List.mem_singleton] at hx
    subst hx
    exact full_none' H hs hm
  · rw [full_table H hm]
    intro x hx
    obtain ⟨y, hy, hx⟩ := List.mem_flatMap.1 hx
    exact ih y hy x hx

/-- an emitted character has no mapping -/
theorem full_mapOf (H : Levelled can cm k lv) : ∀ c, ∀ x ∈ full can cm k c, isSyllable x = false ∧ tableMap can cm k x = none := by
  refine level_induction H _ (fun c hs => ?_) (fun c hs hm => ?_) (fun c m hs hm ih => ?_)
  · rw [full_syllable hs]
    intro x hx
    have := decomposeSyllable_jamo hs x hx
    exact ⟨jamo_not_syllable this.2.1, H.zero x (H.jamo x this.1 this.2.1)⟩
  · rw [full_none' H hs hm]
    intro x hx
    rw [List.mem_singleton] at hx
    subst hx
    exact ⟨hs, hm⟩
  · rw [full_table H hm]
    intro x hx
    obtain ⟨y, hy, hx⟩ := List.mem_flatMap.1 hx
    exact ih y hy x hx

theorem full_11a7 (H : Levelled can cm k lv) : ∀ c, 0x11A7 ∈ full can cm k c → c = 0x11A7 := by
  refine level_induction H _ (fun c hs => ?_) (fun c hs hm => ?_) (fun c m hs hm ih => ?_)
  · rw [full_syllable hs]
    intro hx
    exact absurd rfl (decomposeSyllable_jamo hs _ hx).2.2
  · rw [full_none' H hs hm]; simp [eq_comm]
  · rw [full_table H hm]
    intro hx
    obtain ⟨y, hy, hx⟩ := List.mem_flatMap.1 hx
    exact absurd (ih y hy hx) ((H.down c m hm).2.2.2 y hy).2.1

/-- combining classes are uniform on the decomposition of a non-starter -/
theorem full_ccc (H : Levelled can cm k lv) (ccc : Nat → Nat)
    (hsyl : ∀ c, isSyllable c = true → ccc c = 0)
    (hnode : ∀ c m, tableMap can cm k c = some m → ccc c ≠ 0 → ∀ x ∈ m, ccc x = ccc c) :
    ∀ c, ccc c ≠ 0 → ∀ x ∈ full can cm k c, ccc x = ccc c := by
  refine level_induction H _ (fun c hs h => absurd (hsyl c hs) h) (fun c hs hm => ?_) (fun c m hs hm ih => ?_)
  · rw [full_none' H hs hm]
    intro _ x hx
    rw [List.mem_singleton.1 hx]
  · rw [full_table H hm]
    intro hc x hx
    obtain ⟨y, hy, hx⟩ := List.mem_flatMap.1 hx
    have h1 := hnode c m hm hc y hy
    rw [ih y hy (by omega) x hx, h1]

/-- decomposing canonically first changes nothing -/
theorem full_absorb {lv' : Nat → Nat} (H : Levelled can cm false lv) (H' : Levelled can cm true lv') :
    ∀ c, (full can cm false c).flatMap (full can cm true) = full can cm true c := by
  have hjamo : ∀ l : List Nat, (∀ x ∈ l, 0x1100 ≤ x ∧ x ≤ 0x11FF) → l.flatMap (full can cm true) = l := by
    intro l
    induction l with
    | nil => simp
    | cons a l ih =>
      intro h
      have := h a (by simp)
      rw [List.flatMap_cons, full_jamo H' this.1 this.2, ih (fun x hx => h x (by simp [hx]))]
      rfl
  refine level_induction H _ (fun c hs => ?_) (fun c hs hm => ?_) (fun c m hs hm ih => ?_)
  · rw [full_syllable hs, full_syllable hs]
    exact hjamo _ fun x hx => ⟨(decomposeSyllable_jamo hs x hx).1, (decomposeSyllable_jamo hs x hx).2.1⟩
  · rw [full_none' H hs hm]; simp
  · have hm' : tableMap can cm true c = some m := by
      revert hm
      simp only [tableMap]
      cases can c <;> simp
    rw [full_table H hm, full_table H' hm', List.flatMap_assoc]
    clear hm hm'
    induction m with
    | nil => rfl
    | cons a m ihm =>
      rw [List.flatMap_cons, List.flatMap_cons, ih a (by simp), ihm (fun x hx => ih x (by simp [hx]))]

theorem irr_mono {lv' : Nat → Nat} (H : Levelled can cm false lv) (H' : Levelled can cm true lv') {x : Nat}
    (h : full can cm true x = [x]) : full can cm false x = [x] := by
  have h1 : isSyllable x = false := by
    cases hs : isSyllable x with
    | false => rfl
    | true =>
      exfalso
      rw [full_syllable hs] at h
      have := decomposeSyllable_jamo hs x (by rw [h]; simp)
      have := (isSyllable_iff x).1 hs
      omega
  have h2 := (full_mapOf H' x x (by rw [h]; simp)).2
  refine full_none' H h1 ?_
  revert h2
  simp only [tableMap]
  cases can x <;> simp

end Proofs.DecompGen
