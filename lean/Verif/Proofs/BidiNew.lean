import Verif.Proofs.BidiImplicit

/-! # `BidiInfo::new`, one entry per character -/
namespace Proofs.Bidi
open Model Model.Bidi Data Proofs.Punycode Model.Grapheme Proofs.Grapheme Spec.Bidi

theorem initialClasses_length : ∀ cs : List BidiClass, (initialClasses cs).length = cs.length
  | [] => rfl
  | c :: cs => by simp [initialClasses, initialClasses_length cs]

theorem isolateStrong_append {b : List BidiClass} : ∀ (a : List BidiClass) (d : Nat), BidiClass.ParagraphSeparator ∈ a → isolateStrong d (a ++ b) = isolateStrong d a
  | [], _, h => by simp at h
  | c :: a, d, h => by
    rw [List.cons_append]
    simp only [isolateStrong]
    by_cases hc : c = .ParagraphSeparator
    · subst hc; simp [isInitiator]
    · have ha : BidiClass.ParagraphSeparator ∈ a := by
        rcases List.mem_cons.1 h with e | e
        · exact absurd e.symm hc
        · exact e
      simp only [isolateStrong_append a _ ha]

theorem initialClasses_append {b : List BidiClass} : ∀ (a : List BidiClass), (b = [] ∨ ∃ c, a.getLast? = some c ∧ c = BidiClass.ParagraphSeparator) →
    initialClasses (a ++ b) = initialClasses a ++ initialClasses b
  | [], _ => rfl
  | c :: a, h => by
    rcases h with rfl | h
    · simp [initialClasses]
    · obtain ⟨x, hx, rfl⟩ := h
      rw [List.cons_append, initialClasses, initialClasses]
      cases a with
      | nil =>
        simp at hx; subst hx
        simp [resolveFsi, initialClasses]
      | cons a0 a =>
        have hx' : (a0 :: a).getLast? = some BidiClass.ParagraphSeparator := by rw [List.getLast?_cons_cons] at hx; exact hx
        rw [initialClasses_append (a0 :: a) (Or.inr ⟨_, hx', rfl⟩)]
        unfold resolveFsi
        rw [isolateStrong_append _ _ (List.mem_of_getLast? hx')]
        rfl

theorem initialClasses_get {cs : List BidiClass} : ∀ {i : Nat} {c : BidiClass}, (initialClasses cs)[i]? = some c →
    c ∈ cs ∨ c = .LeftToRightIsolate ∨ c = .RightToLeftIsolate := by
  induction cs with
  | nil => intro i c h; simp [initialClasses] at h
  | cons a cs ih =>
    intro i c h
    cases i with
    | zero =>
      simp [initialClasses] at h
      unfold resolveFsi at h
      split_ifs at h with h1
      · split at h <;> subst h <;> simp [h1]
      · subst h; simp
    | succ i =>
      rw [initialClasses, List.getElem?_cons_succ] at h
      rcases ih h with h | h
      · exact Or.inl (by simp [h])
      · exact Or.inr h

theorem resolveFsi_sep {c : BidiClass} {r : List BidiClass} : resolveFsi c r = .ParagraphSeparator ↔ c = .ParagraphSeparator := by
  unfold resolveFsi
  split_ifs with h
  · subst h; split <;> simp
  · rfl

theorem initialClasses_dropLast : ∀ {cs : List BidiClass}, (∀ c ∈ cs.dropLast, c ≠ .ParagraphSeparator) → ∀ c ∈ (initialClasses cs).dropLast, c ≠ .ParagraphSeparator
  | [], _ => by simp [initialClasses]
  | [a], _ => by simp [initialClasses]
  | a :: b :: cs, h => by
    intro c hc
    have e : initialClasses (a :: b :: cs) = resolveFsi a (b :: cs) :: resolveFsi b cs :: initialClasses cs := rfl
    rw [e, List.dropLast_cons_cons] at hc
    rw [List.dropLast_cons_cons] at h
    rcases List.mem_cons.1 hc with rfl | hc
    · intro e'; exact h a (by simp) (resolveFsi_sep.1 e')
    · exact initialClasses_dropLast (cs := b :: cs) (fun x hx => h x (by simp [hx])) c hc

/-- the levels of a paragraph as characters -/
def paraLevels (cls : Nat → BC) (dflt : Option Nat) (p : List Nat) : List Nat :=
  levelsC p (dflt.getD (paragraphLevel (p.map cls))) (initialClasses (p.map cls))

theorem paragraphLevel_le (cs : List BidiClass) : paragraphLevel cs ≤ 1 := by
  unfold paragraphLevel levelOfStrong; split <;> omega

theorem dflt_le {dflt : Option Nat} (hd : ∀ d, dflt = some d → d ≤ 125) (cs : List BidiClass) : dflt.getD (paragraphLevel cs) ≤ 125 := by
  cases dflt with
  | none => exact le_trans (paragraphLevel_le cs) (by omega)
  | some d => exact hd d rfl

theorem map_dropLast' {cls : Nat → BC} {p : List Nat} (h : ∀ c ∈ p.dropLast, cls c ≠ .ParagraphSeparator) : ∀ c ∈ (p.map cls).dropLast, c ≠ .ParagraphSeparator := by
  intro c hc
  rw [← List.map_dropLast] at hc
  obtain ⟨x, hx, rfl⟩ := List.mem_map.1 hc
  exact h x hx

theorem paraLevels_length {cls : Nat → BC} {dflt : Option Nat} (hd : ∀ d, dflt = some d → d ≤ 125) {p : List Nat} (h : ∀ c ∈ p.dropLast, cls c ≠ .ParagraphSeparator) :
    (paraLevels cls dflt p).length = p.length := by
  unfold paraLevels
  rw [levelsC_length (by have := dflt_le hd (p.map cls); omega) (initialClasses_dropLast (map_dropLast' h)), initialClasses_length, List.length_map]

theorem paragraphsLoop_ok {cls : Nat → BC} {dflt : Option Nat} (hd : ∀ d, dflt = some d → d ≤ 125) : ∀ (ps : List (List Nat)) (done : List Nat) (Cd : List BC) (levels : List Nat),
    Cd.length = done.length → levels.length = blen done → (∀ p ∈ ps, p ≠ [] ∧ ∀ c ∈ p.dropLast, cls c ≠ .ParagraphSeparator) →
    (∀ p ∈ ps.dropLast, ∃ c, p.getLast? = some c ∧ cls c = .ParagraphSeparator) →
    paragraphsLoop (done ++ ps.flatten) (expand (done ++ ps.flatten) (Cd ++ initialClasses (ps.flatten.map cls))) (paragraphInfos cls dflt (blen done) ps) levels =
      .ok (levels ++ expand ps.flatten (ps.flatMap (paraLevels cls dflt)))
  | [], done, Cd, levels, _, _, _, _ => by simp [paragraphInfos, paragraphsLoop]
  | p :: ps, done, Cd, levels, h1, h2, h3, h4 => by
    obtain ⟨hp0, hp⟩ := h3 p (by simp)
    have hcond : (ps.flatten.map cls) = [] ∨ ∃ c, (p.map cls).getLast? = some c ∧ c = BidiClass.ParagraphSeparator := by
      cases ps with
      | nil => left; rfl
      | cons q qs =>
        right
        obtain ⟨c, hc, hb⟩ := h4 p (by rw [List.dropLast_cons_cons]; simp)
        exact ⟨cls c, by rw [List.getLast?_map, hc]; rfl, hb⟩
    have hI : initialClasses ((p :: ps).flatten.map cls) = initialClasses (p.map cls) ++ initialClasses (ps.flatten.map cls) := by
      rw [List.flatten_cons, List.map_append, initialClasses_append _ hcond]
    have hpl := dflt_le hd (p.map cls)
    have hl : (initialClasses (p.map cls)).length = p.length := by rw [initialClasses_length, List.length_map]
    rw [paragraphInfos, paragraphsLoop]
    simp only
    rw [if_pos h2.symm]
    have hslice : slice (done ++ (p :: ps).flatten) (blen done) (blen done + blen p) = .ok p := by
      have := slice_append done p ps.flatten
      rw [blen_append] at this
      rw [← this, List.flatten_cons, List.append_assoc]
    have hX : expand (done ++ (p :: ps).flatten) (Cd ++ initialClasses ((p :: ps).flatten.map cls)) =
        expand done Cd ++ (expand p (initialClasses (p.map cls)) ++ expand ps.flatten (initialClasses (ps.flatten.map cls))) := by
      rw [hI, List.flatten_cons, expand_append _ _ _ _ h1, expand_append _ _ _ _ hl]
    have hsub : sub (expand (done ++ (p :: ps).flatten) (Cd ++ initialClasses ((p :: ps).flatten.map cls))) (blen done) (blen done + blen p) =
        .ok (expand p (initialClasses (p.map cls))) := by
      rw [hX, sub_ok (by omega) (by simp only [List.length_append, expand_length _ _ h1, expand_length _ _ hl]; omega)]
      congr 1
      have e1 : (expand done Cd).length = blen done := expand_length _ _ h1
      have e2 : (expand p (initialClasses (p.map cls))).length = blen p := expand_length _ _ hl
      rw [List.drop_left' e1, Nat.add_sub_cancel_left, List.take_left' e2]
    have hpar := paragraph_expand (text := done ++ (p :: ps).flatten) (para := ⟨⟨blen done, blen done + blen p⟩, dflt.getD (paragraphLevel (p.map cls))⟩)
      hpl hl (initialClasses_dropLast (map_dropLast' hp)) hslice hsub (by simp)
    rw [hpar, bind_ok]
    have hlen := paraLevels_length hd hp
    have ih := paragraphsLoop_ok hd ps (done ++ p) (Cd ++ initialClasses (p.map cls)) (levels ++ expand p (paraLevels cls dflt p))
      (by simp [h1, hl]) (by rw [List.length_append, blen_append, expand_length _ _ hlen, h2])
      (fun q hq => h3 q (by simp [hq])) (by
        intro q hq
        cases ps with
        | nil => simp at hq
        | cons r rs => exact h4 q (by rw [List.dropLast_cons_cons]; simp [hq]))
    rw [blen_append] at ih
    simp only [List.append_assoc] at ih
    rw [hI, List.flatten_cons]
    refine Eq.trans ih ?_
    rw [List.flatMap_cons, expand_append _ _ _ _ hlen]

/-- the levels of all characters -/
def textLevels (cls : Nat → BC) (dflt : Option Nat) (text : List Nat) : List Nat := (splitParas cls text).flatMap (paraLevels cls dflt)

theorem textLevels_length {cls : Nat → BC} {dflt : Option Nat} (hd : ∀ d, dflt = some d → d ≤ 125) (text : List Nat) : (textLevels cls dflt text).length = text.length := by
  obtain ⟨h1, h2, _⟩ := splitParas_ok cls text
  have : ∀ ps : List (List Nat), (∀ p ∈ ps, ∀ c ∈ p.dropLast, cls c ≠ .ParagraphSeparator) → (ps.flatMap (paraLevels cls dflt)).length = ps.flatten.length := by
    intro ps
    induction ps with
    | nil => simp
    | cons p ps ih =>
      intro h
      rw [List.flatMap_cons, List.length_append, paraLevels_length hd (h p (by simp)), ih (fun q hq => h q (by simp [hq]))]
      simp
  rw [textLevels, this _ (fun p hp => (h2 p hp).2), h1]

theorem new_ok {cls : Nat → BC} (hF : ∀ c, cls c = .FirstStrongIsolate → Utf.lenUtf8 c = 3) {dflt : Option Nat} (hd : ∀ d, dflt = some d → d ≤ 125) (text : List Nat) :
    BidiInfo.new cls text dflt = .ok ⟨text, expand text (initialClasses (text.map cls)), expand text (textLevels cls dflt text),
      paragraphInfos cls dflt 0 (splitParas cls text)⟩ := by
  obtain ⟨h1, h2, h3⟩ := splitParas_ok cls text
  have := paragraphsLoop_ok hd (splitParas cls text) [] [] [] rfl rfl h2 h3
  rw [h1] at this
  simp only [List.nil_append] at this
  unfold BidiInfo.new
  rw [initialInfo_ok hF, bind_ok]
  simp only
  rw [show blen [] = 0 from rfl] at this
  rw [this]
  rfl

/-! ## the levels are at most 126 -/

theorem assignC_le {n : Nat} : ∀ (cs : List BC) (ls : List Nat) (prev : Nat), prev ≤ n → (∀ l ∈ ls, l ≤ n) → ∀ l ∈ assignC cs ls prev, l ≤ n
  | c :: cs, l :: ls, prev, hp, h, m, hm => by
    have : (if removed c then prev else l) ≤ n := by split_ifs; exacts [hp, h l (by simp)]
    rw [assignC] at hm
    rcases List.mem_cons.1 hm with rfl | hm
    · exact this
    · exact assignC_le cs ls _ this (fun x hx => h x (by simp [hx])) m hm
  | [], _, _, _, _, m, hm => by simp [assignC] at hm
  | _ :: _, [], _, _, _, m, hm => by simp [assignC] at hm

theorem levelsC_le {t : List Nat} {pl : Nat} (hpl : pl ≤ 125) {cs : List BC} (hB : ∀ c ∈ cs.dropLast, c ≠ .ParagraphSeparator) : ∀ l ∈ levelsC t pl cs, l ≤ 126 := by
  unfold levelsC
  refine assignC_le _ _ _ (by omega) ?_
  intro l hl
  obtain ⟨i, hi, he⟩ := List.getElem_of_mem hl
  rw [List.getElem_zipWith] at he
  subst he
  exact implicitC_le (explicitL_le hpl hB _ (List.getElem_mem _))

theorem textLevels_le {cls : Nat → BC} {dflt : Option Nat} (hd : ∀ d, dflt = some d → d ≤ 125) (text : List Nat) : ∀ l ∈ textLevels cls dflt text, l ≤ 126 := by
  obtain ⟨h1, h2, _⟩ := splitParas_ok cls text
  intro l hl
  obtain ⟨p, hp, hlp⟩ := List.mem_flatMap.1 hl
  exact levelsC_le (dflt_le hd _) (initialClasses_dropLast (map_dropLast' (h2 p hp).2)) l hlp

theorem expand_mem {α : Type} {a : α} : ∀ (t : List Nat) (xs : List α), a ∈ expand t xs → a ∈ xs
  | [], xs, h => by simp at h
  | _ :: _, [], h => by simp at h
  | c :: t, x :: xs, h => by
    rw [expand_cons] at h
    rcases List.mem_append.1 h with h | h
    · rw [List.eq_of_mem_replicate h]; simp
    · simp [expand_mem t xs h]

end Proofs.Bidi
