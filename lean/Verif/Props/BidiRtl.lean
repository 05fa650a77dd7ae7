import Verif.Proofs.BidiRtl
import Verif.Props.BidiLtr

/-! # Property C82: right-to-left text -/
namespace Props.BidiRtl
open Model Model.Bidi Data Model.Grapheme Spec.Bidi Proofs.Bidi Proofs.Grapheme Props.Bidi
open Model.Ucd (bidiClass)

/-- left-to-right letters, numbers, and the formatting characters that start text of any direction -/
def notRtlClasses : List BidiClass := [.LeftToRight, .EuropeanNumber, .ArabicNumber, .LeftToRightEmbedding, .LeftToRightOverride, .LeftToRightIsolate,
  .FirstStrongIsolate, .RightToLeftEmbedding, .RightToLeftOverride, .RightToLeftIsolate]

/-- The text is laid out from right to left: at an odd default level `d`, or without default level (then `d` is 1) and with a right-to-left letter in every paragraph. -/
def LaidOutRtl (text : List Nat) (dflt : Option Nat) (d : Nat) : Prop :=
  (dflt = some d ∧ d ≤ 125 ∧ d % 2 = 1) ∨
    (dflt = none ∧ d = 1 ∧ ∀ ps, IsParagraphs bidiClass text ps → ∀ p ∈ ps, ∃ c ∈ p, bidiClass c = .RightToLeft ∨ bidiClass c = .ArabicLetter)

theorem flatRtl_of {c : BidiClass} (h : c ∉ notRtlClasses) : flatRtl c = true := by cases c <;> simp_all [notRtlClasses, flatRtl]

theorem firstStrong_rtl : ∀ (cs : List BidiClass), (∀ c ∈ cs, flatRtl c = true) → (∃ c ∈ cs, c = .RightToLeft ∨ c = .ArabicLetter) →
    firstStrong 0 cs = some .RightToLeft ∨ firstStrong 0 cs = some .ArabicLetter
  | [], _, h => by simp at h
  | c :: cs, h, he => by
    have hc := h c (by simp)
    have ih := firstStrong_rtl cs (fun x hx => h x (by simp [hx]))
    have hrest : c ≠ .RightToLeft → c ≠ .ArabicLetter → ∃ c ∈ cs, c = .RightToLeft ∨ c = .ArabicLetter := by
      intro h1 h2
      obtain ⟨x, hx, h3⟩ := he
      rcases List.mem_cons.1 hx with rfl | hx
      · rcases h3 with h3 | h3
        · exact absurd h3 h1
        · exact absurd h3 h2
      · exact ⟨x, hx, h3⟩
    cases c <;> simp only [flatRtl, Bool.false_eq_true] at hc <;> simp only [firstStrong, isInitiator, isStrong] <;> simp
    all_goals exact ih (hrest (by decide) (by decide))

theorem paragraphLevel_rtl {cs : List BidiClass} (h : ∀ c ∈ cs, flatRtl c = true) (he : ∃ c ∈ cs, c = .RightToLeft ∨ c = .ArabicLetter) :
    paragraphLevel cs = 1 := by
  unfold paragraphLevel
  rcases firstStrong_rtl cs h he with e | e <;> rw [e] <;> rfl

theorem reverseFrom_all {α : Type} {level : α → Nat} {m : Nat} : ∀ (xs acc : List α), (∀ x ∈ xs, m ≤ level x) → reverseFrom level m acc xs = xs.reverse ++ acc
  | [], acc, _ => rfl
  | x :: xs, acc, h => by
    rw [reverseFrom, if_pos (h x (by simp)), reverseFrom_all xs _ (fun y hy => h y (by simp [hy]))]
    simp

/-- rule L2 on a line of one odd level -/
theorem l2_const {α : Type} {level : α → Nat} {d : Nat} (hd : d % 2 = 1) {xs : List α} (h : ∀ x ∈ xs, level x = d) : l2 level xs = xs.reverse := by
  have hhi : xs ≠ [] → highest level xs = d := by
    unfold highest
    clear hd
    induction xs with
    | nil => intro h; exact absurd rfl h
    | cons x xs ih =>
      intro _
      rw [List.foldr_cons, h x (by simp)]
      by_cases he : xs = []
      · subst he; simp
      · rw [ih (fun y hy => h y (by simp [hy])) he, Nat.max_self]
  unfold l2
  split
  · rename_i hf
    cases xs with
    | nil => rfl
    | cons x xs =>
      have : level x ∈ (List.map level (x :: xs)).filter (fun l => l % 2 = 1) := by
        rw [List.mem_filter]; exact ⟨by simp, by rw [h x (by simp)]; simpa using hd⟩
      rw [hf] at this; simp at this
  · rename_i l ls hf
    have hm : ∀ y ∈ l :: ls, y = d := by
      intro y hy
      rw [← hf] at hy
      obtain ⟨z, hz, rfl⟩ := List.mem_map.1 (List.mem_filter.1 hy).1
      exact h z hz
    have hne : xs ≠ [] := by rintro rfl; simp at hf
    have hfold : ls.foldr min l = d := by
      have : ∀ ys : List Nat, (∀ y ∈ ys, y = d) → ys.foldr min l = d := by
        intro ys
        induction ys with
        | nil => intro _; exact hm l (by simp)
        | cons y ys ih => intro hy; rw [List.foldr_cons, ih (fun z hz => hy z (by simp [hz])), hy y (by simp), Nat.min_self]
      exact this ls (fun y hy => hm y (by simp [hy]))
    rw [hfold, hhi hne, Nat.add_sub_cancel_left]
    show reverseFrom level (d + 0) [] xs = _
    rw [reverseFrom_all xs [] (fun x hx => by rw [h x hx]; omega), List.append_nil]

/-- **C82.** A text without left-to-right letters, numbers, embeddings, overrides and isolates, laid out from right to left, has a single level,
and `reorder_line` returns every line of it reversed, character by character. -/
theorem c82_rtl (text : List Nat) (dflt : Option Nat) (d : Nat) (hd : LaidOutRtl text dflt d) (hc : ∀ c ∈ text, bidiClass c ∉ notRtlClasses) :
    ∃ info, bidiInfo text dflt = .ok info ∧ (∀ l ∈ info.levels, l = d) ∧ (∀ para ∈ info.paras, para.level = d) ∧
      ∀ para ∈ info.paras, ∀ pre line post, text = pre ++ line ++ post → line ≠ [] → reorderLine info para (lineRange pre line) = .ok line.reverse := by
  have hd' : ∀ d, dflt = some d → d ≤ 125 := by
    intro e he
    rcases hd with ⟨h1, h2, _⟩ | ⟨h1, _⟩
    · rw [he] at h1; simp only [Option.some.injEq] at h1; omega
    · rw [h1] at he; simp at he
  have hd1 : d ≤ 125 ∧ d % 2 = 1 := by
    rcases hd with ⟨_, h2, h3⟩ | ⟨_, h2, _⟩
    · exact ⟨h2, h3⟩
    · omega
  have hc' : ∀ c ∈ text, flatRtl (bidiClass c) = true := fun c h => flatRtl_of (hc c h)
  have hpl : ∀ p ∈ splitParas bidiClass text, dflt.getD (paragraphLevel (p.map bidiClass)) = d := by
    intro p hp
    rcases hd with ⟨h1, _⟩ | ⟨h1, h2, h3⟩
    · rw [h1]; rfl
    · rw [h1, Option.getD_none, h2]
      obtain ⟨x, hx, hx2⟩ := h3 _ (splitParas_ok bidiClass text) p hp
      refine paragraphLevel_rtl ?_ ⟨_, List.mem_map.2 ⟨x, hx, rfl⟩, hx2⟩
      intro c hcm
      obtain ⟨x, hx, rfl⟩ := List.mem_map.1 hcm
      refine hc' x ?_
      rw [← (splitParas_ok bidiClass text).1]
      exact List.mem_flatten.2 ⟨_, hp, hx⟩
  have hnew := new_ok fsi_len hd' text
  have hparas : ∀ p ∈ paragraphInfos bidiClass dflt 0 (splitParas bidiClass text), p.level = d := by
    intro p hp
    obtain ⟨i, hi, rfl⟩ := List.getElem_of_mem hp
    rw [infos_length] at hi
    have := infos_get (cls := bidiClass) (dflt := dflt) (splitParas bidiClass text) 0 i _ (List.getElem?_eq_getElem hi)
    rw [List.getElem?_eq_getElem (by rw [infos_length]; exact hi)] at this
    simp only [Option.some.injEq] at this
    rw [this]
    exact hpl _ (List.getElem_mem _)
  generalize hinfo : BidiInfo.mk _ _ _ _ = info at hnew
  have hp' : info.paras = paragraphInfos bidiClass dflt 0 (splitParas bidiClass text) := by rw [← hinfo]
  obtain ⟨h1, h2, h3, h4, h5, h6⟩ := info_facts hd' hnew
  have hlev : ∀ l ∈ info.levels, l = d := by
    intro l hl
    rw [h3] at hl
    exact textLevels_rtl hd1.1 hd1.2 hc' hpl l (expand_mem _ _ hl)
  have hpara : ∀ para ∈ info.paras, para.level = d := fun para h => hparas para (hp' ▸ h)
  refine ⟨info, hnew, hlev, hpara, ?_⟩
  intro para hpa pre line post ht hne
  have hp := hpara para hpa
  subst ht
  have hb : 0 < blen line := by
    cases line with
    | nil => exact absurd rfl hne
    | cons c line => rw [blen_cons]; have := len_pos c; omega
  have hlt : blen pre < info.levels.length := by rw [h5, blen_append, blen_append]; omega
  obtain ⟨levels, order, hv⟩ := c32_no_panic pre line post dflt hd' info hnew para (by omega)
    ⟨blen pre, info.levels[blen pre], Nat.le_refl _, by omega, List.getElem?_eq_getElem hlt, by have := hlev _ (List.getElem_mem hlt); omega⟩
  have hsame : ∀ i, blen pre ≤ i → i < blen pre + blen line → levels[i]? = info.levels[i]? := by
    intro i i1 i2
    rw [(visual_levels hd' hnew hne (by omega) hv).1, l1Levels, setAll_getElem?]
    have hi : i < info.levels.length := by rw [h5, blen_append, blen_append]; omega
    split_ifs
    · rw [List.getElem?_eq_getElem hi, hlev _ (List.getElem_mem hi), hp]
    · rfl
  obtain ⟨ls, l1, l2', l3⟩ := c57_l2_partial pre line post dflt hd' info hnew hne para (by omega) levels order hv hsame
  have hls : ∀ x ∈ line.zip ls, x.2 = d := by
    rintro ⟨c, l⟩ hx
    obtain ⟨k, hk⟩ := List.mem_iff_getElem?.1 hx
    rw [List.getElem?_zip_eq_some] at hk
    have := l2' k c 0 hk.1 (len_pos c)
    rw [hk.2] at this
    exact hlev l (List.mem_of_getElem? this)
  rw [l3, l2_const hd1.2 hls, List.map_reverse, List.map_fst_zip (by omega)]

/-- **C82.** If the text is not empty, `has_rtl` is true, and the text laid out as a single line is the text reversed. -/
theorem c82_whole (text : List Nat) (dflt : Option Nat) (d : Nat) (hd : LaidOutRtl text dflt d) (hc : ∀ c ∈ text, bidiClass c ∉ notRtlClasses) (hne : text ≠ []) :
    ∃ info, bidiInfo text dflt = .ok info ∧ hasRtl info = true ∧ ∀ para ∈ info.paras, reorderLine info para ⟨0, blen text⟩ = .ok text.reverse := by
  obtain ⟨info, h1, h2, _, h3⟩ := c82_rtl text dflt d hd hc
  refine ⟨info, h1, ?_, ?_⟩
  · have hd' : ∀ d, dflt = some d → d ≤ 125 := by
      intro e he
      rcases hd with ⟨h1, h2, _⟩ | ⟨h1, _⟩
      · rw [he] at h1; simp only [Option.some.injEq] at h1; omega
      · rw [h1] at he; simp at he
    obtain ⟨_, _, _, _, h5, _⟩ := info_facts hd' h1
    have hlt : 0 < info.levels.length := by
      cases text with
      | nil => exact absurd rfl hne
      | cons c text => rw [h5, blen_cons]; have := len_pos c; omega
    rw [c33_has_rtl]
    refine ⟨_, List.getElem_mem hlt, ?_⟩
    rw [h2 _ (List.getElem_mem hlt)]
    rcases hd with ⟨_, _, h⟩ | ⟨_, h, _⟩ <;> omega
  · intro para hp
    have := h3 para hp [] text [] (by simp) hne
    simpa [lineRange, blen_nil] using this

/-- "אב ̀!" and a second paragraph "ا" meet the hypotheses, without default level and at level 3. -/
example : (∀ c ∈ [0x5D0, 0x5D1, 0x20, 0x300, 0x21, 0xA, 0x627], bidiClass c ∉ notRtlClasses) ∧ LaidOutRtl [0x5D0, 0x5D1, 0x20, 0x300, 0x21, 0xA, 0x627] none 1 ∧
    LaidOutRtl [0x5D0, 0x5D1, 0x20, 0x300, 0x21, 0xA, 0x627] (some 3) 3 := by
  have hs := sample_ok (text := [0x5D0, 0x5D1, 0x20, 0x300, 0x21, 0xA, 0x627]) (by decide)
  refine ⟨?_, Or.inr ⟨rfl, rfl, ?_⟩, Or.inl ⟨rfl, by decide, by decide⟩⟩
  · intro c hc
    rw [hs c hc]
    revert c
    decide
  · intro ps hps
    have h1 := splitParas_unique hps
    have h2 : IsParagraphs bidiClass [0x5D0, 0x5D1, 0x20, 0x300, 0x21, 0xA, 0x627] [[0x5D0, 0x5D1, 0x20, 0x300, 0x21, 0xA], [0x627]] := by
      refine ⟨rfl, ?_, ?_⟩
      · intro p hp
        simp only [List.mem_cons, List.not_mem_nil, or_false] at hp
        rcases hp with rfl | rfl
        · refine ⟨by simp, ?_⟩
          intro c hc
          rw [hs c (List.mem_append_left [0x627] (List.dropLast_subset _ hc))]
          revert c
          decide
        · simp
      · intro p hp
        simp only [List.dropLast, List.mem_cons, List.not_mem_nil, or_false] at hp
        subst hp
        exact ⟨0xA, rfl, by rw [hs _ (by simp)]; decide⟩
    rw [← h1, splitParas_unique h2]
    intro p hp
    simp only [List.mem_cons, List.not_mem_nil, or_false] at hp
    rcases hp with rfl | rfl
    · exact ⟨0x5D0, by simp, Or.inl (by rw [hs _ (by simp)]; decide)⟩
    · exact ⟨0x627, by simp, Or.inr (by rw [hs _ (by simp)]; decide)⟩

end Props.BidiRtl
