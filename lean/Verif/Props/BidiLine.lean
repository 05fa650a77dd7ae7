import Verif.Proofs.BidiVisual
import Verif.Props.Bidi

/-! # Properties C32 and C57: the lines of the bidirectional algorithm -/
namespace Props.Bidi
open Model Model.Bidi Data Model.Grapheme Spec.Bidi Proofs.Bidi Proofs.Grapheme
open Model.Ucd (bidiClass)

/-- the byte range of `line` behind `pre` -/
abbrev lineRange (pre line : List Nat) : Run := ⟨blen pre, blen pre + blen line⟩

/-- what the theorems below use of the result of `BidiInfo::new` -/
theorem info_facts {text : List Nat} {dflt : Option Nat} (hd : ∀ d, dflt = some d → d ≤ 125) {info : BidiInfo} (hi : bidiInfo text dflt = .ok info) :
    info.text = text ∧ info.classes = expand text (initialClasses (text.map bidiClass)) ∧ info.levels = expand text (textLevels bidiClass dflt text) ∧
      info.classes.length = blen text ∧ info.levels.length = blen text ∧ (∀ l ∈ info.levels, l ≤ 126) := by
  rw [bidiInfo, new_ok fsi_len hd text] at hi
  simp only [Outcome.ok.injEq] at hi
  subst hi
  refine ⟨rfl, rfl, rfl, expand_length _ _ (by rw [initialClasses_length, List.length_map]), expand_length _ _ (textLevels_length hd text), ?_⟩
  exact fun l hl => textLevels_le hd text l (expand_mem _ _ hl)

theorem l1Levels_le {info : BidiInfo} {pl : Nat} {line : List Nat} (h : ∀ l ∈ info.levels, l ≤ 126) (hp : pl ≤ 126) : ∀ l ∈ l1Levels info pl line, l ≤ 126 := by
  intro l hl
  obtain ⟨i, hi⟩ := List.mem_iff_getElem?.1 hl
  unfold l1Levels at hi
  rw [setAll_getElem?] at hi
  split_ifs at hi
  · simp only [Option.some.injEq] at hi; omega
  · exact h l (List.mem_of_getElem? hi)

/-! ## C32 -/

/-- **C32.** The levels of `visual_runs` divide a line into runs: they follow each other from the start to the end of the line, the bytes of a run
have one level and the level changes from run to run. If some level of the line is less than 126, `visual_runs` gives the levels and these runs,
each once, in some order; else it panics. -/
theorem c32_visual_runs (pre line post : List Nat) (dflt : Option Nat) (hd : ∀ d, dflt = some d → d ≤ 125) (hne : line ≠ []) (para : Para) (hp : para.level ≤ 126) :
    ∃ info levels runs, bidiInfo (pre ++ line ++ post) dflt = .ok info ∧ levels.length = blen (pre ++ line ++ post) ∧
      Tile (blen pre) (blen pre + blen line) runs ∧
      (∀ r ∈ runs, ∀ k, r.start ≤ k → k < r.stop → levels[k]? = levels[r.start]?) ∧
      (∀ r ∈ runs, r.start = blen pre ∨ levels[r.start - 1]? ≠ levels[r.start]?) ∧
      ((∃ (k : Nat) (l : Nat), blen pre ≤ k ∧ k < blen pre + blen line ∧ levels[k]? = some l ∧ l < 126) →
        ∃ order, visualRuns info para (lineRange pre line) = .ok (levels, order) ∧ order.Perm runs) ∧
      ((∀ (k : Nat) (l : Nat), blen pre ≤ k → k < blen pre + blen line → levels[k]? = some l → l = 126) →
        visualRuns info para (lineRange pre line) = .panic) := by
  have hnew := new_ok fsi_len hd (pre ++ line ++ post)
  generalize hinfo : BidiInfo.mk _ _ _ _ = info at hnew
  obtain ⟨h1, h2, h3, h4, h5, h6⟩ := info_facts hd hnew
  obtain ⟨runs, lo, hi, hr, hv⟩ := visualRuns_eq (para := para) h1 (by rw [h4, h1]) (by rw [h5, h1]) hne
  have hle := l1Levels_le (line := line) h6 hp
  refine ⟨info, l1Levels info para.level line, runs, hnew, by simp [l1Levels, h5], tile_of hr.tiles, hr.uniform, hr.sep, ?_, ?_⟩
  · rintro ⟨k, l, k1, k2, k3, k4⟩
    have := hr.bound k l k1 k2 k3
    obtain ⟨q, q1, _⟩ := lowest_rtl lo (by omega)
    rw [hv, visualResult, q1]
    exact ⟨_, rfl, reverseDown_perm _ _⟩
  · intro hall
    obtain ⟨k, k1, k2, k3⟩ := hr.low
    rw [hv, visualResult, hall k lo k1 k2 k3, lowest_none]

/-- **C32.** In particular there is no panic when a byte of the line has a level less than 126 and so has the paragraph. -/
theorem c32_no_panic (pre line post : List Nat) (dflt : Option Nat) (hd : ∀ d, dflt = some d → d ≤ 125) (info : BidiInfo)
    (hi : bidiInfo (pre ++ line ++ post) dflt = .ok info) (para : Para) (hp : para.level < 126)
    (hlow : ∃ (k : Nat) (l : Nat), blen pre ≤ k ∧ k < blen pre + blen line ∧ info.levels[k]? = some l ∧ l < 126) :
    ∃ levels order, visualRuns info para (lineRange pre line) = .ok (levels, order) := by
  obtain ⟨h1, h2, h3, h4, h5, h6⟩ := info_facts hd hi
  obtain ⟨k, l, k1, k2, k3, k4⟩ := hlow
  have hne : line ≠ [] := by
    rintro rfl
    rw [blen_nil] at k2
    omega
  obtain ⟨runs, lo, hi, hr, hv⟩ := visualRuns_eq (para := para) h1 (by rw [h4, h1]) (by rw [h5, h1]) hne
  have hlo : lo < 126 := by
    have hk : (l1Levels info para.level line)[k]? = if k ∈ flagged line 0 (flagsC (lineClasses info line) (some 0)) ∧ k < info.levels.length then some para.level else info.levels[k]? :=
      setAll_getElem? _ _ _ _
    split_ifs at hk
    · have := hr.bound k _ k1 k2 hk; omega
    · rw [k3] at hk
      have := hr.bound k _ k1 k2 hk; omega
  obtain ⟨q, q1, _⟩ := lowest_rtl lo hlo
  rw [hv, visualResult, q1]
  exact ⟨_, _, rfl⟩

/-- the levels of a line that is reordered without splitting characters -/
theorem line_agree {pre line post : List Nat} {info : BidiInfo} {L : List Nat} (ht : info.text = pre ++ line ++ post) (hL : L.length = blen info.text)
    (hu : ∀ (k : Nat) c j, line[k]? = some c → j < Utf.lenUtf8 c → L[blen pre + blen (line.take k) + j]? = L[blen pre + blen (line.take k)]?) :
    ∃ ls : List Nat, ls.length = info.text.length ∧ Agree info.text L ls pre.length (pre.length + line.length) ∧
      ∀ k, k < info.text.length → ls[k]? = L[off info.text k]? := by
  have hoff : ∀ k, k < info.text.length → off info.text k < L.length := by
    intro k hk
    have := off_lt hk (Nat.le_refl _)
    rw [off_length] at this; omega
  refine ⟨(List.range info.text.length).map (fun k => L.getD (off info.text k) 0), by simp, ?_, ?_⟩
  · intro k hk h1 h2 j hj
    have hk' : k - pre.length < line.length := by omega
    have hc : line[k - pre.length]? = some info.text[k] := by
      rw [← List.getElem?_eq_getElem hk, ht, List.append_assoc, List.getElem?_append_right h1, List.getElem?_append_left hk']
    have ho : off info.text k = blen pre + blen (line.take (k - pre.length)) := by
      rw [off, ht, List.append_assoc, List.take_append, List.take_of_length_le h1, List.take_append_of_le_length (by omega), blen_append]
    have := hu (k - pre.length) _ j hc hj
    rw [← ho] at this
    have h := hoff k hk
    rw [this, List.getElem?_map, List.getElem?_range hk]
    simp [h]
  · intro k hk
    have h := hoff k hk
    rw [List.getElem?_map, List.getElem?_range hk]
    simp [h]

theorem visual_levels {pre line post : List Nat} {dflt : Option Nat} (hd : ∀ d, dflt = some d → d ≤ 125) {info : BidiInfo}
    (hi : bidiInfo (pre ++ line ++ post) dflt = .ok info) (hne : line ≠ []) {para : Para} (hp : para.level ≤ 126) {levels : List Nat} {order : List Run}
    (hv : visualRuns info para (lineRange pre line) = .ok (levels, order)) :
    levels = l1Levels info para.level line ∧ ∃ (k : Nat) (l : Nat), blen pre ≤ k ∧ k < blen pre + blen line ∧ levels[k]? = some l ∧ l < 126 := by
  obtain ⟨h1, h2, h3, h4, h5, h6⟩ := info_facts hd hi
  obtain ⟨runs, lo, hi', hr, hv'⟩ := visualRuns_eq (para := para) h1 (by rw [h4, h1]) (by rw [h5, h1]) hne
  rw [hv', visualResult] at hv
  obtain ⟨k, k1, k2, k3⟩ := hr.low
  have hle := l1Levels_le (line := line) h6 hp lo (List.mem_of_getElem? k3)
  by_cases hlo : lo = 126
  · rw [hlo, lowest_none] at hv; simp at hv
  · obtain ⟨q, q1, _⟩ := lowest_rtl lo (by omega)
    rw [q1] at hv
    simp only [Outcome.ok.injEq, Prod.mk.injEq] at hv
    rw [← hv.1]
    exact ⟨rfl, k, lo, k1, k2, k3, by omega⟩

theorem reorder_facts {pre line post : List Nat} {dflt : Option Nat} (hd : ∀ d, dflt = some d → d ≤ 125) {info : BidiInfo}
    (hi : bidiInfo (pre ++ line ++ post) dflt = .ok info) (hne : line ≠ []) {para : Para} (hp : para.level ≤ 126) {levels : List Nat} {order : List Run}
    (hv : visualRuns info para (lineRange pre line) = .ok (levels, order))
    (hu : ∀ (k : Nat) c j, line[k]? = some c → j < Utf.lenUtf8 c → levels[blen pre + blen (line.take k) + j]? = levels[blen pre + blen (line.take k)]?) :
    ∃ ls : List Nat, ls.length = info.text.length ∧ Agree info.text (l1Levels info para.level line) ls pre.length (pre.length + line.length) ∧ (∀ l ∈ ls, l ≤ 126) ∧
      ∃ (k : Nat) (l : Nat), pre.length ≤ k ∧ k < pre.length + line.length ∧ ls[k]? = some l ∧ l < 126 := by
  obtain ⟨h1, h2, h3, h4, h5, h6⟩ := info_facts hd hi
  obtain ⟨e, i, l, i1, i2, i3, i4⟩ := visual_levels hd hi hne hp hv
  subst e
  obtain ⟨ls, a1, a2, a3⟩ := line_agree h1 (by rw [h1, ← h5]; simp [l1Levels]) hu
  refine ⟨ls, a1, a2, ?_, ?_⟩
  · intro x hx
    obtain ⟨k, hk⟩ := List.mem_iff_getElem?.1 hx
    have hlt : k < info.text.length := by
      by_contra hn
      rw [List.getElem?_eq_none (by omega)] at hk; simp at hk
    rw [a3 k hlt] at hk
    exact l1Levels_le (line := line) h6 hp x (List.mem_of_getElem? hk)
  · have hoA : off info.text pre.length = blen pre := by rw [h1, List.append_assoc]; simp [off]
    have hoB : off info.text (pre.length + line.length) = blen pre + blen line := by
      rw [h1, ← List.length_append, ← blen_append, off, List.take_left]
    obtain ⟨k, hk, b1, b2, b3, b4⟩ := line_char (t := info.text) (A := pre.length) (B := pre.length + line.length) (i := i) (by rw [h1]; simp) (by omega) (by omega)
    have := a2 k hk b1 b2 _ b4
    rw [show off info.text k + (i - off info.text k) = i by omega, i3] at this
    exact ⟨k, l, b1, b2, this.symm, i4⟩

/-- **C32, in part.** If `visual_runs` gives all bytes of each character of the line the same level, `reorder_line` puts out every character of the
line once. (Missing: the other lines. For them rule L1 writes its levels to the wrong bytes and the claim is false, see `c32_not_reorder`.) -/
theorem c32_reorder_partial (pre line post : List Nat) (dflt : Option Nat) (hd : ∀ d, dflt = some d → d ≤ 125) (info : BidiInfo)
    (hi : bidiInfo (pre ++ line ++ post) dflt = .ok info) (hne : line ≠ []) (para : Para) (hp : para.level ≤ 126) (levels : List Nat) (order : List Run)
    (hv : visualRuns info para (lineRange pre line) = .ok (levels, order))
    (hu : ∀ (k : Nat) c j, line[k]? = some c → j < Utf.lenUtf8 c → levels[blen pre + blen (line.take k) + j]? = levels[blen pre + blen (line.take k)]?) :
    ∃ out, reorderLine info para (lineRange pre line) = .ok out ∧ out.Perm line := by
  obtain ⟨h1, h2, h3, h4, h5, h6⟩ := info_facts hd hi
  obtain ⟨ls, a1, a2, a3, a4⟩ := reorder_facts hd hi hne hp hv hu
  exact reorder_perm h1 (by rw [h4, h1]) (by rw [h5, h1]) hne a1 a2 a3 a4

theorem uniform_levels {pre line post : List Nat} {dflt : Option Nat} (hd : ∀ d, dflt = some d → d ≤ 125) {info : BidiInfo}
    (hi : bidiInfo (pre ++ line ++ post) dflt = .ok info) : ∀ (k : Nat) c j, line[k]? = some c → j < Utf.lenUtf8 c →
      info.levels[blen pre + blen (line.take k) + j]? = info.levels[blen pre + blen (line.take k)]? := by
  obtain ⟨h1, h2, h3, h4, h5, h6⟩ := info_facts hd hi
  intro k c j hk hj
  have hlt : k < line.length := by
    by_contra hn
    rw [List.getElem?_eq_none (by omega)] at hk; simp at hk
  have hc : (pre ++ line ++ post)[pre.length + k]? = some c := by
    rw [List.append_assoc, List.getElem?_append_right (by omega), Nat.add_sub_cancel_left, List.getElem?_append_left hlt, hk]
  have hlt' : pre.length + k < (pre ++ line ++ post).length := by simp; omega
  have he : (pre ++ line ++ post)[pre.length + k] = c := by rw [List.getElem?_eq_getElem hlt'] at hc; simpa using hc
  have ho : off (pre ++ line ++ post) (pre.length + k) = blen pre + blen (line.take k) := by
    rw [off, List.append_assoc, List.take_length_add_append, List.take_append_of_le_length (by omega), blen_append]
  have hl := textLevels_length (cls := bidiClass) hd (pre ++ line ++ post)
  have a := expand_getElem? (pre ++ line ++ post) (textLevels bidiClass dflt (pre ++ line ++ post)) (pre.length + k) j hl hlt' (by rw [he]; exact hj)
  have b := expand_at (t := pre ++ line ++ post) hl hlt'
  rw [ho] at a b
  rw [h3, a, b]

/-- the levels after L1 on a line at the start of the text -/
theorem first_levels {line : List Nat} {info : BidiInfo} (pl : Nat) (hl : blen line ≤ info.levels.length) {k c j : Nat} (hk : line[k]? = some c) (hj : j < Utf.lenUtf8 c) :
    (l1Levels info pl line)[blen (line.take k) + j]? =
      if (flagsC (lineClasses info line) (some 0))[k]? = some true then some pl else info.levels[blen (line.take k) + j]? := by
  have hlt : k < line.length := by
    by_contra hn
    rw [List.getElem?_eq_none (by omega)] at hk; simp at hk
  have he : line[k] = c := by rw [List.getElem?_eq_getElem hlt] at hk; simpa using hk
  have hs := off_succ hlt
  rw [he] at hs
  have hb : blen (line.take k) + j < info.levels.length := by
    have := off_mono (t := line) (show k + 1 ≤ line.length from hlt)
    rw [off_length, hs] at this
    unfold off at this
    omega
  have hin : blen (line.take k) + j ∈ block line k := by
    rw [mem_block hlt, he]
    unfold off
    omega
  have hfl : (flagsC (lineClasses info line) (some 0)).length ≤ line.length := by rw [flagsC_length]; simp [lineClasses]
  have hm : (blen (line.take k) + j ∈ flagged line 0 (flagsC (lineClasses info line) (some 0)) ∧ blen (line.take k) + j < info.levels.length) ↔
      (flagsC (lineClasses info line) (some 0))[k]? = some true := by
    rw [mem_flagged]
    constructor
    · rintro ⟨⟨m, m1, m2⟩, _⟩
      have hml : m < line.length := by
        by_contra hn
        rw [List.getElem?_eq_none (by omega)] at m1; simp at m1
      rw [Nat.zero_add] at m2
      rw [← block_disjoint hml hlt m2 hin]; exact m1
    · intro h
      exact ⟨⟨k, h, by rw [Nat.zero_add]; exact hin⟩, hb⟩
  rw [l1Levels, setAll_getElem?, if_congr hm rfl rfl]

/-- rule L1 writes to no byte from the length of the line on -/
theorem later_levels {line : List Nat} {info : BidiInfo} (pl : Nat) {i : Nat} (hi : blen line ≤ i) : (l1Levels info pl line)[i]? = info.levels[i]? := by
  rw [l1Levels, setAll_getElem?, if_neg]
  rintro ⟨h, _⟩
  rw [mem_flagged] at h
  obtain ⟨m, m1, m2⟩ := h
  have hml : m < line.length := by
    by_contra hn
    rw [List.getElem?_eq_none (by rw [flagsC_length]; simp [lineClasses]; omega)] at m1; simp at m1
  rw [Nat.zero_add] at m2
  have := block_in hml m2
  omega

/-- **C32, in part.** `reorder_line` puts out every character of the line once when the line starts the text or is not longer than what is before it. -/
theorem c32_reorder_lines_partial (pre line post : List Nat) (dflt : Option Nat) (hd : ∀ d, dflt = some d → d ≤ 125) (info : BidiInfo)
    (hi : bidiInfo (pre ++ line ++ post) dflt = .ok info) (hne : line ≠ []) (para : Para) (hp : para.level ≤ 126) (levels : List Nat) (order : List Run)
    (hv : visualRuns info para (lineRange pre line) = .ok (levels, order)) (hpos : pre = [] ∨ blen line ≤ blen pre) :
    ∃ out, reorderLine info para (lineRange pre line) = .ok out ∧ out.Perm line := by
  obtain ⟨h1, h2, h3, h4, h5, h6⟩ := info_facts hd hi
  refine c32_reorder_partial pre line post dflt hd info hi hne para hp levels order hv ?_
  intro k c j hk hj
  have hu := uniform_levels hd hi k c j hk hj
  rw [(visual_levels hd hi hne hp hv).1]
  rcases hpos with rfl | hpos
  · rw [blen_nil, Nat.zero_add] at hu ⊢
    have hl : blen line ≤ info.levels.length := by rw [h5, blen_append, blen_append]; omega
    have hz := first_levels para.level hl hk (len_pos c)
    rw [Nat.add_zero] at hz
    rw [first_levels para.level hl hk hj, hz, hu]
  · rw [later_levels _ (by omega), later_levels _ (by omega), hu]

/-- The claim of C32 is false for other lines: for "\nא" rule L1 resets one of the two bytes of the letter on the second line, and `reorder_line`
panics when it slices the text there. -/
theorem c32_not_reorder : ∃ info, bidiInfo [0xA, 0x5D0] (some 0) = .ok info ∧ (∀ p ∈ info.paras, p.level = 0) ∧
    reorderLine info ⟨⟨1, 3⟩, 0⟩ (lineRange [0xA] [0x5D0]) = .panic := by
  rw [bidiInfo, new_sample (by decide)]
  exact ⟨_, rfl, by decide +kernel, by decide +kernel⟩

/-- `visual_runs` panics when all levels of the line are 126. -/
theorem c32_panic : ∃ info, bidiInfo [0x61] (some 125) = .ok info ∧ visualRuns info ⟨⟨0, 1⟩, 125⟩ ⟨0, 1⟩ = .panic := by
  rw [bidiInfo, new_sample (by decide)]
  exact ⟨_, rfl, by decide +kernel⟩

example : ∃ info, bidiInfo ([] ++ [0x61, 0x20, 0x5D0, 0x5D1, 0x20, 0x31] ++ [0xA]) none = .ok info ∧
    ∃ levels order, visualRuns info ⟨⟨0, 10⟩, 0⟩ (lineRange [] [0x61, 0x20, 0x5D0, 0x5D1, 0x20, 0x31]) = .ok (levels, order) ∧
      order = [⟨0, 2⟩, ⟨7, 8⟩, ⟨2, 7⟩] ∧
      reorderLine info ⟨⟨0, 10⟩, 0⟩ (lineRange [] [0x61, 0x20, 0x5D0, 0x5D1, 0x20, 0x31]) = .ok [0x61, 0x20, 0x31, 0x20, 0x5D1, 0x5D0] := by
  rw [bidiInfo, new_sample (by decide)]
  exact ⟨_, rfl, _, _, rfl, by decide +kernel, by decide +kernel⟩

/-! ## C57 -/

theorem resolveFsi_kinds (c : BidiClass) (rest : List BidiClass) : isRemoved (resolveFsi c rest) = isRemoved c ∧ isSeparator (resolveFsi c rest) = isSeparator c ∧
    isBlank (resolveFsi c rest) = isBlank c := by
  unfold resolveFsi
  split_ifs with h
  · subst h
    split <;> simp [isRemoved, isSeparator, isBlank]
  · simp

theorem blankUpTo_take : ∀ (cs : List BidiClass) (n : Nat), blankUpTo ((initialClasses cs).take n) = blankUpTo (cs.take n)
  | [], n => by simp [initialClasses]
  | c :: cs, 0 => by simp
  | c :: cs, n + 1 => by
    obtain ⟨h1, h2, h3⟩ := resolveFsi_kinds c cs
    rw [initialClasses, List.take_succ_cons, List.take_succ_cons, blankUpTo, blankUpTo, h1, h2, h3, blankUpTo_take cs n]

theorem l1Resets_take : ∀ (cs : List BidiClass) (n k : Nat), l1Resets ((initialClasses cs).take n) k = l1Resets (cs.take n) k
  | [], n, k => by simp [initialClasses]
  | c :: cs, 0, k => by simp
  | c :: cs, n + 1, 0 => by
    obtain ⟨h1, h2, h3⟩ := resolveFsi_kinds c cs
    rw [initialClasses, List.take_succ_cons, List.take_succ_cons, l1Resets, l1Resets, List.drop_zero, List.drop_zero]
    simp only
    rw [h2, h3, blankUpTo_take]
  | c :: cs, n + 1, k + 1 => by
    rw [initialClasses, List.take_succ_cons, List.take_succ_cons]
    exact l1Resets_take cs n k

/-- **C57, in part (L1).** On a line at the start of the text `reordered_levels` gives every character that X9 does not remove the paragraph level if
rule L1 says so, and the level it had before otherwise. After the line no level changes. (Missing: later lines, for which the claim is false, see
`c57_not_l1`.) -/
theorem c57_l1_partial (line post : List Nat) (dflt : Option Nat) (hd : ∀ d, dflt = some d → d ≤ 125) (info : BidiInfo)
    (hi : bidiInfo (line ++ post) dflt = .ok info) (hne : line ≠ []) (para : Para) (hp : para.level ≤ 126) (levels : List Nat)
    (hv : reorderedLevels info para ⟨0, blen line⟩ = .ok levels) :
    levels.length = blen (line ++ post) ∧ (∀ i, blen line ≤ i → levels[i]? = info.levels[i]?) ∧
    ∀ (k : Nat) c, line[k]? = some c → isRemoved (bidiClass c) = false → ∀ j, j < Utf.lenUtf8 c →
      levels[blen (line.take k) + j]? = if l1Resets (line.map bidiClass) k then some para.level else info.levels[blen (line.take k) + j]? := by
  obtain ⟨h1, h2, h3, h4, h5, h6⟩ := info_facts hd hi
  have hv' : ∃ order, visualRuns info para (lineRange [] line) = .ok (levels, order) := by
    unfold reorderedLevels at hv
    rw [show lineRange [] line = ⟨0, blen line⟩ by simp [lineRange, blen_nil]]
    cases h : visualRuns info para ⟨0, blen line⟩ with
    | panic => rw [h] at hv; simp [Proofs.Punycode.bind_panic] at hv
    | ok x =>
      obtain ⟨a, b⟩ := x
      rw [h, Proofs.Punycode.bind_ok] at hv
      simp only [Proofs.Punycode.pure_eq, Outcome.ok.injEq] at hv
      exact ⟨b, by rw [hv]⟩
  obtain ⟨order, hv'⟩ := hv'
  have hL := (visual_levels (pre := []) (post := post) hd hi hne hp hv').1
  subst hL
  refine ⟨by simp [l1Levels, h5], fun i hi => later_levels _ hi, ?_⟩
  intro k c hk hr j hj
  have hl : blen line ≤ info.levels.length := by rw [h5, blen_append]; omega
  have hlt : k < line.length := by
    by_contra hn
    rw [List.getElem?_eq_none (by omega)] at hk; simp at hk
  have hcls : lineClasses info line = (initialClasses ((line ++ post).map bidiClass)).take line.length := by
    apply List.ext_getElem
    · simp [lineClasses, initialClasses_length]
    · intro m m1 m2
      have hm : m < line.length := by simpa [lineClasses] using m1
      have hm' : m < (line ++ post).length := by simp; omega
      have := expand_at (t := line ++ post) (xs := initialClasses ((line ++ post).map bidiClass)) (k := m) (by rw [initialClasses_length, List.length_map]) hm'
      rw [off_append post (by omega)] at this
      rw [List.getElem_take]
      simp only [lineClasses, List.getElem_map, List.getElem_range, h2]
      rw [List.getD_eq_getElem?_getD, this, List.getElem?_eq_getElem (by rw [initialClasses_length, List.length_map]; exact hm')]
      rfl
  have htake : (((line ++ post).map bidiClass).take line.length) = line.map bidiClass := by rw [← List.map_take, List.take_left]
  have hx : ∃ x, (lineClasses info line)[k]? = some x ∧ isRemoved x = false := by
    rw [hcls, List.getElem?_take, if_pos hlt]
    have : ∀ (cs : List BidiClass) (k : Nat) c, cs[k]? = some c → isRemoved c = false → ∃ x, (initialClasses cs)[k]? = some x ∧ isRemoved x = false := by
      intro cs
      induction cs with
      | nil => intro k c h; simp at h
      | cons a cs ih =>
        intro k c h hr
        cases k with
        | zero =>
          simp only [List.getElem?_cons_zero, Option.some.injEq] at h
          subst h
          exact ⟨_, by rw [initialClasses, List.getElem?_cons_zero], by rw [(resolveFsi_kinds a cs).1]; exact hr⟩
        | succ k => rw [initialClasses, List.getElem?_cons_succ]; exact ih k c h hr
    exact this _ k (bidiClass c) (by rw [List.getElem?_map, List.getElem?_append_left hlt, hk]; rfl) hr
  obtain ⟨x, hx1, hx2⟩ := hx
  have hf := flags_l1 _ (some 0) k x hx1 hx2
  simp only [Option.getD_some, Nat.zero_add] at hf
  rw [first_levels para.level hl hk hj, hf, hcls, l1Resets_take, htake]
  simp

/-- The claim fails for later lines: in "אb b" at level 1 the blank at the end of the line "b " keeps the level 2. -/
theorem c57_not_l1 : ∃ info, bidiInfo ([0x5D0] ++ [0x62, 0x20] ++ [0x62]) (some 1) = .ok info ∧
    reorderedLevels info ⟨⟨0, 5⟩, 1⟩ (lineRange [0x5D0] [0x62, 0x20]) = .ok [1, 1, 2, 2, 2] ∧ l1Resets ([0x62, 0x20].map bidiClass) 1 = true := by
  rw [bidiInfo, new_sample (by decide)]
  refine ⟨_, rfl, by decide +kernel, ?_⟩
  have h := sample_ok (text := [0x62, 0x20]) (by decide)
  rw [List.map_cons, List.map_cons, List.map_nil, h _ (by simp), h _ (by simp)]
  decide

example : ∃ info, bidiInfo ([0x5D0, 0x62, 0x20] ++ [0x62]) (some 1) = .ok info ∧
    reorderedLevels info ⟨⟨0, 5⟩, 1⟩ ⟨0, blen [0x5D0, 0x62, 0x20]⟩ = .ok [1, 1, 2, 1, 2] := by
  rw [bidiInfo, new_sample (by decide)]
  exact ⟨_, rfl, by decide +kernel⟩

/-- **C57, in part (L2).** On a line on which rule L1 changes no level, `reorder_line` puts out the characters in the order of rule L2.
(Missing: lines where L1 does change levels. There the claim is false, since `visual_runs` reverses by the levels before L1, see `c57_not_l2`.) -/
theorem c57_l2_partial (pre line post : List Nat) (dflt : Option Nat) (hd : ∀ d, dflt = some d → d ≤ 125) (info : BidiInfo)
    (hi : bidiInfo (pre ++ line ++ post) dflt = .ok info) (hne : line ≠ []) (para : Para) (hp : para.level ≤ 126) (levels : List Nat) (order : List Run)
    (hv : visualRuns info para (lineRange pre line) = .ok (levels, order))
    (hsame : ∀ i, blen pre ≤ i → i < blen pre + blen line → levels[i]? = info.levels[i]?) :
    ∃ ls : List Nat, ls.length = line.length ∧
      (∀ (k : Nat) c j, line[k]? = some c → j < Utf.lenUtf8 c → info.levels[blen pre + blen (line.take k) + j]? = ls[k]?) ∧
      reorderLine info para (lineRange pre line) = .ok ((l2 Prod.snd (line.zip ls)).map Prod.fst) := by
  obtain ⟨h1, h2, h3, h4, h5, h6⟩ := info_facts hd hi
  have hin : ∀ (k : Nat) c j, line[k]? = some c → j < Utf.lenUtf8 c → blen pre + blen (line.take k) + j < blen pre + blen line := by
    intro k c j hk hj
    have hlt : k < line.length := by
      by_contra hn
      rw [List.getElem?_eq_none (by omega)] at hk; simp at hk
    have he : line[k] = c := by rw [List.getElem?_eq_getElem hlt] at hk; simpa using hk
    have hs := off_succ hlt
    have := off_mono (t := line) (show k + 1 ≤ line.length from hlt)
    rw [off_length, hs, he] at this
    unfold off at this
    omega
  have hu : ∀ (k : Nat) c j, line[k]? = some c → j < Utf.lenUtf8 c → levels[blen pre + blen (line.take k) + j]? = levels[blen pre + blen (line.take k)]? := by
    intro k c j hk hj
    have h0 := hin k c 0 hk (len_pos c)
    rw [Nat.add_zero] at h0
    rw [hsame _ (by omega) (hin k c j hk hj), hsame _ (by omega) h0]
    exact uniform_levels hd hi k c j hk hj
  obtain ⟨ls, a1, a2, a3, a4⟩ := reorder_facts hd hi hne hp hv hu
  have hlen : pre.length + line.length ≤ info.text.length := by rw [h1]; simp
  have hoA : off info.text pre.length = blen pre := by rw [h1, List.append_assoc]; simp [off]
  have hoB : off info.text (pre.length + line.length) = blen pre + blen line := by
    rw [h1, ← List.length_append, ← blen_append, off, List.take_left]
  have hag : Agree info.text info.levels ls pre.length (pre.length + line.length) := by
    intro k hk k1 k2 j hj
    have := a2 k hk k1 k2 j hj
    rw [← (visual_levels hd hi hne hp hv).1] at this
    have b1 := off_mono (t := info.text) k1
    have b2 := off_mono (t := info.text) (show k + 1 ≤ pre.length + line.length from k2)
    have b3 := off_succ hk
    rw [← this, hsame _ (by omega) (by omega)]
  refine ⟨(ls.drop pre.length).take line.length, by simp; omega, ?_, reorder_l2 h1 (by rw [h4, h1]) (by rw [h5, h1]) hne a1 a2 a3 a4 hag⟩
  intro k c j hk hj
  have hlt : k < line.length := by
    by_contra hn
    rw [List.getElem?_eq_none (by omega)] at hk; simp at hk
  have hk' : pre.length + k < info.text.length := by omega
  have hc : info.text[pre.length + k] = c := by
    have : info.text[pre.length + k]? = some c := by
      rw [h1, List.append_assoc, List.getElem?_append_right (by omega), Nat.add_sub_cancel_left, List.getElem?_append_left hlt, hk]
    rw [List.getElem?_eq_getElem hk'] at this; simpa using this
  have ho : off info.text (pre.length + k) = blen pre + blen (line.take k) := by
    rw [h1, off, List.append_assoc, List.take_length_add_append, List.take_append_of_le_length (by omega), blen_append]
  have := hag (pre.length + k) hk' (by omega) (by omega) j (by rw [hc]; exact hj)
  rw [ho] at this
  rw [this, List.getElem?_take, if_pos hlt, List.getElem?_drop]

/-- The claim fails when L1 changes a level: for "א\tב" in a left-to-right paragraph the tab has the paragraph level after L1, so that L2 reverses
nothing across it, but `reorder_line` does. -/
theorem c57_not_l2 : ∃ info, bidiInfo [0x5D0, 0x9, 0x5D1] (some 0) = .ok info ∧
    reorderedLevels info ⟨⟨0, 5⟩, 0⟩ ⟨0, 5⟩ = .ok [1, 1, 0, 1, 1] ∧
    reorderLine info ⟨⟨0, 5⟩, 0⟩ ⟨0, 5⟩ = .ok [0x5D1, 0x9, 0x5D0] ∧
    (l2 Prod.snd (List.zip [0x5D0, 0x9, 0x5D1] [1, 0, 1])).map Prod.fst = [0x5D0, 0x9, 0x5D1] := by
  rw [bidiInfo, new_sample (by decide)]
  exact ⟨_, rfl, by decide +kernel, by decide +kernel, by decide⟩

example : ∃ info, bidiInfo ([0x61] ++ [0x5D0, 0x31, 0x5D1] ++ [0x61]) none = .ok info ∧
    ∃ levels order, visualRuns info ⟨⟨0, 7⟩, 0⟩ (lineRange [0x61] [0x5D0, 0x31, 0x5D1]) = .ok (levels, order) ∧
      (∀ i, blen [0x61] ≤ i → i < blen [0x61] + blen [0x5D0, 0x31, 0x5D1] → levels[i]? = info.levels[i]?) ∧
      reorderLine info ⟨⟨0, 7⟩, 0⟩ (lineRange [0x61] [0x5D0, 0x31, 0x5D1]) = .ok [0x5D1, 0x31, 0x5D0] := by
  rw [bidiInfo, new_sample (by decide)]
  refine ⟨_, rfl, _, _, rfl, ?_, by decide +kernel⟩
  intro i _ _
  rfl

end Props.Bidi
