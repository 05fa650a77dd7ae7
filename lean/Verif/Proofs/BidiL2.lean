import Verif.Proofs.BidiLine

/-! # Lines: runs and rule L2 -/
namespace Proofs.Bidi
open Model Model.Bidi Data Proofs.Punycode Model.Grapheme Proofs.Grapheme Spec.Bidi

/-! ## reversing -/

theorem reverseFrom_perm {α : Type} {lv : α → Nat} {m : Nat} : ∀ (xs acc : List α), (reverseFrom lv m acc xs).Perm (acc ++ xs)
  | [], acc => by simp [reverseFrom]
  | x :: xs, acc => by
    rw [reverseFrom]
    split_ifs
    · refine (reverseFrom_perm xs (x :: acc)).trans ?_
      simpa using (List.perm_middle (a := x) (l₁ := acc) (l₂ := xs)).symm
    · exact List.Perm.append_left acc (List.Perm.cons x (by simpa using reverseFrom_perm xs ([] : List α)))

theorem reverseDown_perm {α : Type} {lv : α → Nat} {m : Nat} : ∀ (n : Nat) (xs : List α), (reverseDown lv m n xs).Perm xs
  | 0, _ => List.Perm.refl _
  | n + 1, xs => (reverseDown_perm n _).trans (by simpa using reverseFrom_perm xs [])

theorem reverseFrom_high {α : Type} {lv : α → Nat} {m : Nat} : ∀ (ys acc xs : List α), (∀ y ∈ ys, m ≤ lv y) → reverseFrom lv m acc (ys ++ xs) = reverseFrom lv m (ys.reverse ++ acc) xs
  | [], _, _, _ => rfl
  | y :: ys, acc, xs, h => by
    rw [List.cons_append, reverseFrom, if_pos (h y (by simp)), reverseFrom_high ys (y :: acc) xs (fun z hz => h z (by simp [hz]))]
    simp

theorem reverseFrom_low {α : Type} {lv : α → Nat} {m : Nat} : ∀ (ys xs : List α), (∀ y ∈ ys, lv y < m) → reverseFrom lv m [] (ys ++ xs) = ys ++ reverseFrom lv m [] xs
  | [], _, _ => rfl
  | y :: ys, xs, h => by
    rw [List.cons_append, reverseFrom, if_neg (by have := h y (by simp); omega), reverseFrom_low ys xs (fun z hz => h z (by simp [hz]))]
    rfl

theorem reverseFrom_twice {α : Type} {lv : α → Nat} {m : Nat} : ∀ (xs acc : List α), (∀ y ∈ acc, m ≤ lv y) →
    reverseFrom lv m [] (reverseFrom lv m acc xs) = acc.reverse ++ xs
  | [], acc, h => by
    rw [reverseFrom]
    have := reverseFrom_high acc [] [] h
    simpa [reverseFrom] using this
  | x :: xs, acc, h => by
    rw [reverseFrom]
    split_ifs with hx
    · rw [reverseFrom_twice xs (x :: acc) (by intro y hy; rcases List.mem_cons.1 hy with rfl | hy; exacts [hx, h y hy])]
      simp
    · rw [reverseFrom_high acc [] _ h, reverseFrom, if_neg hx, reverseFrom_twice xs [] (by simp)]
      simp

theorem reverseFrom_congr {α : Type} {lv : α → Nat} {m m' : Nat} : ∀ (xs acc : List α), (∀ x ∈ xs, m ≤ lv x ↔ m' ≤ lv x) → reverseFrom lv m acc xs = reverseFrom lv m' acc xs
  | [], _, _ => rfl
  | x :: xs, acc, h => by
    rw [reverseFrom, reverseFrom, reverseFrom_congr xs _ (fun y hy => h y (by simp [hy])), reverseFrom_congr xs _ (fun y hy => h y (by simp [hy]))]
    simp only [h x (by simp)]

theorem reverseDown_add {α : Type} {lv : α → Nat} {m d : Nat} : ∀ (n : Nat) (xs : List α), reverseDown lv m (d + n) xs = reverseDown lv m d (reverseDown lv (m + d) n xs)
  | 0, _ => rfl
  | n + 1, xs => by
    rw [← Nat.add_assoc, reverseDown, reverseDown_add n, reverseDown, Nat.add_assoc]

/-- reversing at a level and at the odd level below, which does not occur, is nothing -/
theorem reverseDown_cancel {α : Type} {lv : α → Nat} {q : Nat} : ∀ (e : Nat) (xs : List α), (∀ x ∈ xs, ∀ i, i < e → lv x ≠ q + 2 * i) → reverseDown lv q (2 * e) xs = xs
  | 0, _, _ => rfl
  | e + 1, xs, h => by
    rw [show 2 * (e + 1) = 2 * e + 1 + 1 by omega, reverseDown, reverseDown]
    have h1 : reverseFrom lv (q + 2 * e) [] (reverseFrom lv (q + (2 * e + 1)) [] xs) = xs := by
      rw [reverseFrom_congr (m := q + (2 * e + 1)) (m' := q + 2 * e) xs [] (by
        intro x hx
        have := h x hx e (by omega)
        omega), reverseFrom_twice xs [] (by simp)]
      rfl
    rw [h1]
    exact reverseDown_cancel e xs (fun x hx i hi => h x hx i (by omega))

/-! ## reversing runs and characters -/

theorem reverseFrom_runs {α ρ : Type} {lv : α → Nat} {lr : ρ → Nat} {f : ρ → List α} {m : Nat} : ∀ (runs acc : List ρ), (∀ r ∈ runs, f r ≠ [] ∧ ∀ x ∈ f r, lv x = lr r) →
    (∀ r ∈ acc, m ≤ lr r) →
    reverseFrom lv m (acc.flatMap (fun r => (f r).reverse)) (runs.flatMap f) = (reverseFrom lr m acc runs).flatMap (fun r => if m ≤ lr r then (f r).reverse else f r)
  | [], acc, _, ha => by
    simp only [List.flatMap_nil, reverseFrom]
    apply List.flatMap_congr
    intro r hr
    rw [if_pos (ha r hr)]
  | r :: runs, acc, hf, ha => by
    obtain ⟨h1, h2⟩ := hf r (by simp)
    have hf' : ∀ r ∈ runs, f r ≠ [] ∧ ∀ x ∈ f r, lv x = lr r := fun s hs => hf s (by simp [hs])
    rw [List.flatMap_cons, reverseFrom]
    split_ifs with hm
    · rw [reverseFrom_high _ _ _ (fun x hx => by rw [h2 x hx]; exact hm), ← reverseFrom_runs runs (r :: acc) hf' (by
        intro s hs; rcases List.mem_cons.1 hs with rfl | hs; exacts [hm, ha s hs])]
      rfl
    · cases hfr : f r with
      | nil => exact absurd hfr h1
      | cons x xs =>
        rw [List.cons_append, reverseFrom, if_neg (by rw [h2 x (by simp [hfr])]; exact hm),
          reverseFrom_low xs _ (fun y hy => by rw [h2 y (by simp [hfr, hy])]; omega)]
        have := reverseFrom_runs (lv := lv) (m := m) runs [] hf' (by simp)
        rw [List.flatMap_nil] at this
        rw [this, List.flatMap_append, List.flatMap_cons, if_neg hm, hfr]
        congr 1
        apply List.flatMap_congr
        intro s hs
        rw [if_pos (ha s hs)]

/-- the content of a run of level `v` after reversing at `n` levels from `m` on -/
def turned {α : Type} (m n v : Nat) (xs : List α) : List α := if min n (v + 1 - m) % 2 = 1 then xs.reverse else xs

theorem turned_ne_nil {α : Type} {m n v : Nat} {xs : List α} (h : xs ≠ []) : turned m n v xs ≠ [] := by
  unfold turned; split_ifs <;> simpa using h

theorem mem_turned {α : Type} {m n v : Nat} {xs : List α} {x : α} : x ∈ turned m n v xs ↔ x ∈ xs := by
  unfold turned; split_ifs <;> simp

theorem reverseDown_runs {α ρ : Type} {lv : α → Nat} {lr : ρ → Nat} {m : Nat} : ∀ (n : Nat) (f : ρ → List α) (runs : List ρ), (∀ r ∈ runs, f r ≠ [] ∧ ∀ x ∈ f r, lv x = lr r) →
    reverseDown lv m n (runs.flatMap f) = (reverseDown lr m n runs).flatMap (fun r => turned m n (lr r) (f r))
  | 0, f, runs, _ => by
    simp only [reverseDown]
    apply List.flatMap_congr
    intro r _
    simp [turned]
  | n + 1, f, runs, h => by
    have h1 := reverseFrom_runs (lv := lv) (m := m + n) runs [] h (by simp)
    rw [List.flatMap_nil] at h1
    rw [reverseDown, h1, reverseDown, reverseDown_runs n]
    · apply List.flatMap_congr
      intro r _
      unfold turned
      by_cases hm : m + n ≤ lr r
      · rw [if_pos hm, show min n (lr r + 1 - m) = n by omega, show min (n + 1) (lr r + 1 - m) = n + 1 by omega]
        by_cases hn : n % 2 = 1
        · rw [if_pos hn, if_neg (by omega), List.reverse_reverse]
        · rw [if_neg hn, if_pos (by omega)]
      · rw [if_neg hm, show min (n + 1) (lr r + 1 - m) = min n (lr r + 1 - m) by omega]
    · intro r hr
      have hr' : r ∈ runs := by simpa using (reverseFrom_perm runs []).mem_iff.1 hr
      obtain ⟨a, b⟩ := h r hr'
      split_ifs
      · exact ⟨by simpa using a, fun x hx => b x (by simpa using hx)⟩
      · exact ⟨a, b⟩

theorem turned_parity {α : Type} {m n v : Nat} (xs : List α) (hm : m % 2 = 1) (h1 : m ≤ v + 1) (h2 : v < m + n) : turned m n v xs = if v % 2 = 1 then xs.reverse else xs := by
  unfold turned
  rw [show min n (v + 1 - m) = v + 1 - m by omega]
  by_cases h : v % 2 = 1
  · rw [if_pos (by omega), if_pos h]
  · rw [if_neg (by omega), if_neg h]

/-! ## L2 with any lower bound -/

theorem foldr_min_mem : ∀ (ls : List Nat) (l : Nat), ls.foldr min l ∈ l :: ls ∧ ∀ x ∈ l :: ls, ls.foldr min l ≤ x
  | [], l => by simp
  | a :: ls, l => by
    obtain ⟨h1, h2⟩ := foldr_min_mem ls l
    rw [List.foldr_cons]
    constructor
    · rcases Nat.le_total a (ls.foldr min l) with h | h
      · rw [Nat.min_eq_left h]; simp
      · rw [Nat.min_eq_right h]
        rcases List.mem_cons.1 h1 with e | e
        · rw [e]; simp
        · simp [e]
    · intro x hx
      rcases List.mem_cons.1 hx with rfl | hx
      · exact le_trans (Nat.min_le_right _ _) (h2 x (by simp))
      · rcases List.mem_cons.1 hx with rfl | hx
        · exact Nat.min_le_left _ _
        · exact le_trans (Nat.min_le_right _ _) (h2 x (by simp [hx]))

theorem highest_le {α : Type} {lv : α → Nat} : ∀ (xs : List α), ∀ x ∈ xs, lv x ≤ highest lv xs
  | [], x, h => by simp at h
  | a :: xs, x, h => by
    unfold highest
    rw [List.foldr_cons]
    rcases List.mem_cons.1 h with rfl | h
    · exact Nat.le_max_left _ _
    · exact le_trans (highest_le xs x h) (Nat.le_max_right _ _)

theorem highest_mem {α : Type} {lv : α → Nat} : ∀ (xs : List α), xs ≠ [] → ∃ x ∈ xs, lv x = highest lv xs
  | [], h => absurd rfl h
  | [a], _ => ⟨a, by simp, by simp [highest]⟩
  | a :: b :: xs, _ => by
    obtain ⟨x, hx, he⟩ := highest_mem (lv := lv) (b :: xs) (by simp)
    have e : highest lv (a :: b :: xs) = max (lv a) (highest lv (b :: xs)) := rfl
    rcases Nat.le_total (lv a) (highest lv (b :: xs)) with h | h
    · exact ⟨x, by simp [List.mem_cons.1 hx], by rw [e, Nat.max_eq_right h, he]⟩
    · exact ⟨a, by simp, by rw [e, Nat.max_eq_left h]⟩

/-- going on to any lower odd level changes nothing -/
theorem l2_eq {α : Type} {lv : α → Nat} {xs : List α} {q : Nat} (hq : q % 2 = 1) (hlow : ∀ x ∈ xs, q ≤ lv x + 1) (hodd : ∃ x ∈ xs, lv x % 2 = 1) :
    l2 lv xs = reverseDown lv q (highest lv xs + 1 - q) xs := by
  unfold l2
  have hmem : ∀ l, l ∈ (xs.map lv).filter (fun l => l % 2 = 1) ↔ ∃ x ∈ xs, lv x = l ∧ l % 2 = 1 := by
    intro l
    simp only [List.mem_filter, List.mem_map, decide_eq_true_eq]
    constructor
    · rintro ⟨⟨x, hx, e⟩, h⟩; exact ⟨x, hx, e, h⟩
    · rintro ⟨x, hx, e, h⟩; exact ⟨⟨x, hx, e⟩, h⟩
  split
  · rename_i he
    obtain ⟨x, hx, h⟩ := hodd
    have := (hmem (lv x)).2 ⟨x, hx, rfl, h⟩
    rw [he] at this; simp at this
  · rename_i l ls he
    rw [he] at hmem
    obtain ⟨h1, h2⟩ := foldr_min_mem ls l
    generalize ls.foldr min l = v at *
    obtain ⟨x0, hx0, hv, hvo⟩ := (hmem v).1 h1
    have hqv : q ≤ v := by have := hlow x0 hx0; omega
    have hvh : v ≤ highest lv xs := by rw [← hv]; exact highest_le xs x0 hx0
    obtain ⟨e, he'⟩ : ∃ e, v = q + 2 * e := ⟨(v - q) / 2, by omega⟩
    rw [show highest lv xs + 1 - q = 2 * e + (highest lv xs + 1 - v) by omega, reverseDown_add, ← he', reverseDown_cancel]
    intro x hx i hi hxe
    have hx' : x ∈ xs := (reverseDown_perm _ _).mem_iff.1 hx
    have := h2 (lv x) ((hmem (lv x)).2 ⟨x, hx', rfl, by omega⟩)
    omega

theorem l2_even {α : Type} {lv : α → Nat} {xs : List α} (h : ∀ x ∈ xs, lv x % 2 = 0) : l2 lv xs = xs := by
  unfold l2
  have : (xs.map lv).filter (fun l => l % 2 = 1) = [] := by
    rw [List.filter_eq_nil_iff]
    intro l hl
    obtain ⟨x, hx, rfl⟩ := List.mem_map.1 hl
    have := h x hx
    simp; omega
  rw [this]

/-! ## the runs of the line -/

theorem scan_ok {L : List Nat} : ∀ (n i : Nat) (st : RunScan), i + n ≤ L.length → st.start < i → (∀ k, st.start ≤ k → k < i → L[k]? = some st.level) →
    st.minLevel ≤ st.level → st.level ≤ st.maxLevel →
    ∃ st' new, RunScan.loop L (List.range' i n) st = .ok st' ∧ st'.runs = st.runs ++ new ∧ Tiles st.start (i + n) (new ++ [⟨st'.start, i + n⟩]) ∧
      (∀ r ∈ new ++ [⟨st'.start, i + n⟩], (∀ k, r.start ≤ k → k < r.stop → L[k]? = L[r.start]?) ∧ (r.start = st.start ∨ L[r.start - 1]? ≠ L[r.start]?)) ∧
      (∀ k l, st.start ≤ k → k < i + n → L[k]? = some l → st'.minLevel ≤ l ∧ l ≤ st'.maxLevel) ∧
      (st'.minLevel = st.minLevel ∨ ∃ k, st.start ≤ k ∧ k < i + n ∧ L[k]? = some st'.minLevel) ∧
      (st'.maxLevel = st.maxLevel ∨ ∃ k, st.start ≤ k ∧ k < i + n ∧ L[k]? = some st'.maxLevel) ∧ st'.minLevel ≤ st.minLevel ∧ st.maxLevel ≤ st'.maxLevel
  | 0, i, st, h, hs, hl, h1, h2 => by
    refine ⟨st, [], rfl, by simp, ⟨rfl, hs, rfl⟩, ?_, ?_, Or.inl rfl, Or.inl rfl, Nat.le_refl _, Nat.le_refl _⟩
    · intro r hr
      simp at hr; subst hr
      exact ⟨fun k a b => by rw [hl k a b, hl st.start (Nat.le_refl _) hs], Or.inl rfl⟩
    · intro k l a b e
      rw [hl k a b] at e
      simp at e; subst e
      exact ⟨h1, h2⟩
  | n + 1, i, st, h, hs, hl, h1, h2 => by
    have hi : L[i]? = some (L[i]'(by omega)) := List.getElem?_eq_getElem (by omega)
    rw [List.range'_succ]
    simp only [RunScan.loop, at_ok hi, bind_ok]
    rw [show i + (n + 1) = i + 1 + n by omega]
    by_cases hne : L[i] ≠ st.level
    · rw [if_pos hne]
      obtain ⟨st', new, e1, e2, e3, e4, e5, e6, e7, e8, e9⟩ := scan_ok (L := L) n (i + 1) ⟨st.runs ++ [⟨st.start, i⟩], i, L[i], min L[i] st.minLevel, max L[i] st.maxLevel⟩
        (by omega) (by simp) (by intro k a b; simp only at a ⊢; rw [show k = i by omega]; exact hi) (by simp) (by simp)
      simp only at e2 e3 e4 e5 e6 e7 e8 e9
      refine ⟨st', ⟨st.start, i⟩ :: new, e1, by rw [e2]; simp, ⟨rfl, hs, e3⟩, ?_, ?_, ?_, ?_, ?_, ?_⟩
      · intro r hr
        rw [List.cons_append] at hr
        rcases List.mem_cons.1 hr with rfl | hr
        · exact ⟨fun k a b => by simp only at a b ⊢; rw [hl k a b, hl st.start (Nat.le_refl _) hs], Or.inl rfl⟩
        · obtain ⟨a, b⟩ := e4 r hr
          refine ⟨a, Or.inr ?_⟩
          rcases b with b | b
          · rw [b, hl (i - 1) (by omega) (by omega), hi]; simpa using hne.symm
          · exact b
      · intro k l a b e
        by_cases hk : i ≤ k
        · exact e5 k l hk b e
        · rw [hl k a (by omega)] at e
          simp at e; subst e
          exact ⟨by omega, by omega⟩
      · rcases e6 with e | ⟨k, a, b, e⟩
        · rcases Nat.le_total L[i] st.minLevel with h' | h'
          · right; exact ⟨i, by omega, by omega, by rw [e, Nat.min_eq_left h', hi]⟩
          · left; rw [e, Nat.min_eq_right h']
        · right; exact ⟨k, by omega, b, e⟩
      · rcases e7 with e | ⟨k, a, b, e⟩
        · rcases Nat.le_total L[i] st.maxLevel with h' | h'
          · left; rw [e, Nat.max_eq_right h']
          · right; exact ⟨i, by omega, by omega, by rw [e, Nat.max_eq_left h', hi]⟩
        · right; exact ⟨k, by omega, b, e⟩
      · omega
      · omega
    · rw [if_neg hne]
      simp only [ne_eq, not_not] at hne
      exact scan_ok n (i + 1) st (by omega) (by omega) (by
        intro k a b
        by_cases hk : k = i
        · subst hk; rw [hi, hne]
        · exact hl k a (by omega)) h1 h2

/-! ## L2 of the program -/

theorem reverseSeqs_eq {levels : List Nat} {m : Nat} : ∀ (runs acc : List Run), (∀ r ∈ runs, r.start < levels.length) →
    reverseSeqs levels m runs acc = .ok (reverseFrom (fun r => levels.getD r.start 0) m acc runs)
  | [], _, _ => rfl
  | r :: runs, acc, h => by
    have hr := h r (by simp)
    have hg : levels.getD r.start 0 = levels[r.start] := getD_of_lt hr
    rw [reverseSeqs, at_ok (List.getElem?_eq_getElem hr), bind_ok, reverseFrom, hg]
    by_cases hm : m ≤ levels[r.start]
    · rw [if_neg (by omega), if_pos hm]
      exact reverseSeqs_eq runs (r :: acc) (fun s hs => h s (by simp [hs]))
    · rw [if_pos (by omega), if_neg hm, reverseSeqs_eq runs [] (fun s hs => h s (by simp [hs]))]
      rfl

theorem l2Loop_eq {levels : List Nat} {q : Nat} (hq : 1 ≤ q) : ∀ (m : Nat) (runs : List Run), (∀ r ∈ runs, r.start < levels.length) →
    l2Loop levels q m runs = .ok (reverseDown (fun r => levels.getD r.start 0) q (m + 1 - q) runs)
  | 0, runs, _ => by
    rw [l2Loop, if_neg (by omega), show 0 + 1 - q = 0 by omega]; rfl
  | m + 1, runs, h => by
    rw [l2Loop]
    by_cases hm : q ≤ m + 1
    · rw [if_pos hm, reverseSeqs_eq runs [] h, bind_ok, l2Loop_eq hq m _ (fun r hr => h r (by simpa using (reverseFrom_perm runs []).mem_iff.1 hr)),
        show m + 1 + 1 - q = m + 1 - q + 1 by omega, reverseDown, show q + (m + 1 - q) = m + 1 by omega]
    · rw [if_neg hm, show m + 1 + 1 - q = 0 by omega]; rfl

end Proofs.Bidi
