import Verif.Proofs.BidiL2

/-! # Lines: `visual_runs` and `reorder_line` -/
namespace Proofs.Bidi
open Model Model.Bidi Data Proofs.Punycode Model.Grapheme Proofs.Grapheme Spec.Bidi

theorem lowest_rtl : ∀ lo, lo < 126 → ∃ q, Level.newLowestGeRtl lo = some q ∧ q % 2 = 1 ∧ lo ≤ q ∧ q ≤ lo + 1 := by
  have h : ∀ lo : Fin 126, ∃ q : Fin 128, Level.newLowestGeRtl lo = some q.val ∧ q.val % 2 = 1 ∧ lo.val ≤ q.val ∧ q.val ≤ lo.val + 1 := by decide +kernel
  intro lo hlo
  obtain ⟨q, hq⟩ := h ⟨lo, hlo⟩
  exact ⟨q.val, hq⟩

theorem lowest_none : Level.newLowestGeRtl 126 = none := by decide

theorem tiles_in : ∀ {runs : List Run} {a b : Nat}, Tiles a b runs → a ≤ b ∧ ∀ r ∈ runs, a ≤ r.start ∧ r.start < r.stop ∧ r.stop ≤ b
  | [], a, b, h => ⟨by simp only [Tiles] at h; omega, by simp⟩
  | r :: rs, a, b, ⟨h1, h2, h3⟩ => by
    obtain ⟨i1, i2⟩ := tiles_in h3
    refine ⟨by omega, ?_⟩
    intro s hs
    rcases List.mem_cons.1 hs with rfl | hs
    · omega
    · have := i2 s hs; omega

/-- what `visual_runs` gives -/
def visualResult (info : BidiInfo) (L : List Nat) (lo hi : Nat) (runs : List Run) : Outcome (List Nat × List Run) :=
  match Level.newLowestGeRtl lo with
  | none => .panic
  | some q => .ok (L, reverseDown (fun r => info.levels.getD r.start 0) q (hi + 1 - q) runs)

/-- the runs of a line -/
structure LineRuns (L : List Nat) (a b : Nat) (runs : List Run) (lo hi : Nat) : Prop where
  tiles : Tiles a b runs
  uniform : ∀ r ∈ runs, ∀ k, r.start ≤ k → k < r.stop → L[k]? = L[r.start]?
  sep : ∀ r ∈ runs, r.start = a ∨ L[r.start - 1]? ≠ L[r.start]?
  bound : ∀ k l, a ≤ k → k < b → L[k]? = some l → lo ≤ l ∧ l ≤ hi
  low : ∃ k, a ≤ k ∧ k < b ∧ L[k]? = some lo
  high : ∃ k, a ≤ k ∧ k < b ∧ L[k]? = some hi

theorem visualRuns_eq {info : BidiInfo} {para : Para} {pre line post : List Nat} (ht : info.text = pre ++ line ++ post) (hc : info.classes.length = blen info.text)
    (hl : info.levels.length = blen info.text) (hne : line ≠ []) :
    ∃ runs lo hi, LineRuns (l1Levels info para.level line) (blen pre) (blen pre + blen line) runs lo hi ∧
      visualRuns info para ⟨blen pre, blen pre + blen line⟩ = visualResult info (l1Levels info para.level line) lo hi runs := by
  have hlen : info.levels.length = blen pre + blen line + blen post := by rw [hl, ht, blen_append, blen_append]
  have hclen : info.classes.length = blen pre + blen line + blen post := by rw [hc, ht, blen_append, blen_append]
  have hpos : 0 < blen line := by cases line with
    | nil => exact absurd rfl hne
    | cons x xs => exact blen_pos x xs
  have hLl : (l1Levels info para.level line).length = info.levels.length := by simp [l1Levels]
  have hL := lineLevels_ok (info := info) (para := para) (line := line) (by omega) (by omega)
  generalize l1Levels info para.level line = L at *
  have h0 : L[blen pre]? = some (L[blen pre]'(by omega)) := List.getElem?_eq_getElem (by omega)
  generalize L[blen pre]'(by omega) = l0 at h0
  obtain ⟨st, new, e1, e2, e3, e4, e5, e6, e7, e8, e9⟩ := scan_ok (L := L) (blen line - 1) (blen pre + 1) ⟨[], blen pre, l0, l0, l0⟩ (by omega) (by simp)
    (by intro k a b; simp only at a ⊢; rw [show k = blen pre by omega]; exact h0) (Nat.le_refl _) (Nat.le_refl _)
  simp only [List.nil_append, show blen pre + 1 + (blen line - 1) = blen pre + blen line by omega] at e1 e2 e3 e4 e5 e6 e7
  refine ⟨new ++ [⟨st.start, blen pre + blen line⟩], st.minLevel, st.maxLevel, ⟨e3, fun r hr => (e4 r hr).1, fun r hr => (e4 r hr).2, e5, ?_, ?_⟩, ?_⟩
  · rcases e6 with e | e
    · exact ⟨blen pre, Nat.le_refl _, by omega, by rw [h0, e]⟩
    · exact e
  · rcases e7 with e | e
    · exact ⟨blen pre, Nat.le_refl _, by omega, by rw [h0, e]⟩
    · exact e
  · unfold visualRuns visualResult
    rw [if_pos (by simp only; omega)]
    have hs : slice info.text (blen pre) (blen pre + blen line) = .ok line := by
      have := slice_append pre line post
      rw [blen_append] at this
      rw [ht]; exact this
    simp only [hs, bind_ok, hL, at_ok h0, show blen pre + blen line - (blen pre + 1) = blen line - 1 by omega, e1, e2]
    cases hq : Level.newLowestGeRtl st.minLevel with
    | none => rfl
    | some q =>
      have hq1 : 1 ≤ q := by
        have : ∀ l, (l ||| 1) ≠ 0 := by intro l; simp
        unfold Level.newLowestGeRtl Level.new at hq
        split_ifs at hq
        have := this st.minLevel
        simp only [Option.some.injEq] at hq
        omega
      simp only
      rw [l2Loop_eq hq1 _ _ (by intro r hr; have := (tiles_in e3).2 r hr; omega)]
      rfl

/-! ## runs of characters -/

theorem reverseFrom_map {α β : Type} {lv : β → Nat} {g : α → β} {m : Nat} : ∀ (xs acc : List α),
    reverseFrom lv m (acc.map g) (xs.map g) = (reverseFrom (fun a => lv (g a)) m acc xs).map g
  | [], acc => rfl
  | x :: xs, acc => by
    rw [List.map_cons, reverseFrom, reverseFrom]
    split_ifs
    · exact reverseFrom_map xs (x :: acc)
    · have := reverseFrom_map (lv := lv) (g := g) (m := m) xs []
      rw [List.map_nil] at this
      rw [this, List.map_append, List.map_cons]

theorem reverseDown_map {α β : Type} {lv : β → Nat} {g : α → β} {m : Nat} : ∀ (n : Nat) (xs : List α),
    reverseDown lv m n (xs.map g) = (reverseDown (fun a => lv (g a)) m n xs).map g
  | 0, _ => rfl
  | n + 1, xs => by
    have := reverseFrom_map (lv := lv) (g := g) (m := m + n) xs []
    rw [List.map_nil] at this
    rw [reverseDown, this, reverseDown_map n, reverseDown]

theorem off_inj {t : List Nat} {a b : Nat} (h : off t a < off t b) : a < b := by
  by_contra hn
  have := off_mono (t := t) (show b ≤ a by omega)
  omega

theorem tiles_chars {t : List Nat} {B : Nat} : ∀ (runs : List Run) (a : Nat), Tiles (off t a) (off t B) runs → (runs = [] → a = B) → (∀ r ∈ runs, ∃ k, r.start = off t k) →
    ∃ cr, runs = cr.map (mapRun t) ∧ Tiles a B cr
  | [], a, _, ha, _ => ⟨[], rfl, ha rfl⟩
  | r :: rs, a, ⟨h1, h2, h3⟩, _, hk => by
    cases hrs : rs with
    | nil =>
      subst hrs
      simp only [Tiles] at h3
      have hlt : a < B := off_inj (t := t) (by omega)
      exact ⟨[⟨a, B⟩], by simp [mapRun, ← h1, ← h3], rfl, hlt, rfl⟩
    | cons r2 rs2 =>
      obtain ⟨k, hk2⟩ := hk r2 (by simp [hrs])
      have hst : r.stop = off t k := by rw [hrs] at h3; rw [← h3.1, hk2]
      have hlt : a < k := off_inj (t := t) (by omega)
      have h3' : Tiles (off t k) (off t B) rs := hst ▸ h3
      obtain ⟨cr, e1, e2⟩ := tiles_chars (B := B) rs k h3' (by simp [hrs]) (fun s hs => hk s (by simp [hs]))
      refine ⟨⟨a, k⟩ :: cr, ?_, rfl, hlt, e2⟩
      rw [← hrs, e1, List.map_cons]
      congr 1
      simp [mapRun, ← h1, ← hst]

/-- the characters of a run -/
def seg {α : Type} (P : List α) (r : Run) : List α := (P.drop r.start).take (r.stop - r.start)

theorem tiles_seg {α : Type} {P : List α} : ∀ {cr : List Run} {a b : Nat}, Tiles a b cr → cr.flatMap (seg P) = (P.drop a).take (b - a)
  | [], a, b, h => by simp only [Tiles] at h; simp [h]
  | r :: rs, a, b, h => by
    obtain ⟨h1, h2, h3⟩ := h
    have := (tiles_in h3).1
    subst h1
    rw [List.flatMap_cons, tiles_seg h3, seg, show b - r.start = (r.stop - r.start) + (b - r.stop) by omega, List.take_add, List.drop_drop,
      show r.start + (r.stop - r.start) = r.stop by omega]

theorem seg_length {α : Type} {P : List α} {r : Run} (h : r.stop ≤ P.length) : (seg P r).length = r.stop - r.start := by
  simp [seg]; omega

theorem seg_get {α : Type} {P : List α} {r : Run} {x : α} (hx : x ∈ seg P r) : ∃ k, r.start ≤ k ∧ k < r.stop ∧ P[k]? = some x := by
  obtain ⟨i, hi⟩ := List.mem_iff_getElem?.1 hx
  unfold seg at hi
  rw [List.getElem?_take] at hi
  split_ifs at hi with h
  rw [List.getElem?_drop] at hi
  exact ⟨r.start + i, by omega, by omega, hi⟩

theorem slice_off {t : List Nat} {a b : Nat} (hab : a ≤ b) (hb : b ≤ t.length) : slice t (off t a) (off t b) = .ok ((t.drop a).take (b - a)) := by
  have h := slice_append (t.take a) ((t.drop a).take (b - a)) (t.drop b)
  have h1 : t.take a ++ (t.drop a).take (b - a) = t.take b := by
    rw [show b = a + (b - a) by omega, List.take_add]; simp
  rw [h1, List.take_append_drop] at h
  exact h

/-- on the characters from `A` to `B` the entries of `L` are those of `ls` -/
def Agree (t L ls : List Nat) (A B : Nat) : Prop := ∀ k (hk : k < t.length), A ≤ k → k < B → ∀ j, j < Utf.lenUtf8 t[k] → L[off t k + j]? = ls[k]?

theorem line_boundary {t L ls : List Nat} {A B i : Nat} (h : Agree t L ls A B) (hB : B ≤ t.length) (hA : off t A < i) (hi : i < off t B) (hne : L[i - 1]? ≠ L[i]?) :
    ∃ k, i = off t k := by
  obtain ⟨k, hk, h1, h2⟩ := byte_char t i (lt_of_lt_of_le hi (by rw [← off_length]; exact off_mono hB))
  by_cases he : i = off t k
  · exact ⟨k, he⟩
  · have hs := off_succ hk
    have hkA : A ≤ k := by
      have : A < k + 1 := off_inj (t := t) (by omega)
      omega
    have hkB : k < B := off_inj (t := t) (by omega)
    have a1 := h k hk hkA hkB (i - off t k) h2
    have a2 := h k hk hkA hkB (i - 1 - off t k) (by omega)
    rw [show off t k + (i - off t k) = i by omega] at a1
    rw [show off t k + (i - 1 - off t k) = i - 1 by omega] at a2
    exact absurd (a2.trans a1.symm) hne

/-- runs of characters of equal level -/
structure CharRuns (ls : List Nat) (A B : Nat) (cr : List Run) (lo hi : Nat) : Prop where
  tiles : Tiles A B cr
  uniform : ∀ r ∈ cr, ∀ k, r.start ≤ k → k < r.stop → ls[k]? = ls[r.start]?
  sep : ∀ r ∈ cr, r.start = A ∨ ls[r.start - 1]? ≠ ls[r.start]?
  bound : ∀ k l, A ≤ k → k < B → ls[k]? = some l → lo ≤ l ∧ l ≤ hi
  low : ∃ k, A ≤ k ∧ k < B ∧ ls[k]? = some lo
  high : ∃ k, A ≤ k ∧ k < B ∧ ls[k]? = some hi

theorem agree_at {t L ls : List Nat} {A B k : Nat} (h : Agree t L ls A B) (hk : k < t.length) (h1 : A ≤ k) (h2 : k < B) : L[off t k]? = ls[k]? := by
  have := h k hk h1 h2 0 (len_pos _)
  simpa using this

theorem line_char {t : List Nat} {A B i : Nat} (hB : B ≤ t.length) (hA : off t A ≤ i) (hi : i < off t B) :
    ∃ k, ∃ hk : k < t.length, A ≤ k ∧ k < B ∧ off t k ≤ i ∧ i - off t k < Utf.lenUtf8 t[k] := by
  obtain ⟨k, hk, h1, h2⟩ := byte_char t i (lt_of_lt_of_le hi (by rw [← off_length]; exact off_mono hB))
  have hs := off_succ hk
  have : A < k + 1 := off_inj (t := t) (by omega)
  exact ⟨k, hk, by omega, off_inj (t := t) (by omega), h1, h2⟩

theorem charRuns {t L ls : List Nat} {A B : Nat} {runs : List Run} {lo hi : Nat} (h : Agree t L ls A B) (hAB : A < B) (hB : B ≤ t.length)
    (hr : LineRuns L (off t A) (off t B) runs lo hi) : ∃ cr, runs = cr.map (mapRun t) ∧ CharRuns ls A B cr lo hi := by
  have hb := tiles_in hr.tiles
  have hlt := off_lt hAB hB
  obtain ⟨cr, e1, e2⟩ := tiles_chars runs A hr.tiles (by rintro rfl; have := hr.tiles; simp only [Tiles] at this; omega) (by
    intro r hr'
    rcases hr.sep r hr' with e | e
    · exact ⟨A, e⟩
    · by_cases he : r.start = off t A
      · exact ⟨A, he⟩
      · have := hb.2 r hr'
        exact line_boundary h hB (by omega) (by omega) e)
  have hcb := tiles_in e2
  have find : ∀ l, (∃ k, off t A ≤ k ∧ k < off t B ∧ L[k]? = some l) → ∃ k, A ≤ k ∧ k < B ∧ ls[k]? = some l := by
    rintro l ⟨i, h1, h2, h3⟩
    obtain ⟨k, hk, a, b, c, d⟩ := line_char hB h1 h2
    have := h k hk a b _ d
    rw [show off t k + (i - off t k) = i by omega, h3] at this
    exact ⟨k, a, b, this.symm⟩
  refine ⟨cr, e1, e2, ?_, ?_, ?_, find _ hr.low, find _ hr.high⟩
  · intro r hrc k h1 h2
    have hb' := hcb.2 r hrc
    have := hr.uniform (mapRun t r) (by rw [e1]; exact List.mem_map_of_mem hrc) (off t k) (off_mono h1) (off_lt h2 (by omega))
    rw [agree_at h (by omega) (by omega) (by omega)] at this
    simp only [mapRun] at this
    rw [agree_at h (by omega) (by omega) (by omega)] at this
    exact this
  · intro r hrc
    have hb' := hcb.2 r hrc
    by_cases he : r.start = A
    · exact Or.inl he
    · right
      have hk : r.start - 1 < t.length := by omega
      have hs := off_succ hk
      rw [show r.start - 1 + 1 = r.start by omega] at hs
      have hpos := len_pos t[r.start - 1]
      rcases hr.sep (mapRun t r) (by rw [e1]; exact List.mem_map_of_mem hrc) with e | e
      · simp only [mapRun] at e
        have := off_lt (t := t) (show A < r.start by omega) (by omega)
        omega
      · simp only [mapRun] at e
        rw [agree_at h (by omega) (by omega) (by omega)] at e
        have := h (r.start - 1) hk (by omega) (by omega) (Utf.lenUtf8 t[r.start - 1] - 1) (by omega)
        rw [show off t (r.start - 1) + (Utf.lenUtf8 t[r.start - 1] - 1) = off t r.start - 1 by omega] at this
        rw [this] at e
        exact e
  · intro k l h1 h2 h3
    have hk : k < t.length := by omega
    exact hr.bound (off t k) l (off_mono h1) (off_lt h2 hB) (by rw [agree_at h hk h1 h2, h3])

/-! ## `reorder_line` -/

/-- a run as it is shown -/
def shown (text ls : List Nat) (r : Run) : List Nat := if ls.getD r.start 0 % 2 = 1 then (seg text r).reverse else seg text r

theorem runText_ok {info : BidiInfo} {L ls : List Nat} {A B : Nat} {r : Run} (h : Agree info.text L ls A B) (hB : B ≤ info.text.length) (hls : B ≤ ls.length) (h1 : A ≤ r.start) (h2 : r.start < r.stop) (h3 : r.stop ≤ B) :
    runText info L (mapRun info.text r) = .ok (shown info.text ls r) := by
  have hl : L[off info.text r.start]? = some (ls[r.start]'(by omega)) := by
    rw [agree_at h (by omega) h1 (by omega)]; exact List.getElem?_eq_getElem _
  unfold runText shown mapRun
  simp only [at_ok hl, bind_ok, slice_off (t := info.text) (Nat.le_of_lt h2) (by omega), Level.isRtl, getD_of_lt (show r.start < ls.length by omega), beq_iff_eq]
  split_ifs <;> rfl

theorem allLtr_ok {L : List Nat} {g : Run → Run} {lr : Run → Nat} : ∀ (runs : List Run), (∀ r ∈ runs, L[(g r).start]? = some (lr r)) →
    allLtr L (runs.map g) = .ok (runs.all (fun r => lr r % 2 == 0))
  | [], _ => rfl
  | r :: rs, h => by
    rw [List.map_cons, allLtr, at_ok (h r (by simp)), bind_ok, List.all_cons]
    cases he : Level.isLtr (lr r) with
    | true =>
      rw [if_pos rfl, allLtr_ok rs (fun s hs => h s (by simp [hs]))]
      unfold Level.isLtr at he
      rw [he, Bool.true_and]
    | false =>
      unfold Level.isLtr at he
      rw [he]; rfl

theorem flatten_map_perm {α β : Type} {f g : α → List β} : ∀ (l : List α), (∀ a ∈ l, (f a).Perm (g a)) → (l.map f).flatten.Perm (l.flatMap g)
  | [], _ => List.Perm.refl _
  | a :: l, h => by
    rw [List.map_cons, List.flatten_cons, List.flatMap_cons]
    exact (h a (by simp)).append (flatten_map_perm l (fun b hb => h b (by simp [hb])))

theorem shown_perm (text ls : List Nat) (r : Run) : (shown text ls r).Perm (seg text r) := by
  unfold shown
  split_ifs
  · exact List.reverse_perm _
  · exact List.Perm.refl _

/-- what `reorder_line` does with the runs -/
theorem reorder_runs {info : BidiInfo} {para : Para} {pre line post ls : List Nat} (ht : info.text = pre ++ line ++ post) (hc : info.classes.length = blen info.text)
    (hl : info.levels.length = blen info.text) (hne : line ≠ []) (hls : ls.length = info.text.length)
    (ha : Agree info.text (l1Levels info para.level line) ls pre.length (pre.length + line.length)) (h126 : ∀ l ∈ ls, l ≤ 126)
    (hlow : ∃ (k : Nat) (l : Nat), pre.length ≤ k ∧ k < pre.length + line.length ∧ ls[k]? = some l ∧ l < 126) :
    ∃ cr lo hi q, CharRuns ls pre.length (pre.length + line.length) cr lo hi ∧ Level.newLowestGeRtl lo = some q ∧ q % 2 = 1 ∧ lo ≤ q ∧ q ≤ lo + 1 ∧
      let order := reverseDown (fun r => info.levels.getD (off info.text r.start) 0) q (hi + 1 - q) cr
      visualRuns info para ⟨blen pre, blen pre + blen line⟩ = .ok (l1Levels info para.level line, order.map (mapRun info.text)) ∧
      reorderLine info para ⟨blen pre, blen pre + blen line⟩ =
        .ok (if cr.all (fun r => ls.getD r.start 0 % 2 == 0) then line else order.flatMap (shown info.text ls)) := by
  have hoA : off info.text pre.length = blen pre := by rw [ht, List.append_assoc]; simp [off]
  have hoB : off info.text (pre.length + line.length) = blen pre + blen line := by
    rw [ht, ← List.length_append, ← blen_append, off, List.take_left]
  have hlen : pre.length + line.length ≤ info.text.length := by rw [ht]; simp
  have hline : 0 < line.length := List.length_pos_iff.2 hne
  obtain ⟨runs, lo, hi, hr, hv⟩ := visualRuns_eq (para := para) ht hc hl hne
  rw [← hoB, ← hoA] at hr
  obtain ⟨cr, e1, e2⟩ := charRuns ha (by omega) hlen hr
  have hlo : lo < 126 := by
    obtain ⟨k, l, a, b, c, d⟩ := hlow
    have := e2.bound k l a b c
    omega
  obtain ⟨q, q1, q2, q3, q4⟩ := lowest_rtl lo hlo
  refine ⟨cr, lo, hi, q, e2, q1, q2, q3, q4, ?_⟩
  intro order
  have hv' : visualRuns info para ⟨blen pre, blen pre + blen line⟩ = .ok (l1Levels info para.level line, order.map (mapRun info.text)) := by
    rw [hv, visualResult, q1, e1]
    simp only
    rw [reverseDown_map]
    rfl
  refine ⟨hv', ?_⟩
  have hperm : order.Perm cr := reverseDown_perm _ _
  have hcb := (tiles_in e2.tiles).2
  have hord : ∀ r ∈ order, pre.length ≤ r.start ∧ r.start < r.stop ∧ r.stop ≤ pre.length + line.length := fun r hr' => hcb r (hperm.mem_iff.1 hr')
  have hallp : order.all (fun r => ls.getD r.start 0 % 2 == 0) = cr.all (fun r => ls.getD r.start 0 % 2 == 0) := by
    rw [Bool.eq_iff_iff]
    simp only [List.all_eq_true, hperm.mem_iff]
  unfold reorderLine
  rw [hv', bind_ok]
  simp only
  rw [allLtr_ok (lr := fun r => ls.getD r.start 0) order (by
    intro r hr'
    obtain ⟨a, b, c⟩ := hord r hr'
    simp only [mapRun]
    rw [agree_at ha (by omega) a (by omega), getD_of_lt (by omega)]
    exact List.getElem?_eq_getElem _), bind_ok, hallp]
  by_cases hall : cr.all (fun r => ls.getD r.start 0 % 2 == 0) = true
  · rw [if_pos hall, if_pos hall]
    have := slice_append pre line post
    rw [blen_append, ← ht] at this
    exact this
  · rw [if_neg hall, if_neg hall]
    have hmap : mapOutcome (runText info (l1Levels info para.level line)) (order.map (mapRun info.text)) = .ok (order.map (shown info.text ls)) := by
      have h1 : ∀ (o : List Run), (∀ r ∈ o, pre.length ≤ r.start ∧ r.start < r.stop ∧ r.stop ≤ pre.length + line.length) →
          mapOutcome (runText info (l1Levels info para.level line)) (o.map (mapRun info.text)) = .ok (o.map (shown info.text ls)) := by
        intro o
        induction o with
        | nil => intro _; rfl
        | cons r o ih =>
          intro h
          obtain ⟨a, b, c⟩ := h r (by simp)
          rw [List.map_cons, mapOutcome, runText_ok ha hlen (by omega) a b c, bind_ok, ih (fun s hs => h s (by simp [hs]))]
          rfl
      exact h1 order hord
    rw [hmap, bind_ok, List.flatMap_def]
    rfl

theorem reorder_perm {info : BidiInfo} {para : Para} {pre line post ls : List Nat} (ht : info.text = pre ++ line ++ post) (hc : info.classes.length = blen info.text)
    (hl : info.levels.length = blen info.text) (hne : line ≠ []) (hls : ls.length = info.text.length)
    (ha : Agree info.text (l1Levels info para.level line) ls pre.length (pre.length + line.length)) (h126 : ∀ l ∈ ls, l ≤ 126)
    (hlow : ∃ (k : Nat) (l : Nat), pre.length ≤ k ∧ k < pre.length + line.length ∧ ls[k]? = some l ∧ l < 126) :
    ∃ out, reorderLine info para ⟨blen pre, blen pre + blen line⟩ = .ok out ∧ out.Perm line := by
  obtain ⟨cr, lo, hi, q, e2, _, _, _, _, _, h⟩ := reorder_runs ht hc hl hne hls ha h126 hlow
  refine ⟨_, h, ?_⟩
  split_ifs
  · exact List.Perm.refl _
  · rw [List.flatMap_def]
    have h1 := (reverseDown_perm (lv := fun r => info.levels.getD (off info.text r.start) 0) (m := q) (hi + 1 - q) cr).map (shown info.text ls)
    refine (List.Perm.flatten h1).trans ((flatten_map_perm cr (fun r _ => shown_perm info.text ls r)).trans ?_)
    rw [tiles_seg e2.tiles, ht]
    simp

/-! ## `reorder_line` is L2 if L1 changes nothing -/

theorem reverseFrom_lv {α : Type} {lv lv' : α → Nat} {m : Nat} : ∀ (xs acc : List α), (∀ x ∈ xs, lv x = lv' x) → reverseFrom lv m acc xs = reverseFrom lv' m acc xs
  | [], _, _ => rfl
  | x :: xs, acc, h => by
    rw [reverseFrom, reverseFrom, reverseFrom_lv xs _ (fun y hy => h y (by simp [hy])), reverseFrom_lv xs _ (fun y hy => h y (by simp [hy])), h x (by simp)]

theorem reverseDown_lv {α : Type} {lv lv' : α → Nat} {m : Nat} : ∀ (n : Nat) (xs : List α), (∀ x ∈ xs, lv x = lv' x) → reverseDown lv m n xs = reverseDown lv' m n xs
  | 0, _, _ => rfl
  | n + 1, xs, h => by
    rw [reverseDown, reverseDown, reverseFrom_lv xs [] h]
    exact reverseDown_lv n _ (fun x hx => h x (by simpa using (reverseFrom_perm xs []).mem_iff.1 hx))

theorem zip_get {α β : Type} {xs : List α} {ys : List β} {k : Nat} {x : α × β} (h : (xs.zip ys)[k]? = some x) : xs[k]? = some x.1 ∧ ys[k]? = some x.2 := by
  rw [List.getElem?_zip_eq_some] at h
  exact h

theorem seg_fst {xs ys : List Nat} (h : xs.length = ys.length) (r : Run) : (seg (xs.zip ys) r).map Prod.fst = seg xs r := by
  unfold seg
  rw [List.map_take, List.map_drop, List.map_fst_zip (by omega)]

theorem reorder_l2 {info : BidiInfo} {para : Para} {pre line post ls : List Nat} (ht : info.text = pre ++ line ++ post) (hc : info.classes.length = blen info.text)
    (hl : info.levels.length = blen info.text) (hne : line ≠ []) (hls : ls.length = info.text.length)
    (ha : Agree info.text (l1Levels info para.level line) ls pre.length (pre.length + line.length)) (h126 : ∀ l ∈ ls, l ≤ 126)
    (hlow : ∃ (k : Nat) (l : Nat), pre.length ≤ k ∧ k < pre.length + line.length ∧ ls[k]? = some l ∧ l < 126)
    (hsame : Agree info.text info.levels ls pre.length (pre.length + line.length)) :
    reorderLine info para ⟨blen pre, blen pre + blen line⟩ = .ok ((l2 Prod.snd (line.zip ((ls.drop pre.length).take line.length))).map Prod.fst) := by
  obtain ⟨cr, lo, hi, q, e2, q1, q2, q3, q4, _, h⟩ := reorder_runs ht hc hl hne hls ha h126 hlow
  have hlen : pre.length + line.length ≤ info.text.length := by rw [ht]; simp
  have hcb := (tiles_in e2.tiles).2
  rw [h]
  congr 1
  have hx : cr.flatMap (seg (info.text.zip ls)) = line.zip ((ls.drop pre.length).take line.length) := by
    rw [tiles_seg e2.tiles, Nat.add_sub_cancel_left, List.zip_eq_zipWith, List.drop_zipWith, List.take_zipWith, List.zip_eq_zipWith]
    congr 1
    rw [ht]; simp
  have hfst : (line.zip ((ls.drop pre.length).take line.length)).map Prod.fst = line := by
    rw [List.map_fst_zip]
    simp; omega
  have hin : ∀ r ∈ cr, ∀ x ∈ seg (info.text.zip ls) r, x.2 = ls.getD r.start 0 := by
    intro r hr x hxs
    obtain ⟨k, k1, k2, k3⟩ := seg_get hxs
    have hb := hcb r hr
    have hu := e2.uniform r hr k k1 k2
    rw [(zip_get k3).2, List.getElem?_eq_getElem (by omega)] at hu
    rw [getD_of_lt (by omega)]
    simpa using hu
  have hitem : ∀ x ∈ line.zip ((ls.drop pre.length).take line.length), ∃ (k : Nat), pre.length ≤ k ∧ k < pre.length + line.length ∧ ls[k]? = some x.2 := by
    intro x hxs
    rw [← hx, tiles_seg e2.tiles] at hxs
    obtain ⟨k, k1, k2, k3⟩ := seg_get (r := ⟨pre.length, pre.length + line.length⟩) hxs
    exact ⟨k, k1, k2, (zip_get k3).2⟩
  have hitem' : ∀ k l, pre.length ≤ k → k < pre.length + line.length → ls[k]? = some l → ∃ x ∈ line.zip ((ls.drop pre.length).take line.length), x.2 = l := by
    intro k l h1 h2 h3
    have hk : k < info.text.length := by omega
    refine ⟨(info.text[k], l), ?_, rfl⟩
    rw [← hx, tiles_seg e2.tiles]
    apply List.mem_of_getElem? (i := k - pre.length)
    rw [List.getElem?_take, if_pos (by omega), List.getElem?_drop, show pre.length + (k - pre.length) = k by omega, List.getElem?_zip_eq_some]
    exact ⟨List.getElem?_eq_getElem hk, h3⟩
  by_cases hall : cr.all (fun r => ls.getD r.start 0 % 2 == 0) = true
  · rw [if_pos hall, l2_even, hfst]
    intro x hxs
    rw [← hx] at hxs
    obtain ⟨r, hr, hxr⟩ := List.mem_flatMap.1 hxs
    rw [hin r hr x hxr]
    have := List.all_eq_true.1 hall r hr
    simpa using this
  · rw [if_neg hall]
    have hodd : ∃ x ∈ line.zip ((ls.drop pre.length).take line.length), x.2 % 2 = 1 := by
      simp only [List.all_eq_true, not_forall] at hall
      obtain ⟨r, hr, ho⟩ := hall
      have hb := hcb r hr
      obtain ⟨x, hx1, hx2⟩ := hitem' r.start (ls.getD r.start 0) hb.1 (by omega) (by rw [getD_of_lt (by omega)]; exact List.getElem?_eq_getElem _)
      refine ⟨x, hx1, ?_⟩
      rw [hx2]
      simp at ho ⊢
      omega
    rw [l2_eq q2 (by
      intro x hxs
      obtain ⟨k, k1, k2, k3⟩ := hitem x hxs
      have := e2.bound k _ k1 k2 k3
      omega) hodd]
    have hhi : highest Prod.snd (line.zip ((ls.drop pre.length).take line.length)) = hi := by
      obtain ⟨x0, hx0, _⟩ := hodd
      obtain ⟨x, hx1, hx2⟩ := highest_mem (lv := Prod.snd) _ (List.ne_nil_of_mem hx0)
      obtain ⟨k, k1, k2, k3⟩ := hitem x hx1
      have h1 := (e2.bound k _ k1 k2 k3).2
      obtain ⟨k', k1', k2', k3'⟩ := e2.high
      obtain ⟨y, hy1, hy2⟩ := hitem' k' hi k1' k2' k3'
      have h2 := highest_le (lv := Prod.snd) _ y hy1
      omega
    rw [hhi, ← hx, reverseDown_runs (lr := fun r => ls.getD r.start 0) _ _ _ (by
      intro r hr
      have hb := hcb r hr
      refine ⟨?_, hin r hr⟩
      apply List.ne_nil_of_length_pos
      rw [seg_length (by simp; omega)]
      omega), reverseDown_lv (lv' := fun r => ls.getD r.start 0) _ cr (by
      intro r hr
      have hb := hcb r hr
      have hs := agree_at hsame (k := r.start) (by omega) hb.1 (by omega)
      rw [List.getD_eq_getElem?_getD, hs, ← List.getD_eq_getElem?_getD]), List.map_flatMap]
    apply List.flatMap_congr
    intro r hr
    have hr' : r ∈ cr := (reverseDown_perm _ _).mem_iff.1 hr
    have hb := hcb r hr'
    have hbd := e2.bound r.start (ls.getD r.start 0) hb.1 (by omega) (by rw [getD_of_lt (by omega)]; exact List.getElem?_eq_getElem _)
    rw [turned_parity _ q2 (by omega) (by omega), shown]
    split_ifs
    · rw [List.map_reverse, seg_fst hls.symm]
    · rw [seg_fst hls.symm]

end Proofs.Bidi
