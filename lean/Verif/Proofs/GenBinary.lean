import Verif.Proofs.GenIdna

/-! # Proofs about the tables generated from the files of binary properties -/
namespace Proofs.GenBinary
open Spec Spec.UcdFile Model Model.Regex Model.Gen Model.GenSource Model.GenWriter Proofs.Regex Proofs.GenSource Proofs.GenFiles Proofs.GenIdna

/-! ## Sets -/

theorem mem_insertSet (k : Nat) : ∀ (m : List Nat) (c : Nat), c ∈ insertSet k m ↔ c = k ∨ c ∈ m
  | [], c => by simp [insertSet]
  | k' :: r, c => by
    rw [insertSet]
    split
    · simp
    · split
      · rename_i h
        subst h
        simp
      · rw [List.mem_cons, mem_insertSet k r c, List.mem_cons]
        tauto

theorem sorted_insertSet (k : Nat) : ∀ (m : List Nat), m.Pairwise (· < ·) → (insertSet k m).Pairwise (· < ·)
  | [], _ => by simp [insertSet]
  | k' :: r, h => by
    obtain ⟨h1, h2⟩ := List.pairwise_cons.1 h
    rw [insertSet]
    split
    · rename_i hk
      refine List.pairwise_cons.2 ⟨?_, h⟩
      intro c hc
      rcases List.mem_cons.1 hc with rfl | hc
      · exact hk
      · have := h1 c hc
        omega
    · split
      · rename_i hk
        subst hk
        exact h
      · refine List.pairwise_cons.2 ⟨?_, sorted_insertSet k r h2⟩
        intro c hc
        rcases (mem_insertSet k r c).1 hc with rfl | hc
        · omega
        · exact h1 c hc

theorem mem_extendSet : ∀ (l m : List Nat) (c : Nat), c ∈ extendSet m l ↔ c ∈ l ∨ c ∈ m
  | [], m, c => by simp [extendSet]
  | k :: l, m, c => by
    have e : extendSet m (k :: l) = extendSet (insertSet k m) l := rfl
    rw [e, mem_extendSet l, mem_insertSet, List.mem_cons]
    tauto

theorem sorted_extendSet : ∀ (l m : List Nat), m.Pairwise (· < ·) → (extendSet m l).Pairwise (· < ·)
  | [], _, h => h
  | k :: l, m, h => sorted_extendSet l (insertSet k m) (sorted_insertSet k m h)

/-- a set written and read back -/
theorem set_table (o : Outcome (List Nat)) (m : List Nat) (ho : o = .ok m) (hm : m.Pairwise (· < ·)) : ∃ s t, (o >>= fun m => toRangeCharSet m) = .ok s ∧
    TableText.readTable s = some t ∧ WellFormed t ∧ ∀ c, t.contains c = .ok (decide (c ∈ m)) := by
  obtain ⟨s, l, h1, h2, h3, h4, _⟩ := Props.Gen.c10_set m hm
  exact ⟨s, _, by rw [ho]; exact h1, h2, h3, h4⟩

/-! ## Binary properties -/

theorem uspace_blank (sp : Nat → Bool) {c : Nat} (h : IsBlank c) : uspace sp c = true ∧ c ≠ 10 := by
  rcases h with rfl | rfl <;> exact ⟨rfl, by omega⟩

theorem uword_of (w : Nat → Bool) {c : Nat} (h : IsWord c) : uword w c = true ∧ c ≠ 10 := by
  refine ⟨?_, (word_blank h).2⟩
  rw [uword, if_pos (by unfold IsWord at h; omega)]
  exact (word_of c).2 h

theorem uspace_word (sp : Nat → Bool) {c : Nat} (h : IsWord c) : uspace sp c = false := by
  rw [uspace, if_pos (by unfold IsWord at h; omega)]
  unfold IsWord at h
  unfold space
  rw [Bool.eq_false_iff]
  simp only [Bool.or_eq_true, Bool.and_eq_true, decide_eq_true_eq, beq_iff_eq, ne_eq]
  omega

theorem binary_row (w sp : Nat → Bool) (r : Row) (hr : r.Ok) (b : Bool) (s : List Nat) :
    Runs (cat [.cap 1 hex46, .opt (cat [dot, dot, .cap 2 hex46]), plus (.cls (uspace sp)), chr 59, plus (.cls (uspace sp)), .cap 3 (plus (.cls (uword w)))])
      ⟨r.text ++ 10 :: s, b, []⟩ ⟨r.tail ++ 10 :: s, false, [(3, r.value)] ++ rangeCaps r.range⟩ := by
  have e : r.text ++ 10 :: s = r.range.text ++ (r.pad ++ 59 :: (r.pad2 ++ (r.value ++ (r.tail ++ 10 :: s)))) := by
    simp [Row.text]
  rw [e]
  refine Runs.assoc (range_runs (· != 10) rfl r.range hr.range b _ (pad_head r.pad _ fun c hc => blank_xdigit (hr.pad.2 c hc))
    (pad_fails _ r.pad r.pad2 _ hr.pad.1 (fun c hc => blank_xdigit (hr.pad.2 c hc)) hr.pad2.1 (fun c hc => blank_xdigit (hr.pad2.2 c hc)) _ _)) ?_
  refine (Runs.plus_cls' r.pad _ _ _ hr.pad.1 (fun c hc => uspace_blank sp (hr.pad.2 c hc)) (by rintro c hc; cases hc; rfl)).seq ?_
  refine (Runs.chr 59 _ _ _).seq ?_
  refine (Runs.plus_cls' r.pad2 _ _ _ hr.pad2.1 (fun c hc => uspace_blank sp (hr.pad2.2 c hc)) ?_).seq ?_
  · intro c hc
    obtain ⟨h0, h1⟩ := hr.value
    cases hv : r.value with
    | nil => exact absurd hv h0
    | cons d v =>
      rw [hv] at hc
      simp only [List.cons_append, List.head?_cons, Option.some.injEq] at hc
      subst hc
      exact uspace_word sp (h1 d (by rw [hv]; simp))
  · refine Runs.cap (Runs.plus_cls' r.value _ _ _ hr.value.1 (fun c hc => uword_of w (hr.value.2 c hc)) ?_)
    intro c hc
    have hnw := tail_head hr s c hc
    have hlt : c < 128 := by
      cases ht : r.tail with
      | nil =>
        rw [ht] at hc
        cases hc
        omega
      | cons d t =>
        rw [ht] at hc
        simp only [List.cons_append, List.head?_cons, Option.some.injEq] at hc
        subst hc
        exact (hr.tail.2 d (by rw [ht]; rfl)).2
    rw [uword, if_pos hlt]
    rw [← word_of] at hnw
    simpa using hnw

theorem binary_captures (w sp : Nat → Bool) (labels : List String) (ls : List (Line Row)) (hf : FileOk (PropertyRow labels) ls) :
    capturesIter (binaryRe w sp) (fileText Row.text ls) = (rowsOf ls).map fun r => [(3, r.value)] ++ rangeCaps r.range := by
  refine captures_file _ Row.text (PropertyRow labels) _ ls hf ?_ fun t b h => other_fails _ (by simp) t b h
  intro x hx
  obtain ⟨u, h1, h2⟩ := row_split x hx.1
  exact ⟨row_line x hx.1, u, x.tail, h1, h2, fun s => binary_row w sp x hx.1 true s⟩

/-- the field a row extends -/
def fieldOf (arms : Arms) (label : List Nat) : Option String := ((arms.find? fun a => str a.1 = label).bind (·.2))

/-- the sets after a row -/
def afterRow (arms : Arms) (f : Fields) (r : Row) : Fields :=
  fun x => if fieldOf arms r.value = some x then extendSet (f x) (points r.range.first r.range.last) else f x

theorem arm_ok (arms : Arms) (labels : List String) (ha : ∀ l ∈ labels, (arms.find? fun a => str a.1 = str l).isSome = true) (v : List Nat) (hv : ∃ l ∈ labels, v = TableText.text l) :
    arm arms v = .ok (fieldOf arms v) := by
  obtain ⟨l, hl, rfl⟩ := hv
  have := ha l hl
  obtain ⟨a, he⟩ := Option.isSome_iff_exists.1 this
  have he : (arms.find? fun a => decide (str a.1 = TableText.text l)) = some a := he
  rw [arm, fieldOf, he]
  rfl

theorem binary_fields (w sp : Nat → Bool) (arms : Arms) (labels : List String) (ha : ∀ l ∈ labels, (arms.find? fun a => str a.1 = str l).isSome = true) (ls : List (Line Row))
    (hf : FileOk (PropertyRow labels) ls) : binaryFromStr w sp arms (fileText Row.text ls) = .ok ((rowsOf ls).foldl (afterRow arms) fun _ => []) := by
  rw [binaryFromStr, binary_captures w sp labels ls hf]
  refine fold_rows _ _ _ _ _ fun r hr f => ?_
  obtain ⟨hr, h1, h2, h3⟩ := rows_ok hf r hr
  rw [binaryStep, group, group, capGet_range _ 1 (.inl rfl) _ (by simp), capGet_range _ 2 (.inr rfl) _ (by simp), range_group1, range_group2, get_caps _ 3 (by omega)]
  have e1 : (unwrap (some r.range.lo)).bind hexU32 = .ok r.range.first := (hexU32_ok hr.range.1).1
  have e3 : capGet [(3, r.value)] 3 = some r.value := rfl
  obtain ⟨h, h4, h5⟩ := high_ok r.range hr.range h1 h2
  have e4 : (unwrap (some r.value)).bind (arm arms) = .ok (fieldOf arms r.value) := arm_ok arms labels ha r.value h3
  simp only [e1, e3, bind_ok', bind_ok, char_ok h1, h4, h5, e4, collect_points _ _ h1 h2]
  unfold afterRow
  cases fieldOf arms r.value with
  | none => simp
  | some fl =>
    simp only [Option.some.injEq, pure_ok]
    congr 1
    funext x
    by_cases hx : x = fl
    · rw [if_pos hx, if_pos hx.symm]
    · rw [if_neg hx, if_neg (fun h => hx h.symm)]

theorem mem_fields (arms : Arms) (field : String) (c : Nat) (rows : List Row) (f : Fields) (h : (f field).Pairwise (· < ·)) :
    (rows.foldl (afterRow arms) f field).Pairwise (· < ·) ∧
    (c ∈ rows.foldl (afterRow arms) f field ↔ c ∈ f field ∨ (IsScalar c ∧ ∃ r ∈ rows, fieldOf arms r.value = some field ∧ r.range.first ≤ c ∧ c ≤ r.range.last)) := by
  induction rows generalizing f with
  | nil => simp [h]
  | cons r rows ih =>
    have hs : (afterRow arms f r field).Pairwise (· < ·) := by
      unfold afterRow
      split
      · exact sorted_extendSet _ _ h
      · exact h
    obtain ⟨h1, h2⟩ := ih (afterRow arms f r) hs
    refine ⟨h1, ?_⟩
    rw [List.foldl_cons, h2]
    have e : c ∈ afterRow arms f r field ↔ (c ∈ f field ∨ (IsScalar c ∧ fieldOf arms r.value = some field ∧ r.range.first ≤ c ∧ c ≤ r.range.last)) := by
      unfold afterRow
      split
      · rename_i hx
        rw [mem_extendSet, mem_points]
        simp only [hx, true_and]
        tauto
      · rename_i hx
        simp [hx]
    rw [e]
    simp only [List.mem_cons, exists_eq_or_imp]
    rw [or_assoc, ← and_or_left]

theorem text_injective {a b : String} (h : TableText.text a = TableText.text b) : a = b := by
  have : Function.Injective Char.toNat := fun x y h => Char.ext (UInt32.toNat_inj.1 h)
  exact String.toList_injective (List.map_injective_iff.2 this h)

theorem binary_table (w sp : Nat → Bool) (arms : Arms) (labels : List String) (tables : List (String × String)) (name label : String)
    (ha : ∀ l ∈ labels, (arms.find? fun a => str a.1 = str l).isSome = true)
    (hn : ∃ field, tables.lookup name = some field ∧ ∀ l ∈ labels, fieldOf arms (TableText.text l) = some field ↔ l = label)
    (ls : List (Line Row)) (hf : FileOk (PropertyRow labels) ls) : ∃ s t, binaryTable w sp arms tables name (fileText Row.text ls) = .ok s ∧
    TableText.readTable s = some t ∧ WellFormed t ∧ ∀ c, ∃ b, t.contains c = .ok b ∧ (b = true ↔ HasProperty (rowsOf ls) label c) := by
  obtain ⟨field, h1, h2⟩ := hn
  have hm := fun c => mem_fields arms field c (rowsOf ls) (fun _ => []) List.Pairwise.nil
  obtain ⟨s, t, h3, h4, h5, h6⟩ := set_table (.ok ((rowsOf ls).foldl (afterRow arms) (fun _ => []) field)) _ rfl (hm 0).1
  refine ⟨s, t, ?_, h4, h5, fun c => ⟨_, h6 c, ?_⟩⟩
  · rw [binaryTable, h1]
    simp only
    rw [binary_fields w sp arms labels ha ls hf]
    exact h3
  · rw [decide_eq_true_eq, (hm c).2, HasProperty]
    simp only [List.not_mem_nil, false_or]
    refine and_congr_right fun _ => exists_congr fun r => and_congr_right fun hr => ?_
    obtain ⟨_, _, _, l, hl, hv⟩ := rows_ok hf r hr
    rw [hv, h2 l hl]
    refine and_congr_left fun _ => ⟨fun h => by rw [h], text_injective⟩

end Proofs.GenBinary
