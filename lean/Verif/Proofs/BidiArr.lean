import Verif.Model.Bidi
import Verif.Proofs.Grapheme

/-! # Arrays with one entry per byte, and their entries per character -/
namespace Proofs.Bidi
open Model Model.Bidi Data Proofs.Punycode Model.Grapheme Proofs.Grapheme

/-- one entry per byte from one entry per character -/
def expand {α : Type} : (text : List Nat) → (xs : List α) → List α
  | c :: text, x :: xs => List.replicate (Utf.lenUtf8 c) x ++ expand text xs
  | _, _ => []

@[simp] theorem expand_nil {α : Type} (xs : List α) : expand [] xs = [] := by cases xs <;> rfl
@[simp] theorem expand_nil' {α : Type} (t : List Nat) : expand t ([] : List α) = [] := by cases t <;> rfl
@[simp] theorem expand_cons {α : Type} (c : Nat) (t : List Nat) (x : α) (xs : List α) :
    expand (c :: t) (x :: xs) = List.replicate (Utf.lenUtf8 c) x ++ expand t xs := rfl

theorem expand_length {α : Type} : ∀ (t : List Nat) (xs : List α), xs.length = t.length → (expand t xs).length = blen t
  | [], [], _ => rfl
  | c :: t, x :: xs, h => by
    rw [expand_cons, List.length_append, List.length_replicate, blen_cons, expand_length t xs (by simpa using h)]
  | [], _ :: _, h => by simp at h
  | _ :: _, [], h => by simp at h

theorem expand_append {α : Type} : ∀ (t t' : List Nat) (xs xs' : List α), xs.length = t.length →
    expand (t ++ t') (xs ++ xs') = expand t xs ++ expand t' xs'
  | [], t', [], xs', _ => by simp
  | c :: t, t', x :: xs, xs', h => by
    rw [List.cons_append, List.cons_append, expand_cons, expand_cons, expand_append t t' xs xs' (by simpa using h), List.append_assoc]
  | [], _, _ :: _, _, h => by simp at h
  | _ :: _, _, [], _, h => by simp at h

theorem len_pos (c : Nat) : 0 < Utf.lenUtf8 c := (Proofs.Utf.lenUtf8_pos c).1

/-- byte offset of the character at index `k` -/
def off (t : List Nat) (k : Nat) : Nat := blen (t.take k)

@[simp] theorem off_zero (t : List Nat) : off t 0 = 0 := by simp [off, blen_nil]
@[simp] theorem off_cons (c : Nat) (t : List Nat) (k : Nat) : off (c :: t) (k + 1) = Utf.lenUtf8 c + off t k := by simp [off, blen_cons]
theorem off_length (t : List Nat) : off t t.length = blen t := by simp [off]

theorem off_mono {t : List Nat} {j k : Nat} (h : j ≤ k) : off t j ≤ off t k := by
  unfold off
  obtain ⟨d, rfl⟩ := Nat.exists_eq_add_of_le h
  rw [List.take_add, blen_append]; omega

theorem off_succ {t : List Nat} {k : Nat} (h : k < t.length) : off t (k + 1) = off t k + Utf.lenUtf8 t[k] := by
  unfold off
  rw [List.take_add_one, List.getElem?_eq_getElem h, blen_append]
  simp [blen_cons, blen_nil]

theorem off_lt {t : List Nat} {j k : Nat} (h : j < k) (hk : k ≤ t.length) : off t j < off t k := by
  have h1 := off_succ (t := t) (k := j) (by omega)
  have h2 := off_mono (t := t) (show j + 1 ≤ k from h)
  have := len_pos t[j]
  omega

/-- the entry of every byte of a character is its entry -/
theorem expand_getElem? {α : Type} : ∀ (t : List Nat) (xs : List α) (k j : Nat) (_ : xs.length = t.length) (hk : k < t.length), j < Utf.lenUtf8 t[k] →
    (expand t xs)[off t k + j]? = xs[k]?
  | [], _, k, _, _, hk, _ => by simp at hk
  | c :: t, [], _, _, h, _, _ => by simp at h
  | c :: t, x :: xs, 0, j, h, hk, hj => by
    simp only [List.getElem_cons_zero] at hj
    rw [expand_cons, off_zero, Nat.zero_add, List.getElem?_append_left (by simpa using hj), List.getElem?_replicate, if_pos hj]
    rfl
  | c :: t, x :: xs, k + 1, j, h, hk, hj => by
    rw [expand_cons, off_cons, List.getElem?_append_right (by simp; omega), List.length_replicate,
      show Utf.lenUtf8 c + off t k + j - Utf.lenUtf8 c = off t k + j by omega]
    simp only [List.getElem_cons_succ] at hj
    rw [expand_getElem? t xs k j (by simpa using h) (by simpa using hk) hj]
    rfl

theorem expand_at {α : Type} {t : List Nat} {xs : List α} {k : Nat} (h : xs.length = t.length) (hk : k < t.length) :
    (expand t xs)[off t k]? = xs[k]? := by
  have := expand_getElem? t xs k 0 h hk (len_pos _)
  simpa using this

/-- every byte belongs to a character -/
theorem byte_char : ∀ (t : List Nat) (i : Nat), i < blen t → ∃ k, ∃ hk : k < t.length, off t k ≤ i ∧ i - off t k < Utf.lenUtf8 t[k]
  | [], i, h => by simp [blen_nil] at h
  | c :: t, i, h => by
    rw [blen_cons] at h
    by_cases hi : i < Utf.lenUtf8 c
    · exact ⟨0, by simp, by simp, by simpa using hi⟩
    · obtain ⟨k, hk, h1, h2⟩ := byte_char t (i - Utf.lenUtf8 c) (by omega)
      refine ⟨k + 1, by simpa using hk, by rw [off_cons]; omega, ?_⟩
      rw [off_cons]
      simp only [List.getElem_cons_succ]
      omega

/-- two arrays with the same entries per character are the same -/
theorem expand_ext {α : Type} {t : List Nat} {xs : List α} {l : List α} (h : xs.length = t.length) (hl : l.length = blen t)
    (he : ∀ k (hk : k < t.length) j, j < Utf.lenUtf8 t[k] → l[off t k + j]? = xs[k]?) : l = expand t xs := by
  apply List.ext_getElem?
  intro i
  by_cases hi : i < blen t
  · obtain ⟨k, hk, h1, h2⟩ := byte_char t i hi
    have e1 := he k hk (i - off t k) h2
    have e2 := expand_getElem? t xs k (i - off t k) h hk h2
    rw [show off t k + (i - off t k) = i by omega] at e1 e2
    rw [e1, e2]
  · rw [List.getElem?_eq_none (by omega), List.getElem?_eq_none (by rw [expand_length t xs h]; omega)]

/-- the bytes of a character -/
def block (t : List Nat) (k : Nat) : List Nat := List.range' (off t k) (off t (k + 1) - off t k)

theorem mem_block {t : List Nat} {k i : Nat} (hk : k < t.length) : i ∈ block t k ↔ off t k ≤ i ∧ i - off t k < Utf.lenUtf8 t[k] := by
  unfold block
  rw [List.mem_range'_1, off_succ hk]
  omega

theorem block_disjoint {t : List Nat} {j k i : Nat} (hj : j < t.length) (hk : k < t.length) (h1 : i ∈ block t j) (h2 : i ∈ block t k) : j = k := by
  unfold block at h1 h2
  rw [List.mem_range'_1] at h1 h2
  rcases Nat.lt_trichotomy j k with h | h | h
  · have := off_mono (t := t) (show j + 1 ≤ k from h); have := off_mono (t := t) (show j ≤ j + 1 by omega); have := off_mono (t := t) (show k ≤ k + 1 by omega); omega
  · exact h
  · have := off_mono (t := t) (show k + 1 ≤ j from h); have := off_mono (t := t) (show j ≤ j + 1 by omega); have := off_mono (t := t) (show k ≤ k + 1 by omega); omega

/-- a range of bytes between characters is the bytes of the characters -/
theorem range_blocks {t : List Nat} {a b : Nat} (h : a ≤ b) : List.range' (off t a) (off t b - off t a) = (List.range' a (b - a)).flatMap (block t) := by
  obtain ⟨d, rfl⟩ := Nat.exists_eq_add_of_le h
  induction d with
  | zero => simp
  | succ d ih =>
    have h1 := off_mono (t := t) (show a ≤ a + d by omega)
    have h2 := off_mono (t := t) (show a + d ≤ a + d + 1 by omega)
    rw [show a + (d + 1) - a = d + 1 by omega, List.range'_concat, List.flatMap_append, ← show a + d - a = d by omega]
    rw [show (a + d - a) = d by omega] at ih ⊢
    rw [← ih (by omega)]
    simp only [List.flatMap_cons, List.flatMap_nil, List.append_nil, Nat.one_mul]
    unfold block
    rw [show off t (a + (d + 1)) - off t a = (off t (a + d) - off t a) + (off t (a + d + 1) - off t (a + d)) by
      rw [show a + (d + 1) = a + d + 1 by omega]; omega]
    rw [← List.range'_append_1]
    rw [show off t a + (off t (a + d) - off t a) = off t (a + d) by omega]

/-! ## reading and writing -/

theorem at_ok {α : Type} {l : List α} {i : Nat} {a : α} (h : l[i]? = some a) : at' l i = .ok a := by unfold at'; rw [h]
theorem at_iff {α : Type} {l : List α} {i : Nat} {a : α} : at' l i = .ok a ↔ l[i]? = some a := by
  unfold at'
  cases h : l[i]? <;> simp

theorem put_ok {α : Type} {l : List α} {i : Nat} {a : α} (h : i < l.length) : put l i a = .ok (l.set i a) := by unfold put; rw [if_pos h]

/-- `for j in js { v[j] = a }`, without bounds -/
def setAll {α : Type} (l : List α) (js : List Nat) (a : α) : List α := js.foldl (fun l j => l.set j a) l

@[simp] theorem setAll_nil {α : Type} (l : List α) (a : α) : setAll l [] a = l := rfl
@[simp] theorem setAll_length {α : Type} (l : List α) (js : List Nat) (a : α) : (setAll l js a).length = l.length := by
  unfold setAll
  induction js generalizing l with
  | nil => rfl
  | cons j js ih => simp [ih]

theorem putAll_ok {α : Type} {l : List α} {js : List Nat} {a : α} (h : ∀ j ∈ js, j < l.length) : putAll l js a = .ok (setAll l js a) := by
  induction js generalizing l with
  | nil => rfl
  | cons j js ih =>
    rw [putAll, put_ok (h j (by simp)), bind_ok, ih (fun i hi => by simpa using h i (by simp [hi]))]
    rfl

theorem setAll_getElem? {α : Type} (l : List α) (js : List Nat) (a : α) (i : Nat) :
    (setAll l js a)[i]? = if i ∈ js ∧ i < l.length then some a else l[i]? := by
  unfold setAll
  induction js generalizing l with
  | nil => simp
  | cons j js ih =>
    rw [List.foldl_cons, ih, List.length_set, List.getElem?_set]
    by_cases hij : j = i
    · subst hij
      by_cases hl : j < l.length
      · by_cases hj : j ∈ js <;> simp [hl]
      · simp [hl]
    · simp only [List.mem_cons, if_neg hij, show ¬ i = j from fun e => hij e.symm, false_or]

end Proofs.Bidi
