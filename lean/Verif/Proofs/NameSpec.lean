import Verif.Proofs.Name
import Verif.Proofs.NameText
import Verif.Spec.Name
import Verif.Spec.Hangul
import Mathlib.Data.Nat.Digits.Lemmas

/-! Texts of names, against the specification. -/
namespace Proofs.Name
open Model Model.Name Spec.Name

/-! ## Listed names -/

theorem okText_step (k n : Nat) (sp : Bool) : okText (k + 1) n sp =
    if n = 0 then !sp else if n % 256 = 0x20 then !sp && okText k (n / 256) true
      else decide (byteMask >>> (n % 256) % 2 = 1) && okText k (n / 256) false := by
  have e : ∀ (b : Bool) (x y : Bool), (Bool.rec x y b : Bool) = if b then y else x := by intro b x y; cases b <;> rfl
  show (Bool.rec _ _ _ : Bool) = _
  rw [e, e, e, e]
  by_cases h0 : n = 0
  · subst h0; simp
  · by_cases h1 : n % 256 = 0x20
    · cases sp <;> simp [h0, h1] <;> rfl
    · by_cases h2 : byteMask >>> (n % 256) % 2 = 1
      · simp [h0, h1, h2]; rfl
      · simp [h0, h1, h2]

theorem mask_byte : ∀ b, b < 256 → byteMask >>> b % 2 = 1 → (0x41 ≤ b ∧ b ≤ 0x5A) ∨ (0x30 ≤ b ∧ b ≤ 0x39) ∨ b = 0x2D := by decide +kernel

theorem okText_spec : ∀ (k n : Nat) (sp : Bool), okText k n sp = true →
    (∀ b ∈ bytes n, NameByte b ∨ b = 0x20) ∧ (bytes n).head? ≠ some 0x20 ∧ ((bytes n).IsChain fun a b => ¬ (a = 0x20 ∧ b = 0x20)) ∧
      (sp = true → bytes n ≠ [] ∧ (bytes n).getLast? ≠ some 0x20)
  | 0, _, _, h => by simp [okText] at h
  | k + 1, n, sp, h => by
    rw [okText_step] at h
    by_cases h0 : n = 0
    · subst h0
      simp only [if_true, Bool.not_eq_true'] at h
      subst h
      simp [bytes_zero]
    · rw [if_neg h0] at h
      rw [bytes_step h0]
      by_cases h1 : n % 256 = 0x20
      · rw [if_pos h1, Bool.and_eq_true, Bool.not_eq_true'] at h
        obtain ⟨rfl, h⟩ := h
        obtain ⟨i1, i2, i3, i4⟩ := okText_spec k _ _ h
        obtain ⟨i4, i5⟩ := i4 rfl
        refine ⟨?_, ?_, ?_, by simp⟩
        · intro b hb
          rcases List.mem_append.1 hb with hb | hb
          · exact i1 b hb
          · exact .inr (by rw [List.mem_singleton.1 hb, h1])
        · rwa [List.head?_append_of_ne_nil _ i4]
        · rw [List.isChain_append]
          refine ⟨i3, by simp, ?_⟩
          intro x hx y hy hxy
          rw [hxy.1] at hx
          exact i5 hx
      · rw [if_neg h1, Bool.and_eq_true, decide_eq_true_eq] at h
        obtain ⟨h2, h⟩ := h
        obtain ⟨i1, i2, i3, -⟩ := okText_spec k _ _ h
        refine ⟨?_, ?_, ?_, ?_⟩
        · intro b hb
          rcases List.mem_append.1 hb with hb | hb
          · exact i1 b hb
          · rw [List.mem_singleton.1 hb]
            exact .inl (mask_byte _ (Nat.mod_lt _ (by omega)) h2)
        · cases hb : bytes (n / 256) with
          | nil => simpa using h1
          | cons a r => rw [hb] at i2; simpa using i2
        · rw [List.isChain_append]
          refine ⟨i3, by simp, ?_⟩
          intro x hx y hy hxy
          simp only [List.head?_cons, Option.mem_def, Option.some.injEq] at hy
          omega
        · intro _
          exact ⟨by simp, by simpa using h1⟩

theorem name_text {c n : Nat} (h : (c, n) ∈ Data.names.flatten) : NameText (bytes (n / 256)) := by
  obtain ⟨h1, h2, h3, h4⟩ := okText_spec _ _ _ (names_all names_text h)
  exact ⟨h1, (h4 rfl).1, h2, (h4 rfl).2, h3⟩

/-! ## Derived names -/

theorem chain_words {s : List Nat} (h : ∀ b ∈ s, NameByte b) : s.IsChain fun a b => ¬ (a = 0x20 ∧ b = 0x20) := by
  induction s with
  | nil => simp
  | cons a r ih =>
    rw [List.isChain_cons]
    refine ⟨?_, ih fun b hb => h b (by simp [hb])⟩
    intro y _ hxy
    have := h a (by simp)
    rw [hxy.1] at this
    rcases this with h | h | h <;> omega

theorem word_ne {b : Nat} (h : NameByte b) : b ≠ 0x20 := by
  rintro rfl
  rcases h with h | h | h <;> omega

/-- a prefix and one more word, or part of one -/
theorem text_append {P r : List Nat} (h1 : ∀ b ∈ P, NameByte b ∨ b = 0x20) (h2 : P.head? ≠ some 0x20) (hP : P ≠ [])
    (h3 : P.IsChain fun a b => ¬ (a = 0x20 ∧ b = 0x20)) (hr : ∀ b ∈ r, NameByte b) (hne : r ≠ []) : NameText (P ++ r) where
  bytes b hb := by
    rcases List.mem_append.1 hb with hb | hb
    · exact h1 b hb
    · exact .inl (hr b hb)
  nonempty := by simp [hP]
  first := by rwa [List.head?_append_of_ne_nil _ hP]
  last := by
    rw [List.getLast?_append_of_ne_nil _ hne]
    intro h
    exact word_ne (hr _ (List.mem_of_getLast? h)) rfl
  single := by
    rw [List.isChain_append]
    refine ⟨h3, chain_words hr, ?_⟩
    intro x _ y hy hxy
    exact word_ne (hr y (List.mem_of_head? hy)) hxy.2

theorem prefixes_text : ∀ P ∈ prefixes, (P.all fun b => (decide (0x41 ≤ b) && decide (b ≤ 0x5A)) || (decide (0x30 ≤ b) && decide (b ≤ 0x39)) || b == 0x2D || b == 0x20) = true ∧
    P.head? ≠ some 0x20 ∧ P ≠ [] ∧ P.IsChain (fun a b => ¬ (a = 0x20 ∧ b = 0x20)) := by
  have h : prefixes.all (fun P => (P.all fun b => (decide (0x41 ≤ b) && decide (b ≤ 0x5A)) || (decide (0x30 ≤ b) && decide (b ≤ 0x39)) || b == 0x2D || b == 0x20) &&
    decide (P.head? ≠ some 0x20) && decide (P ≠ []) && decide (P.IsChain (fun a b => ¬ (a = 0x20 ∧ b = 0x20)))) = true := by decide +kernel
  intro P hP
  have := List.all_eq_true.1 h P hP
  simp only [Bool.and_eq_true, decide_eq_true_eq] at this
  exact ⟨this.1.1.1, this.1.1.2, this.1.2, this.2⟩

theorem prefix_text {P r : List Nat} (hP : P ∈ prefixes) (hr : ∀ b ∈ r, NameByte b) (hne : r ≠ []) : NameText (P ++ r) := by
  obtain ⟨h1, h2, h3, h4⟩ := prefixes_text P hP
  refine text_append ?_ h2 h3 h4 hr hne
  intro b hb
  have := List.all_eq_true.1 h1 b hb
  simp only [Bool.or_eq_true, Bool.and_eq_true, decide_eq_true_eq, beq_iff_eq] at this
  unfold NameByte
  tauto

/-! ## The texts of the rules -/

theorem jn_l : ∀ l, l < 19 → jn (0x1100 + l) = text (leads.getD l "") := by decide +kernel
theorem jn_v : ∀ v, v < 21 → jn (0x1161 + v) = text (vowels.getD v "") := by decide +kernel
theorem jn_t : ∀ t, t < 28 → tail t = text (trails.getD t "") := by decide +kernel

theorem jamo_bytes : (∀ l, l < 19 → ((jn (0x1100 + l)).all fun b => decide (0x41 ≤ b) && decide (b ≤ 0x5A)) = true) ∧
    (∀ v, v < 21 → ((jn (0x1161 + v)).all fun b => decide (0x41 ≤ b) && decide (b ≤ 0x5A)) = true) ∧
    (∀ t, t < 28 → ((tail t).all fun b => decide (0x41 ≤ b) && decide (b ≤ 0x5A)) = true) := by decide +kernel

theorem hangul_text : text "HANGUL SYLLABLE " = PREFIX_HANGUL_SYLLABLE := rfl

theorem digit_text : ∀ d, d < 16 → Hex.digitChar d = (text "0123456789ABCDEF").getD d 0 := by decide +kernel

theorem digits_hex : ∀ (fuel n : Nat), n ≤ fuel → 0 < n → Hex.digits fuel n = hex n
  | 0, n, h, h0 => by omega
  | fuel + 1, n, h, h0 => by
    rw [Hex.digits, hex, Nat.digits_def' (by omega) h0, List.reverse_cons, List.map_append]
    by_cases hn : n < 16
    · rw [if_pos hn, Nat.div_eq_of_lt hn, Nat.mod_eq_of_lt hn, digit_text n hn]; simp
    · rw [if_neg hn, digits_hex fuel (n / 16) (by omega) (by omega), hex, digit_text _ (Nat.mod_lt _ (by omega))]; rfl

theorem hex_fmt {n : Nat} (h : 0 < n) : Hex.fmt 0 n = hex n := by rw [fmt_zero, digits_hex n n (Nat.le_refl _) h]

theorem hex_bytes {n : Nat} : ∀ b ∈ hex n, NameByte b := by
  intro b hb
  rw [hex, List.mem_map] at hb
  obtain ⟨d, hd, rfl⟩ := hb
  have h := Nat.digits_lt_base (b := 16) (by omega) (List.mem_reverse.1 hd)
  rw [← digit_text d h, Hex.digitChar]
  unfold NameByte
  split <;> omega

theorem hex_ne {n : Nat} (h : 0 < n) : hex n ≠ [] := by
  rw [hex, Nat.digits_def' (by omega) h]; simp

theorem display_text {c : Nat} {nm : Name} {s : List Nat} (h : «of» c = .ok (some nm)) (hs : display nm = .ok s) : NameText s := by
  rcases of_cases h with ⟨rfl, h1, h2⟩ | ⟨P, hP, rfl, hc⟩ | ⟨n, rfl, hm, _⟩
  · obtain ⟨l, v, t, hl, hv, ht, hc, hd⟩ := syllable_parts h1 h2
    rw [display_NR1 hl hv ht hd, Outcome.ok.injEq] at hs
    rw [← hs]
    refine prefix_text (by simp [prefixes]) ?_ ?_
    · intro b hb
      have up : ∀ x : List Nat, (x.all fun b => decide (0x41 ≤ b) && decide (b ≤ 0x5A)) = true → b ∈ x → NameByte b := by
        intro x hx hbx
        have := List.all_eq_true.1 hx b hbx
        simp only [Bool.and_eq_true, decide_eq_true_eq] at this
        exact .inl this
      rcases List.mem_append.1 hb with hb | hb
      · exact up _ (jamo_bytes.1 l hl) hb
      rcases List.mem_append.1 hb with hb | hb
      · exact up _ (jamo_bytes.2.1 v hv) hb
      · exact up _ (jamo_bytes.2.2 t ht) hb
    · have := (jamo_v v hv).2.2
      simp [this]
  · rw [display, Outcome.ok.injEq] at hs
    rw [← hs, hex_fmt (by omega)]
    exact prefix_text (List.mem_of_mem_tail hP) hex_bytes (hex_ne (by omega))
  · rw [pieces_display (name_end hm), Outcome.ok.injEq] at hs
    rw [← hs]
    exact name_text hm

end Proofs.Name
