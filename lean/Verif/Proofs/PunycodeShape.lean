import Verif.Proofs.PunycodeInt

/-! What `encode` writes is ASCII, and at least as long as the text; no assumption on the text. -/
namespace Proofs.Punycode
open Model Model.Punycode

theorem bind_eq_ok {α β : Type} {x : Outcome α} {f : α → Outcome β} {b : β} :
    (x >>= f) = .ok b ↔ ∃ a, x = .ok a ∧ f a = .ok b := by
  cases x with
  | ok a => rw [bind_ok]; simp
  | panic => rw [bind_panic]; simp

theorem valueToDigit_ascii {v c : Nat} (h : valueToDigit v = .ok c) : c < 0x80 := by
  unfold valueToDigit at h
  split at h
  · simp only [Outcome.ok.injEq] at h; omega
  · split at h
    · simp only [Outcome.ok.injEq] at h; omega
    · simp at h

theorem encodeInt_ascii {chk : Bool} {bias : Nat} : ∀ (fuel q k : Nat) (ds : List Nat), encodeInt chk bias fuel q k = .ok ds →
    (∀ c ∈ ds, c < 0x80) ∧ 1 ≤ ds.length := by
  intro fuel
  induction fuel with
  | zero => intro q k ds h; simp [encodeInt] at h
  | succ fuel ih =>
    intro q k ds h
    rw [encodeInt, bind_eq_ok] at h
    obtain ⟨t, _, h⟩ := h
    split at h
    · rw [bind_eq_ok] at h
      obtain ⟨c, hc, h⟩ := h
      simp only [pure_eq, Outcome.ok.injEq] at h
      subst h
      simpa using valueToDigit_ascii hc
    · simp only [bind_eq_ok] at h
      obtain ⟨m, _, r, _, v, _, c, hc, q', _, k', _, cs, hcs, h⟩ := h
      simp only [pure_eq, Outcome.ok.injEq] at h
      subst h
      have h1 := ih _ _ _ hcs
      have h2 := valueToDigit_ascii hc
      refine ⟨fun c hc => ?_, by simp⟩
      rw [List.mem_cons] at hc
      rcases hc with rfl | hc
      · exact h2
      · exact h1.1 c hc

/-- what the `for` loop preserves -/
structure Grown (st st' : EncState) : Prop where
  ascii : (∀ c ∈ st.out, c < 0x80) → ∀ c ∈ st'.out, c < 0x80
  len : st'.processed + st.out.length ≤ st.processed + st'.out.length

theorem add32_le {chk : Bool} {a b c : Nat} (h : add32 chk a b = .ok c) : c ≤ a + b := by
  unfold add32 at h
  split at h
  · simp only [Outcome.ok.injEq] at h; omega
  · split at h
    · simp at h
    · simp only [Outcome.ok.injEq] at h; rw [← h]; exact Nat.mod_le _ _

theorem encodeScan_grown {chk : Bool} {b n : Nat} : ∀ (s : List Nat) (st st' : EncState), encodeScan chk b n s st = .ok (some st') → Grown st st' := by
  intro s
  induction s with
  | nil =>
    intro st st' h
    simp only [encodeScan, Outcome.ok.injEq, Option.some.injEq] at h
    subst h
    exact ⟨id, Nat.le_refl _⟩
  | cons c s ih =>
    intro st st' h
    rw [encodeScan] at h
    obtain ⟨delta, h⟩ : ∃ delta, (if c < n ∧ delta = 0 then pure none
        else if c = n then do
          let digits ← encodeInt chk st.bias (delta + 1) delta BASE
          let np ← add32 chk st.processed 1
          let bias ← adapt chk delta np (st.processed == b)
          let processed ← add32 chk st.processed 1
          encodeScan chk b n s ⟨0, bias, processed, st.out ++ digits⟩
        else encodeScan chk b n s { st with delta := delta }) = Outcome.ok (some st') := by
      split at h <;> rw [bind_eq_ok] at h
      · obtain ⟨d, _, h⟩ := h; exact ⟨d, h⟩
      · obtain ⟨d, _, h⟩ := h; exact ⟨d, h⟩
    split at h
    · simp [pure_eq] at h
    · split at h
      · simp only [bind_eq_ok] at h
        obtain ⟨ds, hds, np, _, bias, _, pr, hpr, h⟩ := h
        have h1 := ih _ _ h
        have h2 := encodeInt_ascii _ _ _ _ hds
        have h3 := add32_le hpr
        refine ⟨fun ha => h1.ascii ?_, ?_⟩
        · intro c hc
          rw [List.mem_append] at hc
          rcases hc with hc | hc
          · exact ha c hc
          · exact h2.1 c hc
        · have h4 := h1.len
          simp only [List.length_append] at h4
          omega
      · have h1 := ih _ _ h
        exact ⟨h1.ascii, h1.len⟩

theorem encodeLoop_grown {chk : Bool} {s : List Nat} {b len : Nat} : ∀ (fuel n : Nat) (st : EncState) (p : List Nat),
    encodeLoop chk s b len fuel n st = .ok (some p) →
    ((∀ c ∈ st.out, c < 0x80) → ∀ c ∈ p, c < 0x80) ∧ len + st.out.length ≤ st.processed + p.length := by
  intro fuel
  induction fuel with
  | zero => intro n st p h; simp [encodeLoop] at h
  | succ fuel ih =>
    intro n st p h
    rw [encodeLoop] at h
    split at h
    · cases hm : minFrom n s with
      | none => rw [hm] at h; simp at h
      | some m =>
        rw [hm] at h
        simp only [bind_eq_ok] at h
        obtain ⟨dist, _, room, _, np, _, lim, _, h⟩ := h
        split at h
        · simp [pure_eq] at h
        · simp only [bind_eq_ok] at h
          obtain ⟨step, _, delta, _, o, ho, h⟩ := h
          cases o with
          | none => simp [pure_eq] at h
          | some st1 =>
            simp only [bind_eq_ok] at h
            obtain ⟨d2, _, cp, _, h⟩ := h
            have h1 := encodeScan_grown _ _ _ ho
            have h2 := ih _ _ _ h
            refine ⟨fun ha => h2.1 (h1.ascii ha), ?_⟩
            have h3 := h1.len
            have h4 := h2.2
            simp only at h3 h4
            omega
    · simp only [Outcome.ok.injEq, Option.some.injEq] at h
      subst h
      exact ⟨id, by omega⟩

/-- `encode` returns ASCII text. -/
theorem encode_ascii {chk : Bool} {s p : List Nat} (h : encode chk s = .ok (some p)) : ∀ c ∈ p, c < 0x80 := by
  unfold encode at h
  refine (encodeLoop_grown _ _ _ _ h).1 ?_
  intro c hc
  simp only at hc
  have hb : ∀ c ∈ s.filter (fun c => c < 0x80), c < 0x80 := fun c hc => by simpa using (List.mem_filter.1 hc).2
  split at hc
  · rw [List.mem_append] at hc
    rcases hc with hc | hc
    · exact hb c hc
    · simp only [List.mem_singleton, DELIMITER] at hc; omega
  · exact hb c hc

/-- `encode` returns at least as many characters. -/
theorem encode_length {chk : Bool} {s p : List Nat} (hs : s.length < 2 ^ 32) (h : encode chk s = .ok (some p)) : s.length ≤ p.length := by
  unfold encode at h
  have h1 := (encodeLoop_grown _ _ _ _ h).2
  have h2 : (s.filter (fun c => c < 0x80)).length ≤ s.length := List.length_filter_le _ _
  have h3 : asU32 s.length = s.length := Nat.mod_eq_of_lt hs
  have h4 : asU32 (s.filter (fun c => c < 0x80)).length = (s.filter (fun c => c < 0x80)).length := Nat.mod_eq_of_lt (by omega)
  simp only [h3, h4] at h1
  split at h1
  · simp only [List.length_append, List.length_singleton] at h1; omega
  · omega

end Proofs.Punycode
