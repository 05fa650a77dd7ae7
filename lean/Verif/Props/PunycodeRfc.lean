import Verif.Proofs.PunycodeRfc
import Verif.Props.Punycode

/-! # C55: Punycode as defined by RFC 3492 -/
namespace Props.PunycodeRfc
open Model Model.Punycode Proofs.Punycode Spec.Punycode Spec.Rfc3492 Props.Punycode

theorem ascii_scalar {p : List Nat} (h : ∀ c ∈ p, c < 0x80) : ∀ c ∈ p, Spec.IsScalar c := by
  intro c hc; have := h c hc; unfold Spec.IsScalar; omega

theorem inserts_head {lim n i bias out c cs s} (h : Inserts lim n i bias out (c :: cs) s) : ∃ d, digit c = some d := by
  generalize hx : c :: cs = x at h
  cases h with
  | done => cases hx
  | step hN _ _ =>
    cases hN with
    | last h _ => simp at hx; rw [hx.1]; exact ⟨_, h⟩
    | more h _ _ => simp at hx; rw [hx.1]; exact ⟨_, h⟩

/-- **C55, partial.** `decode` accepts an ASCII text exactly if RFC 3492 decodes it to scalar values with integers of 32 bits, and
returns what the RFC says, in either build. Missing: texts that are not ASCII, where `decode` accepts more than the RFC
(`c55_decode_false`), and texts of `2 ^ 32` bytes or more (C23). -/
theorem c55_decode_partial (chk : Bool) (p s : List Nat) (hp : ∀ c ∈ p, c < 0x80) (hlen : p.length < 2 ^ 32) :
    decode chk p = .ok (some s) ↔ Decodes (2 ^ 32 - 1) p s ∧ ∀ c ∈ s, Spec.IsScalar c := by
  have key : ∀ basic digits : List Nat, Parts p basic digits → (∀ c ∈ basic, c < 0x80) →
      basic.length + digits.length < 2 ^ 32 →
      (decodeLoop chk (digits.length + 1) digits basic 0x80 72 0 = .ok (some s) ↔ Decodes (2 ^ 32 - 1) p s ∧ ∀ c ∈ s, Spec.IsScalar c) := by
    intro basic digits hparts hb hl
    rw [decodeLoop_inserts (digits.length + 1) digits basic 0x80 72 0 (Nat.lt_succ_self _) (lt_max hl) (by simp [u32Max]) (by omega) (by omega)
      (ascii_scalar hb)]
    constructor
    · rintro ⟨h1, h2⟩; exact ⟨⟨basic, digits, hparts, hb, h1⟩, h2⟩
    · rintro ⟨⟨b, d, h1, h2, h3⟩, h4⟩
      obtain ⟨rfl, rfl⟩ := parts_unique h1 hparts
      exact ⟨h3, h4⟩
  cases hr : rsplit p with
  | none =>
    have hd := rsplit_none.1 hr
    rw [decode_no_delim hd, flatMap_ascii hp]
    exact key [] p ⟨hd, Or.inr ⟨rfl, rfl⟩⟩ (by simp) (by simpa using hlen)
  | some ab =>
    obtain ⟨a, b⟩ := ab
    obtain ⟨h1, h2⟩ := rsplit_some hr
    by_cases ha : a = []
    · have : ¬ ∃ b d, Parts p b d := by
        rintro ⟨b', d', n, ⟨h3, h4⟩ | ⟨-, h4⟩⟩
        · have := rsplit_append b' d' n
          rw [show b' ++ DELIMITER :: d' = p from h4.symm, hr] at this
          simp only [Option.some.injEq, Prod.mk.injEq] at this
          exact h3 (this.1.symm.trans ha)
        · apply n; rw [← h4, h1]; simp [DELIMITER]
      rw [h1, ha, List.nil_append, decode_lead_delim h2]
      refine ⟨fun h => (by cases h), ?_⟩
      rintro ⟨⟨b', d', h3, -⟩, -⟩
      rw [h1, ha, List.nil_append] at this
      exact absurd ⟨b', d', h3⟩ this
    · have hpa : ∀ c ∈ a, c < 0x80 := fun c hc => hp c (by rw [h1]; simp [hc])
      have hpb : ∀ c ∈ b, c < 0x80 := fun c hc => hp c (by rw [h1]; simp [hc])
      have hk := key a b ⟨h2, Or.inl ⟨ha, h1⟩⟩ hpa (by rw [h1] at hlen; simp only [List.length_append, List.length_cons] at hlen; omega)
      rw [← hk, h1, decode_delim ha h2, flatMap_ascii hpb]

/-- **C55.** For texts of at most 3855 characters 32 bits are enough: whatever RFC 3492 decodes to such a text, with integers of
any size, `decode` decodes to it. -/
theorem c55_decode_complete (chk : Bool) (lim : Nat) (p s : List Nat) (hlen : p.length < 2 ^ 32) (h : Decodes lim p s)
    (hs : ∀ c ∈ s, Spec.IsScalar c) (hl : s.length ≤ 3855) : decode chk p = .ok (some s) := by
  obtain ⟨basic, digits, h1, h2, h3⟩ := h
  have hp : ∀ c ∈ p, c < 0x80 := by
    intro c hc
    rcases h1.2 with ⟨-, e⟩ | ⟨-, e⟩
    · rw [e, List.mem_append, List.mem_cons] at hc
      rcases hc with hc | rfl | hc
      · exact h2 c hc
      · omega
      · exact inserts_ascii h3 c hc
    · rw [e] at hc; exact inserts_ascii h3 c hc
  rw [c55_decode_partial chk p s hp hlen]
  exact ⟨⟨basic, digits, h1, h2, (inserts_lim h3 hs hl (by omega)).2⟩, hs⟩

/-- **C55.** What `encode` returns for a text of at most 3855 characters is its Punycode by RFC 3492, with lower-case digits: it
decodes to the text, and so does nothing else except for the letter case of the digits. -/
theorem c55_encode (chk : Bool) (s p : List Nat) (hs : ∀ c ∈ s, Spec.IsScalar c) (hl : s.length ≤ 3855)
    (h : encode chk s = .ok (some p)) (hlen : p.length < 2 ^ 32) :
    ∃ digits, Parts p (asciiOf s) digits ∧ (∀ c ∈ digits, IsLowerAlnum c) ∧ Decodes (2 ^ 32 - 1) p s ∧
      ∀ lim p', Decodes lim p' s → p'.length < 2 ^ 32 → ∃ digits', Parts p' (asciiOf s) digits' ∧ digits'.map lower = digits := by
  obtain ⟨ds, h1, h2, h3⟩ := c22 chk s p hs (by omega) h
  have hd := c20_partial chk chk s p hs hl h
  refine ⟨ds, h1, h2, ((c55_decode_partial chk p s h3 hlen).mp hd).1, ?_⟩
  intro lim p' hp' hl'
  have hd' := c55_decode_complete chk lim p' s hl' hp' hs hl
  have ha : ∀ c ∈ p', c < 0x80 := by
    obtain ⟨basic, digits, h1, h2, h3⟩ := hp'
    intro c hc
    rcases h1.2 with ⟨-, e⟩ | ⟨-, e⟩
    · rw [e, List.mem_append, List.mem_cons] at hc
      rcases hc with hc | rfl | hc
      · exact h2 c hc
      · omega
      · exact inserts_ascii h3 c hc
    · rw [e] at hc; exact inserts_ascii h3 c hc
  obtain ⟨basic, g1, g2, q1, q2, q3⟩ := c21_injective chk chk p p' s h3 ha hlen hl' hd hd'
  obtain ⟨rfl, rfl⟩ := parts_unique q1 h1
  refine ⟨g2, q2, ?_⟩
  rw [← q3]
  conv_rhs => rw [← List.map_id g1]
  apply List.map_congr_left
  intro c hc
  have := h2 c hc
  unfold IsLowerAlnum at this
  unfold lower
  rw [if_neg (by omega)]; rfl

/-- **C55 fails for texts that are not ASCII**: RFC 3492 says to fail on a non-basic code point before the delimiter, and `decode` accepts
"é-". -/
theorem c55_decode_false (chk : Bool) : decode chk [0xE9, 0x2D] = .ok (some [0xE9]) ∧ ∀ lim s, ¬ Decodes lim [0xE9, 0x2D] s := by
  refine ⟨by cases chk <;> decide +kernel, ?_⟩
  rintro lim s ⟨basic, digits, h1, h2, -⟩
  obtain ⟨rfl, rfl⟩ := parts_unique h1 (b2 := [0xE9]) (d2 := []) ⟨by simp, Or.inl ⟨by simp, rfl⟩⟩
  exact absurd (h2 0xE9 (by simp)) (by omega)

/-- "bcher-kva" meets the hypotheses, and RFC 3492 decodes it to "bücher". -/
example : (∀ c ∈ [0x62, 0x63, 0x68, 0x65, 0x72, 0x2D, 0x6B, 0x76, 0x61], c < 0x80) ∧
    Decodes (2 ^ 32 - 1) [0x62, 0x63, 0x68, 0x65, 0x72, 0x2D, 0x6B, 0x76, 0x61] [0x62, 0xFC, 0x63, 0x68, 0x65, 0x72] :=
  ⟨by decide, ((c55_decode_partial true _ _ (by decide) (by decide)).mp (by decide +kernel)).1⟩

end Props.PunycodeRfc
