import Verif.Proofs.PunycodeInv
import Verif.Spec.Punycode

/-! # C20-C23: Punycode

`chk = true` is a build with overflow checks (debug), `chk = false` one without (release); the theorems hold for
both, in any combination. Text that fits in memory with 32-bit lengths is required throughout
(`s.length < 2 ^ 32`), because the program truncates lengths to `u32`. -/
namespace Props.Punycode
open Model Model.Punycode Proofs.Punycode Spec.Punycode

theorem lt_max {n : Nat} (h : n < 2 ^ 32) : n ≤ u32Max := by simp only [u32Max]; omega

theorem isDigit_alnum {c : Nat} (h : IsDigit c) : IsLowerAlnum c := h

theorem digits_ascii {ds : List Nat} (h : ∀ x ∈ ds, IsDigit x) : (∀ c ∈ ds, c < 0x80) ∧ DELIMITER ∉ ds := by
  constructor
  · intro c hc; rcases h c hc with h | h <;> omega
  · intro hd; rcases h _ hd with h | h <;> simp only [DELIMITER] at h <;> omega

/-- Decoding what `encode` wrote, from the parts. -/
theorem decode_parts {chk : Bool} {basic ds : List Nat} {r : Option (List Nat)} (hd : ∀ x ∈ ds, IsDigit x)
    (h : Dec ds basic 0x80 72 0 r) : decode chk ((if basic = [] then [] else basic ++ [DELIMITER]) ++ ds) = .ok r := by
  obtain ⟨h1, h2⟩ := digits_ascii hd
  by_cases hb : basic = []
  · rw [if_pos hb, List.nil_append, decode_no_delim h2, flatMap_ascii h1]
    rw [hb] at h
    exact h chk _ (by omega)
  · rw [if_neg hb, List.append_assoc, List.singleton_append, decode_delim hb h2, flatMap_ascii h1]
    exact h chk _ (by omega)

/-- C20, for texts of at most 3855 characters: whatever `encode` returns, `decode` turns back into the text.
Missing: longer texts, for which it is false (`c20_false`). -/
theorem c20_partial (chk chk' : Bool) (s p : List Nat) (hs : ∀ c ∈ s, Spec.IsScalar c) (hlen : s.length ≤ 3855)
    (h : encode chk s = .ok (some p)) : decode chk' p = .ok (some s) := by
  rcases encode_spec hs (lt_max (by omega)) with ⟨h1, _⟩ | ⟨ds, h1, h2, h3⟩
  · omega
  · rw [h1 chk] at h
    simp only [Outcome.ok.injEq, Option.some.injEq] at h
    rcases h3 with h3 | ⟨h3, _⟩
    · rw [← h]; exact decode_parts h2 h3
    · omega

/-- C20, for every text: what `encode` returns either decodes to the text or is rejected; it never decodes to another
text. -/
theorem c20_never_wrong (chk chk' : Bool) (s p : List Nat) (hs : ∀ c ∈ s, Spec.IsScalar c) (hlen : s.length < 2 ^ 32)
    (h : encode chk s = .ok (some p)) : decode chk' p = .ok (some s) ∨ decode chk' p = .ok none := by
  rcases encode_spec hs (lt_max hlen) with ⟨_, h1⟩ | ⟨ds, h1, h2, h3⟩
  · rcases h1 chk with h2 | ⟨_, h2⟩ <;> rw [h2] at h <;> simp at h
  · rw [h1 chk] at h
    simp only [Outcome.ok.injEq, Option.some.injEq] at h
    rcases h3 with h3 | ⟨_, h3⟩
    · left; rw [← h]; exact decode_parts h2 h3
    · right; rw [← h]; exact decode_parts h2 h3

example : encode true [0x62, 0xFC, 0x63, 0x68, 0x65, 0x72] = .ok (some [0x62, 0x63, 0x68, 0x65, 0x72, 0x2D, 0x6B, 0x76, 0x61]) := by
  decide +kernel

/-- C21: a text accepted by `decode` whose basic part is ASCII is, up to the letter case of its extended digits,
the encoding of the decoded text. -/
theorem c21 (chk chk' : Bool) (p s : List Nat) (hp : ∀ c ∈ p, Spec.IsScalar c)
    (hlen : (p.flatMap Utf.encodeUtf8).length < 2 ^ 32)
    (hbasic : ∀ basic digits, Parts p basic digits → ∀ c ∈ basic, c < 0x80)
    (h : decode chk p = .ok (some s)) :
    ∃ basic digits, Parts p basic digits ∧
      ∃ p', encode chk' s = .ok (some p') ∧ Parts p' basic (digits.map lower) ∧ basic = asciiOf s := by
  have key : ∀ basic digits : List Nat, Parts p basic digits → (∀ c ∈ basic, c < 0x80) →
      basic.length + (digits.flatMap Utf.encodeUtf8).length < 2 ^ 32 →
      decodeLoop chk ((digits.flatMap Utf.encodeUtf8).length + 1) (digits.flatMap Utf.encodeUtf8) basic 0x80 72 0 = .ok (some s) →
      ∃ basic digits, Parts p basic digits ∧
        ∃ p', encode chk' s = .ok (some p') ∧ Parts p' basic (digits.map lower) ∧ basic = asciiOf s := by
    intro basic digits hparts hb hl hdec
    obtain ⟨h1, h2⟩ := decodeLoop_encode hb (lt_max hl) hdec
    have hasc : digits.flatMap Utf.encodeUtf8 = digits := flatMap_ascii (ascii_of_bytes (fun b hb => (h1 b hb).1))
    rw [hasc] at h1 h2 hl hdec
    have hlow : (0x2D : Nat) ∉ digits.map lower := by
      intro hm
      obtain ⟨c, hc, hc2⟩ := List.mem_map.1 hm
      have := (h1 c hc).2
      unfold lower at hc2
      simp only [DELIMITER] at this
      split_ifs at hc2 <;> omega
    refine ⟨basic, digits, hparts, _, h2 chk', ⟨hlow, ?_⟩, ?_⟩
    · by_cases he : basic = []
      · right; rw [if_pos he]; exact ⟨he, rfl⟩
      · left; rw [if_neg he]; exact ⟨he, by rw [List.append_assoc]; rfl⟩
    · obtain ⟨_, _, h5⟩ := dec_enc (b := basic.length) _ digits basic 0x80 72 0 s hdec
        ⟨fun c hc => by have := hb c hc; omega, by simpa using hb, by omega, fun h => absurd rfl h⟩ (lt_max hl) (by omega) (by omega)
        (by simp [u32Max]) (by simp) (Nat.le_refl _)
      unfold At at h5
      rw [if_pos rfl] at h5
      exact h5.1.symm
  by_cases hd : DELIMITER ∈ p
  · cases hr : rsplit p with
    | none => exact absurd hd (rsplit_none.1 hr)
    | some ab =>
      obtain ⟨a, b⟩ := ab
      obtain ⟨h1, h2⟩ := rsplit_some hr
      by_cases ha : a = []
      · rw [h1, ha, List.nil_append, decode_lead_delim h2] at h; simp at h
      · have hparts : Parts p a b := ⟨h2, Or.inl ⟨ha, h1⟩⟩
        have hb := hbasic a b hparts
        rw [h1] at h hlen
        rw [decode_delim ha h2] at h
        refine key a b hparts hb ?_ h
        rw [List.flatMap_append, List.flatMap_cons, flatMap_ascii hb] at hlen
        simp only [List.length_append] at hlen
        omega
  · have hparts : Parts p [] p := ⟨hd, Or.inr ⟨rfl, rfl⟩⟩
    rw [decode_no_delim hd] at h
    exact key [] p hparts (by simp) (by simpa using hlen) h

theorem parts_unique {p b1 d1 b2 d2 : List Nat} (h1 : Parts p b1 d1) (h2 : Parts p b2 d2) : b1 = b2 ∧ d1 = d2 := by
  obtain ⟨n1, h1⟩ := h1
  obtain ⟨n2, h2⟩ := h2
  rcases h1 with ⟨_, e1⟩ | ⟨e1, e1'⟩ <;> rcases h2 with ⟨_, e2⟩ | ⟨e2, e2'⟩
  · have r1 := rsplit_append b1 d1 n1
    have r2 := rsplit_append b2 d2 n2
    rw [show b1 ++ DELIMITER :: d1 = p from e1.symm] at r1
    rw [show b2 ++ DELIMITER :: d2 = p from e2.symm, r1] at r2
    simpa using r2
  · exfalso; apply n2; rw [← e2', e1]; simp
  · exfalso; apply n1; rw [← e1', e2]; simp
  · exact ⟨by rw [e1, e2], by rw [← e1', e2']⟩

/-- C21: two ASCII Punycode texts that decode to the same text have the same basic part and the same extended digits up to
letter case. -/
theorem c21_injective (chk1 chk2 : Bool) (p1 p2 s : List Nat) (h1 : ∀ c ∈ p1, c < 0x80) (h2 : ∀ c ∈ p2, c < 0x80)
    (l1 : p1.length < 2 ^ 32) (l2 : p2.length < 2 ^ 32)
    (d1 : decode chk1 p1 = .ok (some s)) (d2 : decode chk2 p2 = .ok (some s)) :
    ∃ basic g1 g2, Parts p1 basic g1 ∧ Parts p2 basic g2 ∧ g1.map lower = g2.map lower := by
  have sc : ∀ p : List Nat, (∀ c ∈ p, c < 0x80) → ∀ c ∈ p, Spec.IsScalar c := by
    intro p h c hc; have := h c hc; unfold Spec.IsScalar; omega
  have bs : ∀ p : List Nat, (∀ c ∈ p, c < 0x80) → ∀ basic digits, Parts p basic digits → ∀ c ∈ basic, c < 0x80 := by
    intro p h basic digits hp c hc
    rcases hp.2 with ⟨_, e⟩ | ⟨e, _⟩
    · exact h c (by rw [e]; simp [hc])
    · rw [e] at hc; simp at hc
  obtain ⟨b1, g1, q1, p1', e1, q1', a1⟩ := c21 chk1 true p1 s (sc _ h1) (by rw [flatMap_ascii h1]; exact l1) (bs _ h1) d1
  obtain ⟨b2, g2, q2, p2', e2, q2', a2⟩ := c21 chk2 true p2 s (sc _ h2) (by rw [flatMap_ascii h2]; exact l2) (bs _ h2) d2
  rw [e1] at e2
  simp only [Outcome.ok.injEq, Option.some.injEq] at e2
  subst e2
  obtain ⟨hb, hg⟩ := parts_unique q1' q2'
  subst hb
  exact ⟨b1, g1, g2, q1, q2, hg⟩

-- "Bcher-KVA": the case of the extended digits does not matter, that of the basic part does
example : decode true [0x42, 0x63, 0x68, 0x65, 0x72, 0x2D, 0x4B, 0x56, 0x41] = .ok (some [0x42, 0xFC, 0x63, 0x68, 0x65, 0x72]) ∧
    Parts [0x42, 0x63, 0x68, 0x65, 0x72, 0x2D, 0x4B, 0x56, 0x41] [0x42, 0x63, 0x68, 0x65, 0x72] [0x4B, 0x56, 0x41] :=
  ⟨by decide +kernel, by simp, Or.inl ⟨by simp, rfl⟩⟩

/-- C21's restriction to an ASCII basic part is needed: `decode` accepts non-ASCII characters before the delimiter,
and then encoding the result gives something else. -/
theorem c21_basic_needed : decode true [0xE9, 0x2D] = .ok (some [0xE9]) ∧ encode true [0xE9] = .ok (some [0x39, 0x63, 0x61]) := by
  decide +kernel

/-- C22: the result consists of the ASCII characters of the text in order, the delimiter unless there are none, and lower-case
letters and digits. -/
theorem c22 (chk : Bool) (s p : List Nat) (hs : ∀ c ∈ s, Spec.IsScalar c) (hlen : s.length < 2 ^ 32)
    (h : encode chk s = .ok (some p)) :
    ∃ digits, Parts p (asciiOf s) digits ∧ (∀ c ∈ digits, IsLowerAlnum c) ∧ ∀ c ∈ p, c < 0x80 := by
  rcases encode_spec hs (lt_max hlen) with ⟨_, h1⟩ | ⟨ds, h1, h2, _⟩
  · rcases h1 chk with h2 | ⟨_, h2⟩ <;> rw [h2] at h <;> simp at h
  · rw [h1 chk] at h
    simp only [Outcome.ok.injEq, Option.some.injEq] at h
    obtain ⟨h3, h4⟩ := digits_ascii h2
    have hasc : ∀ c ∈ lt 0x80 s, c < 0x80 := fun c hc => by simpa using (List.mem_filter.1 hc).2
    refine ⟨ds, ⟨h4, ?_⟩, h2, ?_⟩
    · by_cases he : lt 0x80 s = []
      · right
        refine ⟨he, ?_⟩
        rw [← h, if_pos he]; rfl
      · left
        refine ⟨he, ?_⟩
        rw [← h, if_neg he, List.append_assoc]; rfl
    · intro c hc
      rw [← h, List.mem_append] at hc
      rcases hc with hc | hc
      · split_ifs at hc with he
        · simp at hc
        · rw [List.mem_append] at hc
          rcases hc with hc | hc
          · exact hasc c hc
          · simp only [List.mem_singleton, DELIMITER] at hc; omega
      · exact h3 c hc

/-- C22: no digit is ever out of range (and nothing else panics) in a release build. -/
theorem c22_digit_range (s : List Nat) (hs : ∀ c ∈ s, Spec.IsScalar c) (hlen : s.length < 2 ^ 32) :
    encode false s ≠ .panic := by
  rcases encode_spec hs (lt_max hlen) with ⟨_, h1⟩ | ⟨ds, h1, _, _⟩
  · rcases h1 false with h | ⟨h, _⟩
    · rw [h]; simp
    · simp at h
  · rw [h1]; simp

/-- C23, for texts of fewer than `2 ^ 32` bytes: `decode` returns without panicking, and what it returns are scalar values.
Missing: longer texts, for which it is false (`c23_decode_false`). -/
theorem c23_decode_partial (chk : Bool) (p : List Nat) (hp : ∀ c ∈ p, Spec.IsScalar c)
    (hlen : (p.flatMap Utf.encodeUtf8).length < 2 ^ 32) :
    ∃ r, decode chk p = .ok r ∧ ∀ s, r = some s → ∀ c ∈ s, Spec.IsScalar c := by
  have key : ∀ basic digits : List Nat, (∀ c ∈ basic, Spec.IsScalar c) → basic.length + (digits.flatMap Utf.encodeUtf8).length < 2 ^ 32 →
      ∃ r, decodeLoop chk ((digits.flatMap Utf.encodeUtf8).length + 1) (digits.flatMap Utf.encodeUtf8) basic 0x80 72 0 = .ok r ∧
        ∀ s, r = some s → ∀ c ∈ s, Spec.IsScalar c := by
    intro basic digits hb hl
    rcases decodeLoop_total (chk := chk) _ (digits.flatMap Utf.encodeUtf8) basic 0x80 72 0 (Nat.lt_succ_self _) (lt_max hl)
      (by simp [u32Max]) (by omega) (by omega) hb with h | ⟨r, h, h1, _, _⟩
    · exact ⟨none, h, by simp⟩
    · exact ⟨some r, h, fun s hs => by injection hs with hs; rw [← hs]; exact h1⟩
  cases hr : rsplit p with
  | none =>
    rw [decode_no_delim (rsplit_none.1 hr)]
    exact key [] p (by simp) (by simpa using hlen)
  | some ab =>
    obtain ⟨a, b⟩ := ab
    obtain ⟨h1, h2⟩ := rsplit_some hr
    by_cases ha : a = []
    · rw [h1, ha, List.nil_append, decode_lead_delim h2]; exact ⟨none, rfl, by simp⟩
    · rw [h1, decode_delim ha h2]
      refine key a b (fun c hc => hp c (by rw [h1]; simp [hc])) ?_
      rw [h1, List.flatMap_append, List.flatMap_cons] at hlen
      simp only [List.length_append] at hlen
      have := Proofs.Utf.length_le_flatMap a
      omega

/-- C23 is false for longer texts: after `2 ^ 32 - 1` basic characters, one extended character makes `decode` panic, in
either build (`length + 1` overflows, or a division by zero follows). -/
theorem c23_decode_false (chk : Bool) : decode chk (List.replicate (2 ^ 32 - 1) 0x61 ++ [0x2D, 0x61]) = .panic := by
  have hlen : asU32 (List.replicate (2 ^ 32 - 1) 0x61).length = u32Max := by rw [List.length_replicate]; rfl
  have hne : List.replicate (2 ^ 32 - 1) 0x61 ≠ [] := by
    intro h
    have := congrArg List.length h
    rw [List.length_replicate, List.length_nil] at this
    omega
  generalize List.replicate (2 ^ 32 - 1) 0x61 = basic at hlen hne
  rw [show basic ++ [0x2D, 0x61] = basic ++ DELIMITER :: [0x61] from rfl, decode_delim hne (by decide)]
  rw [show [0x61].flatMap Utf.encodeUtf8 = [0x61] from rfl, decodeLoop, if_neg (by simp)]
  have hI : decodeInt chk 72 [0x61] 0 1 BASE = .ok (some (0, [])) := by cases chk <;> decide +kernel
  rw [hI, bind_ok]
  simp only
  rw [sub32_ok (Nat.le_refl _), bind_ok, hlen]
  cases chk with
  | true => rfl
  | false => rfl

/-- C23: `encode` succeeds on every text of at most 3855 characters, in either build. -/
theorem c23_encode (chk : Bool) (s : List Nat) (hs : ∀ c ∈ s, Spec.IsScalar c) (hlen : s.length ≤ 3855) :
    ∃ p, encode chk s = .ok (some p) := by
  rcases encode_spec hs (lt_max (by omega)) with ⟨h1, _⟩ | ⟨ds, h1, _, _⟩
  · omega
  · exact ⟨_, h1 chk⟩

/-- C23: the limit is sharp. On 3855 letters `a` and U+10FF70 a debug build panics and a release build returns `None`. -/
theorem c23_encode_limit : encode true (List.replicate 3855 0x61 ++ [0x10FF70]) = .panic ∧
    encode false (List.replicate 3855 0x61 ++ [0x10FF70]) = .ok none := by
  decide +kernel

/-- C20 is false for longer texts: on U+10FF71, 3854 letters `a`, U+0080, `encode` succeeds but `decode` rejects the
result, because its running index overflows where the encoder's did not. -/
theorem c20_false : ∃ s p : List Nat, (∀ c ∈ s, Spec.IsScalar c) ∧ s.length = 3856 ∧
    ∀ chk, encode chk s = .ok (some p) ∧ decode chk p = .ok none := by
  refine ⟨0x10FF71 :: (List.replicate 3854 0x61 ++ [0x80]), List.replicate 3854 0x61 ++
    [45, 101, 102, 100, 53, 53, 49, 56, 55, 48, 54, 48, 52, 98], ?_, ?_, ?_⟩
  · intro c hc
    rw [List.mem_cons, List.mem_append] at hc
    unfold Spec.IsScalar
    rcases hc with rfl | hc | hc
    · omega
    · have := List.eq_of_mem_replicate hc; omega
    · rw [List.mem_singleton] at hc; omega
  · rw [List.length_cons, List.length_append, List.length_replicate, List.length_singleton]
  · intro chk
    cases chk <;> decide +kernel

end Props.Punycode
