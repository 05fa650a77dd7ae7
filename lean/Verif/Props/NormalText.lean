import Verif.Proofs.NormalSize
import Verif.Proofs.NormalPart

/-! # C50, C78, C79: parts, concatenations and sizes of normalized texts -/
namespace Props.NormalText
open Model Model.Normal Model.UcdNormal Model.Hangul Proofs.NormalAlg Proofs.NormalGood Proofs.NormalIter Proofs.NormalPart Proofs.NormalSize
  Proofs.CanonOrder Proofs.DecompData Proofs.DecompGen Proofs.CompData Proofs.Hangul Spec.Normal Props.Normal

local notation "ccc" => Ucd.combiningClass

/-! ## C79 -/

theorem compose_starter (a b c : Nat) (h : compose a b = some c) : ccc c = 0 := by
  rcases compose_cases h with ⟨⟨h1, h2⟩, ⟨h3, h4⟩, hc⟩ | ⟨⟨h3, h4, _⟩, h1, h2, hc⟩ | h
  · exact ccc_zero c (.inr (.inr (by omega)))
  · exact ccc_zero c (.inr (.inr (by omega)))
  · exact (compC_some h).2.2.2.2.2

theorem syllable_end (k : Bool) (l : Nat) (h : IsLV l) : ∃ x v, D k l = x ++ [v] ∧ ccc v = 0 := by
  have hs := isSyllable_LV h
  have hj := decomposeSyllable_jamo hs
  rw [D, full_syllable hs]
  rcases List.eq_nil_or_concat (decomposeSyllable l) with e | ⟨x, v, e⟩
  · exact absurd e decomposeSyllable_ne
  · rw [List.concat_eq_append] at e
    have := hj v (by rw [e]; simp)
    exact ⟨x, v, e, ccc_zero v (.inr (.inl ⟨this.1, this.2.1⟩))⟩

/-- **C79.** Every part of the normal form of a text is in that normal form, for the four forms. -/
theorem c79_parts (s a b c : List Nat) :
    (nfd s = a ++ b ++ c → nfd b = b) ∧ (nfkd s = a ++ b ++ c → nfkd b = b) ∧
    (nfc s = a ++ b ++ c → nfc b = b) ∧ (nfkc s = a ++ b ++ c → nfkc b = b) := by
  simp only [nfd_eq, nfkd_eq, nfc_eq, nfkc_eq]
  exact ⟨parts_decomposed (good false) s a b c, parts_decomposed (good true) s a b c,
    parts_composed (good false) compose_starter (syllable_end false) s a b c,
    parts_composed (good true) compose_starter (syllable_end true) s a b c⟩

/-- **C79.** Cutting a normalized text leaves normalized texts. -/
theorem c79_cut (s t : List Nat) :
    (nfd (s ++ t) = s ++ t → nfd s = s ∧ nfd t = t) ∧ (nfkd (s ++ t) = s ++ t → nfkd s = s ∧ nfkd t = t) ∧
    (nfc (s ++ t) = s ++ t → nfc s = s ∧ nfc t = t) ∧ (nfkc (s ++ t) = s ++ t → nfkc s = s ∧ nfkc t = t) := by
  have h1 := c79_parts (s ++ t) [] s t
  have h2 := c79_parts (s ++ t) s t []
  simp only [List.nil_append, List.append_nil] at h1 h2
  exact ⟨fun h => ⟨h1.1 h, h2.1 h⟩, fun h => ⟨h1.2.1 h, h2.2.1 h⟩, fun h => ⟨h1.2.2.1 h, h2.2.2.1 h⟩, fun h => ⟨h1.2.2.2 h, h2.2.2.2 h⟩⟩

/-- **C79.** The characters of a normalized text are normalized. -/
theorem c79_chars (s : List Nat) (c : Nat) :
    (c ∈ nfd s → nfd [c] = [c]) ∧ (c ∈ nfkd s → nfkd [c] = [c]) ∧ (c ∈ nfc s → nfc [c] = [c]) ∧ (c ∈ nfkc s → nfkc [c] = [c]) := by
  have key : ∀ {f : List Nat → List Nat}, (∀ a b, f s = a ++ [c] ++ b → f [c] = [c]) → c ∈ f s → f [c] = [c] := by
    intro f h hc
    obtain ⟨a, b, e⟩ := List.append_of_mem hc
    exact h a b (by rw [e]; simp)
  exact ⟨key fun a b => (c79_parts s a [c] b).1, key fun a b => (c79_parts s a [c] b).2.1,
    key fun a b => (c79_parts s a [c] b).2.2.1, key fun a b => (c79_parts s a [c] b).2.2.2⟩

/-- "é" with a mark below: the marks of the decomposition are reordered across the end of the first part -/
example : nfc [0x65, 0x301, 0x316] = [0xE9] ++ [0x316] ++ [] ∧ nfd [0xE9, 0x316] = [0x65, 0x316, 0x301] := by
  rw [nfc_lookup, nfd_lookup]; decide +kernel

/-- The converse fails: two normalized texts, the concatenation of which is not. -/
example : nfc [0x65] = [0x65] ∧ nfc [0x301] = [0x301] ∧ nfc ([0x65] ++ [0x301]) ≠ [0x65] ++ [0x301] := by
  rw [nfc_lookup, nfc_lookup, nfc_lookup]; decide +kernel

/-! ## C50 -/

theorem composed_concat {cc : Nat → Nat} {comp : Nat → Nat → Option Nat} (u : List Nat) {x : Nat} (v : List Nat) (h0 : cc x = 0)
    (h : ∀ l, comp l x = none) : composed cc comp (u ++ x :: v) = composed cc comp u ++ composed cc comp (x :: v) := by
  have hstep : ∀ w, walkStep cc comp w x = ⟨w.text, some x, []⟩ := by
    intro w
    unfold walkStep
    simp only [h0, if_true, h]
    split
    · rfl
    · split <;> rfl
  rw [composed, List.foldl_append, List.foldl_cons, hstep, W_before, composed, composed, List.foldl_cons, hstep]
  rfl

/-- **C50.** NFC and NFKC of a concatenation are the concatenation of the forms, if the decomposition of the second text begins
with a starter that never composes with what is before it. -/
theorem c50_concat_composed (s t : List Nat) :
    (∀ c r, nfd t = c :: r → ccc c = 0 → (∀ l, compose l c = none) → nfc (s ++ t) = nfc s ++ nfc t) ∧
    (∀ c r, nfkd t = c :: r → ccc c = 0 → (∀ l, compose l c = none) → nfkc (s ++ t) = nfkc s ++ nfkc t) := by
  constructor
  · intro c r h h0 hc
    rw [(c14_nfc _).1, (c14_nfc s).1, (c14_nfc t).1, (c50_concat s t).1 c r h h0, h, composed_concat _ _ h0 hc]
  · intro c r h h0 hc
    rw [(c14_nfc _).2, (c14_nfc s).2, (c14_nfc t).2, (c50_concat s t).2 c r h h0, h, composed_concat _ _ h0 hc]

/-- **C50.** So texts can be cut before any ASCII character and normalized piece by piece. -/
theorem c50_ascii (s t : List Nat) (c : Nat) (hc : c ≤ 0x7f) :
    nfd (s ++ c :: t) = nfd s ++ nfd (c :: t) ∧ nfkd (s ++ c :: t) = nfkd s ++ nfkd (c :: t) ∧
    nfc (s ++ c :: t) = nfc s ++ nfc (c :: t) ∧ nfkc (s ++ c :: t) = nfkc s ++ nfkc (c :: t) := by
  have h0 : ccc c = 0 := ccc_zero c (.inl hc)
  have hn : ∀ k, nd ccc (D k) (c :: t) = c :: nd ccc (D k) t := by
    intro k
    rw [nd, List.flatMap_cons, D_ascii k hc, List.singleton_append, order_starter_cons h0]; rfl
  have h1 : nfd (c :: t) = c :: nfd t := by rw [nfd_eq, nfd_eq, hn]
  have h2 : nfkd (c :: t) = c :: nfkd t := by rw [nfkd_eq, nfkd_eq, hn]
  exact ⟨(c50_concat s _).1 c _ h1 h0, (c50_concat s _).2 c _ h2 h0,
    (c50_concat_composed s _).1 c _ h1 h0 fun _ => compose_ascii hc, (c50_concat_composed s _).2 c _ h2 h0 fun _ => compose_ascii hc⟩

/-- a text cut before "b" -/
example : nfc ([0x65, 0x301] ++ [0x62, 0x301]) = [0xE9] ++ [0x62, 0x301] := by
  rw [(c50_ascii _ _ 0x62 (by decide)).2.2.1, nfc_lookup, nfc_lookup]; decide +kernel

/-! ## C78 -/

/-- the bytes of a text in UTF-8 -/
def utf8 (s : List Nat) : List Nat := s.flatMap Utf.encodeUtf8

theorem utf8_length (s : List Nat) : (utf8 s).length = total Utf.lenUtf8 s := by
  induction s with
  | nil => rfl
  | cons a s ih =>
    have : (Utf.encodeUtf8 a).length = Utf.lenUtf8 a := by
      unfold Utf.encodeUtf8 Utf.lenUtf8
      (repeat' split) <;> rfl
    rw [total_cons, ← ih, utf8, List.flatMap_cons, List.length_append, this]; rfl

theorem nd_total (w : Nat → Nat) (k : Bool) (r : Nat) (h : ∀ c, total w (D k c) ≤ r * w c) (s : List Nat) :
    total w (nd ccc (D k) s) ≤ r * total w s := by
  rw [nd, total_perm w (order_perm _)]
  exact total_flatMap_le w _ r h s

/-- **C78.** The decomposed forms have at most 4 (NFD) and 18 (NFKD) times as many characters as the text, and no fewer. -/
theorem c78_chars (s : List Nat) : s.length ≤ (nfd s).length ∧ (nfd s).length ≤ 4 * s.length ∧
    s.length ≤ (nfkd s).length ∧ (nfkd s).length ≤ 18 * s.length := by
  have lower : ∀ k, s.length ≤ (nd ccc (D k) s).length := by
    intro k
    rw [nd, (order_perm _).length_eq]
    induction s with
    | nil => simp
    | cons a s ih =>
      rw [List.flatMap_cons, List.length_append, List.length_cons]
      have := List.length_pos_iff.2 ((good k).ne a)
      simp only [D] at this ih ⊢
      omega
  have h1 := nd_total (fun _ => 1) false 4 (fun c => by rw [total_one]; exact D_one false c) s
  have h2 := nd_total (fun _ => 1) true 18 (fun c => by rw [total_one]; exact D_one true c) s
  rw [total_one, total_one] at h1 h2
  rw [nfd_eq, nfkd_eq]
  exact ⟨lower false, h1, lower true, h2⟩

/-- **C78.** The decomposed forms have at most 3 (NFD) and 11 (NFKD) times as many bytes in UTF-8 as the text. -/
theorem c78_bytes (s : List Nat) : (utf8 (nfd s)).length ≤ 3 * (utf8 s).length ∧ (utf8 (nfkd s)).length ≤ 11 * (utf8 s).length := by
  simp only [utf8_length, nfd_eq, nfkd_eq]
  exact ⟨nd_total _ false 3 (D_utf8 false) s, nd_total _ true 11 (D_utf8 true) s⟩

/-- **C78.** Composed forms are never longer than the decomposed ones, in characters and in bytes. -/
theorem c78_composed (s : List Nat) : (nfc s).length ≤ (nfd s).length ∧ (nfkc s).length ≤ (nfkd s).length ∧
    (utf8 (nfc s)).length ≤ (utf8 (nfd s)).length ∧ (utf8 (nfkc s)).length ≤ (utf8 (nfkd s)).length := by
  have h1 : ∀ t, (composed ccc compose t).length ≤ t.length := by
    intro t
    rw [← total_one, ← total_one t]
    exact composed_total (fun _ => 1) (fun _ _ _ _ => by decide) t
  rw [utf8_length, utf8_length, utf8_length, utf8_length, (c14_nfc s).1, (c14_nfc s).2]
  exact ⟨h1 _, h1 _, composed_total _ compose_utf8 _, composed_total _ compose_utf8 _⟩

/-- **C78.** So all forms fit into a buffer of 3 (NFD, NFC) or 11 (NFKD, NFKC) times the bytes of the text. -/
theorem c78_buffer (s : List Nat) : (utf8 (nfd s)).length ≤ 3 * (utf8 s).length ∧ (utf8 (nfc s)).length ≤ 3 * (utf8 s).length ∧
    (utf8 (nfkd s)).length ≤ 11 * (utf8 s).length ∧ (utf8 (nfkc s)).length ≤ 11 * (utf8 s).length := by
  have h1 := c78_bytes s
  have h2 := c78_composed s
  exact ⟨h1.1, Nat.le_trans h2.2.2.1 h1.1, h1.2, Nat.le_trans h2.2.2.2 h1.2⟩

/-- The bounds are reached: U+1F82 by four characters, U+FDFA by 18 characters and 33 bytes for 3; U+1D160 stays decomposed in NFC. -/
example : (nfd [0x1F82]).length = 4 ∧ (nfkd [0xFDFA]).length = 18 ∧ (utf8 (nfkc [0xFDFA])).length = 33 ∧ (utf8 [0xFDFA]).length = 3 ∧
    (utf8 (nfd [0x390])).length = 3 * (utf8 [0x390]).length ∧ (utf8 (nfc [0x1D160])).length = 3 * (utf8 [0x1D160]).length := by
  rw [nfd_lookup, nfkd_lookup, nfkc_lookup, nfd_lookup, nfc_lookup]; decide +kernel

end Props.NormalText
