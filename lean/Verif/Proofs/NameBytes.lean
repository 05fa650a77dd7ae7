import Verif.Model.Name
import Verif.Proofs.Hex
import Mathlib.Tactic.Ring

/-! The encoding of the entries of `Data.names`, and the texts of names. -/
namespace Proofs.Name
open Model Model.Name

/-! ## Bytes of numbers -/

/-- the number whose bytes are given -/
def val (l : List Nat) : Nat := l.foldl (fun a b => a * 256 + b) 0

theorem bytesAux_acc : ∀ (fuel n : Nat) (acc : List Nat), bytesAux fuel n acc = bytesAux fuel n [] ++ acc
  | 0, _, _ => rfl
  | fuel + 1, n, acc => by
    rw [bytesAux, bytesAux]
    split
    · rfl
    · rw [bytesAux_acc fuel (n / 256) (n % 256 :: acc), bytesAux_acc fuel (n / 256) [n % 256], List.append_assoc]; rfl

theorem bytesAux_fuel : ∀ (fuel fuel' n : Nat), n ≤ fuel → n ≤ fuel' → bytesAux fuel n [] = bytesAux fuel' n []
  | 0, 0, _, _, _ => rfl
  | 0, fuel' + 1, n, h, _ => by
    obtain rfl : n = 0 := by omega
    rfl
  | fuel + 1, 0, n, _, h => by
    obtain rfl : n = 0 := by omega
    rfl
  | fuel + 1, fuel' + 1, n, h, h' => by
    rw [bytesAux, bytesAux]
    split
    · rfl
    · rw [bytesAux_acc fuel, bytesAux_acc fuel', bytesAux_fuel fuel fuel' (n / 256) (by omega) (by omega)]

theorem bytes_zero : bytes 0 = [] := rfl

theorem bytes_step {n : Nat} (h : n ≠ 0) : bytes n = bytes (n / 256) ++ [n % 256] := by
  obtain ⟨m, rfl⟩ := Nat.exists_eq_succ_of_ne_zero h
  rw [bytes, Nat.succ_eq_add_one, bytesAux, if_neg (by omega), bytesAux_acc, bytesAux_fuel m ((m + 1) / 256) _ (by omega) (Nat.le_refl _)]
  rfl

theorem val_append (a : List Nat) (b : List Nat) : val (a ++ b) = val a * 256 ^ b.length + val b := by
  have h : ∀ (b : List Nat) (x : Nat), b.foldl (fun a b => a * 256 + b) x = x * 256 ^ b.length + val b := by
    intro b
    induction b with
    | nil => intro x; simp [val]
    | cons c b ih =>
      intro x
      have hc : val (c :: b) = c * 256 ^ b.length + val b := by
        rw [val, List.foldl_cons, ih]; simp
      rw [List.foldl_cons, ih, hc, List.length_cons, Nat.pow_succ]
      ring
  rw [val, List.foldl_append, h]; rfl

theorem val_bytes (n : Nat) : val (bytes n) = n := by
  induction n using Nat.strongRecOn with
  | ind n ih =>
    by_cases h : n = 0
    · subst h; rfl
    · rw [bytes_step h, val_append, ih _ (by omega)]
      simp [val]; omega

theorem bytes_lt (n : Nat) : ∀ b ∈ bytes n, b < 256 := by
  induction n using Nat.strongRecOn with
  | ind n ih =>
    by_cases h : n = 0
    · subst h; simp [bytes_zero]
    · rw [bytes_step h]
      intro b hb
      rcases List.mem_append.1 hb with hb | hb
      · exact ih _ (by omega) b hb
      · rw [List.mem_singleton.1 hb]; exact Nat.mod_lt _ (by omega)

theorem val_lt : ∀ (l : List Nat), (∀ b ∈ l, b < 256) → val l < 256 ^ l.length := by
  intro l
  induction l with
  | nil => intro _; simp [val]
  | cons a l ih =>
    intro h
    have h1 := ih (fun b hb => h b (by simp [hb]))
    have h2 : a + 1 ≤ 256 := h a (by simp)
    have h3 := Nat.mul_le_mul_right (256 ^ l.length) h2
    have h4 : val (a :: l) = a * 256 ^ l.length + val l := by
      have := val_append [a] l
      simpa [val] using this
    rw [h4, List.length_cons, Nat.pow_succ]
    rw [Nat.add_mul, Nat.one_mul] at h3
    omega

theorem bytes_inj {n m : Nat} (h : bytes n = bytes m) : n = m := by
  rw [← val_bytes n, h, val_bytes]

theorem bytes_length {n : Nat} (h : n ≠ 0) : n < 256 ^ (bytes n).length ∧ 256 ^ ((bytes n).length - 1) ≤ n ∧ 0 < (bytes n).length := by
  induction n using Nat.strongRecOn with
  | ind n ih =>
    rw [bytes_step h, List.length_append, List.length_singleton, Nat.add_sub_cancel]
    by_cases h' : n / 256 = 0
    · rw [h', bytes_zero]
      refine ⟨by simp only [List.length_nil, Nat.zero_add, Nat.pow_one]; omega, by simp only [List.length_nil, Nat.pow_zero]; omega, by omega⟩
    · obtain ⟨h1, h2, h3⟩ := ih (n / 256) (by omega) h'
      obtain ⟨m, hm⟩ : ∃ m, (bytes (n / 256)).length = m + 1 := ⟨_, (Nat.succ_pred_eq_of_pos h3).symm⟩
      rw [hm] at h1 h2 ⊢
      rw [Nat.add_sub_cancel] at h2
      refine ⟨?_, ?_, by omega⟩
      · rw [Nat.pow_succ]; omega
      · rw [Nat.pow_succ]; omega

theorem log2_div {n b L : Nat} (hn : n ≠ 0) (h1 : n < (2 ^ b) ^ (L + 1)) (h2 : (2 ^ b) ^ L ≤ n) : Nat.log2 n / b = L := by
  rw [← Nat.pow_mul] at h1 h2
  have h3 : Nat.log2 n < b * (L + 1) := (Nat.log2_lt hn).2 h1
  have h4 : b * L ≤ Nat.log2 n := (Nat.le_log2 hn).2 h2
  apply Nat.div_eq_of_lt_le
  · rw [Nat.mul_comm]; exact h4
  · rw [Nat.mul_comm]; exact h3

theorem size_eq {n : Nat} (h : n ≠ 0) : Nat.log2 n / 8 + 1 = (bytes n).length := by
  obtain ⟨h1, h2, h3⟩ := bytes_length h
  obtain ⟨m, hm⟩ : ∃ m, (bytes n).length = m + 1 := ⟨_, (Nat.succ_pred_eq_of_pos h3).symm⟩
  rw [hm] at h1 h2 ⊢
  rw [log2_div (b := 8) (L := m) h (by simpa using h1) (by simpa using h2)]

/-- the first bytes of a number -/
theorem bytes_prefix {n : Nat} {P s : List Nat} (hn : n ≠ 0) (h : bytes n = P ++ s) : n >>> (8 * (Nat.log2 n / 8 + 1 - P.length)) = val P := by
  have hs : val s < 256 ^ s.length := val_lt s fun b hb => bytes_lt n b (by rw [h]; simp [hb])
  have hv := val_bytes n
  rw [h, val_append] at hv
  rw [size_eq hn, h, List.length_append, Nat.add_sub_cancel_left, Nat.shiftRight_eq_div_pow, Nat.pow_mul, ← hv]
  rw [show (2 : Nat) ^ 8 = 256 by rfl, Nat.mul_comm, Nat.mul_add_div (Nat.pow_pos (by omega)), Nat.div_eq_of_lt hs, Nat.add_zero]

theorem bytes_end {n : Nat} (h : n % 256 = 0x20) : bytes n = bytes (n / 256) ++ [0x20] := by
  rw [bytes_step (by omega), h]

/-! ## Pieces -/

theorem writePieces_append : ∀ (ps : List (List Nat)) (x p : List Nat), writePieces ps (x ++ p) = x ++ writePieces ps p
  | [], _, _ => rfl
  | q :: ps, x, p => by
    rw [writePieces, writePieces, List.append_assoc, List.append_assoc, writePieces_append ps, List.append_assoc]

theorem piecesAux_text : ∀ (t cur : List Nat), ∃ p rest, piecesAux (t ++ [0x20]) cur = p :: rest ∧ writePieces rest p = cur.reverse ++ t
  | [], cur => ⟨cur.reverse, [], by simp [piecesAux], by simp [writePieces]⟩
  | b :: t, cur => by
    rw [List.cons_append, piecesAux]
    split
    · next hb =>
      obtain ⟨p, rest, h1, h2⟩ := piecesAux_text t []
      refine ⟨cur.reverse, p :: rest, by rw [h1], ?_⟩
      rw [writePieces, writePieces_append, h2, hb]; simp
    · obtain ⟨p, rest, h1, h2⟩ := piecesAux_text t (b :: cur)
      exact ⟨p, rest, h1, by rw [h2]; simp⟩

/-- the pieces of an entry put together are its bytes without the last -/
theorem pieces_text {n : Nat} (h : n % 256 = 0x20) : ∃ p rest, pieces n = p :: rest ∧ writePieces rest p = bytes (n / 256) := by
  obtain ⟨p, rest, h1, h2⟩ := piecesAux_text (bytes (n / 256)) []
  exact ⟨p, rest, by rw [pieces, bytes_end h, h1], by simpa using h2⟩

theorem pieces_display {n : Nat} (h : n % 256 = 0x20) : display (.NR3 (pieces n)) = .ok (bytes (n / 256)) := by
  obtain ⟨p, rest, h1, h2⟩ := pieces_text h
  rw [h1, display, h2]

theorem piecesAux_space : ∀ (l cur : List Nat), 0x20 ∉ cur → ∀ p ∈ piecesAux l cur, 0x20 ∉ p
  | [], _, _ => by simp [piecesAux]
  | b :: l, cur, h => by
    rw [piecesAux]
    split
    · intro p hp
      rcases List.mem_cons.1 hp with rfl | hp
      · simpa using h
      · exact piecesAux_space l [] (by simp) p hp
    · next hb => exact piecesAux_space l (b :: cur) (by simp only [List.mem_cons, not_or]; exact ⟨fun e => hb e.symm, h⟩)

theorem pieces_space {n : Nat} : ∀ p ∈ pieces n, 0x20 ∉ p := piecesAux_space _ _ (by simp)

theorem countPieces_eq : ∀ (ps : List (List Nat)) (k : Nat), countPieces ps k = k + (ps.map List.length).sum
  | [], k => by simp [countPieces]
  | p :: ps, k => by rw [countPieces, countPieces_eq ps, List.map_cons, List.sum_cons]; omega

theorem writePieces_length : ∀ (ps : List (List Nat)) (out : List Nat), (writePieces ps out).length = out.length + ps.length + (ps.map List.length).sum
  | [], out => by simp [writePieces]
  | p :: ps, out => by
    rw [writePieces, writePieces_length ps]
    simp; omega

theorem len_NR3 (p : List Nat) (ps : List (List Nat)) : len (.NR3 (p :: ps)) = .ok (writePieces ps p).length := by
  rw [len, countPieces_eq, writePieces_length]
  simp; omega

/-! ## Hexadecimal numbers -/

theorem fmt_zero (n : Nat) : Hex.fmt 0 n = Hex.digits n n := by simp [Hex.fmt]

theorem hex_length {n : Nat} (h : n ≠ 0) : numberOfHexDigits n = (Hex.fmt 0 n).length := by
  obtain ⟨h1, h2, _⟩ := Proofs.Hex.digits_length n n (Nat.le_refl _)
  have h3 : 0 < (Hex.digits n n).length := List.length_pos_iff.2 (Proofs.Hex.digits_ok n n (Nat.le_refl _)).2.2
  obtain ⟨m, hm⟩ : ∃ m, (Hex.digits n n).length = m + 1 := ⟨_, (Nat.succ_pred_eq_of_pos h3).symm⟩
  rw [fmt_zero, hm]
  rw [hm] at h1 h2
  have := log2_div (b := 4) (L := m) h (by simpa using h1) (by simpa using h2 h)
  rw [numberOfHexDigits, bitLen, if_neg h]
  omega

theorem hex_inj {n m : Nat} (h : Hex.fmt 0 n = Hex.fmt 0 m) : n = m := by
  rw [← (Proofs.Hex.fmt_ok 0 n).2.1, h, (Proofs.Hex.fmt_ok 0 m).2.1]

end Proofs.Name
