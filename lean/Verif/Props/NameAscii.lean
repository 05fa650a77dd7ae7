import Verif.Props.Name
import Verif.Spec.NameAscii

/-! # Property C58, continued: the names of the ASCII characters -/
namespace Props.Name
open Model Model.Name Spec.Name Proofs.Name

/-- The entry `e` of the names, if for an ASCII character, has the name of the list. -/
def asciiEntry (e : Nat × Nat) : Bool := Nat.blt 0x7E e.1 || decide (display (.NR3 (pieces e.2)) = .ok (text (asciiNames.getD (e.1 - 0x20) "")))

theorem ascii_entries : Data.names.all (fun ch => ch.all asciiEntry) = true := by decide +kernel

theorem ascii_listed : (List.range 95).all (fun i => (Data.names.take 2).flatten.any fun e => Nat.beq e.1 (0x20 + i)) = true := by decide +kernel

/-- **C58.** The printable ASCII characters have the names of the standard, the other ASCII characters have none. -/
theorem c58_ascii (c : Nat) (h : c < 0x80) : if 0x20 ≤ c ∧ c ≤ 0x7E
    then ∃ nm, «of» c = .ok (some nm) ∧ display nm = .ok (text (asciiNames.getD (c - 0x20) ""))
    else «of» c = .ok none := by
  have ho : «of» c = (namesTable.find c).map (fun o => o.map .NR3) := by
    rw [«of»]
    simp only [inRange, Bool.or_eq_true, Bool.and_eq_true, decide_eq_true_eq]
    repeat rw [if_neg (by omega)]
  split
  · rename_i hc
    have hm := List.all_eq_true.1 ascii_listed (c - 0x20) (List.mem_range.2 (by omega))
    obtain ⟨⟨k, n⟩, he, hk⟩ := List.any_eq_true.1 hm
    have hk : k = c := by have := Nat.eq_of_beq_eq_true hk; simp only at this; omega
    subst hk
    have hin : (k, n) ∈ Data.names.flatten := by
      obtain ⟨ch, h1, h2⟩ := List.mem_flatten.1 he
      exact List.mem_flatten.2 ⟨ch, List.mem_of_mem_take h1, h2⟩
    rcases find_names k with ⟨n, hn, hf⟩ | ⟨hn, -⟩
    · refine ⟨_, by rw [ho, hf]; rfl, ?_⟩
      have := names_all ascii_entries hn
      rw [asciiEntry, Bool.or_eq_true] at this
      rcases this with h2 | h2
      · have := Nat.le_of_ble_eq_true h2; simp only at this; omega
      · exact of_decide_eq_true h2
    · exact absurd hin (hn n)
  · rename_i hc
    obtain ⟨r, hr, hs⟩ := c58_named c
    cases r with
    | none => exact hr
    | some nm =>
      exfalso
      have hcat := (hs.1 rfl).1
      have hall : ∀ c, c < 0x80 → ¬ (0x20 ≤ c ∧ c ≤ 0x7E) → Ucd.generalCategory c = .Control := by decide +kernel
      exact hcat (hall c h hc)

end Props.Name
