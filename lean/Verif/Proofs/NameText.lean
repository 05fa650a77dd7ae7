import Verif.Data.Names

/-! Check of the bytes of all listed names, by kernel evaluation. -/
namespace Proofs.Name

/-- bit `b` is set for the bytes `A`–`Z`, `0`–`9` and `-` -/
def byteMask : Nat := 0x7FFFFFE03FF200000000000

/-- The bytes of `n` are words separated by single spaces. `sp`: the byte after them is a space. -/
noncomputable def okText (fuel : Nat) : Nat → Bool → Bool :=
  Nat.rec (fun _ _ => false) (fun _ ih n sp =>
    Bool.rec (Bool.rec (Bool.rec false (ih (n / 256) false) (Nat.beq (byteMask >>> (n % 256) % 2) 1))
      (Bool.rec (ih (n / 256) true) false sp) (Nat.beq (n % 256) 0x20)) (!sp) (Nat.beq n 0)) fuel

theorem names_text : Data.names.all (fun ch => ch.all fun e => okText 256 (e.2 / 256) true) = true := by decide +kernel

end Proofs.Name
