import Verif.Props.GraphemeChunk

/-! # C37: what the cursor asks for at the start of a chunk -/
namespace Props.GraphemeAsk
open Data Spec.Segment Model Model.Grapheme Proofs.Grapheme Proofs.Punycode Props.Grapheme Props.GraphemeChunk

/-- **C37, queries.** At the start of a chunk that is not the first, a fresh cursor does not panic and does not guess: it asks for the text before
the chunk. -/
theorem c37_asks (gcb : Nat → GCB) (ext : Bool) (before : List Nat) (hb : before ≠ []) (y : Nat) (d rest : List Nat) :
    ∃ c, (Cursor.new ext (blen before) (blen (before ++ y :: d ++ rest))).isBoundary gcb (y :: d) (blen before) = .ok (c, .error (.PreContext (blen before))) := by
  have hf := fresh_start (gcb := gcb) (ext := ext) (ra := before.reverse) (b1 := d) (R := rest) (y := y) (by simpa using hb)
  rw [blen_reverse, List.reverse_reverse, ← List.append_assoc] at hf
  exact ⟨_, hf⟩

/-- **C37, queries, the exception.** In extended mode, at the start of a chunk after a `Prepend` character, the answer is "no boundary", whatever the
chunk begins with, unless that is a regional indicator or an emoji modifier (for which see `c37_query_partial`). -/
theorem c37_query_prepend (gcb : Nat → GCB) (ctx : List (List Nat)) (hne : ∀ p ∈ ctx, p ≠ []) (y : Nat) (d2 rest : List Nat)
    (hp : ctx.reverse.flatten.getLast?.map gcb = some .Prepend) (h1 : gcb y ≠ .RegionalIndicator) (h2 : gcb y ≠ .EModifier) :
    ∃ c, query gcb true ctx [] y d2 rest = .ok (c, .ok false) := by
  have hctx : ctx ≠ [] := by rintro rfl; simp at hp
  have hq := query_start_other (gcb := gcb) (ext := true) (ra := ctx.reverse.flatten.reverse) (b1 := d2) (R := rest) (y := y)
    (mt (ctx_nil hne).mp hctx) h1 h2 ctx (by simp) hne
  rw [if_pos ⟨rfl, by simpa using hp⟩] at hq
  unfold query
  simpa [blen_append, blen_reverse] using hq

/-- Non-vacuity: "ab|c", and a line feed after U+0600 ARABIC NUMBER SIGN. -/
example : (Cursor.new true 2 3).isBoundary Ucd.graphemeClusterBreak [0x63] 2 =
      .ok ({ Cursor.new true 2 3 with catAfter := some .Other, preContextOffset := some 2 }, .error (.PreContext 2)) ∧
    ([[0x600]] : List (List Nat)).reverse.flatten.getLast?.map Ucd.graphemeClusterBreak = some .Prepend ∧
    Ucd.graphemeClusterBreak 0xA ≠ .RegionalIndicator ∧ Ucd.graphemeClusterBreak 0xA ≠ .EModifier := by
  decide +kernel

end Props.GraphemeAsk
