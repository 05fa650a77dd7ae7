import Verif.Proofs.GraphemeNext
import Verif.Proofs.GraphemeIter

/-! Forward iteration over chunks, the client loop. -/
namespace Proofs.Grapheme
open Data Spec.Segment Model Model.Grapheme Proofs.Punycode

variable {gcb : Nat → GCB} {ext : Bool}

theorem nextChunked_done {after before : List (List Nat)} {chunk : List Nat} {c c' : Cursor} {r : Except Incomplete (Option Nat)}
    (h : ask gcb (·.nextBoundary gcb chunk (blen before.reverse.flatten)) before c = .ok (c', r)) (hr : r ≠ .error .NextChunk) :
    nextChunked gcb after before chunk c = .ok (⟨c', before, chunk, after⟩, r) := by
  cases after with
  | nil => rw [nextChunked, h]; rfl
  | cons d after =>
    rw [nextChunked, h]
    simp only [bind_ok]
    cases r with
    | ok a => rfl
    | error e => cases e <;> first | rfl | exact absurd rfl hr

theorem nextChunked_more {after before : List (List Nat)} {chunk d : List Nat} {c c' : Cursor}
    (h : ask gcb (·.nextBoundary gcb chunk (blen before.reverse.flatten)) before c = .ok (c', .error .NextChunk)) :
    nextChunked gcb (d :: after) before chunk c = nextChunked gcb after (chunk :: before) d c' := by
  rw [nextChunked, h]
  simp only [bind_ok]

/-- a reader between two calls -/
structure RInv (gcb : Nat → GCB) (ext : Bool) (ra1 ra2 b1 : List Nat) (r : Reader) : Prop where
  at_ : At gcb ext (ra1 ++ ra2) (b1 ++ r.after.flatten) r.cursor
  resuming : r.cursor.resuming = false
  chunk : r.chunk = ra1.reverse ++ b1
  before : r.before.reverse.flatten = ra2.reverse
  chunk_ne : r.chunk ≠ []
  before_ne : ∀ p ∈ r.before, p ≠ []
  after_ok : ∀ p ∈ r.after, p ≠ [] ∧ GoodStart gcb p
  good : ra2 ≠ [] → GoodStart gcb r.chunk
  ris : r.cursor.risCount = none → ra2 = [] ∨ ∀ y t, b1 = y :: t → gcb y ≠ .RegionalIndicator
  last : b1 = [] → r.after.flatten = []

theorem blen_before {ra2 : List Nat} {before : List (List Nat)} (h : before.reverse.flatten = ra2.reverse) :
    blen before.reverse.flatten = blen ra2 := by rw [h, blen_reverse]

theorem NoBd.join {ra w u v : List Nat} (h0 : NoBd gcb ext ra w (u ++ v))
    (h3 : ∀ u1 u2, u = u1 ++ u2 → u2 ≠ [] → bd gcb ext (u1.reverse ++ (w.reverse ++ ra)) (u2 ++ v) = false) : NoBd gcb ext ra (w ++ u) v := by
  intro u1 u2 hu h1 h2
  rcases append_cmp hu with ⟨k, rfl, rfl⟩ | ⟨k, hk, rfl, rfl⟩
  · simpa using h3 k u2 rfl h2
  · simpa using h0 u1 k rfl h1 hk

theorem Paused.resume (after : List (List Nat)) : ∀ {ra chunk : List Nat} {before : List (List Nat)} {c : Cursor},
    Paused gcb ext ra (chunk ++ after.flatten) c → ra ≠ [] → before.reverse.flatten = ra.reverse → (∀ p ∈ before, p ≠ []) →
    chunk ≠ [] → GoodStart gcb chunk → (∀ p ∈ after, p ≠ [] ∧ GoodStart gcb p) →
    ∃ u v r' ra1 ra2 b1, chunk ++ after.flatten = u ++ v ∧ bd gcb ext (u.reverse ++ ra) v = true ∧
      (∀ u1 u2, u = u1 ++ u2 → u2 ≠ [] → bd gcb ext (u1.reverse ++ ra) (u2 ++ v) = false) ∧
      nextChunked gcb after before chunk c = .ok (r', .ok (some (blen ra + blen u))) ∧
      RInv gcb ext ra1 ra2 b1 r' ∧ ra1 ++ ra2 = u.reverse ++ ra ∧ b1 ++ r'.after.flatten = v := by
  induction after with
  | nil =>
    intro ra chunk before c h hra hbef hbne hch hgood hafter
    obtain ⟨y, b1, rfl⟩ := List.exists_cons_of_ne_nil hch
    have hy := hgood.1 y b1 rfl
    obtain ⟨c', hat, hres, e⟩ := h.ask_next hra hy before hbef hbne (by
      intro c' hat hr c'' n
      rcases At.nextLoop_chunk b1 (ra1 := []) (ra2 := ra) hat (fun _ => Or.inr hy) (y :: b1) rfl (fun _ => hgood) with ⟨u, v, c3, _, _, g, _⟩ | ⟨_, c3, g, _⟩
        <;> simp [g])
    rw [← blen_before hbef] at e
    cases hb : bd gcb ext ra (y :: b1 ++ ([] : List (List Nat)).flatten) with
    | true =>
      rw [if_pos hb] at e
      refine ⟨[], y :: b1 ++ ([] : List (List Nat)).flatten, ⟨c', before, y :: b1, []⟩, [], ra, y :: b1, by simp, hb, ?_, ?_, ?_, by simp, rfl⟩
      · intro u1 u2 hu h2; simp at hu; exact absurd hu.2 h2
      · rw [nextChunked_done e (by simp), blen_before hbef, blen_nil, Nat.add_zero]
      · exact ⟨hat, hres, rfl, hbef, hch, hbne, hafter, fun _ => hgood, fun _ => Or.inr (by rintro _ _ ⟨⟩; exact hy), by simp⟩
    | false =>
      rw [if_neg (by rw [hb]; simp)] at e
      rcases At.nextLoop_chunk b1 (ra1 := []) (ra2 := ra) hat (fun _ => Or.inr hy) (y :: b1) rfl (fun _ => hgood) with
        ⟨u, v, c3, g1, g2, g3, g4, g5, g6, g7⟩ | ⟨g0, _⟩
      · rw [← blen_before hbef] at g3
        rw [g3] at e
        refine ⟨u, v ++ ([] : List (List Nat)).flatten, ⟨c3, before, y :: b1, []⟩, u.reverse, ra, v, by rw [g1]; simp, g2.2.1, ?_, ?_, ?_, rfl, rfl⟩
        · intro u1 u2 hu h2
          by_cases h1 : u1 = []
          · subst h1
            rw [List.nil_append] at hu
            subst hu
            rw [List.reverse_nil, List.nil_append, ← List.append_assoc, ← g1]; exact hb
          · exact g2.2.2 u1 u2 hu h1 h2
        · rw [nextChunked_done e (by simp)]; simp
        · exact ⟨g4, g5, by simp [g1], hbef, hch, hbne, hafter, fun _ => hgood, fun h => Or.inl (g6 h), by simp⟩
      · exact absurd rfl g0
  | cons d after ih =>
    intro ra chunk before c h hra hbef hbne hch hgood hafter
    obtain ⟨y, b1, rfl⟩ := List.exists_cons_of_ne_nil hch
    have hy := hgood.1 y b1 rfl
    obtain ⟨c', hat, hres, e⟩ := h.ask_next hra hy before hbef hbne (by
      intro c' hat hr c'' n
      rcases At.nextLoop_chunk b1 (ra1 := []) (ra2 := ra) hat (fun _ => Or.inr hy) (y :: b1) rfl (fun _ => hgood) with ⟨u, v, c3, _, _, g, _⟩ | ⟨_, c3, g, _⟩
        <;> simp [g])
    rw [← blen_before hbef] at e
    have hd := hafter d (by simp)
    have hafter' : ∀ p ∈ after, p ≠ [] ∧ GoodStart gcb p := fun p hp => hafter p (by simp [hp])
    have hRne : (d :: after).flatten ≠ [] := by
      simp [hd.1]
    cases hb : bd gcb ext ra (y :: b1 ++ (d :: after).flatten) with
    | true =>
      rw [if_pos hb] at e
      refine ⟨[], y :: b1 ++ (d :: after).flatten, ⟨c', before, y :: b1, d :: after⟩, [], ra, y :: b1, by simp, hb, ?_, ?_, ?_, by simp, rfl⟩
      · intro u1 u2 hu h2; simp at hu; exact absurd hu.2 h2
      · rw [nextChunked_done e (by simp), blen_before hbef, blen_nil, Nat.add_zero]
      · exact ⟨hat, hres, rfl, hbef, hch, hbne, hafter, fun _ => hgood, fun _ => Or.inr (by rintro _ _ ⟨⟩; exact hy), by simp⟩
    | false =>
      rw [if_neg (by rw [hb]; simp)] at e
      rcases At.nextLoop_chunk b1 (ra1 := []) (ra2 := ra) hat (fun _ => Or.inr hy) (y :: b1) rfl (fun _ => hgood) with
        ⟨u, v, c3, g1, g2, g3, g4, g5, g6, g7⟩ | ⟨_, c3, g1, g2, g3⟩
      · rw [← blen_before hbef] at g3
        rw [g3] at e
        refine ⟨u, v ++ (d :: after).flatten, ⟨c3, before, y :: b1, d :: after⟩, u.reverse, ra, v, by rw [g1, List.append_assoc], g2.2.1, ?_, ?_, ?_, rfl, rfl⟩
        · intro u1 u2 hu h2
          by_cases h1 : u1 = []
          · subst h1
            rw [List.nil_append] at hu
            subst hu
            rw [List.reverse_nil, List.nil_append, ← List.append_assoc, ← g1]; exact hb
          · exact g2.2.2 u1 u2 hu h1 h2
        · rw [nextChunked_done e (by simp)]; simp
        · exact ⟨g4, g5, by simp [g1], hbef, hch, hbne, hafter, fun _ => hgood, fun h => Or.inl (g6 h), g7⟩
      · rw [← blen_before hbef] at g1
        rw [g1] at e
        rw [nextChunked_more e]
        obtain ⟨u, v, r', ra1, ra2, b1', i1, i2, i3, i4, i5, i6, i7⟩ := ih (ra := (y :: b1).reverse ++ ra) (chunk := d) (before := (y :: b1) :: before) (c := c3)
          g2 (by simp) (by rw [List.reverse_cons, List.flatten_append, hbef]; simp)
          (by intro p hp; rcases List.mem_cons.mp hp with rfl | hp
              · exact hch
              · exact hbne p hp) hd.1 hd.2 hafter'
        refine ⟨y :: b1 ++ u, v, r', ra1, ra2, b1', ?_, ?_, ?_, ?_, i5, ?_, i7⟩
        · rw [List.flatten_cons, i1, List.append_assoc]
        · simpa using i2
        · intro u1 u2 hu h2
          by_cases h1 : u1 = []
          · subst h1
            rw [List.nil_append] at hu
            subst hu
            rw [List.append_assoc, ← i1]
            exact hb
          · rw [List.flatten_cons, i1] at g3
            exact g3.join i3 u1 u2 hu h1 h2
        · rw [i4, blen_append, blen_append, blen_reverse]; congr 4; omega
        · rw [i6]; simp

/-- one call of a reader -/
theorem RInv.next {ra1 ra2 b1 : List Nat} {r : Reader} (h : RInv gcb ext ra1 ra2 b1 r) (hb : b1 ++ r.after.flatten ≠ []) :
    ∃ u v r' ra1' ra2' b1', b1 ++ r.after.flatten = u ++ v ∧ Piece gcb ext (ra1 ++ ra2) u v ∧
      r.next gcb = .ok (r', .ok (some (blen (ra1 ++ ra2) + blen u))) ∧
      RInv gcb ext ra1' ra2' b1' r' ∧ ra1' ++ ra2' = u.reverse ++ (ra1 ++ ra2) ∧ b1' ++ r'.after.flatten = v := by
  obtain ⟨c, before, chunk, after⟩ := r
  have hat := h.at_; have hres := h.resuming; have hchunk := h.chunk; have hbef := h.before; have hcne := h.chunk_ne
  have hbne := h.before_ne; have hafter := h.after_ok; have hgood := h.good; have hris := h.ris; have hlast := h.last
  simp only at *
  have hb1 : b1 ≠ [] := by rintro rfl; exact hb (by simp [hlast rfl])
  obtain ⟨y, b1, rfl⟩ := List.exists_cons_of_ne_nil hb1
  have hq : c.nextBoundary gcb chunk (blen before.reverse.flatten) = c.nextLoop gcb chunk (blen ra2) b1 y := by
    unfold Cursor.nextBoundary
    rw [if_neg (At.not_end (b := b1 ++ after.flatten) hat), blen_before hbef]
    have hoff := hat.off
    rw [blen_append] at hoff
    rw [if_neg (by omega), show c.offset - blen ra2 = blen ra1.reverse by rw [blen_reverse]; omega, hchunk, sliceFrom_append]
    simp only [bind_ok]
    rw [if_neg (by rw [hres]; simp)]
  have hris' : c.risCount = none → ra2 = [] ∨ gcb y ≠ .RegionalIndicator := fun hn => (hris hn).imp id (fun h => h y b1 rfl)
  rcases At.nextLoop_chunk b1 hat hris' chunk hchunk hgood with ⟨u, v, c3, g1, g2, g3, g4, g5, g6, g7⟩ | ⟨g0, c3, g1, g2, g3⟩
  · rw [← hq] at g3
    refine ⟨u, v ++ after.flatten, ⟨c3, before, chunk, after⟩, u.reverse ++ ra1, ra2, v, by rw [g1, List.append_assoc], g2, ?_, ?_, by simp, rfl⟩
    · exact nextChunked_done (ask_pass g3 (by simp)) (by simp)
    · exact ⟨by simpa using g4, g5, by rw [hchunk, g1]; simp, hbef, hcne, hbne, hafter, hgood, fun h => Or.inl (g6 h), g7⟩
  · rw [← hq] at g1
    cases after with
    | nil => exact absurd rfl g0
    | cons d after =>
      have hd := hafter d (by simp)
      obtain ⟨u, v, r', ra1', ra2', b1', i1, i2, i3, i4, i5, i6, i7⟩ := Paused.resume after (ra := (y :: b1).reverse ++ (ra1 ++ ra2)) (chunk := d)
        (before := chunk :: before) (c := c3) g2 (by simp) (by rw [List.reverse_cons, List.flatten_append, hbef, hchunk]; simp)
        (by intro p hp; rcases List.mem_cons.mp hp with rfl | hp
            · exact hcne
            · exact hbne p hp) hd.1 hd.2 (fun p hp => hafter p (by simp [hp]))
      refine ⟨y :: b1 ++ u, v, r', ra1', ra2', b1', by rw [List.flatten_cons, i1, List.append_assoc], ⟨by simp, by simpa using i2, ?_⟩, ?_, i5, by rw [i6]; simp, i7⟩
      · rw [List.flatten_cons, i1] at g3
        exact g3.join i3
      · unfold Reader.next
        rw [nextChunked_more (ask_pass g1 (by simp)), i4]
        rw [blen_append ((y :: b1).reverse), blen_append (y :: b1), blen_reverse]; congr 4; omega

theorem RInv.next_end {ra1 ra2 b1 : List Nat} {r : Reader} (h : RInv gcb ext ra1 ra2 b1 r) (hb : b1 ++ r.after.flatten = []) :
    r.next gcb = .ok (r, .ok none) := by
  obtain ⟨c, before, chunk, after⟩ := r
  have hat := h.at_
  simp only at *
  have hq : c.nextBoundary gcb chunk (blen before.reverse.flatten) = .ok (c, .ok none) := by
    unfold Cursor.nextBoundary
    rw [if_pos]
    rw [hat.off, hat.len, hb, blen_nil, Nat.add_zero]
  exact nextChunked_done (ask_pass hq (by simp)) (by simp)

/-- Readers at the same position of the same text give the same results. -/
theorem RInv.run_eq (n : Nat) : ∀ {ra1 ra2 b1 ra1' ra2' b1' : List Nat} {r r' : Reader}, RInv gcb ext ra1 ra2 b1 r →
    RInv gcb ext ra1' ra2' b1' r' → ra1 ++ ra2 = ra1' ++ ra2' → b1 ++ r.after.flatten = b1' ++ r'.after.flatten →
    r.run gcb n = r'.run gcb n ∧ ∃ l, r.run gcb n = .ok l := by
  induction n with
  | zero => intros; exact ⟨rfl, _, rfl⟩
  | succ n ih =>
    intro ra1 ra2 b1 ra1' ra2' b1' r r' h h' e1 e2
    by_cases hb : b1 ++ r.after.flatten = []
    · have n1 := h.next_end hb
      have n2 := h'.next_end (e2 ▸ hb)
      obtain ⟨i, l, il⟩ := ih h h' e1 e2
      simp only [Reader.run, n1, n2, bind_ok, pure_eq]
      rw [← i, il]
      exact ⟨rfl, _, rfl⟩
    · obtain ⟨u, v, q, a1, a2, a3, g1, g2, g3, g4, g5, g6⟩ := h.next hb
      obtain ⟨u', v', q', a1', a2', a3', g1', g2', g3', g4', g5', g6'⟩ := h'.next (e2 ▸ hb)
      rw [← e1] at g2' g5' g3'
      obtain ⟨rfl, rfl⟩ := g2.unique g2' (by rw [← g1, ← g1', e2])
      obtain ⟨i, l, il⟩ := ih g4 g4' (by rw [g5, g5']) (by rw [g6, g6'])
      simp only [Reader.run, g3, g3', bind_ok, pure_eq]
      rw [← i, il]
      exact ⟨rfl, _, rfl⟩

theorem RInv.start (d : List Nat) (ds : List (List Nat)) (hd : d ≠ []) (hds : ∀ p ∈ ds, p ≠ [] ∧ GoodStart gcb p) :
    RInv gcb ext [] [] d ⟨.new ext 0 (blen (d ++ ds.flatten)), [], d, ds⟩ :=
  ⟨At.new gcb ext ([] : List Nat) (d ++ ds.flatten), rfl, by simp, rfl, hd, by simp, hds, by simp, fun _ => Or.inl rfl, by intro h; exact absurd h hd⟩

end Proofs.Grapheme
