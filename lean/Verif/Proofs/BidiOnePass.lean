import Verif.Proofs.BidiLevels

/-! # `OnePass` sequences -/
namespace Proofs.BidiW
open Model Model.Bidi Data Spec.Bidi Proofs.Punycode
open Proofs.Bidi hiding w3

theorem sepTerm_eq (c : BC) : sepTerm c = isSeparatorOrTerminator c := by cases c <;> rfl
theorem good_eq (c : BC) : good c = isLetterOrNumber c := by cases c <;> rfl

/-- what stands before the place `i` is a number and terminators; `a`: so does what stands before the list -/
def AfterN (a : Bool) (ds : List BC) (i : Nat) : Prop := (a = true ∧ ∀ j, j < i → ds[j]? = some .EuropeanTerminator) ∨ AfterNumber ds i

theorem afterN_zero {a : Bool} {ds : List BC} : AfterN a ds 0 ↔ a = true := by
  constructor
  · rintro (h | ⟨k, hk, _⟩)
    · exact h.1
    · omega
  · intro h; exact .inl ⟨h, fun j hj => by omega⟩

theorem afterN_succ {a : Bool} {d : BC} {ds : List BC} {i : Nat} :
    AfterN a (d :: ds) (i + 1) ↔ AfterN (if d = .EuropeanTerminator then a else d == .EuropeanNumber) ds i := by
  constructor
  · rintro (⟨h1, h2⟩ | ⟨k, hk, h1, h2⟩)
    · left
      have h0 := h2 0 (by omega)
      simp only [List.getElem?_cons_zero, Option.some.injEq] at h0
      refine ⟨by rw [if_pos h0]; exact h1, fun j hj => ?_⟩
      have := h2 (j + 1) (by omega)
      simpa using this
    · cases k with
      | zero =>
        left
        simp only [List.getElem?_cons_zero, Option.some.injEq] at h1
        subst h1
        refine ⟨rfl, fun j hj => ?_⟩
        have := h2 (j + 1) (by omega) (by omega)
        simpa using this
      | succ k =>
        right
        refine ⟨k, by omega, by simpa using h1, fun j hj hi => ?_⟩
        have := h2 (j + 1) (by omega) (by omega)
        simpa using this
  · rintro (⟨h1, h2⟩ | ⟨k, hk, h1, h2⟩)
    · split_ifs at h1 with hd
      · left
        refine ⟨h1, fun j hj => ?_⟩
        cases j with
        | zero => simp [hd]
        | succ j => simpa using h2 j (by omega)
      · right
        refine ⟨0, by omega, by simpa using h1, fun j hj hi => ?_⟩
        cases j with
        | zero => omega
        | succ j => simpa using h2 j (by omega)
    · right
      refine ⟨k + 1, by omega, by simpa using h1, fun j hj hi => ?_⟩
      cases j with
      | zero => omega
      | succ j => simpa using h2 j (by omega) (by omega)

/-- `OnePass` from the state after a character on -/
structure RegI (p s q : BC) (a : Bool) (xs : List (Nat × BC)) : Prop where
  n1 : ∀ i : Nat, (w1 p (xs.map Prod.snd))[i]? = some .EuropeanNumber → (w2 s (w1 p (xs.map Prod.snd)))[i]? = some .ArabicNumber →
    ∀ j, (j + 1 = i ∨ j = i + 1) → (w1 p (xs.map Prod.snd))[j]? ≠ some .EuropeanTerminator
  n2 : (w1 p (xs.map Prod.snd))[0]? = some .EuropeanNumber → (w2 s (w1 p (xs.map Prod.snd)))[0]? = some .ArabicNumber → p ≠ .EuropeanTerminator
  n3 : p = .EuropeanNumber → q = .ArabicNumber → (w1 p (xs.map Prod.snd))[0]? ≠ some .EuropeanTerminator
  m1 : ∀ i : Nat, (w1 p (xs.map Prod.snd))[i]? = some .EuropeanTerminator → (xs.map Prod.snd)[i + 1]? = some .NonspacingMark →
    AfterN a (w4 q (w3 (w2 s (w1 p (xs.map Prod.snd))))) i
  m2 : p = .EuropeanTerminator → (xs.map Prod.snd)[0]? = some .NonspacingMark → a = true
  t1 : ∀ i : Nat, (w1 p (xs.map Prod.snd))[i]? = some .EuropeanTerminator → AfterN a (w4 q (w3 (w2 s (w1 p (xs.map Prod.snd))))) i →
    ((w1 p (xs.map Prod.snd))[i + 1]? = some .EuropeanSeparator ∨ (w1 p (xs.map Prod.snd))[i + 1]? = some .CommonSeparator) →
    (xs.map Prod.fst)[i + 1]? = some 1 → (xs.map Prod.snd)[i + 2]? ≠ some .EuropeanNumber
  t2 : p = .EuropeanTerminator → a = true →
    ((w1 p (xs.map Prod.snd))[0]? = some .EuropeanSeparator ∨ (w1 p (xs.map Prod.snd))[0]? = some .CommonSeparator) →
    (xs.map Prod.fst)[0]? = some 1 → (xs.map Prod.snd)[1]? ≠ some .EuropeanNumber
  w : ∀ (i : Nat) m c, xs[i]? = some (m, c) → (c = .EuropeanSeparator ∨ c = .CommonSeparator) → m ≠ 1 →
    (w4 q (w3 (w2 s (w1 p (xs.map Prod.snd)))))[i]? = some c
  v : ∀ (i : Nat) m c, xs[i]? = some (m, c) → (c = .EuropeanSeparator ∨ c = .CommonSeparator) → m = 1 →
    ((w4 q (w3 (w2 s (w1 p (xs.map Prod.snd)))))[i]? = some c ↔ (w4 (w3Class p) (w3 (w1 p (xs.map Prod.snd))))[i]? = some c)

theorem reg_of_index : ∀ (xs : List (Nat × BC)) (p s q : BC) (a : Bool), RegI p s q a xs → Reg p s q a xs
  | [], _, _, _, _, _ => trivial
  | (m, c) :: r, p, s, q, a, h => by
    obtain ⟨n1, n2, n3, m1, m2, t1, t2, w, v⟩ := h
    simp only [List.map_cons, w1, w2, w3, w4, List.getElem?_cons_zero, List.getElem?_cons_succ] at n1 n2 n3 m1 m2 t1 t2 w v
    have hz : ∀ {y : BC}, y = .EuropeanNumber → s = .ArabicLetter → w2Class s y = .ArabicNumber := by rintro _ rfl rfl; rfl
    have hzc : ∀ {c : BC}, (c = .EuropeanSeparator ∨ c = .CommonSeparator) → w1Class p c = c ∧ w3Class (w2Class s (w1Class p c)) = c ∧ w3Class c = c := by
      rintro _ (rfl | rfl) <;> exact ⟨rfl, rfl, rfl⟩
    have hv0 : w1Class p c = .EuropeanTerminator →
        w4Class q (w3Class (w2Class s (w1Class p c))) (w3 (w2 (lastStrong s (w1Class p c)) (w1 (w1Class p c) (r.map Prod.snd)))).head? = .EuropeanTerminator := by
      intro e; rw [e]; rfl
    refine ⟨?_, ?_, ?_, ?_, ?_, ?_, reg_of_index r _ _ _ _ ⟨?_, ?_, ?_, ?_, ?_, ?_, ?_, ?_, ?_⟩⟩
    · intro e1 e2; exact n2 (by rw [e1]) (by rw [hz e1 e2])
    · intro e1 e2 e3; exact n3 e1 e2 (by rw [e3])
    · intro e1 e2; exact m2 e2 (by rw [e1])
    · intro e1 e2 e3 e4
      have := t2 e1 e2 (e3.imp (fun e => by rw [e]) (fun e => by rw [e])) (by rw [e4])
      rw [← List.head?_eq_getElem?, List.head?_map] at this
      exact this
    · intro e1 e2
      have hw := w 0 m c (by simp) e2 e1
      simp only [List.getElem?_cons_zero, Option.some.injEq] at hw
      obtain ⟨_, hzc, _⟩ := hzc e2
      rw [hzc] at hw ⊢
      exact hw
    · intro e1 e2
      have hw := v 0 m c (by simp) e2 e1
      simp only [List.getElem?_cons_zero, Option.some.injEq, List.map_cons] at hw
      obtain ⟨h1, hz, h3⟩ := hzc e2
      rw [h1] at hw hz ⊢
      rw [hz] at hw ⊢
      rw [h3] at hw
      exact hw
    · intro i e1 e2 j hj
      have := n1 (i + 1)
      simp only [List.getElem?_cons_succ] at this
      have := this e1 e2 (j + 1) (by omega)
      simpa using this
    · intro e1 e2
      have := n1 1
      simp only [List.getElem?_cons_succ] at this
      have := this e1 e2 0 (by omega)
      simpa using this
    · intro e1 e2
      have h2 : w2Class s (w1Class p c) = .ArabicNumber := by
        rw [e1] at e2 ⊢
        unfold w2Class at e2 ⊢
        split_ifs at e2 ⊢ with hh
        · rfl
        · simp [w3Class] at e2
      have := n1 0 (by simp [e1]) (by simp [h2]) 1 (by omega)
      simp only [List.getElem?_cons_succ] at this
      exact this
    · intro i e1 e2
      have := m1 (i + 1) (by simpa using e1) e2
      exact afterN_succ.1 this
    · intro e1 e2
      have := m1 0 (by simp [e1]) e2
      rw [afterN_zero] at this
      rw [if_pos (hv0 e1)]
      exact this
    · intro i e1 e2 e3 e4
      have := t1 (i + 1)
      simp only [List.getElem?_cons_succ] at this
      exact this e1 (afterN_succ.2 e2) e3 e4
    · intro e1 e2 e3 e4
      rw [if_pos (hv0 e1)] at e2
      exact t1 0 (by simp [e1]) (afterN_zero.2 e2) e3 e4
    · intro i m' c' hx hc hm
      have := w (i + 1) m' c' (by simpa using hx) hc hm
      simp only [List.getElem?_cons_succ] at this
      exact this
    · intro i m' c' hx hc hm
      have := v (i + 1) m' c' (by simpa using hx) hc hm
      simp only [List.getElem?_cons_succ, List.map_cons, w4] at this
      exact this

theorem reg_of_onePass {sos : BC} (hs : sos = .LeftToRight ∨ sos = .RightToLeft) {α : Type} {xs : List α} {len : α → Nat} {cl : α → BC} {bytes : Nat → Nat}
    (hb : ∀ (i : Nat) x, xs[i]? = some x → bytes i = len x) (h : OnePass sos bytes (xs.map cl)) : Reg sos sos sos false (xs.map (fun x => (len x, cl x))) := by
  have e : (xs.map (fun x => (len x, cl x))).map Prod.snd = xs.map cl := by rw [List.map_map]; rfl
  have e' : (xs.map (fun x => (len x, cl x))).map Prod.fst = xs.map len := by rw [List.map_map]; rfl
  have hw3 : w3Class sos = sos := by rcases hs with rfl | rfl <;> rfl
  have hf : ∀ {ds i}, AfterN false ds i ↔ AfterNumber ds i := by intro ds i; unfold AfterN; simp
  have hlen : ∀ {i : Nat}, (xs.map len)[i]? = some 1 → bytes i = 1 := by
    intro i hi
    rw [List.getElem?_map] at hi
    cases hy : xs[i]? with
    | none => rw [hy] at hi; simp at hi
    | some y => rw [hy] at hi; simp at hi; rw [hb i y hy, hi]
  have hx : ∀ {i m : Nat} {c : BC}, (xs.map (fun x => (len x, cl x)))[i]? = some (m, c) → (xs.map cl)[i]? = some c ∧ bytes i = m := by
    intro i m c hx
    rw [List.getElem?_map] at hx
    cases hy : xs[i]? with
    | none => rw [hy] at hx; simp at hx
    | some y =>
      rw [hy] at hx
      simp only [Option.map_some, Option.some.injEq, Prod.mk.injEq] at hx
      exact ⟨by rw [List.getElem?_map, hy]; simp [hx.2], by rw [hb i y hy, hx.1]⟩
  obtain ⟨a1, a5, a2, a3, a4⟩ := h
  refine reg_of_index _ _ _ _ _ ⟨?_, ?_, ?_, ?_, ?_, ?_, ?_, ?_, ?_⟩
  all_goals rw [e]
  · exact a1
  · intro _ _; rcases hs with rfl | rfl <;> simp
  · intro h; rcases hs with rfl | rfl <;> simp at h
  · intro i h1 h2; exact hf.2 (a2 i h1 h2)
  · intro h; rcases hs with rfl | rfl <;> simp at h
  · intro i h1 h2 h3 h4
    rw [e'] at h4
    exact a3 i h1 (hf.1 h2) h3 (hlen h4)
  · intro h; rcases hs with rfl | rfl <;> simp at h
  · intro i m c h1 hc hm
    obtain ⟨h2, h3⟩ := hx h1
    exact a4 i c h2 hc (by rw [h3]; exact hm)
  · intro i m c h1 hc hm
    obtain ⟨h2, h3⟩ := hx h1
    rw [hw3]
    exact a5 i c h2 hc (by rw [h3]; exact hm)

/-- a sequence without separators, terminators and marks -/
theorem w1_plain {p : BC} : ∀ {cs : List BC}, (∀ c ∈ cs, c ≠ .NonspacingMark) → w1 p cs = cs
  | [], _ => rfl
  | c :: cs, h => by rw [w1, w1_other (h c (by simp)), w1_plain (fun d hd => h d (by simp [hd]))]

theorem onePass_plain {sos : BC} {bytes : Nat → Nat} {cs : List BC} (h : ∀ c ∈ cs, c ≠ .NonspacingMark ∧ isSeparatorOrTerminator c = false) : OnePass sos bytes cs := by
  have e : w1 sos cs = cs := w1_plain (fun c hc => (h c hc).1)
  have no : ∀ {i : Nat} {c : BC}, cs[i]? = some c → isSeparatorOrTerminator c = true → False := by
    intro i c hi hc
    rw [(h _ (List.mem_of_getElem? hi)).2] at hc; simp at hc
  refine ⟨?_, ?_, ?_, ?_, ?_⟩
  · intro i _ _ j _ hc
    rw [e] at hc; exact no hc rfl
  · intro i c hi hc _
    exact (no hi (by rcases hc with rfl | rfl <;> rfl)).elim
  · intro i hi
    rw [e] at hi; exact (no hi rfl).elim
  · intro i hi
    rw [e] at hi; exact (no hi rfl).elim
  · intro i c hi hc
    exact (no hi (by rcases hc with rfl | rfl <;> rfl)).elim

theorem w2_mem {s : BC} : ∀ {cs : List BC} {c : BC}, c ∈ w2 s cs → c ∈ cs ∨ c = .ArabicNumber
  | [], _, h => by simp [w2] at h
  | a :: cs, c, h => by
    rw [w2] at h
    rcases List.mem_cons.1 h with rfl | h
    · unfold w2Class; split_ifs <;> simp
    · rcases w2_mem h with h | h
      · left; simp [h]
      · right; exact h

theorem w4_mem {q : BC} : ∀ {cs : List BC} {c : BC}, c ∈ w4 q cs → c ∈ cs ∨ c = .EuropeanNumber ∨ c = .ArabicNumber
  | [], _, h => by simp [w4] at h
  | a :: cs, c, h => by
    rw [w4] at h
    rcases List.mem_cons.1 h with rfl | h
    · unfold w4Class; split_ifs <;> simp
    · rcases w4_mem h with h | h
      · left; simp [h]
      · right; exact h

theorem w5_mem : ∀ {a : Bool} {cs : List BC} {c : BC}, c ∈ w5 a cs → c ∈ cs ∨ c = .EuropeanNumber
  | a, [], c, h => by simp [w5] at h
  | a, x :: cs, c, h => by
    unfold w5 at h
    split at h
    · simp at *
    · rename_i heq
      injection heq with e1 e2
      subst e1; subst e2
      rcases List.mem_cons.1 h with rfl | h
      · split_ifs <;> simp
      · rcases w5_mem h with h | h
        · left; simp [h]
        · right; exact h
    · rename_i heq
      injection heq with e1 e2
      subst e1; subst e2
      rcases List.mem_cons.1 h with rfl | h
      · simp
      · rcases w5_mem h with h | h
        · left; simp [h]
        · right; exact h

/-- no terminators, none at the end -/
theorem numbers_plain {sos : BC} {cs : List BC} (h : ∀ c ∈ cs, c ≠ .NonspacingMark ∧ c ≠ .EuropeanTerminator) : .EuropeanTerminator ∉ numbers sos cs := by
  intro hm
  unfold numbers at hm
  rw [w1_plain (fun c hc => (h c hc).1)] at hm
  rcases w5_mem hm with hm | hm
  · rcases w4_mem hm with hm | hm | hm
    · obtain ⟨x, hx, hxe⟩ := List.mem_map.1 hm
      have : x = .EuropeanTerminator := by unfold w3Class at hxe; split_ifs at hxe; exact hxe
      subst this
      rcases w2_mem hx with hx | hx
      · exact (h _ hx).2 rfl
      · simp at hx
    · simp at hm
    · simp at hm
  · simp at hm

/-- every character that stays is in an isolating run sequence -/
theorem sequence_cover {us : List Kept} (hn : Nested us) (hr : ∀ u ∈ us, removed u.orig = false) {k : Nat} (hk : k < us.length) : ∃ q, IsSequence us q ∧ k ∈ q := by
  obtain ⟨runs, seqs, h1, h2, _⟩ := isolating_ok (pl := 0) (cs := us.map Kept.orig) (ls := us.map Kept.level) (by simp)
  obtain ⟨m1, m2⟩ := seqs_kept hn hr h1 h2
  rw [← indices_flatten] at m1
  obtain ⟨q, hq, hkq⟩ := List.mem_flatten.1 (m1.mem_iff.2 (List.mem_range.2 hk))
  refine ⟨q, seqs_sound m1 ?_ hq, hkq⟩
  intro q hq
  obtain ⟨s, hs, rfl⟩ := List.mem_map.1 hq
  exact (m2 s hs).2

/-- ... and only in one -/
theorem sequence_once {us : List Kept} (hn : Nested us) (hr : ∀ u ∈ us, removed u.orig = false) {q r : List Nat} (hq : IsSequence us q) (hr' : IsSequence us r) {k : Nat}
    (h1 : k ∈ q) (h2 : k ∈ r) : q = r := by
  obtain ⟨runs, seqs, e1, e2, _⟩ := isolating_ok (pl := 0) (cs := us.map Kept.orig) (ls := us.map Kept.level) (by simp)
  obtain ⟨m1, m2⟩ := seqs_kept hn hr e1 e2
  rw [← indices_flatten] at m1
  have hQ : ∀ s ∈ seqs.map indices, List.IsChain (Follows us) s ∧ ∀ i j, s.getLast? = some i → ¬ Follows us i j := by
    intro q hq
    obtain ⟨s, hs, rfl⟩ := List.mem_map.1 hq
    exact (m2 s hs).2.2
  have hqm := seqs_complete hn m1 hQ hq
  have hrm := seqs_complete hn m1 hQ hr'
  have hnd : (seqs.map indices).flatten.Nodup := m1.nodup_iff.2 List.nodup_range
  rw [List.nodup_flatten] at hnd
  by_contra hne
  have : Std.Symm (@List.Disjoint Nat) := ⟨fun _ _ h _ ha hb => h hb ha⟩
  exact hnd.2.forall hqm hrm hne h1 h2

/-- a check that tells whether `j` follows `i` -/
def matchB (us : List Kept) (i j : Nat) : Bool :=
  match us[i]? with
  | some u => isInitiator u.orig && (matchingPdi 1 ((us.drop (i + 1)).map Kept.orig)).map (fun m => i + 1 + m) == some j
  | none => false
theorem matchB_iff {us : List Kept} {i j : Nat} : matchB us i j = true ↔ Matches us i j := by
  unfold matchB Matches
  cases us[i]? with
  | none => simp
  | some u =>
    simp only [Option.some.injEq, Bool.and_eq_true, beq_iff_eq, Option.map_eq_some_iff]
    constructor
    · rintro ⟨h1, m, h2, h3⟩; exact ⟨u, rfl, h1, m, h2, h3.symm⟩
    · rintro ⟨_, rfl, h1, m, h2, h3⟩; exact ⟨h1, m, h2, h3.symm⟩
instance (us : List Kept) (i j : Nat) : Decidable (Matches us i j) := decidable_of_iff _ matchB_iff
instance (us : List Kept) (i : Nat) : Decidable (EndsRun us i) := by unfold EndsRun; infer_instance
instance (us : List Kept) (i : Nat) : Decidable (StartsRun us i) := by unfold StartsRun; infer_instance
instance (us : List Kept) (i j : Nat) : Decidable (Follows us i j) := by unfold Follows; infer_instance

/-- a check that tells whether `s` is a sequence -/
def SeqB (us : List Kept) (s : List Nat) : Prop :=
  s ≠ [] ∧ (∀ i ∈ s, i < us.length) ∧ (∀ p ∈ s.zip s.tail, Follows us p.1 p.2) ∧ (∀ j ∈ s.head?, ∀ i < us.length, ¬ Follows us i j) ∧
    ∀ i ∈ s.getLast?, ∀ j < us.length, ¬ Follows us i j
instance (us : List Kept) (s : List Nat) : Decidable (SeqB us s) := by unfold SeqB; infer_instance
theorem isSequence_of {us : List Kept} {s : List Nat} (h : SeqB us s) : IsSequence us s := by
  obtain ⟨h1, h2, h3, h4, h5⟩ := h
  refine ⟨h1, h2, ?_, fun i j hj hi => h4 j hj i hi, fun i j hi hj => h5 i hi j hj⟩
  intro k i j hi hj
  apply h3 (i, j)
  rw [List.mem_iff_getElem?]
  exact ⟨k, by rw [List.getElem?_zip_eq_some, List.getElem?_tail]; exact ⟨hi, hj⟩⟩

theorem w1_length : ∀ (p : BC) (cs : List BC), (w1 p cs).length = cs.length
  | _, [] => rfl
  | _, _ :: cs => by simp [w1, w1_length _ cs]
theorem w2_length : ∀ (p : BC) (cs : List BC), (w2 p cs).length = cs.length
  | _, [] => rfl
  | _, _ :: cs => by simp [w2, w2_length _ cs]
theorem w4_length : ∀ (p : BC) (cs : List BC), (w4 p cs).length = cs.length
  | _, [] => rfl
  | _, _ :: cs => by simp [w4, w4_length _ cs]
theorem w5_length : ∀ (a : Bool) (cs : List BC), (w5 a cs).length = cs.length
  | _, [] => rfl
  | a, c :: cs => by
    unfold w5
    split
    · simp at *
    · rename_i heq
      injection heq with e1 e2
      subst e1; subst e2
      rw [List.length_cons, List.length_cons, w5_length]
    · rename_i heq
      injection heq with e1 e2
      subst e1; subst e2
      rw [List.length_cons, List.length_cons, w5_length]
theorem w7_length : ∀ (p : BC) (cs : List BC), (w7 p cs).length = cs.length
  | _, [] => rfl
  | _, _ :: cs => by simp [w7, w7_length _ cs]
theorem n12_length (e eos : BC) : ∀ (b : BC) (cs : List BC), (n12 e eos b cs).length = cs.length
  | _, [] => rfl
  | b, c :: cs => by rw [n12]; split_ifs <;> simp [n12_length e eos _ cs]
theorem resolve_length (sos eos e : BC) (cs : List BC) : (resolve sos eos e cs).length = cs.length := by
  unfold resolve numbers w6 w3
  rw [n12_length, w7_length, List.length_map, w5_length, w4_length, List.length_map, w2_length, w1_length]

/-- a check that tells whether a sequence is `OnePass` -/
def AfterNumberB (cs : List BC) (i : Nat) : Prop :=
  ∃ k, k < i ∧ cs[k]? = some .EuropeanNumber ∧ ∀ j, j < i → k < j → cs[j]? = some .EuropeanTerminator
instance (cs : List BC) (i : Nat) : Decidable (AfterNumberB cs i) := by
  unfold AfterNumberB
  exact decidable_of_iff (∃ k, k < i ∧ (cs[k]? = some .EuropeanNumber ∧ ∀ j, j < i → k < j → cs[j]? = some .EuropeanTerminator)) Iff.rfl
theorem afterB {cs : List BC} {i : Nat} : AfterNumberB cs i ↔ AfterNumber cs i := by
  constructor
  · rintro ⟨k, h1, h2, h3⟩; exact ⟨k, h1, h2, fun j a b => h3 j b a⟩
  · rintro ⟨k, h1, h2, h3⟩; exact ⟨k, h1, h2, fun j a b => h3 j b a⟩

def OnePassB (sos : BC) (bytes : Nat → Nat) (cs : List BC) : Prop :=
  (∀ i < cs.length, (w1 sos cs)[i]? = some .EuropeanNumber → (w2 sos (w1 sos cs))[i]? = some .ArabicNumber →
    ∀ j < cs.length, (j + 1 = i ∨ j = i + 1) → (w1 sos cs)[j]? ≠ some .EuropeanTerminator) ∧
  (∀ i < cs.length, ∀ c ∈ cs[i]?, (c = .EuropeanSeparator ∨ c = .CommonSeparator) → bytes i = 1 →
    ((w4 sos (w3 (w2 sos (w1 sos cs))))[i]? = some c ↔ (w4 sos (w3 (w1 sos cs)))[i]? = some c)) ∧
  (∀ i < cs.length, (w1 sos cs)[i]? = some .EuropeanTerminator → cs[i + 1]? = some .NonspacingMark → AfterNumberB (w4 sos (w3 (w2 sos (w1 sos cs)))) i) ∧
  (∀ i < cs.length, (w1 sos cs)[i]? = some .EuropeanTerminator → AfterNumberB (w4 sos (w3 (w2 sos (w1 sos cs)))) i →
    ((w1 sos cs)[i + 1]? = some .EuropeanSeparator ∨ (w1 sos cs)[i + 1]? = some .CommonSeparator) → bytes (i + 1) = 1 → cs[i + 2]? ≠ some .EuropeanNumber) ∧
  ∀ i < cs.length, ∀ c ∈ cs[i]?, (c = .EuropeanSeparator ∨ c = .CommonSeparator) → bytes i ≠ 1 → (w4 sos (w3 (w2 sos (w1 sos cs))))[i]? = some c
set_option synthInstance.maxSize 1000 in
set_option synthInstance.maxHeartbeats 400000 in
instance (sos : BC) (bytes : Nat → Nat) (cs : List BC) : Decidable (OnePassB sos bytes cs) := by unfold OnePassB; infer_instance

theorem onePass_of {sos : BC} {bytes : Nat → Nat} {cs : List BC} (h : OnePassB sos bytes cs) : OnePass sos bytes cs := by
  obtain ⟨h1, h5, h2, h3, h4⟩ := h
  have hl : ∀ {i : Nat} {c : BC}, (w1 sos cs)[i]? = some c → i < cs.length := by intro i c hc; rw [← w1_length sos cs]; exact lt_of_get hc
  exact ⟨fun i a b j hj hc => h1 i (hl a) a b j (hl hc) hj hc, fun i c a b d => h5 i (lt_of_get a) c a b d, fun i a b => afterB.1 (h2 i (hl a) a b),
    fun i a b c => h3 i (hl a) a (afterB.2 b) c, fun i c a b d => h4 i (lt_of_get a) c a b d⟩

end Proofs.BidiW
