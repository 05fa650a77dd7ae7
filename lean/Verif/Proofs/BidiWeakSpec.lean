import Verif.Proofs.BidiKeep
import Verif.Spec.BidiImplicit
import Mathlib.Tactic.Tauto

/-! # The weak and neutral rules on the list of the classes of one sequence -/
namespace Proofs.BidiW
open Model.Bidi Data
open Proofs.Bidi hiding w3
open Spec.Bidi (w1 w1Class w2 w2Class w3 w3Class w4 w4Class w5 w6 w6Class w7 w7Class numbers beforeNumber lastStrong isStrong isNeutral direction
  directionAfter n12 resolve)

/-- the first loop of `resolve_weak` on the pairs of byte length and class of a sequence; `n` terminators wait -/
def weakL (eos : BC) : (prev : BC) → (n : Nat) → List (Nat × BC) → List BC
  | _, n, [] => List.replicate n .EuropeanTerminator
  | prev, n, (m, c) :: r =>
    let x := newClass m c prev ((r.head?.map Prod.snd).getD eos)
    if x = .EuropeanTerminator then weakL eos x (n + 1) r
    else List.replicate n (if c = .EuropeanNumber then .EuropeanNumber else .OtherNeutral) ++ x :: weakL eos x 0 r

/-- no mark meets a waiting terminator -/
def okL (eos : BC) : (prev : BC) → List (Nat × BC) → Prop
  | _, [] => True
  | prev, (m, c) :: r => (c = .NonspacingMark → prev ≠ .EuropeanTerminator) ∧ okL eos (newClass m c prev ((r.head?.map Prod.snd).getD eos)) r

/-- terminators and separators -/
def sepTerm : BC → Bool
  | .EuropeanSeparator | .CommonSeparator | .EuropeanTerminator => true
  | _ => false

/-- the cases in which the one pass of the program does what the passes W1-W5 do, from the state after a character on: `p` is its class after
W1, `s` the last strong class, `q` the class after W3; `a`: what precedes is a number, perhaps with terminators -/
def Reg : (p s q : BC) → (a : Bool) → List (Nat × BC) → Prop
  | _, _, _, _, [] => True
  | p, s, q, a, (m, c) :: r =>
    let y := w1Class p c
    let z := w3Class (w2Class s y)
    let v := w4Class q z (w3 (w2 (lastStrong s y) (w1 y (r.map Prod.snd)))).head?
    (y = .EuropeanNumber → s = .ArabicLetter → p ≠ .EuropeanTerminator) ∧
    (p = .EuropeanNumber → q = .ArabicNumber → y ≠ .EuropeanTerminator) ∧
    (c = .NonspacingMark → p = .EuropeanTerminator → a = true) ∧
    (p = .EuropeanTerminator → a = true → (y = .EuropeanSeparator ∨ y = .CommonSeparator) → m = 1 → r.head?.map Prod.snd ≠ some .EuropeanNumber) ∧
    (m ≠ 1 → (c = .EuropeanSeparator ∨ c = .CommonSeparator) → v = z) ∧
    (m = 1 → (c = .EuropeanSeparator ∨ c = .CommonSeparator) → (v = z ↔ w4Class (w3Class p) c (w3 (w1 c (r.map Prod.snd))).head? = c)) ∧
    Reg y (lastStrong s y) z (if v = .EuropeanTerminator then a else v == .EuropeanNumber) r

/-- the state of the program (`prev`, `n`) and of the passes after a character -/
inductive St : (p s q prev : BC) → (after : Bool) → (n : Nat) → (r : List (Nat × BC)) → Prop
  | strong {r} (c : BC) : c = .LeftToRight ∨ c = .RightToLeft → St c c c c false 0 r
  | al {r} : St .ArabicLetter .ArabicLetter .RightToLeft .RightToLeft false 0 r
  | neutral {r} (c s : BC) : isNI c = true → isStrong s = true → St c s c c false 0 r
  | en {r} (s : BC) : isStrong s = true → s ≠ .ArabicLetter → St .EuropeanNumber s .EuropeanNumber .EuropeanNumber true 0 r
  | enAl {r} : St .EuropeanNumber .ArabicLetter .ArabicNumber .EuropeanNumber false 0 r
  | an {r} (s : BC) : isStrong s = true → St .ArabicNumber s .ArabicNumber .ArabicNumber false 0 r
  | etAfter {r} (s : BC) : isStrong s = true → St .EuropeanTerminator s .EuropeanTerminator .EuropeanNumber true 0 r
  | et {r} (s : BC) (n : Nat) : isStrong s = true → St .EuropeanTerminator s .EuropeanTerminator .EuropeanTerminator false (n + 1) r
  | sep {r} (p s : BC) : p = .EuropeanSeparator ∨ p = .CommonSeparator → isStrong s = true → St p s p .OtherNeutral false 0 r
  | sepEn {r} (p s : BC) : p = .EuropeanSeparator ∨ p = .CommonSeparator → isStrong s = true → s ≠ .ArabicLetter →
      r.head?.map Prod.snd = some .EuropeanNumber → St p s p .EuropeanNumber true 0 r
  | sepEnAl {r} : r.head?.map Prod.snd = some .EuropeanNumber → St .CommonSeparator .ArabicLetter .CommonSeparator .EuropeanNumber false 0 r
  | sepAn {r} (s : BC) : isStrong s = true → r.head?.map Prod.snd = some .ArabicNumber → St .CommonSeparator s .CommonSeparator .ArabicNumber false 0 r

/-- the classes that are left after W6 -/
def fin (c : BC) : Bool := isNI c || c == .LeftToRight || c == .RightToLeft || c == .EuropeanNumber || c == .ArabicNumber

/-- the program has the same classes as the passes, but for numbers after AL, which it leaves European; `s` is the last strong class -/
def Sim : (s : BC) → List BC → List BC → Prop
  | _, [], [] => True
  | s, a :: A, b :: B => (a = b ∨ (a = .EuropeanNumber ∧ b = .ArabicNumber ∧ s = .RightToLeft)) ∧ fin b = true ∧ Sim (lastStrong s b) A B
  | _, _, _ => False

theorem sim_replicate {s a : BC} {A B : List BC} (h : Sim s A B) (ha : fin a = true) (hs : isStrong a = false) : ∀ n : Nat,
    Sim s (List.replicate n a ++ A) (List.replicate n a ++ B)
  | 0 => h
  | n + 1 => by
    rw [List.replicate_succ, List.cons_append, List.cons_append]
    refine ⟨.inl rfl, ha, ?_⟩
    unfold lastStrong
    rw [hs]
    exact sim_replicate h ha hs n

theorem w4_id {q z : BC} {n : Option BC} (h : (z ≠ .EuropeanSeparator ∧ z ≠ .CommonSeparator) ∨ (q ≠ .EuropeanNumber ∧ q ≠ .ArabicNumber)) : w4Class q z n = z := by
  unfold w4Class
  rw [if_neg (by tauto), if_neg (by tauto)]

theorem w1_other {p c : BC} (h : c ≠ .NonspacingMark) : w1Class p c = c := by unfold w1Class; rw [if_neg h]

theorem ni_facts {y : BC} (h : isNI y = true) : isStrong y = false ∧ w6Class y = y ∧ (y == .EuropeanNumber) = false ∧ y ≠ .EuropeanTerminator ∧
    y ≠ .NonspacingMark ∧ y ≠ .EuropeanNumber ∧ y ≠ .ArabicLetter ∧ fin y = true := by
  revert h; cases y <;> decide

theorem st_strong {p s q prev : BC} {after : Bool} {n : Nat} {r : List (Nat × BC)} (h : St p s q prev after n r) : isStrong s = true := by
  cases h <;> first | assumption | rfl | (rename_i hc; rcases hc with rfl | rfl <;> rfl)

theorem st_et {p s q prev : BC} {after : Bool} {n : Nat} {r : List (Nat × BC)} (h : St p s q prev after n r) (hp : prev = .EuropeanTerminator) :
    p = .EuropeanTerminator := by
  cases h <;> first | exact hp | rfl | exact absurd hp (by decide)

/-- the class after W1 of a mark is never a separator next to a number -/
theorem nsm_sep {p s q prev : BC} {after : Bool} {n m : Nat} {r : List (Nat × BC)} (h : St p s q prev after n ((m, .NonspacingMark) :: r)) :
    let z := w3Class (w2Class s (w1Class p .NonspacingMark))
    (z ≠ .EuropeanSeparator ∧ z ≠ .CommonSeparator) ∨ (q ≠ .EuropeanNumber ∧ q ≠ .ArabicNumber) := by
  cases h with
  | strong c hc => rcases hc with rfl | rfl <;> decide
  | al => decide
  | neutral c s hc hs => right; revert hc; clear hs; cases p <;> decide
  | en s hs hn => left; cases s <;> simp_all [isStrong] <;> decide
  | enAl => decide
  | an s hs => left; cases s <;> simp_all [isStrong] <;> decide
  | etAfter s hs => right; decide
  | et s n hs => right; decide
  | sep p s hp hs => right; rcases hp with rfl | rfl <;> decide
  | sepEn p s hp hs hn hh => simp at hh
  | sepEnAl hh => simp at hh
  | sepAn s hs hh => simp at hh

/-- a mark -/
theorem step_nsm {eos p s q prev : BC} {after : Bool} {n m : Nat} {r : List (Nat × BC)} (h : St p s q prev after n ((m, .NonspacingMark) :: r))
    (hp : p ≠ .EuropeanTerminator) :
    let y := w1Class p .NonspacingMark
    let z := w3Class (w2Class s y)
    let x := nsmClass prev
    x ≠ .EuropeanTerminator ∧ z ≠ .EuropeanTerminator ∧ (x = w6Class z ∨ (x = .EuropeanNumber ∧ z = .ArabicNumber ∧ w3Class s = .RightToLeft)) ∧
      lastStrong (w3Class s) (w6Class z) = w3Class (lastStrong s y) ∧ fin (w6Class z) = true ∧
      St y (lastStrong s y) z x (z == .EuropeanNumber) 0 r ∧ (0 < n → z ≠ .EuropeanNumber) := by
  cases h with
  | strong c hc => rcases hc with rfl | rfl <;> exact ⟨by decide, by decide, .inl rfl, by decide, rfl, .strong _ (by decide), fun h => absurd h (by decide)⟩
  | al => exact ⟨by decide, by decide, .inl rfl, by decide, rfl, .al, fun h => absurd h (by decide)⟩
  | neutral _ s hc hs =>
    intro y z x
    have hy : isNI y = true ∧ x = y := by
      show isNI (w1Class p _) = true ∧ nsmClass p = w1Class p _
      clear hp hs x z y
      revert hc
      cases p <;> decide
    obtain ⟨e1, e2⟩ := hy
    obtain ⟨f1, f2, f3, f4, f5, f6, f7, f8⟩ := ni_facts e1
    have e3 : z = y := by
      show w3Class (w2Class s y) = y
      unfold w3Class w2Class
      rw [if_neg (show ¬ (y = .EuropeanNumber ∧ s = .ArabicLetter) from fun h => f6 h.1), if_neg f7]
    have e4 : ∀ s, lastStrong s y = s := by intro s; unfold lastStrong; rw [f1]; rfl
    rw [e3, e2, e4, f2, e4, f3]
    exact ⟨f4, f4, .inl rfl, rfl, f8, .neutral _ _ e1 hs, fun h => absurd h (by decide)⟩
  | en s hs hn =>
    have e : w2Class s .EuropeanNumber = .EuropeanNumber := by unfold w2Class; rw [if_neg (by tauto)]
    intro y z x
    have ez : z = .EuropeanNumber := by show w3Class (w2Class s .EuropeanNumber) = _; rw [e]; rfl
    rw [ez]
    exact ⟨by decide, by decide, .inl rfl, rfl, rfl, .en _ hs hn, fun h => absurd h (by decide)⟩
  | enAl => exact ⟨by decide, by decide, .inr ⟨rfl, rfl, rfl⟩, rfl, rfl, .enAl, fun h => absurd h (by decide)⟩
  | an s hs =>
    exact ⟨by decide, (by decide : BidiClass.ArabicNumber ≠ .EuropeanTerminator), .inl rfl, rfl, rfl, .an _ hs, fun h => absurd h (by decide)⟩
  | etAfter s hs => exact absurd rfl hp
  | et s n hs => exact absurd rfl hp
  | sep p s hp hs =>
    rcases hp with rfl | rfl
    · exact ⟨by decide, (by decide : BidiClass.EuropeanSeparator ≠ .EuropeanTerminator), .inl rfl, rfl,
        rfl, .sep _ _ (.inl rfl) hs, fun h => absurd h (by decide)⟩
    · exact ⟨by decide, (by decide : BidiClass.CommonSeparator ≠ .EuropeanTerminator), .inl rfl, rfl,
        rfl, .sep _ _ (.inr rfl) hs, fun h => absurd h (by decide)⟩
  | sepEn p s hp hs hn hh => simp at hh
  | sepEnAl hh => simp at hh
  | sepAn s hs hh => simp at hh


/-- letters, numbers and neutrals -/
theorem step_other {eos p s q prev : BC} {after : Bool} {n m : Nat} {c : BC} {r : List (Nat × BC)} (h : St p s q prev after n ((m, c) :: r))
    (h1 : c = .EuropeanNumber → s = .ArabicLetter → p ≠ .EuropeanTerminator) (hc : removed c = false) (hn : c ≠ .NonspacingMark) (ht : sepTerm c = false) :
    let z := w3Class (w2Class s c)
    let x := newClass m c prev eos
    x ≠ .EuropeanTerminator ∧ z ≠ .EuropeanTerminator ∧ (x = w6Class z ∨ (x = .EuropeanNumber ∧ z = .ArabicNumber ∧ w3Class s = .RightToLeft)) ∧
      lastStrong (w3Class s) (w6Class z) = w3Class (lastStrong s c) ∧ fin (w6Class z) = true ∧
      St c (lastStrong s c) z x (z == .EuropeanNumber) 0 r ∧ (0 < n → (c = .EuropeanNumber ↔ z = .EuropeanNumber)) := by
  have hs := st_strong h
  by_cases hni : isNI c = true
  · obtain ⟨f1, f2, f3, f4, f5, f6, f7, f8⟩ := ni_facts hni
    intro z x
    have e3 : z = c := by
      show w3Class (w2Class s c) = c
      unfold w3Class w2Class
      rw [if_neg (show ¬ (c = .EuropeanNumber ∧ s = .ArabicLetter) from fun h => f6 h.1), if_neg f7]
    have e2 : x = c := by
      show newClass m c prev eos = c
      revert hni
      clear * -
      cases c <;> intro h <;> first | rfl | exact absurd h (by decide)
    have e4 : ∀ s, lastStrong s c = s := by intro s; unfold lastStrong; rw [f1]; rfl
    rw [e3, e2, e4, f2, e4, f3]
    exact ⟨f4, f4, .inl rfl, rfl, f8, .neutral _ _ hni hs, fun _ => Iff.rfl⟩
  · cases c with
    | LeftToRight => exact ⟨(by decide : BidiClass.LeftToRight ≠ .EuropeanTerminator), (by decide : BidiClass.LeftToRight ≠ .EuropeanTerminator), .inl rfl, rfl, rfl, .strong _ (.inl rfl), fun _ => ⟨nofun, fun h => by have h' : BidiClass.LeftToRight = .EuropeanNumber := h; cases h'⟩⟩
    | RightToLeft => exact ⟨(by decide : BidiClass.RightToLeft ≠ .EuropeanTerminator), (by decide : BidiClass.RightToLeft ≠ .EuropeanTerminator), .inl rfl, rfl, rfl, .strong _ (.inr rfl), fun _ => ⟨nofun, fun h => by have h' : BidiClass.RightToLeft = .EuropeanNumber := h; cases h'⟩⟩
    | ArabicLetter => exact ⟨(by decide : BidiClass.RightToLeft ≠ .EuropeanTerminator), (by decide : BidiClass.RightToLeft ≠ .EuropeanTerminator), .inl rfl, rfl, rfl, .al, fun _ => ⟨nofun, fun h => by have h' : BidiClass.RightToLeft = .EuropeanNumber := h; cases h'⟩⟩
    | ArabicNumber => exact ⟨(by decide : BidiClass.ArabicNumber ≠ .EuropeanTerminator), (by decide : BidiClass.ArabicNumber ≠ .EuropeanTerminator), .inl rfl, rfl, rfl, .an _ hs, fun _ => ⟨nofun, fun h => by have h' : BidiClass.ArabicNumber = .EuropeanNumber := h; cases h'⟩⟩
    | EuropeanNumber =>
      by_cases ha : s = .ArabicLetter
      · subst ha
        refine ⟨(by decide : BidiClass.EuropeanNumber ≠ .EuropeanTerminator), by decide, .inr ⟨rfl, rfl, rfl⟩, rfl, rfl, .enAl, ?_⟩
        intro h0
        have := h1 rfl rfl
        cases h <;> first | exact absurd h0 (by decide) | exact absurd rfl this
      · intro z x
        have e : z = .EuropeanNumber := by
          show w3Class (w2Class s .EuropeanNumber) = _
          unfold w2Class; rw [if_neg (by tauto)]; rfl
        rw [e]
        exact ⟨(by decide : BidiClass.EuropeanNumber ≠ .EuropeanTerminator), by decide, .inl rfl, rfl, rfl, .en _ hs ha, fun _ => by decide⟩
    | _ => first | exact absurd rfl hn | exact absurd ht (by decide) | exact absurd hc (by decide) | exact absurd rfl hni

/-- terminators -/
theorem step_et {eos p s q prev : BC} {after : Bool} {n m : Nat} {r : List (Nat × BC)} (h : St p s q prev after n ((m, .EuropeanTerminator) :: r))
    (h2 : p = .EuropeanNumber → q = .ArabicNumber → False) :
    let x := newClass m .EuropeanTerminator prev eos
    (x = .EuropeanTerminator ∧ after = false ∧ St .EuropeanTerminator s .EuropeanTerminator x false (n + 1) r) ∨
    (x = .EuropeanNumber ∧ after = true ∧ n = 0 ∧ St .EuropeanTerminator s .EuropeanTerminator x true 0 r) := by
  have hs := st_strong h
  cases h with
  | strong c hc => left; rcases hc with rfl | rfl <;> exact ⟨rfl, rfl, .et _ _ hs⟩
  | al => left; exact ⟨rfl, rfl, .et _ _ rfl⟩
  | neutral _ s hc hs =>
    left
    have e : newClass m .EuropeanTerminator p eos = .EuropeanTerminator := by
      revert hc; clear * -; cases p <;> intro h <;> first | rfl | exact absurd h (by decide)
    rw [e]
    exact ⟨rfl, rfl, .et _ _ hs⟩
  | en s hs hn => right; exact ⟨rfl, rfl, rfl, .etAfter _ hs⟩
  | enAl => exact (h2 rfl rfl).elim
  | an s hs => left; exact ⟨rfl, rfl, .et _ _ hs⟩
  | etAfter s hs => right; exact ⟨rfl, rfl, rfl, .etAfter _ hs⟩
  | et s n hs => left; exact ⟨rfl, rfl, .et _ _ hs⟩
  | sep p s hp hs => left; exact ⟨rfl, rfl, .et _ _ hs⟩
  | sepEn p s hp hs hn hh => simp at hh
  | sepEnAl hh => simp at hh
  | sepAn s hs hh => simp at hh

/-- the class after a separator, as the program and as W4 sees it, with and without W2 -/
theorem next_class {c s : BC} (hc : c = .EuropeanSeparator ∨ c = .CommonSeparator) (r : List (Nat × BC)) {eos : BC}
    (he : eos = .LeftToRight ∨ eos = .RightToLeft) :
    let nx := (r.head?.map Prod.snd).getD eos
    let a := (w3 (w2 s (w1 c (r.map Prod.snd)))).head?
    let b := (w3 (w1 c (r.map Prod.snd))).head?
    (b = some .EuropeanNumber ↔ nx = .EuropeanNumber) ∧ (b = some .ArabicNumber ↔ nx = .ArabicNumber) ∧
    (a = some .EuropeanNumber ↔ nx = .EuropeanNumber ∧ s ≠ .ArabicLetter) ∧
    (a = some .ArabicNumber ↔ nx = .ArabicNumber ∨ (nx = .EuropeanNumber ∧ s = .ArabicLetter)) := by
  cases r with
  | nil => rcases he with rfl | rfl <;> simp [w1, w2, w3]
  | cons mc r =>
    obtain ⟨m, d⟩ := mc
    by_cases hd : d = .NonspacingMark
    · subst hd
      rcases hc with rfl | rfl <;> simp [w1, w2, w3, w1Class, w2Class, w3Class, Spec.Bidi.isInitiator]
    · simp only [List.map_cons, w1, w2, w3, List.head?_cons, w1_other hd, Option.map_some, Option.getD_some, Option.some.injEq]
      unfold w2Class w3Class
      by_cases hs : s = .ArabicLetter
      · subst hs; clear hd he hc; cases d <;> simp
      · clear hd he hc; cases d <;> simp [hs]

/-- separators -/
theorem step_sep {eos p s q prev : BC} {after : Bool} {n m : Nat} {c : BC} {r : List (Nat × BC)} (he : eos = .LeftToRight ∨ eos = .RightToLeft)
    (hc : c = .EuropeanSeparator ∨ c = .CommonSeparator) (h : St p s q prev after n ((m, c) :: r))
    (h4 : p = .EuropeanTerminator → after = true → m = 1 → r.head?.map Prod.snd ≠ some .EuropeanNumber)
    (h5 : m ≠ 1 → w4Class q c (w3 (w2 s (w1 c (r.map Prod.snd)))).head? = c)
    (h6 : m = 1 → (w4Class q c (w3 (w2 s (w1 c (r.map Prod.snd)))).head? = c ↔ w4Class (w3Class p) c (w3 (w1 c (r.map Prod.snd))).head? = c)) :
    let v := w4Class q c (w3 (w2 s (w1 c (r.map Prod.snd)))).head?
    let x := newClass m c prev ((r.head?.map Prod.snd).getD eos)
    x ≠ .EuropeanTerminator ∧ v ≠ .EuropeanTerminator ∧ (x = w6Class v ∨ (x = .EuropeanNumber ∧ v = .ArabicNumber ∧ w3Class s = .RightToLeft)) ∧
      lastStrong (w3Class s) (w6Class v) = w3Class s ∧ fin (w6Class v) = true ∧
      St c s c x (v == .EuropeanNumber) 0 r ∧ (0 < n → v ≠ .EuropeanNumber) := by
  have hs := st_strong h
  obtain ⟨b1, b2, a1, a2⟩ := next_class (s := s) hc r he
  have hx : newClass m c prev ((r.head?.map Prod.snd).getD eos) = if m = 1 then separatorClass prev c ((r.head?.map Prod.snd).getD eos) else .OtherNeutral := by
    rcases hc with rfl | rfl <;> rfl
  have hraw : ∀ d, d = .EuropeanNumber ∨ d = .ArabicNumber → (r.head?.map Prod.snd).getD eos = d → r.head?.map Prod.snd = some d := by
    intro d hd e
    cases hr' : r.head?.map Prod.snd with
    | none => rw [hr'] at e; simp at e; subst e; rcases he with rfl | rfl <;> simp at hd
    | some d' => rw [hr'] at e; simp at e; rw [e]
  simp only
  rw [hx]
  generalize (w3 (w2 s (w1 c (r.map Prod.snd)))).head? = A at *
  generalize (w3 (w1 c (r.map Prod.snd))).head? = B at *
  generalize (r.head?.map Prod.snd).getD eos = nx at *
  -- a separator that stays
  have stay : ∀ (hxx : (if m = 1 then separatorClass prev c nx else .OtherNeutral) = .OtherNeutral) (hv : w4Class q c A = c),
      (if m = 1 then separatorClass prev c nx else .OtherNeutral) ≠ .EuropeanTerminator ∧ w4Class q c A ≠ .EuropeanTerminator ∧
      ((if m = 1 then separatorClass prev c nx else .OtherNeutral) = w6Class (w4Class q c A) ∨
        ((if m = 1 then separatorClass prev c nx else .OtherNeutral) = .EuropeanNumber ∧ w4Class q c A = .ArabicNumber ∧ w3Class s = .RightToLeft)) ∧
      lastStrong (w3Class s) (w6Class (w4Class q c A)) = w3Class s ∧ fin (w6Class (w4Class q c A)) = true ∧
      St c s c (if m = 1 then separatorClass prev c nx else .OtherNeutral) (w4Class q c A == .EuropeanNumber) 0 r ∧ (0 < n → w4Class q c A ≠ .EuropeanNumber) := by
    intro hxx hv
    rw [hxx, hv]
    have hst : St c s c .OtherNeutral false 0 r := .sep c s hc hs
    rcases hc with rfl | rfl <;> exact ⟨by decide, by decide, .inl rfl, rfl, rfl, hst, fun _ => by decide⟩
  by_cases hm : m = 1
  swap
  · exact stay (if_neg hm) (h5 hm)
  have h6 := h6 hm
  have h4 := fun e f => h4 e f hm
  simp only [if_pos hm] at stay ⊢
  -- neither side is a number for the program
  have idle : prev ≠ .EuropeanNumber → prev ≠ .ArabicNumber → separatorClass prev c nx = .OtherNeutral := by
    intro e1 e2
    unfold separatorClass
    split <;> first | rfl | exact absurd rfl e1 | exact absurd rfl e2
  have idle4 : q ≠ .EuropeanNumber → q ≠ .ArabicNumber → w4Class q c A = c := fun e1 e2 => w4_id (.inr ⟨e1, e2⟩)
  have sepE : nx ≠ .EuropeanNumber → separatorClass .EuropeanNumber c nx = .OtherNeutral := by
    intro e
    unfold separatorClass
    split <;> first | rfl | exact absurd rfl e | simp_all | (rename_i e0; cases e0)
  have sepA : ¬ (nx = .ArabicNumber ∧ c = .CommonSeparator) → separatorClass .ArabicNumber c nx = .OtherNeutral := by
    intro e
    unfold separatorClass
    split <;> first | rfl | simp_all
  have w4E : A ≠ some .EuropeanNumber → w4Class .EuropeanNumber c A = c := by
    intro e; unfold w4Class; rw [if_neg (fun h => e h.2.2), if_neg (by simp)]
  have w4A : ¬ (A = some .ArabicNumber ∧ c = .CommonSeparator) → w4Class .ArabicNumber c A = c := by
    intro e; unfold w4Class; rw [if_neg (by simp), if_neg (fun h => e ⟨h.2.2, h.1⟩)]
  cases h with
  | strong c hc => exact stay (idle (by rcases hc with rfl | rfl <;> decide) (by rcases hc with rfl | rfl <;> decide)) (idle4 (by rcases hc with rfl | rfl <;> decide) (by rcases hc with rfl | rfl <;> decide))
  | al => exact stay (idle (by decide) (by decide)) (idle4 (by decide) (by decide))
  | neutral _ s hni hs =>
    have e : p ≠ .EuropeanNumber ∧ p ≠ .ArabicNumber := by constructor <;> (rintro rfl; simp [isNI] at hni)
    exact stay (idle e.1 e.2) (idle4 e.1 e.2)
  | en s hs hn =>
    by_cases hnx : nx = .EuropeanNumber
    · have hxe : separatorClass .EuropeanNumber c nx = .EuropeanNumber := by rw [hnx]; rcases hc with rfl | rfl <;> rfl
      have hve : w4Class .EuropeanNumber c A = .EuropeanNumber := by unfold w4Class; rw [if_pos ⟨hc, rfl, a1.2 ⟨hnx, hn⟩⟩]
      rw [hxe, hve]
      exact ⟨by decide, by decide, .inl rfl, rfl, rfl, .sepEn _ _ hc hs hn (hraw _ (.inl rfl) hnx), fun h0 => by omega⟩
    · exact stay (sepE hnx) (w4E (fun e => hnx (a1.1 e).1))
  | enAl =>
    by_cases hnx : nx = .EuropeanNumber
    · have hxe : separatorClass .EuropeanNumber c nx = .EuropeanNumber := by rw [hnx]; rcases hc with rfl | rfl <;> rfl
      have hb : w4Class (w3Class .EuropeanNumber) c B = .EuropeanNumber := by
        show w4Class .EuropeanNumber c B = _
        unfold w4Class; rw [if_pos ⟨hc, rfl, b1.2 hnx⟩]
      have hA := a2.2 (.inr ⟨hnx, rfl⟩)
      rcases hc with rfl | rfl
      · rw [hb] at h6
        have := h6.1 (w4A (by simp))
        simp at this
      · have hve : w4Class .ArabicNumber .CommonSeparator A = .ArabicNumber := by
          unfold w4Class; rw [if_neg (by simp), if_pos ⟨rfl, rfl, hA⟩]
        rw [hxe, hve]
        exact ⟨by decide, by decide, .inr ⟨rfl, rfl, rfl⟩, rfl, rfl, .sepEnAl (hraw _ (.inl rfl) hnx), fun _ => by decide⟩
    · refine stay (sepE hnx) (h6.2 ?_)
      show w4Class .EuropeanNumber c B = _
      unfold w4Class; rw [if_neg (fun h => hnx (b1.1 h.2.2)), if_neg (by simp)]
  | an s hs =>
    by_cases hnx : nx = .ArabicNumber ∧ c = .CommonSeparator
    · obtain ⟨hnx, rfl⟩ := hnx
      have hxe : separatorClass .ArabicNumber .CommonSeparator nx = .ArabicNumber := by rw [hnx]; rfl
      have hve : w4Class .ArabicNumber .CommonSeparator A = .ArabicNumber := by
        unfold w4Class; rw [if_neg (by simp), if_pos ⟨rfl, rfl, a2.2 (.inl hnx)⟩]
      rw [hxe, hve]
      exact ⟨by decide, by decide, .inl rfl, rfl, rfl, .sepAn _ hs (hraw _ (.inr rfl) hnx), fun _ => by decide⟩
    · refine stay (sepA hnx) (h6.2 ?_)
      show w4Class .ArabicNumber c B = _
      unfold w4Class; rw [if_neg (by simp), if_neg (fun h => hnx ⟨b2.1 h.2.2, h.1⟩)]
  | etAfter s hs =>
    refine stay (sepE (fun e => h4 rfl rfl (hraw _ (.inl rfl) e))) (idle4 (by decide) (by decide))
  | et s n hs => exact stay (idle (by decide) (by decide)) (idle4 (by decide) (by decide))
  | sep p s hp hs =>
    exact stay (idle (by decide) (by decide)) (idle4 (by rcases hp with rfl | rfl <;> decide) (by rcases hp with rfl | rfl <;> decide))
  | sepEn p s hp hs hn hh => simp at hh; subst hh; simp at hc
  | sepEnAl hh => simp at hh; subst hh; simp at hc
  | sepAn s hs hh => simp at hh; subst hh; simp at hc

/-- the passes W1-W5 from a state on -/
def passes (p s q : BC) (cs : List BC) : List BC := w4 q (w3 (w2 s (w1 p cs)))

theorem passes_cons (p s q c : BC) (cs : List BC) : passes p s q (c :: cs) =
    w4Class q (w3Class (w2Class s (w1Class p c))) (w3 (w2 (lastStrong s (w1Class p c)) (w1 (w1Class p c) cs))).head? ::
      passes (w1Class p c) (lastStrong s (w1Class p c)) (w3Class (w2Class s (w1Class p c))) cs := rfl

theorem w5_other {after : Bool} {c : BC} {cs : List BC} (h : c ≠ .EuropeanTerminator) : w5 after (c :: cs) = c :: w5 (c == .EuropeanNumber) cs := by
  cases c <;> first | rfl | exact absurd rfl h

theorem before_other {c : BC} {cs : List BC} (h : c ≠ .EuropeanTerminator) : beforeNumber (c :: cs) = (c == .EuropeanNumber) := by
  cases c <;> first | rfl | exact absurd rfl h

theorem w6_cons (c : BC) (cs : List BC) : w6 (c :: cs) = w6Class c :: w6 cs := rfl

theorem replicate_snoc {α : Type} (n : Nat) (a : α) (l : List α) : List.replicate n a ++ a :: l = List.replicate (n + 1) a ++ l := by
  rw [List.replicate_succ', List.append_assoc]; rfl

/-- the first loop of the program and the passes W1-W6; `t` terminators at the end stay as they are in the program -/
theorem weak_main {eos : BC} (he : eos = .LeftToRight ∨ eos = .RightToLeft) : ∀ (xs : List (Nat × BC)) {p s q prev : BC} {after : Bool} {n : Nat},
    St p s q prev after n xs → Reg p s q after xs → (∀ x ∈ xs, removed x.2 = false) →
    ∃ (t : Nat) (A B : List BC), weakL eos prev n xs = A ++ List.replicate t .EuropeanTerminator ∧
      List.replicate n (if beforeNumber (passes p s q (xs.map Prod.snd)) then BidiClass.EuropeanNumber else .OtherNeutral) ++
        w6 (w5 after (passes p s q (xs.map Prod.snd))) = B ++ List.replicate t .OtherNeutral ∧
      Sim (w3Class s) A B ∧ okL eos prev xs ∧
      (0 < t → (xs = [] ∧ 0 < n) ∨ (w5 after (passes p s q (xs.map Prod.snd))).getLast? = some .EuropeanTerminator)
  | [], p, s, q, prev, after, n, _, _, _ => by
    refine ⟨n, [], [], rfl, ?_, trivial, trivial, fun h => .inl ⟨rfl, h⟩⟩
    simp [passes, w1, w2, w3, w4, w5, w6, beforeNumber]
  | (m, c) :: r, p, s, q, prev, after, n, h, hr, hc => by
    have hr' := hr
    obtain ⟨h1, h2, h3, h4, h5, h7, h6⟩ := hr
    have h3' : c = .NonspacingMark → prev ≠ .EuropeanTerminator := by
      intro e hp
      have hp' := st_et h hp
      have := h3 e hp'
      subst this
      cases h <;> simp_all
    have hcr : ∀ x ∈ r, removed x.2 = false := fun x hx => hc x (by simp [hx])
    have hc0 : removed c = false := hc (m, c) (by simp)
    -- a character that is no terminator
    have plain : ∀ (x v z y s' : BC), x = newClass m c prev ((r.head?.map Prod.snd).getD eos) → y = w1Class p c → z = w3Class (w2Class s y) →
        s' = lastStrong s y → v = w4Class q z (w3 (w2 s' (w1 y (r.map Prod.snd)))).head? →
        x ≠ .EuropeanTerminator → v ≠ .EuropeanTerminator → (x = w6Class v ∨ (x = .EuropeanNumber ∧ v = .ArabicNumber ∧ w3Class s = .RightToLeft)) →
        lastStrong (w3Class s) (w6Class v) = w3Class s' → fin (w6Class v) = true → St y s' z x (v == .EuropeanNumber) 0 r →
        (0 < n → (c = .EuropeanNumber ↔ v = .EuropeanNumber)) →
        ∃ (t : Nat) (A B : List BC), weakL eos prev n ((m, c) :: r) = A ++ List.replicate t .EuropeanTerminator ∧
          List.replicate n (if beforeNumber (passes p s q (((m, c) :: r).map Prod.snd)) then BidiClass.EuropeanNumber else .OtherNeutral) ++
            w6 (w5 after (passes p s q (((m, c) :: r).map Prod.snd))) = B ++ List.replicate t .OtherNeutral ∧
          Sim (w3Class s) A B ∧ okL eos prev ((m, c) :: r) ∧
          (0 < t → (((m, c) :: r) = [] ∧ 0 < n) ∨ (w5 after (passes p s q (((m, c) :: r).map Prod.snd))).getLast? = some .EuropeanTerminator) := by
      intro x v z y s' ex ey ez es ev g1 g2 g3 g4 g5 g6 g7
      have hreg : Reg y s' z (v == .EuropeanNumber) r := by
        rw [← ey, ← ez, ← es, ← ev, if_neg g2] at h6; exact h6
      obtain ⟨t, A, B, i1, i2, i3, i5, i4⟩ := weak_main he r g6 hreg hcr
      have hp : passes p s q (((m, c) :: r).map Prod.snd) = v :: passes y s' z (r.map Prod.snd) := by
        rw [List.map_cons, passes_cons, ev, ez, es, ey]
      rw [hp, w5_other g2, before_other g2, w6_cons]
      simp only [List.replicate_zero, List.nil_append] at i2
      rw [i2]
      have e0 : (if (v == .EuropeanNumber) = true then BidiClass.EuropeanNumber else .OtherNeutral) = (if v = .EuropeanNumber then BidiClass.EuropeanNumber else .OtherNeutral) := by
        simp
      have e1 : List.replicate n (if c = .EuropeanNumber then BidiClass.EuropeanNumber else .OtherNeutral) =
          List.replicate n (if v = .EuropeanNumber then BidiClass.EuropeanNumber else .OtherNeutral) := by
        cases n with
        | zero => rfl
        | succ n =>
          have := g7 (by omega)
          by_cases hv : v = .EuropeanNumber
          · rw [if_pos (this.2 hv), if_pos hv]
          · rw [if_neg (fun e => hv (this.1 e)), if_neg hv]
      rw [e0]
      refine ⟨t, List.replicate n (if v = .EuropeanNumber then BidiClass.EuropeanNumber else .OtherNeutral) ++ x :: A,
        List.replicate n (if v = .EuropeanNumber then BidiClass.EuropeanNumber else .OtherNeutral) ++ w6Class v :: B, ?_, ?_, ?_, ⟨h3', by rw [← ex]; exact i5⟩, ?_⟩
      · rw [weakL]
        simp only [← ex]
        rw [if_neg g1, i1, e1, List.append_assoc]; rfl
      · rw [List.append_assoc]; rfl
      · refine sim_replicate ?_ (by split_ifs <;> rfl) (by split_ifs <;> rfl) n
        refine ⟨?_, g5, by rw [g4]; exact i3⟩
        rcases g3 with g3 | ⟨a, b, d⟩
        · exact .inl g3
        · exact .inr ⟨a, by rw [b]; rfl, d⟩
      · intro ht
        right
        rcases i4 ht with ⟨_, hn⟩ | hl
        · omega
        · rw [List.getLast?_cons, hl]; rfl
    -- a terminator, or a mark on one, after a number
    have after_number : newClass m c prev ((r.head?.map Prod.snd).getD eos) = .EuropeanNumber → w1Class p c = .EuropeanTerminator → after = true → n = 0 →
        St .EuropeanTerminator s .EuropeanTerminator .EuropeanNumber true 0 r →
        ∃ (t : Nat) (A B : List BC), weakL eos prev n ((m, c) :: r) = A ++ List.replicate t .EuropeanTerminator ∧
          List.replicate n (if beforeNumber (passes p s q (((m, c) :: r).map Prod.snd)) then BidiClass.EuropeanNumber else .OtherNeutral) ++
            w6 (w5 after (passes p s q (((m, c) :: r).map Prod.snd))) = B ++ List.replicate t .OtherNeutral ∧
          Sim (w3Class s) A B ∧ okL eos prev ((m, c) :: r) ∧
          (0 < t → (((m, c) :: r) = [] ∧ 0 < n) ∨ (w5 after (passes p s q (((m, c) :: r).map Prod.snd))).getLast? = some .EuropeanTerminator) := by
      intro hx hy g2 g3 g4
      subst g2; subst g3
      have hp : passes p s q (((m, c) :: r).map Prod.snd) = .EuropeanTerminator :: passes .EuropeanTerminator s .EuropeanTerminator (r.map Prod.snd) := by
        rw [List.map_cons, passes_cons, hy]; rfl
      have hreg : Reg .EuropeanTerminator s .EuropeanTerminator true r := by rw [hy] at h6; exact h6
      rw [hp]
      obtain ⟨t, A, B, i1, i2, i3, i5, i4⟩ := weak_main he r g4 hreg hcr
      simp only [List.replicate_zero, List.nil_append] at i2 ⊢
      refine ⟨t, .EuropeanNumber :: A, .EuropeanNumber :: B, ?_, ?_, ⟨.inl rfl, rfl, i3⟩, ⟨h3', by rw [hx]; exact i5⟩, ?_⟩
      · rw [weakL]
        simp only [hx]
        rw [if_neg (by decide), i1]; rfl
      · show w6Class .EuropeanNumber :: w6 (w5 true _) = _
        rw [i2]; rfl
      · intro ht
        right
        rcases i4 ht with ⟨_, hn⟩ | hl
        · omega
        · simp only [w5, List.getLast?_cons]; rw [hl]; rfl
    by_cases hn : c = .NonspacingMark
    · subst hn
      have hx : newClass m .NonspacingMark prev ((r.head?.map Prod.snd).getD eos) = nsmClass prev := rfl
      by_cases hpe : p = .EuropeanTerminator
      · have ha := h3 rfl hpe
        subst ha
        cases h with
        | etAfter s hs => exact after_number rfl rfl rfl rfl (.etAfter _ hs)
        | en s hs hn => simp at hpe
        | sepEn p s hp hs hn hh => simp at hh
      obtain ⟨g1, g2, g3, g4, g5, g6, g7⟩ := step_nsm (eos := eos) h hpe
      have hv := w4_id (n := (w3 (w2 (lastStrong s (w1Class p .NonspacingMark)) (w1 (w1Class p .NonspacingMark) (r.map Prod.snd)))).head?) (nsm_sep h)
      refine plain _ (w3Class (w2Class s (w1Class p .NonspacingMark))) _ _ _ rfl rfl rfl rfl hv.symm ?_ g2 ?_ g4 g5 ?_ ?_
      · rw [hx]; exact g1
      · rw [hx]; exact g3
      · rw [hx]; exact g6
      · intro h0; exact ⟨nofun, fun e => absurd e (g7 h0)⟩
    · rw [w1_other hn] at h1 h2 h4 h5 h6 h7
      by_cases hsep : c = .EuropeanSeparator ∨ c = .CommonSeparator
      · have hz : w3Class (w2Class s c) = c := by rcases hsep with rfl | rfl <;> rfl
        have hl : lastStrong s c = s := by rcases hsep with rfl | rfl <;> rfl
        rw [hz, hl] at h5 h6 h7
        obtain ⟨g1, g2, g3, g4, g5, g6, g7⟩ := step_sep he hsep h (fun a b d => h4 a b hsep d) (fun hm => h5 hm hsep) (fun hm => h7 hm hsep)
        refine plain _ _ c c s rfl (w1_other hn).symm hz.symm hl.symm rfl g1 g2 g3 g4 g5 g6 ?_
        intro h0
        refine ⟨fun e => ?_, fun e => absurd e (g7 h0)⟩
        subst e; simp at hsep
      · by_cases het : c = .EuropeanTerminator
        · subst het
          have hz : w3Class (w2Class s .EuropeanTerminator) = .EuropeanTerminator := rfl
          have hx : newClass m .EuropeanTerminator prev ((r.head?.map Prod.snd).getD eos) = newClass m .EuropeanTerminator prev eos := rfl
          have hp : passes p s q (((m, BidiClass.EuropeanTerminator) :: r).map Prod.snd) = .EuropeanTerminator :: passes .EuropeanTerminator s .EuropeanTerminator (r.map Prod.snd) := rfl
          rcases step_et (eos := eos) h (fun a b => h2 a b rfl) with ⟨g1, g2, g3⟩ | ⟨g1, g2, g3, g4⟩
          · rw [hp]
            subst g2
            obtain ⟨t, A, B, i1, i2, i3, i5, i4⟩ := weak_main he r g3 h6 hcr
            refine ⟨t, A, B, ?_, ?_, i3, ⟨nofun, by rw [hx]; exact i5⟩, ?_⟩
            · rw [weakL]
              simp only [hx]
              rw [if_pos g1, i1]
            · have : w5 false (.EuropeanTerminator :: passes .EuropeanTerminator s .EuropeanTerminator (r.map Prod.snd)) =
                (if beforeNumber (passes .EuropeanTerminator s .EuropeanTerminator (r.map Prod.snd)) then BidiClass.EuropeanNumber else .EuropeanTerminator) ::
                  w5 false (passes .EuropeanTerminator s .EuropeanTerminator (r.map Prod.snd)) := by simp [w5]
              rw [this, w6_cons, ← i2]
              have e : w6Class (if beforeNumber (passes .EuropeanTerminator s .EuropeanTerminator (r.map Prod.snd)) then BidiClass.EuropeanNumber else .EuropeanTerminator) =
                (if beforeNumber (passes .EuropeanTerminator s .EuropeanTerminator (r.map Prod.snd)) then BidiClass.EuropeanNumber else .OtherNeutral) := by
                split_ifs <;> rfl
              rw [e, show beforeNumber (.EuropeanTerminator :: passes .EuropeanTerminator s .EuropeanTerminator (r.map Prod.snd)) =
                beforeNumber (passes .EuropeanTerminator s .EuropeanTerminator (r.map Prod.snd)) from rfl, replicate_snoc]
            · intro ht
              right
              rcases i4 ht with ⟨hr0, _⟩ | hl
              · subst hr0; rfl
              · simp only [w5, List.getLast?_cons]; rw [hl]; rfl
          · rw [g1] at g4
            exact after_number (by rw [hx]; exact g1) rfl g2 g3 g4
        · have ht : sepTerm c = false := by revert hsep het; clear * -; cases c <;> simp [sepTerm]
          have hx : newClass m c prev ((r.head?.map Prod.snd).getD eos) = newClass m c prev eos := by
            cases c <;> first | rfl | exact absurd ht (by decide)
          obtain ⟨g1, g2, g3, g4, g5, g6, g7⟩ := step_other (eos := eos) h h1 hc0 hn ht
          have hsz : w3Class (w2Class s c) ≠ .EuropeanSeparator ∧ w3Class (w2Class s c) ≠ .CommonSeparator := by
            have : ∀ d, sepTerm d = false → d ≠ .EuropeanSeparator ∧ d ≠ .CommonSeparator := by intro d; cases d <;> decide
            apply this
            unfold w3Class w2Class
            split_ifs <;> first | rfl | exact ht
          refine plain _ (w3Class (w2Class s c)) _ c _ rfl (w1_other hn).symm rfl rfl (w4_id (.inl hsz)).symm ?_ g2 ?_ g4 g5 ?_ g7
          · rw [hx]; exact g1
          · rw [hx]; exact g3
          · rw [hx]; exact g6


/-- the second loop of `resolve_weak` (W7) on the classes of a sequence; `l`: the last strong class is L -/
def w7L : (l : Bool) → List BC → List BC
  | _, [] => []
  | l, c :: cs =>
    match c with
    | .EuropeanNumber => (if l then .LeftToRight else .EuropeanNumber) :: w7L l cs
    | .LeftToRight => .LeftToRight :: w7L true cs
    | .RightToLeft => .RightToLeft :: w7L false cs
    | .ArabicLetter => .ArabicLetter :: w7L false cs
    | c => c :: w7L l cs

/-- `resolve_neutral` on the classes of a sequence; `n` neutrals wait -/
def neutralL (e eos : BC) : (prev : BC) → (n : Nat) → List BC → List BC
  | prev, n, [] => List.replicate n (neutralClass prev eos e)
  | prev, n, c :: cs =>
    if isNI c then neutralL e eos prev (n + 1) cs else List.replicate n (neutralClass prev c e) ++ c :: neutralL e eos c 0 cs

/-- after W7 -/
def Sim2 : List BC → List BC → Prop
  | [], [] => True
  | a :: A, b :: B => (a = b ∨ (a = .EuropeanNumber ∧ b = .ArabicNumber)) ∧ fin b = true ∧ Sim2 A B
  | _, _ => False

theorem w7L_et (l : Bool) : ∀ t : Nat, w7L l (List.replicate t .EuropeanTerminator) = List.replicate t .EuropeanTerminator
  | 0 => rfl
  | t + 1 => by rw [List.replicate_succ]; exact congrArg _ (w7L_et l t)

theorem w7_on (s : BC) : ∀ t : Nat, w7 s (List.replicate t .OtherNeutral) = List.replicate t .OtherNeutral
  | 0 => rfl
  | t + 1 => by
    rw [List.replicate_succ, w7, show lastStrong s .OtherNeutral = s from rfl, w7_on s t]; rfl

theorem w7_main (t : Nat) : ∀ (A B : List BC) (s : BC), Sim s A B →
    ∃ A' B', w7L (s == .LeftToRight) (A ++ List.replicate t .EuropeanTerminator) = A' ++ List.replicate t .EuropeanTerminator ∧
      w7 s (B ++ List.replicate t .OtherNeutral) = B' ++ List.replicate t .OtherNeutral ∧ Sim2 A' B'
  | [], [], s, _ => ⟨[], [], w7L_et _ t, w7_on s t, trivial⟩
  | [], _ :: _, _, h => h.elim
  | _ :: _, [], _, h => h.elim
  | a :: A, b :: B, s, h => by
    obtain ⟨h1, h2, h3⟩ := h
    obtain ⟨A', B', i1, i2, i3⟩ := w7_main t A B _ h3
    rw [List.cons_append, List.cons_append, w7, i2]
    rcases h1 with rfl | ⟨rfl, rfl, rfl⟩
    · by_cases hen : a = .EuropeanNumber
      · subst hen
        by_cases hs : s = .LeftToRight
        · subst hs
          refine ⟨.LeftToRight :: A', .LeftToRight :: B', ?_, rfl, ⟨.inl rfl, rfl, i3⟩⟩
          rw [show lastStrong BidiClass.LeftToRight .EuropeanNumber = .LeftToRight from rfl] at i1
          rw [w7L, i1]; rfl
        · have e : (s == .LeftToRight) = false := by simpa using hs
          refine ⟨.EuropeanNumber :: A', .EuropeanNumber :: B', ?_, ?_, ⟨.inl rfl, rfl, i3⟩⟩
          · rw [show lastStrong s .EuropeanNumber = s from rfl] at i1
            rw [w7L, i1, e]; rfl
          · unfold w7Class; rw [if_neg (by tauto)]; rfl
      · have e : w7Class s a = a := by unfold w7Class; rw [if_neg (by tauto)]
        refine ⟨a :: A', a :: B', ?_, by rw [e]; rfl, ⟨.inl rfl, h2, i3⟩⟩
        rw [List.cons_append, ← i1]
        cases a <;> first | rfl | exact absurd rfl hen
    · exact ⟨.EuropeanNumber :: A', .ArabicNumber :: B', by rw [w7L]; exact congrArg _ i1, rfl, ⟨.inr ⟨rfl, rfl⟩, rfl, i3⟩⟩

/-- L, R and numbers -/
def dirClass (c : BC) : Bool := c == .LeftToRight || c == .RightToLeft || c == .EuropeanNumber || c == .ArabicNumber

theorem neutral_dir {a b e : BC} (ha : dirClass a = true) (hb : dirClass b = true) :
    neutralClass a b e = if direction a = direction b then direction a else e := by
  cases a <;> first | exact absurd ha (by decide) | (cases b <;> first | exact absurd hb (by decide) | rfl)

theorem neutral_et {a e : BC} : neutralClass a .EuropeanTerminator e = e := by cases a <;> rfl

theorem isNI_eq (c : BC) : isNI c = isNeutral c := by cases c <;> rfl

theorem fin_dir {c : BC} (h : fin c = true) (hn : ¬ isNI c = true) : dirClass c = true := by
  revert h hn; cases c <;> decide

theorem dir_dir {c : BC} (h : dirClass c = true) : direction c = .LeftToRight ∨ direction c = .RightToLeft := by
  cases c <;> first | exact absurd h (by decide) | decide

theorem implicit_eq (l : Nat) (c : BC) : implicitC c l = Spec.Bidi.implicitLevel l c := by
  unfold implicitC Spec.Bidi.implicitLevel Model.Level.isRtl
  rcases Nat.mod_two_eq_zero_or_one l with h | h
  · rw [h]; cases c <;> rfl
  · rw [h]; cases c <;> rfl

theorem implicit_en (l : Nat) : implicitC .EuropeanNumber l = Spec.Bidi.implicitLevel l .ArabicNumber := by
  unfold implicitC Spec.Bidi.implicitLevel Model.Level.isRtl
  rcases Nat.mod_two_eq_zero_or_one l with h | h <;> rw [h] <;> rfl

theorem implicit_et (l : Nat) : implicitC .EuropeanTerminator l = Spec.Bidi.implicitLevel l (Spec.Bidi.levelDir l) := by
  unfold implicitC Spec.Bidi.implicitLevel Spec.Bidi.levelDir Model.Level.isRtl
  rcases Nat.mod_two_eq_zero_or_one l with h | h <;> rw [h] <;> rfl

theorem after_on (eos : BC) : ∀ t : Nat, directionAfter eos (List.replicate t .OtherNeutral) = eos
  | 0 => rfl
  | t + 1 => by rw [List.replicate_succ, directionAfter]; exact after_on eos t

theorem neutralL_et (e eos : BC) : ∀ t : Nat, neutralL e eos .EuropeanTerminator 0 (List.replicate t .EuropeanTerminator) = List.replicate t .EuropeanTerminator
  | 0 => rfl
  | t + 1 => by
    rw [List.replicate_succ, neutralL, neutralL_et e eos t]; rfl

theorem n12_on (e before : BC) : ∀ t : Nat, n12 e e before (List.replicate t .OtherNeutral) = List.replicate t e
  | 0 => rfl
  | t + 1 => by
    rw [List.replicate_succ, n12, after_on, n12_on e before t]
    rw [if_pos (show isNeutral .OtherNeutral = true from rfl)]
    have : (if before = e then before else e) = e := by split_ifs with h <;> first | exact h | rfl
    rw [this, List.replicate_succ]

theorem neutral_main {e eos : BC} {l t : Nat} (hel : e = Spec.Bidi.levelDir l) (heos : eos = .LeftToRight ∨ eos = .RightToLeft) (ht : t = 0 ∨ eos = e) :
    ∀ (A B : List BC) (prev : BC) (n : Nat), Sim2 A B → dirClass prev = true →
      (neutralL e eos prev n (A ++ List.replicate t .EuropeanTerminator)).map (fun c => implicitC c l) =
        (List.replicate n (if direction prev = directionAfter eos (B ++ List.replicate t .OtherNeutral) then direction prev else e) ++
          n12 e eos (direction prev) (B ++ List.replicate t .OtherNeutral)).map (Spec.Bidi.implicitLevel l)
  | [], [], prev, n, _, hp => by
    rw [List.nil_append, List.nil_append, after_on]
    have hd : dirClass eos = true ∧ direction eos = eos := by rcases heos with rfl | rfl <;> exact ⟨rfl, rfl⟩
    cases t with
    | zero =>
      rw [List.replicate_zero, List.replicate_zero, neutralL, n12, List.append_nil, neutral_dir hp hd.1, hd.2, List.map_replicate, List.map_replicate, implicit_eq]
    | succ t =>
      have he : eos = e := by rcases ht with h | h; · omega
                              · exact h
      subst he
      rw [n12_on, List.replicate_succ (a := BidiClass.EuropeanTerminator), neutralL, neutralL_et, neutral_et]
      rw [if_neg (by decide), ← List.replicate_succ]
      have : (if direction prev = eos then direction prev else eos) = eos := by split_ifs with h <;> first | exact h | rfl
      rw [this, List.map_append, List.map_append, List.map_replicate, List.map_replicate, List.map_replicate, List.map_replicate, implicit_eq, implicit_et, ← hel]
  | [], _ :: _, _, _, h, _ => h.elim
  | _ :: _, [], _, _, h, _ => h.elim
  | a :: A, b :: B, prev, n, h, hp => by
    obtain ⟨h1, h2, h3⟩ := h
    rw [List.cons_append, List.cons_append, neutralL, n12, directionAfter, ← isNI_eq]
    by_cases hni : isNI b = true
    · have hab : a = b := by
        rcases h1 with h1 | ⟨_, rfl⟩
        · exact h1
        · exact absurd hni (by decide)
      subst hab
      rw [if_pos hni, if_pos hni, if_pos hni, neutral_main hel heos ht A B prev (n + 1) h3 hp, ← replicate_snoc]
    · have ha : ¬ isNI a = true := by
        rcases h1 with rfl | ⟨rfl, rfl⟩
        · exact hni
        · decide
      have hb := fin_dir h2 hni
      have hda : dirClass a = true := by
        rcases h1 with rfl | ⟨rfl, rfl⟩
        · exact hb
        · decide
      have hdd : direction a = direction b := by
        rcases h1 with rfl | ⟨rfl, rfl⟩ <;> rfl
      have hi : implicitC a l = Spec.Bidi.implicitLevel l b := by
        rcases h1 with rfl | ⟨rfl, rfl⟩
        · exact implicit_eq l a
        · exact implicit_en l
      rw [if_neg ha, if_neg hni, if_neg hni, List.map_append, List.map_append, List.map_cons, List.map_cons, neutral_main hel heos ht A B a 0 h3 hda,
        neutral_dir hp hda, hdd, hi, List.map_replicate, List.map_replicate, implicit_eq]
      rfl

/-- one sequence: the program and the passes give the same levels -/
theorem seq_main {sos eos : BC} {l : Nat} {xs : List (Nat × BC)} (hs : sos = .LeftToRight ∨ sos = .RightToLeft) (he : eos = .LeftToRight ∨ eos = .RightToLeft)
    (hr : Reg sos sos sos false xs) (hx : ∀ x ∈ xs, removed x.2 = false)
    (ht : eos = Spec.Bidi.levelDir l ∨ (numbers sos (xs.map Prod.snd)).getLast? ≠ some .EuropeanTerminator) :
    (neutralL (Spec.Bidi.levelDir l) eos sos 0 (w7L (sos == .LeftToRight) (weakL eos sos 0 xs))).map (fun c => implicitC c l) =
      (resolve sos eos (Spec.Bidi.levelDir l) (xs.map Prod.snd)).map (Spec.Bidi.implicitLevel l) := by
  obtain ⟨t, A, B, h1, h2, h3, _, h4⟩ := weak_main he xs (.strong sos hs) hr hx
  have hw : w3Class sos = sos := by rcases hs with rfl | rfl <;> rfl
  rw [hw] at h3
  obtain ⟨A', B', g1, g2, g3⟩ := w7_main t A B sos h3
  have hd : dirClass sos = true ∧ direction sos = sos := by rcases hs with rfl | rfl <;> exact ⟨rfl, rfl⟩
  have ht' : t = 0 ∨ eos = Spec.Bidi.levelDir l := by
    rcases ht with h | h
    · exact .inr h
    · left
      by_contra h0
      rcases h4 (by omega) with ⟨_, hn⟩ | hl
      · omega
      · exact h hl
  have := neutral_main rfl he ht' A' B' sos 0 g3 hd.1
  rw [h1, g1, this]
  unfold resolve numbers
  simp only [List.replicate_zero, List.nil_append] at h2 ⊢
  rw [show w4 sos (w3 (w2 sos (w1 sos (xs.map Prod.snd)))) = passes sos sos sos (xs.map Prod.snd) from rfl, h2, g2, hd.2]


end Proofs.BidiW
