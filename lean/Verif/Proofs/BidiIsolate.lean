import Verif.Spec.BidiIsolate
import Verif.Proofs.BidiChain
import Mathlib.Tactic.ByContra

/-! # What is inside an isolate does not matter outside: rules P2, X1-X8, X5c, BD9, BD13, X10 -/
namespace Proofs.BidiIsolate
open Data Spec.Bidi Proofs.BidiW

theorem init_ne {c : BidiClass} (h : isInitiator c = true) : c ≠ .PopDirectionalIsolate ∧ c ≠ .ParagraphSeparator := by
  constructor <;> (rintro rfl; simp [isInitiator] at h)

/-! ## P2, X5c, BD9 -/

theorem firstStrong_balanced {x : List BidiClass} (h : Balanced x) : ∀ d r, firstStrong (d + 1) (x ++ r) = firstStrong (d + 1) r := by
  induction h with
  | nil => intro d r; rfl
  | other c cs h1 h2 h3 _ ih => intro d r; rw [List.cons_append, firstStrong]; simp [h1, h2, ih]
  | isolate i x y h1 _ _ ihx ihy =>
    intro d r
    rw [List.append_assoc, List.cons_append, firstStrong, if_pos h1, List.cons_append, ihx, firstStrong]
    simp [isInitiator, ihy]

theorem isolateStrong_balanced {x : List BidiClass} (h : Balanced x) : ∀ d r, isolateStrong (d + 1) (x ++ r) = isolateStrong (d + 1) r := by
  induction h with
  | nil => intro d r; rfl
  | other c cs h1 h2 h3 _ ih => intro d r; rw [List.cons_append, isolateStrong]; simp [h1, h2, h3, ih]
  | isolate i x y h1 _ _ ihx ihy =>
    intro d r
    rw [List.append_assoc, List.cons_append, isolateStrong, if_pos h1, List.cons_append, ihx, isolateStrong]
    simp [isInitiator, ihy]

theorem matching_balanced {x : List BidiClass} (h : Balanced x) : ∀ d r, matchingPdi (d + 1) (x ++ r) = (matchingPdi (d + 1) r).map (· + x.length) := by
  induction h with
  | nil => intro d r; simp
  | other c cs h1 h2 h3 _ ih =>
    intro d r
    rw [List.cons_append, matchingPdi]
    simp only [h1, h2, ih, if_false, Bool.false_eq_true, Option.map_map]
    congr 1
  | isolate i x y h1 _ _ ihx ihy =>
    intro d r
    rw [List.append_assoc, List.cons_append, matchingPdi, if_pos h1, List.cons_append, ihx, matchingPdi]
    simp only [isInitiator, Bool.false_eq_true, if_false, if_true, Nat.add_sub_cancel, ihy, Option.map_map]
    rw [if_neg (by omega), Option.map_map]
    congr 1
    funext m
    simp
    omega

theorem firstStrong_isolate {i : BidiClass} {x : List BidiClass} (hi : isInitiator i = true) (h : Balanced x) (d : Nat) (r : List BidiClass) :
    firstStrong d (i :: x ++ .PopDirectionalIsolate :: r) = firstStrong d r := by
  rw [List.cons_append, firstStrong, if_pos hi, firstStrong_balanced h, firstStrong]
  simp [isInitiator]

theorem isolateStrong_isolate {i : BidiClass} {x : List BidiClass} (hi : isInitiator i = true) (h : Balanced x) (d : Nat) (r : List BidiClass) :
    isolateStrong d (i :: x ++ .PopDirectionalIsolate :: r) = isolateStrong d r := by
  rw [List.cons_append, isolateStrong, if_pos hi, isolateStrong_balanced h, isolateStrong]
  simp [isInitiator]

theorem firstStrong_congr {w w' : List BidiClass} (h : ∀ d, firstStrong d w = firstStrong d w') : ∀ (a : List BidiClass) d, firstStrong d (a ++ w) = firstStrong d (a ++ w')
  | [], d => h d
  | c :: a, d => by simp only [List.cons_append, firstStrong, firstStrong_congr h a]

theorem isolateStrong_congr {w w' : List BidiClass} (h : ∀ d, isolateStrong d w = isolateStrong d w') : ∀ (a : List BidiClass) d, isolateStrong d (a ++ w) = isolateStrong d (a ++ w')
  | [], d => h d
  | c :: a, d => by simp only [List.cons_append, isolateStrong, isolateStrong_congr h a]

theorem resolveFsi_init (c : BidiClass) (r : List BidiClass) : isInitiator (resolveFsi c r) = isInitiator c ∧
    (isInitiator c = false → resolveFsi c r = c) := by
  unfold resolveFsi
  split
  · rename_i h; subst h; split <;> simp [isInitiator]
  · simp

/-- X5c before `w` and before `w'` -/
theorem initial_split {w w' : List BidiClass} (h : ∀ d, isolateStrong d w = isolateStrong d w') : ∀ a : List BidiClass, ∃ P : List BidiClass, P.length = a.length ∧
    initialClasses (a ++ w) = P ++ initialClasses w ∧ initialClasses (a ++ w') = P ++ initialClasses w' ∧ P.map isInitiator = a.map isInitiator ∧
    ∀ (k : Nat) c, a[k]? = some c → isInitiator c = false → P[k]? = some c
  | [] => ⟨[], rfl, rfl, rfl, rfl, by simp⟩
  | c :: a => by
    obtain ⟨P, h1, h2, h3, h4, h5⟩ := initial_split h a
    refine ⟨resolveFsi c (a ++ w) :: P, by simp [h1], by rw [List.cons_append, initialClasses, h2]; rfl, ?_, ?_, ?_⟩
    · rw [List.cons_append, initialClasses, h3]
      have : resolveFsi c (a ++ w') = resolveFsi c (a ++ w) := by unfold resolveFsi; rw [isolateStrong_congr h a]
      rw [this]; rfl
    · rw [List.map_cons, List.map_cons, h4, (resolveFsi_init c _).1]
    · intro k d hk hd
      cases k with
      | zero => simp at hk ⊢; subst hk; exact (resolveFsi_init c _).2 hd
      | succ k => simp at hk ⊢; exact h5 k d hk hd

/-- X5c inside -/
theorem initial_balanced {x : List BidiClass} (h : Balanced x) : ∀ r, ∃ P, P.length = x.length ∧ Balanced P ∧ initialClasses (x ++ r) = P ++ initialClasses r := by
  induction h with
  | nil => intro r; exact ⟨[], rfl, .nil, rfl⟩
  | other c cs h1 h2 h3 _ ih =>
    intro r
    obtain ⟨P, p1, p2, p3⟩ := ih r
    refine ⟨c :: P, by simp [p1], .other _ _ h1 h2 h3 p2, ?_⟩
    rw [List.cons_append, initialClasses, p3, (resolveFsi_init c _).2 h1]; rfl
  | isolate i x y h1 _ _ ihx ihy =>
    intro r
    obtain ⟨Y, y1, y2, y3⟩ := ihy r
    obtain ⟨P, p1, p2, p3⟩ := ihx (.PopDirectionalIsolate :: (y ++ r))
    refine ⟨resolveFsi i (x ++ .PopDirectionalIsolate :: (y ++ r)) :: P ++ .PopDirectionalIsolate :: Y, by simp [p1, y1],
      .isolate _ _ _ (by rw [(resolveFsi_init i _).1]; exact h1) p2 y2, ?_⟩
    rw [List.append_assoc, List.cons_append, List.cons_append, initialClasses, p3, initialClasses, (resolveFsi_init .PopDirectionalIsolate _).2 rfl, y3]
    simp

/-! ## X1-X8 -/

/-- the state after some characters -/
def after (pl : Nat) (s : X) (cs : List BidiClass) : X := cs.foldl (fun s c => (s.step pl c).1) s

theorem run_append (pl : Nat) : ∀ (a b : List BidiClass) (s : X), X.run pl s (a ++ b) = X.run pl s a ++ X.run pl (after pl s a) b
  | [], _, _ => rfl
  | c :: a, b, s => by rw [List.cons_append, X.run, X.run, run_append pl a b]; rfl
theorem run_length (pl : Nat) : ∀ (a : List BidiClass) (s : X), (X.run pl s a).length = a.length
  | [], _ => rfl
  | c :: a, s => by rw [X.run, List.length_cons, run_length pl a, List.length_cons]
theorem after_append (pl : Nat) (s : X) (a b : List BidiClass) : after pl s (a ++ b) = after pl (after pl s a) b := by
  unfold after; rw [List.foldl_append]

/-- the entries of the innermost isolate on the stack, and what is below -/
def core (st : List Entry) : List Entry := st.dropWhile (fun e => !e.isolate)

/-- `x` leaves the isolates of the state alone -/
def Keeps (x : List BidiClass) : Prop := ∀ pl s, (after pl s x).overflowIsolates = s.overflowIsolates ∧ (after pl s x).validIsolates = s.validIsolates ∧
  core (after pl s x).stack = core s.stack ∧ (0 < s.overflowIsolates → after pl s x = s)

theorem step_initiator {i : BidiClass} (hi : isInitiator i = true) (pl : Nat) (s : X) :
    ∃ new, s.last.level < new ∧ new ≤ s.last.level + 2 ∧ s.step pl i = (s.isolate new, some (s.assign i)) := by
  have h1 : s.last.level < nextOdd s.last.level ∧ nextOdd s.last.level ≤ s.last.level + 2 := by unfold nextOdd; split <;> omega
  have h2 : s.last.level < nextEven s.last.level ∧ nextEven s.last.level ≤ s.last.level + 2 := by unfold nextEven; split <;> omega
  cases i <;> simp [isInitiator] at hi
  · exact ⟨_, h2.1, h2.2, rfl⟩
  · exact ⟨_, h2.1, h2.2, rfl⟩
  · exact ⟨_, h1.1, h1.2, rfl⟩

/-- After the PDI the state is what it was before the initiator. -/
theorem enclosed {i : BidiClass} {x : List BidiClass} (hi : isInitiator i = true) (hx : Keeps x) (pl : Nat) (s : X) :
    (after pl s (i :: x)).popIsolate = s := by
  obtain ⟨new, -, -, e⟩ := step_initiator hi pl s
  have e2 : after pl s (i :: x) = after pl (s.isolate new) x := by
    change after pl (s.step pl i).1 x = _
    rw [e]
  rw [e2]
  obtain ⟨h1, h2, h3, h4⟩ := hx pl (s.isolate new)
  by_cases hv : new ≤ maxDepth ∧ s.overflowIsolates = 0 ∧ s.overflowEmbeddings = 0
  · have e3 : s.isolate new = { s with stack := ⟨new, none, true⟩ :: s.stack, validIsolates := s.validIsolates + 1 } := by
      rw [X.isolate, if_pos hv]
    rw [e3] at h1 h2 h3 ⊢
    generalize after pl _ x = t at h1 h2 h3 ⊢
    simp only at h1 h2 h3
    rw [X.popIsolate, if_neg (by omega), if_neg (by omega)]
    have h5 : (t.stack.dropWhile fun e => !e.isolate).tail = s.stack := by
      have : core (⟨new, none, true⟩ :: s.stack) = ⟨new, none, true⟩ :: s.stack := by simp [core]
      rw [this] at h3
      change (core t.stack).tail = _
      rw [h3]; rfl
    obtain ⟨a, b, c, d⟩ := s
    obtain ⟨a', b', c', d'⟩ := t
    simp only at h1 h2 h5 hv ⊢
    rw [h5, h1, h2, hv.2.2]
    rfl
  · have e3 : s.isolate new = { s with overflowIsolates := s.overflowIsolates + 1 } := by rw [X.isolate, if_neg hv]
    rw [h4 (by rw [e3]; simp), e3, X.popIsolate, if_pos (by simp)]
    obtain ⟨a, b, c, d⟩ := s
    simp

theorem keeps_of {c : BidiClass} (h1 : isInitiator c = false) (h2 : c ≠ .PopDirectionalIsolate) (h3 : c ≠ .ParagraphSeparator) (pl : Nat) (s : X) :
    (s.step pl c).1.overflowIsolates = s.overflowIsolates ∧ (s.step pl c).1.validIsolates = s.validIsolates ∧
    core (s.step pl c).1.stack = core s.stack ∧ (0 < s.overflowIsolates → (s.step pl c).1 = s) := by
  have he : ∀ n o, (s.embed n o).overflowIsolates = s.overflowIsolates ∧ (s.embed n o).validIsolates = s.validIsolates ∧
      core (s.embed n o).stack = core s.stack ∧ (0 < s.overflowIsolates → s.embed n o = s) := by
    intro n o
    unfold X.embed
    split
    · refine ⟨rfl, rfl, by simp [core], fun h => by omega⟩
    · split
      · exact ⟨rfl, rfl, rfl, fun h => by omega⟩
      · exact ⟨rfl, rfl, rfl, fun _ => rfl⟩
  have hp : s.popEmbedding.overflowIsolates = s.overflowIsolates ∧ s.popEmbedding.validIsolates = s.validIsolates ∧
      core s.popEmbedding.stack = core s.stack ∧ (0 < s.overflowIsolates → s.popEmbedding = s) := by
    unfold X.popEmbedding
    split
    · exact ⟨rfl, rfl, rfl, fun _ => rfl⟩
    · split
      · exact ⟨rfl, rfl, rfl, fun h => by omega⟩
      · split
        · rename_i h
          refine ⟨rfl, rfl, ?_, fun h => by omega⟩
          obtain ⟨st, b, c, d⟩ := s
          cases st with
          | nil => rfl
          | cons e st =>
            have : e.isolate = false := h.1
            simp [core, this]
        · exact ⟨rfl, rfl, rfl, fun _ => rfl⟩
  cases c <;> simp [isInitiator] at h1 h2 h3 <;> first | exact he _ _ | exact hp | exact ⟨rfl, rfl, rfl, fun _ => rfl⟩

theorem keeps {x : List BidiClass} (h : Balanced x) : Keeps x := by
  induction h with
  | nil => intro pl s; exact ⟨rfl, rfl, rfl, fun _ => rfl⟩
  | other c cs h1 h2 h3 _ ih =>
    intro pl s
    obtain ⟨a1, a2, a3, a4⟩ := keeps_of h1 h2 h3 pl s
    obtain ⟨b1, b2, b3, b4⟩ := ih pl (s.step pl c).1
    exact ⟨b1.trans a1, b2.trans a2, b3.trans a3, fun h => (b4 (by rw [a1]; exact h)).trans (a4 h)⟩
  | isolate i x y hi _ _ ihx ihy =>
    intro pl s
    have : after pl s (i :: x ++ .PopDirectionalIsolate :: y) = after pl s y := by
      rw [after_append]
      change after pl ((after pl s (i :: x)).popIsolate) y = _
      rw [enclosed hi ihx]
    rw [this]
    exact ihy pl s

/-- X1-X8 around an isolate -/
theorem run_isolate {i : BidiClass} {x : List BidiClass} (hi : isInitiator i = true) (hx : Balanced x) (pl : Nat) (s : X) (r : List BidiClass) :
    X.run pl s (i :: x ++ .PopDirectionalIsolate :: r) =
      some (s.assign i) :: X.run pl (s.step pl i).1 x ++ some (s.assign .PopDirectionalIsolate) :: X.run pl s r := by
  have e := enclosed hi (keeps hx) pl s
  obtain ⟨new, -, -, e2⟩ := step_initiator hi pl s
  rw [run_append]
  congr 1
  · rw [X.run, e2]
  · rw [X.run]
    change some ((after pl s (i :: x)).popIsolate.assign _) :: X.run pl (after pl s (i :: x)).popIsolate r = _
    rw [e]

/-! ## depth -/

structure Shallow (s : X) (m : Nat) : Prop where
  oi : s.overflowIsolates = 0
  oe : s.overflowEmbeddings = 0
  lev : ∀ e ∈ s.stack, e.level ≤ m

theorem last_le {s : X} {m : Nat} (h : Shallow s m) : s.last.level ≤ m := by
  unfold X.last
  have := h.lev
  cases hs : s.stack with
  | nil => simp
  | cons e st => rw [hs] at this; simpa using this e (by simp)

theorem shallow_step {s : X} {m pl : Nat} {c : BidiClass} (h : Shallow s m) (hr : isRemoved c = false) (hB : c ≠ .ParagraphSeparator)
    (hm : isInitiator c = true → m + 2 ≤ 125) : Shallow (s.step pl c).1 (m + if isInitiator c then 2 else 0) := by
  by_cases hi : isInitiator c = true
  · obtain ⟨new, h1, h2, e⟩ := step_initiator hi pl s
    rw [e, if_pos hi]
    have := last_le h
    have hv : new ≤ maxDepth ∧ s.overflowIsolates = 0 ∧ s.overflowEmbeddings = 0 := ⟨by have := hm hi; unfold maxDepth; omega, h.oi, h.oe⟩
    rw [show (s.isolate new, some (s.assign c)).1 = s.isolate new from rfl, X.isolate, if_pos hv]
    refine ⟨h.oi, h.oe, ?_⟩
    intro e he
    rcases List.mem_cons.1 he with rfl | he
    · simp; omega
    · have := h.lev e he; omega
  · rw [if_neg hi, Nat.add_zero]
    have hp : Shallow s.popIsolate m := by
      unfold X.popIsolate
      rw [if_neg (by have := h.oi; omega)]
      split
      · exact h
      · exact ⟨h.oi, rfl, fun e he => h.lev e ((List.dropWhile_sublist _).mem (List.mem_of_mem_tail he))⟩
    cases c <;> simp [isInitiator, isRemoved] at hi hr hB <;> first | exact hp | exact h

theorem shallow_after {pl : Nat} : ∀ (a : List BidiClass) {s : X} {m : Nat}, Shallow s m → (∀ c ∈ a, isRemoved c = false ∧ c ≠ .ParagraphSeparator) →
    m + 2 * a.countP isInitiator ≤ 125 → Shallow (after pl s a) (m + 2 * a.countP isInitiator)
  | [], s, m, h, _, _ => by simpa [after] using h
  | c :: a, s, m, h, hc, hm => by
    have h0 := hc c (by simp)
    rw [List.countP_cons] at hm ⊢
    have h1 := shallow_step (pl := pl) h h0.1 h0.2 (fun hi => by rw [if_pos hi] at hm; omega)
    have h2 := shallow_after (pl := pl) a h1 (fun c hc' => hc c (by simp [hc'])) (by split at hm <;> simp_all <;> omega)
    change Shallow (after pl (s.step pl c).1 a) _
    convert h2 using 1
    split <;> simp_all <;> omega

/-! ## BD9, BD13, X10 -/

theorem matching_through {x : List BidiClass} (hx : Balanced x) {i : BidiClass} (hi : isInitiator i = true) (r : List BidiClass) : ∀ (a : List BidiClass) (d : Nat), 1 ≤ d →
    matchingPdi d (a ++ i :: (x ++ r)) = (matchingPdi d (a ++ i :: r)).map (fun m => if m ≤ a.length then m else m + x.length)
  | [], d, hd => by
    obtain ⟨d, rfl⟩ : ∃ k, d = k + 1 := ⟨d - 1, by omega⟩
    simp only [List.nil_append, matchingPdi, if_pos hi]
    rw [matching_balanced hx, Option.map_map, Option.map_map]
    congr 1
    funext m
    simp
    omega
  | c :: a, d, hd => by
    have key : ∀ e, 1 ≤ e → (matchingPdi e (a ++ i :: (x ++ r))).map (· + 1) =
        ((matchingPdi e (a ++ i :: r)).map (· + 1)).map (fun m => if m ≤ (c :: a).length then m else m + x.length) := by
      intro e he
      rw [matching_through hx hi r a e he, Option.map_map, Option.map_map]
      congr 1
      funext m
      simp only [Function.comp_apply, List.length_cons, Nat.add_le_add_iff_right]
      split <;> omega
    simp only [List.cons_append, matchingPdi]
    split
    · exact key _ (by omega)
    · split
      · split
        · simp
        · exact key _ (by omega)
      · exact key _ hd

/-- what the rules of BD9, BD13 and X10 look at -/
def look (u : Kept) : Nat × BidiClass × BidiClass := (u.level, u.cls, u.orig)

/-- `us` is `u0` with the inside `V` of an isolate put in after its initiator, which is the character `n`; the PDI is the next one. -/
structure Filled (u0 us : List Kept) (V : List Kept) (n : Nat) : Prop where
  split : ∃ (L R R0 : List Kept), us = L ++ V ++ R ∧ u0 = L ++ R0 ∧ L.length = n + 1 ∧ R.map look = R0.map look
  init : ∃ u v, u0[n]? = some u ∧ u0[n + 1]? = some v ∧ isInitiator u.orig = true ∧ v.orig = .PopDirectionalIsolate ∧ v.level = u.level ∧ ∀ w ∈ V, u.level < w.level
  bal : Balanced (V.map Kept.orig)
  nest : Nested us
  nest0 : Nested u0

section
variable {u0 us V : List Kept} {n : Nat}

/-- where the characters of `u0` are in `us` -/
def place (n : Nat) (V : List Kept) (k : Nat) : Nat := if k ≤ n then k else k + V.length

theorem place_inj {a b : Nat} (h : place n V a = place n V b) : a = b := by unfold place at h; split at h <;> split at h <;> omega
theorem place_succ {a : Nat} (h : a ≠ n) : place n V (a + 1) = place n V a + 1 := by unfold place; split <;> split <;> omega
theorem place_pred {b : Nat} (h : b ≠ n + 1) (h0 : b ≠ 0) : place n V (b - 1) = place n V b - 1 := by unfold place; split <;> split <;> omega
theorem place_zero {b : Nat} : place n V b = 0 ↔ b = 0 := by unfold place; split <;> omega
theorem place_or (y : Nat) : (∃ b, y = place n V b) ∨ (n + 1 ≤ y ∧ y < n + 1 + V.length) := by
  by_cases h : y ≤ n
  · exact .inl ⟨y, by unfold place; rw [if_pos h]⟩
  · by_cases h2 : y < n + 1 + V.length
    · exact .inr ⟨by omega, h2⟩
    · exact .inl ⟨y - V.length, by unfold place; rw [if_neg (by omega)]; omega⟩

theorem look_place (h : Filled u0 us V n) (k : Nat) : (us[place n V k]?).map look = (u0[k]?).map look := by
  obtain ⟨L, R, R0, rfl, rfl, hL, hR⟩ := h.split
  unfold place
  split
  · rw [List.append_assoc, List.getElem?_append_left (by omega), List.getElem?_append_left (by omega)]
  · rw [List.getElem?_append_right (by simp; omega), List.getElem?_append_right (by omega), ← List.getElem?_map, hR, List.getElem?_map]
    congr 2
    simp; omega

theorem len_place (h : Filled u0 us V n) (k : Nat) : place n V k < us.length ↔ k < u0.length := by
  have e := look_place h k
  constructor
  · intro hk
    by_contra hn
    rw [List.getElem?_eq_getElem hk, List.getElem?_eq_none (by omega)] at e
    simp at e
  · intro hk
    by_contra hn
    rw [List.getElem?_eq_getElem hk, List.getElem?_eq_none (by omega)] at e
    simp at e

theorem level_place (h : Filled u0 us V n) (k : Nat) : levelOf us (place n V k) = levelOf u0 k := by
  have e := congrArg (Option.map Prod.fst) (look_place h k)
  simpa [levelOf, Option.map_map, Function.comp_def, look] using e
theorem class_place (h : Filled u0 us V n) (k : Nat) : classOf us (place n V k) = classOf u0 k := by
  have e := congrArg (Option.map (fun x => x.2.1)) (look_place h k)
  rw [Option.map_map, Option.map_map] at e
  have e' : (us[place n V k]?).map Kept.cls = (u0[k]?).map Kept.cls := e
  rw [classOf, classOf, e']
theorem orig_place (h : Filled u0 us V n) (k : Nat) : (us[place n V k]?).map Kept.orig = (u0[k]?).map Kept.orig := by
  have e := congrArg (Option.map (fun x => x.2.2)) (look_place h k)
  rw [Option.map_map, Option.map_map] at e
  exact e

/-- the inside has higher levels -/
theorem level_in (h : Filled u0 us V n) {y : Nat} (h1 : n + 1 ≤ y) (h2 : y < n + 1 + V.length) : ∃ l w, levelOf u0 n = some l ∧ levelOf u0 (n + 1) = some l ∧
    levelOf us y = some w ∧ l < w := by
  obtain ⟨u, v, e1, e2, -, -, e3, e4⟩ := h.init
  obtain ⟨L, R, R0, e5, -, hL, -⟩ := h.split
  have hy : us[y]? = some (V[y - (n + 1)]'(by omega)) := by
    rw [e5, List.append_assoc, List.getElem?_append_right (by omega), List.getElem?_append_left (by omega), List.getElem?_eq_getElem (by omega)]
    simp only [hL]
  refine ⟨u.level, _, by rw [levelOf, e1]; rfl, by rw [levelOf, e2, Option.map_some, e3], by rw [levelOf, hy]; rfl, e4 _ (List.getElem_mem _)⟩

/-- BD9 -/
theorem matches_place (h : Filled u0 us V n) (a y : Nat) : Matches us (place n V a) y ↔ ∃ b, y = place n V b ∧ Matches u0 a b := by
  obtain ⟨u, v, e1, e2, hi, hp, -, -⟩ := h.init
  obtain ⟨L, R, R0, e3, e4, hL, hR⟩ := h.split
  have hLn : L[n]? = some u := by rw [e4, List.getElem?_append_left (by omega)] at e1; exact e1
  have hR' : R.map Kept.orig = R0.map Kept.orig := by
    have := congrArg (List.map fun x => x.2.2) hR
    rw [List.map_map, List.map_map] at this
    exact this
  have hLs : L = L.take n ++ [u] := by
    have : L.take (n + 1) = L := by rw [← hL, List.take_length]
    rw [List.take_add_one, hLn] at this
    exact this.symm
  -- the match, and where it is
  have key : matchingPdi 1 ((us.drop (place n V a + 1)).map Kept.orig) =
      (matchingPdi 1 ((u0.drop (a + 1)).map Kept.orig)).map (fun m => place n V (a + 1 + m) - (place n V a + 1)) := by
    by_cases ha : a < n
    · have ha' : place n V a = a := by unfold place; rw [if_pos (by omega)]
      have d1 : (us.drop (a + 1)).map Kept.orig = ((L.take n).drop (a + 1)).map Kept.orig ++ u.orig :: (V.map Kept.orig ++ R.map Kept.orig) := by
        rw [e3, hLs, List.append_assoc, List.append_assoc, List.drop_append_of_le_length (by simp; omega)]
        simp [hL]
      have d2 : (u0.drop (a + 1)).map Kept.orig = ((L.take n).drop (a + 1)).map Kept.orig ++ u.orig :: R.map Kept.orig := by
        rw [e4, hLs, List.append_assoc, List.drop_append_of_le_length (by simp; omega), hR']
        simp [hL]
      rw [ha', d1, d2, matching_through h.bal hi _ _ 1 (by omega)]
      congr 1
      funext m
      have : (((L.take n).drop (a + 1)).map Kept.orig).length = n - (a + 1) := by simp; omega
      rw [this, List.length_map]
      unfold place
      split <;> split <;> omega
    · by_cases hn : a = n
      · subst hn
        have ha' : place a V a = a := by unfold place; rw [if_pos (by omega)]
        have d1 : (us.drop (a + 1)).map Kept.orig = V.map Kept.orig ++ R.map Kept.orig := by
          rw [e3, List.append_assoc, ← hL, List.drop_left, List.map_append]
        have d2 : (u0.drop (a + 1)).map Kept.orig = R.map Kept.orig := by rw [e4, ← hL, List.drop_left, hR']
        rw [ha', d1, d2, matching_balanced h.bal 0]
        congr 1
        funext m
        rw [List.length_map]
        unfold place
        split <;> omega
      · have ha' : place n V a = a + V.length := by unfold place; rw [if_neg (by omega)]
        have d1 : (us.drop (a + V.length + 1)).map Kept.orig = (R.map Kept.orig).drop (a - n) := by
          rw [e3, show a + V.length + 1 = (L ++ V).length + (a - n) by simp; omega, List.drop_length_add_append, List.map_drop]
        have d2 : (u0.drop (a + 1)).map Kept.orig = (R.map Kept.orig).drop (a - n) := by
          rw [e4, show a + 1 = L.length + (a - n) by omega, List.drop_length_add_append, List.map_drop, hR']
        rw [ha', d1, d2]
        have : (fun m => place n V (a + 1 + m) - (a + V.length + 1)) = id := by
          funext m
          unfold place
          rw [if_neg (by omega)]
          simp
          omega
        rw [this, Option.map_id]; rfl
  have hge : ∀ m, place n V a + 1 ≤ place n V (a + 1 + m) := by intro m; unfold place; split <;> split <;> omega
  have horig := orig_place h a
  constructor
  · rintro ⟨w, w1, w2, m, m1, rfl⟩
    rw [key] at m1
    rw [w1] at horig
    cases hw : u0[a]? with
    | none => rw [hw] at horig; simp at horig
    | some w0 =>
      rw [hw] at horig
      simp only [Option.map_some, Option.some.injEq] at horig
      cases hm : matchingPdi 1 ((u0.drop (a + 1)).map Kept.orig) with
      | none => rw [hm] at m1; simp at m1
      | some m0 =>
        rw [hm] at m1
        simp only [Option.map_some, Option.some.injEq] at m1
        refine ⟨a + 1 + m0, ?_, w0, hw, by rw [← horig]; exact w2, m0, hm, rfl⟩
        have := hge m0
        omega
  · rintro ⟨b, rfl, w0, w1, w2, m, m1, rfl⟩
    rw [w1] at horig
    cases hw : us[place n V a]? with
    | none => rw [hw] at horig; simp at horig
    | some w =>
      rw [hw] at horig
      simp only [Option.map_some, Option.some.injEq] at horig
      refine ⟨w, hw, by rw [horig]; exact w2, place n V (a + 1 + m) - (place n V a + 1), by rw [key, m1]; rfl, ?_⟩
      have := hge m
      omega

theorem follows_init0 (h : Filled u0 us V n) : Follows u0 n (n + 1) := by
  obtain ⟨u, v, e1, e2, -, -, e3, -⟩ := h.init
  exact .inl ⟨rfl, by rw [levelOf, levelOf, e1, e2, Option.map_some, Option.map_some, e3]⟩

theorem matches_init0 (h : Filled u0 us V n) : Matches u0 n (n + 1) := by
  obtain ⟨u, v, e1, e2, hi, hp, -, -⟩ := h.init
  refine ⟨u, e1, hi, 0, ?_, rfl⟩
  have hlt : n + 1 < u0.length := by by_contra hn; rw [List.getElem?_eq_none (by omega)] at e2; simp at e2
  rw [List.drop_eq_getElem_cons hlt, List.map_cons]
  rw [List.getElem?_eq_getElem hlt, Option.some.injEq] at e2
  rw [e2, matchingPdi, hp]
  simp [isInitiator]

theorem follows_init (h : Filled u0 us V n) : Follows us (place n V n) (place n V (n + 1)) := by
  have e1 : place n V n = n := by unfold place; rw [if_pos (by omega)]
  have e2 : place n V (n + 1) = n + 1 + V.length := by unfold place; rw [if_neg (by omega)]
  have hlev : levelOf us (place n V n) = levelOf us (place n V (n + 1)) := by
    rw [level_place h, level_place h]
    rcases follows_init0 h with h | h
    · exact h.2
    · obtain ⟨u, v, a1, a2, -, -, a3, -⟩ := ‹Filled u0 us V n›.init
      rw [levelOf, levelOf, a1, a2, Option.map_some, Option.map_some, a3]
  by_cases hV : V = []
  · left
    refine ⟨?_, hlev⟩
    rw [e1, e2, hV]; rfl
  · have hV' := List.length_pos_iff.2 hV
    obtain ⟨l, w, l1, l2, l3, l4⟩ := level_in h (y := n + 1) (by omega) (by omega)
    obtain ⟨l', w', l1', l2', l3', l4'⟩ := level_in h (y := n + V.length) (by omega) (by omega)
    refine .inr ⟨?_, (matches_place h _ _).2 ⟨_, rfl, matches_init0 h⟩, .inr ?_⟩
    · unfold EndsRun
      rw [level_place h, e1, l1, l3]
      simp; omega
    · rw [level_place h, e2, show n + 1 + V.length - 1 = n + V.length by omega, l3', l2']
      simp; omega

theorem follows_place (h : Filled u0 us V n) (a b : Nat) : Follows us (place n V a) (place n V b) ↔ Follows u0 a b := by
  by_cases ha : a = n
  · subst ha
    constructor
    · intro hf
      have := place_inj (follows_unique hf (follows_init h))
      rw [this]; exact follows_init0 h
    · intro hf
      rw [follows_unique hf (follows_init0 h)]
      exact follows_init h
  · by_cases hb : b = n + 1
    · subst hb
      obtain ⟨u, v, e1, e2, -, -, e3, -⟩ := h.init
      constructor
      · rintro (⟨h1, h2⟩ | ⟨h1, h2, h3⟩)
        · exfalso; unfold place at h1
          rw [if_neg (show ¬ n + 1 ≤ n by omega)] at h1
          split at h1 <;> omega
        · exfalso
          obtain ⟨b, hb, hm⟩ := (matches_place h _ _).1 h2
          have hb := place_inj hb
          subst hb
          obtain ⟨x, y, x1, x2, x3, x4⟩ := h.nest0 _ _ hm
          have hlt : a < n := by obtain ⟨_, _, _, m, _, e⟩ := hm; omega
          rw [e2] at x2
          cases x2
          rcases x4 with x4 | x4
          · obtain ⟨w, w1, w2⟩ := x4 n hlt (by omega)
            rw [e1] at w1; cases w1; omega
          · obtain ⟨w, w1, w2⟩ := x4 (a + 1) (by omega) (by omega)
            apply h1
            rw [← place_succ ha, level_place h, level_place h, levelOf, levelOf, x1, w1, Option.map_some, Option.map_some, w2]
      · rintro (⟨h1, h2⟩ | ⟨h1, h2, h3⟩)
        · omega
        · exfalso
          rcases h3 with h3 | h3
          · omega
          · apply h3
            rw [Nat.add_sub_cancel, levelOf, levelOf, e1, e2, Option.map_some, Option.map_some, e3]
    · unfold Follows
      have c1 : (place n V b = place n V a + 1 ∧ levelOf us (place n V a) = levelOf us (place n V b)) ↔ (b = a + 1 ∧ levelOf u0 a = levelOf u0 b) := by
        rw [level_place h, level_place h, ← place_succ ha]
        exact ⟨fun x => ⟨place_inj x.1, x.2⟩, fun x => ⟨by rw [x.1], x.2⟩⟩
      have c2 : EndsRun us (place n V a) ↔ EndsRun u0 a := by
        unfold EndsRun
        rw [← place_succ ha, level_place h, level_place h]
      have c3 : StartsRun us (place n V b) ↔ StartsRun u0 b := by
        unfold StartsRun
        rw [place_zero]
        by_cases hb0 : b = 0
        · simp [hb0]
        · rw [← place_pred hb hb0, level_place h, level_place h]
      have c4 : Matches us (place n V a) (place n V b) ↔ Matches u0 a b := by
        rw [matches_place h]
        exact ⟨fun ⟨b', e, hm⟩ => by rw [place_inj e]; exact hm, fun hm => ⟨b, rfl, hm⟩⟩
      rw [c1, c2, c3, c4]

theorem follows_out (h : Filled u0 us V n) {a y : Nat} (hf : Follows us (place n V a) y) : ∃ b, y = place n V b := by
  rcases hf with ⟨h1, h2⟩ | ⟨_, h2, _⟩
  · by_cases ha : a = n
    · subst ha
      rcases place_or (n := a) (V := V) y with h3 | ⟨h3, h4⟩
      · exact h3
      · obtain ⟨l, w, l1, l2, l3, l4⟩ := level_in h h3 h4
        rw [level_place h, l1, l3] at h2
        simp at h2; omega
    · exact ⟨a + 1, by rw [h1, place_succ ha]⟩
  · obtain ⟨b, e, _⟩ := (matches_place h _ _).1 h2
    exact ⟨b, e⟩

theorem follows_into (h : Filled u0 us V n) {x b : Nat} (hf : Follows us x (place n V b)) : ∃ a, x = place n V a := by
  rcases place_or (n := n) (V := V) x with h3 | ⟨h3, h4⟩
  · exact h3
  · exfalso
    obtain ⟨l, w, l1, l2, l3, l4⟩ := level_in h h3 h4
    have e2 : place n V (n + 1) = n + 1 + V.length := by unfold place; rw [if_neg (by omega)]
    have hb : x < place n V b → n + 1 ≤ b := by
      intro hx
      unfold place at hx
      split at hx <;> omega
    have hpl : n + 1 ≤ b → place n V b = b + V.length := by intro hx; unfold place; rw [if_neg (by omega)]
    rcases hf with ⟨h1, h2⟩ | ⟨_, h2, _⟩
    · have h5 := hb (by omega)
      have h6 := hpl h5
      have : b = n + 1 := by omega
      subst this
      rw [level_place h, l2, l3] at h2
      simp at h2; omega
    · have hlt : x < place n V b := by obtain ⟨_, _, _, m, _, e⟩ := h2; omega
      have h5 := hb hlt
      have h6 := hpl h5
      obtain ⟨p, q, p1, p2, p3, p4⟩ := h.nest _ _ h2
      have hx : p.level = w := by rw [levelOf, p1] at l3; simpa using l3
      have hl := level_place h (n + 1)
      rw [l2, e2] at hl
      by_cases hb1 : b = n + 1
      · subst hb1
        rw [e2] at p2
        rw [levelOf, p2] at hl
        simp at hl; omega
      · rcases p4 with p4 | p4
        · obtain ⟨r, r1, r2⟩ := p4 (n + 1 + V.length) (by omega) (by omega)
          rw [levelOf, r1] at hl
          simp at hl; omega
        · obtain ⟨r, r1, r2⟩ := p4 (n + 1 + V.length) (by omega) (by omega)
          rw [levelOf, r1] at hl
          simp at hl; omega

/-- BD13 -/
theorem sequence_place (h : Filled u0 us V n) {q : List Nat} (hq : IsSequence u0 q) : IsSequence us (q.map (place n V)) := by
  obtain ⟨h1, h2, h3, h4, h5⟩ := hq
  refine ⟨by simpa using h1, ?_, ?_, ?_, ?_⟩
  · intro i hi
    obtain ⟨k, hk, rfl⟩ := List.mem_map.1 hi
    exact (len_place h k).2 (h2 k hk)
  · intro k i j hi hj
    rw [List.getElem?_map] at hi hj
    obtain ⟨a, ha, rfl⟩ := Option.map_eq_some_iff.1 hi
    obtain ⟨b, hb, rfl⟩ := Option.map_eq_some_iff.1 hj
    exact (follows_place h a b).2 (h3 k a b ha hb)
  · intro i j hj hi hf
    rw [List.head?_map] at hj
    obtain ⟨b, hb, rfl⟩ := Option.map_eq_some_iff.1 hj
    obtain ⟨a, rfl⟩ := follows_into h hf
    exact h4 a b hb ((len_place h a).1 hi) ((follows_place h a b).1 hf)
  · intro i j hi hj hf
    rw [List.getLast?_map] at hi
    obtain ⟨a, ha, rfl⟩ := Option.map_eq_some_iff.1 hi
    obtain ⟨b, rfl⟩ := follows_out h hf
    exact h5 a b ha ((len_place h b).1 hj) ((follows_place h a b).1 hf)

/-- X10 -/
theorem sos_place (h : Filled u0 us V n) {q : List Nat} (hq : IsSequence u0 q) {i : Nat} (hi : q.head? = some i) (pl : Nat) :
    sosOf pl us (place n V i) = sosOf pl u0 i := by
  have hn : i ≠ n + 1 := by
    rintro rfl
    obtain ⟨u, v, e1, -⟩ := h.init
    exact hq.2.2.2.1 n _ hi (by by_contra hn; rw [List.getElem?_eq_none (by omega)] at e1; simp at e1) (follows_init0 h)
  unfold sosOf
  rw [level_place h]
  by_cases h0 : i = 0
  · rw [if_pos h0, if_pos (place_zero.2 h0)]
  · rw [if_neg h0, if_neg (fun e => h0 (place_zero.1 e)), ← place_pred hn h0, level_place h]

theorem eos_place (h : Filled u0 us V n) {q : List Nat} (hq : IsSequence u0 q) {i : Nat} (hi : q.getLast? = some i) (pl : Nat) :
    eosOf pl us (place n V i) = eosOf pl u0 i := by
  have hn : i ≠ n := by
    rintro rfl
    obtain ⟨u, v, -, e1, -⟩ := h.init
    exact hq.2.2.2.2 _ (i + 1) hi (by by_contra hn; rw [List.getElem?_eq_none (by omega)] at e1; simp at e1) (follows_init0 h)
  unfold eosOf
  have ho : (us[place n V i]?).any (fun u => isInitiator u.orig) = (u0[i]?).any (fun u => isInitiator u.orig) := by
    have e := orig_place h i
    cases h1 : us[place n V i]? <;> cases h2 : u0[i]? <;> rw [h1, h2] at e <;> simp_all
  rw [level_place h, ho, ← place_succ hn, level_place h]

end
end Proofs.BidiIsolate
