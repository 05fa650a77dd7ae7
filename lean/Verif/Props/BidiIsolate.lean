import Verif.Proofs.BidiIsolate
import Verif.Props.BidiImplicit

/-! # C88: what is inside an isolate does not matter outside -/
namespace Props.BidiIsolate
open Model Model.Bidi Data Model.Grapheme Spec.Bidi Proofs.Bidi Props.Bidi Proofs.BidiIsolate
open Model.Ucd (bidiClass)

/-- the paragraph with `x` in the isolate from `i` to `j` -/
def fill (a : List Nat) (i : Nat) (x : List Nat) (j : Nat) (b : List Nat) : List Nat := a ++ i :: x ++ j :: b

/-- where the character `k` of the paragraph with the empty isolate is when `x` is inside: the characters up to the initiator, which comes
after `n` characters, stay in their places, and those from the PDI on follow `x`. -/
def outside (n : Nat) (x : List Nat) (k : Nat) : Nat := if k ≤ n then k else k + x.length

/-- `i` and `j` are an isolate initiator and a PDI, and the isolates in `x` are closed. -/
structure Isolate (i : Nat) (x : List Nat) (j : Nat) : Prop where
  init : isInitiator (bidiClass i) = true
  pdi : bidiClass j = .PopDirectionalIsolate
  bal : Balanced (x.map bidiClass)

theorem fill_map (a : List Nat) (i : Nat) (x : List Nat) (j : Nat) (b : List Nat) (hj : bidiClass j = .PopDirectionalIsolate) :
    (fill a i x j b).map bidiClass = a.map bidiClass ++ (bidiClass i :: x.map bidiClass ++ .PopDirectionalIsolate :: b.map bidiClass) := by
  unfold fill; simp [hj]

theorem level_same {a : List Nat} {i : Nat} {x x' : List Nat} {j : Nat} {b : List Nat} (h : Isolate i x j) (h' : Isolate i x' j) (dflt : Option Nat) :
    Props.Bidi.paraLevel dflt (fill a i x j b) = Props.Bidi.paraLevel dflt (fill a i x' j b) := by
  unfold Props.Bidi.paraLevel paragraphLevel
  rw [fill_map _ _ _ _ _ h.pdi, fill_map _ _ _ _ _ h.pdi, firstStrong_congr (w' := bidiClass i :: x'.map bidiClass ++ .PopDirectionalIsolate :: b.map bidiClass)]
  intro d
  rw [firstStrong_isolate h.init h.bal, firstStrong_isolate h.init h'.bal]

/-- the classes after X5c -/
structure Shape (a : List Nat) (i : Nat) (x : List Nat) (b : List Nat) (cs P : List BidiClass) (i1 : BidiClass) (X1 C : List BidiClass) : Prop where
  cs : cs = P ++ (i1 :: X1 ++ .PopDirectionalIsolate :: C)
  lenP : P.length = a.length
  lenX : X1.length = x.length
  bal : Balanced X1
  init : isInitiator i1 = true
  fsi : bidiClass i ≠ .FirstStrongIsolate → i1 = bidiClass i
  inits : P.map isInitiator = (a.map bidiClass).map isInitiator
  left : ∀ (k : Nat) c, a[k]? = some c → isInitiator (bidiClass c) = false → P[k]? = some (bidiClass c)
  right : ∀ (k : Nat) c, b[k]? = some c → isInitiator (bidiClass c) = false → C[k]? = some (bidiClass c)
  lenC : C.length = b.length

theorem shape {a : List Nat} {i : Nat} {x x' : List Nat} {j : Nat} {b : List Nat} (h : Isolate i x j) (h' : Isolate i x' j) :
    ∃ P C i1 i1' X1 X1', Shape a i x b (paraClasses (fill a i x j b)) P i1 X1 C ∧ Shape a i x' b (paraClasses (fill a i x' j b)) P i1' X1' C := by
  obtain ⟨P, p1, p2, p3, p4, p5⟩ := initial_split (w := bidiClass i :: x.map bidiClass ++ .PopDirectionalIsolate :: b.map bidiClass)
    (w' := bidiClass i :: x'.map bidiClass ++ .PopDirectionalIsolate :: b.map bidiClass)
    (fun d => by rw [isolateStrong_isolate h.init h.bal, isolateStrong_isolate h.init h'.bal]) (a.map bidiClass)
  have hx : ∀ y : List Nat, Balanced (y.map bidiClass) → ∃ X1, X1.length = y.length ∧ Balanced X1 ∧
      initialClasses (bidiClass i :: y.map bidiClass ++ .PopDirectionalIsolate :: b.map bidiClass) =
        resolveFsi (bidiClass i) (y.map bidiClass ++ .PopDirectionalIsolate :: b.map bidiClass) :: X1 ++ .PopDirectionalIsolate :: initialClasses (b.map bidiClass) := by
    intro y hy
    obtain ⟨X1, e1, e2, e3⟩ := initial_balanced hy (.PopDirectionalIsolate :: b.map bidiClass)
    refine ⟨X1, by rw [e1, List.length_map], e2, ?_⟩
    rw [List.cons_append, initialClasses, e3, initialClasses, (resolveFsi_init .PopDirectionalIsolate _).2 rfl]; rfl
  obtain ⟨X1, x1, x2, x3⟩ := hx x h.bal
  obtain ⟨X1', x1', x2', x3'⟩ := hx x' h'.bal
  obtain ⟨Q, q1, q2, -, -, q5⟩ := initial_split (w := []) (w' := []) (fun _ => rfl) (b.map bidiClass)
  rw [List.append_nil] at q2
  have hQ : initialClasses (b.map bidiClass) = Q := by rw [q2]; simp [initialClasses]
  rw [hQ] at x3 x3'
  have hl : ∀ (k : Nat) c, a[k]? = some c → isInitiator (bidiClass c) = false → P[k]? = some (bidiClass c) :=
    fun k c hk hc => p5 k _ (by rw [List.getElem?_map, hk]; rfl) hc
  have hr : ∀ (k : Nat) c, b[k]? = some c → isInitiator (bidiClass c) = false → Q[k]? = some (bidiClass c) :=
    fun k c hk hc => q5 k _ (by rw [List.getElem?_map, hk]; rfl) hc
  have hf : ∀ r, bidiClass i ≠ .FirstStrongIsolate → resolveFsi (bidiClass i) r = bidiClass i := by
    intro r hr; unfold resolveFsi; rw [if_neg hr]
  refine ⟨P, Q, resolveFsi (bidiClass i) (x.map bidiClass ++ .PopDirectionalIsolate :: b.map bidiClass),
    resolveFsi (bidiClass i) (x'.map bidiClass ++ .PopDirectionalIsolate :: b.map bidiClass), X1, X1', ⟨?_, by rw [p1, List.length_map], x1, x2, ?_, hf _, p4, hl, hr, by rw [q1, List.length_map]⟩,
    ⟨?_, by rw [p1, List.length_map], x1', x2', ?_, hf _, p4, hl, hr, by rw [q1, List.length_map]⟩⟩
  · rw [paraClasses, fill_map _ _ _ _ _ h.pdi, p2, x3]
  · rw [(resolveFsi_init _ _).1]; exact h.init
  · rw [paraClasses, fill_map _ _ _ _ _ h.pdi, p3, x3']
  · rw [(resolveFsi_init _ _).1]; exact h.init

/-- X1-X8 -/
theorem explicit_shape {a : List Nat} {i : Nat} {x : List Nat} {b : List Nat} {cs P : List BidiClass} {i1 : BidiClass} {X1 C : List BidiClass}
    (h : Shape a i x b cs P i1 X1 C) (pl : Nat) :
    explicit pl cs = X.run pl (X.init pl) P ++ (some ((after pl (X.init pl) P).assign i1) :: X.run pl ((after pl (X.init pl) P).step pl i1).1 X1 ++
      some ((after pl (X.init pl) P).assign .PopDirectionalIsolate) :: X.run pl (after pl (X.init pl) P) C) := by
  unfold explicit
  rw [h.cs, run_append, run_isolate h.init h.bal]

/-- overrides are L or R -/
def Plain (s : X) : Prop := ∀ e ∈ s.stack, e.override = none ∨ e.override = some .LeftToRight ∨ e.override = some .RightToLeft

theorem plain_step {s : X} (h : Plain s) (pl : Nat) (c : BidiClass) : Plain (s.step pl c).1 := by
  have he : ∀ n o, (o = none ∨ o = some .LeftToRight ∨ o = some .RightToLeft) → Plain (s.embed n o) := by
    intro n o ho
    unfold X.embed
    split
    · intro e he
      rcases List.mem_cons.1 he with rfl | he
      · exact ho
      · exact h e he
    · split <;> exact h
  have hi : ∀ n, Plain (s.isolate n) := by
    intro n
    unfold X.isolate
    split
    · intro e he
      rcases List.mem_cons.1 he with rfl | he
      · exact .inl rfl
      · exact h e he
    · exact h
  have hp : Plain s.popIsolate := by
    unfold X.popIsolate
    split
    · exact h
    · split
      · exact h
      · exact fun e he => h e ((List.dropWhile_sublist _).mem (List.mem_of_mem_tail he))
  have hq : Plain s.popEmbedding := by
    unfold X.popEmbedding
    split
    · exact h
    · split
      · exact h
      · split
        · exact fun e he => h e (List.mem_of_mem_tail he)
        · exact h
  have h0 : Plain (X.init pl) := by
    intro e he
    simp [X.init] at he
    subst he
    exact .inl rfl
  cases c <;> first | exact h | exact he _ _ (.inl rfl) | exact he _ _ (.inr (.inl rfl)) | exact he _ _ (.inr (.inr rfl)) | exact hi _ | exact hp | exact hq | exact h0

theorem plain_after {pl : Nat} : ∀ (cs : List BidiClass) {s : X}, Plain s → Plain (after pl s cs)
  | [], _, h => h
  | c :: cs, _, h => plain_after cs (plain_step h pl c)

/-- the classes with a fixed level -/
def Fixed (c : BidiClass) : Prop := c ∈ [BidiClass.LeftToRight, .RightToLeft, .ArabicLetter, .ArabicNumber]

theorem assign_fixed {s : X} (h : Plain s) {c : BidiClass} (hc : Fixed c) (pl : Nat) : ∃ l d, (s.step pl c).2 = some (l, d) ∧ Fixed d := by
  have ha : Fixed (s.assign c).2 := by
    unfold X.assign X.last
    cases hs : s.stack with
    | nil => exact hc
    | cons e st =>
      rcases h e (by rw [hs]; simp) with ho | ho | ho
      · simp only [List.headD_cons, ho]; exact hc
      · simp only [List.headD_cons, ho, Fixed]; simp
      · simp only [List.headD_cons, ho, Fixed]; simp
  refine ⟨(s.assign c).1, (s.assign c).2, ?_, ha⟩
  unfold Fixed at hc
  simp at hc
  rcases hc with rfl | rfl | rfl | rfl <;> rfl

theorem run_fixed {pl : Nat} : ∀ (cs : List BidiClass) {s : X} (k : Nat) c, Plain s → cs[k]? = some c → Fixed c →
    ∃ l d, (X.run pl s cs)[k]? = some (some (l, d)) ∧ Fixed d
  | [], _, k, c, _, h, _ => by simp at h
  | b :: cs, s, 0, c, hs, h, hc => by
    simp at h; subst h
    obtain ⟨l, d, h1, h2⟩ := assign_fixed hs hc pl
    exact ⟨l, d, by rw [X.run, h1]; rfl, h2⟩
  | b :: cs, s, k + 1, c, hs, h, hc => by
    obtain ⟨l, d, h1, h2⟩ := run_fixed (pl := pl) cs k c (plain_step hs pl b) (by simpa using h) hc
    exact ⟨l, d, by rw [X.run, List.getElem?_cons_succ]; exact h1, h2⟩

theorem fixed_init {c : BidiClass} (h : Fixed c) : isInitiator c = false ∧ c ≠ .PopDirectionalIsolate := by
  unfold Fixed at h
  simp at h
  rcases h with rfl | rfl | rfl | rfl <;> exact ⟨rfl, by simp⟩

/-- a place outside, in the explicit levels -/
theorem explicit_outside {a : List Nat} {i : Nat} {x : List Nat} {j : Nat} {b : List Nat} {cs P : List BidiClass} {i1 : BidiClass} {X1 C : List BidiClass}
    (h : Shape a i x b cs P i1 X1 C) (hi : isInitiator (bidiClass i) = true) (hj : bidiClass j = .PopDirectionalIsolate) (pl k c : Nat)
    (hk : (fill a i [] j b)[k]? = some c) (hc : Fixed (bidiClass c)) :
    ∃ y, (explicit pl cs)[outside a.length x k]? = some y ∧
      y = if k < a.length then ((X.run pl (X.init pl) P)[k]?).getD none else ((X.run pl (after pl (X.init pl) P) C)[k - a.length - 2]?).getD none := by
  have hlP : (X.run pl (X.init pl) P).length = a.length := by rw [run_length, h.lenP]
  rw [explicit_shape h]
  by_cases h1 : k < a.length
  · refine ⟨_, ?_, rfl⟩
    rw [if_pos h1, outside, if_pos (by omega), List.getElem?_append_left (by omega), List.getElem?_eq_getElem (by omega)]
    rfl
  · refine ⟨_, ?_, rfl⟩
    have hk2 : a.length + 2 ≤ k := by
      by_contra hn
      rw [fill, List.append_assoc, List.getElem?_append_right (by omega)] at hk
      have : k - a.length = 0 ∨ k - a.length = 1 := by omega
      rcases this with e | e <;> rw [e] at hk <;> simp at hk <;> subst hk
      · rw [(fixed_init hc).1] at hi; simp at hi
      · exact (fixed_init hc).2 hj
    have hlt : k < (fill a i [] j b).length := by by_contra hn; rw [List.getElem?_eq_none (by omega)] at hk; simp at hk
    have hlC : (X.run pl (after pl (X.init pl) P) C).length = b.length := by rw [run_length, h.lenC]
    have hlb : k - a.length - 2 < b.length := by simp [fill] at hlt; omega
    rw [if_neg h1, outside, if_neg (by omega), List.getElem?_append_right (by omega), hlP,
      List.getElem?_append_right (by simp [run_length, h.lenX]; omega),
      show k + x.length - a.length - (some ((after pl (X.init pl) P).assign i1) :: X.run pl ((after pl (X.init pl) P).step pl i1).1 X1).length =
        (k - a.length - 2) + 1 by simp [run_length, h.lenX]; omega,
      List.getElem?_cons_succ, List.getElem?_eq_getElem (by omega)]
    rfl

/-- **C88.** The level of a paragraph does not depend on what is inside an isolate. -/
theorem c88_paragraph (a : List Nat) (i : Nat) (x x' : List Nat) (j : Nat) (b : List Nat) (h : Isolate i x j) (h' : Isolate i x' j)
    (dflt : Option Nat) (hd : ∀ d, dflt = some d → d ≤ 125)
    (text : List Nat) (ps : List (List Nat)) (hps : IsParagraphs bidiClass text ps) (n : Nat) (hn : ps[n]? = some (fill a i x j b))
    (text' : List Nat) (ps' : List (List Nat)) (hps' : IsParagraphs bidiClass text' ps') (n' : Nat) (hn' : ps'[n']? = some (fill a i x' j b)) :
    ∃ info info' para para', bidiInfo text dflt = .ok info ∧ bidiInfo text' dflt = .ok info' ∧ info.paras[n]? = some para ∧
      info'.paras[n']? = some para' ∧ para.level = para'.level := by
  obtain ⟨info, i1, -, -, i2⟩ := c27_paragraphs text dflt hd ps hps
  obtain ⟨info', i1', -, -, i2'⟩ := c27_paragraphs text' dflt hd ps' hps'
  exact ⟨info, info', _, _, i1, i1', i2 n _ hn, i2' n' _ hn', level_same h h' dflt⟩

/-- **C88.** Letters and Arabic numbers outside an isolate get the same level whatever is inside: in two texts that have the paragraph
`a i x j b` and the paragraph `a i x' j b`, where the isolates in `x` and in `x'` are closed, for any `a` and `b`. -/
theorem c88_letters (a : List Nat) (i : Nat) (x x' : List Nat) (j : Nat) (b : List Nat) (h : Isolate i x j) (h' : Isolate i x' j)
    (dflt : Option Nat) (hd : ∀ d, dflt = some d → d ≤ 125)
    (text : List Nat) (ps : List (List Nat)) (hps : IsParagraphs bidiClass text ps) (n : Nat) (hn : ps[n]? = some (fill a i x j b))
    (text' : List Nat) (ps' : List (List Nat)) (hps' : IsParagraphs bidiClass text' ps') (n' : Nat) (hn' : ps'[n']? = some (fill a i x' j b))
    (k c : Nat) (hk : (fill a i [] j b)[k]? = some c) (hc : bidiClass c ∈ [BidiClass.LeftToRight, .RightToLeft, .ArabicLetter, .ArabicNumber]) :
    ∃ l, LevelAt text dflt ps n (outside a.length x k) l ∧ LevelAt text' dflt ps' n' (outside a.length x' k) l := by
  obtain ⟨P, C, i1, i1', X1, X1', s1, s2⟩ := shape (a := a) (b := b) h h'
  have hpl := level_same (a := a) (b := b) h h' dflt
  obtain ⟨y, y1, y2⟩ := explicit_outside s1 h.init h.pdi (Props.Bidi.paraLevel dflt (fill a i x j b)) k c hk hc
  obtain ⟨z, z1, z2⟩ := explicit_outside s2 h.init h.pdi (Props.Bidi.paraLevel dflt (fill a i x j b)) k c hk hc
  rw [← y2] at z2
  subst z2
  have h0 : Plain (X.init (Props.Bidi.paraLevel dflt (fill a i x j b))) := by
    intro e he
    simp [X.init] at he
    subst he
    exact .inl rfl
  have hf : ∃ l d, z = some (l, d) ∧ Fixed d := by
    rw [y2]
    split
    · rename_i hlt
      have hk' : a[k]? = some c := by rw [fill, List.append_assoc, List.getElem?_append_left hlt] at hk; exact hk
      obtain ⟨l, d, e, hd'⟩ := run_fixed (pl := Props.Bidi.paraLevel dflt (fill a i x j b)) P k _ h0 (s1.left k c hk' (fixed_init hc).1) hc
      exact ⟨l, d, by rw [e]; rfl, hd'⟩
    · rename_i hlt
      have hk2 : a.length + 2 ≤ k := by
        by_contra hn
        rw [fill, List.append_assoc, List.getElem?_append_right (by omega)] at hk
        have : k - a.length = 0 ∨ k - a.length = 1 := by omega
        rcases this with e | e <;> rw [e] at hk <;> simp at hk <;> subst hk
        · have := h.init; rw [(fixed_init hc).1] at this; simp at this
        · exact (fixed_init hc).2 h.pdi
      have hk' : b[k - a.length - 2]? = some c := by
        rw [fill, List.append_assoc, List.getElem?_append_right (by omega), show k - a.length = (k - a.length - 2) + 2 by omega] at hk
        simpa using hk
      obtain ⟨l, d, e, hd'⟩ := run_fixed (pl := Props.Bidi.paraLevel dflt (fill a i x j b)) C _ _ (plain_after P h0) (s1.right _ c hk' (fixed_init hc).1) hc
      exact ⟨l, d, by rw [e]; rfl, hd'⟩
  obtain ⟨l, d, rfl, hfd⟩ := hf
  refine ⟨finalLevel l d, c56_strong text dflt hd ps hps n _ hn _ l d y1 hfd, c56_strong text' dflt hd ps' hps' n' _ hn' _ l d ?_ hfd⟩
  unfold ExplicitAt
  have e : dflt.getD (paragraphLevel ((fill a i x' j b).map bidiClass)) = Props.Bidi.paraLevel dflt (fill a i x j b) := hpl.symm
  rw [e]
  exact z1

/-! ## all characters -/

theorem keep_append : ∀ (c1 : List BidiClass) (x1 : List (Option (Nat × BidiClass))) (k : Nat) (c2 : List BidiClass) (x2 : List (Option (Nat × BidiClass))),
    c1.length = x1.length → keepFrom k (c1 ++ c2) (x1 ++ x2) = keepFrom k c1 x1 ++ keepFrom (k + c1.length) c2 x2
  | [], [], k, c2, x2, _ => by simp [keepFrom]
  | c :: c1, x :: x1, k, c2, x2, h => by
    have ih := keep_append c1 x1 (k + 1) c2 x2 (by simpa using h)
    cases x with
    | none => simp only [List.cons_append, keepFrom, ih, List.length_cons]; congr 2; omega
    | some y => obtain ⟨l, d⟩ := y; simp only [List.cons_append, keepFrom, ih, List.length_cons]; congr 3; omega
  | [], _ :: _, _, _, _, h => by simp at h
  | _ :: _, [], _, _, _, h => by simp at h

theorem keep_look : ∀ (cs : List BidiClass) (xs : List (Option (Nat × BidiClass))) (k k' : Nat), (keepFrom k cs xs).map look = (keepFrom k' cs xs).map look
  | [], _, _, _ => by simp [keepFrom]
  | _ :: _, [], _, _ => by simp [keepFrom]
  | c :: cs, x :: xs, k, k' => by
    cases x with
    | none => simp only [keepFrom]; exact keep_look cs xs _ _
    | some y => obtain ⟨l, d⟩ := y; simp only [keepFrom, List.map_cons, keep_look cs xs (k + 1) (k' + 1)]; rfl

theorem step_kept {c : BidiClass} (hr : isRemoved c = false) (pl : Nat) (s : X) : ∃ l d, (s.step pl c).2 = some (l, d) := by
  cases c <;> simp [isRemoved] at hr <;> exact ⟨_, _, rfl⟩

/-- nothing is removed -/
theorem keep_plain {pl : Nat} : ∀ (cs : List BidiClass) (s : X) (k : Nat), (∀ c ∈ cs, isRemoved c = false) →
    (keepFrom k cs (X.run pl s cs)).map Kept.orig = cs ∧ ∀ (m : Nat) u, (keepFrom k cs (X.run pl s cs))[m]? = some u → u.pos = k + m
  | [], s, k, _ => by simp [keepFrom]
  | c :: cs, s, k, h => by
    obtain ⟨l, d, e⟩ := step_kept (h c (by simp)) pl s
    obtain ⟨h1, h2⟩ := keep_plain (pl := pl) cs (s.step pl c).1 (k + 1) (fun c hc => h c (by simp [hc]))
    rw [Proofs.BidiW.keep_some e]
    refine ⟨by rw [List.map_cons, h1], ?_⟩
    intro m u hu
    cases m with
    | zero => simp at hu; subst hu; rfl
    | succ m => rw [List.getElem?_cons_succ] at hu; rw [h2 m u hu]; omega

theorem pos_plain {pl : Nat} {cs : List BidiClass} (h : ∀ c ∈ cs, isRemoved c = false) {k : Nat} (hk : k < cs.length) : posOf (afterX9 pl cs) k = k := by
  obtain ⟨h1, h2⟩ := keep_plain (pl := pl) cs (X.init pl) 0 h
  have hl : (afterX9 pl cs).length = cs.length := by rw [← List.length_map (f := Kept.orig)]; exact congrArg _ h1
  have hg : (afterX9 pl cs)[k]? = some ((afterX9 pl cs)[k]'(by omega)) := List.getElem?_eq_getElem _
  have := h2 k _ hg
  rw [posOf, hg, Option.map_some, Option.getD_some, this]; omega

/-- the isolating run sequences of a plain paragraph -/
def PlainText (p : List Nat) : Prop := ∀ c ∈ p, isRemoved (bidiClass c) = false ∧ bidiClass c ≠ .NonspacingMark ∧ isSeparatorOrTerminator (bidiClass c) = false

theorem plain_classes {p : List Nat} (hplain : PlainText p) : ∀ c ∈ paraClasses p, isRemoved c = false ∧ c ≠ .NonspacingMark ∧ isSeparatorOrTerminator c = false := by
  intro c hc
  rcases mem_initial hc with hc | rfl | rfl
  · obtain ⟨x, hx, rfl⟩ := List.mem_map.1 hc; exact hplain x hx
  · simp [isRemoved, isSeparatorOrTerminator]
  · simp [isRemoved, isSeparatorOrTerminator]

theorem plain_levels (text : List Nat) (dflt : Option Nat) (hd : ∀ d, dflt = some d → d ≤ 125) (ps : List (List Nat)) (hps : IsParagraphs bidiClass text ps)
    (i : Nat) (p : List Nat) (hp : ps[i]? = some p) (hplain : PlainText p) (q : List Nat) (hq : IsSequence (paraKept dflt p) q) (first last l : Nat)
    (hfirst : q.head? = some first) (hlast : q.getLast? = some last) (hlev : levelOf (paraKept dflt p) first = some l) :
    ∀ (m : Nat) k, q[m]? = some k → ∃ c, (resolve (sosOf (Props.Bidi.paraLevel dflt p) (paraKept dflt p) first) (eosOf (Props.Bidi.paraLevel dflt p) (paraKept dflt p) last) (levelDir l)
      (q.map (classOf (paraKept dflt p))))[m]? = some c ∧ LevelAt text dflt ps i (posOf (paraKept dflt p) k) (Spec.Bidi.implicitLevel l c) := by
  obtain ⟨h1, h2⟩ := expl_at hd hps hp
  have hcs := plain_classes hplain
  have hkc : ∀ u ∈ paraKept dflt p, (u.cls = u.orig ∧ u.orig ∈ paraClasses p) ∨ u.cls = .LeftToRight ∨ u.cls = .RightToLeft := Proofs.BidiW.kept_class h1 h2
  have hcls : ∀ c ∈ q.map (classOf (paraKept dflt p)), c ≠ .NonspacingMark ∧ isSeparatorOrTerminator c = false := by
    intro c hc
    obtain ⟨j, hj, rfl⟩ := List.mem_map.1 hc
    have hjl := hq.2.1 j hj
    have e : classOf (paraKept dflt p) j = ((paraKept dflt p)[j]'hjl).cls := by
      unfold classOf
      rw [show (paraKept dflt p)[j]? = some ((paraKept dflt p)[j]'hjl) from List.getElem?_eq_getElem hjl]; rfl
    rw [e]
    rcases hkc _ (List.getElem_mem hjl) with hh | hh | hh
    · have := hcs _ hh.2
      rw [← hh.1] at this
      exact this.2
    · rw [hh]; decide
    · rw [hh]; decide
  exact c59_levels_partial text dflt hd ps hps i p hp
    (fun k c d _ hd' _ => (hcs d (List.mem_of_getElem? hd')).1)
    (fun j u c _ _ hc' hr => by rw [(hcs c (List.mem_of_getElem? hc')).1] at hr; simp at hr)
    q hq first last _ hfirst hlast hlev _ _ rfl rfl _ rfl (Proofs.BidiW.onePass_plain hcls) (.inr (by
      intro hE
      refine Proofs.BidiW.numbers_plain (fun c hc => ⟨(hcls c hc).1, ?_⟩) (List.mem_of_getLast? hE)
      intro e; have := (hcls c hc).2; rw [e] at this; simp [isSeparatorOrTerminator] at this))

theorem balanced_head {c : BidiClass} {cs : List BidiClass} (h : Balanced (c :: cs)) : c ≠ .PopDirectionalIsolate ∧ c ≠ .ParagraphSeparator := by
  generalize hx : c :: cs = x at h
  cases h with
  | nil => simp at hx
  | other c' cs' h1 h2 h3 _ => cases hx; exact ⟨h2, h3⟩
  | isolate i x y hi _ _ => cases hx; exact init_ne hi

/-- a plain paragraph with an isolate is the one with the empty isolate, filled -/
theorem filled {P C X1 : List BidiClass} {i1 : BidiClass} {pl : Nat} (hi : isInitiator i1 = true) (hX : Balanced X1)
    (hp : ∀ c ∈ P ++ (i1 :: X1 ++ .PopDirectionalIsolate :: C), isRemoved c = false) (hP : ∀ c ∈ P, c ≠ .ParagraphSeparator)
    (hC : ∀ c ∈ (P ++ (i1 :: X1 ++ .PopDirectionalIsolate :: C)).dropLast, c ≠ .ParagraphSeparator)
    (hC0 : ∀ c ∈ (P ++ (i1 :: [] ++ .PopDirectionalIsolate :: C)).dropLast, c ≠ .ParagraphSeparator)
    (hdepth : pl + 2 * (P.countP isInitiator + 1) ≤ 125) :
    ∃ V, V.length = X1.length ∧ Filled (afterX9 pl (P ++ (i1 :: [] ++ .PopDirectionalIsolate :: C))) (afterX9 pl (P ++ (i1 :: X1 ++ .PopDirectionalIsolate :: C))) V P.length := by
  have hsh : Shallow (after pl (X.init pl) P) (pl + 2 * P.countP isInitiator) := by
    refine shallow_after P ⟨rfl, rfl, ?_⟩ (fun c hc => ⟨hp c (by simp [hc]), hP c hc⟩) (by omega)
    intro e he
    simp [X.init] at he
    subst he
    exact Nat.le_refl _
  generalize hs : after pl (X.init pl) P = s at hsh
  obtain ⟨new, n1, n2, n3⟩ := step_initiator hi pl s
  have hlast := last_le hsh
  have n4 : (s.isolate new).last.level = new := by
    unfold X.isolate
    rw [if_pos ⟨by unfold maxDepth; omega, hsh.oi, hsh.oe⟩]; rfl
  have key : ∀ X1, Balanced X1 → afterX9 pl (P ++ (i1 :: X1 ++ .PopDirectionalIsolate :: C)) =
      (keepFrom 0 P (X.run pl (X.init pl) P) ++ [⟨P.length, (s.assign i1).1, (s.assign i1).2, i1⟩]) ++ keepFrom (P.length + 1) X1 (X.run pl (s.isolate new) X1) ++
        (⟨P.length + 1 + X1.length, (s.assign .PopDirectionalIsolate).1, (s.assign .PopDirectionalIsolate).2, .PopDirectionalIsolate⟩ ::
          keepFrom (P.length + 1 + X1.length + 1) C (X.run pl s C)) := by
    intro X1 hX
    unfold afterX9 explicit
    rw [run_append, hs, run_isolate hi hX, keep_append _ _ _ _ _ (run_length ..).symm, List.cons_append, List.cons_append, n3]
    rw [show some (s.assign i1) = some ((s.assign i1).1, (s.assign i1).2) from rfl, keepFrom, keep_append _ _ _ _ _ (run_length ..).symm,
      show some (s.assign .PopDirectionalIsolate) = some ((s.assign .PopDirectionalIsolate).1, (s.assign .PopDirectionalIsolate).2) from rfl, keepFrom]
    simp
  have hpP := keep_plain (pl := pl) P (X.init pl) 0 (fun c hc => hp c (by simp [hc]))
  have hpX := keep_plain (pl := pl) X1 (s.isolate new) (P.length + 1) (fun c hc => hp c (by simp [hc]))
  have hlP : (keepFrom 0 P (X.run pl (X.init pl) P)).length = P.length := by rw [← List.length_map (f := Kept.orig), hpP.1]
  have hlX : (keepFrom (P.length + 1) X1 (X.run pl (s.isolate new) X1)).length = X1.length := by rw [← List.length_map (f := Kept.orig), hpX.1]
  have k0 := key [] .nil
  have kX := key X1 hX
  have nest := Proofs.BidiW.nested_afterX9 (pl := pl) hC
  have nest0 := Proofs.BidiW.nested_afterX9 (pl := pl) hC0
  refine ⟨keepFrom (P.length + 1) X1 (X.run pl (s.isolate new) X1), hlX, ⟨⟨_, _, ⟨P.length + 1, (s.assign .PopDirectionalIsolate).1, (s.assign .PopDirectionalIsolate).2, .PopDirectionalIsolate⟩ ::
          keepFrom (P.length + 1 + 1) C (X.run pl s C), kX, ?_, by simp [hlP], ?_⟩, ?_, by rw [hpX.1]; exact hX, nest, nest0⟩⟩
  · rw [k0]; simp [keepFrom]
  · rw [List.map_cons, List.map_cons, keep_look C _ (P.length + 1 + X1.length + 1) (P.length + 1 + 1)]; rfl
  · refine ⟨⟨P.length, (s.assign i1).1, (s.assign i1).2, i1⟩, ⟨P.length + 1, (s.assign .PopDirectionalIsolate).1, (s.assign .PopDirectionalIsolate).2, .PopDirectionalIsolate⟩, ?_, ?_, hi, rfl, rfl, ?_⟩
    · rw [k0, List.append_assoc, List.append_assoc, List.getElem?_append_right (by omega), hlP]; simp
    · rw [k0, List.append_assoc, List.append_assoc, List.getElem?_append_right (by omega), hlP]; simp [keepFrom]
    · -- the first character inside has a higher level, so all have
      change ∀ w : Kept, w ∈ _ → s.last.level < w.level
      cases hX1 : X1 with
      | nil => simp [keepFrom]
      | cons c cs =>
        subst hX1
        have hm : Matches (afterX9 pl (P ++ (i1 :: (c :: cs) ++ .PopDirectionalIsolate :: C))) P.length (P.length + 1 + (cs.length + 1)) := by
          refine ⟨⟨P.length, (s.assign i1).1, (s.assign i1).2, i1⟩, ?_, hi, cs.length + 1, ?_, by omega⟩
          · rw [kX, List.append_assoc, List.append_assoc, List.getElem?_append_right (by omega), hlP]; simp
          · rw [kX, List.append_assoc, List.drop_append_of_le_length (by simp [hlP]), List.drop_of_length_le (by simp [hlP]), List.nil_append, List.map_append, hpX.1,
              matching_balanced hX 0, List.map_cons, matchingPdi]
            simp [isInitiator]
        obtain ⟨u, v, u1, u2, u3, u4⟩ := nest _ _ hm
        have hu : u.level = s.last.level := by
          rw [kX, List.append_assoc, List.append_assoc, List.getElem?_append_right (by omega), hlP] at u1
          simp at u1; rw [← u1]; rfl
        have hget : ∀ m, m < cs.length + 1 → (afterX9 pl (P ++ (i1 :: (c :: cs) ++ .PopDirectionalIsolate :: C)))[P.length + 1 + m]? =
            (keepFrom (P.length + 1) (c :: cs) (X.run pl (s.isolate new) (c :: cs)))[m]? := by
          intro m hm
          rw [kX, List.append_assoc, List.getElem?_append_right (by simp [hlP]), List.getElem?_append_left (by rw [hlX]; simp [hlP, hm])]
          congr 1
          simp [hlP]
        have h0 : ∃ w, (keepFrom (P.length + 1) (c :: cs) (X.run pl (s.isolate new) (c :: cs)))[0]? = some w ∧ w.level = new := by
          have hr := hp c (by simp)
          have hne := balanced_head hX
          have : ∃ d, ((s.isolate new).step pl c).2 = some ((s.isolate new).last.level, d) := by
            cases c <;> simp [isRemoved] at hr <;> first | exact ⟨_, rfl⟩ | exact absurd rfl hne.1 | exact absurd rfl hne.2
          obtain ⟨d, e⟩ := this
          rw [Proofs.BidiW.keep_some e]
          exact ⟨_, rfl, n4⟩
        obtain ⟨w0, w1, w2⟩ := h0
        intro w hw
        obtain ⟨m, hm1, hm2⟩ := List.getElem_of_mem hw
        have hm1' : m < cs.length + 1 := by rw [hlX] at hm1; simpa using hm1
        have hmg := hget m hm1'
        rw [List.getElem?_eq_getElem hm1, hm2] at hmg
        rcases u4 with u4 | u4
        · obtain ⟨r, r1, r2⟩ := u4 (P.length + 1 + m) (by omega) (by omega)
          rw [hmg] at r1; cases r1
          omega
        · obtain ⟨r, r1, r2⟩ := u4 (P.length + 1 + 0) (by omega) (by omega)
          rw [hget 0 (by omega), w1] at r1; cases r1
          omega

theorem outside_eq (n : Nat) (V : List Kept) (x : List Nat) (h : V.length = x.length) (k : Nat) : place n V k = outside n x k := by
  unfold place outside; rw [h]

theorem paragraphLevel_le (cs : List BidiClass) : paragraphLevel cs ≤ 1 := by
  unfold paragraphLevel levelOfStrong; split <;> omega

theorem count_of_map {α β : Type} {f : α → Bool} {g : β → Bool} : ∀ {l : List α} {l' : List β}, l.map f = l'.map g → l.countP f = l'.countP g
  | [], [], _ => rfl
  | a :: l, b :: l', h => by
    simp only [List.map_cons, List.cons.injEq] at h
    rw [List.countP_cons, List.countP_cons, h.1, count_of_map h.2]
  | [], _ :: _, h => by simp at h
  | _ :: _, [], h => by simp at h

theorem dropLast_out {P C X1 : List BidiClass} {i1 : BidiClass} (hi : i1 ≠ .ParagraphSeparator)
    (hC : ∀ c ∈ (P ++ (i1 :: X1 ++ .PopDirectionalIsolate :: C)).dropLast, c ≠ .ParagraphSeparator) :
    (∀ c ∈ P, c ≠ .ParagraphSeparator) ∧ ∀ c ∈ (P ++ (i1 :: [] ++ .PopDirectionalIsolate :: C)).dropLast, c ≠ .ParagraphSeparator := by
  have e : ∀ X1 : List BidiClass, (P ++ (i1 :: X1 ++ .PopDirectionalIsolate :: C)).dropLast = P ++ (i1 :: X1 ++ (BidiClass.PopDirectionalIsolate :: C).dropLast) := by
    intro X1
    rw [List.dropLast_append_of_ne_nil (by simp), List.dropLast_append_of_ne_nil (by simp)]
  rw [e] at hC
  rw [e]
  refine ⟨fun c hc => hC c (by simp [hc]), ?_⟩
  intro c hc
  rcases List.mem_append.1 hc with hc | hc
  · exact hC c (by simp [hc])
  · rcases List.mem_append.1 hc with hc | hc
    · simp at hc; subst hc; exact hi
    · exact hC c (List.mem_append.2 (.inr (List.mem_append.2 (.inr hc))))

/-- the two paragraphs, with `x` and with the empty isolate -/
theorem filled_text {a : List Nat} {i : Nat} {x : List Nat} {j : Nat} {b : List Nat} (h : Isolate i x j) (hfsi : bidiClass i ≠ .FirstStrongIsolate)
    {dflt : Option Nat} (hd : ∀ d, dflt = some d → d ≤ 125) (hdepth : dflt.getD 1 + 2 * (a.countP (fun c => isInitiator (bidiClass c)) + 1) ≤ 125)
    (hplain : PlainText (fill a i x j b))
    {text : List Nat} {ps : List (List Nat)} (hps : IsParagraphs bidiClass text ps) {n : Nat} (hn : ps[n]? = some (fill a i x j b)) :
    (∃ V, V.length = x.length ∧ Filled (paraKept dflt (fill a i [] j b)) (paraKept dflt (fill a i x j b)) V a.length) ∧
    (∀ c ∈ (paraClasses (fill a i [] j b)).dropLast, c ≠ .ParagraphSeparator) ∧ Props.Bidi.paraLevel dflt (fill a i [] j b) ≤ 126 := by
  have h0 : Isolate i [] j := ⟨h.init, h.pdi, .nil⟩
  obtain ⟨P, C, i1, i1', X1, X1', s1, s2⟩ := shape (a := a) (b := b) h h0
  have e1 := s1.fsi hfsi
  have e2 := s2.fsi hfsi
  have e3 : X1' = [] := by simpa using s2.lenX
  subst e3
  rw [e1] at s1
  rw [e2] at s2
  obtain ⟨g1, g2⟩ := expl_at hd hps hn
  have g2 : ∀ c ∈ (paraClasses (fill a i x j b)).dropLast, c ≠ .ParagraphSeparator := g2
  have hpl := level_same (a := a) (b := b) h h0 dflt
  have hle : Props.Bidi.paraLevel dflt (fill a i x j b) ≤ dflt.getD 1 := by
    unfold Props.Bidi.paraLevel
    cases dflt with
    | none => exact paragraphLevel_le _
    | some d => exact Nat.le_refl _
  have hcs := plain_classes hplain
  rw [s1.cs] at g2 hcs
  obtain ⟨d1, d2⟩ := dropLast_out (init_ne h.init).2 g2
  have hcount : P.countP isInitiator = a.countP (fun c => isInitiator (bidiClass c)) :=
    count_of_map (s1.inits.trans (List.map_map ..))
  obtain ⟨V, v1, v2⟩ := filled (pl := Props.Bidi.paraLevel dflt (fill a i x j b)) h.init s1.bal (fun c hc => (hcs c hc).1) d1 g2 d2 (by rw [hcount]; omega)
  refine ⟨⟨V, v1.trans s1.lenX, ?_⟩, by rw [s2.cs]; exact d2, by rw [← hpl]; exact g1⟩
  rw [paraKept, paraKept, ← hpl, s1.cs, s2.cs, ← s1.lenP]
  exact v2

/-- one side of `c88_all_partial` -/
theorem side {a : List Nat} {i : Nat} {x : List Nat} {j : Nat} {b : List Nat} (h : Isolate i x j) (hfsi : bidiClass i ≠ .FirstStrongIsolate)
    {dflt : Option Nat} (hd : ∀ d, dflt = some d → d ≤ 125) (hdepth : dflt.getD 1 + 2 * (a.countP (fun c => isInitiator (bidiClass c)) + 1) ≤ 125)
    (hplain : PlainText (fill a i x j b))
    {text : List Nat} {ps : List (List Nat)} (hps : IsParagraphs bidiClass text ps) {n : Nat} (hn : ps[n]? = some (fill a i x j b))
    {q : List Nat} {m k first last l0 : Nat} (hk : k < a.length + 2 + b.length) (hq : IsSequence (paraKept dflt (fill a i [] j b)) q) (hm : q[m]? = some k)
    (hf : q.head? = some first) (hl : q.getLast? = some last) (hlev : levelOf (paraKept dflt (fill a i [] j b)) first = some l0) :
    ∃ c, (resolve (sosOf (Props.Bidi.paraLevel dflt (fill a i [] j b)) (paraKept dflt (fill a i [] j b)) first)
        (eosOf (Props.Bidi.paraLevel dflt (fill a i [] j b)) (paraKept dflt (fill a i [] j b)) last) (levelDir l0) (q.map (classOf (paraKept dflt (fill a i [] j b)))))[m]? = some c ∧
      LevelAt text dflt ps n (outside a.length x k) (Spec.Bidi.implicitLevel l0 c) := by
  obtain ⟨⟨V, v1, v2⟩, -, -⟩ := filled_text h hfsi hd hdepth hplain hps hn
  obtain ⟨c, c1, c2⟩ := plain_levels text dflt hd ps hps n _ hn hplain (q.map (place a.length V)) (sequence_place v2 hq) (place a.length V first) (place a.length V last) l0
    (by rw [List.head?_map, hf]; rfl) (by rw [List.getLast?_map, hl]; rfl) (by rw [level_place v2]; exact hlev) m (place a.length V k)
    (by rw [List.getElem?_map, hm]; rfl)
  have h0 : Isolate i [] j := ⟨h.init, h.pdi, .nil⟩
  have hpl := level_same (a := a) (b := b) h h0 dflt
  rw [sos_place v2 hq hf, eos_place v2 hq hl, List.map_map, show classOf (paraKept dflt (fill a i x j b)) ∘ place a.length V = classOf (paraKept dflt (fill a i [] j b)) from
    funext (class_place v2), hpl] at c1
  refine ⟨c, c1, ?_⟩
  have hlen : (paraClasses (fill a i x j b)).length = a.length + 2 + b.length + x.length := by
    unfold paraClasses; rw [initialClasses_length, List.length_map, fill]; simp; omega
  have hpos : posOf (paraKept dflt (fill a i x j b)) (place a.length V k) = place a.length V k :=
    pos_plain (fun c hc => (plain_classes hplain c hc).1) (by unfold place; split <;> omega)
  rw [hpos, outside_eq _ _ _ v1] at c2
  exact c2

/-- **C88, in part.** All characters outside an isolate, its initiator and its PDI too, get the same level whatever is inside, in paragraphs
without embeddings, overrides, boundary neutrals, marks, number separators and terminators, as long as the isolate is not nested too deep
(at most 61 isolates begin before it, or accordingly fewer if the default level is more than 1). (Missing: the other paragraphs, for which the claim
is false, see `c88_false`, `c88_depth_false`; FSI, for which see `c88_letters`.) -/
theorem c88_all_partial (a : List Nat) (i : Nat) (x x' : List Nat) (j : Nat) (b : List Nat) (h : Isolate i x j) (h' : Isolate i x' j)
    (hfsi : bidiClass i ≠ .FirstStrongIsolate) (dflt : Option Nat) (hd : ∀ d, dflt = some d → d ≤ 125)
    (hdepth : dflt.getD 1 + 2 * (a.countP (fun c => isInitiator (bidiClass c)) + 1) ≤ 125)
    (hplain : PlainText (fill a i x j b)) (hplain' : PlainText (fill a i x' j b))
    (text : List Nat) (ps : List (List Nat)) (hps : IsParagraphs bidiClass text ps) (n : Nat) (hn : ps[n]? = some (fill a i x j b))
    (text' : List Nat) (ps' : List (List Nat)) (hps' : IsParagraphs bidiClass text' ps') (n' : Nat) (hn' : ps'[n']? = some (fill a i x' j b))
    (k : Nat) (hk : k < a.length + 2 + b.length) :
    ∃ l, LevelAt text dflt ps n (outside a.length x k) l ∧ LevelAt text' dflt ps' n' (outside a.length x' k) l := by
  obtain ⟨⟨V, v1, v2⟩, hB, hpl⟩ := filled_text h hfsi hd hdepth hplain hps hn
  have hplain0 : PlainText (fill a i [] j b) := by
    intro c hc
    refine hplain c ?_
    simp only [fill, List.mem_append, List.mem_cons, List.not_mem_nil, or_false] at hc ⊢
    rcases hc with (hc | hc) | hc
    · exact .inl (.inl hc)
    · exact .inl (.inr (.inl hc))
    · exact .inr hc
  have hlen : (paraKept dflt (fill a i [] j b)).length = a.length + 2 + b.length := by
    have := (keep_plain (pl := Props.Bidi.paraLevel dflt (fill a i [] j b)) (paraClasses (fill a i [] j b)) (X.init (Props.Bidi.paraLevel dflt (fill a i [] j b))) 0
      (fun c hc => (plain_classes hplain0 c hc).1)).1
    have := congrArg List.length this
    rw [List.length_map] at this
    refine this.trans ?_
    unfold paraClasses; rw [initialClasses_length, List.length_map, fill]; simp; omega
  obtain ⟨q, hq, hkq⟩ := c59_covered _ hpl _ hB k (by change k < (paraKept dflt (fill a i [] j b)).length; omega)
  have hq : IsSequence (paraKept dflt (fill a i [] j b)) q := hq
  obtain ⟨m, hm, hmk⟩ := List.getElem_of_mem hkq
  obtain ⟨first, hf⟩ : ∃ x, q.head? = some x := ⟨_, List.head?_eq_some_head hq.1⟩
  obtain ⟨last, hl⟩ : ∃ x, q.getLast? = some x := ⟨_, List.getLast?_eq_some_getLast hq.1⟩
  have hfl := hq.2.1 first (List.mem_of_mem_head? hf)
  have hlev : levelOf (paraKept dflt (fill a i [] j b)) first = some ((paraKept dflt (fill a i [] j b))[first]'hfl).level := Proofs.BidiW.levelOf_eq (List.getElem?_eq_getElem hfl)
  have hmk' : q[m]? = some k := by rw [List.getElem?_eq_getElem hm, hmk]
  obtain ⟨c, c1, c2⟩ := side h hfsi hd hdepth hplain hps hn hk hq hmk' hf hl hlev
  obtain ⟨c', c1', c2'⟩ := side h' hfsi hd hdepth hplain' hps' hn' hk hq hmk' hf hl hlev
  rw [c1] at c1'
  cases c1'
  exact ⟨_, c2, c2'⟩

/-! ## the limits -/

theorem levelAt_unique {text : List Nat} {dflt : Option Nat} {ps : List (List Nat)} {i k l l' : Nat} (h : LevelAt text dflt ps i k l) (h' : LevelAt text dflt ps i k l') : l = l' := by
  obtain ⟨info, p, h1, h2, h3⟩ := h
  obtain ⟨info', p', h1', h2', h3'⟩ := h'
  rw [h1] at h1'; cases h1'
  rw [h2] at h2'; cases h2'
  rw [h3] at h3'; cases h3'
  rfl

/-- The full claim is false: a soft hyphen inside an isolate changes the level of the PDI. -/
theorem c88_false : Isolate 0x2067 [0xAD, 0x5D0] 0x2069 ∧ Isolate 0x2067 [0x5D0] 0x2069 ∧
    ¬ ∃ l, LevelAt (fill [0x61] 0x2067 [0xAD, 0x5D0] 0x2069 [0x5D0]) none [fill [0x61] 0x2067 [0xAD, 0x5D0] 0x2069 [0x5D0]] 0 (outside 1 [0xAD, 0x5D0] 2) l ∧
      LevelAt (fill [0x61] 0x2067 [0x5D0] 0x2069 [0x5D0]) none [fill [0x61] 0x2067 [0x5D0] 0x2069 [0x5D0]] 0 (outside 1 [0x5D0] 2) l := by
  have hs := sample_ok (text := [0x2067, 0xAD, 0x5D0, 0x2069]) (by decide)
  have e1 : bidiClass 0x2067 = .RightToLeftIsolate := hs 0x2067 (by decide)
  have e2 : bidiClass 0xAD = .BoundaryNeutral := hs 0xAD (by decide)
  have e3 : bidiClass 0x5D0 = .RightToLeft := hs 0x5D0 (by decide)
  have e4 : bidiClass 0x2069 = .PopDirectionalIsolate := hs 0x2069 (by decide)
  refine ⟨⟨by rw [e1]; rfl, e4, ?_⟩, ⟨by rw [e1]; rfl, e4, ?_⟩, ?_⟩
  · simp only [List.map_cons, List.map_nil, e2, e3]
    exact .other _ _ rfl (by simp) (by simp) (.other _ _ rfl (by simp) (by simp) .nil)
  · simp only [List.map_cons, List.map_nil, e3]
    exact .other _ _ rfl (by simp) (by simp) .nil
  · rintro ⟨l, h1, h2⟩
    have h1 := levelAt_unique h1 (level_sample (by decide) _ 1 (by decide +kernel))
    have h2 := levelAt_unique h2 (level_sample (by decide) _ 0 (by decide +kernel))
    omega

/-- ... and so it is where levels overflow (as in the annex): at the default level 125 no isolate is opened, and what is inside takes part. -/
theorem c88_depth_false : Isolate 0x2067 [0x61] 0x2069 ∧ Isolate 0x2067 [0x5D0] 0x2069 ∧
    ¬ ∃ l, LevelAt (fill [0x61] 0x2067 [0x61] 0x2069 [0x61]) (some 125) [fill [0x61] 0x2067 [0x61] 0x2069 [0x61]] 0 (outside 1 [0x61] 2) l ∧
      LevelAt (fill [0x61] 0x2067 [0x5D0] 0x2069 [0x61]) (some 125) [fill [0x61] 0x2067 [0x5D0] 0x2069 [0x61]] 0 (outside 1 [0x5D0] 2) l := by
  have hs := sample_ok (text := [0x2067, 0x61, 0x5D0, 0x2069]) (by decide)
  have e1 : bidiClass 0x2067 = .RightToLeftIsolate := hs 0x2067 (by decide)
  have e2 : bidiClass 0x61 = .LeftToRight := hs 0x61 (by decide)
  have e3 : bidiClass 0x5D0 = .RightToLeft := hs 0x5D0 (by decide)
  have e4 : bidiClass 0x2069 = .PopDirectionalIsolate := hs 0x2069 (by decide)
  refine ⟨⟨by rw [e1]; rfl, e4, ?_⟩, ⟨by rw [e1]; rfl, e4, ?_⟩, ?_⟩
  · simp only [List.map_cons, List.map_nil, e2]
    exact .other _ _ rfl (by simp) (by simp) .nil
  · simp only [List.map_cons, List.map_nil, e3]
    exact .other _ _ rfl (by simp) (by simp) .nil
  · rintro ⟨l, h1, h2⟩
    have h1 := levelAt_unique h1 (level_sample (by decide) _ 126 (by decide +kernel))
    have h2 := levelAt_unique h2 (level_sample (by decide) _ 125 (by decide +kernel))
    omega

/-- Non-vacuity: a nested isolate with letters of both directions inside, next to a space. -/
example : Isolate 0x2067 [0x61, 0x2067, 0x5D0, 0x2069, 0x5D0] 0x2069 ∧ Isolate 0x2067 [] 0x2069 ∧ bidiClass 0x2067 ≠ .FirstStrongIsolate ∧
    PlainText (fill [0x61, 0x20] 0x2067 [0x61, 0x2067, 0x5D0, 0x2069, 0x5D0] 0x2069 [0x20, 0x5D0]) := by
  have hs := sample_ok (text := [0x61, 0x20, 0x2067, 0x5D0, 0x2069]) (by decide)
  have e0 : bidiClass 0x61 = .LeftToRight := hs 0x61 (by decide)
  have e1 : bidiClass 0x2067 = .RightToLeftIsolate := hs 0x2067 (by decide)
  have e2 : bidiClass 0x20 = .WhiteSpace := hs 0x20 (by decide)
  have e3 : bidiClass 0x5D0 = .RightToLeft := hs 0x5D0 (by decide)
  have e4 : bidiClass 0x2069 = .PopDirectionalIsolate := hs 0x2069 (by decide)
  refine ⟨⟨by rw [e1]; rfl, e4, ?_⟩, ⟨by rw [e1]; rfl, e4, .nil⟩, by rw [e1]; simp, ?_⟩
  · simp only [List.map_cons, List.map_nil, e0, e1, e3, e4]
    exact .other _ _ rfl (by simp) (by simp) (.isolate _ [.RightToLeft] [.RightToLeft] rfl (.other _ _ rfl (by simp) (by simp) .nil) (.other _ _ rfl (by simp) (by simp) .nil))
  · intro c hc
    simp [fill] at hc
    rcases hc with rfl | rfl | rfl | rfl | rfl | rfl | rfl | rfl | rfl | rfl | rfl <;> simp only [e0, e1, e2, e3, e4] <;> decide

end Props.BidiIsolate
