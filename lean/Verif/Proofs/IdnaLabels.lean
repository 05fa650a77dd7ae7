import Verif.Proofs.IdnaErrors

/-! Processing of two names with a full stop between them, for any character data. -/
namespace Proofs.IdnaLabels
open Model Model.Idna Data Spec.Idna Proofs.Idna Proofs.Punycode

variable {u : Deps} {chk : Bool}

theorem splitDot_two (a b : List Nat) : splitDot (a ++ 0x2E :: b) = splitDot a ++ splitDot b := by
  induction a with
  | nil => simp [splitDot]
  | cons c a ih =>
    by_cases h : c = 0x2E
    · subst h; simp [splitDot, ih]
    · obtain ⟨l, ls, h1, h2⟩ := splitDot_cons a h
      rw [h2, List.cons_append, splitDot, if_neg h, ih, h1]
      rfl

theorem join_two {a b : List (List Nat)} (ha : a ≠ []) (hb : b ≠ []) : join (a ++ b) = join a ++ 0x2E :: join b := by
  induction a with
  | nil => exact absurd rfl ha
  | cons x a ih =>
    cases a with
    | nil => cases b with
      | nil => exact absurd rfl hb
      | cons y b => rfl
    | cons y a =>
      have := ih (by simp)
      simp only [List.cons_append, join] at this ⊢
      rw [this]; simp

/-! ### one label -/

theorem validate_acc (l : List Nat) (b : Bool) (f : Flags) (e : List Error) :
    validate u l b f e = (validate u l b f [] >>= fun t => .ok (e ++ t)) := by
  cases l with
  | nil => simp [validate, bind_ok]
  | cons c l =>
    unfold validate
    simp only
    split
    · simp [bind_ok]
    · split
      · simp [bind_ok]
      · split
        · simp [bind_ok]
        · cases anyV6 u f (c :: l) with
          | panic => rfl
          | ok v =>
            simp only [bind_ok]
            split
            · simp [pure_eq, bind_ok]
            · split <;> simp [pure_eq, bind_ok]

theorem validate_mono {l : List Nat} {b : Bool} {f : Flags} {t : List Error} (h : validate u l b f [] = .ok t) :
    ∃ t', validate u l true f [] = .ok t' ∧ List.Sublist t t' := by
  cases b with
  | true => exact ⟨t, h, List.Sublist.refl _⟩
  | false =>
    cases l with
    | nil => exact ⟨t, h, List.Sublist.refl _⟩
    | cons c l =>
      unfold validate at h ⊢
      simp only at h ⊢
      split at h
      · rename_i h1; rw [if_pos h1]; exact ⟨t, h, List.Sublist.refl _⟩
      · rename_i h1; rw [if_neg h1]
        split at h
        · rename_i h1; rw [if_pos h1]; exact ⟨t, h, List.Sublist.refl _⟩
        · rename_i h1; rw [if_neg h1]
          split at h
          · rename_i h1; rw [if_pos h1]; exact ⟨t, h, List.Sublist.refl _⟩
          · rename_i h1; rw [if_neg h1]
            cases hv : anyV6 u f (c :: l) with
            | panic => rw [hv] at h; exact absurd h (by intro h; cases h)
            | ok v =>
              rw [hv] at h
              simp only [bind_ok] at h ⊢
              split at h
              · rename_i h1; rw [if_pos h1]; exact ⟨t, h, List.Sublist.refl _⟩
              · rename_i h1; rw [if_neg h1]
                have ht : t = [] := by
                  simpa [passesBidi, pure_eq] using h
                subst ht
                split <;> exact ⟨_, rfl, List.nil_sublist _⟩

/-- what becomes of one label -/
def one (u : Deps) (chk : Bool) (f : Flags) (b : Bool) (l : List Nat) : Outcome (List Nat × List Error) :=
  if hasPrefix l = true then Model.Punycode.decodeToString chk (l.drop 4) >>= fun o => match o with
    | some d => validate u d b { f with transitionalProcessing := false } [] >>= fun t => .ok (d, t)
    | none => .ok ([], [.PunycodeError])
  else validate u l b f [] >>= fun t => .ok (l, t)

theorem one_mono {f : Flags} {b : Bool} {l d : List Nat} {t : List Error} (h : one u chk f b l = .ok (d, t)) :
    ∃ t', one u chk f true l = .ok (d, t') ∧ List.Sublist t t' := by
  unfold one at h ⊢
  split at h
  · rename_i hp
    rw [if_pos hp]
    rw [bind_eq_ok] at h
    obtain ⟨o, ho, h⟩ := h
    rw [ho, bind_ok]
    cases o with
    | none =>
      simp only [Outcome.ok.injEq, Prod.mk.injEq] at h ⊢
      obtain ⟨rfl, rfl⟩ := h
      exact ⟨_, ⟨rfl, rfl⟩, List.Sublist.refl _⟩
    | some d' =>
      simp only [bind_eq_ok, Outcome.ok.injEq, Prod.mk.injEq] at h ⊢
      obtain ⟨t1, h1, rfl, rfl⟩ := h
      obtain ⟨t', h2, h3⟩ := validate_mono h1
      exact ⟨t', ⟨t', h2, rfl, rfl⟩, h3⟩
  · rename_i hp
    rw [if_neg hp]
    simp only [bind_eq_ok, Outcome.ok.injEq, Prod.mk.injEq] at h ⊢
    obtain ⟨t1, h1, rfl, rfl⟩ := h
    obtain ⟨t', h2, h3⟩ := validate_mono h1
    exact ⟨t', ⟨t', h2, rfl, rfl⟩, h3⟩

/-- what becomes of the labels -/
def many (g : List Nat → Outcome (List Nat × List Error)) : List (List Nat) → Outcome (List (List Nat) × List Error)
  | [] => .ok ([], [])
  | l :: ls => g l >>= fun p => many g ls >>= fun q => .ok (p.1 :: q.1, p.2 ++ q.2)

theorem many_ok {g : List Nat → Outcome (List Nat × List Error)} : ∀ {ls : List (List Nat)} {os : List (List Nat)} {t : List Error},
    many g ls = .ok (os, t) → os.length = ls.length := by
  intro ls
  induction ls with
  | nil => intro os t h; simp only [many, Outcome.ok.injEq, Prod.mk.injEq] at h; rw [← h.1]
  | cons l ls ih =>
    intro os t h
    simp only [many, bind_eq_ok, Outcome.ok.injEq, Prod.mk.injEq] at h
    obtain ⟨p, _, ⟨q1, q2⟩, h2, rfl, rfl⟩ := h
    simp [ih h2]

theorem many_two {g : List Nat → Outcome (List Nat × List Error)} {ls ms : List (List Nat)} {as bs : List (List Nat)} {s t : List Error}
    (h1 : many g ls = .ok (as, s)) (h2 : many g ms = .ok (bs, t)) : many g (ls ++ ms) = .ok (as ++ bs, s ++ t) := by
  induction ls generalizing as s with
  | nil =>
    simp only [many, Outcome.ok.injEq, Prod.mk.injEq] at h1
    obtain ⟨rfl, rfl⟩ := h1
    simpa using h2
  | cons l ls ih =>
    simp only [many, bind_eq_ok, Outcome.ok.injEq, Prod.mk.injEq] at h1
    obtain ⟨p, hp, ⟨q1, q2⟩, hq, rfl, rfl⟩ := h1
    rw [List.cons_append, many, hp, bind_ok, ih hq, bind_ok]
    simp

theorem many_mono {g g' : List Nat → Outcome (List Nat × List Error)} (hg : ∀ l d t, g l = .ok (d, t) → ∃ t', g' l = .ok (d, t') ∧ List.Sublist t t')
    {ls : List (List Nat)} : ∀ {as : List (List Nat)} {s : List Error}, many g ls = .ok (as, s) → ∃ s', many g' ls = .ok (as, s') ∧ List.Sublist s s' := by
  induction ls with
  | nil => intro as s h; exact ⟨s, h, List.Sublist.refl _⟩
  | cons l ls ih =>
    intro as s h
    simp only [many, bind_eq_ok, Outcome.ok.injEq, Prod.mk.injEq] at h
    obtain ⟨⟨d, t⟩, hp, ⟨q1, q2⟩, hq, rfl, rfl⟩ := h
    obtain ⟨t', h1, h2⟩ := hg _ _ _ hp
    obtain ⟨s', h3, h4⟩ := ih hq
    exact ⟨t' ++ s', by rw [many, h1, bind_ok, h3, bind_ok], h2.append h4⟩

theorem bind_assoc {α β γ : Type} (x : Outcome α) (f : α → Outcome β) (g : β → Outcome γ) : (x >>= f) >>= g = x >>= fun a => f a >>= g := by
  cases x <;> rfl

theorem validateLabels_eq (f : Flags) (b : Bool) : ∀ (ls : List (List Nat)) (first : Bool) (v : List Nat) (e : List Error),
    validateLabels u chk f b ls first v e =
      (many (one u chk f b) ls >>= fun p => .ok (if p.1 = [] then v else sep first v ++ join p.1, e ++ p.2)) := by
  intro ls
  induction ls with
  | nil => intro first v e; simp [validateLabels, many, bind_ok]
  | cons l ls ih =>
    intro first v e
    rw [validateLabels]
    change (if hasPrefix l = true then (Model.Punycode.decodeToString chk (l.drop 4) >>= fun o => match o with
        | some decoded => validate u decoded b { f with transitionalProcessing := false } e >>= fun errors =>
          validateLabels u chk f b ls false (sep first v ++ decoded) errors
        | none => validateLabels u chk f b ls false (sep first v) (e ++ [.PunycodeError]))
      else validate u l b f e >>= fun errors => validateLabels u chk f b ls false (sep first v ++ l) errors) = _
    have fin : ∀ (d : List Nat) (t : List Error), validateLabels u chk f b ls false (sep first v ++ d) (e ++ t) =
        (many (one u chk f b) ls >>= fun q => Outcome.ok (d :: q.1, t ++ q.2)) >>= fun p => .ok (if p.1 = [] then v else sep first v ++ join p.1, e ++ p.2) := by
      intro d t
      rw [ih, bind_assoc]
      congr 1
      funext q
      rw [fold_sep, bind_ok]
      simp
    rw [many, bind_assoc, one]
    split
    · rw [bind_assoc]
      congr 1
      funext o
      cases o with
      | none =>
        simp only [bind_ok]
        have := fin [] [.PunycodeError]
        simpa using this
      | some d =>
        simp only
        rw [validate_acc d b _ e, bind_assoc, bind_assoc]
        congr 1
        funext t
        simp only [bind_ok]
        exact fin d t
    · rw [validate_acc l b f e, bind_assoc, bind_assoc]
      congr 1
      funext t
      simp only [bind_ok]
      exact fin l t

/-! ### is it a Bidi name -/

theorem bidiLabels_two (ls ms : List (List Nat)) : ∀ (b : Bool), bidiLabels u chk (ls ++ ms) b = bidiLabels u chk ls b >>= bidiLabels u chk ms := by
  induction ls with
  | nil => intro b; simp [bidiLabels, bind_ok]
  | cons l ls ih =>
    intro b
    simp only [List.cons_append, bidiLabels]
    split
    · rw [bind_assoc]
      congr 1
      funext o
      cases o <;> exact ih _
    · exact ih _

theorem bidiLabels_true : ∀ (ls : List (List Nat)) {b b' : Bool}, bidiLabels u chk ls b = .ok b' → bidiLabels u chk ls true = .ok true := by
  intro ls
  induction ls with
  | nil => intro b b' _; rfl
  | cons l ls ih =>
    intro b b' h
    simp only [bidiLabels] at h ⊢
    split at h
    · rename_i hp
      rw [if_pos hp]
      rw [bind_eq_ok] at h
      obtain ⟨o, ho, h⟩ := h
      rw [ho, bind_ok]
      cases o with
      | none => exact ih h
      | some d =>
        simp only [ite_self] at h ⊢
        exact ih h
    · rename_i hp
      rw [if_neg hp]
      exact ih h

/-- what the program takes the name for -/
def isBidi (u : Deps) (chk : Bool) (d n : List Nat) : Outcome Bool :=
  if (!d.any (isRtlChar u)) = true then bidiLabels u chk (splitDot n) (d.any (isRtlChar u)) else .ok (d.any (isRtlChar u))

theorem isBidi_two {d d' n n' : List Nat} {c : Nat} {b b' : Bool} (hc : isRtlChar u c = false) (h : isBidi u chk d n = .ok b) (h' : isBidi u chk d' n' = .ok b') :
    isBidi u chk (d ++ c :: d') (n ++ 0x2E :: n') = .ok (b || b') := by
  unfold isBidi at h h' ⊢
  rw [List.any_append, List.any_cons, hc, splitDot_two, bidiLabels_two]
  cases hd : d.any (isRtlChar u) <;> cases hd' : d'.any (isRtlChar u) <;> rw [hd] at h <;> rw [hd'] at h' <;>
    simp only [Bool.not_true, Bool.not_false, if_true, Bool.false_eq_true, if_false, Outcome.ok.injEq, Bool.or_self, Bool.or_true, Bool.or_false] at h h' ⊢
  · rw [h, bind_ok]
    cases b with
    | false => simpa using h'
    | true => simpa using bidiLabels_true _ h'
  · rw [← h']; simp
  · rw [← h]; simp
  · rw [← h]; simp

theorem isBidi_guess {d n : List Nat} {b : Bool} (h : isBidi u chk d n = .ok b) : b = true ↔ BidiGuess (tables u chk) d (splitDot n) := by
  have hany : d.any (isRtlChar u) = true ↔ ∃ c ∈ d, Rtl u.bidi c := by simp [isRtlChar_iff]
  unfold isBidi at h
  by_cases hc : d.any (isRtlChar u) = true
  · rw [hc] at h
    simp only [Bool.not_true, Bool.false_eq_true, if_false, Outcome.ok.injEq] at h
    exact ⟨fun _ => .inl (hany.1 hc), fun _ => h.symm⟩
  · rw [if_pos (by simpa using hc)] at h
    rw [bidiLabels_errors _ _ _ h, hany]
    rfl

/-! ### the name -/

theorem forall₂_two {α β : Type} {R : α → β → Prop} {a a' : List α} {b b' : List β} (h : List.Forall₂ R a b) (h' : List.Forall₂ R a' b') :
    List.Forall₂ R (a ++ a') (b ++ b') := by
  induction h with
  | nil => exact h'
  | cons h1 _ ih => exact .cons h1 ih

theorem zip_two {f : Nat → Mapping → List Nat} {R : Nat → Mapping → Prop} {a : List Nat} {ms : List Mapping} (h : List.Forall₂ R a ms) (a' : List Nat) (ms' : List Mapping) :
    List.zipWith f (a ++ a') (ms ++ ms') = List.zipWith f a ms ++ List.zipWith f a' ms' := by
  induction h with
  | nil => rfl
  | cons _ _ ih => simp [ih]

/-- the text after steps 1 and 2 -/
def Norm (u : Deps) (f : Flags) (d : List Nat) (ms : List Mapping) : List Nat := u.nfc (List.zipWith (replacement f.transitionalProcessing) d ms).flatten

theorem processing_ok {d : List Nat} {f : Flags} {s : List Nat} {es : List Error} (h : processing u chk d f = .ok (s, es)) :
    ∃ ms b os t, List.Forall₂ (fun c m => u.mapping c = .ok m) d ms ∧ isBidi u chk d (Norm u f d ms) = .ok b ∧
      many (one u chk f b) (splitDot (Norm u f d ms)) = .ok (os, t) ∧ os ≠ [] ∧ s = join os ∧ es = ms.filterMap (charError f.useStd3AsciiRules) ++ t := by
  unfold processing at h
  rw [bind_eq_ok] at h
  obtain ⟨⟨mapped, errors⟩, h1, h⟩ := h
  simp only at h
  obtain ⟨ms, hms⟩ := mapChars_status f d _ _ _ h1
  rw [mapChars_errors f hms] at h1
  simp only [List.nil_append, Outcome.ok.injEq, Prod.mk.injEq] at h1
  obtain ⟨rfl, rfl⟩ := h1
  obtain ⟨b, hb, hv⟩ : ∃ b, isBidi u chk d (Norm u f d ms) = .ok b ∧
      validateLabels u chk f b (splitDot (Norm u f d ms)) true [] (ms.filterMap (charError f.useStd3AsciiRules)) = .ok (s, es) := by
    unfold isBidi Norm
    split at h <;> rw [bind_eq_ok] at h
    · rename_i hc
      obtain ⟨b, hb, h⟩ := h
      exact ⟨b, by rw [if_pos hc]; exact hb, h⟩
    · rename_i hc
      obtain ⟨b, hb, h⟩ := h
      exact ⟨b, by rw [if_neg hc]; exact hb, h⟩
  rw [validateLabels_eq, bind_eq_ok] at hv
  obtain ⟨⟨os, t⟩, hm, hr⟩ := hv
  simp only [Outcome.ok.injEq, Prod.mk.injEq] at hr
  have hos : os ≠ [] := by
    intro he
    have := many_ok hm
    rw [he] at this
    exact splitDot_ne _ (List.length_eq_zero_iff.1 this.symm)
  rw [if_neg hos] at hr
  exact ⟨ms, b, os, t, hms, hb, hm, hos, by rw [← hr.1]; rfl, hr.2.symm⟩

theorem processing_of {d : List Nat} {f : Flags} {ms : List Mapping} {b : Bool} {os : List (List Nat)} {t : List Error}
    (h1 : List.Forall₂ (fun c m => u.mapping c = .ok m) d ms) (h2 : isBidi u chk d (Norm u f d ms) = .ok b)
    (h3 : many (one u chk f b) (splitDot (Norm u f d ms)) = .ok (os, t)) (h4 : os ≠ []) :
    processing u chk d f = .ok (join os, ms.filterMap (charError f.useStd3AsciiRules) ++ t) := by
  have hv : validateLabels u chk f b (splitDot (Norm u f d ms)) true [] (ms.filterMap (charError f.useStd3AsciiRules)) =
      .ok (join os, ms.filterMap (charError f.useStd3AsciiRules) ++ t) := by
    rw [validateLabels_eq, h3, bind_ok]
    simp [h4, sep]
  unfold processing
  rw [mapChars_errors f h1, bind_ok]
  simp only [List.nil_append]
  unfold isBidi Norm at h2
  unfold Norm at hv
  split at h2
  · rename_i hc; rw [if_pos hc, h2, bind_ok, hv]
  · rename_i hc; rw [if_neg hc, h2, bind_ok, hv]

/-- a character that stands for the full stop -/
structure Stop (u : Deps) (f : Flags) (c : Nat) : Prop where
  mapping : ∃ m, u.mapping c = .ok m ∧ replacement f.transitionalProcessing c m = [0x2E] ∧ charError f.useStd3AsciiRules m = none
  class_ : isRtlChar u c = false

theorem processing_two (hn : ∀ a b, u.nfc (a ++ 0x2E :: b) = u.nfc a ++ 0x2E :: u.nfc b) {f : Flags} {x y : List Nat} {c : Nat} (hc : Stop u f c)
    {sx sy : List Nat} {ex ey : List Error} (hx : processing u chk x f = .ok (sx, ex)) (hy : processing u chk y f = .ok (sy, ey)) :
    ∃ es, processing u chk (x ++ c :: y) f = .ok (sx ++ 0x2E :: sy, es) ∧ (∀ e, (ex ++ ey).count e ≤ es.count e) ∧
      ((∀ ms ms', List.Forall₂ (fun c m => u.mapping c = .ok m) x ms → List.Forall₂ (fun c m => u.mapping c = .ok m) y ms' →
        (BidiGuess (tables u chk) x (splitDot (Norm u f x ms)) ↔ BidiGuess (tables u chk) y (splitDot (Norm u f y ms')))) → es.Perm (ex ++ ey)) := by
  obtain ⟨ms, b, os, t, h1, h2, h3, h4, rfl, rfl⟩ := processing_ok hx
  obtain ⟨ms', b', os', t', h1', h2', h3', h4', rfl, rfl⟩ := processing_ok hy
  obtain ⟨m, hm, hm1, hm2⟩ := hc.mapping
  have hms := forall₂_two h1 (.cons hm h1')
  have hnorm : Norm u f (x ++ c :: y) (ms ++ m :: ms') = Norm u f x ms ++ 0x2E :: Norm u f y ms' := by
    unfold Norm
    rw [zip_two h1, List.zipWith_cons_cons, List.flatten_append, List.flatten_cons, hm1, ← hn]
    rfl
  have hb : isBidi u chk (x ++ c :: y) (Norm u f (x ++ c :: y) (ms ++ m :: ms')) = .ok (b || b') := by
    rw [hnorm]; exact isBidi_two hc.class_ h2 h2'
  have up : ∀ {b : Bool} (b₂ : Bool), (b = true → b₂ = true) → ∀ {ls os : List (List Nat)} {t : List Error}, many (one u chk f b) ls = .ok (os, t) →
      ∃ t', many (one u chk f b₂) ls = .ok (os, t') ∧ List.Sublist t t' := by
    intro b b₂ hbb ls os t h
    cases b₂ with
    | true => exact many_mono (fun l d t => one_mono) h
    | false =>
      cases b with
      | true => exact absurd (hbb rfl) (by simp)
      | false => exact ⟨t, h, List.Sublist.refl _⟩
  obtain ⟨r, hr, hsub⟩ := up (b || b') (by simp +contextual) h3
  obtain ⟨r', hr', hsub'⟩ := up (b || b') (by simp +contextual) h3'
  have hmany := many_two hr hr'
  rw [← splitDot_two, ← hnorm] at hmany
  have hp := processing_of hms hb hmany (by simp [h4])
  rw [join_two h4 h4', List.filterMap_append, List.filterMap_cons, hm2] at hp
  refine ⟨_, hp, ?_, ?_⟩
  · intro e
    have := hsub.count_le e
    have := hsub'.count_le e
    simp only [List.count_append]
    omega
  · intro hg
    have hbb : b = b' := by
      have := (isBidi_guess h2).trans ((hg ms ms' h1 h1').trans (isBidi_guess h2').symm)
      cases b <;> cases b' <;> simp_all
    subst hbb
    rw [Bool.or_self, h3] at hr
    rw [Bool.or_self, h3'] at hr'
    simp only [Outcome.ok.injEq, Prod.mk.injEq] at hr hr'
    obtain ⟨_, rfl⟩ := hr
    obtain ⟨_, rfl⟩ := hr'
    simp only [List.append_assoc]
    apply List.Perm.append_left
    rw [← List.append_assoc, ← List.append_assoc]
    exact List.Perm.append_right _ List.perm_append_comm

/-! ### what the program takes for a Bidi name can be seen -/

theorem many_mem {g : List Nat → Outcome (List Nat × List Error)} {l : List Nat} : ∀ {ls : List (List Nat)} {os : List (List Nat)} {t : List Error},
    many g ls = .ok (os, t) → l ∈ ls → ∃ d e, g l = .ok (d, e) ∧ d ∈ os ∧ ∀ x ∈ e, x ∈ t := by
  intro ls
  induction ls with
  | nil => intro os t _ h; cases h
  | cons a ls ih =>
    intro os t h hl
    simp only [many, bind_eq_ok, Outcome.ok.injEq, Prod.mk.injEq] at h
    obtain ⟨⟨d, e⟩, hp, ⟨q1, q2⟩, hq, rfl, rfl⟩ := h
    rcases List.mem_cons.1 hl with rfl | hl
    · exact ⟨d, e, hp, by simp, fun x hx => List.mem_append.2 (.inl hx)⟩
    · obtain ⟨d', e', h1, h2, h3⟩ := ih hq hl
      exact ⟨d', e', h1, List.mem_cons.2 (.inr h2), fun x hx => List.mem_append.2 (.inr (h3 x hx))⟩

theorem forall₂_fun {α β : Type} {R : α → β → Prop} (hR : ∀ a b b', R a b → R a b' → b = b') {l : List α} : ∀ {m m' : List β},
    List.Forall₂ R l m → List.Forall₂ R l m' → m = m' := by
  induction l with
  | nil => intro m m' h h'; cases h; cases h'; rfl
  | cons a l ih =>
    intro m m' h h'
    cases h with
    | cons h1 h2 =>
      cases h' with
      | cons h1' h2' => rw [hR _ _ _ h1 h1', ih h2 h2']

theorem status_fun {d : List Nat} {ms ms' : List Mapping} (h : List.Forall₂ (fun c m => u.mapping c = .ok m) d ms)
    (h' : List.Forall₂ (fun c m => u.mapping c = .ok m) d ms') : ms = ms' :=
  forall₂_fun (fun a b b' h h' => by rw [h] at h'; simpa using h') h h'

theorem guess_seen {f : Flags} {x s : List Nat} {es : List Error} {ms : List Mapping} (h : processing u chk x f = .ok (s, es))
    (hms : List.Forall₂ (fun c m => u.mapping c = .ok m) x ms) (hg : BidiGuess (tables u chk) x (splitDot (Norm u f x ms))) :
    (∃ c ∈ x, Rtl u.bidi c) ∨ Error.PunycodeError ∈ es ∨ ∃ c ∈ s, Rtl u.bidi c := by
  obtain ⟨ms', b, os, t, h1, h2, h3, h4, rfl, rfl⟩ := processing_ok h
  rw [status_fun h1 hms] at h3
  rcases hg with hg | ⟨q, hq, hg⟩
  · exact .inl hg
  · right
    obtain ⟨d, e, hd, hm, he⟩ := many_mem h3 hq
    have hp : hasPrefix (ace ++ q) = true := (hasPrefix_iff _).2 (List.prefix_append _ _)
    rw [one, if_pos hp, show (ace ++ q).drop 4 = q from rfl, bind_eq_ok] at hd
    obtain ⟨o, ho, hd⟩ := hd
    cases o with
    | none =>
      simp only [Outcome.ok.injEq, Prod.mk.injEq] at hd
      left
      exact List.mem_append.2 (.inr (he _ (by rw [← hd.2]; simp)))
    | some l =>
      simp only [bind_eq_ok, Outcome.ok.injEq, Prod.mk.injEq] at hd
      obtain ⟨_, _, rfl, _⟩ := hd
      right
      rcases hg with hg | ⟨l', hl', c, hc, hr⟩
      · exact absurd ho (hg l)
      · have : Model.Punycode.decodeToString chk q = .ok (some l') := hl'
        rw [ho] at this
        simp only [Outcome.ok.injEq, Option.some.injEq] at this
        subst this
        exact ⟨c, mem_join hm hc, hr⟩

/-! ### the ASCII form -/

/-- the ASCII form of one label -/
def asciiOne (chk : Bool) (l : List Nat) : Outcome (List Nat × List Error) :=
  if l.all (· < 0x80) then .ok (l, [])
  else Model.Punycode.encodeStr chk l >>= fun o => match o with
    | some x => .ok (PUNYCODE_PREFIX ++ x, [])
    | none => .ok ([], [.PunycodeError])

theorem asciiLabels_eq : ∀ (ls : List (List Nat)) (first : Bool) (v : List Nat) (e : List Error),
    asciiLabels chk ls first v e = (many (asciiOne chk) ls >>= fun p => .ok (if p.1 = [] then v else sep first v ++ join p.1, e ++ p.2)) := by
  intro ls
  induction ls with
  | nil => intro first v e; simp [asciiLabels, many, bind_ok]
  | cons l ls ih =>
    intro first v e
    rw [asciiLabels]
    change (if l.all (· < 0x80) = true then asciiLabels chk ls false (sep first v ++ l) e
      else Model.Punycode.encodeStr chk l >>= fun o => match o with
        | some x => asciiLabels chk ls false (sep first v ++ PUNYCODE_PREFIX ++ x) e
        | none => asciiLabels chk ls false (sep first v) (e ++ [.PunycodeError])) = _
    have fin : ∀ (d : List Nat) (t : List Error), asciiLabels chk ls false (sep first v ++ d) (e ++ t) =
        (many (asciiOne chk) ls >>= fun q => Outcome.ok (d :: q.1, t ++ q.2)) >>= fun p => .ok (if p.1 = [] then v else sep first v ++ join p.1, e ++ p.2) := by
      intro d t
      rw [ih, bind_assoc]
      congr 1
      funext q
      rw [fold_sep, bind_ok]
      simp
    rw [many, bind_assoc, asciiOne]
    split
    · simp only [bind_ok]
      have := fin l []
      simpa using this
    · rw [bind_assoc]
      congr 1
      funext o
      cases o with
      | none =>
        simp only [bind_ok]
        have := fin [] [.PunycodeError]
        simpa using this
      | some x =>
        simp only [bind_ok]
        have := fin (PUNYCODE_PREFIX ++ x) []
        simpa using this

/-- the errors in a result -/
def errs : Except (List Error) (List Nat) → List Error
  | .ok _ => []
  | .error es => es

theorem toAscii_ok {f : Flags} (hf : f.verifyDnsLength = false) {x : List Nat} {r : Except (List Error) (List Nat)} (h : toAsciiWith u chk x f = .ok r) :
    ∃ s e os t, processing u chk x f = .ok (s, e) ∧ many (asciiOne chk) (splitDot s) = .ok (os, t) ∧ os ≠ [] ∧
      r = if e ++ t = [] then .ok (join os) else .error (e ++ t) := by
  unfold toAsciiWith at h
  rw [bind_eq_ok] at h
  obtain ⟨⟨s, e⟩, h1, h⟩ := h
  simp only [bind_eq_ok] at h
  obtain ⟨⟨r', e'⟩, h2, h⟩ := h
  rw [asciiLabels_eq, bind_eq_ok] at h2
  obtain ⟨⟨os, t⟩, h3, h2⟩ := h2
  have hos : os ≠ [] := by
    intro he
    have := many_ok h3
    rw [he] at this
    exact splitDot_ne _ (List.length_eq_zero_iff.1 this.symm)
  simp only [if_neg hos, Outcome.ok.injEq, Prod.mk.injEq] at h2
  obtain ⟨rfl, rfl⟩ := h2
  refine ⟨s, e, os, t, h1, h3, hos, ?_⟩
  simp only [hf, Bool.false_eq_true, if_false, List.isEmpty_iff] at h
  split at h
  · rename_i hc
    rw [if_pos hc]
    simpa [pure_eq, sep] using h.symm
  · rename_i hc
    rw [if_neg hc]
    simpa [pure_eq] using h.symm

theorem toAscii_of {f : Flags} (hf : f.verifyDnsLength = false) {x s : List Nat} {e t : List Error} {os : List (List Nat)} (h1 : processing u chk x f = .ok (s, e))
    (h2 : many (asciiOne chk) (splitDot s) = .ok (os, t)) (h3 : os ≠ []) :
    toAsciiWith u chk x f = .ok (if e ++ t = [] then .ok (join os) else .error (e ++ t)) := by
  unfold toAsciiWith
  rw [h1, bind_ok]
  simp only
  rw [asciiLabels_eq, h2, bind_ok, bind_ok]
  simp only [hf, Bool.false_eq_true, if_false, if_neg h3, List.isEmpty_iff]
  split <;> simp [pure_eq, sep]

theorem errs_ite (e : List Error) (a : List Nat) : errs (if e = [] then .ok a else .error e) = e := by
  split
  · rename_i h; rw [h]; rfl
  · rfl

theorem toAscii_two (hn : ∀ a b, u.nfc (a ++ 0x2E :: b) = u.nfc a ++ 0x2E :: u.nfc b) {f : Flags} (hf : f.verifyDnsLength = false) {x y : List Nat} {c : Nat}
    (hc : Stop u f c) {rx ry : Except (List Error) (List Nat)} (hx : toAsciiWith u chk x f = .ok rx) (hy : toAsciiWith u chk y f = .ok ry) :
    ∃ r, toAsciiWith u chk (x ++ c :: y) f = .ok r ∧ (∀ e, (errs rx ++ errs ry).count e ≤ (errs r).count e) ∧
      (∀ a, r = .ok a → ∃ ax ay, rx = .ok ax ∧ ry = .ok ay ∧ a = ax ++ 0x2E :: ay) ∧
      ((∀ ms ms', List.Forall₂ (fun c m => u.mapping c = .ok m) x ms → List.Forall₂ (fun c m => u.mapping c = .ok m) y ms' →
        (BidiGuess (tables u chk) x (splitDot (Norm u f x ms)) ↔ BidiGuess (tables u chk) y (splitDot (Norm u f y ms')))) →
        (errs r).Perm (errs rx ++ errs ry) ∧ ∀ ax ay, rx = .ok ax → ry = .ok ay → r = .ok (ax ++ 0x2E :: ay)) := by
  obtain ⟨sx, ex, ox, tx, h1, h2, h3, rfl⟩ := toAscii_ok hf hx
  obtain ⟨sy, ey, oy, ty, h1', h2', h3', rfl⟩ := toAscii_ok hf hy
  obtain ⟨es, h4, h5, h6⟩ := processing_two hn hc h1 h1'
  have h7 := many_two h2 h2'
  rw [← splitDot_two] at h7
  have h8 := toAscii_of hf h4 h7 (by simp [h3])
  rw [join_two h3 h3'] at h8
  refine ⟨_, h8, ?_, ?_, ?_⟩
  · intro e
    simp only [errs_ite, List.count_append]
    have := h5 e
    rw [List.count_append] at this
    omega
  · intro a ha
    split at ha
    · rename_i he
      simp only [List.append_eq_nil_iff] at he
      have hz : ∀ e, (ex ++ ey).count e = 0 := by
        intro e
        have := h5 e
        rw [he.1, List.count_nil] at this
        omega
      have hnil : ex ++ ey = [] := by
        rw [List.eq_nil_iff_forall_not_mem]
        intro e hm
        exact (List.count_eq_zero.1 (hz e)) hm
      rw [List.append_eq_nil_iff] at hnil
      simp only [Except.ok.injEq] at ha
      exact ⟨_, _, if_pos (by simp [hnil.1, he.2.1]), if_pos (by simp [hnil.2, he.2.2]), ha.symm⟩
    · cases ha
  · intro hg
    have hp := h6 hg
    constructor
    · simp only [errs_ite]
      have : (es ++ (tx ++ ty)).Perm ((ex ++ ey) ++ (tx ++ ty)) := hp.append_right _
      refine this.trans ?_
      simp only [List.append_assoc]
      apply List.Perm.append_left
      rw [← List.append_assoc, ← List.append_assoc]
      exact List.Perm.append_right _ List.perm_append_comm
    · intro ax ay hax hay
      have e1 : ex ++ tx = [] ∧ join ox = ax := by
        split at hax
        · rename_i h; exact ⟨h, by simpa using hax⟩
        · cases hax
      have e2 : ey ++ ty = [] ∧ join oy = ay := by
        split at hay
        · rename_i h; exact ⟨h, by simpa using hay⟩
        · cases hay
      rw [List.append_eq_nil_iff] at e1 e2
      have : es = [] := by
        rw [e1.1.1, e2.1.1] at hp
        simpa using hp
      rw [if_pos (by simp [this, e1.1.2, e2.1.2]), e1.2, e2.2]

end Proofs.IdnaLabels
