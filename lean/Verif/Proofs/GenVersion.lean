import Verif.Model.GenVersion
import Verif.Spec.UcdNames
import Verif.Proofs.GenExclusions

/-! # Proofs about versions -/
namespace Proofs.GenVersion
open Spec Spec.UcdFile Spec.UcdNames Model Model.Regex Model.GenSource Model.GenVersion Proofs.Regex Proofs.GenSource Proofs.GenFiles Proofs.GenExclusions

/-- the first match, where none starts earlier -/
theorem first_match (r : Re) (t t' : List Nat) (b' : Bool) (cs : Caps) (ht : ∀ b, run r ⟨t, b, []⟩ some = some ⟨t', b', cs⟩) :
    ∀ (pre : List Nat) (n : Nat) (b : Bool), pre.length < n → (∀ u v, pre = u ++ v → v ≠ [] → ∀ b, run r ⟨v ++ t, b, []⟩ some = none) → (iter r n (pre ++ t) b).head? = some cs
  | [], n + 1, b, _, _ => by
    rw [List.nil_append, iter_succ, ht b]
    rfl
  | c :: pre, n + 1, b, hn, h => by
    simp only [List.length_cons] at hn
    rw [List.cons_append, iter_succ, ← List.cons_append, h [] (c :: pre) rfl (by simp)]
    exact first_match r t t' b' cs ht pre n (c == 10) (by omega) fun u v he hv => h (c :: u) v (by rw [he]; rfl) hv

theorem no_match (r : Re) : ∀ (s : List Nat) (n : Nat) (b : Bool), (∀ u v, s = u ++ v → ∀ b, run r ⟨v, b, []⟩ some = none) → iter r n s b = []
  | _, 0, _, _ => rfl
  | [], n + 1, b, h => by
    rw [iter_succ, h [] [] rfl]
  | c :: s, n + 1, b, h => by
    rw [iter_succ, h [] (c :: s) rfl]
    exact no_match r s n _ fun u v he => h (c :: u) v (by rw [he]; rfl)

/-- a match starts with the text it starts with -/
theorem lit_starts (label : String) (hl : TableText.text label ≠ []) (r : Re) (s : List Nat) (b : Bool) (h : ¬ TableText.text label <+: s) : run (.seq (lit label) r) ⟨s, b, []⟩ some = none := by
  cases hr : run (.seq (lit label) r) ⟨s, b, []⟩ some with
  | none => rfl
  | some x =>
    rw [run, lit_eq] at hr
    obtain ⟨s', h1, _⟩ := run_lit _ _ _ _ hr
    exact absurd ⟨s'.rest, h1.symm⟩ h

theorem digits_runs (nd : Nat → Bool) (i : Nat) (w t : List Nat) (b : Bool) (cs : Caps) (hw : w ≠ [] ∧ ∀ c ∈ w, 48 ≤ c ∧ c ≤ 57)
    (ht : ∀ c, t.head? = some c → ¬ (48 ≤ c ∧ c ≤ 57) ∧ (127 < c → nd c = false)) : Runs (digits nd i) ⟨w ++ t, b, cs⟩ ⟨t, false, (i, w) :: cs⟩ := by
  refine Runs.cap (Runs.plus_cls' w t b cs hw.1 (fun c hc => ?_) fun c hc => ?_)
  · have := decDigit_of (hw.2 c hc)
    exact ⟨by rw [this.1]; rfl, this.2⟩
  · obtain ⟨h1, h2⟩ := ht c hc
    rw [not_decDigit_of h1, Bool.false_or]
    by_cases h : 127 < c
    · rw [h2 h, Bool.and_false]
    · simp [h]

theorem dot_runs (t : List Nat) (cs : Caps) : Runs dot ⟨46 :: t, false, cs⟩ ⟨t, false, cs⟩ := Runs.cls (by rfl) t false cs

theorem captures_first (label : String) (hl : TableText.text label ≠ [] ∧ ∀ c ∈ TableText.text label, c ≠ 10) (r : Re) (pre rest t : List Nat) (cs : Caps) (hf : First (TableText.text label) pre rest)
    (hr : Runs r ⟨rest, false, []⟩ ⟨t, false, cs⟩) : captures (.seq (lit label) r) (pre ++ (TableText.text label ++ rest)) = some cs := by
  refine first_match _ _ t false cs ?_ pre _ true (by simp; omega) ?_
  · intro b
    refine (Runs.seq (lit_eq label ▸ runs_lit _ hl.1 hl.2 rest b []) hr) some _ rfl
  · intro u v he hv b
    exact lit_starts label hl.1 r _ b (hf u v he hv)

theorem parseDec_max {max : Nat} {s : List Nat} (h : s ≠ [] ∧ ∀ c ∈ s, 48 ≤ c ∧ c ≤ 57) (h2 : decValue s ≤ max) : unwrap (parseDec max s) = .ok (decValue s) := by
  rw [parseDec, if_neg h.1, decLoop_ok max s 0 h.2 h2]
  rfl

theorem dot_head (nd : Nat → Bool) (t : List Nat) : ∀ c, (46 :: t).head? = some c → ¬ (48 ≤ c ∧ c ≤ 57) ∧ (127 < c → nd c = false) := by
  rintro c hc
  cases hc
  exact ⟨by omega, by omega⟩

theorem unicode_version (nd : Nat → Bool) (pre a b c post : List Nat) (ha : IsDec a) (hb : IsDec b) (hc : IsDec c)
    (hpost : ∀ d, post.head? = some d → ¬ (48 ≤ d ∧ d ≤ 57) ∧ (127 < d → nd d = false))
    (hfirst : First (TableText.text "for Version ") pre (a ++ 46 :: (b ++ 46 :: (c ++ post)))) :
    unicodeVersion nd (pre ++ (TableText.text "for Version " ++ (a ++ 46 :: (b ++ 46 :: (c ++ post))))) = .ok (versionLiteral (decValue a, decValue b, decValue c)) := by
  have h := captures_first "for Version " (by decide) (cat [digits nd 1, dot, digits nd 2, dot, digits nd 3]) pre _ post [(3, c), (2, b), (1, a)] hfirst (by
    refine (digits_runs nd 1 a _ _ _ ⟨ha.1, ha.2.1⟩ (dot_head nd _)).seq ((dot_runs _ _).seq ?_)
    refine (digits_runs nd 2 b _ _ _ ⟨hb.1, hb.2.1⟩ (dot_head nd _)).seq ((dot_runs _ _).seq ?_)
    exact digits_runs nd 3 c _ _ _ ⟨hc.1, hc.2.1⟩ hpost)
  rw [unicodeVersion, versionRe, h]
  have g1 : group [(3, c), (2, b), (1, a)] 1 = .ok a := rfl
  have g2 : group [(3, c), (2, b), (1, a)] 2 = .ok b := rfl
  have g3 : group [(3, c), (2, b), (1, a)] 3 = .ok c := rfl
  simp only [unwrap, bind_ok, bind_ok', g1, g2, g3]
  have p := fun s (hs : IsDec s) => parseDec_ok hs
  simp only [unwrap] at p
  rw [p a ha, p b hb, p c hc, ← versionText_eq]
  rfl

theorem emoji_version (nd : Nat → Bool) (pre a b post : List Nat) (ha : IsDec a ∧ decValue a ≤ 255) (hb : IsDec b ∧ decValue b ≤ 255)
    (hpost : ∀ d, post.head? = some d → ¬ (48 ≤ d ∧ d ≤ 57) ∧ (127 < d → nd d = false))
    (hfirst : First (TableText.text "Unicode Emoji, Version ") pre (a ++ 46 :: (b ++ post))) :
    emojiVersion nd (pre ++ (TableText.text "Unicode Emoji, Version " ++ (a ++ 46 :: (b ++ post)))) = .ok (versionLiteral (decValue a, decValue b, 0)) := by
  have h := captures_first "Unicode Emoji, Version " (by decide) (cat [digits nd 1, dot, digits nd 2]) pre _ post [(2, b), (1, a)] hfirst (by
    refine (digits_runs nd 1 a _ _ _ ⟨ha.1.1, ha.1.2.1⟩ (dot_head nd _)).seq ((dot_runs _ _).seq ?_)
    exact digits_runs nd 2 b _ _ _ ⟨hb.1.1, hb.1.2.1⟩ hpost)
  rw [emojiVersion, emojiVersionRe, h]
  have g1 : group [(2, b), (1, a)] 1 = .ok a := rfl
  have g2 : group [(2, b), (1, a)] 2 = .ok b := rfl
  simp only [unwrap, bind_ok, bind_ok', g1, g2]
  have p := fun s (hs : IsDec s ∧ decValue s ≤ 255) => parseDec_max (max := 255) ⟨hs.1.1, hs.1.2.1⟩ hs.2
  simp only [unwrap] at p
  rw [p a ha, p b hb, ← versionText_eq]
  rfl

theorem unicode_version_panic (nd : Nat → Bool) (file : List Nat) (h : ¬ TableText.text "for Version " <:+: file) : unicodeVersion nd file = .panic := by
  have : captures (versionRe nd) file = none := by
    rw [captures, capturesIter, no_match]
    · rfl
    · rintro u v rfl b
      refine lit_starts _ (by decide) _ _ _ fun hp => h ?_
      exact hp.isInfix.trans (List.suffix_append u v).isInfix
  rw [unicodeVersion, this]
  rfl

theorem emoji_version_panic (nd : Nat → Bool) (file : List Nat) (h : ¬ TableText.text "Unicode Emoji, Version " <:+: file) : emojiVersion nd file = .panic := by
  have : captures (emojiVersionRe nd) file = none := by
    rw [captures, capturesIter, no_match]
    · rfl
    · rintro u v rfl b
      refine lit_starts _ (by decide) _ _ _ fun hp => h ?_
      exact hp.isInfix.trans (List.suffix_append u v).isInfix
  rw [emojiVersion, this]
  rfl

end Proofs.GenVersion
