import Verif.Proofs.BidiLtr

/-! # Texts without left-to-right characters and numbers -/
namespace Proofs.Bidi
open Model Model.Bidi Data Proofs.Punycode Model.Grapheme Proofs.Grapheme Spec.Bidi

/-- no letter from left to right and no number -/
def firm : BC → Bool
  | .LeftToRight | .EuropeanNumber | .ArabicNumber => false
  | _ => true

/-- ... and no formatting character that opens anything -/
def flatRtl : BC → Bool
  | .LeftToRight | .EuropeanNumber | .ArabicNumber | .LeftToRightEmbedding | .LeftToRightOverride | .LeftToRightIsolate | .FirstStrongIsolate
  | .RightToLeftEmbedding | .RightToLeftOverride | .RightToLeftIsolate => false
  | _ => true

theorem flatRtl_firm {c : BC} (h : flatRtl c = true) : firm c = true := by cases c <;> simp_all [flatRtl, firm]

theorem explicitC_flatRtl {pl : Nat} : ∀ (cs : List BC), (∀ c ∈ cs, flatRtl c = true) → ∃ l, explicitC pl cs ⟨[⟨pl, .Neutral⟩], 0, 0, 0⟩ = .ok l ∧
    ∀ v ∈ l, v.1 = pl ∧ firm v.2 = true
  | [], _ => ⟨[], rfl, by simp⟩
  | c :: cs, h => by
    obtain ⟨l, h1, h2⟩ := explicitC_flatRtl (pl := pl) cs (fun d hd => h d (by simp [hd]))
    have a := h c (by simp)
    have hs : ∃ v, Explicit.step ⟨[⟨pl, .Neutral⟩], 0, 0, 0⟩ c pl c = .ok (⟨[⟨pl, .Neutral⟩], 0, 0, 0⟩, v) ∧ (v.getD (pl, c)).1 = pl ∧ firm (v.getD (pl, c)).2 = true := by
      cases c <;> simp only [flatRtl, Bool.false_eq_true] at a <;> exact ⟨_, rfl, rfl, rfl⟩
    obtain ⟨v, hv, hv2⟩ := hs
    refine ⟨v.getD (pl, c) :: l, ?_, ?_⟩
    · rw [explicitC, hv, bind_ok]
      simp only
      rw [h1]; rfl
    · intro x hx
      rcases List.mem_cons.1 hx with rfl | hx
      · exact hv2
      · exact h2 x hx

theorem explicitL_flatRtl {pl : Nat} {cs : List BC} (h : ∀ c ∈ cs, flatRtl c = true) : ∀ v ∈ explicitL pl cs, v.1 = pl ∧ firm v.2 = true := by
  obtain ⟨l, h1, h2⟩ := explicitC_flatRtl (pl := pl) cs h
  unfold explicitL
  rw [h1]
  exact h2

def FirmAll (xs : List BC) : Prop := ∀ (k : Nat) c, xs[k]? = some c → firm c = true

theorem FirmAll.getD {xs : List BC} (h : FirmAll xs) (k : Nat) : firm (xs.getD k .OtherNeutral) = true := by
  rw [List.getD_eq_getElem?_getD]
  cases hk : xs[k]? with
  | none => rfl
  | some c => exact h k c hk

theorem FirmAll.set {xs : List BC} (h : FirmAll xs) (j : Nat) {c : BC} (hc : firm c = true) : FirmAll (xs.set j c) := by
  intro k d hd
  rw [List.getElem?_set] at hd
  split_ifs at hd with h1 h2
  · simp at hd; subst hd; exact hc
  · exact h k d hd

theorem FirmAll.setAll {xs : List BC} (h : FirmAll xs) (js : List Nat) {c : BC} (hc : firm c = true) : FirmAll (setAll xs js c) := by
  intro k d hd
  rw [setAll_getElem?] at hd
  split_ifs at hd with h1
  · simp at hd; subst hd; exact hc
  · exact h k d hd

theorem newClass_firm {m : Nat} {c prev next : BC} (hc : firm c = true) (hp : firm prev = true) : firm (newClass m c prev next) = true := by
  have hsep : ∀ this, firm (separatorClass prev this next) = true := by
    intro this
    unfold separatorClass
    split <;> simp_all [firm]
  cases c <;> simp only [firm, Bool.false_eq_true] at hc <;> simp only [newClass]
  case EuropeanSeparator => split_ifs; exacts [hsep _, rfl]
  case CommonSeparator => split_ifs; exacts [hsep _, rfl]
  case EuropeanTerminator =>
    split_ifs with h
    · rw [h] at hp; simp [firm] at hp
    · rfl
  case NonspacingMark => unfold nsmClass; split_ifs; exacts [rfl, hp]
  all_goals rfl

theorem weakC_firm {t : List Nat} {eos : BC} : ∀ (ks : List Nat) (xs : List BC) (prev : BC) (es : List Nat), FirmAll xs → firm prev = true → FirmAll (weakC t eos ks xs prev es)
  | [], xs, _, _, h, _ => h
  | k :: ks, xs, prev, es, h, hp => by
    have hg := h.getD k
    have hx := newClass_firm (m := Utf.lenUtf8 (t.getD k 0)) (next := nextC xs eos ks) hg hp
    simp only [weakC]
    split_ifs with h1 h2 h3 h4
    · exact weakC_firm ks xs prev es h hp
    · exact weakC_firm ks _ _ _ (h.set k hx) hx
    · exact weakC_firm ks _ _ _ (h.set k hx) hx
    · rw [h4] at hg; simp [firm] at hg
    · exact weakC_firm ks _ _ _ ((h.set k hx).setAll es rfl) hx

theorem w7C_firm : ∀ (ks : List Nat) (l : Bool) (xs : List BC), FirmAll xs → FirmAll (w7C ks l xs)
  | [], _, xs, h => h
  | k :: ks, l, xs, h => by
    have hg := h.getD k
    simp only [w7C]
    split
    · rename_i e; rw [e] at hg; simp [firm] at hg
    · exact w7C_firm ks _ xs h
    · exact w7C_firm ks _ xs h
    · exact w7C_firm ks _ xs h
    · exact w7C_firm ks _ xs h

theorem neutral_firm {prev next : BC} (hp : firm prev = true) : firm (neutralClass prev next .RightToLeft) = true := by
  unfold neutralClass
  split <;> simp_all [firm]

theorem neutralC_firm {eos : BC} : ∀ (ks : List Nat) (prev : BC) (run : Option (List Nat)) (xs : List BC), FirmAll xs → firm prev = true →
    FirmAll (neutralC .RightToLeft eos ks prev run xs)
  | [], prev, none, xs, h, _ => h
  | [], prev, some run, xs, h, hp => by rw [neutralC]; exact h.setAll run (neutral_firm hp)
  | k :: ks, prev, none, xs, h, hp => by
    rw [neutralC]
    split_ifs
    · exact neutralC_firm ks prev _ xs h hp
    · exact neutralC_firm ks _ _ xs h (h.getD k)
  | k :: ks, prev, some run, xs, h, hp => by
    rw [neutralC]
    split_ifs
    · exact neutralC_firm ks prev _ xs h hp
    · exact neutralC_firm ks prev _ xs h hp
    · exact neutralC_firm ks _ _ _ (h.setAll run (neutral_firm hp)) (h.getD k)

theorem bidiClass_odd {l : Nat} (h : l % 2 = 1) : Level.bidiClass l = .RightToLeft := by
  unfold Level.bidiClass Level.isRtl
  rw [h]; rfl

theorem resolveSeqsC_firm {t : List Nat} {ls : List Nat} : ∀ (seqs : List IsoSeq) (xs : List BC),
    (∀ s ∈ seqs, s.sos = .RightToLeft ∧ ls.getD (s.runs.headD ⟨0, 0⟩).start 0 % 2 = 1) → FirmAll xs → FirmAll (resolveSeqsC t ls seqs xs)
  | [], xs, _, h => h
  | s :: seqs, xs, hs, h => by
    obtain ⟨h1, h2⟩ := hs s (by simp)
    rw [resolveSeqsC]
    refine resolveSeqsC_firm seqs _ (fun s' h' => hs s' (by simp [h'])) ?_
    unfold resolveNeutralC resolveWeakC
    beta_reduce
    rw [bidiClass_odd h2, h1]
    exact neutralC_firm _ _ _ _ (w7C_firm _ _ _ (weakC_firm _ _ _ _ h rfl)) rfl

theorem seqsC_odd {pl : Nat} {cs : List BC} {ls : List Nat} (h : cs.length = ls.length) (hpl : pl % 2 = 1) (hls : ∀ l ∈ ls, l = pl) :
    ∀ s ∈ seqsC pl cs ls, s.sos = .RightToLeft ∧ ls.getD (s.runs.headD ⟨0, 0⟩).start 0 % 2 = 1 := by
  obtain ⟨runs, seqs, h1, h2, h3, h4, h5, h6, h7⟩ := isolating_ok (pl := pl) h
  have hs : seqsC pl cs ls = seqs.map (boundsC pl cs ls) := by unfold seqsC; rw [h7]
  rw [hs]
  intro s hs
  obtain ⟨q, hq, rfl⟩ := List.mem_map.1 hs
  have a : ls.getD (q.headD ⟨0, 0⟩).start 0 = pl := by
    cases q with
    | nil => exact absurd rfl (h5 _ hq)
    | cons r q =>
      have := h6 _ hq r (by simp)
      rw [List.headD_cons, getD_of_lt (by omega)]
      exact hls _ (List.getElem_mem _)
  have b : predC pl cs ls (q.headD ⟨0, 0⟩).start = pl := by
    rcases predC_mem pl cs ls (q.headD ⟨0, 0⟩).start with e | e
    · exact e
    · exact hls _ e
  refine ⟨?_, ?_⟩
  · unfold boundsC
    simp only
    rw [a, b, Nat.max_self, bidiClass_odd hpl]
  · show ls.getD (q.headD ⟨0, 0⟩).start 0 % 2 = 1
    rw [a]; exact hpl

theorem implicitC_firm {c : BC} {l : Nat} (hc : firm c = true) (hl : l % 2 = 1) : implicitC c l = l := by
  have : Level.isRtl l = true := by unfold Level.isRtl; rw [hl]; rfl
  unfold implicitC
  rw [this]
  cases c <;> simp_all [firm]

/-- all levels of such a paragraph are its level, if that is odd -/
theorem levelsC_rtl {t : List Nat} {pl : Nat} (hpl : pl ≤ 126) (hodd : pl % 2 = 1) {cs : List BC} (hB : ∀ c ∈ cs.dropLast, c ≠ .ParagraphSeparator)
    (hc : ∀ c ∈ cs, flatRtl c = true) : ∀ x ∈ levelsC t pl cs, x = pl := by
  obtain ⟨_, hlen, _, _⟩ := explicitL_ok hpl hB
  have hE := explicitL_flatRtl (pl := pl) hc
  have hls : ∀ l ∈ (explicitL pl cs).map Prod.fst, l = pl := by
    intro l hl
    obtain ⟨v, hv, rfl⟩ := List.mem_map.1 hl
    exact (hE v hv).1
  have hm : FirmAll ((explicitL pl cs).map Prod.snd) := by
    intro k c hk
    obtain ⟨v, hv, rfl⟩ := List.mem_map.1 (List.mem_of_getElem? hk)
    exact (hE v hv).2
  have r1 := resolveSeqsC_firm (t := t) (seqsC pl cs ((explicitL pl cs).map Prod.fst)) _ (seqsC_odd (by simp [hlen]) hodd hls) hm
  unfold levelsC
  refine assignC_all rfl ?_
  intro x hx
  obtain ⟨k, hk⟩ := List.mem_iff_getElem?.1 hx
  rw [List.getElem?_zipWith] at hk
  cases ha : (resolvedC t pl cs)[k]? with
  | none => rw [ha] at hk; simp at hk
  | some r =>
    cases hb : ((explicitL pl cs).map Prod.fst)[k]? with
    | none => rw [ha, hb] at hk; simp at hk
    | some l =>
      rw [ha, hb] at hk
      simp only [Option.some.injEq] at hk
      have hl := hls l (List.mem_of_getElem? hb)
      rw [hl, implicitC_firm (r1 k r ha) hodd] at hk
      exact hk.symm

theorem textLevels_rtl {cls : Nat → BC} {dflt : Option Nat} {d : Nat} (hd : d ≤ 125) (hodd : d % 2 = 1) {text : List Nat} (hc : ∀ c ∈ text, flatRtl (cls c) = true)
    (hl : ∀ p ∈ splitParas cls text, dflt.getD (paragraphLevel (p.map cls)) = d) : ∀ l ∈ textLevels cls dflt text, l = d := by
  obtain ⟨h1, h2, _⟩ := splitParas_ok cls text
  intro l hlt
  obtain ⟨p, hp, hlp⟩ := List.mem_flatMap.1 hlt
  have hcs : ∀ c ∈ p.map cls, flatRtl c = true := by
    intro c hc'
    obtain ⟨x, hx, rfl⟩ := List.mem_map.1 hc'
    exact hc x (by rw [← h1]; exact List.mem_flatten.2 ⟨p, hp, hx⟩)
  have hB : ∀ c ∈ (p.map cls).dropLast, c ≠ BidiClass.ParagraphSeparator := by
    rw [← List.map_dropLast]
    intro c hc'
    obtain ⟨x, hx, rfl⟩ := List.mem_map.1 hc'
    exact (h2 p hp).2 x hx
  unfold paraLevels at hlp
  rw [hl p hp, initial_noFsi (fun c h e => by have := hcs c h; rw [e] at this; simp [flatRtl] at this)] at hlp
  exact levelsC_rtl (by omega) hodd hB hcs l hlp

end Proofs.Bidi
