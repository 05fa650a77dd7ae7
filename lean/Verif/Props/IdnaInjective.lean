import Verif.Props.Idna
import Verif.Proofs.IdnaLabels
import Verif.Props.Punycode

/-! # C90: names with the same ASCII form are the same name -/
namespace Props.IdnaInjective
open Model Model.Idna Data Spec.Idna Proofs.Idna Proofs.Punycode Props.Idna

/-! ### `encode` writes at least one character for every character -/

theorem encodeInt_ne {chk : Bool} {bias : Nat} : ∀ {fuel q k : Nat} {ds : List Nat}, Punycode.encodeInt chk bias fuel q k = .ok ds → 1 ≤ ds.length := by
  intro fuel q k ds h
  cases fuel with
  | zero => cases h
  | succ fuel =>
    rw [Punycode.encodeInt, bind_eq_ok] at h
    obtain ⟨t, _, h⟩ := h
    split at h
    · rw [bind_eq_ok] at h
      obtain ⟨c, _, h⟩ := h
      simp only [pure_eq, Outcome.ok.injEq] at h
      rw [← h]; simp
    · simp only [bind_eq_ok, pure_eq, Outcome.ok.injEq] at h
      obtain ⟨_, _, _, _, _, _, _, _, _, _, _, _, _, _, h⟩ := h
      rw [← h]; simp

theorem add32_le {chk : Bool} {a b c : Nat} (h : Punycode.add32 chk a b = .ok c) : c ≤ a + b := by
  unfold Punycode.add32 at h
  split at h
  · simp only [Outcome.ok.injEq] at h; omega
  · split at h
    · cases h
    · simp only [Outcome.ok.injEq] at h
      have := Nat.mod_le (a + b) (2 ^ 32)
      omega

theorem encodeScan_out {chk : Bool} {b n : Nat} : ∀ {v : List Nat} {st st' : Punycode.EncState}, Punycode.encodeScan chk b n v st = .ok (some st') →
    st.processed ≤ st.out.length → st'.processed ≤ st'.out.length := by
  intro v
  induction v with
  | nil =>
    intro st st' h hi
    simp only [Punycode.encodeScan, Outcome.ok.injEq, Option.some.injEq] at h
    rw [← h]; exact hi
  | cons c v ih =>
    intro st st' h hi
    rw [Punycode.encodeScan] at h
    have fin : ∀ d : Nat, (if c < n ∧ d = 0 then pure none
        else if c = n then do
          let digits ← Punycode.encodeInt chk st.bias (d + 1) d Punycode.BASE
          let np ← Punycode.add32 chk st.processed 1
          let bias ← Punycode.adapt chk d np (st.processed == b)
          let processed ← Punycode.add32 chk st.processed 1
          Punycode.encodeScan chk b n v ⟨0, bias, processed, st.out ++ digits⟩
        else Punycode.encodeScan chk b n v { st with delta := d } : Outcome (Option Punycode.EncState)) = .ok (some st') →
        st'.processed ≤ st'.out.length := by
      intro d h
      split at h
      · simp only [pure_eq, Outcome.ok.injEq, reduceCtorEq] at h
      · split at h
        · simp only [bind_eq_ok] at h
          obtain ⟨ds, h1, _, _, _, _, p, h2, h⟩ := h
          refine ih h ?_
          have := encodeInt_ne h1
          have := add32_le h2
          simp only [List.length_append]
          omega
        · exact ih h hi
    split at h
    · obtain ⟨d, _, h⟩ := bind_eq_ok.1 h
      exact fin d h
    · obtain ⟨d, _, h⟩ := bind_eq_ok.1 h
      exact fin d h

theorem encodeLoop_out {chk : Bool} {s : List Nat} {b len : Nat} : ∀ {fuel n : Nat} {st : Punycode.EncState} {p : List Nat},
    Punycode.encodeLoop chk s b len fuel n st = .ok (some p) → st.processed ≤ st.out.length → len ≤ p.length := by
  intro fuel
  induction fuel with
  | zero => intro n st p h; cases h
  | succ fuel ih =>
    intro n st p h hi
    rw [Punycode.encodeLoop] at h
    split at h
    · split at h
      · cases h
      · simp only [bind_eq_ok] at h
        obtain ⟨_, _, _, _, _, _, _, _, h⟩ := h
        split at h
        · simp only [pure_eq, Outcome.ok.injEq, reduceCtorEq] at h
        · simp only [bind_eq_ok] at h
          obtain ⟨_, _, _, _, o, ho, h⟩ := h
          cases o with
          | none => simp only [pure_eq, Outcome.ok.injEq, reduceCtorEq] at h
          | some st' =>
            simp only [bind_eq_ok] at h
            obtain ⟨_, _, _, _, h⟩ := h
            exact ih h (show st'.processed ≤ st'.out.length from encodeScan_out ho hi)
    · simp only [Outcome.ok.injEq, Option.some.injEq] at h
      rw [← h]; omega

/-- **C22.** The Punycode of a text is not shorter than the text. -/
theorem c22_length (chk : Bool) (s p : List Nat) (hlen : s.length < 2 ^ 32) (h : Punycode.encode chk s = .ok (some p)) : s.length ≤ p.length := by
  unfold Punycode.encode at h
  have h1 := encodeLoop_out h (by
    simp only
    unfold Punycode.asU32
    have := Nat.mod_le (s.filter (fun c => c < 0x80)).length (2 ^ 32)
    split
    · rw [List.length_append]; omega
    · omega)
  unfold Punycode.asU32 at h1
  rw [Nat.mod_eq_of_lt hlen] at h1
  exact h1

/-! ### labels -/

theorem form_inj {chk chk' : Bool} {l l' a : List Nat} (h : AsciiForm (data chk) l a) (h' : AsciiForm (data chk') l' a)
    (hs : ∀ c ∈ l, Spec.IsScalar c) (hs' : ∀ c ∈ l', Spec.IsScalar c) (hl : l.length ≤ 3855 ∧ ¬ ((∀ c ∈ l, c < 0x80) ∧ ace <+: l))
    (hl' : l'.length ≤ 3855 ∧ ¬ ((∀ c ∈ l', c < 0x80) ∧ ace <+: l')) : l = l' := by
  cases h with
  | ascii h ha =>
    cases h' with
    | ascii h' ha' => rw [← ha, ← ha']
    | ace h' q' hq' ha' => exact absurd ⟨h, by rw [← ha, ha']; exact List.prefix_append _ _⟩ hl.2
  | ace h q hq ha =>
    cases h' with
    | ascii h' ha' => exact absurd ⟨h', by rw [← ha', ha]; exact List.prefix_append _ _⟩ hl'.2
    | ace h' q' hq' ha' =>
      have hqq : q = q' := by
        rw [ha] at ha'
        exact List.append_cancel_left ha'
      subst hqq
      have e1 : Punycode.encode chk l = .ok (some q) := hq
      have e2 : Punycode.encode chk' l' = .ok (some q) := hq'
      have d1 := Props.Punycode.c20_partial chk true l q hs hl.1 e1
      have d2 := Props.Punycode.c20_partial chk' true l' q hs' hl'.1 e2
      rw [d1] at d2
      simpa using d2

theorem forall₂_inj {R S : List Nat → List Nat → Prop} : ∀ {ls ls' os : List (List Nat)}, List.Forall₂ R ls os → List.Forall₂ S ls' os →
    (∀ l ∈ ls, ∀ l' ∈ ls', ∀ a, R l a → S l' a → l = l') → ls = ls' := by
  intro ls ls' os h
  induction h generalizing ls' with
  | nil => intro h' _; cases h'; rfl
  | cons h1 _ ih =>
    intro h' hi
    cases h' with
    | cons h1' h2' =>
      rw [hi _ (by simp) _ (by simp) _ h1 h1', ih h2' fun l hl l' hl' => hi l (by simp [hl]) l' (by simp [hl'])]

theorem outs_labels {chk std3 tr b : Bool} {d mapped : List Nat} {parts labels outs : List (List Nat)}
    (h : Accepts (data chk) std3 tr b d mapped parts labels) (ho : List.Forall₂ (AsciiForm (data chk)) labels outs)
    (hl : ∀ l ∈ labels, l.length < 2 ^ 32) : Labels (join outs) outs := by
  have hL := accepts_labels' h
  refine ⟨?_, ?_, rfl⟩
  · intro he
    rw [he] at ho
    cases ho
    exact hL.1 rfl
  · intro a ha hdot
    obtain ⟨l, hl', hf⟩ := forall₂_right ho ha
    rcases (form_mem hf (hl l hl') (label_scalar h hl') _ hdot).2 with h1 | ⟨_, h1⟩
    · exact hL.2.1 l hl' h1
    · exact h1 rfl

/-- **C90**: names that convert without error and have the same ASCII form have the same Unicode form. -/
def Unambiguous : Prop := ∀ (chk : Bool) (x y sx sy r : List Nat) (flags : Flags), flags.transitionalProcessing = false →
  toUnicode chk x flags = .ok (sx, []) → toUnicode chk y flags = .ok (sy, []) → toAscii chk x flags = .ok (.ok r) → toAscii chk y flags = .ok (.ok r) → sx = sy

/-- **C90** fails: "ü" and "xn--xn--tda-" both have the ASCII form "xn--tda", but the Unicode form of the second is "xn--tda". -/
theorem c90_false : ¬ Unambiguous := by
  intro h
  have := h true [0xFC] [0x78, 0x6E, 0x2D, 0x2D, 0x78, 0x6E, 0x2D, 0x2D, 0x74, 0x64, 0x61, 0x2D] [0xFC] [0x78, 0x6E, 0x2D, 0x2D, 0x74, 0x64, 0x61]
    [0x78, 0x6E, 0x2D, 0x2D, 0x74, 0x64, 0x61] f101 rfl (by rw [toUnicode, shipped_eq]; decide +kernel) (by rw [toUnicode, shipped_eq]; decide +kernel)
    (by rw [toAscii, shipped_eq]; decide +kernel) (by rw [toAscii, shipped_eq]; decide +kernel)
  revert this
  decide

/-- **C90, partial**: for names the Unicode forms of which have no ASCII label that begins with "xn--", and no label of more than 3855 characters; in
either build, and whatever the check of lengths. -/
theorem c90_partial (chk chk' : Bool) (x y sx sy r : List Nat) (flags flags' : Flags) (ht : flags.transitionalProcessing = false)
    (ht' : flags'.transitionalProcessing = false) (hux : toUnicode chk x flags = .ok (sx, [])) (huy : toUnicode chk' y flags' = .ok (sy, []))
    (hax : toAscii chk x flags = .ok (.ok r)) (hay : toAscii chk' y flags' = .ok (.ok r))
    (hx : ∀ ls, Labels sx ls → ∀ l ∈ ls, l.length ≤ 3855 ∧ ¬ ((∀ c ∈ l, c < 0x80) ∧ ace <+: l))
    (hy : ∀ ls, Labels sy ls → ∀ l ∈ ls, l.length ≤ 3855 ∧ ¬ ((∀ c ∈ l, c < 0x80) ∧ ace <+: l)) : sx = sy := by
  rw [c52_to_unicode] at hux huy
  obtain ⟨b1, m1, p1, l1, a1, _, rfl⟩ := hux
  obtain ⟨b2, m2, p2, l2, a2, _, rfl⟩ := huy
  rw [c52_to_ascii, ht] at hax
  rw [c52_to_ascii, ht'] at hay
  obtain ⟨_, _, _, l3, a3, _, o1, f1, rfl, _⟩ := hax
  obtain ⟨_, _, _, l4, a4, _, o2, f2, e, _⟩ := hay
  obtain ⟨_, rfl⟩ := accepts_det a1 a3
  obtain ⟨_, rfl⟩ := accepts_det a2 a4
  have hx := hx _ (accepts_labels' a1)
  have hy := hy _ (accepts_labels' a2)
  have w1 := outs_labels a1 f1 fun l hl => by have := (hx l hl).1; omega
  have w2 := outs_labels a2 f2 fun l hl => by have := (hy l hl).1; omega
  rw [← e, labels_iff, ← labels_iff.1 w1] at w2
  subst w2
  rw [forall₂_inj f1 f2 fun l hl l' hl' a h h' => form_inj h h' (label_scalar a1 hl) (label_scalar a2 hl') (hx l hl) (hy l' hl')]

theorem dns_labels {a : List Nat} {ls : List (List Nat)} (h : DnsLength a) (hl : Labels a ls) : ∀ l ∈ ls, l.length ≤ 63 := by
  obtain ⟨n, ns, h1, h2, h3, _⟩ := h
  rw [labels_iff] at h2 hl
  intro l hm
  rcases h1 with rfl | rfl
  · rw [hl, ← h2] at hm; exact (h3 l hm).2
  · have : splitDot (n ++ [0x2E]) = splitDot n ++ [[]] := Proofs.IdnaLabels.splitDot_two n []
    rw [hl, this, ← h2, List.mem_append, List.mem_singleton] at hm
    rcases hm with hm | rfl
    · exact (h3 l hm).2
    · simp

/-- **C90, partial**: with the check of lengths the bound on labels is met, for names of less than 2^32 characters. -/
theorem c90_dns_partial (chk : Bool) (x y sx sy r : List Nat) (flags : Flags) (ht : flags.transitionalProcessing = false) (hv : flags.verifyDnsLength = true)
    (hux : toUnicode chk x flags = .ok (sx, [])) (huy : toUnicode chk y flags = .ok (sy, []))
    (hax : toAscii chk x flags = .ok (.ok r)) (hay : toAscii chk y flags = .ok (.ok r)) (hlx : sx.length < 2 ^ 32) (hly : sy.length < 2 ^ 32)
    (hx : ∀ ls, Labels sx ls → ∀ l ∈ ls, ¬ ((∀ c ∈ l, c < 0x80) ∧ ace <+: l))
    (hy : ∀ ls, Labels sy ls → ∀ l ∈ ls, ¬ ((∀ c ∈ l, c < 0x80) ∧ ace <+: l)) : sx = sy := by
  have key : ∀ z sz : List Nat, toUnicode chk z flags = .ok (sz, []) → toAscii chk z flags = .ok (.ok r) → sz.length < 2 ^ 32 →
      ∀ ls, Labels sz ls → ∀ l ∈ ls, l.length ≤ 3855 := by
    intro z sz hu ha hlen ls hls l hl
    rw [c52_to_unicode] at hu
    obtain ⟨b1, m1, p1, l1, a1, _, rfl⟩ := hu
    rw [c52_to_ascii, ht] at ha
    obtain ⟨_, _, _, l3, a3, _, o1, f1, rfl, hdns⟩ := ha
    obtain ⟨_, rfl⟩ := accepts_det a1 a3
    have hll := accepts_labels' a1
    rw [labels_iff] at hls
    rw [hls, ← labels_iff.1 hll] at hl
    have hshort : ∀ l ∈ l1, l.length < 2 ^ 32 := by
      intro l hl
      rw [labels_iff.1 hll] at hl
      have := Proofs.Idna.label_length hl
      omega
    obtain ⟨a, ha, hf⟩ := forall₂_left f1 hl
    have h63 := dns_labels (hdns hv) (outs_labels a1 f1 hshort) a ha
    cases hf with
    | ascii _ e => rw [e] at h63; omega
    | ace _ q hq e =>
      have := c22_length chk l q (hshort l hl) hq
      rw [e, List.length_append] at h63
      omega
  exact c90_partial chk chk x y sx sy r flags flags ht ht hux huy hax hay (fun ls h l hl => ⟨key x sx hux hax hlx ls h l hl, hx ls h l hl⟩)
    (fun ls h l hl => ⟨key y sy huy hay hly ls h l hl, hy ls h l hl⟩)

/-- **C90.** The other way round there is no exception: names with the same Unicode form have the same ASCII form. -/
theorem c90_ascii (chk : Bool) (x y s r : List Nat) (flags : Flags) (ht : flags.transitionalProcessing = false)
    (hux : toUnicode chk x flags = .ok (s, [])) (huy : toUnicode chk y flags = .ok (s, [])) (hax : toAscii chk x flags = .ok (.ok r)) :
    toAscii chk y flags = .ok (.ok r) := by
  rw [c52_to_unicode] at hux huy
  obtain ⟨b1, m1, p1, l1, a1, _, rfl⟩ := hux
  obtain ⟨b2, m2, p2, l2, a2, h2, e⟩ := huy
  rw [c52_to_ascii, ht] at hax ⊢
  obtain ⟨_, _, _, l3, a3, _, o1, f1, hr, hd⟩ := hax
  obtain ⟨_, rfl⟩ := accepts_det a1 a3
  have : l1 = l2 := by
    have w1 := labels_iff.1 (accepts_labels' a1)
    have w2 := labels_iff.1 (accepts_labels' a2)
    rw [w1, w2, e]
  subst this
  exact ⟨b2, m2, p2, l1, a2, h2, o1, f1, hr, hd⟩

/-- "Ü" and "xn--tda" have the same Unicode and ASCII forms -/
example : toUnicode true [0xDC] f101 = .ok ([0xFC], []) ∧ toUnicode true [0x78, 0x6E, 0x2D, 0x2D, 0x74, 0x64, 0x61] f101 = .ok ([0xFC], []) ∧
    toAscii true [0xDC] f101 = .ok (.ok [0x78, 0x6E, 0x2D, 0x2D, 0x74, 0x64, 0x61]) ∧
    toAscii true [0x78, 0x6E, 0x2D, 0x2D, 0x74, 0x64, 0x61] f101 = .ok (.ok [0x78, 0x6E, 0x2D, 0x2D, 0x74, 0x64, 0x61]) ∧
    ¬ ((∀ c ∈ [0xFC], c < 0x80) ∧ ace <+: [0xFC]) := by
  rw [toUnicode, toUnicode, toAscii, toAscii, shipped_eq]
  decide +kernel

end Props.IdnaInjective
