import Verif.Props.Idna
import Verif.Proofs.IdnaEquiv

/-! # C80: spellings of a name that the IDNA conversions do not distinguish -/
namespace Props.IdnaSpelling
open Model Model.Idna Model.IdnaMapping Model.Normal Data Spec.Idna Spec.Normal Proofs.Idna Proofs.IdnaData Proofs.IdnaEquiv Proofs.Punycode Props.Idna
  Proofs.StepFn

/-! ## a character and its replacement -/

def rtlKeepP : Option Mapping → Bool → Bool
  | some (.Mapped s), true => s.any rtlC
  | some (.Deviation s), true => s.any rtlC
  | some .Ignored, true => false
  | _, _ => true

theorem rtl_keep (c : Nat) : rtlKeepP (mapSF.eval c) (rtlSF.eval c) = true := SF.all₂ rtlKeepP _ _ (by decide +kernel) c

/-- a right-to-left character has a right-to-left replacement, and no other has, apart from four symbols -/
theorem rtl_same {c : Nat} {m : Mapping} {s : List Nat} (h : mappingOf c = .ok m) (ha : ¬ Alef c)
    (hs : m = .Mapped s ∨ (m = .Ignored ∧ s = []) ∨ m = .Deviation s) : rtlB c = s.any rtlB := by
  have h1 := rtl_map c
  have h2 := rtl_keep c
  rw [SF.eval_zipWith, alefSF_eval c ha, ← rtlB_sf, ← mapC_sf, mappingOf_ok.1 h] at h1
  rw [← rtlB_sf, ← mapC_sf, mappingOf_ok.1 h] at h2
  have hs2 : (rtlB c = false → s.all (fun x => !rtlC x) = true) ∧ (rtlB c = true → s.any rtlC = true) := by
    rcases hs with rfl | ⟨rfl, rfl⟩ | rfl
    · exact ⟨fun hr => by rw [hr] at h1; exact h1, fun hr => by rw [hr] at h2; exact h2⟩
    · exact ⟨fun _ => rfl, fun hr => by rw [hr] at h2; exact h2⟩
    · exact ⟨fun hr => by rw [hr] at h1; exact h1, fun hr => by rw [hr] at h2; exact h2⟩
  cases hr : rtlB c with
  | true => rw [funext rtlB_eq, hs2.2 hr]
  | false =>
    symm
    rw [List.any_eq_false]
    intro x hx
    have := List.all_eq_true.1 (hs2.1 hr) x hx
    rw [rtlB_eq]
    simpa using this

theorem mapChars_append (u : Deps) (flags : Flags) (b : List Nat) : ∀ (a out : List Nat) (es : List Error),
    mapChars u flags (a ++ b) out es = (mapChars u flags a out es >>= fun r => mapChars u flags b r.1 r.2) := by
  intro a
  induction a with
  | nil => intro out es; rw [List.nil_append, mapChars, bind_ok]
  | cons c a ih =>
    intro out es
    rw [List.cons_append, mapChars, mapChars]
    cases mapChar u flags c out es with
    | panic => rfl
    | ok r => rw [bind_ok, bind_ok]; exact ih _ _

theorem mapChars_valid {u : Deps} (flags : Flags) : ∀ (s out : List Nat) (es : List Error), (∀ x ∈ s, u.mapping x = .ok .Valid) →
    mapChars u flags s out es = .ok (out ++ s, es) := by
  intro s
  induction s with
  | nil => intro out es _; rw [mapChars, List.append_nil]
  | cons c s ih =>
    intro out es h
    rw [mapChars, mapChar, h c (by simp), bind_ok]
    simp only [pure_eq, bind_ok]
    rw [ih _ _ fun x hx => h x (by simp [hx])]
    simp

theorem bind_same {α β : Type} {x : Outcome α} {f g : α → Outcome β} (h : ∀ r, f r = g r) : (x >>= f) = (x >>= g) := by
  cases x with
  | panic => rfl
  | ok r => exact h r

theorem processing_congr {u : Deps} {chk : Bool} {d d' : List Nat} {flags : Flags} (h1 : mapChars u flags d [] [] = mapChars u flags d' [] [])
    (h2 : d.any (isRtlChar u) = d'.any (isRtlChar u)) : processing u chk d flags = processing u chk d' flags := by
  unfold processing
  rw [h1, h2]

theorem isRtl_shipped : isRtlChar shipped = rtlB := by
  funext c
  rw [Bool.eq_iff_iff, isRtlChar_iff, rtlB_iff, shipped]

theorem processing_replace (chk : Bool) (flags : Flags) (d1 d2 s : List Nat) (c : Nat) (m : Mapping) (hm : mappingOf c = .ok m)
    (hs : m = .Mapped s ∨ (m = .Ignored ∧ s = []) ∨ (m = .Deviation s ∧ flags.transitionalProcessing = true))
    (ha : ¬ (0x2135 ≤ c ∧ c ≤ 0x2138)) : processing shipped chk (d1 ++ [c] ++ d2) flags = processing shipped chk (d1 ++ s ++ d2) flags := by
  have hst := stable hm
  have hv : ∀ x ∈ s, mappingOf x = .ok .Valid := by
    rcases hs with h | ⟨_, rfl⟩ | ⟨h, _⟩
    · exact fun x hx => ((hst.1 s (.inl h)).2 x hx).2
    · simp
    · exact fun x hx => ((hst.1 s (.inr h)).2 x hx).2
  have hmap : shipped.mapping = mappingOf := shipped_mapping
  refine processing_congr ?_ ?_
  · have e : mapChars shipped flags (d1 ++ [c]) [] [] = mapChars shipped flags (d1 ++ s) [] [] := by
      rw [mapChars_append, mapChars_append]
      refine bind_same fun r => ?_
      · rw [mapChars_valid flags s _ _ (by rw [hmap]; exact hv), mapChars, mapChar, hmap, hm, bind_ok]
        rcases hs with rfl | ⟨rfl, rfl⟩ | ⟨rfl, h⟩
        · simp only [pure_eq, bind_ok, mapChars]
        · simp only [pure_eq, bind_ok, mapChars, List.append_nil]
        · simp only [h, if_true, pure_eq, bind_ok, mapChars]
    rw [mapChars_append, e, ← mapChars_append]
  · rw [isRtl_shipped, List.any_append, List.any_append, List.any_append, List.any_append, List.any_cons, List.any_nil, Bool.or_false,
      rtl_same hm ha (by rcases hs with h | h | h; exacts [.inl h, .inr (.inl h), .inr (.inr h.1)])]

/-- **C80, partial.** A character with a replacement and its replacement are the same to the conversions, wherever they stand
in a name, down to the errors: mapped and ignored characters for both, and what transitional processing replaces for
`to_ascii`. Missing: the four symbols U+2135 to U+2138, for which the claim is false. -/
theorem c80_replacement_partial (chk : Bool) (flags : Flags) (d1 d2 s : List Nat) (c : Nat) (m : Mapping) (hm : mappingOf c = .ok m)
    (ha : ¬ (0x2135 ≤ c ∧ c ≤ 0x2138)) :
    (m = .Mapped s ∨ (m = .Ignored ∧ s = []) → toUnicode chk (d1 ++ [c] ++ d2) flags = toUnicode chk (d1 ++ s ++ d2) flags) ∧
    (m = .Mapped s ∨ (m = .Ignored ∧ s = []) ∨ (m = .Deviation s ∧ flags.transitionalProcessing = true) →
      toAscii chk (d1 ++ [c] ++ d2) flags = toAscii chk (d1 ++ s ++ d2) flags) := by
  constructor
  · intro hs
    rw [toUnicode, toUnicode, toUnicodeWith, toUnicodeWith]
    exact processing_replace chk _ d1 d2 s c m hm (by rcases hs with h | h; exacts [.inl h, .inr (.inl h)]) ha
  · intro hs
    rw [toAscii, toAscii, toAsciiWith, toAsciiWith, processing_replace chk _ d1 d2 s c m hm hs ha]

/-- a fullwidth capital, a soft hyphen, and a sharp s in transitional processing: "ＢÜCHER", "fo­o", "straße" -/
example (chk : Bool) : toAscii chk ([] ++ [0xFF22] ++ [0x61]) f000 = toAscii chk ([] ++ [0x62] ++ [0x61]) f000 :=
  (c80_replacement_partial chk f000 [] [0x61] [0x62] 0xFF22 (.Mapped [0x62]) (by rw [mappingOf_eq]; decide +kernel) (by decide)).2 (.inl rfl)
example (chk : Bool) : toUnicode chk ([0x66] ++ [0xAD] ++ [0x6F]) f000 = toUnicode chk ([0x66] ++ [] ++ [0x6F]) f000 :=
  (c80_replacement_partial chk f000 [0x66] [0x6F] [] 0xAD .Ignored (by rw [mappingOf_eq]; decide +kernel) (by decide)).1 (.inr ⟨rfl, rfl⟩)
example (chk : Bool) : toAscii chk ([0x61] ++ [0xDF] ++ [0x65]) ⟨false, true, false⟩ = toAscii chk ([0x61] ++ [0x73, 0x73] ++ [0x65]) ⟨false, true, false⟩ :=
  (c80_replacement_partial chk ⟨false, true, false⟩ [0x61] [0x65] [0x73, 0x73] 0xDF (.Deviation [0x73, 0x73]) (by rw [mappingOf_eq]; decide +kernel)
    (by decide)).2 (.inr (.inr ⟨rfl, rfl⟩))

/-- **C80** fails for the four symbols: U+2135 ALEF SYMBOL is mapped to U+05D0, but next to an "a" the one is accepted and
the other is not, as only the second makes a name a Bidi domain name. -/
theorem c80_replacement_false : mappingOf 0x2135 = .ok (.Mapped [0x5D0]) ∧ toUnicode true [0x2135, 0x61] f000 = .ok ([0x5D0, 0x61], []) ∧
    ∃ s e es, toUnicode true [0x5D0, 0x61] f000 = .ok (s, e :: es) := by
  rw [mappingOf_eq, toUnicode, toUnicode, shipped_eq]
  exact ⟨by decide +kernel, by decide +kernel, _, _, _, rfl⟩

theorem map_chars (chk : Bool) (flags : Flags) (f : Nat → Nat)
    (hf : ∀ c, f c = c ∨ (mappingOf c = .ok (.Mapped [f c]) ∧ ¬ (0x2135 ≤ c ∧ c ≤ 0x2138))) : ∀ d2 d1 : List Nat,
    toUnicode chk (d1 ++ d2.map f) flags = toUnicode chk (d1 ++ d2) flags ∧ toAscii chk (d1 ++ d2.map f) flags = toAscii chk (d1 ++ d2) flags := by
  intro d2
  induction d2 with
  | nil => intro d1; exact ⟨rfl, rfl⟩
  | cons c d2 ih =>
    intro d1
    have h1 := ih (d1 ++ [f c])
    have e1 : d1 ++ List.map f (c :: d2) = d1 ++ [f c] ++ d2.map f := by simp
    have e2 : d1 ++ c :: d2 = d1 ++ [c] ++ d2 := by simp
    rw [e1, e2, h1.1, h1.2]
    rcases hf c with h | ⟨h, ha⟩
    · rw [h]; exact ⟨rfl, rfl⟩
    · have h2 := c80_replacement_partial chk flags d1 d2 [f c] c _ h ha
      exact ⟨(h2.1 (.inl rfl)).symm, (h2.2 (.inl rfl)).symm⟩

theorem upper_chk : (List.range 26).all (fun i => mapC (0x41 + i) == some (.Mapped [0x61 + i])) = true := by decide +kernel

theorem upper_mapped {c : Nat} (h : 0x41 ≤ c ∧ c ≤ 0x5A) : mappingOf c = .ok (.Mapped [c + 0x20]) := by
  have h1 := List.all_eq_true.1 upper_chk (c - 0x41) (List.mem_range.2 (by omega))
  rw [show 0x41 + (c - 0x41) = c by omega, show 0x61 + (c - 0x41) = c + 0x20 by omega, beq_iff_eq] at h1
  exact mappingOf_ok.2 h1

/-- **C80.** ASCII letters are the same in either case: every outcome, errors included, is that of the name in lower case. -/
theorem c80_case (chk : Bool) (flags : Flags) (d : List Nat) :
    toUnicode chk (d.map fun c => if 0x41 ≤ c ∧ c ≤ 0x5A then c + 0x20 else c) flags = toUnicode chk d flags ∧
    toAscii chk (d.map fun c => if 0x41 ≤ c ∧ c ≤ 0x5A then c + 0x20 else c) flags = toAscii chk d flags := by
  refine map_chars chk flags _ (fun c => ?_) d []
  by_cases h : 0x41 ≤ c ∧ c ≤ 0x5A
  · right
    simp only [h, and_self, if_true]
    refine ⟨?_, by omega⟩
    exact upper_mapped h
  · left
    simp only [h, if_false]

/-- **C80.** The ideographic and the fullwidth and halfwidth full stops separate labels as the full stop does. -/
theorem c80_dots (chk : Bool) (flags : Flags) (d : List Nat) :
    toUnicode chk (d.map fun c => if c = 0x3002 ∨ c = 0xFF0E ∨ c = 0xFF61 then 0x2E else c) flags = toUnicode chk d flags ∧
    toAscii chk (d.map fun c => if c = 0x3002 ∨ c = 0xFF0E ∨ c = 0xFF61 then 0x2E else c) flags = toAscii chk d flags := by
  refine map_chars chk flags _ (fun c => ?_) d []
  by_cases h : c = 0x3002 ∨ c = 0xFF0E ∨ c = 0xFF61
  · right
    simp only [h, if_true]
    refine ⟨?_, by omega⟩
    rw [mappingOf_eq]
    rcases h with rfl | rfl | rfl <;> decide +kernel
  · left
    simp only [h, if_false]

/-! ## canonically equivalent names -/

theorem steps12_iff (chk std3 tr : Bool) (d mapped : List Nat) :
    (∃ ms : List Mapping, List.Forall₂ (data chk).status d ms ∧ (∀ m ∈ ms, ¬ Disallowed std3 m) ∧
      mapped = (data chk).nfc (List.zipWith (replacement tr) d ms).flatten) ↔
    d.all (okc std3) = true ∧ mapped = nfc (d.flatMap (rep tr)) := by
  have key : ∀ d : List Nat, ∀ ms : List Mapping, List.Forall₂ (data chk).status d ms →
      ((∀ m ∈ ms, ¬ Disallowed std3 m) ↔ d.all (okc std3) = true) ∧ (List.zipWith (replacement tr) d ms).flatten = d.flatMap (rep tr) := by
    intro d ms h
    induction h with
    | nil => simp
    | @cons c m d ms hc _ ih =>
      have hm : mapC c = some m := mappingOf_ok.1 hc
      rw [List.all_cons, Bool.and_eq_true, ← ih.1, List.zipWith_cons_cons, List.flatten_cons, ih.2, List.flatMap_cons, List.forall_mem_cons]
      have h1 : rep tr c = replacement tr c m := by unfold rep; rw [hm]
      have h2 : okc std3 c = true ↔ ¬ Disallowed std3 m := by
        unfold okc
        simp only [hm]
        rw [Bool.not_eq_true', ← disM_iff, Bool.not_eq_true]
      rw [h1, h2]
      exact ⟨Iff.rfl, rfl⟩
  constructor
  · rintro ⟨ms, h1, h2, h3⟩
    have k := key d ms h1
    rw [k.2] at h3
    exact ⟨k.1.1 h2, h3⟩
  · rintro ⟨h1, h2⟩
    have : ∃ ms, List.Forall₂ (data chk).status d ms := by
      clear h2
      induction d with
      | nil => exact ⟨[], .nil⟩
      | cons c d ih =>
        rw [List.all_cons, Bool.and_eq_true] at h1
        obtain ⟨ms, h⟩ := ih h1.2
        have h3 := h1.1
        unfold okc at h3
        cases hm : mapC c with
        | none => rw [hm] at h3; cases h3
        | some m => exact ⟨m :: ms, .cons (mappingOf_ok.2 hm) h⟩
    obtain ⟨ms, h⟩ := this
    have k := key d ms h
    exact ⟨ms, h, k.1.2 h1, by rw [k.2]; exact h2⟩

theorem accepts_congr {chk std3 tr b : Bool} {d d' mapped : List Nat} {parts labels : List (List Nat)}
    (h1 : d.all (okc std3) = d'.all (okc std3)) (h2 : nfc (d.flatMap (rep tr)) = nfc (d'.flatMap (rep tr))) :
    Accepts (data chk) std3 tr b d mapped parts labels ↔ Accepts (data chk) std3 tr b d' mapped parts labels := by
  constructor
  · rintro ⟨a, b, c⟩
    exact ⟨(steps12_iff ..).2 (by have := (steps12_iff ..).1 a; rwa [h1, h2] at this), b, c⟩
  · rintro ⟨a, b, c⟩
    exact ⟨(steps12_iff ..).2 (by have := (steps12_iff ..).1 a; rwa [← h1, ← h2] at this), b, c⟩

theorem bidiName_congr {chk : Bool} {d d' : List Nat} {parts : List (List Nat)} (h : d.any rtlB = d'.any rtlB) :
    BidiName (data chk) d parts ↔ BidiName (data chk) d' parts := by
  have key : ∀ d : List Nat, (∃ c ∈ d, Rtl (data chk).cls c) ↔ d.any rtlB = true := by
    intro d
    rw [List.any_eq_true, data_cls]
    exact ⟨fun ⟨c, h1, h2⟩ => ⟨c, h1, rtlB_iff.2 h2⟩, fun ⟨c, h1, h2⟩ => ⟨c, h1, rtlB_iff.1 h2⟩⟩
  unfold BidiName
  rw [key, key, h]

/-- U+0345 COMBINING GREEK YPOGEGRAMMENI, which IDNA replaces with the letter iota, is not followed by another mark in the
canonical decomposition of the text. -/
def IotaLast (d : List Nat) : Prop :=
  ∀ p x q, d.flatMap UcdNormal.decomposeCanonical = p ++ [0x345, x] ++ q → Ucd.combiningClass x = 0

/-- The five compatibility ideographs whose canonical mapping is an accepted character although they are not. -/
def five : List Nat := [0x2F868, 0x2F874, 0x2F91F, 0x2F95F, 0x2F9BF]

theorem isFive_of {c : Nat} (h : c ∉ five) : isFive c = false := by
  cases hc : isFive c with
  | false => rfl
  | true => exact absurd (by unfold isFive at hc; simpa [five, or_assoc] using hc) h

theorem iotaLast_safe {d : List Nat} (h : IotaLast d) : Safe (d.flatMap (Proofs.NormalGood.D false)) := by
  unfold IotaLast at h
  rw [funext Proofs.NormalGood.decomposeCanonical_eq] at h
  exact h

theorem same_of_equivalent (tr std3 : Bool) {d d' : List Nat} (he : nfd d = nfd d') (h5 : ∀ c ∈ d, c ∉ five) (h5' : ∀ c ∈ d', c ∉ five)
    (hi : IotaLast d) (hi' : IotaLast d') : d.all (okc std3) = d'.all (okc std3) ∧
      nfc (d.flatMap (rep tr)) = nfc (d'.flatMap (rep tr)) ∧ d.any rtlB = d'.any rtlB := by
  have a := inv_nfd tr std3 (fun x hx => isFive_of (h5 x hx)) (d := d) (iotaLast_safe hi)
  have b := inv_nfd tr std3 (fun x hx => isFive_of (h5' x hx)) (d := d') (iotaLast_safe hi')
  refine ⟨?_, ?_, ?_⟩
  · rw [← a.ok, he, b.ok]
  · rw [(Props.Normal.c14_nfc _).1, ← a.rep, he, b.rep, ← (Props.Normal.c14_nfc _).1]
  · rw [← a.rtl, he, b.rtl]

/-- **C80, partial.** Canonically equivalent names are accepted alike, with the same results. Missing: names with one of five
compatibility ideographs, and names in which U+0345 stands before another mark; the claim is false of both. -/
theorem c80_equivalent_partial (chk : Bool) (flags : Flags) (d d' : List Nat)
    (he : Equivalent Ucd.combiningClass (mappingWith UcdNormal.canonicalDecomposition) d d')
    (h5 : ∀ c ∈ d, c ∉ five) (h5' : ∀ c ∈ d', c ∉ five) (hi : IotaLast d) (hi' : IotaLast d') :
    (∀ s, toUnicode chk d flags = .ok (s, []) ↔ toUnicode chk d' flags = .ok (s, [])) ∧
    ∀ r, toAscii chk d flags = .ok (.ok r) ↔ toAscii chk d' flags = .ok (.ok r) := by
  have he := (Props.Normal.c18_equivalent d d').1 he
  constructor
  · intro s
    obtain ⟨h1, h2, h3⟩ := same_of_equivalent false flags.useStd3AsciiRules he h5 h5' hi hi'
    rw [c52_to_unicode, c52_to_unicode]
    simp only [accepts_congr h1 h2, bidiName_congr h3]
  · intro r
    obtain ⟨h1, h2, h3⟩ := same_of_equivalent flags.transitionalProcessing flags.useStd3AsciiRules he h5 h5' hi hi'
    rw [c52_to_ascii, c52_to_ascii]
    simp only [accepts_congr h1 h2, bidiName_congr h3]

theorem iotaLast_of {d : List Nat} (h : 0x345 ∉ d.flatMap (Props.Normal.decC false)) : IotaLast d := by
  have hD : UcdNormal.decomposeCanonical = Props.Normal.decC false := funext fun c => by
    rw [UcdNormal.decomposeCanonical, Props.Normal.d_lookup, Props.Normal.decC, UcdNormal.FUEL]
  intro p x q e
  rw [hD] at e
  exact absurd (by rw [e]; simp) h

/-- "ṩ" in one character and in three -/
example (chk : Bool) (flags : Flags) (r : List Nat) : toAscii chk [0x1E69] flags = .ok (.ok r) ↔ toAscii chk [0x73, 0x307, 0x323] flags = .ok (.ok r) :=
  (c80_equivalent_partial chk flags [0x1E69] [0x73, 0x307, 0x323]
    (by rw [Props.Normal.c18_equivalent, Props.Normal.nfd_lookup, Props.Normal.nfd_lookup]; decide +kernel)
    (by decide) (by decide) (iotaLast_of (by decide +kernel)) (iotaLast_of (by decide +kernel))).2 r
example : toAscii true [0x1E69] f101 = .ok (.ok [0x78, 0x6E, 0x2D, 0x2D, 0x31, 0x69, 0x67]) := by rw [toAscii, shipped_eq]; decide +kernel

/-- **C80** fails for five ideographs: U+2F868 is canonically equivalent to U+36FC, but only the second is accepted. -/
theorem c80_equivalent_false_ideograph :
    Equivalent Ucd.combiningClass (mappingWith UcdNormal.canonicalDecomposition) [0x2F868] [0x36FC] ∧
    toUnicode true [0x36FC] f000 = .ok ([0x36FC], []) ∧ ∃ s e es, toUnicode true [0x2F868] f000 = .ok (s, e :: es) := by
  refine ⟨?_, ?_⟩
  · rw [Props.Normal.c18_equivalent, Props.Normal.nfd_lookup, Props.Normal.nfd_lookup]; decide +kernel
  · rw [toUnicode, toUnicode, shipped_eq]
    exact ⟨by decide +kernel, _, _, _, rfl⟩

/-- **C80** fails where U+0345 stands before another mark: alpha, iota subscript, grave in either order of the two marks are
canonically equivalent, and both are accepted, but with different results. -/
theorem c80_equivalent_false_iota :
    Equivalent Ucd.combiningClass (mappingWith UcdNormal.canonicalDecomposition) [0x3B1, 0x345, 0x300] [0x3B1, 0x300, 0x345] ∧
    toUnicode true [0x3B1, 0x345, 0x300] f000 = .ok ([0x3B1, 0x1F76], []) ∧
    toUnicode true [0x3B1, 0x300, 0x345] f000 = .ok ([0x1F70, 0x3B9], []) := by
  refine ⟨?_, ?_⟩
  · rw [Props.Normal.c18_equivalent, Props.Normal.nfd_lookup, Props.Normal.nfd_lookup]; decide +kernel
  · rw [toUnicode, toUnicode, shipped_eq]
    exact ⟨by decide +kernel, by decide +kernel⟩

end Props.IdnaSpelling
