import Verif.Proofs.IdnaBidi

/-! # IDNA mapping and conversion: properties C24, C25, C26, C51, C52, C53, C54 -/
namespace Props.Idna
open Model Model.Idna Model.IdnaMapping Data Spec.Idna Proofs.Idna Proofs.IdnaData Proofs.Punycode

/-- The character data of the specification: what the program's accessors return. -/
def data (chk : Bool) : Tables where
  status c m := mappingOf c = .ok m
  nfc := Normal.nfc
  cls := Ucd.bidiClass
  mark c := Ucd.isCombiningMark c = true
  decodes q l := Punycode.decodeToString chk q = .ok (some l)
  encodes l q := Punycode.encodeStr chk l = .ok (some q)

theorem data_cls (chk : Bool) : (data chk).cls = Ucd.bidiClass := by rw [data]
theorem data_nfc (chk : Bool) : (data chk).nfc = Normal.nfc := by rw [data]

theorem tables_mk (a b c d) (chk : Bool) : tables ⟨a, b, c, d⟩ chk = ⟨fun x m => a x = .ok m, b, c, fun x => d x = true,
  fun q l => Punycode.decodeToString chk q = .ok (some l), fun l q => Punycode.encodeStr chk l = .ok (some q)⟩ := rfl

theorem tables_shipped (chk : Bool) : tables shipped chk = data chk := by
  unfold shipped data
  rw [tables_mk]

def mapO : Option Mapping → Outcome Mapping
  | some m => .ok m
  | none => .panic

theorem mappingOf_mapO (c : Nat) : mappingOf c = mapO (mapC c) := by
  rw [mappingOf_eq]
  cases mapC c <;> rfl

/-- the accessors with kernel-friendly lookups, for examples -/
def depsC : Deps := ⟨fun c => mapO (mapC c),
  fun s => (Normal.Recompositions.new s).collect Proofs.DecompData.cccC (Props.Normal.decC false) Props.Normal.composeC,
  fun c => (Proofs.Chunked.lookupC Data.bidiClass c).getD .LeftToRight,
  fun c => (Proofs.Chunked.lookupC Data.generalCategoryMark c).isSome⟩

theorem shipped_eq : shipped = depsC := by
  unfold shipped depsC
  rw [funext mappingOf_mapO, funext Props.Normal.nfc_lookup, funext bidi_lookup, funext mark_lookup]

def f000 : Flags := ⟨false, false, false⟩
def f101 : Flags := ⟨true, false, true⟩

/-! ## C24 -/

/-- **C24.** `Mapping::of` returns a status for every character. -/
theorem c24_total (c : Nat) (h : Spec.IsScalar c) : ∃ m, mappingOf c = .ok m := mapping_total h

/-- **C24.** Every character of a replacement is itself valid, or, in the replacement of a character that STD3 forbids,
forbidden only by STD3. -/
theorem c24_replacement (c : Nat) (m : Mapping) (s : List Nat) (h : mappingOf c = .ok m) :
    (m = .Mapped s ∨ m = .Deviation s → ∀ x ∈ s, mappingOf x = .ok .Valid) ∧
    (m = .DisallowedStd3Mapped s → ∀ x ∈ s, mappingOf x = .ok .Valid ∨ mappingOf x = .ok .DisallowedStd3Valid) :=
  ⟨fun hm x hx => (((stable h).1 s hm).2 x hx).2, fun hm x hx => (((stable h).2 s hm).2 x hx).2⟩

/-- **C24.** Mapping a replacement again leaves it unchanged, whatever the flags of the two passes. -/
theorem c24_stable (tr tr' : Bool) (c : Nat) (m : Mapping) (h : mappingOf c = .ok m)
    (hm : ∀ s, m = .Deviation s → tr' = true ∨ tr = false) :
    ∀ x ∈ replacement tr' c m, ∃ m', mappingOf x = .ok m' ∧ replacement tr x m' = [x] := by
  have hself : (∀ s, m ≠ .Mapped s) → (∀ s, m ≠ .DisallowedStd3Mapped s) → m ≠ .Ignored → (∀ s, m = .Deviation s → tr = false) →
      ∀ x ∈ [c], ∃ m', mappingOf x = .ok m' ∧ replacement tr x m' = [x] := by
    intro h1 h2 h3 h4 x hx
    rw [List.mem_singleton] at hx
    subst hx
    refine ⟨m, h, ?_⟩
    cases m <;> simp_all [replacement]
  have hval : ∀ {s : List Nat}, (∀ x ∈ s, mappingOf x = .ok .Valid ∨ mappingOf x = .ok .DisallowedStd3Valid) →
      ∀ x ∈ s, ∃ m', mappingOf x = .ok m' ∧ replacement tr x m' = [x] := by
    intro s hs x hx
    rcases hs x hx with h1 | h1
    · exact ⟨_, h1, rfl⟩
    · exact ⟨_, h1, rfl⟩
  cases m with
  | Valid => exact hself (by simp) (by simp) (by simp) (by simp)
  | Disallowed => exact hself (by simp) (by simp) (by simp) (by simp)
  | DisallowedStd3Valid => exact hself (by simp) (by simp) (by simp) (by simp)
  | Ignored => simp [replacement]
  | Mapped s => exact hval (fun x hx => .inl ((c24_replacement c _ s h).1 (.inl rfl) x hx))
  | DisallowedStd3Mapped s => exact hval (fun x hx => (c24_replacement c _ s h).2 rfl x hx)
  | Deviation s =>
    simp only [replacement]
    split
    · exact hval (fun x hx => .inl ((c24_replacement c _ s h).1 (.inr rfl) x hx))
    · rename_i ht
      rcases hm s rfl with h1 | h1
      · exact absurd h1 ht
      · exact hself (by simp) (by simp) (by simp) (fun _ _ => h1)

/-- "Ⅻ" maps to "xii", "ß" is a deviation to "ss", "½" maps to "1⁄2", "⑴" to "(1)" where STD3 allows it -/
example : mappingOf 0x216B = .ok (.Mapped [0x78, 0x69, 0x69]) ∧ mappingOf 0xDF = .ok (.Deviation [0x73, 0x73]) ∧
    mappingOf 0x2474 = .ok (.DisallowedStd3Mapped [0x28, 0x31, 0x29]) ∧ mappingOf 0x28 = .ok .DisallowedStd3Valid ∧
    mappingOf 0xAD = .ok .Ignored ∧ mappingOf 0xE000 = .ok .Disallowed := by
  simp only [mappingOf_eq]
  decide +kernel

/-! ## C52: success is exactly what UTS #46 asks -/

/-- **C52.** `to_unicode` succeeds with `s` exactly when the four steps of UTS #46 processing (map, normalize, break,
convert and validate, nontransitional) succeed on the name with the labels of `s`. -/
theorem c52_to_unicode (chk : Bool) (d : List Nat) (flags : Flags) (s : List Nat) : toUnicode chk d flags = .ok (s, []) ↔
    ∃ b mapped parts labels, Accepts (data chk) flags.useStd3AsciiRules false b d mapped parts labels ∧
      (b = true ↔ BidiName (data chk) d parts) ∧ s = join labels := by
  rw [toUnicode, toUnicodeWith, processing_iff, tables_shipped]

/-- **C52.** `to_ascii` succeeds with `r` exactly when UTS #46 processing succeeds on the name, the labels of `r` are the
ASCII forms of the resulting labels, and, if asked for, the lengths are within the limits of the DNS. -/
theorem c52_to_ascii (chk : Bool) (d : List Nat) (flags : Flags) (r : List Nat) : toAscii chk d flags = .ok (.ok r) ↔
    ∃ b mapped parts labels, Accepts (data chk) flags.useStd3AsciiRules flags.transitionalProcessing b d mapped parts labels ∧
      (b = true ↔ BidiName (data chk) d parts) ∧
      ∃ outs, List.Forall₂ (AsciiForm (data chk)) labels outs ∧ r = join outs ∧ (flags.verifyDnsLength = true → DnsLength r) := by
  rw [toAscii, toAsciiWith_iff, tables_shipped]

/-- "Bücher.de" becomes "xn--bcher-kva.de" and back "bücher.de" -/
example : toAscii true [0x42, 0xFC, 0x63, 0x68, 0x65, 0x72, 0x2E, 0x64, 0x65] f101 =
      .ok (.ok [0x78, 0x6E, 0x2D, 0x2D, 0x62, 0x63, 0x68, 0x65, 0x72, 0x2D, 0x6B, 0x76, 0x61, 0x2E, 0x64, 0x65]) ∧
    toUnicode true [0x78, 0x6E, 0x2D, 0x2D, 0x62, 0x63, 0x68, 0x65, 0x72, 0x2D, 0x6B, 0x76, 0x61, 0x2E, 0x64, 0x65] f101 =
      .ok ([0x62, 0xFC, 0x63, 0x68, 0x65, 0x72, 0x2E, 0x64, 0x65], []) := by
  rw [toAscii, toUnicode, shipped_eq]
  decide +kernel

/-! ## C25 -/

/-- **C25.** A successful `to_ascii` returns ASCII characters only. -/
theorem c25_ascii (chk : Bool) (d r : List Nat) (flags : Flags) (h : toAscii chk d flags = .ok (.ok r)) : ∀ c ∈ r, c < 0x80 := by
  rw [toAscii, toAsciiWith_iff] at h
  obtain ⟨_, _, _, labels, _, _, outs, h1, rfl, _⟩ := h
  intro c hc
  rcases join_mem hc with h2 | ⟨o, ho, hc⟩
  · omega
  · obtain ⟨l, _, hl⟩ := forall₂_right h1 ho
    exact asciiForm_ascii hl c hc

/-- **C25.** With length verification, a successful result consists of labels of 1 to 63 bytes and has at most 253 bytes,
not counting a final full stop. -/
theorem c25_dns (chk : Bool) (d r : List Nat) (flags : Flags) (hv : flags.verifyDnsLength = true)
    (h : toAscii chk d flags = .ok (.ok r)) :
    ∃ n labels, (r = n ∨ r = n ++ [0x2E]) ∧ Labels n labels ∧ (∀ l ∈ labels, 1 ≤ l.length ∧ l.length ≤ 63) ∧ n.length ≤ 253 := by
  rw [toAscii, toAsciiWith_iff] at h
  obtain ⟨_, _, _, labels, _, _, outs, _, _, h1⟩ := h
  exact h1 hv

example : toAscii true [0xFC, 0x2E] f101 = .ok (.ok [0x78, 0x6E, 0x2D, 0x2D, 0x74, 0x64, 0x61, 0x2E]) := by
  rw [toAscii, shipped_eq]
  decide +kernel

/-! ## C26 -/

theorem forall₂_mem {α β : Type} {R : α → β → Prop} {l : List α} {m : List β} (h : List.Forall₂ R l m) {a : α} (ha : a ∈ l) : ∃ b ∈ m, R a b :=
  forall₂_left h ha

/-- **C26.** A character that the flags disallow makes both conversions report an error. -/
theorem c26_reports (chk : Bool) (d : List Nat) (flags : Flags) (c : Nat) (m : Mapping) (hc : c ∈ d) (hm : mappingOf c = .ok m)
    (hd : Disallowed flags.useStd3AsciiRules m) :
    (∀ s, toUnicode chk d flags ≠ .ok (s, [])) ∧ ∀ r, toAscii chk d flags ≠ .ok (.ok r) := by
  have key : ∀ {tr b : Bool} {mapped : List Nat} {parts labels : List (List Nat)},
      ¬ Accepts (data chk) flags.useStd3AsciiRules tr b d mapped parts labels := by
    rintro tr b mapped parts labels ⟨⟨ms, h1, h2, _⟩, _, _⟩
    obtain ⟨m', hm', h3⟩ := forall₂_left h1 hc
    have h4 : mappingOf c = .ok m' := h3
    rw [hm] at h4
    simp only [Outcome.ok.injEq] at h4
    rw [← h4] at hm'
    exact h2 m hm' hd
  constructor
  · intro s h
    rw [c52_to_unicode] at h
    obtain ⟨_, _, _, _, h, _⟩ := h
    exact key h
  · intro r h
    rw [c52_to_ascii] at h
    obtain ⟨_, _, _, _, h, _⟩ := h
    exact key h

theorem dot_valid : mappingOf 0x2E = .ok .Valid := by rw [mappingOf_eq]; decide +kernel

theorem allowed_mono {std3 tr : Bool} {m : Mapping} (h : Allowed std3 tr m) : Allowed std3 false m := by
  cases m <;> simp_all [Allowed]

theorem label_allowed {chk std3 tr b : Bool} {d mapped : List Nat} {parts labels : List (List Nat)}
    (h : Accepts (data chk) std3 tr b d mapped parts labels) {l : List Nat} (hl : l ∈ labels) :
    ∀ c ∈ l, ∃ m, mappingOf c = .ok m ∧ Allowed std3 false m := by
  obtain ⟨p, _, hc⟩ := forall₂_right h.conv hl
  have key : ∀ tr', (l = [] ∨ ValidLabel (data chk) std3 tr' b l) → ∀ c ∈ l, ∃ m, mappingOf c = .ok m ∧ Allowed std3 false m := by
    rintro tr' (rfl | hv) c hcl
    · simp at hcl
    · obtain ⟨m, h1, h2⟩ := hv.status c hcl
      exact ⟨m, h1, allowed_mono h2⟩
  cases hc with
  | ace q _ _ hv => exact key _ hv
  | plain _ _ hv => exact key _ hv

/-- **C26.** Every character of a name that `to_unicode` accepts, those decoded from Punycode included, has a status that
the flags allow. -/
theorem c26_result (chk : Bool) (d s : List Nat) (flags : Flags) (h : toUnicode chk d flags = .ok (s, [])) :
    ∀ c ∈ s, ∃ m, mappingOf c = .ok m ∧ Allowed flags.useStd3AsciiRules false m := by
  rw [c52_to_unicode] at h
  obtain ⟨b, mapped, parts, labels, h, _, rfl⟩ := h
  intro c hc
  rcases join_mem hc with h1 | ⟨l, hl, hc⟩
  · exact ⟨.Valid, by rw [h1]; exact dot_valid, trivial⟩
  · exact label_allowed h hl c hc

/-- a lower-case ASCII letter, digit, hyphen or full stop -/
def IsLdh (c : Nat) : Prop := 0x61 ≤ c ∧ c ≤ 0x7A ∨ 0x30 ≤ c ∧ c ≤ 0x39 ∨ c = 0x2D ∨ c = 0x2E

theorem valid_self {d : List Nat} (h : ∀ c ∈ d, c < 0x80 ∧ ∃ m, mappingOf c = .ok m ∧ Allowed std3 tr m) (tr' : Bool) :
    ∃ ms : List Mapping, List.Forall₂ (fun c m => mappingOf c = .ok m) d ms ∧ (∀ m ∈ ms, ¬ Disallowed std3 m) ∧
      (List.zipWith (replacement tr') d ms).flatten = d := by
  induction d with
  | nil => exact ⟨[], .nil, by simp, rfl⟩
  | cons c d ih =>
    obtain ⟨ms, h1, h2, h3⟩ := ih (fun x hx => h x (by simp [hx]))
    obtain ⟨h4, m, h5, h6⟩ := h c (by simp)
    have h7 : m = .Valid ∨ (m = .DisallowedStd3Valid) := by
      rcases ascii_status h4 with h | ⟨h, _⟩ | ⟨_, _, s, h⟩
      · rw [h5] at h; simp only [Outcome.ok.injEq] at h; exact .inl h
      · rw [h5] at h; simp only [Outcome.ok.injEq] at h; exact .inr h
      · rw [h5] at h; simp only [Outcome.ok.injEq] at h
        rw [h] at h6
        exact absurd h6 (by simp [Allowed])
    refine ⟨m :: ms, .cons h5 h1, ?_, ?_⟩
    · intro x hx
      rw [List.mem_cons] at hx
      rcases hx with rfl | hx
      · rcases h7 with rfl | rfl
        · simp [Disallowed]
        · simpa [Disallowed, Allowed] using h6
      · exact h2 x hx
    · rw [List.zipWith_cons_cons, List.flatten_cons, h3]
      rcases h7 with rfl | rfl <;> rfl

theorem nfc_ascii {s : List Nat} (h : ∀ c ∈ s, c < 0x80) : Normal.nfc s = s :=
  (Props.Normal.c19_ascii s (fun c hc => by have := h c hc; omega)).2.2.1

theorem ascii_no_rtl {s : List Nat} (h : ∀ c ∈ s, c < 0x80) : ¬ ∃ c ∈ s, Rtl Ucd.bidiClass c := by
  rintro ⟨c, hc, hr⟩
  exact ascii_bidi (h c hc) hr

/-- names of ASCII letters, digits and hyphens are accepted unchanged -/
theorem ldh_accepts (chk std3 tr : Bool) {d : List Nat} (hd : ∀ c ∈ d, IsLdh c)
    (hl : ∀ ls, Labels d ls → ∀ l ∈ ls, l.head? ≠ some 0x2D ∧ l.getLast? ≠ some 0x2D ∧ ¬ ace <+: l) :
    Accepts (data chk) std3 tr false d d (splitDot d) (splitDot d) ∧ ¬ BidiName (data chk) d (splitDot d) := by
  have hlt : ∀ c ∈ d, c < 0x80 := by intro c hc; have := hd c hc; unfold IsLdh at this; omega
  have hst : ∀ c ∈ d, mappingOf c = .ok .Valid := by
    intro c hc
    rcases ascii_status (hlt c hc) with h | ⟨_, h⟩ | ⟨h1, h2, _⟩
    · exact h
    · exact absurd (hd c hc) (by unfold IsLdh; omega)
    · have := hd c hc; unfold IsLdh at this; omega
  have hL := splitDot_labels d
  have hls := hl _ hL
  have hmem : ∀ l ∈ splitDot d, ∀ c ∈ l, c ∈ d := by
    intro l hl c hc
    rw [hL.2.2]; exact mem_join hl hc
  refine ⟨⟨?_, hL, ?_⟩, ?_⟩
  · obtain ⟨ms, h1, h2, h3⟩ := valid_self (std3 := std3) (tr := tr) (d := d) (fun c hc => ⟨hlt c hc, .Valid, hst c hc, trivial⟩) tr
    refine ⟨ms, h1, h2, ?_⟩
    rw [h3]
    exact (nfc_ascii hlt).symm
  · rw [List.forall₂_same]
    intro l hl'
    refine .plain (hls l hl').2.2 rfl (.inr ⟨?_, ⟨(hls l hl').1, (hls l hl').2.1⟩, ?_, ?_, by simp⟩)
    · exact nfc_ascii (fun c hc => hlt c (hmem l hl' c hc))
    · intro c r he hm
      have : Ucd.isCombiningMark c = true := hm
      rw [ascii_mark (hlt c (hmem l hl' c (by rw [he]; simp)))] at this
      cases this
    · intro c hc
      exact ⟨.Valid, hst c (hmem l hl' c hc), trivial⟩
  · rintro (h | ⟨q, l, h1, _⟩)
    · rw [data_cls] at h
      exact ascii_no_rtl hlt h
    · exact (hls _ h1).2.2 ⟨q, rfl⟩

/-- **C26.** Names of lower-case ASCII letters, digits and hyphens, without a label that begins or ends with a hyphen or
begins with "xn--", are returned unchanged, by `to_ascii` as far as the name has the lengths asked for. -/
theorem c26_ldh (chk : Bool) (d : List Nat) (flags : Flags) (hd : ∀ c ∈ d, IsLdh c)
    (hl : ∀ ls, Labels d ls → ∀ l ∈ ls, l.head? ≠ some 0x2D ∧ l.getLast? ≠ some 0x2D ∧ ¬ ace <+: l) :
    toUnicode chk d flags = .ok (d, []) ∧
    ((flags.verifyDnsLength = true → DnsLength d) → toAscii chk d flags = .ok (.ok d)) := by
  have hL := splitDot_labels d
  constructor
  · rw [c52_to_unicode]
    obtain ⟨h1, h2⟩ := ldh_accepts chk flags.useStd3AsciiRules false hd hl
    exact ⟨false, d, _, _, h1, by simp [h2], hL.2.2⟩
  · intro hv
    rw [c52_to_ascii]
    obtain ⟨h1, h2⟩ := ldh_accepts chk flags.useStd3AsciiRules flags.transitionalProcessing hd hl
    refine ⟨false, d, _, _, h1, by simp [h2], splitDot d, ?_, hL.2.2, hv⟩
    rw [List.forall₂_same]
    intro l hl'
    refine .ascii (fun c hc => ?_) rfl
    have h3 : c ∈ d := by rw [hL.2.2]; exact mem_join hl' hc
    have := hd c h3
    unfold IsLdh at this
    omega

/-- "my-host.example1" -/
example : toAscii false [0x6D, 0x79, 0x2D, 0x68, 0x6F, 0x73, 0x74, 0x2E, 0x65, 0x31] f101 =
    .ok (.ok [0x6D, 0x79, 0x2D, 0x68, 0x6F, 0x73, 0x74, 0x2E, 0x65, 0x31]) := by
  rw [toAscii, shipped_eq]; decide +kernel

/-! ## C51: round trips -/

/-- the statement of C51: an accepted ASCII form is accepted again, unchanged, and leads to the same Unicode form -/
def RoundTrip : Prop := ∀ (chk : Bool) (d s r : List Nat) (flags : Flags), (∀ c ∈ d, Spec.IsScalar c) → d.length < 2 ^ 23 →
  flags.transitionalProcessing = false → toUnicode chk d flags = .ok (s, []) → toAscii chk d flags = .ok (.ok r) →
  toUnicode chk r flags = .ok (s, []) ∧ toAscii chk r flags = .ok (.ok r)

/-- **C51** fails on the alef symbol U+2135 (class L) followed by "a": it maps to Hebrew alef without the Bidi rule being
applied, so `to_ascii` returns "xn--a-zhc", which `to_unicode` then rejects. -/
theorem c51_false : ¬ RoundTrip := by
  intro h
  have h1 : toUnicode true [0x2135, 0x61] f000 = .ok ([0x5D0, 0x61], []) := by rw [toUnicode, shipped_eq]; decide +kernel
  have h2 : toAscii true [0x2135, 0x61] f000 = .ok (.ok [0x78, 0x6E, 0x2D, 0x2D, 0x61, 0x2D, 0x7A, 0x68, 0x63]) := by
    rw [toAscii, shipped_eq]; decide +kernel
  have h3 := (h true _ _ _ f000 (by decide) (by decide) rfl h1 h2).1
  revert h3
  rw [toUnicode, shipped_eq]
  decide +kernel

/-- **C51** also fails on "xn--xn--foo-", whose Unicode form is the ASCII name "xn--foo", which decodes to something else. -/
theorem c51_false_ace : ∃ s r : List Nat, toUnicode true [0x78, 0x6E, 0x2D, 0x2D, 0x78, 0x6E, 0x2D, 0x2D, 0x66, 0x6F, 0x6F, 0x2D] f000 = .ok (s, []) ∧
    toAscii true [0x78, 0x6E, 0x2D, 0x2D, 0x78, 0x6E, 0x2D, 0x2D, 0x66, 0x6F, 0x6F, 0x2D] f000 = .ok (.ok r) ∧
    s = r ∧ r = [0x78, 0x6E, 0x2D, 0x2D, 0x66, 0x6F, 0x6F] ∧ toUnicode true r f000 ≠ .ok (s, []) := by
  refine ⟨[0x78, 0x6E, 0x2D, 0x2D, 0x66, 0x6F, 0x6F], [0x78, 0x6E, 0x2D, 0x2D, 0x66, 0x6F, 0x6F], ?_⟩
  simp only [toUnicode, toAscii, shipped_eq]
  decide +kernel

theorem ldh_valid {c : Nat} (h : IsLdh c) : mappingOf c = .ok .Valid := by
  have hlt : c < 0x80 := by unfold IsLdh at h; omega
  rcases ascii_status hlt with h1 | ⟨_, h1⟩ | ⟨h1, h2, _⟩
  · exact h1
  · exact absurd h (by unfold IsLdh; omega)
  · unfold IsLdh at h; omega

/-- the characters of an ASCII form -/
theorem form_mem {chk : Bool} {l a : List Nat} (h : AsciiForm (data chk) l a) (hlen : l.length < 2 ^ 32) (hs : ∀ c ∈ l, Spec.IsScalar c) :
    ∀ c ∈ a, c < 0x80 ∧ (c ∈ l ∨ (IsLdh c ∧ c ≠ 0x2E)) := by
  cases h with
  | ascii h ha => rw [ha]; exact fun c hc => ⟨h c hc, .inl hc⟩
  | ace h q hq ha =>
    have hq' : Punycode.encode chk l = .ok (some q) := hq
    obtain ⟨digits, ⟨_, hp⟩, hd, h80⟩ := Props.Punycode.c22 chk l q hs hlen hq'
    have hasc : ∀ c ∈ Spec.Punycode.asciiOf l, c ∈ l := fun c hc => (List.mem_filter.1 hc).1
    intro c hc
    rw [ha, List.mem_append] at hc
    rcases hc with hc | hc
    · simp only [Spec.Idna.ace, List.mem_cons, List.not_mem_nil, or_false] at hc
      unfold IsLdh
      omega
    · refine ⟨h80 c hc, ?_⟩
      have hdig : ∀ c ∈ digits, IsLdh c ∧ c ≠ 0x2E := by
        intro c hc
        have := hd c hc
        unfold Spec.Punycode.IsLowerAlnum at this
        unfold IsLdh
        omega
      rcases hp with ⟨_, hp⟩ | ⟨_, hp⟩
      · rw [hp, List.mem_append, List.mem_cons] at hc
        rcases hc with hc | hc | hc
        · exact .inl (hasc c hc)
        · right; unfold IsLdh; omega
        · exact .inr (hdig c hc)
      · rw [hp] at hc
        exact .inr (hdig c hc)

theorem label_scalar {chk std3 tr b : Bool} {d mapped : List Nat} {parts labels : List (List Nat)}
    (h : Accepts (data chk) std3 tr b d mapped parts labels) {l : List Nat} (hl : l ∈ labels) : ∀ c ∈ l, Spec.IsScalar c := by
  intro c hc
  obtain ⟨m, h1, h2⟩ := label_allowed h hl c hc
  exact allowed_scalar h1 h2

theorem accepts_labels' {chk std3 tr b : Bool} {d mapped : List Nat} {parts labels : List (List Nat)}
    (h : Accepts (data chk) std3 tr b d mapped parts labels) : Labels (join labels) labels := by
  rw [← tables_shipped] at h
  exact accepts_labels h

theorem forall₂_mem_both {α β : Type} {R : α → β → Prop} {l : List α} {m : List β} (h : List.Forall₂ R l m) {P : α → Prop} (hP : ∀ a ∈ l, P a) :
    List.Forall₂ (fun a b => P a ∧ R a b) l m := by
  induction h with
  | nil => exact .nil
  | cons h1 _ ih => exact .cons ⟨hP _ (by simp), h1⟩ (ih (fun a ha => hP a (by simp [ha])))

theorem decode_form {chk chk' : Bool} {l q : List Nat} (hs : ∀ c ∈ l, Spec.IsScalar c) (hlen : l.length ≤ 3855)
    (h : (data chk).encodes l q) : Punycode.decode chk' q = .ok (some l) :=
  Props.Punycode.c20_partial chk chk' l q hs hlen h

/-- the ASCII form of an accepted name is accepted with the same labels -/
theorem reaccept {chk : Bool} (chk' : Bool) {std3 tr b : Bool} (tr' : Bool) {d mapped : List Nat} {parts labels outs : List (List Nat)}
    (h : Accepts (data chk) std3 tr b d mapped parts labels) (ho : List.Forall₂ (AsciiForm (data chk)) labels outs)
    (hl : ∀ l ∈ labels, l.length ≤ 3855 ∧ ¬ ((∀ c ∈ l, c < 0x80) ∧ ace <+: l))
    (hb : (∃ l ∈ labels, ∃ c ∈ l, Rtl Ucd.bidiClass c) → b = true) :
    ∃ b', Accepts (data chk') std3 tr' b' (join outs) (join outs) outs labels ∧
      (b' = true ↔ BidiName (data chk') (join outs) outs) ∧ List.Forall₂ (AsciiForm (data chk')) labels outs := by
  have hL := accepts_labels' h
  have hsc : ∀ l ∈ labels, ∀ c ∈ l, Spec.IsScalar c := fun l hl => label_scalar h hl
  have hform : ∀ a ∈ outs, ∃ l ∈ labels, AsciiForm (data chk) l a ∧ ∀ c ∈ a, c < 0x80 ∧ (c ∈ l ∨ (IsLdh c ∧ c ≠ 0x2E)) := by
    intro a ha
    obtain ⟨l, hl', hf⟩ := forall₂_right ho ha
    exact ⟨l, hl', hf, form_mem hf (by have := (hl l hl').1; omega) (hsc l hl')⟩
  have houts : Labels (join outs) outs := by
    refine ⟨?_, ?_, rfl⟩
    · intro he
      rw [he] at ho
      cases ho
      exact hL.1 rfl
    · intro a ha hdot
      obtain ⟨l, hl', _, hm⟩ := hform a ha
      rcases (hm _ hdot).2 with h1 | ⟨_, h1⟩
      · exact hL.2.1 l hl' h1
      · exact h1 rfl
  have hlt : ∀ c ∈ join outs, c < 0x80 := by
    intro c hc
    rcases join_mem hc with h1 | ⟨a, ha, hc⟩
    · omega
    · obtain ⟨l, _, _, hm⟩ := hform a ha
      exact (hm c hc).1
  have hstat : ∀ c ∈ join outs, c < 0x80 ∧ ∃ m, mappingOf c = .ok m ∧ Allowed std3 false m := by
    intro c hc
    refine ⟨hlt c hc, ?_⟩
    rcases join_mem hc with h1 | ⟨a, ha, hc⟩
    · exact ⟨.Valid, by rw [h1]; exact dot_valid, trivial⟩
    · obtain ⟨l, hl', _, hm⟩ := hform a ha
      rcases (hm c hc).2 with h1 | ⟨h1, _⟩
      · exact label_allowed h hl' c h1
      · exact ⟨.Valid, ldh_valid h1, trivial⟩
  have hbidi : BidiName (data chk') (join outs) outs → b = true := by
    rintro (h1 | ⟨q, l', h1, h2, h3⟩)
    · rw [data_cls] at h1
      exact absurd h1 (ascii_no_rtl hlt)
    · rw [data_cls] at h3
      obtain ⟨l, hl', hf⟩ := forall₂_right ho h1
      cases hf with
      | ascii h4 h5 => exact absurd ⟨h4, ⟨q, h5⟩⟩ (hl l hl').2
      | ace _ q' hq ha =>
        have hqq : q = q' := List.append_cancel_left ha
        subst hqq
        have h5 : Punycode.decode chk' q = .ok (some l') := h2
        rw [decode_form (hsc l hl') (hl l hl').1 hq] at h5
        simp only [Outcome.ok.injEq, Option.some.injEq] at h5
        subst h5
        exact hb ⟨l, hl', h3⟩
  obtain ⟨b', hb'⟩ : ∃ b' : Bool, b' = true ↔ BidiName (data chk') (join outs) outs := by
    by_cases hB : BidiName (data chk') (join outs) outs
    · exact ⟨true, by simp [hB]⟩
    · exact ⟨false, by simp [hB]⟩
  have hvalid : ∀ l ∈ labels, ∀ tr'', (tr'' = false ∨ ∀ c ∈ l, c < 0x80) → l = [] ∨ ValidLabel (data chk') std3 tr'' b' l := by
    intro l hl' tr'' htr
    obtain ⟨p, _, hc⟩ := forall₂_right h.conv hl'
    have key : ∀ t, (l = [] ∨ ValidLabel (data chk) std3 t b l) → l = [] ∨ ValidLabel (data chk') std3 tr'' b' l := by
      rintro t (h1 | h1)
      · exact .inl h1
      · right
        refine ⟨h1.nfc, h1.hyphens, h1.mark, ?_, fun hb1 => h1.bidi (hbidi (hb'.1 hb1))⟩
        intro c hc
        rcases htr with rfl | htr
        · exact label_allowed h hl' c hc
        · obtain ⟨m, h2, h3⟩ := label_allowed h hl' c hc
          refine ⟨m, h2, ?_⟩
          rcases ascii_status (htr c hc) with h4 | ⟨h4, _⟩ | ⟨_, _, s, h4⟩ <;> rw [h2] at h4 <;>
            simp only [Outcome.ok.injEq] at h4 <;> rw [h4] at h3 ⊢
          · trivial
          · exact h3
          · exact absurd h3 (by simp [Allowed])
    cases hc with
    | ace _ _ _ hv => exact key _ hv
    | plain _ _ hv => exact key _ hv
  have hboth := forall₂_mem_both ho (P := fun l => l ∈ labels) (fun _ h => h)
  refine ⟨b', ⟨?_, houts, ?_⟩, hb', ?_⟩
  · obtain ⟨ms, h1, h2, h3⟩ := valid_self hstat tr'
    refine ⟨ms, h1, h2, ?_⟩
    rw [h3]
    exact (nfc_ascii hlt).symm
  · refine List.Forall₂.flip (hboth.imp ?_)
    rintro l a ⟨hl', hf⟩
    cases hf with
    | ascii h1 ha =>
      rw [ha]
      exact .plain (fun hp => (hl l hl').2 ⟨h1, hp⟩) rfl (hvalid l hl' tr' (.inr h1))
    | ace _ q hq ha =>
      exact .ace q ha (decode_form (hsc l hl') (hl l hl').1 hq) (hvalid l hl' false (.inl rfl))
  · refine hboth.imp ?_
    rintro l a ⟨hl', hf⟩
    cases hf with
    | ascii h1 ha => exact .ascii h1 ha
    | ace h1 q hq ha =>
      refine .ace h1 q ?_ ha
      have hq' : Punycode.encode chk l = .ok (some q) := hq
      have h2 := (hl l hl').1
      rcases encode_spec (hsc l hl') (Props.Punycode.lt_max (by omega)) with ⟨h1, _⟩ | ⟨ds, h1, _, _⟩
      · omega
      · rw [h1 chk] at hq'
        have h3 : Punycode.encode chk' l = .ok (some q) := by rw [h1 chk']; exact hq'
        exact h3

theorem mapped_rtl (tr : Bool) {d : List Nat} {ms : List Mapping} (h : List.Forall₂ (fun c m => mappingOf c = .ok m) d ms) :
    (∀ c ∈ d, ¬ Alef c) → (∀ c ∈ d, rtlB c = false) → ∀ x ∈ (List.zipWith (replacement tr) d ms).flatten, rtlB x = false := by
  induction h with
  | nil => simp
  | cons h2 _ ih =>
    intro ha hd x hx
    rw [List.zipWith_cons_cons, List.flatten_cons, List.mem_append] at hx
    rcases hx with hx | hx
    · exact replacement_rtl tr h2 (ha _ (by simp)) (hd _ (by simp)) x hx
    · exact ih (fun c hc => ha c (by simp [hc])) (fun c hc => hd c (by simp [hc])) x hx

/-- apart from the four alef symbols, right-to-left characters in the result come from a Bidi name -/
theorem rtl_bidiName {chk std3 tr b : Bool} {d mapped : List Nat} {parts labels : List (List Nat)}
    (h : Accepts (data chk) std3 tr b d mapped parts labels) (ha : ∀ c ∈ d, ¬ Alef c)
    (hr : ∃ l ∈ labels, ∃ c ∈ l, Rtl Ucd.bidiClass c) : BidiName (data chk) d parts := by
  by_cases hd : ∃ c ∈ d, Rtl Ucd.bidiClass c
  · left; rw [data_cls]; exact hd
  · right
    obtain ⟨l, hl, c, hc, hcr⟩ := hr
    obtain ⟨p, hp, hconv⟩ := forall₂_right h.conv hl
    cases hconv with
    | ace q hq hdec _ =>
      refine ⟨q, l, by rw [← hq]; exact hp, hdec, c, hc, ?_⟩
      rw [data_cls]; exact hcr
    | plain _ hlp _ =>
      exfalso
      obtain ⟨ms, h1, _, h3⟩ := h.steps12
      have hno := mapped_rtl tr h1 ha (fun c hc => by
        cases hx : rtlB c with
        | false => rfl
        | true => exact absurd ⟨c, hc, rtlB_iff.1 hx⟩ hd)
      have hmapped := nfc_rtl hno
      rw [data_nfc] at h3
      rw [← h3, h.split.2.2] at hmapped
      have h4 := hmapped c (mem_join hp (by rw [← hlp]; exact hc))
      rw [rtlB_iff.2 hcr] at h4
      cases h4

theorem accepts_det {chk std3 tr b b' : Bool} {d mapped mapped' : List Nat} {parts labels parts' labels' : List (List Nat)}
    (h : Accepts (data chk) std3 tr b d mapped parts labels) (h' : Accepts (data chk) std3 tr b' d mapped' parts' labels') :
    parts = parts' ∧ labels = labels' := by
  obtain ⟨⟨ms, h1, h0, h2⟩, h3, h4⟩ := h
  obtain ⟨⟨ms', h1', h0', h2'⟩, h3', h4'⟩ := h'
  clear h0 h0'
  have hms : ms = ms' := by
    have a1 : List.Forall₂ (fun c m => mappingOf c = .ok m) d ms := h1
    have a2 : List.Forall₂ (fun c m => mappingOf c = .ok m) d ms' := h1'
    clear h1 h1' h2 h2'
    induction a1 generalizing ms' with
    | nil => cases a2; rfl
    | cons e1 _ ih =>
      cases a2 with
      | cons e2 r2 =>
        rw [e1] at e2
        simp only [Outcome.ok.injEq] at e2
        rw [e2, ih _ r2]
  subst hms
  have hm : mapped = mapped' := by rw [h2, h2']
  subst hm
  have hp : parts = parts' := by rw [labels_iff.1 h3, labels_iff.1 h3']
  subst hp
  refine ⟨rfl, ?_⟩
  clear h1 h1' h2 h2' h3 h3'
  induction h4 generalizing labels' with
  | nil => cases h4'; rfl
  | cons e1 _ ih =>
    cases h4' with
    | cons e2 r2 =>
      rw [ih r2]
      congr 1
      cases e1 with
      | ace q hq hd _ =>
        cases e2 with
        | ace q' hq' hd' _ =>
          rw [hq] at hq'
          have := List.append_cancel_left hq'
          subst this
          have a1 : Punycode.decodeToString chk q = .ok (some _) := hd
          have a2 : Punycode.decodeToString chk q = .ok (some _) := hd'
          rw [a1] at a2
          simpa using a2
        | plain hn _ _ => exact absurd ⟨q, hq.symm⟩ hn
      | plain hn hl _ =>
        cases e2 with
        | ace q hq _ _ => exact absurd ⟨q, hq.symm⟩ hn
        | plain _ hl' _ => rw [hl, hl']

/-- **C51** holds for names without the symbols U+2135..U+2138, as long as no label of the Unicode form has more than 3855
characters or is an ASCII label that begins with "xn--": the ASCII form leads back to the same Unicode form, and is a fixed
point of `to_ascii`; in either build. -/
theorem c51_partial (chk chk' : Bool) (d s r : List Nat) (flags : Flags) (hd : ∀ c ∈ d, ¬ (0x2135 ≤ c ∧ c ≤ 0x2138))
    (htr : flags.transitionalProcessing = false)
    (hs : ∀ ls, Labels s ls → ∀ l ∈ ls, l.length ≤ 3855 ∧ ¬ ((∀ c ∈ l, c < 0x80) ∧ ace <+: l))
    (hu : toUnicode chk d flags = .ok (s, [])) (ha : toAscii chk d flags = .ok (.ok r)) :
    toUnicode chk' r flags = .ok (s, []) ∧ toAscii chk' r flags = .ok (.ok r) := by
  rw [c52_to_unicode] at hu
  obtain ⟨b, mapped, parts, labels, h1, h2, rfl⟩ := hu
  rw [c52_to_ascii, htr] at ha
  obtain ⟨b', mapped', parts', labels', h1', h2', outs, h3, rfl, h4⟩ := ha
  obtain ⟨hp, rfl⟩ := accepts_det h1 h1'
  have hL := hs _ (accepts_labels' h1)
  have hb := fun hr => h2.2 (rtl_bidiName h1 hd hr)
  constructor
  · rw [c52_to_unicode]
    obtain ⟨b2, h5, h6, _⟩ := reaccept chk' false h1 h3 hL hb
    exact ⟨b2, _, outs, labels, h5, h6, rfl⟩
  · rw [c52_to_ascii, htr]
    obtain ⟨b2, h5, h6, h7⟩ := reaccept chk' false h1 h3 hL hb
    exact ⟨b2, _, outs, labels, h5, h6, outs, h7, rfl, h4⟩

/-- **C51**, `to_ascii` alone: with any flags, transitional or not, and provided the labels of the processed name are as in
`c51_partial`, the result is a fixed point for the same flags and `to_unicode` accepts it. -/
theorem c51_ascii_partial (chk chk' : Bool) (d r : List Nat) (flags : Flags) (hd : ∀ c ∈ d, ¬ (0x2135 ≤ c ∧ c ≤ 0x2138))
    (hs : ∀ b mapped parts labels, Accepts (data chk) flags.useStd3AsciiRules flags.transitionalProcessing b d mapped parts labels →
      ∀ l ∈ labels, l.length ≤ 3855 ∧ ¬ ((∀ c ∈ l, c < 0x80) ∧ ace <+: l))
    (ha : toAscii chk d flags = .ok (.ok r)) :
    toAscii chk' r flags = .ok (.ok r) ∧ ∃ s, toUnicode chk' r flags = .ok (s, []) := by
  rw [c52_to_ascii] at ha
  obtain ⟨b, mapped, parts, labels, h1, h2, outs, h3, rfl, h4⟩ := ha
  have hL := hs _ _ _ _ h1
  have hb := fun hr => h2.2 (rtl_bidiName h1 hd hr)
  constructor
  · rw [c52_to_ascii]
    obtain ⟨b2, h5, h6, h7⟩ := reaccept chk' flags.transitionalProcessing h1 h3 hL hb
    exact ⟨b2, _, outs, labels, h5, h6, outs, h7, rfl, h4⟩
  · obtain ⟨b2, h5, h6, _⟩ := reaccept chk' false h1 h3 hL hb
    refine ⟨join labels, ?_⟩
    rw [c52_to_unicode]
    exact ⟨b2, _, outs, labels, h5, h6, rfl⟩

/-! ## C53: the Bidi rule -/

/-- the statement of C53: if an accepted name contains a right-to-left character, all its labels obey the Bidi rule -/
def BidiEnforced : Prop := ∀ (chk : Bool) (d s : List Nat) (flags : Flags), (∀ c ∈ d, Spec.IsScalar c) →
  toUnicode chk d flags = .ok (s, []) → (∃ c ∈ s, Rtl Ucd.bidiClass c) → ∀ ls, Labels s ls → ∀ l ∈ ls, l ≠ [] → BidiRule Ucd.bidiClass l

/-- **C53** fails on the alef symbol U+2135 followed by "a". -/
theorem c53_false : ¬ BidiEnforced := by
  intro h
  have h1 : toUnicode true [0x2135, 0x61] f000 = .ok ([0x5D0, 0x61], []) := by rw [toUnicode, shipped_eq]; decide +kernel
  have c1 : Ucd.bidiClass 0x5D0 = .RightToLeft := by rw [bidi_lookup]; decide +kernel
  have c2 : Ucd.bidiClass 0x61 = .LeftToRight := by rw [bidi_lookup]; decide +kernel
  have h2 := h true _ _ f000 (by decide) h1 ⟨0x5D0, by simp, by rw [Rtl, c1]; simp⟩ [[0x5D0, 0x61]] ⟨by simp, by simp, rfl⟩ [0x5D0, 0x61] (by simp) (by simp)
  have h3 := h2.two 0x5D0 [0x61] rfl (by rw [c1]; simp) 0x61 (by simp)
  rw [c2] at h3
  simp at h3

/-- **C53** holds for names without the symbols U+2135..U+2138. -/
theorem c53_partial (chk : Bool) (d s : List Nat) (flags : Flags) (hd : ∀ c ∈ d, ¬ (0x2135 ≤ c ∧ c ≤ 0x2138))
    (h : toUnicode chk d flags = .ok (s, [])) (hr : ∃ c ∈ s, Rtl Ucd.bidiClass c) :
    ∀ ls, Labels s ls → ∀ l ∈ ls, l ≠ [] → BidiRule Ucd.bidiClass l := by
  rw [c52_to_unicode] at h
  obtain ⟨b, mapped, parts, labels, h1, h2, rfl⟩ := h
  intro ls hls l hl hne
  have he : ls = labels := by rw [labels_iff.1 hls, ← labels_iff.1 (accepts_labels' h1)]
  subst he
  obtain ⟨c, hc, hcr⟩ := hr
  have hrl : ∃ l ∈ ls, ∃ c ∈ l, Rtl Ucd.bidiClass c := by
    rcases join_mem hc with h3 | ⟨l, hl, hcl⟩
    · exact absurd hcr (ascii_bidi (by omega))
    · exact ⟨l, hl, c, hcl, hcr⟩
  have hb := h2.2 (rtl_bidiName h1 hd hrl)
  obtain ⟨p, _, hconv⟩ := forall₂_right h1.conv hl
  have key : ∀ t, (l = [] ∨ ValidLabel (data chk) flags.useStd3AsciiRules t b l) → BidiRule Ucd.bidiClass l := by
    rintro t (h3 | h3)
    · exact absurd h3 hne
    · have := h3.bidi hb
      rwa [data_cls] at this
  cases hconv with
  | ace _ _ _ hv => exact key _ hv
  | plain _ _ hv => exact key _ hv

/-- **C53.** A name that contains a right-to-left character itself is only accepted if all its labels obey the rule. -/
theorem c53_input (chk : Bool) (d s : List Nat) (flags : Flags) (hd : ∃ c ∈ d, Rtl Ucd.bidiClass c)
    (h : toUnicode chk d flags = .ok (s, [])) : ∀ ls, Labels s ls → ∀ l ∈ ls, l ≠ [] → BidiRule Ucd.bidiClass l := by
  rw [c52_to_unicode] at h
  obtain ⟨b, mapped, parts, labels, h1, h2, rfl⟩ := h
  intro ls hls l hl hne
  have he : ls = labels := by rw [labels_iff.1 hls, ← labels_iff.1 (accepts_labels' h1)]
  subst he
  have hb := h2.2 (.inl (by rw [data_cls]; exact hd))
  obtain ⟨p, _, hconv⟩ := forall₂_right h1.conv hl
  have key : ∀ t, (l = [] ∨ ValidLabel (data chk) flags.useStd3AsciiRules t b l) → BidiRule Ucd.bidiClass l := by
    rintro t (h3 | h3)
    · exact absurd h3 hne
    · have := h3.bidi hb
      rwa [data_cls] at this
  cases hconv with
  | ace _ _ _ hv => exact key _ hv
  | plain _ _ hv => exact key _ hv

/-- Hebrew "אב1" is accepted, "אa" is not -/
example : toUnicode true [0x5D0, 0x5D1, 0x31] f000 = .ok ([0x5D0, 0x5D1, 0x31], []) ∧
    toUnicode true [0x5D0, 0x61] f000 = .ok ([0x5D0, 0x61], [.ValidityCriteria]) := by
  rw [toUnicode, toUnicode, shipped_eq]; decide +kernel

/-! ## C54: no panics -/

/-- **C54.** `to_unicode` returns, in a debug or a release build, on every text of fewer than 2^23 characters. -/
theorem c54_to_unicode (chk : Bool) (d : List Nat) (flags : Flags) (h : ∀ c ∈ d, Spec.IsScalar c) (hlen : d.length < 2 ^ 23) :
    ∃ s errors, toUnicode chk d flags = .ok (s, errors) ∧ ∀ c ∈ s, Spec.IsScalar c :=
  processing_total chk _ h hlen

theorem asciiLabels_total {chk : Bool} : ∀ (ls : List (List Nat)) (first : Bool) (v : List Nat) (errors : List Error),
    (∀ l ∈ ls, ∃ r, Punycode.encode chk l = .ok r) → ∃ r, asciiLabels chk ls first v errors = .ok r := by
  intro ls
  induction ls with
  | nil => intro first v errors _; exact ⟨_, rfl⟩
  | cons l ls ih =>
    intro first v errors h
    have ih' := fun v e => ih false v e (fun x hx => h x (by simp [hx]))
    rw [asciiLabels]
    split
    · split <;> exact ih' _ _
    · obtain ⟨r, hr⟩ := h l (by simp)
      have hr' : Punycode.encodeStr chk l = .ok r := hr
      rw [hr', bind_ok]
      cases r with
      | none => exact ih' _ _
      | some x => exact ih' _ _

theorem toAscii_total {chk : Bool} {d s : List Nat} {errors : List Error} {flags : Flags} (h : processing shipped chk d flags = .ok (s, errors))
    (hs : ∀ l ∈ splitDot s, ∃ r, Punycode.encode chk l = .ok r) : ∃ r, toAscii chk d flags = .ok r := by
  rw [toAscii, toAsciiWith, h, bind_ok]
  simp only
  obtain ⟨⟨r, e⟩, h1⟩ := asciiLabels_total (splitDot s) true [] errors hs
  rw [h1, bind_ok]
  simp only
  split <;> split <;> exact ⟨_, rfl⟩

/-- **C54.** `to_ascii` returns in a release build on every text of fewer than 2^23 characters. -/
theorem c54_to_ascii_release (d : List Nat) (flags : Flags) (h : ∀ c ∈ d, Spec.IsScalar c) (hlen : d.length < 2 ^ 23) :
    ∃ r, toAscii false d flags = .ok r := by
  obtain ⟨s, es, h1, h2, h3⟩ := processing_length false flags h hlen
  refine toAscii_total h1 (fun l hl => ?_)
  have hL := splitDot_labels s
  have h4 := Props.Punycode.c22_digit_range l (fun c hc => h2 c (by rw [hL.2.2]; exact mem_join hl hc)) (by
    have := label_length hl
    omega)
  cases he : Punycode.encode false l with
  | ok r => exact ⟨r, rfl⟩
  | panic => exact absurd he h4

/-- the statement of C54 for debug builds of `to_ascii` -/
def AsciiReturns : Prop := ∀ (d : List Nat) (flags : Flags), (∀ c ∈ d, Spec.IsScalar c) → d.length < 2 ^ 23 → ∃ r, toAscii true d flags = .ok r

/-- **C54** for a debug build of `to_ascii`: it returns if no label of the processed name, `to_unicode`'s result, has more than 3855
characters. -/
theorem c54_to_ascii_partial (d s : List Nat) (errors : List Error) (flags : Flags) (h : ∀ c ∈ d, Spec.IsScalar c) (hlen : d.length < 2 ^ 23)
    (htr : flags.transitionalProcessing = false) (hu : toUnicode true d flags = .ok (s, errors))
    (hs : ∀ ls, Labels s ls → ∀ l ∈ ls, l.length ≤ 3855) : ∃ r, toAscii true d flags = .ok r := by
  obtain ⟨s', es, h1, h2, h3⟩ := processing_length true flags h hlen
  have hf : { flags with transitionalProcessing := false } = flags := by cases flags; simp_all
  rw [toUnicode, toUnicodeWith, hf, h1] at hu
  simp only [Outcome.ok.injEq, Prod.mk.injEq] at hu
  obtain ⟨rfl, rfl⟩ := hu
  refine toAscii_total h1 (fun l hl => ?_)
  have hL := splitDot_labels s'
  obtain ⟨p, hp⟩ := Props.Punycode.c23_encode true l (fun c hc => h2 c (by rw [hL.2.2]; exact mem_join hl hc)) (hs _ hL l hl)
  exact ⟨_, hp⟩

section
open Proofs.NormalGood Proofs.NormalAlg Spec.Normal Proofs.CanonOrder Model.Normal Model.UcdNormal

local notation "ccc" => Ucd.combiningClass

/-- text of starters that neither decompose nor compose is unchanged -/
theorem nfc_inert {s : List Nat} (h : ∀ c ∈ s, D false c = [c] ∧ ccc c = 0) (hc : ∀ a ∈ s, ∀ b ∈ s, compose a b = none) : nfc s = s := by
  have hord : order ccc s = s := by
    refine order_of_adjOrd ?_
    clear hc
    induction s with
    | nil => trivial
    | cons a s ih =>
      cases s with
      | nil => trivial
      | cons b s =>
        refine ⟨?_, ih fun c hc => h c (by simp [hc])⟩
        have := (h b (by simp)).2
        omega
  have hfold : ∀ (t : List Nat) (w : Walk), (∀ c ∈ t, c ∈ s) → (∀ l, w.starter = some l → l ∈ s) →
      (t.foldl (walkStep ccc compose) w).text = w.text ++ t := by
    intro t
    induction t with
    | nil => intros; simp
    | cons c t ih =>
      intro w ht hw
      have hcs := ht c (by simp)
      have h1 : walkStep ccc compose w c = ⟨w.text, some c, []⟩ := by
        unfold walkStep
        simp only [(h c hcs).2, if_true]
        cases hst : w.starter with
        | none => rfl
        | some l =>
          simp only [hc l (hw l hst) c hcs]
          split <;> rfl
      rw [List.foldl_cons, h1, ih _ (fun c hc => ht c (by simp [hc])) (fun l hl => by simp only [Option.some.injEq] at hl; rw [← hl]; exact hcs)]
      simp [Walk.text]
  rw [Props.Normal.nfc_eq, nc, nd, flatMap_irr fun c hc => (h c hc).1, hord, composed, hfold s _ (fun _ h => h) (by simp)]
  simp [Walk.text]

end

theorem splitDot_single' {d : List Nat} (h : 0x2E ∉ d) : splitDot d = [d] := by
  have := splitDot_join (ls := [d]) (by simp) (by simpa using h)
  exact this

/-- a name of one label without "xn--" that is mapped to itself comes out of processing unchanged, with or without errors -/
theorem processing_single (chk : Bool) {d : List Nat} (flags : Flags) (hs : ∀ c ∈ d, Spec.IsScalar c) (hlen : d.length < 2 ^ 23)
    (hm : ∀ c ∈ d, mappingOf c = .ok .Valid ∨ mappingOf c = .ok .Disallowed) (hn : Normal.nfc d = d) (hdot : 0x2E ∉ d)
    (hp : hasPrefix d = false) : ∃ es, processing shipped chk d flags = .ok (d, es) := by
  obtain ⟨s, es, h1, _⟩ := processing_total chk flags hs hlen
  refine ⟨es, ?_⟩
  rw [h1]
  congr 2
  obtain ⟨ms, hms⟩ := exists_status hs
  obtain ⟨es', h3, h0⟩ := mapChars_total (u := shipped) flags d ms [] [] (by rw [shipped_mapping]; exact hms)
  clear h0
  have hrep : (List.zipWith (replacement flags.transitionalProcessing) d ms).flatten = d := by
    clear h1 h3 hn hp hdot hlen hs
    induction hms with
    | nil => rfl
    | cons e1 _ ih =>
      rw [List.zipWith_cons_cons, List.flatten_cons, ih (fun c hc => hm c (by simp [hc]))]
      rcases hm _ List.mem_cons_self with e2 | e2 <;> rw [e1] at e2 <;> simp only [Outcome.ok.injEq] at e2 <;> rw [e2] <;> rfl
  unfold processing at h1
  rw [h3, bind_ok] at h1
  simp only [List.nil_append, hrep] at h1
  rw [shipped_nfc, hn, splitDot_single' hdot] at h1
  have key : ∀ b, validateLabels shipped chk flags b [d] true [] es' = .ok (s, es) → s = d := by
    intro b hb
    rw [validateLabels] at hb
    simp only [hp, Bool.false_eq_true, if_false, bind_eq_ok, Bool.not_true] at hb
    obtain ⟨_, _, hb⟩ := hb
    rw [validateLabels] at hb
    simp only [List.nil_append, Outcome.ok.injEq, Prod.mk.injEq] at hb
    exact hb.1.symm
  split at h1
  · rw [bind_eq_ok] at h1
    obtain ⟨b, _, h1⟩ := h1
    exact key b h1
  · rw [bind_ok] at h1
    exact key _ h1

/-- **C54** fails for debug builds: a name of 3855 letters "a" and the private-use character U+10FF70 makes `to_ascii` panic
with an arithmetic overflow, although it is going to be rejected anyway. -/
theorem c54_to_ascii_false : ¬ AsciiReturns := by
  intro h
  have hmem : ∀ c ∈ List.replicate 3855 0x61 ++ [0x10FF70], c = 0x61 ∨ c = 0x10FF70 := by
    intro c hc
    rw [List.mem_append, List.mem_singleton] at hc
    rcases hc with hc | hc
    · exact .inl (List.eq_of_mem_replicate hc)
    · exact .inr hc
  have hsc : ∀ c ∈ List.replicate 3855 0x61 ++ [0x10FF70], Spec.IsScalar c := by
    intro c hc
    have := hmem c hc
    unfold Spec.IsScalar
    omega
  have hlen : (List.replicate 3855 0x61 ++ [0x10FF70]).length < 2 ^ 23 := by
    rw [List.length_append, List.length_replicate, List.length_singleton]; omega
  have m1 : mappingOf 0x61 = .ok .Valid := by rw [mappingOf_eq]; decide +kernel
  have m2 : mappingOf 0x10FF70 = .ok .Disallowed := by rw [mappingOf_eq]; decide +kernel
  have d1 : Proofs.NormalGood.D false 0x61 = [0x61] := Proofs.NormalGood.D_ascii false (by omega)
  have d2 : Proofs.NormalGood.D false 0x10FF70 = [0x10FF70] := by
    have hs : Hangul.isSyllable 0x10FF70 = false := by decide +kernel
    have hm : Proofs.DecompGen.tableMap UcdNormal.canonicalDecomposition UcdNormal.compatibilityDecomposition false 0x10FF70 = none := by
      rw [Proofs.DecompGen.tableMap, Proofs.DecompData.canonicalDecomposition_eq]; decide +kernel
    rw [Proofs.NormalGood.D, Proofs.DecompGen.full_none' (Proofs.DecompData.levelled false) hs hm]
  have k1 : Ucd.combiningClass 0x61 = 0 := by rw [Proofs.DecompData.combiningClass_eq]; decide +kernel
  have k2 : Ucd.combiningClass 0x10FF70 = 0 := by rw [Proofs.DecompData.combiningClass_eq]; decide +kernel
  have hn : Normal.nfc (List.replicate 3855 0x61 ++ [0x10FF70]) = List.replicate 3855 0x61 ++ [0x10FF70] := by
    refine nfc_inert (fun c hc => ?_) (fun a ha b hb => ?_)
    · rcases hmem c hc with h | h <;> rw [h]
      · exact ⟨d1, k1⟩
      · exact ⟨d2, k2⟩
    · rcases hmem a ha with h | h <;> rcases hmem b hb with h' | h' <;> rw [h, h', Proofs.CompData.compose_eq] <;> decide +kernel
  obtain ⟨es, h1⟩ := processing_single true f000 hsc hlen (fun c hc => by
    rcases hmem c hc with h | h <;> rw [h]
    · exact .inl m1
    · exact .inr m2) hn (fun hd => by have := hmem _ hd; omega) (by decide +kernel)
  obtain ⟨r, hr⟩ := h (List.replicate 3855 0x61 ++ [0x10FF70]) f000 hsc hlen
  rw [toAscii, toAsciiWith, h1, bind_ok] at hr
  simp only at hr
  rw [splitDot_single' (fun hd => by have := hmem _ hd; omega), asciiLabels] at hr
  have hna : (List.replicate 3855 0x61 ++ [0x10FF70]).all (· < 0x80) = false := by
    rw [List.all_eq_false]
    exact ⟨0x10FF70, List.mem_append_right _ (List.mem_singleton.2 rfl), by decide⟩
  have he : Punycode.encodeStr true (List.replicate 3855 0x61 ++ [0x10FF70]) = .panic := Props.Punycode.c23_encode_limit.1
  simp only [hna, he, Bool.false_eq_true, if_false, bind_panic] at hr
  cases hr

end Props.Idna
