import Verif.Model.Echo
import Verif.Spec.Echo
import Verif.Proofs.Hex
import Verif.Proofs.Utf
import Verif.Props.Cli
import Mathlib.Data.List.Induction

namespace Proofs.Echo
open Model Model.Echo Model.Hex Model.Utf Spec.Echo
open Proofs.Hex (val val_append val_mono)

/-! ## Numerals -/

theorem toDigit_iff (c v : Nat) : toDigit c = some v ↔ HexDigit c v := by
  rw [Proofs.Hex.toDigit_def]
  unfold HexDigit
  split_ifs <;> simp <;> omega

theorem numeral_val {ds : List Nat} {n : Nat} (h : Numeral ds n) : (∀ c ∈ ds, (toDigit c).isSome) ∧ val 0 ds = n ∧ ds ≠ [] := by
  induction h with
  | one h =>
    rw [← toDigit_iff] at h
    simp [val, h]
  | snoc _ h ih =>
    rw [← toDigit_iff] at h
    obtain ⟨h1, h2, h3⟩ := ih
    refine ⟨?_, ?_, by simp⟩
    · intro c hc
      rcases List.mem_append.1 hc with hc | hc
      · exact h1 c hc
      · rw [List.mem_singleton.1 hc, h]; rfl
    · rw [val_append, h2]; simp [val, h]

theorem numeral_of : ∀ (ds : List Nat), (∀ c ∈ ds, (toDigit c).isSome) → ds ≠ [] → Numeral ds (val 0 ds) := by
  intro ds
  induction ds using List.reverseRecOn with
  | nil => intro _ h; exact absurd rfl h
  | append_singleton ds c ih =>
    intro h1 _
    obtain ⟨v, hv⟩ := Option.isSome_iff_exists.1 (h1 c (by simp))
    by_cases he : ds = []
    · subst he
      simpa [val, hv] using Numeral.one ((toDigit_iff c v).1 hv)
    · have := Numeral.snoc (ih (fun c hc => h1 c (by simp [hc])) he) ((toDigit_iff c v).1 hv)
      rw [val_append]
      simpa [val, hv] using this

theorem numeral_iff (ds : List Nat) (n : Nat) : Numeral ds n ↔ (∀ c ∈ ds, (toDigit c).isSome) ∧ val 0 ds = n ∧ ds ≠ [] := by
  constructor
  · exact numeral_val
  · rintro ⟨h1, rfl, h3⟩
    exact numeral_of ds h1 h3

theorem parseLoop_iff (max acc : Nat) (ds : List Nat) (v : Nat) (ha : acc ≤ max) :
    parseLoop max acc ds = some v ↔ (∀ c ∈ ds, (toDigit c).isSome) ∧ val acc ds = v ∧ v ≤ max := by
  constructor
  · intro h
    induction ds generalizing acc with
    | nil =>
      simp only [parseLoop, Option.some.injEq] at h
      subst h
      simp [val, ha]
    | cons d ds ih =>
      rw [parseLoop] at h
      split at h
      · cases h
      · rename_i x hx
        split_ifs at h with h1
        obtain ⟨i1, i2, i3⟩ := ih _ h1 h
        refine ⟨?_, ?_, i3⟩
        · intro c hc
          rcases List.mem_cons.1 hc with rfl | hc
          · rw [hx]; rfl
          · exact i1 c hc
        · rw [← i2]; simp [val, hx]
  · rintro ⟨h1, rfl, h3⟩
    exact Proofs.Hex.parseLoop_eq max acc ds h1 h3

theorem hexDigit_ne {c v : Nat} (h : HexDigit c v) : c ≠ 43 ∧ c ≠ 120 ∧ c ≠ 88 ∧ c ≠ 85 ∧ c ≠ 117 ∧ c ≠ 125 ∧ c ≠ 123 := by
  unfold HexDigit at h; omega

theorem numeral_digit {ds : List Nat} {n : Nat} (h : Numeral ds n) {c : Nat} (hc : c ∈ ds) : ∃ v, HexDigit c v := by
  obtain ⟨v, hv⟩ := Option.isSome_iff_exists.1 ((numeral_val h).1 c hc)
  exact ⟨v, (toDigit_iff c v).1 hv⟩

theorem fromStr_iff (max : Nat) (t : List Nat) (v : Nat) :
    fromStrRadix16 max t = some v ↔ v ≤ max ∧ ∃ plus ds, (plus = [] ∨ plus = [43]) ∧ Numeral ds v ∧ t = plus ++ ds := by
  constructor
  · intro h
    cases t with
    | nil => simp [fromStrRadix16] at h
    | cons c cs =>
      rw [fromStrRadix16] at h
      split_ifs at h with hc hcs
      · rw [parseLoop_iff _ _ _ _ (Nat.zero_le _)] at h
        refine ⟨h.2.2, [43], cs, Or.inr rfl, (numeral_iff _ _).2 ⟨h.1, h.2.1, ?_⟩, by rw [hc]; rfl⟩
        simpa using hcs
      · rw [parseLoop_iff _ _ _ _ (Nat.zero_le _)] at h
        exact ⟨h.2.2, [], c :: cs, Or.inl rfl, (numeral_iff _ _).2 ⟨h.1, h.2.1, by simp⟩, rfl⟩
  · rintro ⟨hv, plus, ds, hp, hn, rfl⟩
    have hn' := numeral_val hn
    have hl : parseLoop max 0 ds = some v := (parseLoop_iff _ _ _ _ (Nat.zero_le _)).2 ⟨hn'.1, hn'.2.1, hv⟩
    rcases hp with rfl | rfl
    · cases ds with
      | nil => exact absurd rfl hn'.2.2
      | cons c cs =>
        obtain ⟨x, hx⟩ := numeral_digit hn (List.mem_cons_self)
        rw [List.nil_append, fromStrRadix16, if_neg (hexDigit_ne hx).1]
        exact hl
    · rw [List.cons_append, List.nil_append, fromStrRadix16, if_pos rfl]
      cases ds with
      | nil => exact absurd rfl hn'.2.2
      | cons c cs => simpa using hl

/-! ## Prefixes -/

theorem stripU_iff (max : Nat) (t : List Nat) (v : Nat) :
    fromStrRadix16 max (Cli.stripU t) = some v ↔ v ≤ max ∧ Token codepointPrefixes t v := by
  have hcases : (∃ p cs, p ∈ codepointPrefixes ∧ t = p ++ cs ∧ Cli.stripU t = cs) ∨
      (Cli.stripU t = t ∧ ∀ p ∈ codepointPrefixes, ∀ cs, t ≠ p ++ cs) := by
    unfold Cli.stripU codepointPrefixes
    split
    · rename_i c cs
      split_ifs with h
      · left
        rcases h with rfl | rfl
        · exact ⟨_, cs, List.mem_cons_self, rfl, rfl⟩
        · exact ⟨[117, 43], cs, by simp, rfl, rfl⟩
      · right
        refine ⟨rfl, ?_⟩
        simp only [List.mem_cons, List.not_mem_nil, or_false]
        rintro p (rfl | rfl) cs <;> simp <;> omega
    · rename_i h
      right
      refine ⟨rfl, ?_⟩
      simp only [List.mem_cons, List.not_mem_nil, or_false]
      rintro p (rfl | rfl) cs e <;> exact h _ _ e
  have hmem : ∀ p ∈ codepointPrefixes, ∃ x, p = [x, 43] ∧ (x = 85 ∨ x = 117) := by
    unfold codepointPrefixes; simp
  constructor
  · intro h
    obtain ⟨hv, plus, ds, hp, hn, e⟩ := (fromStr_iff _ _ _).1 h
    refine ⟨hv, ?_⟩
    rcases hcases with ⟨p, cs, hpm, rfl, hs⟩ | ⟨hs, _⟩
    · exact ⟨p, plus, ds, Or.inr hpm, hp, hn, by rw [← e, hs]⟩
    · exact ⟨[], plus, ds, Or.inl rfl, hp, hn, by rw [← e, hs]; rfl⟩
  · rintro ⟨hv, p, plus, ds, hpm, hp, hn, e⟩
    refine (fromStr_iff _ _ _).2 ⟨hv, plus, ds, hp, hn, ?_⟩
    rcases hpm with rfl | hpm
    · rcases hcases with ⟨q, cs, hq, e', _⟩ | ⟨hs, _⟩
      · exfalso
        obtain ⟨x, rfl, hx⟩ := hmem q hq
        rw [e] at e'
        rcases hp with rfl | rfl
        · have hm : x ∈ ds := by
            have : ds = x :: 43 :: cs := by simpa using e'
            rw [this]; simp
          obtain ⟨y, hy⟩ := numeral_digit hn hm
          have := hexDigit_ne hy; omega
        · simp at e'; omega
      · rw [hs, e]; rfl
    · rcases hcases with ⟨q, cs, hq, e', hs⟩ | ⟨_, hno⟩
      · obtain ⟨x, rfl, _⟩ := hmem q hq
        obtain ⟨y, rfl, _⟩ := hmem p hpm
        rw [hs]
        rw [e'] at e
        simpa using (by simpa using e : x = y ∧ cs = plus ++ ds).2
      · exact absurd e (hno p hpm _)

theorem strip0x_iff (max : Nat) (t : List Nat) (v : Nat) :
    fromStrRadix16 max (Cli.strip0x t) = some v ↔ v ≤ max ∧ Token hexPrefixes t v := by
  have hcases : (∃ p cs, p ∈ hexPrefixes ∧ t = p ++ cs ∧ Cli.strip0x t = cs) ∨
      (Cli.strip0x t = t ∧ ∀ p ∈ hexPrefixes, ∀ cs, t ≠ p ++ cs) := by
    unfold Cli.strip0x hexPrefixes
    split
    · rename_i c cs
      split_ifs with h
      · left
        rcases h with rfl | rfl
        · exact ⟨_, cs, List.mem_cons_self, rfl, rfl⟩
        · exact ⟨[48, 88], cs, by simp, rfl, rfl⟩
      · right
        refine ⟨rfl, ?_⟩
        simp only [List.mem_cons, List.not_mem_nil, or_false]
        rintro p (rfl | rfl) cs <;> simp <;> omega
    · rename_i h
      right
      refine ⟨rfl, ?_⟩
      simp only [List.mem_cons, List.not_mem_nil, or_false]
      rintro p (rfl | rfl) cs e <;> exact h _ _ e
  have hmem : ∀ p ∈ hexPrefixes, ∃ x, p = [48, x] ∧ (x = 120 ∨ x = 88) := by
    unfold hexPrefixes; simp
  constructor
  · intro h
    obtain ⟨hv, plus, ds, hp, hn, e⟩ := (fromStr_iff _ _ _).1 h
    refine ⟨hv, ?_⟩
    rcases hcases with ⟨p, cs, hpm, rfl, hs⟩ | ⟨hs, _⟩
    · exact ⟨p, plus, ds, Or.inr hpm, hp, hn, by rw [← e, hs]⟩
    · exact ⟨[], plus, ds, Or.inl rfl, hp, hn, by rw [← e, hs]; rfl⟩
  · rintro ⟨hv, p, plus, ds, hpm, hp, hn, e⟩
    refine (fromStr_iff _ _ _).2 ⟨hv, plus, ds, hp, hn, ?_⟩
    rcases hpm with rfl | hpm
    · rcases hcases with ⟨q, cs, hq, e', _⟩ | ⟨hs, _⟩
      · exfalso
        obtain ⟨x, rfl, hx⟩ := hmem q hq
        rw [e] at e'
        rcases hp with rfl | rfl
        · have hm : x ∈ ds := by
            have : ds = 48 :: x :: cs := by simpa using e'
            rw [this]; simp
          obtain ⟨y, hy⟩ := numeral_digit hn hm
          have := hexDigit_ne hy; omega
        · simp at e'
      · rw [hs, e]; rfl
    · rcases hcases with ⟨q, cs, hq, e', hs⟩ | ⟨_, hno⟩
      · obtain ⟨x, rfl, _⟩ := hmem q hq
        obtain ⟨y, rfl, _⟩ := hmem p hpm
        rw [hs]
        rw [e'] at e
        exact (by simpa using e : x = y ∧ cs = plus ++ ds).2
      · exact absurd e (hno p hpm _)

/-! ## Cutting -/

theorem split_cut (sep : Nat → Bool) (s : List Nat) : Cut (fun c => sep c = true) s (Cli.split sep s) := by
  induction s with
  | nil => exact Cut.last (by simp)
  | cons c s ih =>
    rw [Cli.split]
    split
    · rename_i h
      exact Cut.more (t := []) (by simp) h ih
    · rename_i h
      cases hs : Cli.split sep s with
      | nil => exact absurd hs (Props.Cli.split_ne_nil sep s)
      | cons t ts =>
        rw [hs] at ih
        simp only
        generalize hu : t :: ts = us at ih
        cases ih with
        | last h' =>
          obtain ⟨rfl, rfl⟩ := List.cons.inj hu
          refine Cut.last ?_
          intro x hx
          rcases List.mem_cons.1 hx with rfl | hx
          · exact h
          · exact h' x hx
        | more h1 h2 h3 =>
          obtain ⟨rfl, rfl⟩ := List.cons.inj hu
          rw [← List.cons_append]
          refine Cut.more ?_ h2 h3
          intro x hx
          rcases List.mem_cons.1 hx with rfl | hx
          · exact h
          · exact h1 x hx

theorem cut_split (sep : Nat → Bool) {s : List Nat} {ts : List (List Nat)} (h : Cut (fun c => sep c = true) s ts) :
    Cli.split sep s = ts := by
  induction h with
  | last h =>
    have := Props.Cli.split_token sep _ [] (fun c hc => by simpa using h c hc) [] [] rfl
    simpa using this
  | more h1 h2 _ ih =>
    have := Props.Cli.split_token sep _ _ (fun c hc => by simpa using h1 c hc) [] _ (by rw [Props.Cli.split_cons_sep h2, ih])
    simpa using this

theorem cut_iff (sep : Nat → Bool) (s : List Nat) (ts : List (List Nat)) :
    Cut (fun c => sep c = true) s ts ↔ Cli.split sep s = ts :=
  ⟨cut_split sep, fun h => h ▸ split_cut sep s⟩

theorem traverse_iff (f : List Nat → Option Nat) (ts : List (List Nat)) (vs : List Nat) :
    Cli.traverse f ts = .ok vs ↔ List.Forall₂ (fun t v => f t = some v) ts vs := by
  induction ts generalizing vs with
  | nil =>
    constructor
    · intro h; cases h; exact List.Forall₂.nil
    · intro h; cases h; rfl
  | cons t ts ih =>
    rw [Cli.traverse]
    constructor
    · intro h
      split at h
      · cases h
      · rename_i v hv
        split at h
        · rename_i us hu
          cases h
          exact List.Forall₂.cons hv ((ih us).1 hu)
        · cases h
    · intro h
      cases h with
      | cons h1 h2 => rw [h1]; simp only; rw [(ih _).2 h2]

theorem word_iff (w : Nat → Bool) (c : Nat) : Cli.isWord w c = true ↔ Word w c := by
  unfold Cli.isWord Word
  split_ifs with h
  · simp only [Bool.or_eq_true, Bool.and_eq_true, decide_eq_true_eq, beq_iff_eq]; omega
  · constructor
    · intro hw; right; right; right; right; exact ⟨by omega, hw⟩
    · rintro (h' | h' | h' | h' | h')
      · omega
      · omega
      · omega
      · omega
      · exact h'.2

/-! ## UTF-8 and UTF-16, the other way -/

theorem decodeFirst_some {bs : List Nat} {c : Nat} {rest : List Nat} (h : decodeFirst bs = some (c, rest)) :
    Spec.IsScalar c ∧ bs = encodeUtf8 c ++ rest := by
  unfold decodeFirst at h
  split at h
  · cases h
  · rename_i b0 r
    split at h
    · cases h
      exact ⟨by unfold Spec.IsScalar; omega, by unfold encodeUtf8; rw [if_pos (by assumption)]; rfl⟩
    · split at h
      · rename_i h0 h1
        rw [Proofs.Utf.inB_iff] at h1
        split at h
        · rename_i b1 r
          split at h
          · rename_i h2
            rw [Proofs.Utf.inB_iff] at h2
            simp only [Option.some.injEq, Prod.mk.injEq] at h
            obtain ⟨rfl, rfl⟩ := h
            refine ⟨by unfold Spec.IsScalar; omega, ?_⟩
            unfold encodeUtf8
            rw [if_neg (by omega), if_pos (by omega)]
            simp only [List.cons_append, List.nil_append, List.cons.injEq, and_true]
            omega
          · cases h
        · cases h
      · split at h
        · rename_i h0 h1 h2
          rw [Proofs.Utf.inB_iff] at h2
          split at h
          · rename_i b1 b2 r
            generalize hlo : (if (b0 == 0xE0) = true then 0xA0 else 0x80) = lo at h
            generalize hhi : (if (b0 == 0xED) = true then 0x9F else 0xBF) = hi at h
            split at h
            · rename_i h3
              subst hlo hhi
              rw [Bool.and_eq_true, Proofs.Utf.inB_iff, Proofs.Utf.inB_iff] at h3
              simp only [Option.some.injEq, Prod.mk.injEq] at h
              obtain ⟨rfl, rfl⟩ := h
              simp only [beq_iff_eq] at h3
              have h4 : (b0 = 0xE0 → 0xA0 ≤ b1) ∧ 0x80 ≤ b1 ∧ (b0 = 0xED → b1 ≤ 0x9F) ∧ b1 ≤ 0xBF := by
                obtain ⟨⟨a, b⟩, _⟩ := h3
                split_ifs at a b <;> omega
              refine ⟨by unfold Spec.IsScalar; omega, ?_⟩
              unfold encodeUtf8
              rw [if_neg (by omega), if_neg (by omega), if_pos (by omega)]
              simp only [List.cons_append, List.nil_append, List.cons.injEq, and_true]
              omega
            · cases h
          · cases h
        · split at h
          · rename_i h0 h1 h2 h5
            rw [Proofs.Utf.inB_iff] at h5
            split at h
            · rename_i b1 b2 b3 r
              generalize hlo : (if (b0 == 0xF0) = true then 0x90 else 0x80) = lo at h
              generalize hhi : (if (b0 == 0xF4) = true then 0x8F else 0xBF) = hi at h
              split at h
              · rename_i h3
                subst hlo hhi
                rw [Bool.and_eq_true, Bool.and_eq_true, Proofs.Utf.inB_iff, Proofs.Utf.inB_iff, Proofs.Utf.inB_iff] at h3
                simp only [Option.some.injEq, Prod.mk.injEq] at h
                obtain ⟨rfl, rfl⟩ := h
                simp only [beq_iff_eq] at h3
                have h4 : (b0 = 0xF0 → 0x90 ≤ b1) ∧ 0x80 ≤ b1 ∧ (b0 = 0xF4 → b1 ≤ 0x8F) ∧ b1 ≤ 0xBF := by
                  obtain ⟨⟨⟨a, b⟩, _⟩, _⟩ := h3
                  split_ifs at a b <;> omega
                refine ⟨by unfold Spec.IsScalar; omega, ?_⟩
                unfold encodeUtf8
                rw [if_neg (by omega), if_neg (by omega), if_neg (by omega)]
                simp only [List.cons_append, List.nil_append, List.cons.injEq, and_true]
                omega
              · cases h
            · cases h
          · cases h

theorem decodeUtf8Loop_some (fuel : Nat) (bs s : List Nat) (h : decodeUtf8Loop fuel bs = some s) :
    (∀ c ∈ s, Spec.IsScalar c) ∧ bs = s.flatMap encodeUtf8 := by
  induction fuel generalizing bs s with
  | zero =>
    cases bs with
    | nil => cases h; simp
    | cons b bs => simp [decodeUtf8Loop] at h
  | succ fuel ih =>
    cases bs with
    | nil => cases h; simp
    | cons b bs =>
      rw [decodeUtf8Loop] at h
      · split at h
        · rename_i c rest hd
          obtain ⟨t, ht, rfl⟩ := Option.map_eq_some_iff.1 h
          obtain ⟨h1, h2⟩ := decodeFirst_some hd
          obtain ⟨h3, h4⟩ := ih _ _ ht
          refine ⟨?_, by rw [h2, h4, List.flatMap_cons]⟩
          intro x hx
          rcases List.mem_cons.1 hx with rfl | hx
          · exact h1
          · exact h3 x hx
        · cases h
      · simp

theorem decodeUtf8_iff (bs s : List Nat) : decodeUtf8 bs = some s ↔ (∀ c ∈ s, Spec.IsScalar c) ∧ bs = s.flatMap encodeUtf8 :=
  ⟨decodeUtf8Loop_some _ bs s, fun ⟨h1, h2⟩ => h2 ▸ Proofs.Utf.decodeUtf8_encode s h1⟩

theorem decodeUtf16_some (us : List Nat) (hu : ∀ u ∈ us, u ≤ 0xFFFF) (s : List Nat) (h : decodeUtf16 us = some s) :
    (∀ c ∈ s, Spec.IsScalar c) ∧ us = s.flatMap encodeUtf16 := by
  induction us using decodeUtf16.induct generalizing s with
  | case1 => simp [decodeUtf16] at h; subst h; simp
  | case2 u rest hc ih =>
    rw [decodeUtf16.eq_def] at h
    simp only [if_pos hc] at h
    obtain ⟨t, ht, rfl⟩ := Option.map_eq_some_iff.1 h
    obtain ⟨h1, h2⟩ := ih (fun u h => hu u (by simp [h])) _ ht
    have hb := hu u (by simp)
    refine ⟨?_, ?_⟩
    · intro x hx
      rcases List.mem_cons.1 hx with rfl | hx
      · unfold Spec.IsScalar; omega
      · exact h1 x hx
    · rw [List.flatMap_cons, ← h2]
      unfold encodeUtf16
      rw [if_pos (by omega)]; rfl
  | case3 u rest hc hd =>
    rw [decodeUtf16.eq_def] at h
    simp only [if_neg hc, if_pos hd] at h
    cases h
  | case4 u hc hd =>
    rw [decodeUtf16.eq_def] at h
    simp only [if_neg hc, if_neg hd] at h
    cases h
  | case5 u hc hd v rest he =>
    rw [decodeUtf16.eq_def] at h
    simp only [if_neg hc, if_neg hd, if_pos he] at h
    cases h
  | case6 u hc hd v rest he ih =>
    rw [decodeUtf16.eq_def] at h
    simp only [if_neg hc, if_neg hd, if_neg he] at h
    obtain ⟨t, ht, rfl⟩ := Option.map_eq_some_iff.1 h
    obtain ⟨h1, h2⟩ := ih (fun u h => hu u (by simp [h])) _ ht
    refine ⟨?_, ?_⟩
    · intro x hx
      rcases List.mem_cons.1 hx with rfl | hx
      · unfold Spec.IsScalar; omega
      · exact h1 x hx
    · rw [List.flatMap_cons, ← h2]
      unfold encodeUtf16
      rw [if_neg (by omega)]
      simp only [List.cons_append, List.nil_append, List.cons.injEq, and_true]
      omega

/-! ## Escapes -/

theorem lowerDigit_hex {d : Nat} (h : d < 16) : HexDigit (Gen.lowerDigit d) d := by
  unfold HexDigit Gen.lowerDigit; split <;> omega

theorem hexLower_numeral : ∀ (fuel n : Nat), n ≤ fuel → Numeral (Gen.hexLower fuel n) n
  | 0, n, h => by
    obtain rfl : n = 0 := by omega
    exact Numeral.one (lowerDigit_hex (by omega))
  | fuel + 1, n, h => by
    rw [Gen.hexLower]
    split
    · rename_i h'
      exact Numeral.one (lowerDigit_hex h')
    · have := Numeral.snoc (hexLower_numeral fuel (n / 16) (by omega)) (lowerDigit_hex (Nat.mod_lt n (by omega : 0 < 16)))
      rwa [show n / 16 * 16 + n % 16 = n by omega] at this

theorem hexLower_length : ∀ (fuel n k : Nat), n ≤ fuel → n < 16 ^ (k + 1) → (Gen.hexLower fuel n).length ≤ k + 1
  | 0, n, k, _, _ => by simp [Gen.hexLower]
  | fuel + 1, n, 0, _, h => by
    rw [Gen.hexLower, if_pos (by simpa using h)]; simp
  | fuel + 1, n, k + 1, hf, h => by
    rw [Gen.hexLower]
    split
    · simp
    · have : n / 16 < 16 ^ (k + 1) := by rw [Nat.pow_succ] at h; omega
      have := hexLower_length fuel (n / 16) k (by omega) this
      simp; omega

theorem escapeUnicode_eq (c : Nat) (l : List Nat) :
    Gen.escapeUnicode c ++ l = 92 :: 117 :: 123 :: (Gen.hexLower c c ++ 125 :: l) := by
  simp [Gen.escapeUnicode, show Gen.str "\\u{" = [92, 117, 123] from rfl, show Gen.str "}" = [125] from rfl]

theorem body_escapeUnicode {c : Nat} (hc : Spec.IsScalar c) {l s : List Nat} (h : Body l s) :
    Body (Gen.escapeUnicode c ++ l) (c :: s) := by
  rw [escapeUnicode_eq]
  refine Body.unicode (hexLower_numeral c c (Nat.le_refl _)) (hexLower_length c c 5 (Nat.le_refl _) ?_) hc h
  unfold Spec.IsScalar at hc; omega

theorem body_escape {shown : Nat → Bool} (hshown : ∀ c, shown c = true → c ≠ 0x2028 ∧ c ≠ 0x2029) {c : Nat} (hc : Spec.IsScalar c)
    {l s : List Nat} (h : Body l s) : Body (escapeDebug shown c ++ l) (c :: s) := by
  unfold escapeDebug
  split_ifs with h1 h2 h3 h4 h5
  · subst h1; exact Body.simple (by simp) h
  · subst h2; exact Body.simple (by simp) h
  · subst h3; exact Body.simple (by simp) h
  · rcases h4 with rfl | rfl | rfl <;> exact Body.simple (by simp) h
  · have := hshown c h5
    exact Body.raw (by simp; omega) h
  · exact body_escapeUnicode hc h

theorem escapeDefault_debug : escapeDefault = escapeDebug (fun c => decide (0x20 ≤ c ∧ c ≤ 0x7E)) := by
  funext c
  unfold escapeDefault escapeDebug
  simp

theorem body_flatMap (f : Nat → List Nat) (s : List Nat) (hs : ∀ c ∈ s, ∀ l t, Body l t → Body (f c ++ l) (c :: t)) :
    Body (s.flatMap f) s := by
  induction s with
  | nil => exact Body.nil
  | cons c s ih =>
    rw [List.flatMap_cons]
    exact hs c (by simp) _ _ (ih (fun x hx => hs x (by simp [hx])))

/-! ## A literal denotes one text -/

theorem numeral_unique {ds : List Nat} {m n : Nat} (h : Numeral ds m) (h' : Numeral ds n) : m = n := by
  rw [← (numeral_val h).2.1, ← (numeral_val h').2.1]

theorem split_brace {a b l m : List Nat} (ha : 125 ∉ a) (hb : 125 ∉ b) (h : a ++ 125 :: l = b ++ 125 :: m) : a = b ∧ l = m := by
  induction a generalizing b with
  | nil =>
    cases b with
    | nil => simpa using h
    | cons x b =>
      simp only [List.nil_append, List.cons_append, List.cons.injEq] at h
      exact absurd (by simp [h.1]) hb
  | cons y a ih =>
    cases b with
    | nil =>
      simp only [List.nil_append, List.cons_append, List.cons.injEq] at h
      exact absurd (by simp [h.1]) ha
    | cons x b =>
      simp only [List.cons_append, List.cons.injEq] at h
      obtain ⟨h1, h2⟩ := ih (fun h => ha (by simp [h])) (fun h => hb (by simp [h])) h.2
      exact ⟨by rw [h.1, h1], h2⟩

theorem numeral_brace {ds : List Nat} {n : Nat} (h : Numeral ds n) : 125 ∉ ds := by
  intro hm
  obtain ⟨v, hv⟩ := numeral_digit h hm
  exact (hexDigit_ne hv).2.2.2.2.2.1 rfl

theorem body_unique {l s : List Nat} (h : Body l s) : ∀ t, Body l t → s = t := by
  induction h with
  | nil => intro t h; cases h; rfl
  | raw hc _ ih =>
    intro t h'
    cases h' with
    | raw _ h' => rw [ih _ h']
    | simple _ _ => simp at hc
    | unicode _ _ _ _ => simp at hc
  | simple he _ ih =>
    intro t h'
    generalize hl : 92 :: _ = l' at h'
    cases h' with
    | nil => cases hl
    | raw hc _ => simp only [List.cons.injEq] at hl; simp [← hl.1] at hc
    | simple he' h' =>
      simp only [List.cons.injEq, true_and] at hl
      obtain ⟨rfl, rfl⟩ := hl
      rw [ih _ h']
      simp only [List.mem_cons, Prod.mk.injEq, List.not_mem_nil, or_false] at he he'
      congr 1
      omega
    | unicode _ _ _ _ =>
      simp only [List.cons.injEq, true_and] at hl
      obtain ⟨rfl, _⟩ := hl
      simp at he
  | unicode hn _ _ _ ih =>
    intro t h'
    generalize hl : 92 :: _ = l' at h'
    cases h' with
    | nil => cases hl
    | raw hc _ => simp only [List.cons.injEq] at hl; simp [← hl.1] at hc
    | simple he' h' =>
      simp only [List.cons.injEq, true_and] at hl
      obtain ⟨rfl, _⟩ := hl
      simp at he'
    | unicode hn' _ _ h' =>
      simp only [List.cons.injEq, true_and] at hl
      obtain ⟨rfl, rfl⟩ := split_brace (numeral_brace hn) (numeral_brace hn') hl
      rw [ih _ h', numeral_unique hn hn']

end Proofs.Echo
