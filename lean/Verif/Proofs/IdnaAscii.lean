import Verif.Proofs.Idna
import Verif.Proofs.PunycodeDec

/-! `to_ascii` does what the specification says, for any character data. -/
namespace Proofs.Idna
open Model Model.Idna Data Proofs.Punycode Spec.Idna

variable {u : Deps} {chk : Bool}

/-- decoding adds no ASCII characters -/
theorem decodeLoop_mem : ∀ (fuel : Nat) (bytes out : List Nat) (cp bias i : Nat) (s : List Nat), 0x80 ≤ cp → cp ≤ Model.Punycode.u32Max →
    Model.Punycode.decodeLoop chk fuel bytes out cp bias i = .ok (some s) → ∀ c ∈ s, c ∈ out ∨ 0x80 ≤ c := by
  intro fuel
  induction fuel with
  | zero => intro _ _ _ _ _ _ _ _ h; simp [Model.Punycode.decodeLoop] at h
  | succ fuel ih =>
    intro bytes out cp bias i s h1 h2 h
    rw [Model.Punycode.decodeLoop] at h
    split at h
    · simp only [Outcome.ok.injEq, Option.some.injEq] at h
      subst h
      exact fun c hc => .inl hc
    · rw [bind_eq_ok] at h
      obtain ⟨o, _, h⟩ := h
      cases o with
      | none => simp [pure_eq] at h
      | some x =>
        obtain ⟨i', rest⟩ := x
        simp only [bind_eq_ok] at h
        obtain ⟨d, _, np, _, bias', _, q, _, room, hroom, h⟩ := h
        split at h
        · simp [pure_eq] at h
        · rename_i hq
          simp only [bind_eq_ok] at h
          obtain ⟨cp', hcp, i'', _, h⟩ := h
          rw [sub32_ok h2] at hroom
          simp only [Outcome.ok.injEq] at hroom
          rw [add32_ok (by omega)] at hcp
          simp only [Outcome.ok.injEq] at hcp
          subst hcp
          rw [Proofs.Utf.charFromU32_scalar] at h
          split at h
          · simp [pure_eq] at h
          · rename_i c' hc'
            simp only [bind_eq_ok] at h
            obtain ⟨out', hout, i3, _, h⟩ := h
            have hcc : c' = cp + q := by
              split at hc'
              · simpa using hc'.symm
              · simp at hc'
            intro c hc
            rcases ih _ _ _ _ _ _ (by omega) (by omega) h c hc with h3 | h3
            · unfold Model.Punycode.insertAt at hout
              split at hout
              · simp only [Outcome.ok.injEq] at hout
                rw [← hout, List.mem_append, List.mem_cons] at h3
                rcases h3 with h3 | h3 | h3
                · exact .inl (List.mem_of_mem_take h3)
                · right; omega
                · exact .inl (List.mem_of_mem_drop h3)
              · simp at hout
            · exact .inr h3

theorem decode_mem {p s : List Nat} (h : Model.Punycode.decode chk p = .ok (some s)) : ∀ c ∈ s, c ∈ p ∨ 0x80 ≤ c := by
  unfold Model.Punycode.decode at h
  cases hr : Model.Punycode.rsplit p with
  | none =>
    rw [hr] at h
    intro c hc
    rcases decodeLoop_mem _ _ _ _ _ _ _ (by simp [Model.Punycode.INITIAL_N]) (by simp [Model.Punycode.INITIAL_N, Model.Punycode.u32Max]) h c hc with h1 | h1
    · simp at h1
    · exact .inr h1
  | some ab =>
    obtain ⟨a, b⟩ := ab
    rw [hr] at h
    intro c hc
    rcases decodeLoop_mem _ _ _ _ _ _ _ (by simp [Model.Punycode.INITIAL_N]) (by simp [Model.Punycode.INITIAL_N, Model.Punycode.u32Max]) h c hc with h1 | h1
    · left
      rw [(rsplit_some hr).1, List.mem_append]
      exact .inl h1
    · exact .inr h1

/-- the labels of the result contain no full stop -/
theorem converted_dot {std3 tr b : Bool} {p l : List Nat} (hp : 0x2E ∉ p) (h : Converted (tables u chk) std3 tr b p l) : 0x2E ∉ l := by
  cases h with
  | plain _ hl _ => rw [hl]; exact hp
  | ace q hq hd _ =>
    intro hm
    have hd' : Model.Punycode.decode chk q = .ok (some l) := hd
    rcases decode_mem hd' _ hm with h1 | h1
    · apply hp; rw [hq, List.mem_append]; exact .inr h1
    · omega

theorem accepts_labels {std3 tr b : Bool} {d mapped : List Nat} {parts labels : List (List Nat)}
    (h : Accepts (tables u chk) std3 tr b d mapped parts labels) : Labels (join labels) labels := by
  obtain ⟨_, ⟨hne, hdot, _⟩, hc⟩ := h
  refine ⟨?_, ?_, rfl⟩
  · intro he
    rw [he] at hc
    cases hc
    exact hne rfl
  · intro l hl
    obtain ⟨p, hp, hpl⟩ := forall₂_right hc hl
    exact converted_dot (hdot p hp) hpl

theorem asciiLabels_iff : ∀ (ls : List (List Nat)) (first : Bool) (v : List Nat) (errors : List Error) (r : List Nat),
    asciiLabels chk ls first v errors = .ok (r, []) ↔ errors = [] ∧
      ∃ outs, List.Forall₂ (AsciiForm (tables u chk)) ls outs ∧ r = if outs = [] then v else sep first v ++ join outs := by
  intro ls
  induction ls with
  | nil =>
    intro first v errors r
    simp only [asciiLabels, Outcome.ok.injEq, Prod.mk.injEq]
    constructor
    · rintro ⟨rfl, rfl⟩
      exact ⟨rfl, [], .nil, by simp⟩
    · rintro ⟨rfl, outs, h, hs⟩
      cases h
      simp at hs
      exact ⟨hs.symm, rfl⟩
  | cons l ls ih =>
    intro first v errors r
    rw [asciiLabels]
    change (if l.all (· < 0x80) = true then asciiLabels chk ls false (sep first v ++ l) errors
      else Model.Punycode.encodeStr chk l >>= fun o => match o with
        | some x => asciiLabels chk ls false (sep first v ++ PUNYCODE_PREFIX ++ x) errors
        | none => asciiLabels chk ls false (sep first v) (errors ++ [.PunycodeError])) = _ ↔ _
    have fold : ∀ (d : List Nat) (outs : List (List Nat)), (if outs = [] then sep first v ++ d else sep false (sep first v ++ d) ++ join outs) =
        sep first v ++ join (d :: outs) := by
      intro d outs
      rw [← join_sep]
      split
      · rfl
      · simp [sep]
    have hall : l.all (· < 0x80) = true ↔ ∀ c ∈ l, c < 0x80 := by simp
    by_cases ha : ∀ c ∈ l, c < 0x80
    · rw [if_pos (hall.2 ha), ih]
      constructor
      · rintro ⟨rfl, outs, h1, h2⟩
        refine ⟨rfl, l :: outs, .cons (.ascii ha rfl) h1, ?_⟩
        rw [if_neg (by simp), h2]
        exact fold l outs
      · rintro ⟨rfl, outs', h, hs⟩
        cases h with
        | cons hc h3 =>
          rename_i a outs
          cases hc with
          | ace hn _ _ _ => exact absurd ha hn
          | ascii _ ha' =>
            subst ha'
            refine ⟨rfl, outs, h3, ?_⟩
            rw [hs, if_neg (by simp)]
            exact (fold _ outs).symm
    · rw [if_neg (fun h => ha (hall.1 h)), bind_eq_ok]
      constructor
      · rintro ⟨o, ho, h⟩
        cases o with
        | none =>
          simp only at h
          rw [ih] at h
          simp at h
        | some q =>
          simp only [List.append_assoc] at h
          rw [ih] at h
          obtain ⟨rfl, outs, h1, h2⟩ := h
          refine ⟨rfl, (ace ++ q) :: outs, .cons (.ace ha q ho rfl) h1, ?_⟩
          rw [if_neg (by simp), h2]
          exact fold (ace ++ q) outs
      · rintro ⟨rfl, outs', h, hs⟩
        cases h with
        | cons hc h3 =>
          rename_i a outs
          cases hc with
          | ascii hn _ => exact absurd hn ha
          | ace _ q hq haq =>
            subst haq
            refine ⟨some q, hq, ?_⟩
            simp only [List.append_assoc]
            rw [ih]
            refine ⟨rfl, outs, h3, ?_⟩
            rw [hs, if_neg (by simp)]
            exact (fold (ace ++ q) outs).symm

/-! ### lengths -/

theorem byteLen_ascii {s : List Nat} (h : ∀ c ∈ s, c < 0x80) : byteLen s = s.length := by
  rw [byteLen, flatMap_ascii h]

theorem join_mem {ls : List (List Nat)} {c : Nat} (h : c ∈ join ls) : c = 0x2E ∨ ∃ l ∈ ls, c ∈ l := by
  induction ls with
  | nil => simp [join] at h
  | cons l ls ih =>
    by_cases he : ls = []
    · subst he; exact .inr ⟨l, by simp, h⟩
    · rw [join_cons l he, List.mem_append, List.mem_cons] at h
      rcases h with h | h | h
      · exact .inr ⟨l, by simp, h⟩
      · exact .inl h
      · rcases ih h with h | ⟨x, hx, hc⟩
        · exact .inl h
        · exact .inr ⟨x, by simp [hx], hc⟩

theorem mem_join {ls : List (List Nat)} {l : List Nat} {c : Nat} (hl : l ∈ ls) (h : c ∈ l) : c ∈ join ls := by
  induction ls with
  | nil => simp at hl
  | cons a ls ih =>
    by_cases he : ls = []
    · subst he
      rw [List.mem_singleton] at hl
      rw [← hl]; exact h
    · rw [join_cons a he, List.mem_append, List.mem_cons]
      rw [List.mem_cons] at hl
      rcases hl with rfl | hl
      · exact .inl h
      · exact .inr (.inr (ih hl))

/-- the last character of a name with non-empty labels is not a full stop -/
theorem join_last {ls : List (List Nat)} (h1 : ∀ l ∈ ls, 0x2E ∉ l) (h2 : ∀ l ∈ ls, l ≠ []) : (join ls).getLast? ≠ some 0x2E := by
  induction ls with
  | nil => simp [join]
  | cons l ls ih =>
    by_cases he : ls = []
    · subst he
      intro h
      exact h1 l (by simp) (List.mem_of_getLast? h)
    · rw [join_cons l he]
      have h3 := ih (fun x hx => h1 x (by simp [hx])) (fun x hx => h2 x (by simp [hx]))
      rw [List.getLast?_append, List.getLast?_cons]
      intro h
      cases hj : (join ls).getLast? with
      | none =>
        rw [List.getLast?_eq_none_iff] at hj
        cases ls with
        | nil => exact he rfl
        | cons a b =>
          have ha := h2 a (by simp)
          cases a with
          | nil => exact ha rfl
          | cons x y => rw [join_cons_cons] at hj; simp at hj
      | some x =>
        rw [hj] at h
        simp at h
        exact h3 (by rw [hj, h])

theorem dns_iff {r : List Nat} (ha : ∀ c ∈ r, c < 0x80) (errors : List Error) : dnsErrors r errors = [] ↔ errors = [] ∧ DnsLength r := by
  have hw : ∀ c ∈ withoutRoot r, c < 0x80 := by
    intro c hc
    unfold withoutRoot at hc
    split at hc
    · exact ha c ((List.dropLast_subset _ hc))
    · exact ha c hc
  have hmem : ∀ l ∈ splitDot (withoutRoot r), ∀ c ∈ l, c < 0x80 := by
    intro l hl c hc
    apply hw
    rw [(splitDot_labels (withoutRoot r)).2.2]
    exact mem_join hl hc
  have key : dnsErrors r errors = [] ↔ errors = [] ∧ (∀ l ∈ splitDot (withoutRoot r), 1 ≤ l.length ∧ l.length ≤ 63) ∧ (withoutRoot r).length ≤ 253 := by
    unfold dnsErrors
    simp only
    rw [byteLen_ascii hw]
    constructor
    · intro h
      split at h
      · simp at h
      · rename_i h1
        split at h
        · simp at h
        · rename_i h2
          simp only [Bool.or_eq_true, decide_eq_true_eq, List.any_eq_true, not_or, not_exists, not_and, List.isEmpty_iff] at h1 h2
          refine ⟨h, fun l hl => ?_, by omega⟩
          have h5 := h1.2 l hl
          rw [byteLen_ascii (hmem l hl)] at h5
          have h4 := h2.2 l hl
          constructor
          · cases l with
            | nil => exact absurd rfl h4
            | cons a b => simp
          · omega
    · rintro ⟨rfl, h1, h2⟩
      have h3 : (decide ((withoutRoot r).length > 253) || (splitDot (withoutRoot r)).any (fun l => decide (byteLen l > 63))) = false := by
        rw [Bool.or_eq_false_iff]
        refine ⟨by simpa using h2, ?_⟩
        rw [List.any_eq_false]
        intro l hl
        rw [byteLen_ascii (hmem l hl)]
        have := (h1 l hl).2
        simpa using this
      have h4 : ((withoutRoot r).isEmpty || (splitDot (withoutRoot r)).any (fun l => l.isEmpty)) = false := by
        rw [Bool.or_eq_false_iff]
        have h5 : (splitDot (withoutRoot r)).any (fun l => l.isEmpty) = false := by
          rw [List.any_eq_false]
          intro l hl
          have := (h1 l hl).1
          cases l with
          | nil => simp at this
          | cons a b => simp
        refine ⟨?_, h5⟩
        cases hh : withoutRoot r with
        | nil => rw [hh] at h5; simp [splitDot] at h5
        | cons a b => rfl
      rw [h4, h3]
      simp
  rw [key]
  constructor
  · rintro ⟨rfl, h1, h2⟩
    refine ⟨rfl, withoutRoot r, splitDot (withoutRoot r), ?_, splitDot_labels _, h1, h2⟩
    unfold withoutRoot
    split
    · rename_i h
      right
      obtain ⟨ys, hys⟩ := List.getLast?_eq_some_iff.1 h
      rw [hys]; simp
    · exact .inl rfl
  · rintro ⟨rfl, n, labels, hn, hl, h1, h2⟩
    have hl2 := hl
    rw [labels_iff] at hl
    subst hl
    have hlast : n.getLast? ≠ some 0x2E := by
      rw [hl2.2.2]
      exact join_last hl2.2.1 (fun l hl => by have := (h1 l hl).1; intro e; rw [e] at this; simp at this)
    have : withoutRoot r = n := by
      unfold withoutRoot
      rcases hn with rfl | rfl
      · rw [if_neg hlast]
      · rw [if_pos (by simp)]; simp
    rw [this]
    exact ⟨rfl, h1, h2⟩

theorem asciiForm_ascii {l a : List Nat} (h : AsciiForm (tables u chk) l a) : ∀ c ∈ a, c < 0x80 := by
  cases h with
  | ascii h ha => rw [ha]; exact h
  | ace _ q hq ha =>
    rw [ha]
    intro c hc
    rw [List.mem_append] at hc
    rcases hc with hc | hc
    · simp [ace] at hc; omega
    · exact encode_ascii hq c hc

/-- `to_ascii` without errors -/
theorem toAsciiWith_iff (d : List Nat) (flags : Flags) (r : List Nat) : toAsciiWith u chk d flags = .ok (.ok r) ↔
    ∃ b mapped parts labels, Accepts (tables u chk) flags.useStd3AsciiRules flags.transitionalProcessing b d mapped parts labels ∧
      (b = true ↔ BidiName (tables u chk) d parts) ∧
      ∃ outs, List.Forall₂ (AsciiForm (tables u chk)) labels outs ∧ r = join outs ∧ (flags.verifyDnsLength = true → DnsLength r) := by
  have hjoin : ∀ {labels outs : List (List Nat)}, List.Forall₂ (AsciiForm (tables u chk)) labels outs → ∀ c ∈ join outs, c < 0x80 := by
    intro labels outs h c hc
    rcases join_mem hc with h1 | ⟨o, ho, hc⟩
    · omega
    · obtain ⟨l, _, hl⟩ := forall₂_right h ho
      exact asciiForm_ascii hl c hc
  have hsep : ∀ {labels outs : List (List Nat)}, labels ≠ [] → List.Forall₂ (AsciiForm (tables u chk)) labels outs →
      (if outs = [] then [] else sep true [] ++ join outs) = join outs := by
    intro labels outs hne h
    rw [if_neg]
    · rfl
    · intro he
      rw [he] at h
      cases h
      exact hne rfl
  unfold toAsciiWith
  rw [bind_eq_ok]
  constructor
  · rintro ⟨⟨s, e1⟩, h1, h⟩
    simp only [bind_eq_ok] at h
    obtain ⟨⟨r', e2⟩, h2, h⟩ := h
    have herr : (if flags.verifyDnsLength = true then dnsErrors r' e2 else e2) = [] ∧ r = r' := by
      simp only at h
      generalize (if flags.verifyDnsLength = true then dnsErrors r' e2 else e2) = e3 at h
      split at h
      · rename_i h3
        simp only [pure_eq, Outcome.ok.injEq, Except.ok.injEq] at h
        exact ⟨List.isEmpty_iff.1 h3, h.symm⟩
      · simp [pure_eq] at h
    obtain ⟨h3, rfl⟩ := herr
    have he2 : e2 = [] := by
      split at h3
      · unfold dnsErrors at h3
        simp only at h3
        split at h3
        · simp at h3
        · split at h3
          · simp at h3
          · exact h3
      · exact h3
    subst he2
    obtain ⟨rfl, outs, h4, h5⟩ := (asciiLabels_iff (u := u) _ _ _ _ _).1 h2
    obtain ⟨b, mapped, parts, labels, hacc, hb, rfl⟩ := (processing_iff d flags s).1 h1
    have hl := accepts_labels hacc
    rw [splitDot_join hl.1 hl.2.1] at h4
    rw [hsep hl.1 h4] at h5
    refine ⟨b, mapped, parts, labels, hacc, hb, outs, h4, h5, fun hv => ?_⟩
    rw [if_pos hv] at h3
    exact ((dns_iff (by rw [h5]; exact hjoin h4) _).1 h3).2
  · rintro ⟨b, mapped, parts, labels, hacc, hb, outs, h4, h5, hv⟩
    have hl := accepts_labels hacc
    refine ⟨(join labels, []), (processing_iff d flags _).2 ⟨b, mapped, parts, labels, hacc, hb, rfl⟩, ?_⟩
    simp only [bind_eq_ok]
    refine ⟨(r, []), ?_, ?_⟩
    · rw [asciiLabels_iff (u := u)]
      refine ⟨rfl, outs, ?_, ?_⟩
      · rw [splitDot_join hl.1 hl.2.1]; exact h4
      · rw [hsep hl.1 h4]; exact h5
    · have : (if flags.verifyDnsLength = true then dnsErrors r [] else []) = [] := by
        split
        · rename_i h
          exact (dns_iff (by rw [h5]; exact hjoin h4) _).2 ⟨rfl, hv h⟩
        · rfl
      simp only [this]
      rfl

end Proofs.Idna
