import Verif.Proofs.BidiWeakSpec
import Mathlib.Data.List.Forall2

/-! # The passes over the indices of a sequence, and over the classes at these indices -/
namespace Proofs.BidiW
open Model.Bidi Data
open Proofs.Bidi hiding w3

/-- the entry `k` -/
def ent (xs : List BC) (k : Nat) : BC := xs.getD k .OtherNeutral

/-- the indices of entries that are not removed -/
def live (xs : List BC) (ks : List Nat) : List Nat := ks.filter (fun k => !removed (ent xs k))

theorem ent_set_ne {xs : List BC} {k j : Nat} {a : BC} (h : j ≠ k) : ent (xs.set k a) j = ent xs j := by
  unfold ent; rw [List.getD_eq_getElem?_getD, List.getElem?_set_ne h.symm, ← List.getD_eq_getElem?_getD]
theorem ent_set_self {xs : List BC} {k : Nat} {a : BC} (h : k < xs.length) : ent (xs.set k a) k = a := by
  unfold ent; rw [List.getD_eq_getElem?_getD, List.getElem?_set_self h]; rfl
theorem ent_setAll {xs : List BC} {js : List Nat} {a : BC} {k : Nat} (h : k < xs.length) : ent (setAll xs js a) k = if k ∈ js then a else ent xs k := by
  unfold ent
  rw [List.getD_eq_getElem?_getD, setAll_getElem?]
  by_cases hk : k ∈ js
  · rw [if_pos ⟨hk, h⟩, if_pos hk]; rfl
  · rw [if_neg (fun e => hk e.1), if_neg hk, ← List.getD_eq_getElem?_getD]

theorem live_congr {xs ys : List BC} {ks : List Nat} (h : ∀ k ∈ ks, ent xs k = ent ys k) : live xs ks = live ys ks := by
  unfold live
  apply List.filter_congr
  intro k hk; rw [h k hk]

theorem live_cons (xs : List BC) (k : Nat) (ks : List Nat) : live xs (k :: ks) = if removed (ent xs k) then live xs ks else k :: live xs ks := by
  unfold live
  rw [List.filter_cons]
  cases removed (ent xs k) <;> rfl

theorem nextC_live (xs : List BC) (eos : BC) : ∀ ks : List Nat, nextC xs eos ks = ((live xs ks).head?.map (ent xs)).getD eos
  | [] => rfl
  | k :: ks => by
    rw [nextC, live_cons]
    have : xs.getD k .OtherNeutral = ent xs k := rfl
    rw [this]
    split_ifs
    · exact nextC_live xs eos ks
    · rfl

/-- other entries are left alone -/
theorem weakC_off {t : List Nat} {eos : BC} {j : Nat} : ∀ (ks : List Nat) (xs : List BC) (prev : BC) (es : List Nat), j ∉ ks → j ∉ es →
    (weakC t eos ks xs prev es)[j]? = xs[j]?
  | [], _, _, _, _, _ => rfl
  | k :: ks, xs, prev, es, h1, h2 => by
    have hk : j ≠ k := fun e => h1 (by simp [e])
    have hks : j ∉ ks := fun e => h1 (by simp [e])
    simp only [weakC]
    split_ifs
    · exact weakC_off ks xs prev es hks h2
    · rw [weakC_off ks _ _ _ hks (by simp [h2, hk]), List.getElem?_set_ne hk.symm]
    · rw [weakC_off ks _ _ _ hks h2, List.getElem?_set_ne hk.symm]
    · rw [weakC_off ks _ _ [] hks (by simp), setAll_getElem?, if_neg (fun e => h2 e.1), List.getElem?_set_ne hk.symm]
    · rw [weakC_off ks _ _ [] hks (by simp), setAll_getElem?, if_neg (fun e => h2 e.1), List.getElem?_set_ne hk.symm]

theorem w7C_off {j : Nat} : ∀ (ks : List Nat) (l : Bool) (xs : List BC), j ∉ ks → (w7C ks l xs)[j]? = xs[j]?
  | [], _, _, _ => rfl
  | k :: ks, l, xs, h => by
    have hk : j ≠ k := fun e => h (by simp [e])
    have hks : j ∉ ks := fun e => h (by simp [e])
    simp only [w7C]
    split
    · split_ifs
      · rw [w7C_off ks _ _ hks, List.getElem?_set_ne hk.symm]
      · exact w7C_off ks _ _ hks
    all_goals exact w7C_off ks _ _ hks

theorem neutralC_off {e eos : BC} {j : Nat} : ∀ (ks : List Nat) (prev : BC) (run : Option (List Nat)) (xs : List BC), j ∉ ks → (∀ r, run = some r → j ∉ r) →
    (neutralC e eos ks prev run xs)[j]? = xs[j]?
  | [], _, none, _, _, _ => rfl
  | [], _, some r, xs, _, h => by rw [neutralC, setAll_getElem?, if_neg (fun e => h r rfl e.1)]
  | k :: ks, prev, none, xs, h1, _ => by
    have hk : j ≠ k := fun e => h1 (by simp [e])
    have hks : j ∉ ks := fun e => h1 (by simp [e])
    rw [neutralC]
    split_ifs
    · exact neutralC_off ks _ _ _ hks (by intro r hr; cases hr; simpa using hk)
    · exact neutralC_off ks _ _ _ hks (by simp)
  | k :: ks, prev, some r, xs, h1, h2 => by
    have hk : j ≠ k := fun e => h1 (by simp [e])
    have hks : j ∉ ks := fun e => h1 (by simp [e])
    have hr := h2 r rfl
    rw [neutralC]
    split_ifs
    · exact neutralC_off ks _ _ _ hks (by intro r' hr'; cases hr'; exact hr)
    · exact neutralC_off ks _ _ _ hks (by intro r' hr'; cases hr'; simp [hr, hk])
    · rw [neutralC_off ks _ _ _ hks (by simp), setAll_getElem?, if_neg (fun e => hr e.1)]

theorem ent_of_off {xs ys : List BC} {k : Nat} (h : xs[k]? = ys[k]?) : ent xs k = ent ys k := by
  unfold ent; rw [List.getD_eq_getElem?_getD, List.getD_eq_getElem?_getD, h]

/-- the first loop -/
theorem weakC_at {t : List Nat} {eos : BC} : ∀ (ks : List Nat) (xs : List BC) (prev : BC) (es : List Nat), ks.Nodup → (∀ k ∈ es, k ∉ ks) → (∀ k ∈ ks, k < xs.length) →
    (∀ k ∈ es, k < xs.length) → (∀ k ∈ es, ent xs k = .EuropeanTerminator) →
    okL eos prev ((live xs ks).map (fun k => (Model.Utf.lenUtf8 (t.getD k 0), ent xs k))) →
    (es ++ live xs ks).map (ent (weakC t eos ks xs prev es)) = weakL eos prev es.length ((live xs ks).map (fun k => (Model.Utf.lenUtf8 (t.getD k 0), ent xs k))) ∧
      ∀ k ∈ ks, removed (ent xs k) = true → ent (weakC t eos ks xs prev es) k = ent xs k
  | [], xs, prev, es, _, _, _, _, h, _ => by
    refine ⟨?_, by simp⟩
    have hl : live xs [] = [] := rfl
    rw [hl, List.append_nil, weakC, List.map_nil, weakL]
    exact List.eq_replicate_iff.2 ⟨by simp, by intro b hb; obtain ⟨k, hk, rfl⟩ := List.mem_map.1 hb; exact h k hk⟩
  | k :: ks, xs, prev, es, hn, hd, hlt, helt, het, hok => by
    obtain ⟨hk, hn⟩ := List.nodup_cons.1 hn
    have hkl := hlt k (by simp)
    have hkes : k ∉ es := fun e => hd k e (by simp)
    have hd' : ∀ j ∈ es, j ∉ ks := fun j hj e => hd j hj (by simp [e])
    have hlt' : ∀ j ∈ ks, j < xs.length := fun j hj => hlt j (by simp [hj])
    have he : xs.getD k .OtherNeutral = ent xs k := rfl
    rw [live_cons] at hok ⊢
    simp only [weakC, he]
    by_cases hr : removed (ent xs k) = true
    · rw [if_pos hr] at hok ⊢
      rw [if_pos hr]
      obtain ⟨i1, i2⟩ := weakC_at ks xs prev es hn hd' hlt' helt het hok
      refine ⟨i1, ?_⟩
      intro j hj hrj
      rcases List.mem_cons.1 hj with rfl | hj
      · exact ent_of_off (weakC_off ks xs prev es hk hkes)
      · exact i2 j hj hrj
    · rw [if_neg hr] at hok ⊢
      rw [if_neg hr]
      rw [List.map_cons] at hok ⊢
      obtain ⟨ok1, ok2⟩ := hok
      rw [weakL]
      have hnx : nextC xs eos ks = ((((live xs ks).map (fun k => (Model.Utf.lenUtf8 (t.getD k 0), ent xs k))).head?.map Prod.snd).getD eos) := by
        rw [nextC_live, List.head?_map, Option.map_map]; rfl
      rw [← hnx] at ok2 ⊢
      generalize hx : newClass (Model.Utf.lenUtf8 (t.getD k 0)) (ent xs k) prev (nextC xs eos ks) = x at ok2 ⊢
      by_cases hxe : x = .EuropeanTerminator
      · rw [if_pos hxe, if_pos hxe]
        have hce : ent xs k = .EuropeanTerminator := by
          rw [hxe] at hx
          by_contra hne
          generalize ent xs k = c at hx hne ok1
          by_cases hns : c = .NonspacingMark
          · subst hns
            have h1 : nsmClass prev = .EuropeanTerminator := hx
            have : prev = .EuropeanTerminator := by
              unfold nsmClass at h1; split_ifs at h1; exact h1
            exact ok1 rfl this
          · revert hx
            cases c <;> first | exact absurd rfl hne | exact absurd rfl hns | (simp only [newClass]; intro hx; first | exact absurd hx (by decide) | (unfold separatorClass at hx; split_ifs at hx; split at hx <;> exact absurd hx (by decide)))
        rw [if_pos hce]
        have hcg : ∀ j ∈ ks, ent (xs.set k x) j = ent xs j := fun j hj => ent_set_ne (fun e => hk (e ▸ hj))
        have hlv : live (xs.set k x) ks = live xs ks := live_congr hcg
        have hmp : (live (xs.set k x) ks).map (fun k_1 => (Model.Utf.lenUtf8 (t.getD k_1 0), ent (xs.set k x) k_1)) = (live xs ks).map (fun k => (Model.Utf.lenUtf8 (t.getD k 0), ent xs k)) := by
          rw [hlv]
          apply List.map_congr_left
          intro j hj
          rw [hcg j (List.mem_of_mem_filter hj)]
        obtain ⟨i1, i2⟩ := weakC_at ks (xs.set k x) x (es ++ [k]) hn
          (by intro j hj; rcases List.mem_append.1 hj with hj | hj
              · exact hd' j hj
              · simp at hj; subst hj; exact hk)
          (by simpa using hlt')
          (by intro j hj; rw [List.length_set]; rcases List.mem_append.1 hj with hj | hj
              · exact helt j hj
              · simp at hj; subst hj; exact hkl)
          (by intro j hj; rcases List.mem_append.1 hj with hj | hj
              · rw [ent_set_ne (show j ≠ k from fun e => hkes (e ▸ hj))]; exact het j hj
              · simp at hj; subst hj; rw [ent_set_self hkl]; exact hxe)
          (by rw [hmp]; exact ok2)
        rw [hmp, hlv] at i1
        refine ⟨?_, ?_⟩
        · rw [← show es ++ [k] ++ live xs ks = es ++ k :: live xs ks by simp, i1]
          simp
        · intro j hj hrj
          rcases List.mem_cons.1 hj with rfl | hj
          · exact absurd hrj hr
          · rw [i2 j hj (by rw [hcg j hj]; exact hrj), hcg j hj]
      · rw [if_neg hxe, if_neg hxe]
        generalize hv : (if ent xs k = .EuropeanNumber then BidiClass.EuropeanNumber else .OtherNeutral) = v
        have hcg : ∀ j ∈ ks, ent (setAll (xs.set k x) es v) j = ent xs j := by
          intro j hj
          rw [ent_setAll (by rw [List.length_set]; exact hlt' j hj), if_neg (fun e => hd' j e hj), ent_set_ne (show j ≠ k from fun e => hk (e ▸ hj))]
        have hlv : live (setAll (xs.set k x) es v) ks = live xs ks := live_congr hcg
        have hmp : (live (setAll (xs.set k x) es v) ks).map (fun k_1 => (Model.Utf.lenUtf8 (t.getD k_1 0), ent (setAll (xs.set k x) es v) k_1)) =
            (live xs ks).map (fun k => (Model.Utf.lenUtf8 (t.getD k 0), ent xs k)) := by
          rw [hlv]
          apply List.map_congr_left
          intro j hj
          rw [hcg j (List.mem_of_mem_filter hj)]
        obtain ⟨i1, i2⟩ := weakC_at ks (setAll (xs.set k x) es v) x [] hn (by simp) (by simpa using hlt') (by simp) (by simp) (by rw [hmp]; exact ok2)
        rw [hmp, hlv, List.nil_append, List.length_nil] at i1
        refine ⟨?_, ?_⟩
        · rw [List.map_append, List.map_cons, i1]
          congr 1
          · refine List.eq_replicate_iff.2 ⟨by simp, ?_⟩
            intro b hb
            obtain ⟨j, hj, rfl⟩ := List.mem_map.1 hb
            rw [ent_of_off (weakC_off ks _ x [] (hd' j hj) (by simp)), ent_setAll (by rw [List.length_set]; exact helt j hj), if_pos hj]
          · congr 1
            rw [ent_of_off (weakC_off ks _ x [] hk (by simp)), ent_setAll (by rw [List.length_set]; exact hkl), if_neg hkes, ent_set_self hkl]
        · intro j hj hrj
          rcases List.mem_cons.1 hj with rfl | hj
          · exact absurd hrj hr
          · rw [i2 j hj (by rw [hcg j hj]; exact hrj), hcg j hj]

/-- W7 -/
theorem w7C_at : ∀ (ks : List Nat) (l : Bool) (xs : List BC), ks.Nodup → (∀ k ∈ ks, k < xs.length) →
    (live xs ks).map (ent (w7C ks l xs)) = w7L l ((live xs ks).map (ent xs)) ∧ ∀ k ∈ ks, removed (ent xs k) = true → ent (w7C ks l xs) k = ent xs k
  | [], _, _, _, _ => ⟨rfl, by simp⟩
  | k :: ks, l, xs, hn, hlt => by
    obtain ⟨hk, hn⟩ := List.nodup_cons.1 hn
    have hkl := hlt k (by simp)
    have hlt' : ∀ j ∈ ks, j < xs.length := fun j hj => hlt j (by simp [hj])
    have he : xs.getD k .OtherNeutral = ent xs k := rfl
    have key : ∀ (ys : List BC) (l' : Bool) (a : BC), (∀ j ∈ ks, ent ys j = ent xs j) → ys.length = xs.length → ent ys k = a →
        (removed (ent xs k) = true → a = ent xs k ∧ ∀ r, w7L l r = w7L l' r) →
        (removed (ent xs k) = false → w7L l (ent xs k :: (live xs ks).map (ent xs)) = a :: w7L l' ((live xs ks).map (ent xs))) →
        (live xs (k :: ks)).map (ent (w7C ks l' ys)) = w7L l ((live xs (k :: ks)).map (ent xs)) ∧
          ∀ j ∈ k :: ks, removed (ent xs j) = true → ent (w7C ks l' ys) j = ent xs j := by
      intro ys l' a hcg hlen hya h1 h2
      obtain ⟨i1, i2⟩ := w7C_at ks l' ys hn (by rw [hlen]; exact hlt')
      have hlv : live ys ks = live xs ks := live_congr hcg
      have hmp : (live xs ks).map (ent ys) = (live xs ks).map (ent xs) := List.map_congr_left (fun j hj => hcg j (List.mem_of_mem_filter hj))
      rw [hlv, hmp] at i1
      have hek : ent (w7C ks l' ys) k = a := by rw [ent_of_off (w7C_off ks l' ys hk), hya]
      rw [live_cons]
      refine ⟨?_, ?_⟩
      · cases hr : removed (ent xs k) with
        | true => rw [if_pos rfl, i1, (h1 hr).2]
        | false =>
          rw [if_neg (by simp), List.map_cons, List.map_cons, i1, hek, h2 hr]
      · intro j hj hrj
        rcases List.mem_cons.1 hj with rfl | hj
        · rw [hek]; exact (h1 hrj).1
        · rw [i2 j hj (by rw [hcg j hj]; exact hrj), hcg j hj]
    simp only [w7C, he]
    split
    · rename_i hc
      split_ifs with hl
      · exact key _ _ .LeftToRight (fun j hj => ent_set_ne (fun e => hk (e ▸ hj))) (by simp) (ent_set_self hkl) (by rw [hc]; simp [removed])
          (by intro _; rw [hc, w7L, if_pos hl])
      · exact key _ _ .EuropeanNumber (fun _ _ => rfl) rfl hc (by rw [hc]; simp [removed]) (by intro _; rw [hc, w7L, if_neg hl])
    · rename_i hc
      exact key _ _ .LeftToRight (fun _ _ => rfl) rfl hc (by rw [hc]; simp [removed]) (by intro _; rw [hc, w7L])
    · rename_i hc
      exact key _ _ .RightToLeft (fun _ _ => rfl) rfl hc (by rw [hc]; simp [removed]) (by intro _; rw [hc, w7L])
    · rename_i hc
      exact key _ _ .ArabicLetter (fun _ _ => rfl) rfl hc (by rw [hc]; simp [removed]) (by intro _; rw [hc, w7L])
    · rename_i c1 c2 c3 c4
      refine key _ _ (ent xs k) (fun _ _ => rfl) rfl rfl (fun _ => ⟨rfl, fun _ => rfl⟩) (fun _ => ?_)
      generalize ent xs k = c at *
      cases c <;> first | rfl | exact absurd rfl c1 | exact absurd rfl c2 | exact absurd rfl c3 | exact absurd rfl c4

/-- a removed entry is not followed by a neutral one -/
def okN (xs : List BC) : List Nat → Prop
  | [] => True
  | k :: ks => (removed (ent xs k) = true → ∀ j, (live xs ks).head? = some j → isNI (ent xs j) = false) ∧ okN xs ks

theorem okN_congr {xs ys : List BC} : ∀ {ks : List Nat}, (∀ k ∈ ks, ent xs k = ent ys k) → okN xs ks → okN ys ks
  | [], _, _ => trivial
  | k :: ks, h, ⟨h1, h2⟩ => by
    have hk : ∀ j ∈ ks, ent xs j = ent ys j := fun j hj => h j (by simp [hj])
    refine ⟨?_, okN_congr hk h2⟩
    intro hr j hj
    have hl : live ys ks = live xs ks := (live_congr hk).symm
    rw [hl] at hj
    have := h1 (by rw [h k (by simp)]; exact hr) j hj
    have hm : j ∈ ks := List.mem_of_mem_filter (List.mem_of_head? hj)
    rwa [hk j hm] at this

/-- N1 and N2 -/
theorem neutralC_at {e eos : BC} : ∀ (ks : List Nat) (prev : BC) (run : Option (List Nat)) (xs : List BC), ks.Nodup → (∀ k ∈ ks, k < xs.length) →
    (∀ r, run = some r → ∀ k ∈ r, k ∉ ks ∧ k < xs.length) → okN xs ks →
    ((run.getD []) ++ live xs ks).map (ent (neutralC e eos ks prev run xs)) = neutralL e eos prev (run.getD []).length ((live xs ks).map (ent xs))
  | [], prev, none, xs, _, _, _, _ => rfl
  | [], prev, some run, xs, _, _, hr, _ => by
    rw [show live xs [] = [] from rfl, List.append_nil, neutralC, List.map_nil, neutralL]
    refine List.eq_replicate_iff.2 ⟨by simp, ?_⟩
    intro b hb
    obtain ⟨j, hj, rfl⟩ := List.mem_map.1 hb
    simp only [Option.getD_some] at hj
    rw [ent_setAll (hr run rfl j hj).2, if_pos hj]
  | k :: ks, prev, none, xs, hn, hlt, _, hok => by
    obtain ⟨hk, hn⟩ := List.nodup_cons.1 hn
    have hkl := hlt k (by simp)
    have hlt' : ∀ j ∈ ks, j < xs.length := fun j hj => hlt j (by simp [hj])
    have he : xs.getD k .OtherNeutral = ent xs k := rfl
    obtain ⟨ok1, ok2⟩ := hok
    rw [neutralC, he, live_cons]
    by_cases hni : isNI (ent xs k) = true
    · rw [if_pos hni, if_neg (by rw [ni_not_removed hni]; simp)]
      have := neutralC_at (e := e) (eos := eos) ks prev (some [k]) xs hn hlt' (by intro r hr; cases hr; intro j hj; simp at hj; subst hj; exact ⟨hk, hkl⟩) ok2
      simp only [Option.getD_none, List.nil_append, Option.getD_some, List.length_singleton, List.length_nil] at this ⊢
      rw [List.map_cons (f := ent xs), neutralL, if_pos hni, ← this]; rfl
    · rw [if_neg hni]
      have := neutralC_at (e := e) (eos := eos) ks (ent xs k) none xs hn hlt' (by simp) ok2
      simp only [Option.getD_none, List.nil_append, List.length_nil] at this ⊢
      by_cases hr : removed (ent xs k) = true
      · rw [if_pos hr, this]
        cases hl : live xs ks with
        | nil => rfl
        | cons j js =>
          have hnj := ok1 hr j (by rw [hl]; rfl)
          rw [List.map_cons, neutralL, neutralL, if_neg (by rw [hnj]; simp), if_neg (by rw [hnj]; simp)]
          simp
      · rw [if_neg hr, List.map_cons, List.map_cons, neutralL, if_neg hni, this]
        rw [ent_of_off (neutralC_off ks _ none xs hk (by simp))]
        simp
  | k :: ks, prev, some run, xs, hn, hlt, hrun, hok => by
    obtain ⟨hk, hn⟩ := List.nodup_cons.1 hn
    have hkl := hlt k (by simp)
    have hlt' : ∀ j ∈ ks, j < xs.length := fun j hj => hlt j (by simp [hj])
    have he : xs.getD k .OtherNeutral = ent xs k := rfl
    have hr' : ∀ j ∈ run, j ≠ k ∧ j ∉ ks ∧ j < xs.length := fun j hj =>
      ⟨fun e => (hrun run rfl j hj).1 (by simp [e]), fun e => (hrun run rfl j hj).1 (by simp [e]), (hrun run rfl j hj).2⟩
    obtain ⟨ok1, ok2⟩ := hok
    rw [neutralC, he, live_cons]
    by_cases hr : removed (ent xs k) = true
    · rw [if_pos hr, if_pos hr]
      exact neutralC_at ks prev (some run) xs hn hlt' (by intro r hr; cases hr; intro j hj; exact (hr' j hj).2) ok2
    · rw [if_neg hr, if_neg hr]
      by_cases hni : isNI (ent xs k) = true
      · rw [if_pos hni]
        have := neutralC_at (e := e) (eos := eos) ks prev (some (run ++ [k])) xs hn hlt'
          (by intro r hr; cases hr; intro j hj
              rcases List.mem_append.1 hj with hj | hj
              · exact (hr' j hj).2
              · simp at hj; subst hj; exact ⟨hk, hkl⟩) ok2
        simp only [Option.getD_some] at this ⊢
        rw [List.map_cons (f := ent xs), neutralL, if_pos hni]
        rw [show run ++ k :: live xs ks = run ++ [k] ++ live xs ks by simp, this]
        simp
      · rw [if_neg hni]
        generalize hv : neutralClass prev (ent xs k) e = v
        have hcg : ∀ j ∈ ks, ent (setAll xs run v) j = ent xs j := by
          intro j hj
          rw [ent_setAll (hlt' j hj), if_neg (fun h => (hr' j h).2.1 hj)]
        have hlv : live (setAll xs run v) ks = live xs ks := live_congr hcg
        have hmp : (live xs ks).map (ent (setAll xs run v)) = (live xs ks).map (ent xs) := List.map_congr_left (fun j hj => hcg j (List.mem_of_mem_filter hj))
        have := neutralC_at (e := e) (eos := eos) ks (ent xs k) none (setAll xs run v) hn (by simpa using hlt') (by simp)
          (okN_congr (fun j hj => (hcg j hj).symm) ok2)
        simp only [Option.getD_none, List.nil_append, List.length_nil, Option.getD_some] at this ⊢
        rw [hlv, hmp] at this
        rw [List.map_append, List.map_cons (f := ent xs), neutralL, if_neg hni, List.map_cons, this, hv]
        congr 1
        · refine List.eq_replicate_iff.2 ⟨by simp, ?_⟩
          intro b hb
          obtain ⟨j, hj, rfl⟩ := List.mem_map.1 hb
          rw [ent_of_off (neutralC_off ks _ none _ (hr' j hj).2.1 (by simp)), ent_setAll (hr' j hj).2.2, if_pos hj]
        · congr 1
          rw [ent_of_off (neutralC_off ks _ none _ hk (by simp)), ent_setAll hkl, if_neg (fun h => (hr' k h).1 rfl)]

/-- letters and numbers -/
def good (c : BC) : Bool := dirClass c || c == .ArabicLetter

/-- a removed entry is not followed by anything but letters and numbers -/
def okG (xs : List BC) : List Nat → Prop
  | [] => True
  | k :: ks => (removed (ent xs k) = true → ∀ j, (live xs ks).head? = some j → good (ent xs j) = true) ∧ okG xs ks

theorem good_weak {eos : BC} : ∀ (xs : List (Nat × BC)) (prev : BC) (n : Nat), ∃ P Q, weakL eos prev n xs = P ++ Q ∧ P.length = n ∧
    List.Forall₂ (fun x q => good x.2 = true → dirClass q = true) xs Q
  | [], prev, n => ⟨List.replicate n .EuropeanTerminator, [], by simp [weakL], by simp, .nil⟩
  | (m, c) :: r, prev, n => by
    rw [weakL]
    generalize hx : newClass m c prev ((r.head?.map Prod.snd).getD eos) = x
    have hg : good c = true → dirClass x = true := by
      intro h
      rw [← hx]
      cases c <;> first | exact absurd h (by decide) | rfl
    by_cases hxe : x = .EuropeanTerminator
    · rw [if_pos hxe]
      obtain ⟨P, Q, h1, h2, h3⟩ := good_weak (eos := eos) r x (n + 1)
      have hne : P ≠ [] := by intro e; rw [e] at h2; simp at h2
      refine ⟨P.dropLast, P.getLast hne :: Q, ?_, by simp [h2], .cons ?_ h3⟩
      · rw [h1]
        conv_lhs => rw [← List.dropLast_concat_getLast hne]
        simp
      · intro h
        exact absurd (hg h) (by rw [hxe]; decide)
    · rw [if_neg hxe]
      obtain ⟨P, Q, h1, h2, h3⟩ := good_weak (eos := eos) r x 0
      have hP : P = [] := List.length_eq_zero_iff.1 h2
      subst hP
      exact ⟨_, x :: Q, by rw [h1]; rfl, by simp, .cons hg h3⟩

theorem good_w7 : ∀ (A : List BC) (l : Bool), List.Forall₂ (fun a b => dirClass a = true → dirClass b = true) A (w7L l A)
  | [], _ => .nil
  | a :: A, l => by
    by_cases h : a = .EuropeanNumber
    · subst h
      rw [w7L]
      exact .cons (by intro _; split_ifs <;> rfl) (good_w7 A l)
    · have : ∃ l', w7L l (a :: A) = a :: w7L l' A := by
        cases a <;> first | exact absurd rfl h | exact ⟨_, rfl⟩
      obtain ⟨l', e⟩ := this
      rw [e]
      exact .cons id (good_w7 A l')

theorem fin_live {a : BC} (h : fin a = true) : removed a = false := by revert h; cases a <;> decide

theorem sim_live : ∀ {A B : List BC} {s : BC}, Sim s A B → ∀ a ∈ A, removed a = false
  | [], _, _, _, _, h => by simp at h
  | a :: A, [], _, h, _, _ => h.elim
  | a :: A, b :: B, s, h, x, hx => by
    obtain ⟨h1, h2, h3⟩ := h
    rcases List.mem_cons.1 hx with rfl | hx
    · rcases h1 with rfl | ⟨rfl, _⟩
      · exact fin_live h2
      · rfl
    · exact sim_live h3 x hx

theorem sim2_live : ∀ {A B : List BC}, Sim2 A B → ∀ a ∈ A, removed a = false
  | [], _, _, _, h => by simp at h
  | a :: A, [], h, _, _ => h.elim
  | a :: A, b :: B, h, x, hx => by
    obtain ⟨h1, h2, h3⟩ := h
    rcases List.mem_cons.1 hx with rfl | hx
    · rcases h1 with rfl | ⟨rfl, _⟩
      · exact fin_live h2
      · rfl
    · exact sim2_live h3 x hx

theorem live_live {xs ys : List BC} : ∀ {ks : List Nat}, (∀ k ∈ ks, removed (ent ys k) = removed (ent xs k)) → live ys ks = live xs ks := by
  intro ks h
  unfold live
  apply List.filter_congr
  intro k hk; rw [h k hk]

theorem live_mem {xs : List BC} {ks : List Nat} {k : Nat} : k ∈ live xs ks ↔ k ∈ ks ∧ removed (ent xs k) = false := by
  unfold live; rw [List.mem_filter]; simp

theorem okN_of_good {xs zs : List BC} : ∀ {ks : List Nat}, (∀ k ∈ ks, removed (ent zs k) = removed (ent xs k)) →
    (∀ k ∈ live xs ks, good (ent xs k) = true → isNI (ent zs k) = false) → okG xs ks → okN zs ks
  | [], _, _, _ => trivial
  | k :: ks, h1, h2, ⟨h3, h4⟩ => by
    have h1' : ∀ j ∈ ks, removed (ent zs j) = removed (ent xs j) := fun j hj => h1 j (by simp [hj])
    have h2' : ∀ j ∈ live xs ks, good (ent xs j) = true → isNI (ent zs j) = false := by
      intro j hj
      have := live_mem.1 hj
      exact h2 j (live_mem.2 ⟨by simp [this.1], this.2⟩)
    refine ⟨?_, okN_of_good h1' h2' h4⟩
    intro hr j hj
    rw [live_live h1'] at hj
    exact h2' j (List.mem_of_head? hj) (h3 (by rw [← h1 k (by simp)]; exact hr) j hj)

/-- one sequence: the levels at its indices -/
theorem seqC_at {t : List Nat} {xs : List BC} {ks : List Nat} {sos eos : BC} {l : Nat} (hs : sos = .LeftToRight ∨ sos = .RightToLeft)
    (he : eos = .LeftToRight ∨ eos = .RightToLeft) (hn : ks.Nodup) (hlt : ∀ k ∈ ks, k < xs.length)
    (hr : Reg sos sos sos false ((live xs ks).map (fun k => (Model.Utf.lenUtf8 (t.getD k 0), ent xs k)))) (hg : okG xs ks)
    (ht : eos = Spec.Bidi.levelDir l ∨ (Spec.Bidi.numbers sos ((live xs ks).map (ent xs))).getLast? ≠ some .EuropeanTerminator) :
    (live xs ks).map (fun k => implicitC (ent (neutralC (Spec.Bidi.levelDir l) eos ks sos none (w7C ks (sos == .LeftToRight) (weakC t eos ks xs sos []))) k) l) =
      (Spec.Bidi.resolve sos eos (Spec.Bidi.levelDir l) ((live xs ks).map (ent xs))).map (Spec.Bidi.implicitLevel l) := by
  generalize hP : (live xs ks).map (fun k => (Model.Utf.lenUtf8 (t.getD k 0), ent xs k)) = P at hr
  have hPs : P.map Prod.snd = (live xs ks).map (ent xs) := by rw [← hP, List.map_map]; rfl
  have hPl : ∀ x ∈ P, removed x.2 = false := by
    intro x hx
    rw [← hP] at hx
    obtain ⟨k, hk, rfl⟩ := List.mem_map.1 hx
    exact (live_mem.1 hk).2
  obtain ⟨tt, A, B, m1, m2, m3, m4, m5⟩ := weak_main he P (.strong sos hs) hr hPl
  have hw3 : Spec.Bidi.w3Class sos = sos := by rcases hs with rfl | rfl <;> rfl
  rw [hw3] at m3
  obtain ⟨A', B', g1, g2, g3⟩ := w7_main tt A B sos m3
  -- the first loop
  obtain ⟨a1, a2⟩ := weakC_at (t := t) (eos := eos) ks xs sos [] hn (by simp) hlt (by simp) (by simp) (by rw [hP]; exact m4)
  rw [hP, List.nil_append, List.length_nil, m1] at a1
  generalize hy : weakC t eos ks xs sos [] = ys at *
  have hyl : ys.length = xs.length := by rw [← hy, weakC_length]
  have y1 : ∀ k ∈ ks, removed (ent ys k) = removed (ent xs k) := by
    intro k hk
    cases hrk : removed (ent xs k) with
    | true => rw [a2 k hk hrk, hrk]
    | false =>
      have : ent ys k ∈ (live xs ks).map (ent ys) := List.mem_map.2 ⟨k, live_mem.2 ⟨hk, hrk⟩, rfl⟩
      rw [a1] at this
      rcases List.mem_append.1 this with h | h
      · exact sim_live m3 _ h
      · rw [List.eq_of_mem_replicate h]; rfl
  have y2 : live ys ks = live xs ks := live_live y1
  -- W7
  obtain ⟨b1, b2⟩ := w7C_at ks (sos == .LeftToRight) ys hn (by rw [hyl]; exact hlt)
  rw [y2, a1, g1] at b1
  generalize hz : w7C ks (sos == .LeftToRight) ys = zs at *
  have hzl : zs.length = xs.length := by rw [← hz, w7C_length, hyl]
  have gw : ∀ k ∈ live xs ks, good (ent xs k) = true → dirClass (ent zs k) = true := by
    obtain ⟨P', Q, q1, q2, q3⟩ := good_weak (eos := eos) P sos 0
    have hP' : P' = [] := List.length_eq_zero_iff.1 q2
    subst hP'
    rw [List.nil_append] at q1
    have q4 := good_w7 (weakL eos sos 0 P) (sos == .LeftToRight)
    rw [q1] at q4
    rw [m1] at q1
    rw [← q1, g1, ← b1, ← a1] at q4
    rw [← q1, ← a1, ← hP] at q3
    have q3' := List.forall₂_map_left_iff.1 q3
    have q3'' := List.forall₂_same.1 (List.forall₂_map_right_iff.1 q3')
    have q4' := List.forall₂_map_left_iff.1 q4
    have q4'' := List.forall₂_same.1 (List.forall₂_map_right_iff.1 q4')
    intro k hk hg
    exact q4'' k hk (q3'' k hk hg)
  have gn : ∀ k ∈ live xs ks, good (ent xs k) = true → isNI (ent zs k) = false := by
    intro k hk hg
    have := gw k hk hg
    revert this
    generalize ent zs k = c
    cases c <;> decide
  have z1 : ∀ k ∈ ks, removed (ent zs k) = removed (ent xs k) := by
    intro k hk
    cases hrk : removed (ent xs k) with
    | true => rw [b2 k hk (by rw [y1 k hk]; exact hrk), a2 k hk hrk, hrk]
    | false =>
      have : ent zs k ∈ (live xs ks).map (ent zs) := List.mem_map.2 ⟨k, live_mem.2 ⟨hk, hrk⟩, rfl⟩
      rw [b1] at this
      rcases List.mem_append.1 this with h | h
      · exact sim2_live g3 _ h
      · rw [List.eq_of_mem_replicate h]; rfl
  have z2 : live zs ks = live xs ks := live_live z1
  -- N1, N2
  have c1 := neutralC_at (e := Spec.Bidi.levelDir l) (eos := eos) ks sos none zs hn (by rw [hzl]; exact hlt) (by simp) (okN_of_good z1 gn hg)
  simp only [Option.getD_none, List.nil_append, List.length_nil] at c1
  rw [z2, b1] at c1
  have := seq_main (l := l) hs he hr hPl (by rw [hPs]; exact ht)
  rw [m1, g1, hPs, ← c1, List.map_map] at this
  exact this


end Proofs.BidiW
