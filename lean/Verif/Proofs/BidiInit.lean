import Verif.Proofs.BidiArr
import Verif.Spec.Bidi

/-! # `InitialInfo::new`: paragraphs and first strong isolates -/
namespace Proofs.Bidi
open Model Model.Bidi Data Proofs.Punycode Model.Grapheme Proofs.Grapheme Spec.Bidi

/-! ## writing all the bytes of a character -/

theorem expand_set {α : Type} {t : List Nat} {xs : List α} {k : Nat} (v : α) (h : xs.length = t.length) (hk : k < t.length) :
    setAll (expand t xs) (block t k) v = expand t (xs.set k v) := by
  have hl := expand_length t xs h
  refine expand_ext (by simpa using h) (by simpa using hl) ?_
  intro k' hk' j hj
  rw [setAll_getElem?, hl, List.getElem?_set, expand_getElem? t xs k' j h hk' hj, h, if_pos hk]
  have hin : off t k' + j < blen t := by
    have h1 := off_succ hk'
    have h2 := off_mono (t := t) (show k' + 1 ≤ t.length from hk')
    rw [off_length] at h2
    omega
  have hm : off t k' + j ∈ block t k' := (mem_block hk').2 ⟨by omega, by omega⟩
  by_cases he : k = k'
  · subst he
    rw [if_pos ⟨hm, hin⟩, if_pos rfl]
  · rw [if_neg, if_neg he]
    rintro ⟨hb, _⟩
    exact he (block_disjoint hk hk' hb hm)

theorem block_in {t : List Nat} {k i : Nat} (hk : k < t.length) (hi : i ∈ block t k) : i < blen t := by
  have h := (mem_block hk).1 hi
  have h1 := off_succ hk
  have h2 := off_mono (t := t) (show k + 1 ≤ t.length from hk)
  rw [off_length] at h2
  omega

theorem off_append {t : List Nat} (u : List Nat) {k : Nat} (hk : k ≤ t.length) : off (t ++ u) k = off t k := by
  unfold off
  rw [List.take_append_of_le_length hk]

/-! ## first strong isolates -/

/-- X5c for one class, given the strong character found -/
def resolveWith (s : Option BC) (c : BC) : BC :=
  if c = .FirstStrongIsolate then
    match s with
    | some .LeftToRight => .LeftToRightIsolate
    | some _ => .RightToLeftIsolate
    | none => .FirstStrongIsolate
  else c

theorem resolveFsi_eq (c : BC) (rest : List BC) : resolveFsi c rest = resolveWith (isolateStrong 0 rest) c := rfl

/-- the isolates at the indices `ks`, at depths `d` on from the inside, resolved by what follows -/
def applyOpens (rest : List BC) : (d : Nat) → (ks : List Nat) → (cs : List BC) → List BC
  | _, [], cs => cs
  | d, k :: ks, cs => applyOpens rest (d + 1) ks (cs.modify k (resolveWith (isolateStrong d rest)))

theorem resolveWith_none : resolveWith none = id := by
  funext c; unfold resolveWith; split_ifs with h <;> simp [h]

theorem modify_id {α : Type} (l : List α) (k : Nat) : l.modify k id = l := by
  apply List.ext_getElem?
  intro i
  rw [List.getElem?_modify]
  split_ifs <;> simp

theorem applyOpens_length (rest : List BC) : ∀ (d : Nat) (ks : List Nat) (cs : List BC), (applyOpens rest d ks cs).length = cs.length
  | _, [], _ => rfl
  | d, k :: ks, cs => by rw [applyOpens, applyOpens_length rest (d + 1) ks]; simp

theorem applyOpens_append (rest : List BC) (tl : List BC) : ∀ (d : Nat) (ks : List Nat) (cs : List BC), (∀ k ∈ ks, k < cs.length) →
    applyOpens rest d ks (cs ++ tl) = applyOpens rest d ks cs ++ tl
  | _, [], _, _ => rfl
  | d, k :: ks, cs, h => by
    have hk : k < cs.length := h k (by simp)
    rw [applyOpens, applyOpens, ← applyOpens_append rest tl (d + 1) ks _ (by simpa using fun j hj => h j (by simp [hj]))]
    congr 1
    apply List.ext_getElem?
    intro i
    rw [List.getElem?_modify]
    by_cases hi : i < cs.length
    · rw [List.getElem?_append_left hi, List.getElem?_append_left (by simpa using hi), List.getElem?_modify]
    · rw [List.getElem?_append_right (by omega), List.getElem?_append_right (by simpa using hi), List.length_modify]
      simp only [show ¬ k = i by omega, if_false]
      simp

theorem applyOpens_congr {r r' : List BC} {e : Nat} : ∀ (ks : List Nat) (d : Nat) (cs : List BC),
    (∀ d' ≥ d, isolateStrong d' r = isolateStrong (d' + e) r') → applyOpens r d ks cs = applyOpens r' (d + e) ks cs
  | [], _, _, _ => rfl
  | k :: ks, d, cs, h => by
    rw [applyOpens, applyOpens, h d (Nat.le_refl d), applyOpens_congr ks (d + 1) _ (fun d' hd => h d' (by omega)),
      show d + 1 + e = d + e + 1 by omega]

theorem applyOpens_none {r : List BC} : ∀ (ks : List Nat) (d : Nat) (cs : List BC), (∀ d' ≥ d, isolateStrong d' r = none) → applyOpens r d ks cs = cs
  | [], _, _, _ => rfl
  | k :: ks, d, cs, h => by
    rw [applyOpens, h d (Nat.le_refl d), resolveWith_none, modify_id, applyOpens_none ks (d + 1) _ (fun d' hd => h d' (by omega))]

/-! ## the paragraphs -/

/-- the paragraphs found from the character at offset `i` on, at isolate depth `d` -/
def parasL (cls : Nat → BC) (dflt : Option Nat) : List Nat → (i d start : Nat) → (level : Option Nat) → List Para
  | [], i, _, start, level => if start < i then [⟨⟨start, i⟩, level.getD 0⟩] else []
  | c :: r, i, d, start, level =>
    if cls c = .ParagraphSeparator then ⟨⟨start, i + Utf.lenUtf8 c⟩, level.getD 0⟩ :: parasL cls dflt r (i + Utf.lenUtf8 c) 0 (i + Utf.lenUtf8 c) dflt
    else if isInitiator (cls c) then parasL cls dflt r (i + Utf.lenUtf8 c) (d + 1) start level
    else if cls c = .PopDirectionalIsolate then parasL cls dflt r (i + Utf.lenUtf8 c) (d - 1) start level
    else if isStrong (cls c) ∧ d = 0 then parasL cls dflt r (i + Utf.lenUtf8 c) d start (some (level.getD (levelOfStrong (some (cls c)))))
    else parasL cls dflt r (i + Utf.lenUtf8 c) d start level

/-- P1 -/
def splitParas (cls : Nat → BC) : List Nat → List (List Nat)
  | [] => []
  | c :: r =>
    if cls c = .ParagraphSeparator then [c] :: splitParas cls r
    else match splitParas cls r with
      | [] => [[c]]
      | p :: ps => (c :: p) :: ps

/-- the ranges and levels of paragraphs that follow each other from `start` on -/
def paragraphInfos (cls : Nat → BC) (dflt : Option Nat) : (start : Nat) → List (List Nat) → List Para
  | _, [] => []
  | start, p :: ps => ⟨⟨start, start + blen p⟩, dflt.getD (paragraphLevel (p.map cls))⟩ :: paragraphInfos cls dflt (start + blen p) ps

theorem splitParas_eq_nil {cls : Nat → BC} {t : List Nat} : splitParas cls t = [] ↔ t = [] := by
  cases t with
  | nil => simp [splitParas]
  | cons c r =>
    simp only [splitParas]
    split_ifs
    · simp
    · split <;> simp

theorem splitParas_ok (cls : Nat → BC) : ∀ t, IsParagraphs cls t (splitParas cls t)
  | [] => by simp [IsParagraphs, splitParas]
  | c :: r => by
    obtain ⟨h1, h2, h3⟩ := splitParas_ok cls r
    unfold splitParas
    split_ifs with hc
    · refine ⟨by simp [h1], ?_, ?_⟩
      · intro p hp
        rcases List.mem_cons.1 hp with rfl | hp
        · simp
        · exact h2 p hp
      · intro p hp
        cases hs : splitParas cls r with
        | nil => rw [hs] at hp; simp at hp
        | cons q qs =>
          rw [hs, List.dropLast_cons_cons] at hp
          rcases List.mem_cons.1 hp with rfl | hp
          · exact ⟨c, rfl, hc⟩
          · exact h3 p (by rw [hs]; exact hp)
    · cases hs : splitParas cls r with
      | nil =>
        have := splitParas_eq_nil.1 hs
        subst this
        refine ⟨by simp, by simp, by simp⟩
      | cons q qs =>
        rw [hs] at h1 h2 h3
        refine ⟨by simpa using h1, ?_, ?_⟩
        · intro p hp
          rcases List.mem_cons.1 hp with rfl | hp
          · refine ⟨by simp, ?_⟩
            intro x hx
            obtain ⟨q0, qr, rfl⟩ := List.exists_cons_of_ne_nil (h2 q (by simp)).1
            rw [List.dropLast_cons_cons] at hx
            rcases List.mem_cons.1 hx with rfl | hx
            · exact hc
            · exact (h2 _ (by simp)).2 x hx
          · exact h2 p (by simp [hp])
        · intro p hp
          cases qs with
          | nil => simp at hp
          | cons q2 qs =>
            rw [List.dropLast_cons_cons] at hp
            rcases List.mem_cons.1 hp with rfl | hp
            · obtain ⟨x, hx, hb⟩ := h3 q (by rw [List.dropLast_cons_cons]; simp)
              refine ⟨x, ?_, hb⟩
              rw [List.getLast?_cons, hx]; rfl
            · exact h3 p (by rw [List.dropLast_cons_cons]; simp [hp])

theorem firstStrong_sep {d : Nat} : firstStrong d [BidiClass.ParagraphSeparator] = none := by
  simp [firstStrong, isInitiator, isStrong]

theorem parasL_eq (cls : Nat → BC) (dflt : Option Nat) : ∀ (r : List Nat) (i d start : Nat) (level : Option Nat), start ≤ i →
    parasL cls dflt r i d start level = match splitParas cls r with
      | [] => if start < i then [⟨⟨start, i⟩, level.getD 0⟩] else []
      | p :: ps => ⟨⟨start, i + blen p⟩, level.getD (levelOfStrong (firstStrong d (p.map cls)))⟩ :: paragraphInfos cls dflt (i + blen p) ps
  | [], i, d, start, level, _ => rfl
  | c :: r, i, d, start, level, h => by
    have hp := len_pos c
    unfold parasL splitParas
    by_cases hB : cls c = .ParagraphSeparator
    · rw [if_pos hB, if_pos hB, parasL_eq cls dflt r _ _ _ _ (Nat.le_refl _)]
      simp only [List.map_cons, List.map_nil, hB, firstStrong_sep, blen_cons, blen_nil, Nat.add_zero]
      congr 1
      cases splitParas cls r with
      | nil => simp [paragraphInfos]
      | cons p ps => simp only [paragraphInfos, paragraphLevel]
    · rw [if_neg hB, if_neg hB]
      have key : ∀ d' level', parasL cls dflt r (i + Utf.lenUtf8 c) d' start level' = match splitParas cls r with
          | [] => [⟨⟨start, i + Utf.lenUtf8 c⟩, level'.getD 0⟩]
          | p :: ps => ⟨⟨start, i + blen (c :: p)⟩, level'.getD (levelOfStrong (firstStrong d' (p.map cls)))⟩ ::
            paragraphInfos cls dflt (i + blen (c :: p)) ps := by
        intro d' level'
        rw [parasL_eq cls dflt r _ _ _ _ (by omega), if_pos (show start < i + Utf.lenUtf8 c by omega)]
        cases splitParas cls r with
        | nil => rfl
        | cons p ps => simp only [blen_cons, Nat.add_assoc]
      rw [key, key, key, key]
      have hfs : ∀ q, firstStrong d (cls c :: q) =
        if isInitiator (cls c) then firstStrong (d + 1) q
        else if cls c = .PopDirectionalIsolate then firstStrong (d - 1) q
        else if isStrong (cls c) ∧ d = 0 then some (cls c)
        else firstStrong d q := fun q => rfl
      cases splitParas cls r with
      | nil =>
        simp only [blen_cons, blen_nil, Nat.add_zero, List.map_cons, List.map_nil, hfs, paragraphInfos]
        simp only [firstStrong]
        split_ifs <;> simp [levelOfStrong]
      | cons p ps =>
        simp only [List.map_cons, hfs]
        split_ifs <;> simp

/-! ## the loop -/

/-- what the loop has to return, given the classes and the paragraphs of the characters done -/
def InitEnd (text : List Nat) (cs : List BC) (ps : List Para) (r : Outcome Init) : Prop :=
  ∃ st, r = .ok st ∧ st.classes = expand text cs ∧
    (if st.start < blen text then st.paras ++ [⟨⟨st.start, blen text⟩, st.level.getD 0⟩] else st.paras) = ps

theorem strong_isolate {c : BC} (h : isStrong c = true) {d : Nat} {r : List BC} :
    isolateStrong d (c :: r) = if d = 0 then some c else isolateStrong d r := by
  cases c <;> simp_all [isStrong, isolateStrong, isInitiator]

theorem initiator_isolate {c : BC} (h : isInitiator c = true) {d : Nat} {r : List BC} :
    isolateStrong d (c :: r) = isolateStrong (d + 1) r := by simp [isolateStrong, h]

theorem resolveWith_not_fsi {s : Option BC} {c : BC} (h : c ≠ .FirstStrongIsolate) : resolveWith s c = c := by simp [resolveWith, h]

theorem modify_resolved {l : List BC} {k : Nat} {s s' : Option BC} (h : s ≠ none) :
    (l.modify k (resolveWith s)).modify k (resolveWith s') = l.modify k (resolveWith s) := by
  apply List.ext_getElem?
  intro i
  rw [List.getElem?_modify, List.getElem?_modify]
  split_ifs
  · cases l[i]? with
    | none => rfl
    | some a =>
      simp only [Option.map_eq_map, Option.map_some, Option.some.injEq]
      apply resolveWith_not_fsi
      unfold resolveWith
      cases s with
      | none => exact absurd rfl h
      | some b => split_ifs with ha
                  · cases b <;> simp
                  · exact ha
  · simp

/-- the strong character writes its direction into the innermost isolate -/
theorem strong_write {done : List Nat} {cs : List BC} {k : Nat} (c : BC) (hs : isStrong c = true) (hl : cs.length = done.length) (hk : k < done.length)
    (h3 : ∀ h : k < done.length, cs[k]? = some .FirstStrongIsolate → Utf.lenUtf8 done[k] = 3) (stack : List Nat) (paras : List Para) (start : Nat) (level : Option Nat) :
    Init.strong ⟨expand done cs, off done k :: stack, paras, start, level⟩ c =
      .ok ⟨expand done (cs.modify k (resolveWith (some c))), off done k :: stack, paras, start, level⟩ := by
  obtain ⟨x, hx⟩ : ∃ x, cs[k]? = some x := ⟨cs[k], List.getElem?_eq_getElem (by omega)⟩
  have hat : at' (expand done cs) (off done k) = .ok x := at_ok (by rw [expand_at hl hk, hx])
  unfold Init.strong
  simp only [hat, bind_ok, pure_eq]
  by_cases hf : x = .FirstStrongIsolate
  · subst hf
    have hlen := h3 hk hx
    have hb : [off done k, off done k + 1, off done k + 2] = block done k := by
      unfold block
      rw [off_succ hk, hlen, show off done k + 3 - off done k = 3 by omega]; rfl
    rw [if_pos rfl, putAll_ok (by rw [expand_length _ _ hl, hb]; exact fun j hj => block_in hk hj), bind_ok, hb, expand_set _ hl hk]
    congr 3
    apply List.ext_getElem?
    intro i
    rw [List.getElem?_set, List.getElem?_modify]
    by_cases h1 : k = i
    · subst h1
      rw [hx, if_pos rfl, if_pos (by omega)]
      simp only [if_true, Option.map_eq_map, Option.map_some]
      cases c <;> simp_all [resolveWith, isStrong]
    · simp [h1]
  · rw [if_neg hf]
    congr 3
    apply List.ext_getElem?
    intro i
    rw [List.getElem?_modify]
    by_cases h1 : k = i
    · subst h1; rw [hx]; simp [resolveWith_not_fsi hf]
    · simp [h1]

theorem expand_snoc {α : Type} {done : List Nat} {cs : List α} (h : cs.length = done.length) (c : Nat) (x : α) :
    expand done cs ++ List.replicate (Utf.lenUtf8 c) x = expand (done ++ [c]) (cs ++ [x]) := by
  rw [expand_append _ _ _ _ h]; simp

theorem map_off_snoc {done : List Nat} {ks : List Nat} (h : ∀ k ∈ ks, k < done.length) (c : Nat) :
    ks.map (off done) = ks.map (off (done ++ [c])) := by
  apply List.map_congr_left
  intro k hk
  rw [off_append _ (Nat.le_of_lt (h k hk))]

theorem init_loop {cls : Nat → BC} (hF : ∀ c, cls c = .FirstStrongIsolate → Utf.lenUtf8 c = 3) (dflt : Option Nat) :
    ∀ (rest done : List Nat) (cs : List BC) (ks : List Nat) (paras : List Para) (start : Nat) (level : Option Nat),
      cs.length = done.length → (∀ k ∈ ks, k < done.length) →
      (∀ (k : Nat) (h : k < done.length), cs[k]? = some .FirstStrongIsolate → Utf.lenUtf8 done[k] = 3) →
      InitEnd (done ++ rest) (applyOpens (rest.map cls) 0 ks cs ++ initialClasses (rest.map cls))
        (paras ++ parasL cls dflt rest (blen done) ks.length start level)
        (Init.loop cls dflt rest (blen done) ⟨expand done cs, ks.map (off done), paras, start, level⟩)
  | [], done, cs, ks, paras, start, level, hl, hks, h3 => by
    refine ⟨_, rfl, ?_, ?_⟩
    · simp only [List.append_nil, List.map_nil, initialClasses]
      rw [applyOpens_none ks 0 cs (fun d _ => rfl)]
    · simp only [List.append_nil, parasL]
      split_ifs <;> simp
  | c :: rest, done, cs, ks, paras, start, level, hl, hks, h3 => by
    have hl' : (cs ++ [cls c]).length = (done ++ [c]).length := by simp [hl]
    have hks' : ∀ k ∈ ks, k < (done ++ [c]).length := fun k hk => by have := hks k hk; simp; omega
    have h3' : ∀ (cs' : List BC), cs'.length = done.length → (∀ (k : Nat) (h : k < done.length), cs'[k]? = some .FirstStrongIsolate → Utf.lenUtf8 done[k] = 3) →
        ∀ (k : Nat) (h : k < (done ++ [c]).length), (cs' ++ [cls c])[k]? = some .FirstStrongIsolate → Utf.lenUtf8 (done ++ [c])[k] = 3 := by
      intro cs' hl3 hcs k hk he
      by_cases h : k < done.length
      · rw [List.getElem?_append_left (by omega)] at he
        rw [List.getElem_append_left h]
        exact hcs k h he
      · have : k = done.length := by simp at hk; omega
        subst this
        rw [List.getElem?_append_right (by omega), hl3, Nat.sub_self] at he
        simp only [List.getElem?_cons_zero, Option.some.injEq] at he
        rw [List.getElem_append_right (by omega)]
        simpa using hF c he
    have hb : blen done + Utf.lenUtf8 c = blen (done ++ [c]) := by rw [blen_append, blen_cons, blen_nil]; omega
    -- what is left to show for each kind of character
    have step : ∀ (cs' : List BC) (ks' : List Nat) (paras' : List Para) (start' : Nat) (level' : Option Nat),
        cs'.length = done.length → (∀ k ∈ ks', k < (done ++ [c]).length) →
        (∀ (k : Nat) (h : k < done.length), cs'[k]? = some .FirstStrongIsolate → Utf.lenUtf8 done[k] = 3) →
        Init.step cls dflt ⟨expand done cs, ks.map (off done), paras, start, level⟩ (blen done) c =
          .ok ⟨expand (done ++ [c]) (cs' ++ [cls c]), ks'.map (off (done ++ [c])), paras', start', level'⟩ →
        applyOpens (rest.map cls) 0 ks' (cs' ++ [cls c]) = applyOpens ((c :: rest).map cls) 0 ks cs ++ [resolveFsi (cls c) (rest.map cls)] →
        paras' ++ parasL cls dflt rest (blen (done ++ [c])) ks'.length start' level' = paras ++ parasL cls dflt (c :: rest) (blen done) ks.length start level →
        InitEnd (done ++ c :: rest) (applyOpens ((c :: rest).map cls) 0 ks cs ++ initialClasses ((c :: rest).map cls))
          (paras ++ parasL cls dflt (c :: rest) (blen done) ks.length start level)
          (Init.loop cls dflt (c :: rest) (blen done) ⟨expand done cs, ks.map (off done), paras, start, level⟩) := by
      intro cs' ks' paras' start' level' e1 e2 e3 e4 e5 e6
      have ih := init_loop hF dflt rest (done ++ [c]) (cs' ++ [cls c]) ks' paras' start' level' (by simp [e1]) e2 (h3' cs' e1 e3)
      rw [Init.loop, e4, bind_ok, hb, ← e6]
      rw [e5, List.append_assoc, List.append_assoc] at ih
      exact ih
    have hsn := expand_snoc hl c (cls c)
    have hms := map_off_snoc hks c
    have hfs : cls c ≠ .FirstStrongIsolate → resolveFsi (cls c) (rest.map cls) = cls c := fun h => by simp [resolveFsi, h]
    -- characters that tell nothing
    have plain : isInitiator (cls c) = false → cls c ≠ .PopDirectionalIsolate → cls c ≠ .ParagraphSeparator → isStrong (cls c) = false →
        Init.step cls dflt ⟨expand done cs, ks.map (off done), paras, start, level⟩ (blen done) c =
          .ok ⟨expand done cs ++ List.replicate (Utf.lenUtf8 c) (cls c), ks.map (off done), paras, start, level⟩ := by
      intro a1 a2 a3 a4
      unfold Init.step
      cases h : cls c <;> first | rfl | (exfalso; simp [h, isInitiator, isStrong] at a1 a2 a3 a4)
    by_cases hI : isInitiator (cls c) = true
    · refine step cs (done.length :: ks) paras start level hl ?_ h3 ?_ ?_ ?_
      · intro k hk
        rcases List.mem_cons.1 hk with rfl | hk
        · simp
        · exact hks' k hk
      · rw [← hsn, List.map_cons, ← hms, off_append _ (Nat.le_refl _), off_length]
        unfold Init.step
        cases h : cls c <;> first | rfl | (exfalso; simp [h, isInitiator] at hI)
      · rw [applyOpens, ← hl, show (cs ++ [cls c]).modify cs.length (resolveWith (isolateStrong 0 (rest.map cls))) = cs ++ [resolveFsi (cls c) (rest.map cls)] from ?_,
          applyOpens_append _ _ _ _ _ (by simpa [hl] using hks)]
        · congr 1
          rw [List.map_cons, ← applyOpens_congr (e := 1) ks 0 cs (fun d _ => initiator_isolate hI)]
        · rw [resolveFsi_eq]
          apply List.ext_getElem?
          intro i
          rw [List.getElem?_modify]
          rcases Nat.lt_trichotomy i cs.length with h | h | h
          · rw [List.getElem?_append_left h, List.getElem?_append_left h]; simp [show ¬ cs.length = i by omega]
          · subst h; simp
          · rw [List.getElem?_eq_none (by simp; omega), List.getElem?_eq_none (by simp; omega)]; rfl
      · rw [← hb]
        conv => rhs; rw [parasL]
        rw [if_neg (by intro h; simp [h, isInitiator] at hI), if_pos hI]
        rfl
    · simp only [Bool.not_eq_true] at hI
      have hnF : cls c ≠ .FirstStrongIsolate := by intro h; simp [h, isInitiator] at hI
      by_cases hP : cls c = .PopDirectionalIsolate
      · refine step cs ks.tail paras start level hl (fun k hk => hks' k (List.mem_of_mem_tail hk)) h3 ?_ ?_ ?_
        · rw [← hsn, List.map_tail, ← hms]
          unfold Init.step
          rw [hP]
        · rw [hfs hnF, applyOpens_append _ _ _ _ _ (by intro k hk; rw [hl]; exact hks k (List.mem_of_mem_tail hk))]
          congr 1
          cases ks with
          | nil => rfl
          | cons k ks =>
            rw [applyOpens, List.map_cons, hP, List.tail_cons, show isolateStrong 0 (BidiClass.PopDirectionalIsolate :: rest.map cls) = none from rfl,
              resolveWith_none, modify_id]
            have : ∀ (ks : List Nat) (d : Nat) (cs : List BC), applyOpens (rest.map cls) d ks cs =
                applyOpens (BidiClass.PopDirectionalIsolate :: rest.map cls) (d + 1) ks cs := by
              intro ks
              induction ks with
              | nil => intro d cs; rfl
              | cons k ks ih => intro d cs; rw [applyOpens, applyOpens, ih]; rfl
            exact this ks 0 cs
        · rw [← hb]
          conv => rhs; rw [parasL]
          rw [if_neg (by rw [hP]; simp), if_neg (by simp [hI]), if_pos hP]
          simp
      · by_cases hB : cls c = .ParagraphSeparator
        · refine step cs [] (paras ++ [⟨⟨start, blen (done ++ [c])⟩, level.getD 0⟩]) (blen (done ++ [c])) dflt hl (by simp) h3 ?_ ?_ ?_
          · rw [← hsn, ← hb]
            unfold Init.step
            rw [hB]
            rfl
          · rw [hfs hnF, applyOpens, List.map_cons, hB, applyOpens_none ks 0 cs (fun d _ => by simp [isolateStrong, isInitiator])]
          · rw [← hb]
            conv => rhs; rw [parasL]
            rw [if_pos hB]
            simp
        · by_cases hS : isStrong (cls c) = true
          · cases ks with
            | nil =>
              refine step cs [] paras start (some (level.getD (levelOfStrong (some (cls c))))) hl (by simp) h3 ?_ ?_ ?_
              · rw [← hsn]
                unfold Init.step
                cases h : cls c <;> first | (exfalso; simp [h, isStrong] at hS; done) | skip
                all_goals cases level <;> simp [Init.strong, levelOfStrong, Level.ltr, Level.rtl]
              · rw [hfs hnF]; rfl
              · rw [← hb]
                conv => rhs; rw [parasL]
                rw [if_neg hB, if_neg (by simp [hI]), if_neg hP, if_pos ⟨hS, rfl⟩]
            | cons k ks =>
              have hk : k < done.length := hks k (by simp)
              refine step (cs.modify k (resolveWith (some (cls c)))) (k :: ks) paras start level (by simpa using hl) hks' ?_ ?_ ?_ ?_
              · intro j hj he
                rw [List.getElem?_modify] at he
                apply h3 j hj
                rw [List.getElem?_eq_getElem (by omega)] at he ⊢
                simp only [Option.map_eq_map, Option.map_some, Option.some.injEq] at he ⊢
                by_cases hkj : k = j
                · rw [if_pos hkj] at he
                  by_contra hne
                  rw [resolveWith_not_fsi hne] at he
                  exact hne he
                · rwa [if_neg hkj] at he
              · have hw := strong_write (done := done ++ [c]) (cs := cs ++ [cls c]) (k := k) (cls c) hS hl' (by simp; omega)
                  (fun h he => h3' cs hl h3 k h he) (ks.map (off (done ++ [c]))) paras start level
                have hmod : (cs ++ [cls c]).modify k (resolveWith (some (cls c))) = cs.modify k (resolveWith (some (cls c))) ++ [cls c] := by
                  apply List.ext_getElem?
                  intro i
                  rw [List.getElem?_modify]
                  by_cases hi : i < cs.length
                  · rw [List.getElem?_append_left hi, List.getElem?_append_left (by simpa using hi), List.getElem?_modify]
                  · rw [List.getElem?_append_right (by omega), List.getElem?_append_right (by simpa using hi), List.length_modify]
                    simp only [show ¬ k = i by omega, if_false]
                    simp
                rw [hmod] at hw
                refine Eq.trans ?_ hw
                unfold Init.step
                simp only [hsn, hms]
                cases h : cls c <;> first | (exfalso; simp [h, isStrong] at hS; done) | rfl
              · rw [hfs hnF, applyOpens_append _ _ _ _ _ (by intro j hj; rw [List.length_modify, hl]; exact hks j hj), applyOpens, modify_resolved (by simp), applyOpens,
                  List.map_cons, strong_isolate hS, if_pos rfl]
                congr 1
                exact (applyOpens_congr (e := 0) ks 1 _ (fun d hd => by rw [strong_isolate hS, if_neg (by omega)]; rfl)).symm
              · rw [← hb]
                conv => rhs; rw [parasL]
                rw [if_neg hB, if_neg (by simp [hI]), if_neg hP, if_neg (by simp)]
          · simp only [Bool.not_eq_true] at hS
            refine step cs ks paras start level hl hks' h3 ?_ ?_ ?_
            · rw [plain hI hP hB hS, hsn, hms]
            · rw [hfs hnF, applyOpens_append _ _ _ _ _ (by simpa [hl] using hks), List.map_cons]
              congr 1
              refine (applyOpens_congr (e := 0) ks 0 _ (fun d hd => ?_)).symm
              simp [isolateStrong, hI, hP, hB, hS]
            · rw [← hb]
              conv => rhs; rw [parasL]
              rw [if_neg hB, if_neg (by simp [hI]), if_neg hP, if_neg (by simp [hS])]

/-- the classes and the paragraphs of a text -/
theorem initialInfo_ok {cls : Nat → BC} (hF : ∀ c, cls c = .FirstStrongIsolate → Utf.lenUtf8 c = 3) (dflt : Option Nat) (text : List Nat) :
    initialInfo cls text dflt = .ok (expand text (initialClasses (text.map cls)), paragraphInfos cls dflt 0 (splitParas cls text)) := by
  obtain ⟨st, h1, h2, h3⟩ := init_loop hF dflt text [] [] [] [] 0 dflt rfl (by simp) (by simp)
  have hlen : ∀ cs : List BC, (initialClasses cs).length = cs.length := by
    intro cs
    induction cs with
    | nil => rfl
    | cons c cs ih => simp [initialClasses, ih]
  simp only [List.nil_append, List.map_nil, blen_nil, expand_nil] at h1 h2 h3
  simp only [applyOpens, List.nil_append] at h2
  unfold initialInfo
  rw [h1]
  simp only [bind_ok, pure_eq]
  rw [if_neg (by rw [h2, expand_length _ _ (by rw [hlen]; simp)]; simp), h2]
  have h0 : Level.ltr = 0 := rfl
  rw [h0, h3, List.length_nil, parasL_eq cls dflt text 0 0 0 dflt (Nat.le_refl 0)]
  congr 2
  cases splitParas cls text with
  | nil => rfl
  | cons p ps => simp [paragraphInfos, paragraphLevel]

end Proofs.Bidi
