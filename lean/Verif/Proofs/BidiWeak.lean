import Verif.Proofs.BidiRuns

/-! # `implicit::resolve_weak`, one entry per character -/
namespace Proofs.Bidi
open Model Model.Bidi Data Proofs.Punycode Model.Grapheme Proofs.Grapheme Spec.Bidi

/-! ## writing -/

theorem setAll_append {α : Type} (l : List α) (a b : List Nat) (v : α) : setAll l (a ++ b) v = setAll (setAll l a v) b v := by simp [setAll]
theorem setAll_cons {α : Type} (l : List α) (a : Nat) (b : List Nat) (v : α) : setAll l (a :: b) v = setAll (l.set a v) b v := by simp [setAll]

theorem expand_setAll {α : Type} {t : List Nat} (v : α) : ∀ (ks : List Nat) (xs : List α), xs.length = t.length → (∀ k ∈ ks, k < t.length) →
    setAll (expand t xs) (ks.flatMap (block t)) v = expand t (setAll xs ks v)
  | [], xs, _, _ => rfl
  | k :: ks, xs, h, hk => by
    rw [List.flatMap_cons, setAll_append, expand_set v h (hk k (by simp)), expand_setAll v ks _ (by simpa using h) (fun j hj => hk j (by simp [hj])), setAll_cons]

theorem setAll_comm {α : Type} (l : List α) (a b : List Nat) (u v : α) (h : ∀ i ∈ a, i ∉ b) : setAll (setAll l a u) b v = setAll (setAll l b v) a u := by
  apply List.ext_getElem?
  intro i
  simp only [setAll_getElem?, setAll_length]
  by_cases ha : i ∈ a
  · have := h i ha; simp [this]
  · simp [ha]

theorem setAll_same {α : Type} (l : List α) (js : List Nat) (v : α) (h : ∀ j ∈ js, l[j]? = some v) : setAll l js v = l := by
  apply List.ext_getElem?
  intro i
  rw [setAll_getElem?]
  split_ifs with hc
  · exact (h i hc.1).symm
  · rfl

/-! ## the characters -/

/-- the class of the next entry that is not removed -/
def nextC (xs : List BC) (eos : BC) : List Nat → BC
  | [] => eos
  | k :: ks => if removed (xs.getD k .OtherNeutral) then nextC xs eos ks else xs.getD k .OtherNeutral

/-- the class W1, W3, W4, W5 (after a number) give a character of `m` bytes -/
def newClass (m : Nat) (c prev next : BC) : BC :=
  match c with
  | .NonspacingMark => nsmClass prev
  | .ArabicLetter => .RightToLeft
  | .EuropeanSeparator => if m = 1 then separatorClass prev .EuropeanSeparator next else .OtherNeutral
  | .CommonSeparator => if m = 1 then separatorClass prev .CommonSeparator next else .OtherNeutral
  | .EuropeanTerminator => if prev = .EuropeanNumber then .EuropeanNumber else .EuropeanTerminator
  | c => c

/-- the first loop of `resolve_weak` on characters; `es` is the run of terminators that wait -/
def weakC (t : List Nat) (eos : BC) : (ks : List Nat) → (xs : List BC) → (prev : BC) → (es : List Nat) → List BC
  | [], xs, _, _ => xs
  | k :: ks, xs, prev, es =>
    let c := xs.getD k .OtherNeutral
    if removed c then weakC t eos ks xs prev es
    else
      let x := newClass (Utf.lenUtf8 (t.getD k 0)) c prev (nextC xs eos ks)
      if x = .EuropeanTerminator then weakC t eos ks (xs.set k x) x (if c = .EuropeanTerminator then es ++ [k] else es)
      else weakC t eos ks (setAll (xs.set k x) es (if c = .EuropeanNumber then .EuropeanNumber else .OtherNeutral)) x []

/-- the second loop of `resolve_weak` on characters (W7) -/
def w7C : (ks : List Nat) → (l : Bool) → (xs : List BC) → List BC
  | [], _, xs => xs
  | k :: ks, l, xs =>
    match xs.getD k .OtherNeutral with
    | .EuropeanNumber => if l then w7C ks l (xs.set k .LeftToRight) else w7C ks l xs
    | .LeftToRight => w7C ks true xs
    | .RightToLeft | .ArabicLetter => w7C ks false xs
    | _ => w7C ks l xs

theorem weakC_length (t : List Nat) (eos : BC) : ∀ (ks : List Nat) (xs : List BC) (prev : BC) (es : List Nat), (weakC t eos ks xs prev es).length = xs.length
  | [], _, _, _ => rfl
  | k :: ks, xs, prev, es => by
    simp only [weakC]
    split_ifs <;> simp [weakC_length]

theorem w7C_length : ∀ (ks : List Nat) (l : Bool) (xs : List BC), (w7C ks l xs).length = xs.length
  | [], _, _ => rfl
  | k :: ks, l, xs => by
    simp only [w7C]
    split
    · split_ifs <;> simp [w7C_length]
    all_goals simp [w7C_length]

/-! ## the bytes of one character -/

/-- the body of the loop -/
def byteStep (eos : BC) (st : Weak) (i : Nat) (rest : List Nat) : Outcome Weak := do
  match ← st.classify eos i rest with
  | none => return st
  | some st => st.finish i

theorem loop_cons (eos : BC) (i : Nat) (rest : List Nat) (st : Weak) : Weak.loop eos (i :: rest) st = (byteStep eos st i rest >>= Weak.loop eos rest) := by
  unfold byteStep
  simp only [Weak.loop]
  cases st.classify eos i rest with
  | panic => rfl
  | ok o => cases o <;> rfl

theorem finish_other {P : List BC} {prev x : BC} {E : List Nat} {i : Nat} (hx : P[i]? = some x) (h1 : x ≠ .EuropeanTerminator) (h2 : x ≠ .ArabicLetter)
    (hE : ∀ j ∈ E, j < P.length) : Weak.finish ⟨P, prev, false, E⟩ i = .ok ⟨setAll P E .OtherNeutral, x, false, []⟩ := by
  unfold Weak.finish
  simp only [at_ok hx, bind_ok, pure_eq]
  rw [if_pos h1, putAll_ok hE, bind_ok]
  congr 2
  cases x <;> first | rfl | exact absurd rfl h2

theorem finish_et {P : List BC} {prev : BC} {E : List Nat} {i : Nat} (hx : P[i]? = some .EuropeanTerminator) :
    Weak.finish ⟨P, prev, false, E⟩ i = .ok ⟨P, .EuropeanTerminator, false, E⟩ := by
  unfold Weak.finish
  simp only [at_ok hx, bind_ok, pure_eq]
  rw [if_neg (by simp)]

theorem nextClass_ok {P : List BC} {eos : BC} : ∀ {js : List Nat}, (∀ j ∈ js, j < P.length) → ∃ n, nextClass P eos js = .ok n
  | [], _ => ⟨eos, rfl⟩
  | j :: js, h => by
    unfold nextClass
    rw [at_ok (List.getElem?_eq_getElem (h j (by simp)))]
    simp only [bind_ok]
    split_ifs
    · exact nextClass_ok (fun i hi => h i (by simp [hi]))
    · exact ⟨_, rfl⟩

theorem separator_dir {p c n : BC} : separatorClass p c n = .OtherNeutral ∨ separatorClass p c n = .EuropeanNumber ∨ separatorClass p c n = .ArabicNumber := by
  unfold separatorClass; split <;> simp

/-- the class the program gives an entry that is not removed, not a number and not a waiting terminator -/
def byteClass (c prev next : BC) : BC :=
  match c with
  | .NonspacingMark => nsmClass prev
  | .ArabicLetter => .RightToLeft
  | .EuropeanSeparator => separatorClass prev .EuropeanSeparator next
  | .CommonSeparator => separatorClass prev .CommonSeparator next
  | .EuropeanTerminator => if prev = .EuropeanNumber then .EuropeanNumber else .EuropeanTerminator
  | c => c

theorem set_same {α : Type} {l : List α} {i : Nat} {a : α} (h : l[i]? = some a) : l.set i a = l := by
  apply List.ext_getElem?
  intro j
  rw [List.getElem?_set]
  split_ifs with h1 h2
  · subst h1; exact h.symm
  · subst h1; rw [List.getElem?_eq_none (by omega)]
  · rfl

theorem byteClass_ne_al {c prev next : BC} (hp : prev ≠ .ArabicLetter) : byteClass c prev next ≠ .ArabicLetter := by
  unfold byteClass
  split
  · unfold nsmClass; split_ifs
    · simp
    · exact hp
  · simp
  · rcases separator_dir (p := prev) (c := .EuropeanSeparator) (n := next) with h | h | h <;> simp [h]
  · rcases separator_dir (p := prev) (c := .CommonSeparator) (n := next) with h | h | h <;> simp [h]
  · split_ifs <;> simp
  · assumption

/-- one byte -/
theorem byte_other {P : List BC} {eos prev c next : BC} {E rest : List Nat} {i : Nat} (hc : P[i]? = some c) (hr : removed c = false)
    (hn : nextClass P eos rest = .ok next) (hp : prev ≠ .ArabicLetter) (hx : byteClass c prev next ≠ .EuropeanTerminator) (hE : ∀ j ∈ E, j < P.length) (hi : i ∉ E)
    (hcn : c ≠ .EuropeanNumber) :
    byteStep eos ⟨P, prev, false, E⟩ i rest = .ok ⟨setAll (P.set i (byteClass c prev next)) E .OtherNeutral, byteClass c prev next, false, []⟩ := by
  have hlt : i < P.length := by
    rcases Nat.lt_or_ge i P.length with h | h
    · exact h
    · rw [List.getElem?_eq_none h] at hc; simp at hc
  have hal := byteClass_ne_al (c := c) (next := next) hp
  have hfin : ∀ x : BC, x ≠ .EuropeanTerminator → x ≠ .ArabicLetter →
      Weak.finish ⟨P.set i x, prev, false, E⟩ i = .ok ⟨setAll (P.set i x) E .OtherNeutral, x, false, []⟩ := fun x h1 h2 =>
    finish_other (by rw [List.getElem?_set, if_pos rfl, if_pos hlt]) h1 h2 (by simpa using hE)
  have hset := set_same hc
  have hfin' : c ≠ .EuropeanTerminator → c ≠ .ArabicLetter →
      Weak.finish ⟨P, prev, false, E⟩ i = .ok ⟨setAll (P.set i c) E .OtherNeutral, c, false, []⟩ := by
    intro h1 h2; rw [hset]; exact finish_other hc h1 h2 hE
  unfold byteStep Weak.classify
  simp only [at_ok hc, bind_ok, pure_eq]
  cases c
  case NonspacingMark => simp only [put_ok hlt, bind_ok]; exact hfin _ hx hal
  case EuropeanNumber => exact absurd rfl hcn
  case ArabicLetter => simp only [put_ok hlt, bind_ok]; exact hfin _ hx hal
  case EuropeanSeparator => simp only [hn, put_ok hlt, bind_ok]; exact hfin _ hx hal
  case CommonSeparator => simp only [hn, put_ok hlt, bind_ok]; exact hfin _ hx hal
  case EuropeanTerminator =>
    by_cases h : prev = .EuropeanNumber
    · simp only [if_pos h, put_ok hlt, bind_ok]
      simp only [byteClass, if_pos h] at hx ⊢
      exact hfin _ hx (by simp)
    · exact absurd (by simp [byteClass, h]) hx
  all_goals first
    | (exfalso; simp [removed] at hr; done)
    | exact hfin' (by simp) (by simp)

theorem byte_en {P : List BC} {eos prev : BC} {E rest : List Nat} {i : Nat} (hc : P[i]? = some .EuropeanNumber) (hE : ∀ j ∈ E, j < P.length) (hi : i ∉ E) :
    byteStep eos ⟨P, prev, false, E⟩ i rest = .ok ⟨setAll P E .EuropeanNumber, .EuropeanNumber, false, []⟩ := by
  unfold byteStep Weak.classify
  simp only [at_ok hc, bind_ok, pure_eq, Bool.false_eq_true, if_false, putAll_ok hE]
  have := finish_other (P := setAll P E .EuropeanNumber) (prev := prev) (E := []) (i := i) (x := .EuropeanNumber) (by rw [setAll_getElem?, if_neg (by simp [hi]), hc])
    (by simp) (by simp) (by simp)
  simpa using this

/-- a byte whose class becomes, or stays, that of a terminator -/
theorem byte_et {P : List BC} {eos prev c : BC} {E rest : List Nat} {i : Nat} (hc : P[i]? = some c) (hr : removed c = false)
    (hx : (c = .NonspacingMark ∧ nsmClass prev = .EuropeanTerminator) ∨ (c = .EuropeanTerminator ∧ prev ≠ .EuropeanNumber)) :
    byteStep eos ⟨P, prev, false, E⟩ i rest = .ok ⟨P.set i .EuropeanTerminator, .EuropeanTerminator, false, if c = .EuropeanTerminator then E ++ [i] else E⟩ := by
  have hlt : i < P.length := by
    rcases Nat.lt_or_ge i P.length with h | h
    · exact h
    · rw [List.getElem?_eq_none h] at hc; simp at hc
  unfold byteStep Weak.classify
  simp only [at_ok hc, bind_ok, pure_eq]
  rcases hx with ⟨h1, h2⟩ | ⟨h1, h2⟩
  · subst h1
    simp only [put_ok hlt, bind_ok, h2]
    rw [finish_et (by rw [List.getElem?_set, if_pos rfl, if_pos hlt]), if_neg (by simp)]
  · subst h1
    simp only [if_neg h2, bind_ok, if_true]
    rw [finish_et hc, set_same hc]

/-- a state in which the bytes of a character keep being given the class `x` -/
theorem settle {eos x c : BC} {E : List Nat} (rest : List Nat) :
    ∀ (bs : List Nat) (P : List BC), bs.Nodup → (∀ b ∈ bs, P[b]? = some c) → (∀ j ∈ rest, j < P.length) →
      (∀ (P' : List BC) (b : Nat) (js : List Nat), P'.length = P.length → P'[b]? = some c → (∀ j ∈ js, j < P.length) →
        byteStep eos ⟨P', x, false, E⟩ b js = .ok ⟨P'.set b x, x, false, E⟩) →
      Weak.loop eos (bs ++ rest) ⟨P, x, false, E⟩ = Weak.loop eos rest ⟨setAll P bs x, x, false, E⟩
  | [], P, _, _, _, _ => rfl
  | b :: bs, P, hn, hc, hr, hs => by
    obtain ⟨n1, n2⟩ := List.nodup_cons.1 hn
    have hlt : ∀ j ∈ bs, j < P.length := fun j hj => by
      rcases Nat.lt_or_ge j P.length with h | h
      · exact h
      · have := hc j (by simp [hj]); rw [List.getElem?_eq_none h] at this; simp at this
    rw [List.cons_append, loop_cons, hs P b (bs ++ rest) rfl (hc b (by simp)) (by
      intro j hj
      rcases List.mem_append.1 hj with h | h
      · exact hlt j h
      · exact hr j h), bind_ok, settle rest bs (P.set b x) n2, setAll_cons]
    · intro b' hb'
      rw [List.getElem?_set, if_neg (show ¬ b = b' from fun e => n1 (e ▸ hb'))]
      exact hc b' (by simp [hb'])
    · simpa using hr
    · intro P' b' js h1 h2 h3
      exact hs P' b' js (by simpa using h1) h2 (by simpa using h3)

/-- the terminators that wait -/
theorem settle_et {eos : BC} (rest : List Nat) : ∀ (bs : List Nat) (P : List BC) (prev : BC) (E : List Nat), prev ≠ .EuropeanNumber →
      (∀ b ∈ bs, P[b]? = some .EuropeanTerminator) →
      Weak.loop eos (bs ++ rest) ⟨P, prev, false, E⟩ = Weak.loop eos rest ⟨P, if bs = [] then prev else .EuropeanTerminator, false, E ++ bs⟩
  | [], P, prev, E, _, _ => by simp
  | b :: bs, P, prev, E, hp, hc => by
    have hb := hc b (by simp)
    rw [List.cons_append, loop_cons, byte_et hb rfl (Or.inr ⟨rfl, hp⟩), bind_ok, if_pos rfl, set_same hb,
      settle_et rest bs P .EuropeanTerminator (E ++ [b]) (by simp) (fun b' hb' => hc b' (by simp [hb']))]
    simp

theorem settle_removed {eos c : BC} (h : removed c = true) (rest : List Nat) : ∀ (bs : List Nat) (st : Weak), (∀ b ∈ bs, st.pcs[b]? = some c) →
      Weak.loop eos (bs ++ rest) st = Weak.loop eos rest st
  | [], st, _ => rfl
  | b :: bs, st, hc => by
    have : byteStep eos st b (bs ++ rest) = .ok st := by
      unfold byteStep Weak.classify
      simp only [at_ok (hc b (by simp)), bind_ok, pure_eq]
      cases c <;> first | (exfalso; simp [removed] at h; done) | rfl
    rw [List.cons_append, loop_cons, this, bind_ok, settle_removed h rest bs st (fun b' hb' => hc b' (by simp [hb']))]

theorem nextClass_expand {t : List Nat} {xs : List BC} (h : xs.length = t.length) {eos : BC} : ∀ (ks : List Nat), (∀ k ∈ ks, k < t.length) →
    nextClass (expand t xs) eos (ks.flatMap (block t)) = .ok (nextC xs eos ks)
  | [], _ => rfl
  | k :: ks, hk => by
    have hkt := hk k (by simp)
    have hx : xs[k]? = some (xs.getD k .OtherNeutral) := by rw [getD_of_lt (by omega), List.getElem?_eq_getElem]
    have hb : ∀ j ∈ block t k, (expand t xs)[j]? = some (xs.getD k .OtherNeutral) := by
      intro j hj
      obtain ⟨h1, h2⟩ := (mem_block hkt).1 hj
      have := expand_getElem? t xs k (j - off t k) h hkt h2
      rw [show off t k + (j - off t k) = j by omega] at this
      rw [this, hx]
    have hlen : block t k ≠ [] := by
      intro e
      have := (mem_block hkt).2 ⟨Nat.le_refl (off t k), by rw [Nat.sub_self]; exact len_pos _⟩
      rw [e] at this; simp at this
    have ih := nextClass_expand h (eos := eos) ks (fun j hj => hk j (by simp [hj]))
    rw [List.flatMap_cons, nextC]
    by_cases hr : removed (xs.getD k .OtherNeutral) = true
    · rw [if_pos hr, ← ih]
      clear hlen ih
      generalize block t k = bs at hb
      induction bs with
      | nil => rfl
      | cons b bs ih =>
        rw [List.cons_append, nextClass, at_ok (hb b (by simp))]
        simp only [bind_ok, hr, if_true]
        exact ih (fun j hj => hb j (by simp [hj]))
    · rw [if_neg hr]
      cases hbs : block t k with
      | nil => exact absurd hbs hlen
      | cons b bs =>
        rw [List.cons_append, nextClass, at_ok (hb b (by rw [hbs]; simp))]
        simp only [bind_ok, hr]
        rfl

theorem nsm_idem (p : BC) : nsmClass (nsmClass p) = nsmClass p := by
  unfold nsmClass
  split_ifs with h1 h2 <;> simp_all [isIsolate]

theorem sep_self {p : BC} {c c' : BC} (h : c' = .EuropeanSeparator ∨ c' = .CommonSeparator) : separatorClass p c c' = .OtherNeutral := by
  rcases h with rfl | rfl <;> (unfold separatorClass; split <;> simp_all)

theorem sep_on {c n : BC} : separatorClass .OtherNeutral c n = .OtherNeutral := by
  unfold separatorClass; split <;> simp_all

theorem block_nodup (t : List Nat) (k : Nat) : (block t k).Nodup := by unfold block; exact List.nodup_range'

/-- the bytes of one character -/
theorem weak_block {t : List Nat} {xs : List BC} {eos prev : BC} {es ks : List Nat} {k : Nat} (h : xs.length = t.length) (hk : k < t.length)
    (hks : ∀ j ∈ ks, j < t.length) (hes : ∀ j ∈ es, j < t.length) (hne : k ∉ es) (hp : prev ≠ .ArabicLetter) :
    Weak.loop eos (block t k ++ ks.flatMap (block t)) ⟨expand t xs, prev, false, es.flatMap (block t)⟩ =
      (let c := xs.getD k .OtherNeutral
       if removed c then Weak.loop eos (ks.flatMap (block t)) ⟨expand t xs, prev, false, es.flatMap (block t)⟩
       else
         let x := newClass (Utf.lenUtf8 (t.getD k 0)) c prev (nextC xs eos ks)
         if x = .EuropeanTerminator then Weak.loop eos (ks.flatMap (block t))
           ⟨expand t (xs.set k x), x, false, (if c = .EuropeanTerminator then es ++ [k] else es).flatMap (block t)⟩
         else Weak.loop eos (ks.flatMap (block t))
           ⟨expand t (setAll (xs.set k x) es (if c = .EuropeanNumber then .EuropeanNumber else .OtherNeutral)), x, false, []⟩) := by
  obtain ⟨c, hcd⟩ : ∃ c, c = xs.getD k .OtherNeutral := ⟨_, rfl⟩
  simp only [← hcd]
  have hx : xs[k]? = some c := by rw [hcd, getD_of_lt (by omega), List.getElem?_eq_getElem]
  have hP : (expand t xs).length = blen t := expand_length _ _ h
  have hb : ∀ j ∈ block t k, (expand t xs)[j]? = some c := by
    intro j hj
    obtain ⟨h1, h2⟩ := (mem_block hk).1 hj
    have := expand_getElem? t xs k (j - off t k) h hk h2
    rw [show off t k + (j - off t k) = j by omega] at this
    rw [this, hx]
  have hin : ∀ js : List Nat, (∀ j ∈ js, j < t.length) → ∀ i ∈ js.flatMap (block t), i < (expand t xs).length := by
    intro js hjs i hi
    obtain ⟨j, hj, hij⟩ := List.mem_flatMap.1 hi
    rw [hP]; exact block_in (hjs j hj) hij
  have hE := hin es hes
  have hR := hin ks hks
  have hdis : ∀ i ∈ block t k, i ∉ es.flatMap (block t) := by
    intro i hi hi'
    obtain ⟨j, hj, hij⟩ := List.mem_flatMap.1 hi'
    exact hne ((block_disjoint hk (hes j hj) hi hij) ▸ hj)
  by_cases hr : removed c = true
  · rw [if_pos hr]
    exact settle_removed hr _ _ _ hb
  · rw [if_neg hr]
    simp only [Bool.not_eq_true] at hr
    have htd : t.getD k 0 = t[k] := getD_of_lt hk
    rw [htd]
    -- the first byte and the rest of the character
    obtain ⟨b0, bs, hbk, hbn⟩ : ∃ b0 bs, block t k = b0 :: bs ∧ (bs = [] ↔ Utf.lenUtf8 t[k] = 1) := by
      have e : block t k = List.range' (off t k) (Utf.lenUtf8 t[k]) := by unfold block; rw [off_succ hk]; congr 1; omega
      have := len_pos t[k]
      obtain ⟨m, hm⟩ : ∃ m, Utf.lenUtf8 t[k] = m + 1 := ⟨Utf.lenUtf8 t[k] - 1, by omega⟩
      refine ⟨off t k, List.range' (off t k + 1) m, by rw [e, hm, List.range'_succ], ?_⟩
      rw [hm]
      simp [List.range'_eq_nil_iff]
    have hnd := block_nodup t k
    rw [hbk] at hnd
    obtain ⟨nb1, nb2⟩ := List.nodup_cons.1 hnd
    have hb0 : (expand t xs)[b0]? = some c := hb b0 (by rw [hbk]; simp)
    have hbs : ∀ j ∈ bs, (expand t xs)[j]? = some c := fun j hj => hb j (by rw [hbk]; simp [hj])
    have hd0 : b0 ∉ es.flatMap (block t) := hdis b0 (by rw [hbk]; simp)
    have hds : ∀ i ∈ bs, i ∉ es.flatMap (block t) := fun i hi => hdis i (by rw [hbk]; simp [hi])
    -- the array afterwards
    have harr : ∀ (x F : BC), setAll (setAll ((expand t xs).set b0 x) (es.flatMap (block t)) F) bs x = expand t (setAll (xs.set k x) es F) := by
      intro x F
      rw [← setAll_comm _ _ _ _ _ hds, ← setAll_cons, ← hbk, expand_set x h hk, expand_setAll F es _ (by simpa using h) hes]
    have harr0 : ∀ x : BC, setAll ((expand t xs).set b0 x) bs x = expand t (xs.set k x) := by
      intro x
      rw [← setAll_cons, ← hbk, expand_set x h hk]
    have hrest : ∀ (P : List BC), P.length = (expand t xs).length → ∀ j ∈ ks.flatMap (block t), j < P.length := fun P hp j hj => by rw [hp]; exact hR j hj
    have hstill : ∀ (x F : BC), ∀ b ∈ bs, (setAll ((expand t xs).set b0 x) (es.flatMap (block t)) F)[b]? = some c := by
      intro x F b hb'
      rw [setAll_getElem?, if_neg (fun e => hds b hb' e.1), List.getElem?_set, if_neg (show ¬ b0 = b from fun e => nb1 (e ▸ hb')), hbs b hb']
    have hstill0 : ∀ (x : BC), ∀ b ∈ bs, ((expand t xs).set b0 x)[b]? = some c := by
      intro x b hb'
      rw [List.getElem?_set, if_neg (show ¬ b0 = b from fun e => nb1 (e ▸ hb')), hbs b hb']
    rw [hbk, List.cons_append, loop_cons]
    by_cases hen : c = .EuropeanNumber
    · subst hen
      rw [byte_en hb0 hE hd0, bind_ok]
      have hx' : newClass (Utf.lenUtf8 t[k]) .EuropeanNumber prev (nextC xs eos ks) = .EuropeanNumber := rfl
      rw [hx', if_neg (by simp), if_pos rfl, ← harr, set_same hb0]
      refine settle (c := .EuropeanNumber) _ bs _ nb2 ?_ (hrest _ (by simp)) ?_
      · intro b hb'
        have := hstill .EuropeanNumber .EuropeanNumber b hb'
        rwa [set_same hb0] at this
      · intro P' b js _ h2 _
        rw [byte_en h2 (by simp) (by simp), set_same h2]; rfl
    · rw [if_neg hen]
      -- the class the first byte gets
      obtain ⟨n1, hn1⟩ := nextClass_ok (P := expand t xs) (eos := eos) (js := bs ++ ks.flatMap (block t)) (by
        intro j hj
        rcases List.mem_append.1 hj with hj | hj
        · have := hbs j hj
          rcases Nat.lt_or_ge j (expand t xs).length with hlt | hge
          · exact hlt
          · rw [List.getElem?_eq_none hge] at this; simp at this
        · exact hR j hj)
      have hcls : byteClass c prev n1 = newClass (Utf.lenUtf8 t[k]) c prev (nextC xs eos ks) := by
        have hsep : ∀ c' : BC, (c' = .EuropeanSeparator ∨ c' = .CommonSeparator) → c = c' →
            separatorClass prev c' n1 = if Utf.lenUtf8 t[k] = 1 then separatorClass prev c' (nextC xs eos ks) else .OtherNeutral := by
          intro c' hc' hcc
          split_ifs with h1
          · have := hbn.2 h1
            subst this
            rw [List.nil_append, nextClass_expand h ks hks] at hn1
            cases hn1; rfl
          · obtain ⟨b1, bs', hb1⟩ := List.exists_cons_of_ne_nil (fun e => h1 (hbn.1 e))
            have : n1 = c := by
              rw [hb1, List.cons_append, nextClass, at_ok (hbs b1 (by rw [hb1]; simp))] at hn1
              simp only [bind_ok, hr, Bool.false_eq_true, if_false, pure_eq, Outcome.ok.injEq] at hn1
              exact hn1.symm
            rw [this, hcc, sep_self hc']
        cases c <;> first | rfl | exact hsep _ (Or.inl rfl) rfl | exact hsep _ (Or.inr rfl) rfl
      rw [← hcls]
      by_cases hxe : byteClass c prev n1 = .EuropeanTerminator
      · rw [if_pos hxe]
        have hwhich : (c = .NonspacingMark ∧ nsmClass prev = .EuropeanTerminator) ∨ (c = .EuropeanTerminator ∧ prev ≠ .EuropeanNumber) := by
          cases c
          case NonspacingMark => exact Or.inl ⟨rfl, hxe⟩
          case EuropeanTerminator =>
            refine Or.inr ⟨rfl, ?_⟩
            intro e; subst e; simp [byteClass] at hxe
          case EuropeanSeparator => exfalso; simp only [byteClass] at hxe; rcases separator_dir (p := prev) (c := .EuropeanSeparator) (n := n1) with e | e | e <;> rw [e] at hxe <;> simp at hxe
          case CommonSeparator => exfalso; simp only [byteClass] at hxe; rcases separator_dir (p := prev) (c := .CommonSeparator) (n := n1) with e | e | e <;> rw [e] at hxe <;> simp at hxe
          all_goals (exfalso; simp [byteClass] at hxe)
        rw [byte_et hb0 hr hwhich, bind_ok, hxe]
        rcases hwhich with ⟨e1, e2⟩ | ⟨e1, e2⟩
        · rw [if_neg (by rw [e1]; simp), if_neg (by rw [e1]; simp), ← harr0]
          refine settle _ bs _ nb2 (hstill0 _) (hrest _ (by simp)) ?_
          intro P' b js _ h2 _
          rw [byte_et h2 hr (Or.inl ⟨e1, by rw [← e2, nsm_idem, e2]⟩), if_neg (by rw [e1]; simp)]
        · rw [if_pos e1, if_pos e1]
          have hbs' : ∀ b ∈ bs, ((expand t xs).set b0 .EuropeanTerminator)[b]? = some .EuropeanTerminator := by
            intro b hb'; rw [hstill0 _ b hb', e1]
          rw [settle_et _ bs _ .EuropeanTerminator _ (by simp) hbs']
          have e3 : xs.set k .EuropeanTerminator = xs := set_same (by rw [hx, e1])
          have e4 : (expand t xs).set b0 .EuropeanTerminator = expand t xs := set_same (by rw [hb0, e1])
          rw [e3, e4, List.flatMap_append, List.flatMap_cons, List.flatMap_nil, List.append_nil, hbk]
          simp
      · rw [if_neg hxe, byte_other hb0 hr hn1 hp hxe hE hd0 hen, bind_ok, ← harr]
        have hal := byteClass_ne_al (c := c) (next := n1) hp
        by_cases hbe : bs = []
        · subst hbe; rfl
        refine settle _ bs _ nb2 (hstill _ _) (hrest _ (by simp)) ?_
        intro P' b js hl2 h2 hjs
        obtain ⟨n2, hn2⟩ := nextClass_ok (P := P') (eos := eos) (js := js) (by rw [hl2]; exact hjs)
        have hbc : bs ≠ [] → byteClass c (byteClass c prev n1) n2 = byteClass c prev n1 := by
          intro hne'
          have hlen1 : ¬ Utf.lenUtf8 t[k] = 1 := fun e => hne' (hbn.2 e)
          cases c
          case NonspacingMark => exact nsm_idem prev
          case EuropeanSeparator => rw [hcls]; simp only [newClass, if_neg hlen1, byteClass, sep_on]
          case CommonSeparator => rw [hcls]; simp only [newClass, if_neg hlen1, byteClass, sep_on]
          case EuropeanTerminator =>
            simp only [byteClass] at hxe ⊢
            split_ifs at hxe ⊢ <;> simp_all
          all_goals rfl
        have hb2 := hbc hbe
        rw [byte_other h2 hr hn2 hal (by rw [hb2]; exact hxe) (by simp) (by simp) hen, hb2]
        rfl

theorem newClass_ne_al {m : Nat} {c prev next : BC} (hp : prev ≠ .ArabicLetter) : newClass m c prev next ≠ .ArabicLetter := by
  unfold newClass
  split
  · unfold nsmClass; split_ifs
    · simp
    · exact hp
  · simp
  · split_ifs
    · rcases separator_dir (p := prev) (c := .EuropeanSeparator) (n := next) with h | h | h <;> simp [h]
    · simp
  · split_ifs
    · rcases separator_dir (p := prev) (c := .CommonSeparator) (n := next) with h | h | h <;> simp [h]
    · simp
  · split_ifs <;> simp
  · assumption

/-- the first loop of `resolve_weak` on the bytes is that on the characters -/
theorem weak_expand {t : List Nat} {eos : BC} : ∀ (ks : List Nat) (xs : List BC) (prev : BC) (es : List Nat), xs.length = t.length → (∀ k ∈ ks, k < t.length) →
    (∀ k ∈ es, k < t.length) → ks.Nodup → (∀ k ∈ es, k ∉ ks) → prev ≠ .ArabicLetter →
    ∃ st, Weak.loop eos (ks.flatMap (block t)) ⟨expand t xs, prev, false, es.flatMap (block t)⟩ = .ok st ∧ st.pcs = expand t (weakC t eos ks xs prev es)
  | [], xs, prev, es, _, _, _, _, _, _ => ⟨_, rfl, rfl⟩
  | k :: ks, xs, prev, es, h, hks, hes, hn, hd, hp => by
    obtain ⟨n1, n2⟩ := List.nodup_cons.1 hn
    have hk := hks k (by simp)
    have hks' : ∀ j ∈ ks, j < t.length := fun j hj => hks j (by simp [hj])
    have hdk : ∀ j ∈ es, j ∉ ks := fun j hj e => hd j hj (by simp [e])
    have hke : k ∉ es := fun e => hd k e (by simp)
    rw [List.flatMap_cons, weak_block h hk hks' hes hke hp]
    simp only [weakC]
    split_ifs with h1 h2 h3
    · exact weak_expand ks xs prev es h hks' hes n2 hdk hp
    · refine weak_expand ks _ _ (es ++ [k]) (by simpa using h) hks' ?_ n2 ?_ (newClass_ne_al hp)
      · intro j hj; rcases List.mem_append.1 hj with hj | hj
        · exact hes j hj
        · simp at hj; subst hj; exact hk
      · intro j hj; rcases List.mem_append.1 hj with hj | hj
        · exact hdk j hj
        · simp at hj; subst hj; exact n1
    · exact weak_expand ks _ _ es (by simpa using h) hks' hes n2 hdk (newClass_ne_al hp)
    all_goals exact weak_expand ks _ _ [] (by simpa using h) hks' (by simp) n2 (by simp) (newClass_ne_al hp)

theorem block_get {α : Type} {t : List Nat} {xs : List α} {k : Nat} (h : xs.length = t.length) (hk : k < t.length) (d : α) :
    ∀ j ∈ block t k, (expand t xs)[j]? = some (xs.getD k d) := by
  intro j hj
  obtain ⟨h1, h2⟩ := (mem_block hk).1 hj
  have := expand_getElem? t xs k (j - off t k) h hk h2
  rw [show off t k + (j - off t k) = j by omega] at this
  rw [this, getD_of_lt (by omega), List.getElem?_eq_getElem]

/-- W7 on the bytes of a number -/
theorem w7_en (rest : List Nat) : ∀ (bs : List Nat) (P : List BC), bs.Nodup → (∀ b ∈ bs, P[b]? = some .EuropeanNumber) →
    w7Loop (bs ++ rest) true P = w7Loop rest true (setAll P bs .LeftToRight)
  | [], P, _, _ => rfl
  | b :: bs, P, hn, hc => by
    obtain ⟨n1, n2⟩ := List.nodup_cons.1 hn
    have hb := hc b (by simp)
    have hlt : b < P.length := by
      rcases Nat.lt_or_ge b P.length with h | h
      · exact h
      · rw [List.getElem?_eq_none h] at hb; simp at hb
    rw [List.cons_append, w7Loop]
    simp only [at_ok hb, bind_ok, if_true, put_ok hlt]
    rw [w7_en rest bs _ n2, setAll_cons]
    intro b' hb'
    rw [List.getElem?_set, if_neg (show ¬ b = b' from fun e => n1 (e ▸ hb'))]
    exact hc b' (by simp [hb'])

theorem w7_expand {t : List Nat} : ∀ (ks : List Nat) (l : Bool) (xs : List BC), xs.length = t.length → (∀ k ∈ ks, k < t.length) →
    w7Loop (ks.flatMap (block t)) l (expand t xs) = .ok (expand t (w7C ks l xs))
  | [], l, xs, _, _ => rfl
  | k :: ks, l, xs, h, hks => by
    have hk := hks k (by simp)
    have hks' : ∀ j ∈ ks, j < t.length := fun j hj => hks j (by simp [hj])
    have hb := block_get h hk BidiClass.OtherNeutral
    have ih := fun l xs h => w7_expand (t := t) ks l xs h hks'
    have hne : block t k ≠ [] := by
      intro e
      have := (mem_block hk).2 ⟨Nat.le_refl (off t k), by rw [Nat.sub_self]; exact len_pos _⟩
      rw [e] at this; simp at this
    rw [List.flatMap_cons, w7C]
    generalize xs.getD k .OtherNeutral = c at hb
    -- bytes that change nothing but what is remembered
    have same : ∀ (l' : Bool), (∀ l0 b js, (expand t xs)[b]? = some c → (l0 = l ∨ l0 = l') → w7Loop (b :: js) l0 (expand t xs) = w7Loop js l' (expand t xs)) →
        w7Loop (block t k ++ ks.flatMap (block t)) l (expand t xs) = w7Loop (ks.flatMap (block t)) l' (expand t xs) := by
      intro l' hs
      have gen : ∀ bs l0, (∀ b ∈ bs, (expand t xs)[b]? = some c) → (l0 = l ∨ l0 = l') → (bs = [] → l0 = l') →
          w7Loop (bs ++ ks.flatMap (block t)) l0 (expand t xs) = w7Loop (ks.flatMap (block t)) l' (expand t xs) := by
        intro bs
        induction bs with
        | nil => intro l0 _ _ h0; rw [h0 rfl]; rfl
        | cons b bs ihb =>
          intro l0 hc hl0 _
          rw [List.cons_append, hs l0 b _ (hc b (by simp)) hl0]
          exact ihb l' (fun b' hb' => hc b' (by simp [hb'])) (Or.inr rfl) (fun _ => rfl)
      exact gen _ l hb (Or.inl rfl) (fun e => absurd e hne)
    have plain : ∀ (l' : Bool), (∀ l0 b js, (expand t xs)[b]? = some c → (l0 = l ∨ l0 = l') → w7Loop (b :: js) l0 (expand t xs) = w7Loop js l' (expand t xs)) →
        w7Loop (block t k ++ ks.flatMap (block t)) l (expand t xs) = .ok (expand t (w7C ks l' xs)) := fun l' hs => by rw [same l' hs, ih _ _ h]
    cases c
    case EuropeanNumber =>
      cases l with
      | true =>
        rw [w7_en _ _ _ (block_nodup t k) hb, expand_set _ h hk, ih _ _ (by simpa using h)]
        rfl
      | false =>
        refine plain false ?_
        intro l0 b js hc hl
        have : l0 = false := by rcases hl with e | e <;> exact e
        subst this
        rw [w7Loop]; simp only [at_ok hc, bind_ok]; rfl
    case LeftToRight => refine plain true ?_; intro l0 b js hc hl; rw [w7Loop]; simp only [at_ok hc, bind_ok]
    case RightToLeft => refine plain false ?_; intro l0 b js hc hl; rw [w7Loop]; simp only [at_ok hc, bind_ok]
    case ArabicLetter => refine plain false ?_; intro l0 b js hc hl; rw [w7Loop]; simp only [at_ok hc, bind_ok]
    all_goals
      refine plain l ?_
      intro l0 b js hc hl
      have : l0 = l := by rcases hl with e | e <;> exact e
      subst this
      rw [w7Loop]; simp only [at_ok hc, bind_ok]

/-- the indices of the bytes are the bytes of the indices -/
theorem indices_map {t : List Nat} : ∀ {runs : List Run}, (∀ r ∈ runs, r.start < r.stop ∧ r.stop ≤ t.length) →
    indices (runs.map (mapRun t)) = (indices runs).flatMap (block t)
  | [], _ => rfl
  | r :: runs, h => by
    have e : ∀ (r : Run) (rs : List Run), indices (r :: rs) = List.range' r.start (r.stop - r.start) ++ indices rs := fun r rs => rfl
    rw [List.map_cons, e, e, List.flatMap_append, indices_map (fun x hx => h x (by simp [hx]))]
    congr 1
    exact range_blocks (by have := h r (by simp); omega)

theorem indices_lt {n : Nat} {runs : List Run} (h : ∀ r ∈ runs, r.start < r.stop ∧ r.stop ≤ n) : ∀ k ∈ indices runs, k < n := by
  intro k hk
  obtain ⟨r, hr, hkr⟩ := List.mem_flatMap.1 hk
  rw [List.mem_range'_1] at hkr
  have := h r hr
  omega

/-- `resolve_weak` on characters -/
def resolveWeakC (t : List Nat) (seq : IsoSeq) (xs : List BC) : List BC :=
  w7C (indices seq.runs) (seq.sos == .LeftToRight) (weakC t seq.eos (indices seq.runs) xs seq.sos [])

theorem resolveWeak_expand {t : List Nat} {seq : IsoSeq} {xs : List BC} (h : xs.length = t.length) (hr : ∀ r ∈ seq.runs, r.start < r.stop ∧ r.stop ≤ t.length)
    (hn : (indices seq.runs).Nodup) (hs : seq.sos ≠ .ArabicLetter) :
    resolveWeak (mapSeq t seq) (expand t xs) = .ok (expand t (resolveWeakC t seq xs)) := by
  obtain ⟨st, h1, h2⟩ := weak_expand (t := t) (eos := seq.eos) (indices seq.runs) xs seq.sos [] h (indices_lt hr) (by simp) hn (by simp) hs
  unfold resolveWeak mapSeq
  simp only [indices_map hr]
  simp only [List.flatMap_nil] at h1
  rw [h1, bind_ok, h2, w7_expand _ _ _ (by rw [weakC_length]; exact h) (indices_lt hr)]
  rfl

end Proofs.Bidi
