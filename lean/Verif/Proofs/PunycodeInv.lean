import Verif.Proofs.PunycodeEnc

namespace Proofs.Punycode
open Model Model.Punycode

/-! ## Encoding what was decoded -/

/-- The rest of `encode` from the middle of the scan for code point `n`, with `v` still to look at. -/
def encodeFrom (chk : Bool) (s : List Nat) (b len fuel n : Nat) (v : List Nat) (st : EncState) : Outcome (Option (List Nat)) :=
  encodeScan chk b n v st >>= fun o =>
    match o with
    | none => .ok none
    | some st => add32 chk st.delta 1 >>= fun delta => add32 chk n 1 >>= fun cp =>
        encodeLoop chk s b len fuel cp { st with delta := delta }

/-- Scanning a stretch without the code point only counts the smaller characters. -/
theorem scan_skip {chk b n} : ∀ (w v : List Nat) (st : EncState), n ∉ w → st.delta + (lt n w).length ≤ u32Max →
    encodeScan chk b n (w ++ v) st = encodeScan chk b n v { st with delta := st.delta + (lt n w).length } := by
  intro w
  induction w with
  | nil => intro v st _ _; rfl
  | cons c w ih =>
    intro v st hn hd
    rw [List.mem_cons, not_or] at hn
    rcases Nat.lt_or_ge c n with hc | hc
    · have hlt : lt n (c :: w) = c :: lt n w := by simp [lt, hc]
      rw [hlt, List.length_cons] at hd ⊢
      rw [List.cons_append, encodeScan_lt hc (by omega), ih _ _ hn.2 (by simp only; omega)]
      simp only
      congr 2
      omega
    · have hlt : lt n (c :: w) = lt n w := List.filter_cons_of_neg (by simp; omega)
      rw [hlt] at hd ⊢
      rw [List.cons_append, encodeScan_gt (by omega), ih _ _ hn.2 hd]

/-- from the middle of a scan to the next occurrence of the code point -/
theorem from_reach {chk s b len fuel n} {w v : List Nat} {delta bias h : Nat} {o ds : List Nat} {b' : Nat} (hn : n ∉ w)
    (hd : delta + (lt n w).length ≤ u32Max) (hp : h + 1 ≤ u32Max)
    (h1 : encodeInt chk bias (delta + (lt n w).length + 1) (delta + (lt n w).length) BASE = .ok ds)
    (h2 : adapt chk (delta + (lt n w).length) (h + 1) (h == b) = .ok b') :
    encodeFrom chk s b len fuel n (w ++ n :: v) ⟨delta, bias, h, o⟩ = encodeFrom chk s b len fuel n v ⟨0, b', h + 1, o ++ ds⟩ := by
  unfold encodeFrom
  rw [scan_skip w _ _ hn hd, encodeScan_eq hp h1 h2]

/-- from the middle of a scan to the end of it -/
theorem from_end {chk s b len fuel n} {v : List Nat} {delta bias h : Nat} {o : List Nat} (hn : n ∉ v)
    (hd : delta + (lt n v).length + 1 ≤ u32Max) (hn' : n + 1 ≤ u32Max) :
    encodeFrom chk s b len fuel n v ⟨delta, bias, h, o⟩ =
      encodeLoop chk s b len fuel (n + 1) ⟨delta + (lt n v).length + 1, bias, h, o⟩ := by
  unfold encodeFrom
  have := scan_skip (chk := chk) (b := b) v [] ⟨delta, bias, h, o⟩ hn (by simp only; omega)
  rw [List.append_nil] at this
  rw [this]
  simp only [encodeScan]
  rw [bind_ok]
  simp only
  rw [add32_ok hd, bind_ok, add32_ok hn', bind_ok]

/-- from the beginning of a round to the first occurrence of its code point -/
theorem loop_reach {chk s b len fuel n m} {w v : List Nat} {delta bias h : Nat} {o ds : List Nat} {b' : Nat}
    (hs : s = w ++ m :: v) (hw : m ∉ w) (hm : n ≤ m) (hmin : ∀ c ∈ s, n ≤ c → m ≤ c) (hh : h < len) (hlen : len ≤ u32Max)
    (hd : delta + (m - n) * (h + 1) + (lt m w).length ≤ u32Max)
    (h1 : encodeInt chk bias (delta + (m - n) * (h + 1) + (lt m w).length + 1) (delta + (m - n) * (h + 1) + (lt m w).length) BASE = .ok ds)
    (h2 : adapt chk (delta + (m - n) * (h + 1) + (lt m w).length) (h + 1) (h == b) = .ok b') :
    encodeLoop chk s b len (fuel + 1) n ⟨delta, bias, h, o⟩ = encodeFrom chk s b len fuel m v ⟨0, b', h + 1, o ++ ds⟩ := by
  have hmem : m ∈ s := by rw [hs]; simp
  rw [encodeLoop_step hh hlen (minFrom_eq hmem hm hmin) (by simp only; omega), if_neg (by simp only; omega)]
  have e := from_reach (s := s) (len := len) (fuel := fuel) (v := v) (o := o) hw hd (by omega) h1 h2
  rw [← e, ← hs]
  rfl

/-- splitting a list at an element of its filtered list -/
theorem filter_split {p : Nat → Bool} : ∀ (l X Y : List Nat) (a : Nat), l.filter p = X ++ a :: Y →
    ∃ l1 l2, l = l1 ++ a :: l2 ∧ l1.filter p = X ∧ l2.filter p = Y := by
  intro l X Y a h
  rw [List.filter_eq_append_iff] at h
  obtain ⟨k1, k2, rfl, h1, h2⟩ := h
  rw [List.filter_eq_cons_iff] at h2
  obtain ⟨m1, m2, rfl, h3, _, h5⟩ := h2
  refine ⟨k1 ++ m1, m2, by simp, ?_, h5⟩
  rw [List.filter_append, h1]
  have : m1.filter p = [] := by
    rw [List.filter_eq_nil_iff]; exact h3
  rw [this, List.append_nil]

/-- What the decoder keeps about its output: nothing is above the current code point, the code point itself
occurs only before the current position, and the last character inserted is just before that position. -/
structure Good (out : List Nat) (n i : Nat) : Prop where
  le_n : ∀ c ∈ out, c ≤ n
  lt_n : ∀ c ∈ out.drop i, c < n
  i_le : i ≤ out.length
  last : i ≠ 0 → ∃ x, out.take i = x ++ [n]

/-- Where the encoder stands in `s` when the decoder has `out`. -/
def At (s : List Nat) (b : Nat) (out : List Nat) (n bias i : Nat) (digits : List Nat) : Prop :=
  if i = 0 then
    lt n s = out ∧ ∀ chk fuel o, s.length < fuel + out.length →
      encodeLoop chk s b s.length fuel n ⟨0, bias, out.length, o⟩ = .ok (some (o ++ digits))
  else
    ∃ u v, s = u ++ n :: v ∧ le n (u ++ [n]) = out.take i ∧ lt n v = out.drop i ∧
      ∀ chk fuel o, s.length < fuel + out.length →
        encodeFrom chk s b s.length fuel n v ⟨0, bias, out.length, o⟩ = .ok (some (o ++ digits))

theorem lt_eq_self {n : Nat} {l : List Nat} (h : ∀ c ∈ l, c < n) : lt n l = l := by
  rw [List.filter_eq_self]; intro c hc; simpa using h c hc

theorem le_eq_self {n : Nat} {l : List Nat} (h : ∀ c ∈ l, c ≤ n) : le n l = l := by
  rw [List.filter_eq_self]; intro c hc; simpa using h c hc

theorem le_notMem {n : Nat} {l : List Nat} (h : ∀ c ∈ le n l, c < n) : n ∉ l := by
  intro hn
  have := h n (List.mem_filter.2 ⟨hn, by simp⟩)
  omega

/-- Code points of a list that are at most `n'` but come from values at most `n`. -/
theorem le_of_gap {n n' : Nat} (hnn : n < n') {l : List Nat} (h : ∀ c ∈ le n' l, c ≤ n) : le n l = le n' l ∧ lt n' l = le n' l := by
  constructor
  · apply List.filter_congr
    intro c hc
    simp only [decide_eq_decide]
    constructor
    · omega
    · intro h1; exact h c (List.mem_filter.2 ⟨hc, by simpa using h1⟩)
  · apply List.filter_congr
    intro c hc
    simp only [decide_eq_decide]
    constructor
    · omega
    · intro h1; have := h c (List.mem_filter.2 ⟨hc, by simpa using h1⟩); omega

theorem dec_enc {chk b} : ∀ (fuel : Nat) (bytes out : List Nat) (n bias i : Nat) (s : List Nat),
    decodeLoop chk fuel bytes out n bias i = .ok (some s) → Good out n i → out.length + bytes.length ≤ u32Max →
    bytes.length < fuel → bias ≤ 216 → n < u32Max → (i = 0 ↔ out.length = b) → b ≤ out.length →
    (∀ x ∈ bytes, x < 0x80 ∧ x ≠ DELIMITER) ∧ s.length ≤ out.length + bytes.length ∧ At s b out n bias i (bytes.map lowerByte) := by
  intro fuel
  induction fuel with
  | zero => intro bytes out n bias i s _ _ _ h; omega
  | succ fuel ih =>
    intro bytes out n bias i s he hg hL hf hb hn hfirst hbl
    by_cases hne : bytes = []
    · subst hne
      rw [decodeLoop_nil] at he
      simp only [Outcome.ok.injEq, Option.some.injEq] at he
      subst he
      refine ⟨by simp, by simp, ?_⟩
      unfold At
      split_ifs with hi
      · subst hi
        refine ⟨lt_eq_self (by simpa using hg.lt_n), fun chk fuel o hf => ?_⟩
        obtain ⟨f, rfl⟩ : ∃ f, fuel = f + 1 := ⟨fuel - 1, by omega⟩
        rw [encodeLoop, if_neg (by simp)]; simp
      · obtain ⟨x, hx⟩ := hg.last hi
        refine ⟨x, out.drop i, ?_, ?_, lt_eq_self hg.lt_n, fun chk fuel o hf => ?_⟩
        · conv_lhs => rw [← List.take_append_drop i out, hx]
          simp
        · rw [← hx]; exact le_eq_self (fun c hc => hg.le_n c (List.mem_of_mem_take hc))
        · obtain ⟨f, rfl⟩ : ∃ f, fuel = f + 1 := ⟨fuel - 1, by omega⟩
          have hl : lt n (out.drop i) = out.drop i := lt_eq_self hg.lt_n
          have hi' := hg.i_le
          rw [from_end (fun hm => by have := hg.lt_n n hm; omega) (by rw [hl, List.length_drop]; simp at hL; omega) (by omega), encodeLoop, if_neg (by simp)]
          simp
    · have hpos : 1 ≤ bytes.length := by
        cases bytes with
        | nil => exact absurd rfl hne
        | cons => simp
      have hi_le := hg.i_le
      rcases decodeInt_total (chk := chk) hb bytes WK.init (i := i) (by omega) with h | ⟨I, rest, h, hiI, hI, hrl, _⟩
      · rw [decodeLoop, if_neg (by simpa using hne), h] at he; simp at he
      · obtain ⟨b', hb1, hb2⟩ := adapt_ok (delta := I - i) (np := out.length + 1) (by omega) (by omega) (i == 0)
        rw [decodeLoop_step hne h hiI hI (by omega) (by omega) (hb2 chk)] at he
        obtain ⟨used, q, e1, e2, e3, e4, _, e6⟩ := decodeInt_encodeInt hb bytes WK.init (by omega) h
        rw [Nat.mul_one] at e4
        split_ifs at he with hov
        · simp at he
        · cases hc : Utf.charFromU32 (n + I / (out.length + 1)) with
          | none => rw [hc] at he; simp at he
          | some c =>
            obtain ⟨hc1, hc2⟩ := charFromU32_eq hc
            rw [hc] at he
            simp only at he
            subst hc1
            -- the next insertion
            obtain ⟨n', hn'⟩ : ∃ n', n' = n + I / (out.length + 1) := ⟨_, rfl⟩
            obtain ⟨i', hi'⟩ : ∃ i', i' = I % (out.length + 1) := ⟨_, rfl⟩
            rw [← hn', ← hi'] at he
            rw [← hn'] at hc2
            have hi'lt : i' < out.length + 1 := by rw [hi']; exact Nat.mod_lt _ (by omega)
            have hIeq : I = (n' - n) * (out.length + 1) + i' := by
              have := Nat.div_add_mod I (out.length + 1)
              rw [← hi', Nat.mul_comm] at this
              rw [hn', Nat.add_sub_cancel_left]; omega
            have hnn' : n ≤ n' := by rw [hn']; exact Nat.le_add_right _ _
            have hn'le : n' ≤ 0x10FFFF := by unfold Spec.IsScalar at hc2; omega
            have hsame : n' = n → i ≤ i' := by
              intro e; rw [e, Nat.sub_self, Nat.zero_mul] at hIeq; omega
            have hlen' : (out.take i' ++ n' :: out.drop i').length = out.length + 1 := by simp; omega
            have htake : (out.take i' ++ n' :: out.drop i').take (i' + 1) = out.take i' ++ [n'] := by
              rw [List.take_append, List.length_take, Nat.min_eq_left (by omega), List.take_take, Nat.min_eq_right (by omega),
                show i' + 1 - i' = 1 by omega]
              simp
            have hdrop : (out.take i' ++ n' :: out.drop i').drop (i' + 1) = out.drop i' := by
              rw [List.drop_append, List.length_take, Nat.min_eq_left (by omega), show i' + 1 - i' = 1 by omega]
              simp
            have hdlt : ∀ c ∈ out.drop i', c < n' := by
              intro c hc
              rcases Nat.eq_or_lt_of_le hnn' with e | e
              · have h1 := hsame e.symm
                have : c ∈ out.drop i := by
                  have : out.drop i' = (out.drop i).drop (i' - i) := by rw [List.drop_drop]; congr 1; omega
                  rw [this] at hc; exact List.mem_of_mem_drop hc
                have := hg.lt_n c this
                omega
              · have := hg.le_n c (List.mem_of_mem_drop hc); omega
            have hg' : Good (out.take i' ++ n' :: out.drop i') n' (i' + 1) := by
              refine ⟨?_, ?_, by rw [hlen']; omega, fun _ => ⟨_, htake⟩⟩
              · intro c hc
                rw [List.mem_append, List.mem_cons] at hc
                rcases hc with hc | rfl | hc
                · have := hg.le_n c (List.mem_of_mem_take hc); omega
                · exact Nat.le_refl _
                · have := hg.le_n c (List.mem_of_mem_drop hc); omega
              · rw [hdrop]; exact hdlt
            obtain ⟨a1, a2, a3⟩ := ih rest _ n' b' (i' + 1) s he hg' (by rw [hlen']; omega) (by omega) hb1 (by simp only [u32Max]; omega)
              (by rw [hlen']; omega) (by rw [hlen']; omega)
            rw [hlen'] at a2
            refine ⟨?_, by omega, ?_⟩
            · intro x hx
              rw [e1] at hx
              rcases List.mem_append.1 hx with hx | hx
              · exact e3 x hx
              · exact a1 x hx
            · unfold At at a3
              rw [if_neg (by omega), htake, hdrop, hlen'] at a3
              obtain ⟨u', v', b1, b2, b3, b4⟩ := a3
              have b2' : le n' u' = out.take i' := by
                have : le n' (u' ++ [n']) = le n' u' ++ [n'] := by simp [le]
                rw [this] at b2
                exact List.append_cancel_right b2
              have hslen : s.length = u'.length + (v'.length + 1) := by rw [b1, List.length_append, List.length_cons]
              have houtlt : out.length < s.length := by
                have h1 : (le n' u').length ≤ u'.length := List.length_filter_le _ _
                have h2 : (lt n' v').length ≤ v'.length := List.length_filter_le _ _
                rw [b2', List.length_take] at h1
                rw [b3, List.length_drop] at h2
                omega
              have hfb : (i == 0) = (out.length == b) := by rw [Bool.eq_iff_iff]; simpa using hfirst
              have hq : q = I - i := by omega
              have hqle : q ≤ u32Max := by omega
              have hbytes : bytes.map lowerByte = used.map lowerByte ++ rest.map lowerByte := by rw [e1, List.map_append]
              rcases Nat.eq_or_lt_of_le hnn' with e | e
              · -- same code point, further to the right
                subst e
                have hii' := hsame rfl
                rw [Nat.sub_self, Nat.zero_mul, Nat.zero_add] at hIeq
                unfold At
                split_ifs with hi0
                · -- the very first insertion, of the initial code point
                  subst hi0
                  have hu : n ∉ u' := le_notMem (by
                    rw [b2']; intro c hc
                    exact hg.lt_n c (by simpa using List.mem_of_mem_take hc))
                  refine ⟨?_, fun chk' fuel' o hf' => ?_⟩
                  · have : lt n s = lt n u' ++ lt n v' := by rw [b1]; simp [lt]
                    rw [this, ← le_eq_lt hu, b2', b3, List.take_append_drop]
                  · obtain ⟨f, rfl⟩ : ∃ f, fuel' = f + 1 := ⟨fuel' - 1, by omega⟩
                    have hl : 0 + (n - n) * (out.length + 1) + (lt n u').length = q := by
                      rw [← le_eq_lt hu, b2', List.length_take]; simp; omega
                    rw [loop_reach (m := n) (w := u') (v := v') (ds := used.map lowerByte) (b' := b') b1 hu (Nat.le_refl _)
                      (fun c _ h => h) houtlt (by omega) (by rw [hl]; exact hqle) (by rw [hl]; exact e6 chk' _ (by omega))
                      (by rw [hl, hq, ← hfb]; exact hb2 chk'), b4 chk' f _ (by omega), hbytes, List.append_assoc]
                · -- split off the previous position
                  obtain ⟨x, hx⟩ := hg.last hi0
                  have hsplit : out.take i' = x ++ n :: (out.drop i).take (i' - i) := by
                    have h1 : out.take i' = out.take i ++ (out.drop i).take (i' - i) := by
                      rw [← List.take_append_drop i out, List.take_append]
                      simp
                      rw [Nat.min_eq_left hi_le]
                      congr 1
                      · rw [List.take_take, Nat.min_eq_right hii']
                    rw [h1, hx]; simp
                  rw [hsplit] at b2'
                  obtain ⟨l1, l2, c1, c2, c3⟩ := filter_split _ _ _ _ b2'
                  have hl2 : n ∉ l2 := le_notMem (by
                    intro c hc
                    have : c ∈ (out.drop i).take (i' - i) := c3 ▸ hc
                    exact hg.lt_n c (List.mem_of_mem_take this))
                  have hl2' : lt n l2 = (out.drop i).take (i' - i) := by rw [← le_eq_lt hl2]; exact c3
                  refine ⟨l1, l2 ++ n :: v', by rw [b1, c1]; simp, ?_, ?_, fun chk' fuel' o hf' => ?_⟩
                  · rw [hx]
                    have : le n (l1 ++ [n]) = le n l1 ++ [n] := by simp [le]
                    rw [this]
                    exact congrArg (· ++ [n]) c2
                  · have : lt n (l2 ++ n :: v') = lt n l2 ++ lt n v' := by simp [lt]
                    rw [this, hl2', b3]
                    have : out.drop i' = (out.drop i).drop (i' - i) := by rw [List.drop_drop]; congr 1; omega
                    rw [this, List.take_append_drop]
                  · have hl : 0 + (lt n l2).length = q := by
                      rw [hl2', List.length_take, List.length_drop]; omega
                    rw [from_reach (ds := used.map lowerByte) (b' := b') hl2 (by rw [hl]; exact hqle) (by omega)
                      (by rw [hl]; exact e6 chk' _ (by omega)) (by rw [hl, hq, ← hfb]; exact hb2 chk'), b4 chk' fuel' _ (by omega), hbytes,
                      List.append_assoc]
              · -- a greater code point
                have hgu := le_of_gap e (l := u') (by rw [b2']; intro c hc; exact hg.le_n c (List.mem_of_mem_take hc))
                have hun : n' ∉ u' := le_notMem (by
                  rw [b2']; intro c hc
                  have := hg.le_n c (List.mem_of_mem_take hc); omega)
                have hlev : le n v' = out.drop i' := by
                  rw [← b3]
                  apply List.filter_congr
                  intro c hc
                  simp only [decide_eq_decide]
                  constructor
                  · omega
                  · intro h1
                    have : c ∈ lt n' v' := List.mem_filter.2 ⟨hc, by simpa using h1⟩
                    rw [b3] at this
                    exact hg.le_n c (List.mem_of_mem_drop this)
                have hles : le n s = out := by
                  have : le n s = le n u' ++ le n v' := by
                    rw [b1]; unfold le; rw [List.filter_append, List.filter_cons_of_neg (by simpa using e)]
                  rw [this, hgu.1, b2', hlev, List.take_append_drop]
                have hmin : ∀ c ∈ s, n < c → n' ≤ c := by
                  intro c hc h1
                  by_contra h2
                  have h3 : c ∈ lt n' u' ∨ c ∈ lt n' v' := by
                    rw [b1, List.mem_append, List.mem_cons] at hc
                    rcases hc with hc | hc | hc
                    · exact Or.inl (List.mem_filter.2 ⟨hc, by simp; omega⟩)
                    · omega
                    · exact Or.inr (List.mem_filter.2 ⟨hc, by simp; omega⟩)
                  rcases h3 with h3 | h3
                  · rw [hgu.2, b2'] at h3
                    have := hg.le_n c (List.mem_of_mem_take h3); omega
                  · rw [b3] at h3
                    have := hg.le_n c (List.mem_of_mem_drop h3); omega
                have hltu : (lt n' u').length = i' := by rw [hgu.2, b2', List.length_take]; omega
                have hdist : (n' - n) * (out.length + 1) = (n' - (n + 1)) * (out.length + 1) + (out.length + 1) := by
                  rw [← Nat.succ_mul]; congr 1; omega
                unfold At
                split_ifs with hi0
                · subst hi0
                  have hns : n ∉ s := le_notMem (by rw [hles]; simpa using hg.lt_n)
                  refine ⟨by rw [← le_eq_lt hns, hles], fun chk' fuel' o hf' => ?_⟩
                  obtain ⟨f, rfl⟩ : ∃ f, fuel' = f + 1 := ⟨fuel' - 1, by omega⟩
                  have hl : 0 + (n' - n) * (out.length + 1) + (lt n' u').length = q := by omega
                  rw [loop_reach (m := n') (w := u') (v := v') (ds := used.map lowerByte) (b' := b') b1 hun (by omega)
                    (fun c hc h => hmin c hc (by
                      rcases Nat.eq_or_lt_of_le h with h | h
                      · exact absurd (h ▸ hc) hns
                      · exact h)) houtlt (by omega) (by rw [hl]; exact hqle) (by rw [hl]; exact e6 chk' _ (by omega))
                    (by rw [hl, hq, ← hfb]; exact hb2 chk'), b4 chk' f _ (by omega), hbytes, List.append_assoc]
                · obtain ⟨x, hx⟩ := hg.last hi0
                  have hsplit : le n s = x ++ n :: out.drop i := by
                    rw [hles]
                    conv_lhs => rw [← List.take_append_drop i out, hx]
                    simp
                  obtain ⟨l1, l2, c1, c2, c3⟩ := filter_split _ _ _ _ hsplit
                  have hl2 : n ∉ l2 := le_notMem (by
                    intro c hc
                    have : c ∈ out.drop i := c3 ▸ hc
                    exact hg.lt_n c this)
                  have hl2' : lt n l2 = out.drop i := by rw [← le_eq_lt hl2]; exact c3
                  refine ⟨l1, l2, c1, ?_, hl2', fun chk' fuel' o hf' => ?_⟩
                  · rw [hx]
                    have : le n (l1 ++ [n]) = le n l1 ++ [n] := by simp [le]
                    rw [this]
                    exact congrArg (· ++ [n]) c2
                  · obtain ⟨f, rfl⟩ : ∃ f, fuel' = f + 1 := ⟨fuel' - 1, by omega⟩
                    have hl2len : (lt n l2).length = out.length - i := by rw [hl2', List.length_drop]
                    have hl : (0 + (lt n l2).length + 1) + (n' - (n + 1)) * (out.length + 1) + (lt n' u').length = q := by omega
                    rw [from_end hl2 (by omega) (by omega),
                      loop_reach (m := n') (w := u') (v := v') (ds := used.map lowerByte) (b' := b') b1 hun (by omega)
                        (fun c hc h => hmin c hc (by omega)) houtlt (by omega) (by rw [hl]; exact hqle) (by rw [hl]; exact e6 chk' _ (by omega))
                        (by rw [hl, hq, ← hfb]; exact hb2 chk'), b4 chk' f _ (by omega), hbytes, List.append_assoc]

/-- The decoder's result, encoded again. -/
theorem decodeLoop_encode {chk} {bytes basic s : List Nat} (hbasic : ∀ c ∈ basic, c < 0x80)
    (hL : basic.length + bytes.length ≤ u32Max)
    (h : decodeLoop chk (bytes.length + 1) bytes basic 0x80 72 0 = .ok (some s)) :
    (∀ x ∈ bytes, x < 0x80 ∧ x ≠ DELIMITER) ∧ ∀ chk', encode chk' s =
      .ok (some ((if basic = [] then [] else basic ++ [DELIMITER]) ++ bytes.map lowerByte)) := by
  have hg : Good basic 0x80 0 := ⟨fun c hc => by have := hbasic c hc; omega, by simpa using hbasic, by omega, fun h => absurd rfl h⟩
  obtain ⟨h1, h2, h3⟩ := dec_enc (b := basic.length) _ bytes basic 0x80 72 0 s h hg hL (by omega) (by omega) (by simp [u32Max]) (by simp) (Nat.le_refl _)
  refine ⟨h1, fun chk' => ?_⟩
  unfold At at h3
  rw [if_pos rfl] at h3
  obtain ⟨h4, h5⟩ := h3
  have hout : (if asU32 (lt 0x80 s).length > 0 then lt 0x80 s ++ [DELIMITER] else lt 0x80 s) =
      (if basic = [] then [] else basic ++ [DELIMITER]) := by
    rw [h4, asU32_of_le (by omega)]
    by_cases h : basic = []
    · rw [if_pos h, h]; simp
    · rw [if_neg h, if_pos (List.length_pos_iff.2 h)]
  unfold encode
  simp only
  rw [hout, asU32_of_le (n := s.length) (by omega)]
  rw [show (List.filter (fun c => decide (c < 128)) s) = basic from h4, asU32_of_le (by omega)]
  exact h5 chk' _ _ (by omega)

end Proofs.Punycode
