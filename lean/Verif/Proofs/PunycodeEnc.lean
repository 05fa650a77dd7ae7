import Verif.Proofs.PunycodeDec

namespace Proofs.Punycode
open Model Model.Punycode

/-- the characters of a text below / not above `n` -/
abbrev lt (n : Nat) (s : List Nat) : List Nat := s.filter (fun c => c < n)
abbrev le (n : Nat) (s : List Nat) : List Nat := s.filter (fun c => c ≤ n)

theorem le_eq_lt_succ (n : Nat) (s : List Nat) : le n s = lt (n + 1) s := by
  unfold le lt; congr 1; funext c; simp [Nat.lt_succ_iff]

theorem le_eq_lt {n : Nat} {s : List Nat} (h : n ∉ s) : le n s = lt n s := by
  unfold le lt
  apply List.filter_congr
  intro c hc
  have : c ≠ n := fun e => h (e ▸ hc)
  simp only [decide_eq_decide]
  omega

/-- The remaining bytes decode to `r` from this decoder state, in either build, whatever the fuel. -/
def Dec (bytes out : List Nat) (n bias i : Nat) (r : Option (List Nat)) : Prop :=
  ∀ chk fuel, bytes.length < fuel → decodeLoop chk fuel bytes out n bias i = .ok r

/-- The relation between the encoder, about to look at `v` after `u` for code point `n`, and the decoder,
which has read everything written so far. -/
structure Rel (s : List Nat) (b n : Nat) (u v : List Nat) (delta bias h nd id : Nat) : Prop where
  split : s = u ++ v
  h_eq : h = (le n u).length + (lt n v).length
  inv : nd * (h + 1) + id + delta = n * (h + 1) + (le n u).length
  id_le : id ≤ h
  first : id = 0 ↔ h = b
  b_le : b ≤ h
  bias_le : bias ≤ 216
  delta_le : delta ≤ u32Max
  nd_ge : 0x80 ≤ nd
  pend : n ∈ v ∨ (nd = n ∧ 1 ≤ id)

theorem Rel.nd_le {s b n u v delta bias h nd id} (r : Rel s b n u v delta bias h nd id) : nd ≤ n := by
  by_contra hc
  have h1 := r.inv
  have h2 := r.h_eq
  have : (n + 1) * (h + 1) ≤ nd * (h + 1) := Nat.mul_le_mul_right _ (by omega)
  have : (n + 1) * (h + 1) = n * (h + 1) + (h + 1) := by ring
  omega

/-- the distance between the decoder's state and the next insertion -/
theorem Rel.dist {s b n u v delta bias h nd id} (r : Rel s b n u v delta bias h nd id) :
    id + delta = (n - nd) * (h + 1) + (le n u).length := by
  have h1 := r.inv
  have h2 := r.nd_le
  have : n * (h + 1) = (n - nd) * (h + 1) + nd * (h + 1) := by rw [← Nat.add_mul]; congr 1; omega
  omega

theorem Rel.h_lt {s b n u v delta bias h nd id} (r : Rel s b n u v delta bias h nd id) (hv : n ∈ v) : h < s.length := by
  have h1 : (le n u).length ≤ u.length := List.length_filter_le _ _
  have h2 : (lt n v).length < v.length := List.length_filter_lt_length_iff_exists.2 ⟨n, hv, by simp⟩
  have h3 := r.h_eq
  have h4 : s.length = u.length + v.length := by rw [r.split, List.length_append]
  omega

/-- short texts never come near the end of the integer range -/
theorem bound {s : List Nat} {n nd h x : Nat} (hn : n ≤ 0x10FFFF) (hnd : 0x80 ≤ nd) (hh : h < s.length) (hx : x ≤ h)
    (hov : u32Max ≤ (n - nd) * (h + 1) + x) : 3855 < s.length := by
  by_contra hc
  have h1 : (n - nd) * (h + 1) ≤ 1113983 * 3855 := Nat.mul_le_mul (by omega) (by omega)
  simp only [u32Max] at hov
  omega

/-- A failure of the encoder: `None`, or in a build with overflow checks a panic. -/
def Fails {α : Type} (chk : Bool) (x : Outcome (Option α)) : Prop := x = .ok none ∨ (chk = true ∧ x = .panic)

/-- The step of the decoder that corresponds to writing one character. -/
theorem emit {s b n u v delta bias h nd id} (hn : Spec.IsScalar n) (hlen : s.length ≤ u32Max)
    (r : Rel s b n u (n :: v) delta bias h nd id) :
    ∃ ds b', (∀ chk, encodeInt chk bias (delta + 1) delta BASE = .ok ds) ∧
      (∀ chk, adapt chk delta (h + 1) (h == b) = .ok b') ∧ ds ≠ [] ∧ (∀ x ∈ ds, IsDigit x) ∧
      Rel s b n (u ++ [n]) v 0 b' (h + 1) n ((le n u).length + 1) ∧
      (if id + delta ≤ u32Max then
        ∀ rest res, Dec rest (le n (u ++ [n]) ++ lt n v) n b' ((le n u).length + 1) res →
          Dec (ds ++ rest) (le n u ++ lt n (n :: v)) nd bias id res
      else 3855 < s.length ∧ ∀ rest, Dec (ds ++ rest) (le n u ++ lt n (n :: v)) nd bias id none) := by
  have hn' : n ≤ 0x10FFFF := by unfold Spec.IsScalar at hn; omega
  have hh := r.h_lt (List.mem_cons_self ..)
  have hd := r.dist
  have hnd := r.nd_le
  have hheq := r.h_eq
  have hidle := r.id_le
  have hdl := r.delta_le
  have hltv : lt n (n :: v) = lt n v := by simp [lt]
  rw [hltv] at hheq
  obtain ⟨ds, e1, e2, e3, e4⟩ := encodeInt_decodeInt r.bias_le (delta + 1) (q := delta) (k := BASE) (w := 1) (j := 0) (i := id)
    (by omega) r.delta_le WK.init (by simpa using r.delta_le) (by omega)
  obtain ⟨b', a1, a2⟩ := adapt_ok (delta := delta) (np := h + 1) r.delta_le (by omega) (h == b)
  have hlen' : (le n u ++ lt n (n :: v)).length = h := by rw [hltv, List.length_append]; omega
  have hle : le n (u ++ [n]) = le n u ++ [n] := by simp [le]
  refine ⟨ds, b', e1, a2, e2, e3, ?_, ?_⟩
  · refine ⟨by rw [r.split]; simp, ?_, ?_, by omega, ?_, by have := r.b_le; omega, a1, by simp [u32Max], by have := r.nd_ge; omega, Or.inr ⟨rfl, by omega⟩⟩
    · rw [hle, List.length_append, List.length_singleton]; omega
    · rw [hle, List.length_append, List.length_singleton]; omega
    · have := r.b_le; omega
  · split_ifs with hov
    · intro rest res hrest chk fuel hf
      obtain ⟨fuel, rfl⟩ : ∃ f, fuel = f + 1 := ⟨fuel - 1, by omega⟩
      have hI := e4 chk rest
      rw [Nat.mul_one, if_pos hov] at hI
      have hlt : (le n u).length < h + 1 := by omega
      have hdiv : (id + delta) / (h + 1) = n - nd := by
        rw [hd, Nat.mul_comm, Nat.mul_add_div (by omega), Nat.div_eq_of_lt hlt, Nat.add_zero]
      have hmod : (id + delta) % (h + 1) = (le n u).length := by
        rw [hd, Nat.mul_comm, Nat.mul_add_mod, Nat.mod_eq_of_lt hlt]
      have hfirst : (id == 0) = (h == b) := by
        have := r.first
        rw [Bool.eq_iff_iff]; simpa using this
      rw [decodeLoop_step (b := b') (by simp [e2]) hI (by omega) hov (by rw [hlen']; omega) (by simp only [u32Max]; omega)
        (by rw [hlen', Nat.add_sub_cancel_left, hfirst]; exact a2 chk)]
      rw [hlen', hdiv, hmod, Nat.add_sub_cancel' hnd, if_neg (by simp only [u32Max]; omega), charFromU32_some hn]
      simp only
      rw [List.take_left', List.drop_left'] <;> try rfl
      have := hrest chk fuel (by
        have : ds.length ≠ 0 := by simpa using e2
        rw [List.length_append] at hf
        omega)
      rw [← this, hle, hltv, List.append_assoc]
      rfl
    · refine ⟨bound hn' r.nd_ge hh (x := (le n u).length) (by omega) (by omega), ?_⟩
      intro rest chk fuel hf
      obtain ⟨fuel, rfl⟩ : ∃ f, fuel = f + 1 := ⟨fuel - 1, by omega⟩
      have hI := e4 chk rest
      rw [Nat.mul_one, if_neg hov] at hI
      rw [decodeLoop, if_neg (by simp [e2]), hI]
      rfl

theorem encodeScan_lt {chk b n c v st} (hc : c < n) (hd : st.delta + 1 ≤ u32Max) :
    encodeScan chk b n (c :: v) st = encodeScan chk b n v { st with delta := st.delta + 1 } := by
  rw [encodeScan, if_pos hc, add32_ok hd, bind_ok]
  beta_reduce
  rw [if_neg (by omega), if_neg (by omega)]

theorem encodeScan_gt {chk b n c v st} (hc : n < c) : encodeScan chk b n (c :: v) st = encodeScan chk b n v st := by
  rw [encodeScan, if_neg (by omega), bind_ok]
  beta_reduce
  rw [if_neg (by omega), if_neg (by omega)]

theorem encodeScan_eq {chk b n v st ds b'} (hp : st.processed + 1 ≤ u32Max)
    (h1 : encodeInt chk st.bias (st.delta + 1) st.delta BASE = .ok ds)
    (h2 : adapt chk st.delta (st.processed + 1) (st.processed == b) = .ok b') :
    encodeScan chk b n (n :: v) st = encodeScan chk b n v ⟨0, b', st.processed + 1, st.out ++ ds⟩ := by
  rw [encodeScan, if_neg (by omega), bind_ok]
  beta_reduce
  rw [if_neg (by omega), if_pos rfl, h1, bind_ok, add32_ok hp, bind_ok, h2, bind_ok]
  rfl

theorem encodeScan_overflow {chk b n c v st} (hc : c < n) (hd : ¬ st.delta + 1 ≤ u32Max) (hd2 : st.delta ≤ u32Max) :
    Fails chk (encodeScan chk b n (c :: v) st) := by
  have h32 : (st.delta + 1) % 2 ^ 32 = 0 := by simp only [u32Max] at hd hd2; omega
  have ha : add32 chk st.delta 1 = if chk then .panic else .ok 0 := by
    unfold add32
    rw [if_neg hd, h32]
  rw [encodeScan, if_pos hc, ha]
  cases chk with
  | true => exact Or.inr ⟨rfl, rfl⟩
  | false =>
    left
    rw [if_neg (by simp), bind_ok]
    beta_reduce
    rw [if_pos ⟨hc, rfl⟩]
    rfl

theorem scan {s b n} (hn : Spec.IsScalar n) (hlen : s.length ≤ u32Max) : ∀ (v u : List Nat) (st : EncState) (nd id : Nat),
    Rel s b n u v st.delta st.bias st.processed nd id →
    (3855 < s.length ∧ ∀ chk, Fails chk (encodeScan chk b n v st)) ∨
    ∃ st' nd' id' ds, (∀ chk, encodeScan chk b n v st = .ok (some st')) ∧ st'.out = st.out ++ ds ∧
      (∀ x ∈ ds, IsDigit x) ∧ Rel s b n s [] st'.delta st'.bias st'.processed nd' id' ∧
      ((∀ rest res, Dec rest (le n s) nd' st'.bias id' res → Dec (ds ++ rest) (le n u ++ lt n v) nd st.bias id res) ∨
       (3855 < s.length ∧ ∀ rest, Dec (ds ++ rest) (le n u ++ lt n v) nd st.bias id none)) := by
  have hn' : n ≤ 0x10FFFF := by unfold Spec.IsScalar at hn; omega
  intro v
  induction v with
  | nil =>
    intro u st nd id r
    have hsu : s = u := by have := r.split; rw [List.append_nil] at this; exact this
    refine Or.inr ⟨st, nd, id, [], fun _ => rfl, by simp, by simp, ?_, Or.inl ?_⟩
    · have h2 := r
      rw [← hsu] at h2
      exact h2
    · intro rest res h
      rw [List.nil_append, ← hsu, show lt n [] = [] from rfl, List.append_nil]; exact h
  | cons c v ih =>
    intro u st nd id r
    have hsplit := r.split
    rcases Nat.lt_trichotomy c n with hc | hc | hc
    · -- a smaller character: delta grows
      have hlt : lt n (c :: v) = c :: lt n v := by simp [lt, hc]
      have hle : le n (u ++ [c]) = le n u ++ [c] := by simp [le, Nat.le_of_lt hc]
      by_cases hd : st.delta + 1 ≤ u32Max
      · have r' : Rel s b n (u ++ [c]) v (st.delta + 1) st.bias st.processed nd id := by
          refine ⟨by rw [hsplit]; simp, ?_, ?_, r.id_le, r.first, r.b_le, r.bias_le, hd, r.nd_ge, ?_⟩
          · rw [r.h_eq, hlt, hle]; simp; omega
          · have := r.inv; rw [hle]; simp; omega
          · rcases r.pend with h | h
            · rcases List.mem_cons.1 h with h | h
              · omega
              · exact Or.inl h
            · exact Or.inr h
        have hout : le n u ++ lt n (c :: v) = le n (u ++ [c]) ++ lt n v := by rw [hlt, hle]; simp
        rcases ih (u ++ [c]) { st with delta := st.delta + 1 } nd id r' with ⟨h1, h2⟩ | ⟨st', nd', id', ds, h1, h2, h3, h4, h5⟩
        · left
          refine ⟨h1, fun chk => ?_⟩
          rw [encodeScan_lt hc hd]; exact h2 chk
        · right
          refine ⟨st', nd', id', ds, fun chk => ?_, h2, h3, h4, ?_⟩
          · rw [encodeScan_lt hc hd]; exact h1 chk
          · rw [hout]; exact h5
      · left
        refine ⟨?_, fun chk => encodeScan_overflow hc hd r.delta_le⟩
        have hdist := r.dist
        have hheq := r.h_eq
        rcases r.pend with h | ⟨h1, h2⟩
        · exact bound hn' r.nd_ge (r.h_lt h) (x := (le n u).length) (by omega) (by omega)
        · exfalso
          rw [h1, Nat.sub_self, Nat.zero_mul] at hdist
          have h3 : (le n u).length ≤ u.length := List.length_filter_le _ _
          have h4 : s.length = u.length + (v.length + 1) := by rw [hsplit, List.length_append, List.length_cons]
          omega
    · -- the current code point: a delta is written
      subst hc
      have hh := r.h_lt (List.mem_cons_self ..)
      obtain ⟨ds, b', e1, e2, e3, e4, e5, e6⟩ := emit hn hlen r
      rcases ih (u ++ [c]) ⟨0, b', st.processed + 1, st.out ++ ds⟩ c ((le c u).length + 1) e5 with
        ⟨h1, h2⟩ | ⟨st', nd', id', ds', h1, h2, h3, h4, h5⟩
      · left
        refine ⟨h1, fun chk => ?_⟩
        rw [encodeScan_eq (by omega) (e1 chk) (e2 chk)]; exact h2 chk
      · right
        refine ⟨st', nd', id', ds ++ ds', fun chk => ?_, ?_, ?_, h4, ?_⟩
        · rw [encodeScan_eq (by omega) (e1 chk) (e2 chk)]; exact h1 chk
        · rw [h2]; simp
        · intro x hx
          rcases List.mem_append.1 hx with hx | hx
          · exact e4 x hx
          · exact h3 x hx
        · split_ifs at e6 with hov
          · rcases h5 with h5 | ⟨h5, h6⟩
            · left
              intro rest res h
              rw [List.append_assoc]
              exact e6 _ _ (h5 rest res h)
            · right
              refine ⟨h5, fun rest => ?_⟩
              rw [List.append_assoc]
              exact e6 _ _ (h6 rest)
          · right
            refine ⟨e6.1, fun rest => ?_⟩
            rw [List.append_assoc]
            exact e6.2 _
    · -- a greater character is skipped
      have hlt : lt n (c :: v) = lt n v := List.filter_cons_of_neg (by simp; omega)
      have hle : le n (u ++ [c]) = le n u := by simp [le, hc]
      have r' : Rel s b n (u ++ [c]) v st.delta st.bias st.processed nd id := by
        refine ⟨by rw [hsplit]; simp, by rw [r.h_eq, hlt, hle], by rw [hle]; exact r.inv, r.id_le, r.first, r.b_le, r.bias_le, r.delta_le, r.nd_ge, ?_⟩
        rcases r.pend with h | h
        · rcases List.mem_cons.1 h with h | h
          · omega
          · exact Or.inl h
        · exact Or.inr h
      have hout : le n u ++ lt n (c :: v) = le n (u ++ [c]) ++ lt n v := by rw [hlt, hle]
      rcases ih (u ++ [c]) st nd id r' with ⟨h1, h2⟩ | ⟨st', nd', id', ds, h1, h2, h3, h4, h5⟩
      · left
        refine ⟨h1, fun chk => ?_⟩
        rw [encodeScan_gt hc]; exact h2 chk
      · right
        refine ⟨st', nd', id', ds, fun chk => ?_, h2, h3, h4, ?_⟩
        · rw [encodeScan_gt hc]; exact h1 chk
        · rw [hout]; exact h5

/-! ## The outer loop -/

theorem minFrom_spec {n : Nat} {s : List Nat} {m : Nat} (h : minFrom n s = some m) :
    m ∈ s ∧ n ≤ m ∧ ∀ c ∈ s, n ≤ c → m ≤ c := by
  unfold minFrom at h
  rw [List.min?_eq_some_iff] at h
  obtain ⟨h1, h2⟩ := h
  rw [List.mem_filter] at h1
  exact ⟨h1.1, by simpa using h1.2, fun c hc hn => h2 c (List.mem_filter.2 ⟨hc, by simpa using hn⟩)⟩

theorem minFrom_ne_none {n : Nat} {s : List Nat} (h : ∃ c ∈ s, n ≤ c) : ∃ m, minFrom n s = some m := by
  obtain ⟨c, hc, hn⟩ := h
  cases hm : minFrom n s with
  | some m => exact ⟨m, rfl⟩
  | none =>
    unfold minFrom at hm
    rw [List.min?_eq_none_iff] at hm
    have : c ∈ ([] : List Nat) := hm ▸ List.mem_filter.2 ⟨hc, by simpa using hn⟩
    simp at this

theorem minFrom_eq {n m : Nat} {s : List Nat} (h1 : m ∈ s) (h2 : n ≤ m) (h3 : ∀ c ∈ s, n ≤ c → m ≤ c) : minFrom n s = some m := by
  obtain ⟨m', hm'⟩ := minFrom_ne_none ⟨m, h1, h2⟩
  obtain ⟨a, b, c⟩ := minFrom_spec hm'
  rw [hm']
  congr 1
  have := c m h1 h2
  have := h3 m' a b
  omega

/-- A round of `encodeLoop` up to the scan. -/
theorem encodeLoop_step {chk s b len fuel n m st} (hp : st.processed < len) (hlen : len ≤ u32Max) (hm : minFrom n s = some m)
    (hd : st.delta ≤ u32Max) :
    encodeLoop chk s b len (fuel + 1) n st =
      if u32Max < st.delta + (m - n) * (st.processed + 1) then .ok none
      else encodeScan chk b m s { st with delta := st.delta + (m - n) * (st.processed + 1) } >>= fun o =>
        match o with
        | none => .ok none
        | some st => add32 chk st.delta 1 >>= fun delta => add32 chk m 1 >>= fun cp =>
            encodeLoop chk s b len fuel cp { st with delta := delta } := by
  obtain ⟨_, h2, _⟩ := minFrom_spec hm
  rw [encodeLoop, if_pos hp, hm]
  simp only
  rw [sub32_ok h2, bind_ok, sub32_ok hd, bind_ok, add32_ok (by omega), bind_ok, div32_ok (by omega), bind_ok]
  have e : (m - n > (u32Max - st.delta) / (st.processed + 1)) ↔ u32Max < st.delta + (m - n) * (st.processed + 1) := by
    rw [gt_iff_lt, Nat.div_lt_iff_lt_mul (by omega)]; omega
  by_cases h : u32Max < st.delta + (m - n) * (st.processed + 1)
  · rw [if_pos (e.2 h), if_pos h]; rfl
  · rw [if_neg (fun x => h (e.1 x)), if_neg h, mul32_ok (by omega), bind_ok, add32_ok (by omega), bind_ok]
    rfl

theorem lt_all {n : Nat} {s : List Nat} (h : (lt n s).length = s.length) : lt n s = s := by
  rw [List.filter_eq_self]
  exact List.length_filter_eq_length_iff.1 h

theorem loop {s b} (hs : ∀ c ∈ s, Spec.IsScalar c) (hlen : s.length ≤ u32Max) : ∀ (fuel n : Nat) (st : EncState) (nd id : Nat),
    s.length < fuel + st.processed → st.processed = (lt n s).length →
    nd * (st.processed + 1) + id + st.delta = n * (st.processed + 1) → id ≤ st.processed → (id = 0 ↔ st.processed = b) →
    b ≤ st.processed → st.bias ≤ 216 → st.delta ≤ u32Max → 0x80 ≤ nd →
    (3855 < s.length ∧ ∀ chk, Fails chk (encodeLoop chk s b s.length fuel n st)) ∨
    ∃ ds, (∀ chk, encodeLoop chk s b s.length fuel n st = .ok (some (st.out ++ ds))) ∧ (∀ x ∈ ds, IsDigit x) ∧
      (Dec ds (lt n s) nd st.bias id (some s) ∨ (3855 < s.length ∧ Dec ds (lt n s) nd st.bias id none)) := by
  intro fuel
  induction fuel with
  | zero =>
    intro n st nd id hf hp
    have : (lt n s).length ≤ s.length := List.length_filter_le _ _
    omega
  | succ fuel ih =>
    intro n st nd id hf hp hinv hid hfirst hb hbias hdl hnd
    by_cases hlt : st.processed < s.length
    · obtain ⟨m, hm⟩ : ∃ m, minFrom n s = some m := by
        apply minFrom_ne_none
        rw [hp] at hlt
        obtain ⟨c, hc, hc2⟩ := List.length_filter_lt_length_iff_exists.1 hlt
        exact ⟨c, hc, by simpa using hc2⟩
      obtain ⟨m1, m2, m3⟩ := minFrom_spec hm
      have hms := hs m m1
      have hm' : m ≤ 0x10FFFF := by unfold Spec.IsScalar at hms; omega
      have hltm : lt m s = lt n s := by
        apply List.filter_congr
        intro c hc
        have := m3 c hc
        simp only [decide_eq_decide]; omega
      have hndn : nd ≤ n := by
        by_contra hc
        have : (n + 1) * (st.processed + 1) ≤ nd * (st.processed + 1) := Nat.mul_le_mul_right _ (by omega)
        have : (n + 1) * (st.processed + 1) = n * (st.processed + 1) + (st.processed + 1) := by ring
        omega
      have hmn : m * (st.processed + 1) = (m - n) * (st.processed + 1) + n * (st.processed + 1) := by
        rw [← Nat.add_mul]; congr 1; omega
      have hmnd : m * (st.processed + 1) = (m - nd) * (st.processed + 1) + nd * (st.processed + 1) := by
        rw [← Nat.add_mul]; congr 1; omega
      by_cases hov : u32Max < st.delta + (m - n) * (st.processed + 1)
      · left
        refine ⟨bound hm' hnd hlt (x := 0) (by omega) (by omega), fun chk => Or.inl ?_⟩
        rw [encodeLoop_step hlt hlen hm hdl, if_pos hov]
      · have r : Rel s b m [] s (st.delta + (m - n) * (st.processed + 1)) st.bias st.processed nd id := by
          refine ⟨rfl, by rw [hltm]; simpa using hp, by simp [le]; omega, hid, hfirst, hb, hbias, by omega, hnd, Or.inl m1⟩
        rcases scan hms hlen s [] { st with delta := st.delta + (m - n) * (st.processed + 1) } nd id r with
          ⟨h1, h2⟩ | ⟨st', nd', id', ds, h1, h2, h3, h4, h5⟩
        · left
          refine ⟨h1, fun chk => ?_⟩
          rw [encodeLoop_step hlt hlen hm hdl, if_neg hov]
          rcases h2 chk with h | ⟨h, h'⟩
          · rw [h]; exact Or.inl rfl
          · rw [h']; exact Or.inr ⟨h, rfl⟩
        · rcases h4.pend with hp' | ⟨hn1, hn2⟩
          · simp at hp'
          · have hd4 := h4.dist
            rw [hn1, Nat.sub_self, Nat.zero_mul] at hd4
            have hh4 := h4.h_eq
            rw [show lt m [] = [] from rfl, List.length_nil, Nat.add_zero] at hh4
            have hls : (le m s).length ≤ s.length := List.length_filter_le _ _
            have hmono : (lt m s).length < (le m s).length := by
              have e : lt m s = lt m (le m s) := by
                unfold lt le; rw [List.filter_filter]
                apply List.filter_congr
                intro c _
                by_cases h : c < m <;> simp [h, Nat.le_of_lt]
              rw [e]
              exact List.length_filter_lt_length_iff_exists.2 ⟨m, List.mem_filter.2 ⟨m1, by simp⟩, by simp⟩
            rw [hltm, ← hp] at hmono
            have hid4 := h4.id_le
            have hinv' : nd' * (st'.processed + 1) + id' + (st'.delta + 1) = (m + 1) * (st'.processed + 1) := by
              rw [hn1]
              have : (m + 1) * (st'.processed + 1) = m * (st'.processed + 1) + (st'.processed + 1) := by ring
              omega
            have hloop : ∀ chk, encodeLoop chk s b s.length (fuel + 1) n st =
                encodeLoop chk s b s.length fuel (m + 1) { st' with delta := st'.delta + 1 } := by
              intro chk
              rw [encodeLoop_step hlt hlen hm hdl, if_neg hov, h1 chk, bind_ok]
              simp only
              rw [add32_ok (by omega), bind_ok, add32_ok (by simp only [u32Max]; omega), bind_ok]
            rcases ih (m + 1) { st' with delta := st'.delta + 1 } nd' id' (by simp only; omega)
              (by simp only; rw [hh4, le_eq_lt_succ]) hinv' hid4 h4.first h4.b_le h4.bias_le (by simp only; omega) h4.nd_ge with
              ⟨g1, g2⟩ | ⟨ds', g1, g2, g3⟩
            · left
              refine ⟨g1, fun chk => ?_⟩
              rw [hloop]; exact g2 chk
            · right
              refine ⟨ds ++ ds', fun chk => ?_, ?_, ?_⟩
              · rw [hloop, g1 chk]
                simp only [h2, List.append_assoc]
              · intro x hx
                rcases List.mem_append.1 hx with hx | hx
                · exact h3 x hx
                · exact g2 x hx
              · rw [hltm] at h5
                simp only [show le m [] = [] from rfl, List.nil_append] at h5
                rw [← le_eq_lt_succ] at g3
                rcases h5 with h5 | ⟨h5, h6⟩
                · rcases g3 with g3 | ⟨g3, g4⟩
                  · exact Or.inl (h5 _ _ g3)
                  · exact Or.inr ⟨g3, h5 _ _ g4⟩
                · exact Or.inr ⟨h5, h6 _⟩
    · right
      have hfin : lt n s = s := by
        apply lt_all
        have : (lt n s).length ≤ s.length := List.length_filter_le _ _
        omega
      refine ⟨[], fun chk => ?_, by simp, Or.inl ?_⟩
      · rw [encodeLoop, if_neg hlt, List.append_nil]
      · intro chk fuel' hf'
        obtain ⟨f, rfl⟩ : ∃ f, fuel' = f + 1 := ⟨fuel' - 1, by simp at hf'; omega⟩
        rw [decodeLoop_nil, hfin]

/-- The encoder and the decoder together. -/
theorem encode_spec {s : List Nat} (hs : ∀ c ∈ s, Spec.IsScalar c) (hlen : s.length ≤ u32Max) :
    (3855 < s.length ∧ ∀ chk, Fails chk (encode chk s)) ∨
    ∃ ds, (∀ chk, encode chk s = .ok (some ((if lt 0x80 s = [] then [] else lt 0x80 s ++ [DELIMITER]) ++ ds))) ∧ (∀ x ∈ ds, IsDigit x) ∧
      (Dec ds (lt 0x80 s) 0x80 72 0 (some s) ∨ (3855 < s.length ∧ Dec ds (lt 0x80 s) 0x80 72 0 none)) := by
  have hle : (lt 0x80 s).length ≤ s.length := List.length_filter_le _ _
  have hb : asU32 (lt 0x80 s).length = (lt 0x80 s).length := asU32_of_le (by omega)
  have hout : (if asU32 (lt 0x80 s).length > 0 then lt 0x80 s ++ [DELIMITER] else lt 0x80 s) =
      (if lt 0x80 s = [] then [] else lt 0x80 s ++ [DELIMITER]) := by
    rw [hb]
    by_cases h : lt 0x80 s = []
    · rw [if_pos h, h]; simp
    · rw [if_neg h, if_pos (List.length_pos_iff.2 h)]
  have henc : ∀ chk, encode chk s = encodeLoop chk s (lt 0x80 s).length s.length (s.length + 1) 0x80
      ⟨0, 72, (lt 0x80 s).length, (if lt 0x80 s = [] then [] else lt 0x80 s ++ [DELIMITER])⟩ := by
    intro chk
    unfold encode
    simp only
    rw [hout, hb, asU32_of_le hlen]
    rfl
  rcases loop (b := (lt 0x80 s).length) hs hlen (s.length + 1) 0x80
      ⟨0, 72, (lt 0x80 s).length, (if lt 0x80 s = [] then [] else lt 0x80 s ++ [DELIMITER])⟩ 0x80 0
      (by simp only; omega) rfl (by simp only; omega) (by simp only; omega) (by simp) (Nat.le_refl _)
      (by simp only; omega) (by simp only [u32Max]; omega) (Nat.le_refl _) with ⟨h1, h2⟩ | ⟨ds, h1, h2, h3⟩
  · left
    refine ⟨h1, fun chk => ?_⟩
    rw [henc]; exact h2 chk
  · right
    refine ⟨ds, fun chk => ?_, h2, h3⟩
    rw [henc]; exact h1 chk

end Proofs.Punycode
