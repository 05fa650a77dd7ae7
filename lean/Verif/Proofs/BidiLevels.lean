import Verif.Proofs.BidiBounds

/-! # From the passes of `implicit.rs` to the rules W1-W7, N1, N2, I1, I2 of a whole paragraph -/
namespace Proofs.BidiW
open Model Model.Bidi Data Spec.Bidi Proofs.Punycode Proofs.Bidi

/-! ## several sequences -/

/-- the passes over one sequence -/
def oneC (t ls : List Nat) (s : IsoSeq) (xs : List BC) : List BC := resolveNeutralC s ls (resolveWeakC t s xs)

theorem oneC_off {t ls : List Nat} {s : IsoSeq} {xs : List BC} {j : Nat} (h : j ∉ indices s.runs) : (oneC t ls s xs)[j]? = xs[j]? := by
  unfold oneC resolveNeutralC resolveWeakC
  rw [neutralC_off _ _ _ _ h (by simp), w7C_off _ _ _ h, weakC_off _ _ _ _ h (by simp)]

theorem foldC_off {t ls : List Nat} {j : Nat} : ∀ {ss : List IsoSeq} {xs : List BC}, (∀ s ∈ ss, j ∉ indices s.runs) → (resolveSeqsC t ls ss xs)[j]? = xs[j]?
  | [], _, _ => rfl
  | s :: ss, xs, h => by
    show (resolveSeqsC t ls ss (oneC t ls s xs))[j]? = _
    rw [foldC_off (fun s hs => h s (by simp [hs])), oneC_off (h s (by simp))]

theorem foldC_append {t ls : List Nat} (a b : List IsoSeq) (xs : List BC) : resolveSeqsC t ls (a ++ b) xs = resolveSeqsC t ls b (resolveSeqsC t ls a xs) := by
  unfold resolveSeqsC; rw [List.foldl_append]

/-- what a sequence leaves at its own characters depends on no other sequence -/
theorem foldC_at {t ls : List Nat} {ss : List IsoSeq} {xs : List BC} {s : IsoSeq} (hs : s ∈ ss) (hd : (ss.map (fun s => indices s.runs)).Pairwise List.Disjoint) :
    ∃ ys, ys.length = xs.length ∧ (∀ k ∈ indices s.runs, ys[k]? = xs[k]?) ∧ ∀ k ∈ indices s.runs, (resolveSeqsC t ls ss xs)[k]? = (oneC t ls s ys)[k]? := by
  obtain ⟨a, b, rfl⟩ := List.append_of_mem hs
  rw [List.map_append, List.map_cons, List.pairwise_append] at hd
  obtain ⟨_, hd2, hd3⟩ := hd
  rw [List.pairwise_cons] at hd2
  refine ⟨resolveSeqsC t ls a xs, resolveSeqsC_length _ _ _ _, ?_, ?_⟩
  · intro k hk
    apply foldC_off
    intro x hx hkx
    exact hd3 _ (List.mem_map.2 ⟨x, hx, rfl⟩) _ (by simp) hkx hk
  · intro k hk
    rw [foldC_append]
    show (resolveSeqsC t ls b (oneC t ls s _))[k]? = _
    apply foldC_off
    intro x hx hkx
    exact hd2.1 _ (List.mem_map.2 ⟨x, hx, rfl⟩) hk hkx

/-! ## removed characters inside a sequence -/

theorem live_append (xs : List BC) (a b : List Nat) : live xs (a ++ b) = live xs a ++ live xs b := by unfold live; rw [List.filter_append]

theorem live_range_head {xs : List BC} : ∀ {m a j : Nat}, (live xs (List.range' a m)).head? = some j →
    a ≤ j ∧ j < a + m ∧ removed (ent xs j) = false ∧ ∀ q, a ≤ q → q < j → removed (ent xs q) = true
  | 0, _, _, h => by simp [live] at h
  | m + 1, a, j, h => by
    rw [List.range'_succ, live_cons] at h
    cases hr : removed (ent xs a) with
    | false =>
      rw [hr] at h; simp at h; subst h
      exact ⟨by omega, by omega, hr, by intro q h1 h2; omega⟩
    | true =>
      rw [hr, if_pos rfl] at h
      obtain ⟨h1, h2, h3, h4⟩ := live_range_head h
      refine ⟨by omega, by omega, h3, ?_⟩
      intro q q1 q2
      by_cases e : q = a
      · rw [e]; exact hr
      · exact h4 q (by omega) q2

theorem live_range_none {xs : List BC} {m a : Nat} (h : live xs (List.range' a m) = []) : ∀ q, a ≤ q → q < a + m → removed (ent xs q) = true := by
  intro q h1 h2
  by_contra hc
  have : q ∈ live xs (List.range' a m) := live_mem.2 ⟨List.mem_range'_1.2 ⟨h1, h2⟩, by simpa using hc⟩
  rw [h] at this; simp at this

theorem okG_range {xs : List BC} {B : List Nat} (hB : okG xs B) : ∀ {m a : Nat},
    (∀ k j, a ≤ k → k < j → j < a + m → (∀ q, k ≤ q → q < j → removed (ent xs q) = true) → removed (ent xs j) = false → good (ent xs j) = true) →
    (0 < m → live xs B ≠ [] → removed (ent xs (a + m - 1)) = false) → okG xs (List.range' a m ++ B)
  | 0, _, _, _ => hB
  | m + 1, a, h1, h2 => by
    rw [List.range'_succ, List.cons_append]
    refine ⟨?_, okG_range hB (fun k j a1 a2 a3 => h1 k j (by omega) a2 (by omega)) (fun _ hb => by
      have := h2 (by omega) hb
      rwa [show a + (m + 1) - 1 = a + 1 + m - 1 by omega] at this)⟩
    intro hr j hj
    rw [live_append, List.head?_append] at hj
    cases hh : (live xs (List.range' (a + 1) m)).head? with
    | some j' =>
      rw [hh] at hj
      simp at hj; subst hj
      obtain ⟨e1, e2, e3, e4⟩ := live_range_head hh
      refine h1 a j' (by omega) (by omega) (by omega) ?_ e3
      intro q q1 q2
      by_cases e : q = a
      · rw [e]; exact hr
      · exact e4 q (by omega) q2
    | none =>
      rw [hh] at hj
      simp only [Option.none_or] at hj
      exfalso
      have hb : live xs B ≠ [] := by intro e; rw [e] at hj; simp at hj
      have hl := h2 (by omega) hb
      rw [List.head?_eq_none_iff] at hh
      by_cases e : m = 0
      · subst e
        rw [show a + (0 + 1) - 1 = a by omega, hr] at hl; simp at hl
      · rw [live_range_none hh (a + (m + 1) - 1) (by omega) (by omega)] at hl; simp at hl

/-! ## level runs -/

theorem runs_spec {L : List Nat} {C : List BC} (h : L.length = C.length) {runs : List Run} (h1 : levelRuns L C = .ok runs) :
    (∀ r ∈ runs, ∀ k, r.start ≤ k → k < r.stop → ∀ c, C[k]? = some c → removed c = false → L[k]? = L[r.start]?) ∧
      (∀ r, runs[0]? = some r → r.start = 0) ∧
      ∀ (j : Nat) a b, runs[j]? = some a → runs[j + 1]? = some b → ∃ c, C[b.start]? = some c ∧ removed c = false := by
  unfold levelRuns at h1
  rw [if_neg (by simpa using h)] at h1
  cases L with
  | nil => cases h1; simp
  | cons l ls =>
    simp only at h1
    cases h1
    obtain ⟨s1, s2, s3⟩ := levelRunsLoop_spec (C := C) (L := l :: ls) C.tail ls 1 l 0 List.drop_one rfl (by simp) h.symm (by omega) rfl (by intro k k1 k2 c _ _ hk; omega)
    exact ⟨s1, fun r hr => s2 0 r hr rfl, fun j a b ha hb => (s3 j a b ha hb).2⟩

/-! ## one sequence of a paragraph -/

theorem lt_of_get {α : Type} {l : List α} {i : Nat} {a : α} (h : l[i]? = some a) : i < l.length := by
  by_contra hn; rw [List.getElem?_eq_none (by omega)] at h; simp at h

/-- a sequence of the program with the facts about it -/
structure SeqFacts (pl : Nat) (cs : List BC) (s : List Run) : Prop where
  nodup : (indices s).Nodup
  bound : ∀ r ∈ s, r.start < r.stop ∧ r.stop ≤ cs.length
  runs : ∀ r ∈ s, IsRun (afterX9 pl cs) (keepRun cs r)
  chain : List.IsChain (Follows (afterX9 pl cs)) (indices (s.map (keepRun cs)))
  start : ∀ r ∈ s, r.start = 0 ∨ ∃ c, cs[r.start]? = some c ∧ removed c = false
  level : ∀ r ∈ s, ∀ k, r.start ≤ k → k < r.stop → ∀ c, cs[k]? = some c → removed c = false → (lev pl cs)[k]? = (lev pl cs)[r.start]?
  ne : s ≠ []

theorem indices_flatten : ∀ seqs : List (List Run), (seqs.map indices).flatten = indices seqs.flatten
  | [] => rfl
  | a :: l => by
    have ih := indices_flatten l
    rw [List.map_cons, List.flatten_cons, List.flatten_cons, ih]
    unfold indices; rw [List.flatMap_append]

theorem para_seqs {pl : Nat} {cs : List BC} (h : ParaFacts pl cs) (hg : NoGap cs) : ∃ seqs : List (List Run),
    seqsC pl cs (lev pl cs) = seqs.map (boundsC pl cs (lev pl cs)) ∧ (seqs.map indices).Pairwise List.Disjoint ∧
    (∀ s ∈ seqs, (SeqFacts pl cs s ∧ IsSequence (afterX9 pl cs) (indices (s.map (keepRun cs)))) ∨ liveAt cs (indices s) = []) ∧
    ∀ q, IsSequence (afterX9 pl cs) q → ∃ s ∈ seqs, SeqFacts pl cs s ∧ indices (s.map (keepRun cs)) = q := by
  obtain ⟨runs, seqs, h1, h2, h3, h4, h5, h6, h7⟩ := isolating_ok (pl := pl) h.len1.symm
  have hs : seqsC pl cs (lev pl cs) = seqs.map (boundsC pl cs (lev pl cs)) := by unfold seqsC; rw [h7]
  obtain ⟨sp1, sp2, sp3⟩ := runs_spec h.len1 h1
  obtain ⟨runs', seqs', k1, k2, k3⟩ := seqs_keep h.len1 hg h1 h2 sp3 (by rw [← h.len1]; exact h3)
  rw [← h.orig, ← h.level] at k1
  rw [← h.orig] at k2
  obtain ⟨m1, m2⟩ := seqs_kept h.nested h.kept k1 k2
  have hmem : ∀ s ∈ seqs, ∀ r ∈ s, r ∈ runs := fun s hs r hr => h4.mem_iff.1 (List.mem_flatten.2 ⟨s, hs, hr⟩)
  have hfacts : ∀ s ∈ seqs, s.map (keepRun cs) ∈ seqs' → SeqFacts pl cs s := by
    intro s hs hs'
    obtain ⟨n1, n2, n3, n4⟩ := m2 _ hs'
    refine ⟨indices_nodup h3 h4 hs, h6 s hs, fun r hr => n1 _ (List.mem_map.2 ⟨r, hr, rfl⟩), n3, ?_, fun r hr => sp1 r (hmem s hs r hr), h5 s hs⟩
    intro r hr
    obtain ⟨j, hj, hjr⟩ := List.getElem_of_mem (hmem s hs r hr)
    cases j with
    | zero => left; exact sp2 r (by rw [List.getElem?_eq_getElem hj, hjr])
    | succ j => right; exact sp3 j _ r (List.getElem?_eq_getElem (by omega)) (by rw [List.getElem?_eq_getElem hj, hjr])
  have hQ : ∀ q ∈ seqs'.map indices, q ≠ [] ∧ List.IsChain (Follows (afterX9 pl cs)) q ∧ ∀ i j, q.getLast? = some i → ¬ Follows (afterX9 pl cs) i j := by
    intro q hq
    obtain ⟨s, hs, rfl⟩ := List.mem_map.1 hq
    exact (m2 s hs).2
  have hperm : (seqs'.map indices).flatten.Perm (List.range (afterX9 pl cs).length) := by
    rw [indices_flatten]; exact m1
  have hdisj : (seqs.map indices).Pairwise List.Disjoint := by
    have e1 : (indices runs).Nodup := by rw [tiles_indices h3]; exact List.nodup_range'
    have e2 : (indices seqs.flatten).Nodup := (List.Perm.flatMap_right _ h4 : (indices seqs.flatten).Perm (indices runs)).nodup_iff.2 e1
    rw [← indices_flatten, List.nodup_flatten] at e2
    exact e2.2
  refine ⟨seqs, hs, hdisj, ?_, ?_⟩
  · intro s hs
    have hcase : s.map (keepRun cs) ∈ seqs' ∨ ∃ r, s = [r] ∧ keepRun cs r = ⟨0, 0⟩ := by
      rcases k3 with rfl | ⟨r, ss, rfl, hr, rfl⟩
      · left; exact List.mem_map.2 ⟨s, hs, rfl⟩
      · rcases List.mem_cons.1 hs with rfl | hs
        · right; exact ⟨r, rfl, hr⟩
        · left; exact List.mem_map.2 ⟨s, hs, rfl⟩
    rcases hcase with hc | ⟨r, rfl, hr⟩
    · left
      exact ⟨hfacts s hs hc, seqs_sound hperm hQ (List.mem_map.2 ⟨_, hc, rfl⟩)⟩
    · right
      have := live_indices (C := cs) (s := [r]) (h6 _ hs)
      rw [List.map_cons, List.map_nil, hr] at this
      simpa [indices] using this
  · intro q hq
    have := seqs_complete h.nested hperm (fun s hs => (hQ s hs).2) hq
    obtain ⟨s', hs', rfl⟩ := List.mem_map.1 this
    have hcase : ∃ s ∈ seqs, s.map (keepRun cs) = s' := by
      rcases k3 with rfl | ⟨r, ss, rfl, hr, rfl⟩
      · obtain ⟨s, hs, e⟩ := List.mem_map.1 hs'; exact ⟨s, hs, e⟩
      · obtain ⟨s, hs, e⟩ := List.mem_map.1 hs'; exact ⟨s, by simp [hs], e⟩
    obtain ⟨s, hs, rfl⟩ := hcase
    exact ⟨s, hs, hfacts s hs hs', rfl⟩

/-- sequence level, `sos` and `eos` -/
theorem seq_bounds {pl : Nat} {cs : List BC} (h : ParaFacts pl cs) (hg : NoGap cs) {s : List Run} (hs : SeqFacts pl cs s) {a b : Nat}
    (ha : (indices (s.map (keepRun cs))).head? = some a) (hb : (indices (s.map (keepRun cs))).getLast? = some b) :
    levelOf (afterX9 pl cs) a = some ((lev pl cs).getD (s.headD ⟨0, 0⟩).start 0) ∧
    (boundsC pl cs (lev pl cs) s).sos = sosOf pl (afterX9 pl cs) a ∧ (boundsC pl cs (lev pl cs) s).eos = eosOf pl (afterX9 pl cs) b := by
  obtain ⟨first, rest, rfl⟩ : ∃ first rest, s = first :: rest := by
    cases s with
    | nil => exact absurd rfl hs.ne
    | cons x y => exact ⟨x, y, rfl⟩
  obtain ⟨last, hlast⟩ : ∃ x, (first :: rest).getLast? = some x := ⟨_, List.getLast?_eq_some_getLast (by simp)⟩
  have hlm : last ∈ first :: rest := List.mem_of_getLast? hlast
  have hf := hs.runs first (by simp)
  have hl := hs.runs last hlm
  have ea : a = cnt cs first.start := by
    rw [List.map_cons, indices_head hf.1] at ha
    simpa [keepRun] using ha.symm
  have eb : b = cnt cs last.stop - 1 := by
    rw [indices_last (by simp) (by
      intro r hr
      obtain ⟨r', hr', rfl⟩ := List.mem_map.1 hr
      exact (hs.runs r' hr').1)] at hb
    unfold lastPos at hb
    rw [List.getLastD_eq_getLast?, List.getLast?_map, hlast] at hb
    simpa [keepRun] using hb.symm
  have hsame : levelOf (afterX9 pl cs) (cnt cs first.start) = levelOf (afterX9 pl cs) (cnt cs last.stop - 1) := by
    rw [← ea, ← eb]
    exact (chain_level h.nested hs.chain a ha b (List.mem_of_getLast? hb)).symm
  obtain ⟨r1, r2, r3⟩ := bounds_keep h hg (s := first :: rest) rfl hlast (hs.bound _ (by simp)) (hs.bound _ hlm) hf.1 hl.1 (hs.level first (by simp)) hsame
  rw [ea, eb]
  exact ⟨r1.symm, r2, r3⟩

/-! ## the classes of a sequence -/

theorem ent_exc {pl : Nat} {cs : List BC} (h : ParaFacts pl cs) {k : Nat} {c : BC} (hc : cs[k]? = some c) : removed (ent (exc pl cs) k) = removed c := by
  have hk := lt_of_get hc
  have hd : (exc pl cs)[k]? = some ((exc pl cs)[k]'(by rw [h.len2]; exact hk)) := List.getElem?_eq_getElem _
  unfold ent
  rw [List.getD_eq_getElem?_getD, hd]
  exact h.rem k c _ hc hd

theorem live_exc {pl : Nat} {cs : List BC} (h : ParaFacts pl cs) {ks : List Nat} (hk : ∀ k ∈ ks, k < cs.length) : live (exc pl cs) ks = liveAt cs ks := by
  unfold live liveAt
  apply List.filter_congr
  intro k hk'
  have hc : cs[k]? = some (cs[k]'(hk k hk')) := List.getElem?_eq_getElem _
  rw [ent_exc h hc, hc]; rfl

theorem kept_exc {pl : Nat} {cs : List BC} (h : ParaFacts pl cs) {k : Nat} (hk : k < cs.length) (hl : removed (ent (exc pl cs) k) = false) :
    ∃ u, (afterX9 pl cs)[cnt cs k]? = some u ∧ u.pos = k ∧ (lev pl cs)[k]? = some u.level ∧ ent (exc pl cs) k = u.cls := by
  have hc : cs[k]? = some cs[k] := List.getElem?_eq_getElem hk
  rw [ent_exc h hc] at hl
  obtain ⟨u, h1, h2, h3, h4, h5⟩ := h.get k _ hc hl
  refine ⟨u, h1, h2, h4, ?_⟩
  unfold ent
  rw [List.getD_eq_getElem?_getD, h5]; rfl

theorem indices_lt {n : Nat} {s : List Run} (h : ∀ r ∈ s, r.start < r.stop ∧ r.stop ≤ n) : ∀ k ∈ indices s, k < n := by
  intro k hk
  obtain ⟨r, hr, hkr⟩ := List.mem_flatMap.1 hk
  have := List.mem_range'_1.1 hkr
  have := h r hr
  omega

/-- where characters were removed, the next one starts a level run or is a letter or a number -/
def Gaps (cs : List BC) (us : List Kept) : Prop :=
  ∀ (j : Nat) u c, us[j]? = some u → 0 < u.pos → cs[u.pos - 1]? = some c → removed c = true → (0 < j ∧ levelOf us (j - 1) ≠ levelOf us j) ∨ good u.cls = true

theorem okG_seq {pl : Nat} {cs : List BC} (h : ParaFacts pl cs) (hg : NoGap cs) (hgap : Gaps cs (afterX9 pl cs)) : ∀ {s : List Run},
    (∀ r ∈ s, r.start < r.stop ∧ r.stop ≤ cs.length) → (∀ r ∈ s, IsRun (afterX9 pl cs) (keepRun cs r)) →
    List.IsChain (Follows (afterX9 pl cs)) (indices (s.map (keepRun cs))) → (∀ r ∈ s, r.start = 0 ∨ ∃ c, cs[r.start]? = some c ∧ removed c = false) →
    okG (exc pl cs) (indices s)
  | [], _, _, _, _ => trivial
  | r :: s, hb, hr, hc, hst => by
    have hb1 := hb r (by simp)
    have hr1 := hr r (by simp)
    rw [List.map_cons, indices_cons] at hc
    have hc2 := List.isChain_append.1 hc
    rw [indices_cons]
    apply okG_range (okG_seq h hg hgap (fun x hx => hb x (by simp [hx])) (fun x hx => hr x (by simp [hx])) hc2.2.1 (fun x hx => hst x (by simp [hx])))
    · intro k j k1 k2 k3 hdead hlive
      have hj : j < cs.length := by omega
      obtain ⟨u, u1, u2, u3, u4⟩ := kept_exc h hj hlive
      have hpc : cs[j - 1]? = some (cs[j - 1]'(by omega)) := List.getElem?_eq_getElem _
      have hrem : removed (cs[j - 1]'(by omega)) = true := by rw [← ent_exc h hpc]; exact hdead _ (by omega) (by omega)
      rcases hgap _ u _ u1 (by omega) (by rw [u2]; exact hpc) hrem with ⟨g1, g2⟩ | g
      · exfalso
        have hmono : cnt cs r.start ≤ cnt cs j := cnt_mono (by omega)
        have hup : cnt cs j < cnt cs r.stop := by
          have e1 : cs[j]? = some cs[j] := List.getElem?_eq_getElem hj
          have e2 := cnt_succ_live e1 (by rw [← ent_exc h e1]; exact hlive)
          have e3 : cnt cs (j + 1) ≤ cnt cs r.stop := cnt_mono (by omega)
          omega
        by_cases e : cnt cs r.start = cnt cs j
        · rcases hst r (by simp) with e0 | ⟨c, c1, c2⟩
          · rw [← e, e0, cnt_zero] at g1; omega
          · have e2 := cnt_succ_live c1 c2
            have e3 : cnt cs (r.start + 1) ≤ cnt cs j := cnt_mono (by omega)
            omega
        · apply g2
          rw [hr1.2.2.1 (cnt cs j) (by simp only [keepRun]; omega) (by simp only [keepRun]; omega),
            hr1.2.2.1 (cnt cs j - 1) (by simp only [keepRun]; omega) (by simp only [keepRun]; omega)]
      · rw [u4]; exact g
    · intro _ hne
      have e1 : r.start + (r.stop - r.start) - 1 = r.stop - 1 := by omega
      rw [e1]
      obtain ⟨x, y, hx, hy, hxy⟩ := end_class hg hb1.1 hb1.2 hr1.1
      rw [ent_exc h hx]
      cases s with
      | nil => exact absurd rfl hne
      | cons r2 s =>
        have hr2 := hr r2 (by simp)
        have hf := hc2.2.2 _ (runIdx_last hr1.1) _ (by rw [List.map_cons]; exact indices_head hr2.1)
        rcases hf with ⟨f1, f2⟩ | ⟨_, ⟨w, w1, w2, _⟩, _⟩
        · exact absurd (by rw [← f1]; exact f2) hr1.2.2.2.2
        · rw [← h.orig, List.getElem?_map] at hy
          simp only [keepRun] at w1
          rw [w1] at hy
          simp at hy
          rw [← isolate_eq, hy, ← hxy] at w2
          cases hh : removed x with
          | false => rfl
          | true => rw [removed_not_isolate hh] at w2; simp at w2

theorem okG_congr {xs ys : List BC} : ∀ {ks : List Nat}, (∀ k ∈ ks, ent xs k = ent ys k) → okG xs ks → okG ys ks
  | [], _, _ => trivial
  | k :: ks, h, ⟨h1, h2⟩ => by
    have hk : ∀ j ∈ ks, ent xs j = ent ys j := fun j hj => h j (by simp [hj])
    refine ⟨?_, okG_congr hk h2⟩
    intro hr j hj
    have hl : live ys ks = live xs ks := (live_congr hk).symm
    rw [hl] at hj
    have hjm := (live_mem.1 (List.mem_of_mem_head? hj)).1
    rw [← hk j hjm]
    exact h1 (by rw [h k (by simp)]; exact hr) j hj

/-- **the levels of a sequence** -/
theorem levels_seq {t : List Nat} {pl : Nat} {cs : List BC} (hpl : pl ≤ 126) (hB : ∀ c ∈ cs.dropLast, c ≠ .ParagraphSeparator) (hg : NoGap cs)
    (hgap : Gaps cs (afterX9 pl cs)) {q : List Nat} (hq : IsSequence (afterX9 pl cs) q) {a b l : Nat} (ha : q.head? = some a) (hb : q.getLast? = some b)
    (hl : levelOf (afterX9 pl cs) a = some l)
    (hreg : Reg (sosOf pl (afterX9 pl cs) a) (sosOf pl (afterX9 pl cs) a) (sosOf pl (afterX9 pl cs) a) false
      (q.map (fun i => (Model.Utf.lenUtf8 (t.getD (posOf (afterX9 pl cs) i) 0), classOf (afterX9 pl cs) i))))
    (htail : eosOf pl (afterX9 pl cs) b = levelDir l ∨ (numbers (sosOf pl (afterX9 pl cs) a) (q.map (classOf (afterX9 pl cs)))).getLast? ≠ some .EuropeanTerminator) :
    q.map (fun i => (levelsC t pl cs)[posOf (afterX9 pl cs) i]?) =
      ((resolve (sosOf pl (afterX9 pl cs) a) (eosOf pl (afterX9 pl cs) b) (levelDir l) (q.map (classOf (afterX9 pl cs)))).map (fun c => some (Spec.Bidi.implicitLevel l c))) := by
  have h := para_facts hpl hB
  obtain ⟨seqs, s1, s2, _, s4⟩ := para_seqs h hg
  obtain ⟨s, hs, hf, rfl⟩ := s4 q hq
  obtain ⟨b1, b2, b3⟩ := seq_bounds h hg hf ha hb
  rw [hl] at b1
  simp only [Option.some.injEq] at b1
  have hlt := indices_lt hf.bound
  have hlive := live_exc h hlt
  have hqe : indices (s.map (keepRun cs)) = (live (exc pl cs) (indices s)).map (cnt cs) := by rw [hlive]; exact (live_indices hf.bound).symm
  have hkept : ∀ k ∈ live (exc pl cs) (indices s), ∃ u, (afterX9 pl cs)[cnt cs k]? = some u ∧ u.pos = k ∧ (lev pl cs)[k]? = some u.level ∧ ent (exc pl cs) k = u.cls := by
    intro k hk
    obtain ⟨k1, k2⟩ := live_mem.1 hk
    exact kept_exc h (hlt k k1) k2
  have hlev : ∀ k ∈ live (exc pl cs) (indices s), (lev pl cs)[k]? = some l := by
    intro k hk
    obtain ⟨u, u1, u2, u3, u4⟩ := hkept k hk
    have := chain_level h.nested hf.chain a ha (cnt cs k) (by rw [hqe]; exact List.mem_map.2 ⟨k, hk, rfl⟩)
    rw [levelOf_eq u1, hl] at this
    rw [u3, this]
  have hcls : (indices (s.map (keepRun cs))).map (classOf (afterX9 pl cs)) = (live (exc pl cs) (indices s)).map (ent (exc pl cs)) := by
    rw [hqe, List.map_map]
    apply List.map_congr_left
    intro k hk
    obtain ⟨u, u1, u2, u3, u4⟩ := hkept k hk
    simp only [Function.comp_apply, classOf, u1, u4, Option.map_some, Option.getD_some]
  have hpos : ∀ k ∈ live (exc pl cs) (indices s), posOf (afterX9 pl cs) (cnt cs k) = k := by
    intro k hk
    obtain ⟨u, u1, u2, u3, u4⟩ := hkept k hk
    simp only [posOf, u1, u2, Option.map_some, Option.getD_some]
  have hregs : (indices (s.map (keepRun cs))).map (fun i => (Model.Utf.lenUtf8 (t.getD (posOf (afterX9 pl cs) i) 0), classOf (afterX9 pl cs) i)) =
      (live (exc pl cs) (indices s)).map (fun k => (Model.Utf.lenUtf8 (t.getD k 0), ent (exc pl cs) k)) := by
    rw [hqe, List.map_map]
    apply List.map_congr_left
    intro k hk
    obtain ⟨u, u1, u2, u3, u4⟩ := hkept k hk
    simp only [Function.comp_apply, classOf, posOf, u1, u2, u4, Option.map_some, Option.getD_some]
  obtain ⟨ys, y1, y2, y3⟩ := foldC_at (t := t) (ls := lev pl cs) (ss := seqsC pl cs (lev pl cs)) (xs := exc pl cs) (s := boundsC pl cs (lev pl cs) s)
    (by rw [s1]; exact List.mem_map.2 ⟨s, hs, rfl⟩) (by rw [s1, List.map_map]; exact s2)
  have hye : ∀ k ∈ indices s, ent ys k = ent (exc pl cs) k := fun k hk => ent_of_off (y2 k hk)
  have hyl : live ys (indices s) = live (exc pl cs) (indices s) := live_congr hye
  have hyent : (live ys (indices s)).map (ent ys) = (live (exc pl cs) (indices s)).map (ent (exc pl cs)) := by
    rw [hyl]
    apply List.map_congr_left
    intro k hk; exact hye k (live_mem.1 hk).1
  have hdirs : ∀ x, levelDir x = .LeftToRight ∨ levelDir x = .RightToLeft := by intro x; unfold levelDir; split_ifs <;> simp
  have key := seqC_at (t := t) (xs := ys) (ks := indices s) (sos := sosOf pl (afterX9 pl cs) a) (eos := eosOf pl (afterX9 pl cs) b) (l := l) (hdirs _) (hdirs _) hf.nodup
    (fun k hk => by rw [y1, h.len2]; exact hlt k hk) (by
      rw [hregs] at hreg
      rw [hyl]
      refine cast (congrArg _ ?_) hreg
      apply List.map_congr_left
      intro k hk; rw [hye k (live_mem.1 hk).1]) (okG_congr (fun k hk => (hye k hk).symm) (okG_seq h hg hgap hf.bound hf.runs hf.chain hf.start)) (by
      rw [hyent, ← hcls]; exact htail)
  rw [hyent, hyl, ← hcls] at key
  have e2 : ∀ (X : List BC), X.map (fun c => some (Spec.Bidi.implicitLevel l c)) = (X.map (Spec.Bidi.implicitLevel l)).map some := by intro X; rw [List.map_map]; rfl
  rw [e2, ← key, hqe, List.map_map, List.map_map]
  apply List.map_congr_left
  intro k hk
  have hki := (live_mem.1 hk).1
  simp only [Function.comp_apply]
  rw [hpos k hk]
  have hc : cs[k]? = some (cs[k]'(hlt k hki)) := List.getElem?_eq_getElem _
  have hcr : removed (cs[k]'(hlt k hki)) = false := by rw [← ent_exc h hc]; exact (live_mem.1 hk).2
  have hy := y3 k hki
  have hone : (oneC t (lev pl cs) (boundsC pl cs (lev pl cs) s) ys)[k]? = some (ent (oneC t (lev pl cs) (boundsC pl cs (lev pl cs) s) ys) k) := by
    have : k < (oneC t (lev pl cs) (boundsC pl cs (lev pl cs) s) ys).length := by
      unfold oneC; rw [resolveNeutralC_length, resolveWeakC_length, y1, h.len2]; exact hlt k hki
    unfold ent
    rw [List.getD_eq_getElem?_getD, List.getElem?_eq_getElem this]; rfl
  unfold levelsC
  apply assignC_get hc hcr
  rw [List.getElem?_zipWith]
  have hrc : (resolvedC t pl cs)[k]? = some (ent (oneC t (lev pl cs) (boundsC pl cs (lev pl cs) s) ys) k) := by
    unfold resolvedC; rw [← hone]; exact hy
  rw [hrc, hlev k hk]
  simp only [Option.some.injEq]
  congr 1
  unfold oneC resolveNeutralC resolveWeakC
  rw [levelDir_eq, b2, b3]
  have : (boundsC pl cs (lev pl cs) s).runs = s := rfl
  rw [this, ← b1]

end Proofs.BidiW
