import Verif.Proofs.BidiOnePass
import Verif.Props.Bidi

/-! # Property C59: isolating run sequences and the rules W1-W7, N1, N2, I1, I2 -/
namespace Props.Bidi
open Model Model.Bidi Data Model.Grapheme Spec.Bidi Proofs.Bidi Proofs.Grapheme
open Model.Ucd (bidiClass)

/-- the level of the paragraph `p` -/
def paraLevel (dflt : Option Nat) (p : List Nat) : Nat := dflt.getD (paragraphLevel (p.map bidiClass))
/-- the classes of its characters, with rule X5c applied -/
def paraClasses (p : List Nat) : List BidiClass := initialClasses (p.map bidiClass)
/-- its characters that rule X9 does not remove, after rules X1-X8 -/
def paraKept (dflt : Option Nat) (p : List Nat) : List Kept := afterX9 (paraLevel dflt p) (paraClasses p)

/-- no isolate initiator of the paragraph is directly followed by a character that X9 removes -/
def NoRemovedAfterInitiator (p : List Nat) : Prop :=
  ∀ (k : Nat) c d, (paraClasses p)[k]? = some c → (paraClasses p)[k + 1]? = some d → isInitiator c = true → isRemoved d = false

/-- after a character that X9 removes comes (among those that stay) a letter or a number, or the start of another level run -/
def LettersAfterRemoved (dflt : Option Nat) (p : List Nat) : Prop :=
  ∀ (j : Nat) u c, (paraKept dflt p)[j]? = some u → 0 < u.pos → (paraClasses p)[u.pos - 1]? = some c → isRemoved c = true →
    (0 < j ∧ levelOf (paraKept dflt p) (j - 1) ≠ levelOf (paraKept dflt p) j) ∨ isLetterOrNumber u.cls = true

/-! ## the specification -/

/-- Every character that stays is in an isolating run sequence, ... -/
theorem c59_covered (pl : Nat) (hpl : pl ≤ 126) (cs : List BidiClass) (hB : ∀ c ∈ cs.dropLast, c ≠ .ParagraphSeparator) (k : Nat) (hk : k < (afterX9 pl cs).length) :
    ∃ q, IsSequence (afterX9 pl cs) q ∧ k ∈ q :=
  Proofs.BidiW.sequence_cover (Proofs.BidiW.para_facts hpl hB).nested (Proofs.BidiW.para_facts hpl hB).kept hk

/-- ... and only in one. -/
theorem c59_once (pl : Nat) (hpl : pl ≤ 126) (cs : List BidiClass) (hB : ∀ c ∈ cs.dropLast, c ≠ .ParagraphSeparator) (q r : List Nat)
    (hq : IsSequence (afterX9 pl cs) q) (hr : IsSequence (afterX9 pl cs) r) (k : Nat) (h1 : k ∈ q) (h2 : k ∈ r) : q = r :=
  Proofs.BidiW.sequence_once (Proofs.BidiW.para_facts hpl hB).nested (Proofs.BidiW.para_facts hpl hB).kept hq hr h1 h2

/-! ## C31 with BD13 and X10 -/

/-- the characters of the runs that X9 does not remove -/
def keptIndices (cs : List BidiClass) (runs : List Run) : List Nat :=
  (runs.flatMap (fun r => List.range' r.start (r.stop - r.start))).filter (fun k => !((cs[k]?).any isRemoved))

theorem keptIndices_eq {cs : List BidiClass} {runs : List Run} (h : ∀ r ∈ runs, r.start < r.stop ∧ r.stop ≤ cs.length) :
    keptIndices cs runs = Proofs.BidiW.liveAt cs (indices runs) := by
  unfold keptIndices Proofs.BidiW.liveAt indices
  apply List.filter_congr
  intro k hk
  have hlt : k < cs.length := Proofs.BidiW.indices_lt h k hk
  rw [List.getElem?_eq_getElem hlt]
  simp [Proofs.BidiW.nr, removed_eq]

/-- **C31, C59.** `isolating_run_sequences`, on the levels of rules X1-X8, finds the isolating run sequences of BD13 with the `sos` and `eos` of
X10, and besides them at most sequences of removed characters. (Missing: isolate initiators directly followed by a removed character, for which the
claim is false, see `c59_not_initiator`.) -/
theorem c59_sequences_partial (pl : Nat) (hpl : pl ≤ 126) (cs : List BidiClass) (hB : ∀ c ∈ cs.dropLast, c ≠ .ParagraphSeparator)
    (hinit : ∀ (k : Nat) c d, cs[k]? = some c → cs[k + 1]? = some d → isInitiator c = true → isRemoved d = false) :
    ∃ levels seqs, levels.length = cs.length ∧ (∀ (k : Nat) l c, (explicit pl cs)[k]? = some (some (l, c)) → levels[k]? = some l) ∧
      isolatingRunSequences pl cs levels = .ok seqs ∧
      (∀ q first last, IsSequence (afterX9 pl cs) q → q.head? = some first → q.getLast? = some last →
        ∃ s ∈ seqs, keptIndices cs s.runs = q.map (posOf (afterX9 pl cs)) ∧ s.sos = sosOf pl (afterX9 pl cs) first ∧ s.eos = eosOf pl (afterX9 pl cs) last) ∧
      ∀ s ∈ seqs, keptIndices cs s.runs = [] ∨ ∃ q, IsSequence (afterX9 pl cs) q ∧ keptIndices cs s.runs = q.map (posOf (afterX9 pl cs)) := by
  have h := Proofs.BidiW.para_facts hpl hB
  have hg : Proofs.BidiW.NoGap cs := fun k c d h1 h2 h3 => by rw [removed_eq]; exact hinit k c d h1 h2 h3
  obtain ⟨seqs, s1, s2, s3, s4⟩ := Proofs.BidiW.para_seqs h hg
  have hk : ∀ s, Proofs.BidiW.SeqFacts pl cs s → keptIndices cs s = (indices (s.map (Proofs.BidiW.keepRun cs))).map (posOf (afterX9 pl cs)) := by
    intro s hs
    rw [keptIndices_eq hs.bound, ← Proofs.BidiW.live_indices hs.bound, List.map_map]
    conv_lhs => rw [← List.map_id (Proofs.BidiW.liveAt cs (indices s))]
    apply List.map_congr_left
    intro k hk
    have hlt : k < cs.length := Proofs.BidiW.indices_lt hs.bound k (List.mem_filter.1 hk).1
    have hr : removed cs[k] = false := by
      have := (List.mem_filter.1 hk).2
      rw [List.getElem?_eq_getElem hlt] at this
      simpa [Proofs.BidiW.nr] using this
    obtain ⟨u, u1, u2, _⟩ := h.get k _ (List.getElem?_eq_getElem hlt) hr
    simp only [id, Function.comp_apply, posOf, u1, Option.map_some, Option.getD_some, u2]
  refine ⟨Proofs.BidiW.lev pl cs, _, h.len1, ?_, seqsC_ok h.len1.symm, ?_, ?_⟩
  · intro k l c hx
    rw [List.getElem?_map, (levelsC_get (t := []) hpl hB hx).1]; rfl
  · intro q first last hq hf hl
    obtain ⟨s, hs, hsf, rfl⟩ := s4 q hq
    obtain ⟨_, b2, b3⟩ := Proofs.BidiW.seq_bounds h hg hsf hf hl
    refine ⟨boundsC pl cs (Proofs.BidiW.lev pl cs) s, by rw [s1]; exact List.mem_map.2 ⟨s, hs, rfl⟩, hk s hsf, b2, b3⟩
  · intro s hs
    rw [s1] at hs
    obtain ⟨s, hs', rfl⟩ := List.mem_map.1 hs
    have hruns : (boundsC pl cs (Proofs.BidiW.lev pl cs) s).runs = s := rfl
    rw [hruns]
    rcases s3 s hs' with ⟨f, fq⟩ | f
    · right; exact ⟨_, fq, hk s f⟩
    · left
      obtain ⟨_, seqs', _, _, _, _, _, h6, h7⟩ := isolating_ok (pl := pl) h.len1.symm
      have : seqsC pl cs (Proofs.BidiW.lev pl cs) = seqs'.map (boundsC pl cs (Proofs.BidiW.lev pl cs)) := by unfold seqsC; rw [h7]
      rw [s1] at this
      have hss : seqs = seqs' := by
        have e := congrArg (List.map IsoSeq.runs) this
        rw [List.map_map, List.map_map, show (IsoSeq.runs ∘ boundsC pl cs (Proofs.BidiW.lev pl cs)) = id from rfl, List.map_id, List.map_id] at e
        exact e
      rw [keptIndices_eq (h6 s (by rw [← hss]; exact hs')), f]

/-! ## C59 -/

/-- **C59, in part.** In a paragraph in which no isolate initiator is directly followed by a removed character, and no removed character by a
neutral, a separator or a terminator of the same level run, `BidiInfo::new` gives every character of an isolating run sequence the level of the
rules W1-W7, N1, N2, I1 and I2, if the sequence is `OnePass` and does not end in terminators that rule W6 makes neutral before an `eos` of the other
direction. (Missing: the other paragraphs and sequences, for which the claim is false, see `c59_not_…`; rule N0, which the program does not have.) -/
theorem c59_levels_partial (text : List Nat) (dflt : Option Nat) (hd : ∀ d, dflt = some d → d ≤ 125) (ps : List (List Nat)) (hps : IsParagraphs bidiClass text ps)
    (i : Nat) (p : List Nat) (hp : ps[i]? = some p) (hinit : NoRemovedAfterInitiator p) (hgap : LettersAfterRemoved dflt p)
    (q : List Nat) (hq : IsSequence (paraKept dflt p) q) (first last l : Nat) (hf : q.head? = some first) (hl : q.getLast? = some last)
    (hlev : levelOf (paraKept dflt p) first = some l) (sos eos : BidiClass) (hsos : sos = sosOf (paraLevel dflt p) (paraKept dflt p) first)
    (heos : eos = eosOf (paraLevel dflt p) (paraKept dflt p) last) (cs : List BidiClass) (hcs : cs = q.map (classOf (paraKept dflt p)))
    (hone : OnePass sos (fun m => Utf.lenUtf8 (p.getD (posOf (paraKept dflt p) (q.getD m 0)) 0)) cs)
    (hend : eos = levelDir l ∨ (numbers sos cs).getLast? ≠ some .EuropeanTerminator) :
    ∀ (m : Nat) k, q[m]? = some k → ∃ c, (resolve sos eos (levelDir l) cs)[m]? = some c ∧ LevelAt text dflt ps i (posOf (paraKept dflt p) k) (Spec.Bidi.implicitLevel l c) := by
  obtain ⟨h1, h2⟩ := expl_at hd hps hp
  subst hsos heos hcs
  have key := Proofs.BidiW.levels_seq (t := p) (pl := paraLevel dflt p) (cs := paraClasses p) h1 h2
    (fun k c d a b e => by rw [removed_eq]; exact hinit k c d a b e)
    (fun j u c a b e f => by rw [Proofs.BidiW.good_eq]; exact hgap j u c a b e (by rw [← removed_eq]; exact f)) hq hf hl hlev
    (Proofs.BidiW.reg_of_onePass (xs := q) (len := fun k => Utf.lenUtf8 (p.getD (posOf (paraKept dflt p) k) 0)) (cl := classOf (paraKept dflt p))
      (by unfold sosOf levelDir; split_ifs <;> simp) (by intro i x hx; simp only [List.getD_eq_getElem?_getD, hx, Option.getD_some]) hone) hend
  intro m k hk
  have hm := congrArg (fun L => L[m]?) key
  simp only [List.getElem?_map, hk, Option.map_some] at hm
  change some _ = Option.map _ (resolve (sosOf (paraLevel dflt p) (paraKept dflt p) first) (eosOf (paraLevel dflt p) (paraKept dflt p) last) (levelDir l) (q.map (classOf (paraKept dflt p))))[m]? at hm
  cases hr : (resolve (sosOf (paraLevel dflt p) (paraKept dflt p) first) (eosOf (paraLevel dflt p) (paraKept dflt p) last) (levelDir l) (q.map (classOf (paraKept dflt p))))[m]? with
  | none => rw [hr] at hm; simp at hm
  | some c =>
    rw [hr] at hm
    simp only [Option.map_some, Option.some.injEq] at hm
    exact ⟨c, rfl, level_at hd hps hp hm⟩

/-- the rules W1-W7, N1, N2, I1, I2, in the isolating run sequences of the paragraph, give the character `k` of the paragraph `p` the level `lv` -/
def RuleLevel (dflt : Option Nat) (p : List Nat) (k lv : Nat) : Prop :=
  ∃ (q : List Nat) (m j first last l : Nat) (c : BidiClass), IsSequence (paraKept dflt p) q ∧ q[m]? = some j ∧ posOf (paraKept dflt p) j = k ∧
    q.head? = some first ∧ q.getLast? = some last ∧ levelOf (paraKept dflt p) first = some l ∧
    (resolve (sosOf (paraLevel dflt p) (paraKept dflt p) first) (eosOf (paraLevel dflt p) (paraKept dflt p) last) (levelDir l)
      (q.map (classOf (paraKept dflt p))))[m]? = some c ∧ lv = Spec.Bidi.implicitLevel l c

theorem mem_initial {c : BidiClass} : ∀ {cs : List BidiClass}, c ∈ initialClasses cs → c ∈ cs ∨ c = .LeftToRightIsolate ∨ c = .RightToLeftIsolate
  | [], h => by simp [initialClasses] at h
  | a :: cs, h => by
    rw [initialClasses] at h
    rcases List.mem_cons.1 h with rfl | h
    · unfold resolveFsi
      split_ifs with ha
      · split
        · simp
        · simp
        · left; simp [ha]
      · left; simp
    · rcases mem_initial h with h | h
      · left; simp [h]
      · right; exact h

/-- **C59, in part.** In a paragraph without removed characters, separators, terminators and marks, every character gets the level of the rules. -/
theorem c59_plain_partial (text : List Nat) (dflt : Option Nat) (hd : ∀ d, dflt = some d → d ≤ 125) (ps : List (List Nat)) (hps : IsParagraphs bidiClass text ps)
    (i : Nat) (p : List Nat) (hp : ps[i]? = some p)
    (hplain : ∀ c ∈ p, isRemoved (bidiClass c) = false ∧ bidiClass c ≠ .NonspacingMark ∧ isSeparatorOrTerminator (bidiClass c) = false)
    (k : Nat) (hk : k < p.length) : ∃ lv, RuleLevel dflt p k lv ∧ LevelAt text dflt ps i k lv := by
  obtain ⟨h1, h2⟩ := expl_at hd hps hp
  have hf := Proofs.BidiW.para_facts (pl := paraLevel dflt p) (cs := paraClasses p) h1 h2
  have hcs : ∀ c ∈ paraClasses p, isRemoved c = false ∧ c ≠ .NonspacingMark ∧ isSeparatorOrTerminator c = false := by
    intro c hc
    rcases mem_initial hc with hc | rfl | rfl
    · obtain ⟨x, hx, rfl⟩ := List.mem_map.1 hc; exact hplain x hx
    · simp [isRemoved, isSeparatorOrTerminator]
    · simp [isRemoved, isSeparatorOrTerminator]
  have hlen : (paraClasses p).length = p.length := by unfold paraClasses; rw [initialClasses_length, List.length_map]
  have hc : (paraClasses p)[k]? = some ((paraClasses p)[k]'(by omega)) := List.getElem?_eq_getElem _
  obtain ⟨u, u1, u2, _⟩ := hf.get k _ hc (by rw [removed_eq]; exact (hcs _ (List.mem_of_getElem? hc)).1)
  obtain ⟨q, hq, hkq⟩ : ∃ q, IsSequence (paraKept dflt p) q ∧ Proofs.BidiW.cnt (paraClasses p) k ∈ q := c59_covered _ h1 _ h2 _ (Proofs.BidiW.lt_of_get u1)
  have hkc : ∀ u ∈ paraKept dflt p, (u.cls = u.orig ∧ u.orig ∈ paraClasses p) ∨ u.cls = .LeftToRight ∨ u.cls = .RightToLeft := Proofs.BidiW.kept_class h1 h2
  obtain ⟨m, hm, hmk⟩ := List.getElem_of_mem hkq
  have hmk' : q[m]? = some (Proofs.BidiW.cnt (paraClasses p) k) := by rw [List.getElem?_eq_getElem hm, hmk]
  have hne : q ≠ [] := hq.1
  obtain ⟨first, hfirst⟩ : ∃ x, q.head? = some x := ⟨_, List.head?_eq_some_head hne⟩
  obtain ⟨last, hlast⟩ : ∃ x, q.getLast? = some x := ⟨_, List.getLast?_eq_some_getLast hne⟩
  have hfl := hq.2.1 first (List.mem_of_mem_head? hfirst)
  have hlev : levelOf (paraKept dflt p) first = some ((paraKept dflt p)[first]'hfl).level := Proofs.BidiW.levelOf_eq (List.getElem?_eq_getElem hfl)
  have hcls : ∀ c ∈ q.map (classOf (paraKept dflt p)), c ≠ .NonspacingMark ∧ isSeparatorOrTerminator c = false := by
    intro c hc
    obtain ⟨j, hj, rfl⟩ := List.mem_map.1 hc
    have hjl := hq.2.1 j hj
    have e : classOf (paraKept dflt p) j = ((paraKept dflt p)[j]'hjl).cls := by
      unfold classOf
      rw [show (paraKept dflt p)[j]? = some ((paraKept dflt p)[j]'hjl) from List.getElem?_eq_getElem hjl]; rfl
    rw [e]
    rcases hkc _ (List.getElem_mem hjl) with hh | hh | hh
    · have := hcs _ hh.2
      rw [← hh.1] at this
      exact this.2
    · rw [hh]; decide
    · rw [hh]; decide
  have key := c59_levels_partial text dflt hd ps hps i p hp
    (fun k c d _ hd' _ => (hcs d (List.mem_of_getElem? hd')).1)
    (fun j u c _ _ hc' hr => by rw [(hcs c (List.mem_of_getElem? hc')).1] at hr; simp at hr)
    q hq first last _ hfirst hlast hlev _ _ rfl rfl _ rfl (Proofs.BidiW.onePass_plain hcls) (.inr (by
      intro hE
      refine Proofs.BidiW.numbers_plain (fun c hc => ⟨(hcls c hc).1, ?_⟩) (List.mem_of_getLast? hE)
      intro e; have := (hcls c hc).2; rw [e] at this; simp [isSeparatorOrTerminator] at this)) m _ hmk'
  obtain ⟨c, k1, k2⟩ := key
  have hpos : posOf (paraKept dflt p) (Proofs.BidiW.cnt (paraClasses p) k) = k := by
    unfold posOf
    rw [show (paraKept dflt p)[Proofs.BidiW.cnt (paraClasses p) k]? = some u from u1]
    exact u2
  rw [hpos] at k2
  exact ⟨_, ⟨q, m, _, first, last, _, c, hq, hmk', hpos, hfirst, hlast, hlev, k1, rfl⟩, k2⟩

/-! ## examples -/

theorem kept_sample {p : List Nat} (h : p.all (fun c => samples.any (fun x => x.1 == c)) = true) (dflt : Option Nat) :
    paraClasses p = initialClasses (p.map sample) ∧ paraLevel dflt p = dflt.getD (paragraphLevel (p.map sample)) ∧
    paraKept dflt p = afterX9 (dflt.getD (paragraphLevel (p.map sample))) (initialClasses (p.map sample)) := by
  have e : p.map bidiClass = p.map sample := List.map_congr_left (sample_ok h)
  unfold paraKept paraClasses paraLevel
  rw [e]
  exact ⟨rfl, rfl, rfl⟩

theorem one_paragraph {p : List Nat} (h : p.all (fun c => samples.any (fun x => x.1 == c)) = true) (hne : p ≠ []) (hB : ∀ c ∈ p.dropLast, sample c ≠ .ParagraphSeparator) :
    IsParagraphs bidiClass p [p] := by
  refine ⟨by simp, ?_, by simp⟩
  intro q hq
  simp at hq; subst hq
  exact ⟨hne, fun c hc => by rw [sample_ok h c (List.dropLast_subset _ hc)]; exact hB c hc⟩

/-- what the rules and the program give for texts of the samples -/
theorem rule_sample {p : List Nat} {dflt : Option Nat} (h : p.all (fun c => samples.any (fun x => x.1 == c)) = true) (us : List Kept) (pl : Nat) (q : List Nat)
    (m j k first last l : Nat) (c : BidiClass) (hpl : dflt.getD (paragraphLevel (p.map sample)) = pl) (hus : afterX9 pl (initialClasses (p.map sample)) = us)
    (hq : Proofs.BidiW.SeqB us q) (h1 : q[m]? = some j) (h2 : posOf us j = k) (h3 : q.head? = some first) (h4 : q.getLast? = some last)
    (h5 : levelOf us first = some l) (h6 : (resolve (sosOf pl us first) (eosOf pl us last) (levelDir l) (q.map (classOf us)))[m]? = some c) :
    RuleLevel dflt p k (Spec.Bidi.implicitLevel l c) := by
  obtain ⟨_, e2, e3⟩ := kept_sample h dflt
  rw [hpl] at e2 e3
  rw [hus] at e3
  exact ⟨q, m, j, first, last, l, c, by rw [e3]; exact Proofs.BidiW.isSequence_of hq, h1, by rw [e3]; exact h2, h3, h4, by rw [e3]; exact h5, by rw [e2, e3]; exact h6, rfl⟩

theorem level_sample {p : List Nat} {dflt : Option Nat} (h : p.all (fun c => samples.any (fun x => x.1 == c)) = true) (k l : Nat)
    (hl : (match BidiInfo.new sample p dflt with | .ok info => info.levels[blen (p.take k)]? | .panic => none) = some l) : LevelAt p dflt [p] 0 k l := by
  unfold LevelAt bidiInfo
  rw [new_sample h]
  cases hn : BidiInfo.new sample p dflt with
  | panic => rw [hn] at hl; simp at hl
  | ok info => rw [hn] at hl; exact ⟨info, p, rfl, rfl, by simpa [blen] using hl⟩

/-- the hypotheses of `c59_levels_partial`, on texts of the samples -/
theorem hyps_sample {p : List Nat} {dflt : Option Nat} (h : p.all (fun c => samples.any (fun x => x.1 == c)) = true) (us : List Kept) (cs : List BidiClass)
    (hcs : initialClasses (p.map sample) = cs) (hus : afterX9 (dflt.getD (paragraphLevel (p.map sample))) cs = us)
    (h1 : ∀ k < cs.length, ∀ c ∈ cs[k]?, ∀ d ∈ cs[k + 1]?, isInitiator c = true → isRemoved d = false)
    (h2 : ∀ j < us.length, ∀ u ∈ us[j]?, 0 < u.pos → ∀ c ∈ cs[u.pos - 1]?, isRemoved c = true → (0 < j ∧ levelOf us (j - 1) ≠ levelOf us j) ∨ isLetterOrNumber u.cls = true) :
    NoRemovedAfterInitiator p ∧ LettersAfterRemoved dflt p ∧ paraKept dflt p = us := by
  obtain ⟨e1, e2, e3⟩ := kept_sample h dflt
  rw [hcs] at e1 e3
  rw [hus] at e3
  refine ⟨?_, ?_, e3⟩
  · unfold NoRemovedAfterInitiator
    rw [e1]
    exact fun k c d a b e => h1 k (Proofs.BidiW.lt_of_get a) c a d b e
  · unfold LettersAfterRemoved
    rw [e1, e3]
    exact fun j u c a b d e => h2 j (Proofs.BidiW.lt_of_get a) u a b c d e

set_option synthInstance.maxSize 2000 in
set_option synthInstance.maxHeartbeats 400000 in
/-- a paragraph with an isolate, an embedding, numbers with separators and terminators, and a mark, and the sequences in it -/
example : ∃ us, IsParagraphs bidiClass [0x61, 0x2067, 0x5D0, 0x31, 0x2C, 0x31, 0x25, 0x2069, 0x202B, 0x5D1, 0x300, 0x202C, 0x62] [[0x61, 0x2067, 0x5D0, 0x31, 0x2C, 0x31, 0x25, 0x2069, 0x202B, 0x5D1, 0x300, 0x202C, 0x62]] ∧
    NoRemovedAfterInitiator [0x61, 0x2067, 0x5D0, 0x31, 0x2C, 0x31, 0x25, 0x2069, 0x202B, 0x5D1, 0x300, 0x202C, 0x62] ∧
    LettersAfterRemoved none [0x61, 0x2067, 0x5D0, 0x31, 0x2C, 0x31, 0x25, 0x2069, 0x202B, 0x5D1, 0x300, 0x202C, 0x62] ∧
    paraKept none [0x61, 0x2067, 0x5D0, 0x31, 0x2C, 0x31, 0x25, 0x2069, 0x202B, 0x5D1, 0x300, 0x202C, 0x62] = us ∧
    IsSequence us [0, 1, 7] ∧ IsSequence us [2, 3, 4, 5, 6] ∧ IsSequence us [8, 9] ∧ IsSequence us [10] ∧
    sosOf 0 us 2 = .RightToLeft ∧ eosOf 0 us 6 = .RightToLeft ∧ levelOf us 2 = some 1 ∧
    [2, 3, 4, 5, 6].map (classOf us) = [.RightToLeft, .EuropeanNumber, .CommonSeparator, .EuropeanNumber, .EuropeanTerminator] ∧
    OnePass .RightToLeft (fun _ => 1) [.RightToLeft, .EuropeanNumber, .CommonSeparator, .EuropeanNumber, .EuropeanTerminator] ∧
    (resolve .RightToLeft .RightToLeft .RightToLeft [.RightToLeft, .EuropeanNumber, .CommonSeparator, .EuropeanNumber, .EuropeanTerminator]).map (Spec.Bidi.implicitLevel 1) = [1, 2, 2, 2, 2] := by
  obtain ⟨h1, h2, h3⟩ := hyps_sample (p := [0x61, 0x2067, 0x5D0, 0x31, 0x2C, 0x31, 0x25, 0x2069, 0x202B, 0x5D1, 0x300, 0x202C, 0x62]) (dflt := none) (by decide) _ _ rfl rfl
    (by decide +kernel) (by decide +kernel)
  refine ⟨_, one_paragraph (by decide) (by simp) (by decide), h1, h2, h3, ?_, ?_, ?_, ?_, by decide +kernel, by decide +kernel, by decide +kernel, by decide +kernel,
    Proofs.BidiW.onePass_of (by decide +kernel), by decide +kernel⟩ <;> exact Proofs.BidiW.isSequence_of (by decide +kernel)

/-- Non-vacuity: prices in Arabic text ("AL 1.5, AL"), and a terminator with a mark after a number, are `OnePass`. -/
example : OnePass .RightToLeft (fun _ => 1) [.ArabicLetter, .EuropeanNumber, .CommonSeparator, .EuropeanNumber, .CommonSeparator, .WhiteSpace, .ArabicLetter] ∧
    OnePass .RightToLeft (fun _ => 1) [.RightToLeft, .EuropeanNumber, .EuropeanTerminator, .NonspacingMark, .CommonSeparator, .WhiteSpace, .EuropeanTerminator, .CommonSeparator, .EuropeanNumber] ∧
    ¬ Proofs.BidiW.OnePassB .RightToLeft (fun _ => 1) [.ArabicLetter, .EuropeanNumber, .EuropeanSeparator, .EuropeanNumber] :=
  ⟨Proofs.BidiW.onePass_of (by decide +kernel), Proofs.BidiW.onePass_of (by decide +kernel), by decide +kernel⟩

/-- W2 comes before W5: in AL ET EN the terminator is not next to a European number, ... -/
theorem c59_not_number : RuleLevel none [0x627, 0x25, 0x31] 1 1 ∧ LevelAt [0x627, 0x25, 0x31] none [[0x627, 0x25, 0x31]] 0 1 2 :=
  ⟨rule_sample (by decide) _ 1 [0, 1, 2] 1 1 1 0 2 1 .RightToLeft (by decide +kernel) rfl (by decide +kernel) rfl (by decide +kernel) rfl rfl (by decide +kernel) (by decide +kernel),
    level_sample (by decide) 1 2 (by decide +kernel)⟩

/-- ... and before W4: in AL EN ES EN the separator is between two Arabic numbers, which it does not join, ... -/
theorem c59_not_separator : RuleLevel none [0x627, 0x31, 0x2B, 0x31] 2 1 ∧ LevelAt [0x627, 0x31, 0x2B, 0x31] none [[0x627, 0x31, 0x2B, 0x31]] 0 2 2 :=
  ⟨rule_sample (by decide) _ 1 [0, 1, 2, 3] 2 2 2 0 3 1 .RightToLeft (by decide +kernel) rfl (by decide +kernel) rfl (by decide +kernel) rfl rfl (by decide +kernel) (by decide +kernel),
    level_sample (by decide) 2 2 (by decide +kernel)⟩

/-- ... W4 knows no bytes: in EN NBSP EN the separator becomes a number, ... -/
theorem c59_not_wide : RuleLevel none [0x5D0, 0x31, 0xA0, 0x31] 2 2 ∧ LevelAt [0x5D0, 0x31, 0xA0, 0x31] none [[0x5D0, 0x31, 0xA0, 0x31]] 0 2 1 :=
  ⟨rule_sample (by decide) _ 1 [0, 1, 2, 3] 2 2 2 0 3 1 .EuropeanNumber (by decide +kernel) rfl (by decide +kernel) rfl (by decide +kernel) rfl rfl (by decide +kernel) (by decide +kernel),
    level_sample (by decide) 2 1 (by decide +kernel)⟩

/-- ... a mark on a terminator is a terminator (W1), ... -/
theorem c59_not_mark : RuleLevel none [0x5D0, 0x25, 0x300, 0x31] 2 2 ∧ LevelAt [0x5D0, 0x25, 0x300, 0x31] none [[0x5D0, 0x25, 0x300, 0x31]] 0 2 1 :=
  ⟨rule_sample (by decide) _ 1 [0, 1, 2, 3] 2 2 2 0 3 1 .EuropeanNumber (by decide +kernel) rfl (by decide +kernel) rfl (by decide +kernel) rfl rfl (by decide +kernel) (by decide +kernel),
    level_sample (by decide) 2 1 (by decide +kernel)⟩

/-- ... W4 comes before W5: in EN ET ES EN the separator is not next to a number, ... -/
theorem c59_not_terminator : RuleLevel none [0x5D0, 0x31, 0x25, 0x2B, 0x31] 3 1 ∧ LevelAt [0x5D0, 0x31, 0x25, 0x2B, 0x31] none [[0x5D0, 0x31, 0x25, 0x2B, 0x31]] 0 3 2 :=
  ⟨rule_sample (by decide) _ 1 [0, 1, 2, 3, 4] 3 3 3 0 4 1 .RightToLeft (by decide +kernel) rfl (by decide +kernel) rfl (by decide +kernel) rfl rfl (by decide +kernel) (by decide +kernel),
    level_sample (by decide) 3 2 (by decide +kernel)⟩

/-- ... a terminator at the end of a sequence is neutral (W6) and takes the direction on both sides (N1), ... -/
theorem c59_not_end : RuleLevel (some 0) [0x5D0, 0x25, 0x202B, 0x5D0] 1 1 ∧ LevelAt [0x5D0, 0x25, 0x202B, 0x5D0] (some 0) [[0x5D0, 0x25, 0x202B, 0x5D0]] 0 1 0 :=
  ⟨rule_sample (by decide) _ 0 [0, 1] 1 1 1 0 1 0 .RightToLeft (by decide +kernel) rfl (by decide +kernel) rfl (by decide +kernel) rfl rfl (by decide +kernel) (by decide +kernel),
    level_sample (by decide) 1 0 (by decide +kernel)⟩

/-- ... a removed character is not there: the space in R BN WS R is between two R, ... -/
theorem c59_not_gap : RuleLevel (some 0) [0x61, 0x5D0, 0xAD, 0x20, 0x5D0] 3 1 ∧ LevelAt [0x61, 0x5D0, 0xAD, 0x20, 0x5D0] (some 0) [[0x61, 0x5D0, 0xAD, 0x20, 0x5D0]] 0 3 0 :=
  ⟨rule_sample (by decide) _ 0 [0, 1, 2, 3] 2 2 3 0 3 0 .RightToLeft (by decide +kernel) rfl (by decide +kernel) rfl (by decide +kernel) rfl rfl (by decide +kernel) (by decide +kernel),
    level_sample (by decide) 3 0 (by decide +kernel)⟩

/-- ... also after an isolate initiator: the sequence goes on at the matching PDI. -/
theorem c59_not_initiator : RuleLevel none [0x61, 0x2067, 0xAD, 0x5D0, 0x2069, 0x5D0] 4 0 ∧
    LevelAt [0x61, 0x2067, 0xAD, 0x5D0, 0x2069, 0x5D0] none [[0x61, 0x2067, 0xAD, 0x5D0, 0x2069, 0x5D0]] 0 4 1 :=
  ⟨rule_sample (by decide) _ 0 [0, 1, 3, 4] 2 3 4 0 4 0 .LeftToRight (by decide +kernel) rfl (by decide +kernel) rfl (by decide +kernel) rfl rfl (by decide +kernel) (by decide +kernel),
    level_sample (by decide) 4 1 (by decide +kernel)⟩

end Props.Bidi
