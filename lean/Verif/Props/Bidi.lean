import Verif.Proofs.BidiData

/-! # Properties C27-C31 and C56: the bidirectional algorithm -/
namespace Props.Bidi
open Model Model.Bidi Data Model.Grapheme Spec.Bidi Proofs.Bidi Proofs.Grapheme
open Model.Ucd (bidiClass)

/-- `BidiInfo::new` with the shipped Bidi_Class; `blen` is `str::len`, the number of bytes -/
abbrev bidiInfo (text : List Nat) (dflt : Option Nat) : Outcome BidiInfo := BidiInfo.new bidiClass text dflt

/-! ## C27 -/

/-- Every text has its paragraphs, ... -/
theorem c27_exists (text : List Nat) : ∃ ps, IsParagraphs bidiClass text ps := ⟨_, splitParas_ok bidiClass text⟩
/-- ... and only these. -/
theorem c27_unique (text : List Nat) (ps qs : List (List Nat)) (hp : IsParagraphs bidiClass text ps) (hq : IsParagraphs bidiClass text qs) : ps = qs := by
  rw [← splitParas_unique hp, ← splitParas_unique hq]

/-- **C27.** The paragraphs of `BidiInfo::new` are the paragraphs of rule P1, in order: the range of each goes from the bytes before it to the
bytes before the next. Their level is the default level, or the level of rules P2 and P3. -/
theorem c27_paragraphs (text : List Nat) (dflt : Option Nat) (hd : ∀ d, dflt = some d → d ≤ 125) (ps : List (List Nat)) (hps : IsParagraphs bidiClass text ps) :
    ∃ info, bidiInfo text dflt = .ok info ∧ info.text = text ∧ info.paras.length = ps.length ∧ ∀ (i : Nat) p, ps[i]? = some p →
      info.paras[i]? = some ⟨⟨blen (ps.take i).flatten, blen (ps.take (i + 1)).flatten⟩, dflt.getD (paragraphLevel (p.map bidiClass))⟩ := by
  refine ⟨_, new_ok fsi_len hd text, rfl, ?_, ?_⟩
  · simp only [infos_length, splitParas_unique hps]
  · intro i p hp
    simp only [splitParas_unique hps, infos_get _ _ _ _ hp, Nat.zero_add]

example : IsParagraphs bidiClass [0x61, 0x2029, 0x2068, 0x5D0] [[0x61, 0x2029], [0x2068, 0x5D0]] := by
  have h := sample_ok (text := [0x61, 0x2029, 0x2068, 0x5D0]) (by decide)
  refine ⟨rfl, ?_, ?_⟩
  · intro p hp
    simp at hp
    rcases hp with rfl | rfl
    · refine ⟨by simp, fun c hc => ?_⟩; simp at hc; subst hc; rw [h _ (by simp)]; decide
    · refine ⟨by simp, fun c hc => ?_⟩; simp at hc; subst hc; rw [h _ (by simp)]; decide
  · intro p hp
    simp at hp; subst hp
    exact ⟨0x2029, rfl, by rw [h _ (by simp)]; decide⟩

/-! ## C28 -/

/-- **C28.** `original_classes` and `levels` have one entry per byte, and all bytes of a character have the same entries; the classes are those
of the characters, where rule X5c has replaced FSI. -/
theorem c28_per_byte (text : List Nat) (dflt : Option Nat) (hd : ∀ d, dflt = some d → d ≤ 125) :
    ∃ info, bidiInfo text dflt = .ok info ∧ info.classes.length = blen text ∧ info.levels.length = blen text ∧
      ∃ ls : List Nat, ls.length = text.length ∧ ∀ (k : Nat) c j, text[k]? = some c → j < Utf.lenUtf8 c →
        info.classes[blen (text.take k) + j]? = (initialClasses (text.map bidiClass))[k]? ∧ info.levels[blen (text.take k) + j]? = ls[k]? := by
  have hc : (initialClasses (text.map bidiClass)).length = text.length := by rw [initialClasses_length, List.length_map]
  have hl := textLevels_length (cls := bidiClass) hd text
  refine ⟨_, new_ok fsi_len hd text, expand_length _ _ hc, expand_length _ _ hl, _, hl, ?_⟩
  intro k c j hk hj
  have hlt : k < text.length := by by_contra hn; rw [List.getElem?_eq_none (by omega)] at hk; simp at hk
  have he : text[k] = c := by rw [List.getElem?_eq_getElem hlt] at hk; simpa using hk
  exact ⟨expand_getElem? text _ k j hc hlt (by rw [he]; exact hj), expand_getElem? text _ k j hl hlt (by rw [he]; exact hj)⟩

/-! ## C29 -/

/-- **C29.** `BidiInfo::new` does not panic for default levels up to 125, and all levels are at most 126. -/
theorem c29_total (text : List Nat) (dflt : Option Nat) (hd : ∀ d, dflt = some d → d ≤ 125) :
    ∃ info, bidiInfo text dflt = .ok info ∧ (∀ l ∈ info.levels, l ≤ 126) ∧ ∀ p ∈ info.paras, p.level ≤ 125 := by
  refine ⟨_, new_ok fsi_len hd text, fun l hl => textLevels_le hd text l (expand_mem _ _ hl), ?_⟩
  intro p hp
  simp only at hp
  obtain ⟨i, hi, rfl⟩ := List.getElem_of_mem hp
  rw [infos_length] at hi
  have := infos_get (cls := bidiClass) (dflt := dflt) (splitParas bidiClass text) 0 i _ (List.getElem?_eq_getElem hi)
  rw [List.getElem?_eq_getElem (by rw [infos_length]; exact hi)] at this
  simp only [Option.some.injEq] at this
  rw [this]
  exact dflt_le hd _

/-- The bound on the default level is needed: `Level::new(126)` is a level, and with it as default a Hebrew letter makes `BidiInfo::new` panic. -/
theorem c29_default_126 : bidiInfo [0x5D0] (some 126) = .panic := by
  rw [bidiInfo, new_sample (by decide)]; decide +kernel

example : ∃ info, bidiInfo [0x202E, 0x61, 0x2067, 0x31, 0x2029, 0x5D0] none = .ok info ∧
    info.levels = [0, 0, 0, 1, 1, 1, 1, 4, 0, 0, 0, 1, 1] := by
  rw [bidiInfo, new_sample (by decide)]
  exact ⟨_, rfl, by decide +kernel⟩

/-! ## C30 -/

/-- one entry per byte from one entry per character -/
def perByte {α : Type} (text : List Nat) (xs : List α) : List α := (List.zipWith (fun c x => List.replicate (Utf.lenUtf8 c) x) text xs).flatten

theorem perByte_eq {α : Type} : ∀ (t : List Nat) (xs : List α), perByte t xs = expand t xs
  | [], xs => by simp [perByte]
  | c :: t, [] => by simp [perByte]
  | c :: t, x :: xs => by rw [expand_cons, ← perByte_eq t xs]; rfl

/-- **C30.** For a paragraph with the classes `cs` (a separator can only be its last character), `compute` gives every character that rule X9
does not remove the level and the class of rules X1-X8. -/
theorem c30_explicit (text : List Nat) (pl : Nat) (hpl : pl ≤ 126) (cs : List BidiClass) (hlen : cs.length = text.length)
    (hB : ∀ c ∈ cs.dropLast, c ≠ .ParagraphSeparator) :
    ∃ (levels : List Nat) (classes : List BidiClass),
      compute text pl (perByte text cs) (List.replicate (blen text) pl) (perByte text cs) = .ok (perByte text levels, perByte text classes) ∧
      levels.length = text.length ∧ classes.length = text.length ∧ (explicit pl cs).length = text.length ∧
      ∀ (k : Nat) l c, (explicit pl cs)[k]? = some (some (l, c)) → levels[k]? = some l ∧ classes[k]? = some c := by
  obtain ⟨_, h2, h3, h4⟩ := explicitL_ok hpl hB
  refine ⟨(explicitL pl cs).map Prod.fst, (explicitL pl cs).map Prod.snd, ?_, by simp [h2, hlen], by simp [h2, hlen], by rw [h3, hlen], ?_⟩
  · simp only [perByte_eq]; exact compute_expand hpl hlen hB
  · intro k l c hx
    obtain ⟨hv, _⟩ := levelsC_get (t := text) hpl hB hx
    simp [List.getElem?_map, hv]

/-- **C30.** The characters without a level in the specification are those of rule X9. -/
theorem c30_removed (pl : Nat) (hpl : pl ≤ 126) (cs : List BidiClass) (hB : ∀ c ∈ cs.dropLast, c ≠ .ParagraphSeparator) (k : Nat) (c : BidiClass)
    (hk : cs[k]? = some c) : (explicit pl cs)[k]? = some none ↔
      c ∈ [BidiClass.RightToLeftEmbedding, .LeftToRightEmbedding, .RightToLeftOverride, .LeftToRightOverride, .PopDirectionalFormat, .BoundaryNeutral] := by
  obtain ⟨_, h2, h3, h4⟩ := explicitL_ok hpl hB
  have hlt : k < cs.length := by by_contra hn; rw [List.getElem?_eq_none (by omega)] at hk; simp at hk
  have := (h4 k c _ _ hk (List.getElem?_eq_getElem (show k < (explicitL pl cs).length by omega)) (List.getElem?_eq_getElem (show k < (explicit pl cs).length by omega))).2.1
  rw [List.getElem?_eq_getElem (show k < (explicit pl cs).length by omega), Option.some.injEq, ← this]
  cases c <;> simp [removed]

/-- **C30.** After any characters of a paragraph the stack of the program holds the entries of the annex; it is not empty and has at most 127
entries, so that it never outgrows the capacity it is created with. -/
theorem c30_stack (pl : Nat) (hpl : pl ≤ 126) (cs : List BidiClass) (hB : ∀ c ∈ cs, c ≠ .ParagraphSeparator) :
    ∃ st, explicitStates pl cs ⟨[⟨pl, .Neutral⟩], 0, 0, 0⟩ = .ok st ∧ 1 ≤ st.stack.length ∧ st.stack.length ≤ 127 ∧
      st.stack.map (fun e => (e.level, e.status = .Isolate)) =
        (cs.foldl (fun s c => (s.step pl c).1) (X.init pl)).stack.map (fun e => (e.level, e.isolate = true)) := by
  obtain ⟨st, h1, h2, h3⟩ := explicitStates_ok cs _ (inv_init hpl) hB
  rw [abs_init] at h3
  obtain ⟨a, b⟩ := inv_stack h2
  refine ⟨st, h1, a, b, ?_⟩
  rw [← h3]
  simp [absState, absEntry]

example : explicit 0 [.RightToLeftOverride, .EuropeanNumber, .LeftToRightIsolate, .RightToLeftEmbedding, .PopDirectionalIsolate, .PopDirectionalFormat, .ArabicLetter] =
    [none, some (1, .RightToLeft), some (1, .RightToLeft), none, some (1, .RightToLeft), none, some (0, .ArabicLetter)] := by decide

/-! ## C31 -/

/-- the runs follow each other from `a` to `b` and are not empty -/
def Tile (a b : Nat) (runs : List Run) : Prop :=
  (∀ r ∈ runs, r.start < r.stop) ∧ (∀ (j : Nat) r, runs[j]? = some r → r.start = (if j = 0 then a else ((runs[j - 1]?).map Run.stop).getD 0)) ∧
    (if runs = [] then a = b else (runs.getLast?).map Run.stop = some b)

theorem tile_of : ∀ {runs : List Run} {a b : Nat}, Tiles a b runs → Tile a b runs
  | [], a, b, h => ⟨by simp, by simp, by simpa [Tiles] using h⟩
  | r :: rs, a, b, ⟨h1, h2, h3⟩ => by
    obtain ⟨i1, i2, i3⟩ := tile_of h3
    refine ⟨?_, ?_, ?_⟩
    · intro x hx
      rcases List.mem_cons.1 hx with rfl | hx
      · exact h2
      · exact i1 x hx
    · intro j x hj
      cases j with
      | zero => simp at hj; subst hj; simpa using h1
      | succ j =>
        rw [List.getElem?_cons_succ] at hj
        have := i2 j x hj
        rw [this]
        cases j with
        | zero => simp
        | succ j => simp
    · cases rs with
      | nil => simp [Tiles] at h3; simp [h3]
      | cons r2 rs =>
        simp only [List.cons_ne_nil, if_false] at i3 ⊢
        rw [List.getLast?_cons_cons]; exact i3

theorem removed_eq (c : BidiClass) : removed c = isRemoved c := by cases c <;> rfl

/-- **C31.** The level runs tile the paragraph. Entries of a run that X9 does not remove have the level of its first entry; a run after the first
starts at an entry that is not removed and has another level than the run before. -/
theorem c31_level_runs (levels : List Nat) (classes : List BidiClass) (h : levels.length = classes.length) :
    ∃ runs, levelRuns levels classes = .ok runs ∧ Tile 0 levels.length runs ∧
      (∀ r ∈ runs, ∀ k, r.start ≤ k → k < r.stop → ∀ c, classes[k]? = some c → isRemoved c = false → levels[k]? = levels[r.start]?) ∧
      ∀ (j : Nat) a b, runs[j]? = some a → runs[j + 1]? = some b →
        levels[a.start]? ≠ levels[b.start]? ∧ ∃ c, classes[b.start]? = some c ∧ isRemoved c = false := by
  simp only [← removed_eq]
  obtain ⟨runs, h1, h2⟩ := levelRuns_tiles h
  refine ⟨runs, h1, tile_of h2, ?_⟩
  unfold levelRuns at h1
  rw [if_neg (by simpa using h)] at h1
  cases levels with
  | nil => cases h1; simp
  | cons l ls =>
    simp only at h1
    cases h1
    have := levelRunsLoop_spec (C := classes) (L := l :: ls) classes.tail ls 1 l 0 (by simp) (by simp) (by simp) h.symm (by omega) (by simp) (by intro k _ h2 _ _ _ h3; omega)
    exact ⟨this.1, this.2.2⟩

/-- **C31.** Every level run is in exactly one isolating run sequence, once. In a sequence, a run that is not the last ends with an isolate
initiator, and a run that is not the first begins with PDI. -/
theorem c31_sequences (pl : Nat) (levels : List Nat) (classes : List BidiClass) (h : levels.length = classes.length) :
    ∃ runs seqs, levelRuns levels classes = .ok runs ∧ isolatingRunSequences pl classes levels = .ok seqs ∧
      ((seqs.map IsoSeq.runs).flatten).Perm runs ∧ ∀ s ∈ seqs, s.runs ≠ [] ∧ ∀ (j : Nat) a b, s.runs[j]? = some a → s.runs[j + 1]? = some b →
        (∃ c, classes[a.stop - 1]? = some c ∧ isInitiator c = true) ∧ classes[b.start]? = some .PopDirectionalIsolate := by
  obtain ⟨runs, seqs, h1, h2, h3, h4, h5, h6, h7⟩ := isolating_ok (pl := pl) h.symm
  have hb : ∀ s, (boundsC pl classes levels s).runs = s := fun s => rfl
  refine ⟨runs, _, h1, h7, ?_, ?_⟩
  · rw [List.map_map, show (IsoSeq.runs ∘ boundsC pl classes levels) = id from rfl, List.map_id]; exact h4
  · intro s hs
    obtain ⟨s', hs', rfl⟩ := List.mem_map.1 hs
    rw [hb]
    refine ⟨h5 s' hs', ?_⟩
    have hch := seqLoop_tied runs [[]] [] seqs (by simp) (by simp) (by simp) h2 s' hs'
    intro j a b ha hb'
    have hj : j + 1 < s'.length := by by_contra hn; rw [List.getElem?_eq_none (by omega)] at hb'; simp at hb'
    have := List.isChain_iff_getElem.1 hch j hj
    rw [List.getElem?_eq_getElem (by omega)] at ha hb'
    simp only [Option.some.injEq] at ha hb'
    rw [ha, hb'] at this
    obtain ⟨⟨c, hc, hi⟩, hp⟩ := this
    exact ⟨⟨c, hc, by cases c <;> simp_all [isIsolate, isInitiator]⟩, hp⟩

example : ∃ seqs, isolatingRunSequences 0 [.LeftToRight, .RightToLeftIsolate, .RightToLeft, .PopDirectionalIsolate] [0, 0, 1, 0] = .ok seqs ∧
    seqs.map IsoSeq.runs = [[⟨2, 3⟩], [⟨0, 2⟩, ⟨3, 4⟩]] := ⟨_, rfl, by decide⟩

/-! ## C56 -/

/-- I1, I2: the level of a character with the final class L, R or AN at the explicit level `l` -/
def finalLevel (l : Nat) : BidiClass → Nat
  | .LeftToRight => if l % 2 = 0 then l else l + 1
  | .ArabicNumber => if l % 2 = 0 then l + 2 else l + 1
  | _ => if l % 2 = 0 then l + 1 else l

/-- the level `BidiInfo::new` gives the character `k` of the paragraph `i` -/
def LevelAt (text : List Nat) (dflt : Option Nat) (ps : List (List Nat)) (i k l : Nat) : Prop :=
  ∃ info p, bidiInfo text dflt = .ok info ∧ ps[i]? = some p ∧ info.levels[blen (ps.take i).flatten + blen (p.take k)]? = some l

/-- the level and class rules X1-X8 give the character `k` of the paragraph `p` -/
def ExplicitAt (dflt : Option Nat) (p : List Nat) (k : Nat) (x : Option (Nat × BidiClass)) : Prop :=
  (explicit (dflt.getD (paragraphLevel (p.map bidiClass))) (initialClasses (p.map bidiClass)))[k]? = some x

theorem level_at {text : List Nat} {dflt : Option Nat} (hd : ∀ d, dflt = some d → d ≤ 125) {ps : List (List Nat)} (hps : IsParagraphs bidiClass text ps)
    {i : Nat} {p : List Nat} (hp : ps[i]? = some p) {k l : Nat} (hl : (paraLevels bidiClass dflt p)[k]? = some l) : LevelAt text dflt ps i k l := by
  have hlen : ∀ q ∈ ps, (paraLevels bidiClass dflt q).length = q.length := fun q hq => paraLevels_length hd (hps.2.1 q hq).2
  have hk : k < p.length := by
    rw [← hlen p (List.mem_of_getElem? hp)]
    by_contra hn; rw [List.getElem?_eq_none (by omega)] at hl; simp at hl
  refine ⟨_, p, new_ok fsi_len hd text, hp, ?_⟩
  have := para_entry hlen hp hk
  simp only [textLevels, splitParas_unique hps]
  rw [← hps.1, this, hl]

theorem expl_at {dflt : Option Nat} (hd : ∀ d, dflt = some d → d ≤ 125) {ps : List (List Nat)} {text : List Nat} (hps : IsParagraphs bidiClass text ps)
    {i : Nat} {p : List Nat} (hp : ps[i]? = some p) :
    dflt.getD (paragraphLevel (p.map bidiClass)) ≤ 126 ∧ ∀ c ∈ (initialClasses (p.map bidiClass)).dropLast, c ≠ .ParagraphSeparator :=
  ⟨le_trans (dflt_le hd _) (by omega), initialClasses_dropLast (map_dropLast' (hps.2.1 p (List.mem_of_getElem? hp)).2)⟩

/-- **C56.** A character whose class after rules X1-X8 is L, R, AL or AN (so also every character under an override) gets the level of rules I1
and I2, where AL counts as R (W3). -/
theorem c56_strong (text : List Nat) (dflt : Option Nat) (hd : ∀ d, dflt = some d → d ≤ 125) (ps : List (List Nat)) (hps : IsParagraphs bidiClass text ps)
    (i : Nat) (p : List Nat) (hp : ps[i]? = some p) (k l : Nat) (c : BidiClass) (hx : ExplicitAt dflt p k (some (l, c)))
    (hc : c ∈ [BidiClass.LeftToRight, .RightToLeft, .ArabicLetter, .ArabicNumber]) : LevelAt text dflt ps i k (finalLevel l c) := by
  obtain ⟨h1, h2⟩ := expl_at hd hps hp
  obtain ⟨hv, r, hr, hl⟩ := levelsC_get (t := p) h1 h2 hx
  have hk : kept c = true := by simp at hc; rcases hc with rfl | rfl | rfl | rfl <;> rfl
  have := resolvedC_keep (t := p) h1 h2 hv hk
  rw [hr] at this
  cases this
  have he : implicitC (w3 c) l = finalLevel l c := by
    unfold implicitC Level.isRtl finalLevel
    by_cases hm : l % 2 = 0
    · have e : (l % 2 == 1) = false := by simp; omega
      simp at hc; rcases hc with rfl | rfl | rfl | rfl <;> simp [w3, hm]
    · have e : l % 2 = 1 := by omega
      simp at hc; rcases hc with rfl | rfl | rfl | rfl <;> simp [w3, e]
  simp only at hl
  rw [he] at hl
  exact level_at hd hps hp hl

/-- **C56.** Every character that is not removed gets its explicit level, raised by at most two. -/
theorem c56_bounds (text : List Nat) (dflt : Option Nat) (hd : ∀ d, dflt = some d → d ≤ 125) (ps : List (List Nat)) (hps : IsParagraphs bidiClass text ps)
    (i : Nat) (p : List Nat) (hp : ps[i]? = some p) (k l : Nat) (c : BidiClass) (hx : ExplicitAt dflt p k (some (l, c))) :
    ∃ m, LevelAt text dflt ps i k m ∧ l ≤ m ∧ m ≤ l + 2 := by
  obtain ⟨h1, h2⟩ := expl_at hd hps hp
  obtain ⟨_, r, _, hl⟩ := levelsC_get (t := p) h1 h2 hx
  exact ⟨_, level_at hd hps hp hl, implicitC_ge r l⟩

/-- **C56.** A character removed by X9 gets the level of the character before it in its paragraph, or the paragraph level. -/
theorem c56_removed (text : List Nat) (dflt : Option Nat) (hd : ∀ d, dflt = some d → d ≤ 125) (ps : List (List Nat)) (hps : IsParagraphs bidiClass text ps)
    (i : Nat) (p : List Nat) (hp : ps[i]? = some p) (k : Nat) (hx : ExplicitAt dflt p k none) :
    ∃ m, LevelAt text dflt ps i k m ∧ (k = 0 → m = dflt.getD (paragraphLevel (p.map bidiClass))) ∧ (0 < k → LevelAt text dflt ps i (k - 1) m) := by
  obtain ⟨h1, h2⟩ := expl_at hd hps hp
  obtain ⟨_, e2, e3, e4⟩ := explicitL_ok h1 h2
  have hlen := levelsC_length (t := p) h1 h2
  unfold ExplicitAt at hx
  generalize hcs : initialClasses (p.map bidiClass) = cs at *
  generalize hpl : dflt.getD (paragraphLevel (p.map bidiClass)) = pl at *
  have hk : k < cs.length := by rw [← e3]; by_contra hn; rw [List.getElem?_eq_none (by omega)] at hx; simp at hx
  have hrem : removed cs[k] = true := (e4 k _ _ _ (List.getElem?_eq_getElem hk) (List.getElem?_eq_getElem (show k < (explicitL pl cs).length by omega)) hx).2.1.2 rfl
  have hlev : paraLevels bidiClass dflt p = levelsC p pl cs := by unfold paraLevels; rw [hcs, hpl]
  have hrl : (resolvedC p pl cs).length = cs.length := by unfold resolvedC; simp [resolveSeqsC_length, e2]
  have hr := assignC_removed (prev := pl) (ls := List.zipWith implicitC (resolvedC p pl cs) ((explicitL pl cs).map Prod.fst)) (by simp [hrl, e2])
    (List.getElem?_eq_getElem hk) hrem
  refine ⟨(levelsC p pl cs)[k]'(by omega), level_at hd hps hp (by rw [hlev]; exact List.getElem?_eq_getElem (by omega)), ?_, ?_⟩
  · intro h0
    subst h0
    rw [if_pos rfl] at hr
    have : (levelsC p pl cs)[0]? = some pl := hr
    rw [List.getElem?_eq_getElem (by omega)] at this
    simpa using this
  · intro h0
    rw [if_neg (by omega)] at hr
    refine level_at hd hps hp ?_
    rw [hlev]
    have : (levelsC p pl cs)[k]? = (levelsC p pl cs)[k - 1]? := hr
    rw [← this]
    exact List.getElem?_eq_getElem (by omega)

end Props.Bidi
