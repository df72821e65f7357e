import Verif.UnitConvProofs

/-! # C16, C17: unit conversion -/

namespace NC.Props
open NC NC.UnitConv NC.Spec.UnitConv

/-- A grammar used in the examples: X (length, three decimals), F (feed, no
decimals), G (code). -/
def sampleConvMap : WordMap :=
  [(c!"X", ⟨c!"X", -9999, 9999, 0, 999, true, .length⟩), (c!"F", ⟨c!"F", 0, 9999, 0, 0, true, .feed⟩),
   (c!"I", ⟨c!"I", -9999, 9999, 0, 999, true, .length⟩), (c!"G", ⟨c!"G", 0, 999, 0, 9, false, .code⟩)]

/-- The grammar with the same words for both units. -/
def sampleConvGrammar : FanucGrammar := ⟨sampleConvMap, sampleConvMap⟩

/-- The blocks `G1 X25.4`, `G4 X25.4`. -/
def sampleConvBlock (g : Str) : Block :=
  [.dec { word := c!"G", value := some g },
   .dec { word := c!"X", value := some c!"25", dot := some '.', value2 := some c!"4" }]

private theorem effect_of {g : FanucGrammar} {dir : Dir} {b out : Block} (h : convert g dir b = .ok out)
    {i : Nat} {d : Dec} (hi : b[i]? = some (.dec d)) :
    ∃ d', out[i]? = some (.dec d') ∧ Effect (convWords (targetGrammar g dir)) dir (b.take i) d d' := by
  obtain ⟨_, h2⟩ := convertFrom_ok b [] {} out inv_nil h
  obtain ⟨a', h3, _, h5⟩ := h2 i _ hi
  obtain ⟨d', h6, h7⟩ := h5 d rfl
  subst h6
  exact ⟨d', h3, by simpa using h7⟩

private theorem convertWord_frame {cw : WordMap} {dir : Dir} {d d' : Dec} (h : convertWord cw dir d = .ok d') :
    ∃ v o v2, d' = { d with value := v, dot := o, value2 := v2 } := by
  unfold convertWord at h
  split at h
  · simp at h; subst h; exact ⟨_, _, _, rfl⟩
  · rw [Out.bind_eq_ok] at h
    obtain ⟨q, _, h⟩ := h
    simp at h; subst h
    unfold store
    split
    · exact ⟨_, _, _, rfl⟩
    · exact ⟨_, _, _, rfl⟩

/-- **C16, structure.**  Converting a block keeps the number and order of its
words; only the digits of decimal words may change: address, sign, brackets,
macro and assignment marks stay, and other words are identical. -/
theorem C16_structure (g : FanucGrammar) (dir : Dir) (b out : Block) (h : convert g dir b = .ok out) :
    out.length = b.length ∧
    (∀ (i : Nat) (a : Attr), b[i]? = some a → (∀ d, a ≠ .dec d) → out[i]? = some a) ∧
    (∀ (i : Nat) (d : Dec), b[i]? = some (.dec d) →
      ∃ v o v2, out[i]? = some (.dec { d with value := v, dot := o, value2 := v2 })) := by
  obtain ⟨h1, h2⟩ := convertFrom_ok b [] {} out inv_nil h
  refine ⟨h1, ?_, ?_⟩
  · intro i a ha hnd
    obtain ⟨a', h3, h4, _⟩ := h2 i a ha
    rw [h3, h4 hnd]
  · intro i d hd
    obtain ⟨d', h3, h4⟩ := effect_of h hd
    rw [h3]
    rcases h4 with ⟨_, h⟩ | ⟨_, _, h⟩ | ⟨_, _, _, _, h⟩ | ⟨_, _, _, _, h⟩ | ⟨_, _, h⟩ | ⟨_, _, _, _, _, _, _, h⟩ |
      ⟨_, _, _, _, _, _, h⟩
    · exact ⟨d.value, d.dot, d.value2, by rw [h]⟩
    · exact ⟨d.value, d.dot, d.value2, by rw [h]⟩
    · exact ⟨some c!"21", d.dot, d.value2, by rw [h]⟩
    · exact ⟨some c!"20", d.dot, d.value2, by rw [h]⟩
    · exact ⟨d.value, d.dot, d.value2, by rw [h]⟩
    · exact ⟨d.value, d.dot, d.value2, by rw [h]⟩
    · obtain ⟨v, o, v2, e⟩ := convertWord_frame h
      exact ⟨v, o, v2, by rw [e]⟩

/-- The addresses and decimals of the unit that is converted to. -/
def wordsOf (g : FanucGrammar) (dir : Dir) : WordMap := if dir = .metricToImperial then g.imperial else g.metric

theorem wordsOf_eq (g : FanucGrammar) (dir : Dir) : wordsOf g dir = targetGrammar g dir := by
  cases dir <;> rfl

/-- **C16, untouched words.**  A word is unchanged when it is the leading `/`
or follows it, when it is a dwell `G4` or follows it, when it has a macro or
bracket, when it is a G68 or is one of I, J, K, R after a G68, or when its
address is not a length or feed (apart from the G20/G21 switch itself). -/
theorem C16_untouched (g : FanucGrammar) (dir : Dir) (hn : ((wordsOf g dir).map Prod.fst).Nodup)
    (b out : Block) (h : convert g dir b = .ok out) (i : Nat) (d : Dec) (hi : b[i]? = some (.dec d))
    (hu : Skipped (b.take i ++ [.dec d]) ∨ ¬ Plain d ∨ IsG68 d ∨
      (Rotating (b.take i) ∧ d.word ∈ [c!"I", c!"J", c!"K", c!"R"]) ∨
      ((¬ ∃ wg, Dimensional (wordsOf g dir) d.word wg) ∧
        ¬ (dir = .imperialToMetric ∧ gCode d = some 20) ∧ ¬ (dir = .metricToImperial ∧ gCode d = some 21))) :
    out[i]? = some (.dec d) := by
  rw [wordsOf_eq] at *
  obtain ⟨d', h3, h4⟩ := effect_of h hi
  rw [h3]
  congr 2
  rcases h4 with ⟨_, h⟩ | ⟨_, _, h⟩ | ⟨h1, h2, h5, h6, h⟩ | ⟨h1, h2, h5, h6, h⟩ | ⟨_, _, h⟩ |
    ⟨_, _, _, _, _, _, _, h⟩ | ⟨h1, h2, h5, h6, h7, h8, h⟩
  · exact h
  · exact h
  · exfalso
    have hw : d.word = ['G'] := by
      by_contra hc
      unfold gCode at h6
      rw [if_neg hc] at h6
      simp at h6
    rcases hu with hu | hu | hu | ⟨_, hu⟩ | ⟨_, hu, _⟩
    · exact h1 hu
    · exact hu h2
    · have := hu.2.1; rw [h6] at this; simp at this
    · rw [hw] at hu; revert hu; decide
    · exact hu ⟨h5, h6⟩
  · exfalso
    have hw : d.word = ['G'] := by
      by_contra hc
      unfold gCode at h6
      rw [if_neg hc] at h6
      simp at h6
    rcases hu with hu | hu | hu | ⟨_, hu⟩ | ⟨_, _, hu⟩
    · exact h1 hu
    · exact hu h2
    · have := hu.2.1; rw [h6] at this; simp at this
    · rw [hw] at hu; revert hu; decide
    · exact hu ⟨h5, h6⟩
  · exact h
  · exact h
  · rcases hu with hu | hu | hu | hu | ⟨hu, _, _⟩
    · exact absurd hu h1
    · exact absurd h2 hu
    · exact absurd hu h5
    · exact absurd hu h8
    · unfold convertWord at h
      split at h
      · simpa using h.symm
      · rename_i wg hf
        exact absurd ⟨wg, (convWords_find hn _ _).mp hf⟩ hu

/-- The example block really is converted, and the dwell block is not. -/
example : convert sampleConvGrammar .metricToImperial (sampleConvBlock c!"4") = .ok (sampleConvBlock c!"4") := by
  decide +kernel

example : ((targetGrammar sampleConvGrammar .metricToImperial).map Prod.fst).Nodup := by decide

/-- **C16, the switch.**  Outside skipped parts a plain `G20` becomes `G21`
when converting to metric, and `G21` becomes `G20` when converting to
imperial. -/
theorem C16_switch (g : FanucGrammar) (dir : Dir)
    (b out : Block) (h : convert g dir b = .ok out) (i : Nat) (d : Dec) (hi : b[i]? = some (.dec d))
    (hs : ¬ Skipped (b.take i ++ [.dec d])) (hp : Plain d) :
    (dir = .imperialToMetric → gCode d = some 20 → out[i]? = some (.dec { d with value := some c!"21" })) ∧
    (dir = .metricToImperial → gCode d = some 21 → out[i]? = some (.dec { d with value := some c!"20" })) := by
  obtain ⟨d', h3, h4⟩ := effect_of h hi
  rw [h3]
  constructor
  · intro hd hg
    rcases h4 with ⟨h1, _⟩ | ⟨_, h1, _⟩ | ⟨_, _, _, _, h⟩ | ⟨_, _, h5, _, h⟩ | ⟨_, h1, _⟩ |
      ⟨_, _, _, h1, _⟩ | ⟨_, _, _, h1, _⟩
    · exact absurd h1 hs
    · exact absurd hp h1
    · rw [h]
    · rw [hd] at h5; simp at h5
    · have := h1.2.1; rw [hg] at this; simp at this
    · exact absurd ⟨hd, hg⟩ h1
    · exact absurd ⟨hd, hg⟩ h1
  · intro hd hg
    rcases h4 with ⟨h1, _⟩ | ⟨_, h1, _⟩ | ⟨_, _, h5, _, h⟩ | ⟨_, _, _, _, h⟩ | ⟨_, h1, _⟩ |
      ⟨_, _, _, _, h1, _⟩ | ⟨_, _, _, _, h1, _⟩
    · exact absurd h1 hs
    · exact absurd hp h1
    · rw [hd] at h5; simp at h5
    · rw [h]
    · have := h1.2.1; rw [hg] at this; simp at this
    · exact absurd ⟨hd, hg⟩ h1
    · exact absurd ⟨hd, hg⟩ h1

example : gCode { word := c!"G", value := some c!"20" } = some 20 ∧
    Plain { word := c!"G", value := some c!"20" } :=
  ⟨by decide, rfl, rfl, rfl⟩

/-- **C16 fails for words before a dwell.**  In `X25.4 G4` the dwell time X is
converted as if it were a length. -/
theorem C16_violated_before_dwell :
    ∃ (g : FanucGrammar) (b out : Block), (∃ d, Attr.dec d ∈ b ∧ gCode d = some 4) ∧
      convert g .metricToImperial b = .ok out ∧ out ≠ b :=
  ⟨sampleConvGrammar,
    [.dec { word := c!"X", value := some c!"25", dot := some '.', value2 := some c!"4" },
     .dec { word := c!"G", value := some c!"4" }],
    [.dec { word := c!"X", value := some c!"1" }, .dec { word := c!"G", value := some c!"4" }],
    ⟨{ word := c!"G", value := some c!"4" }, by decide, by decide⟩, by decide +kernel, by decide⟩

/-- The number of decimals printed for a word: the number of digits of its
largest allowed decimal part. -/
def decimals (wg : WordGrammar) : Nat := (natStr wg.decTo).length

/-- The exact conversion. -/
def exactConv : Dir → ℚ → ℚ
  | .metricToImperial, q => q / (254 / 10)
  | .imperialToMetric, q => q * (254 / 10)

/-- **C17 (addresses with decimals).**  A length or feed word that is not
excluded by C16 and denotes the number `q` is replaced by a word denoting a
number within half a unit of the last printed decimal of the exact conversion
of `q`, printed with at most that many decimals.  Missing: addresses without
decimals, where the claim is false (`C17_violated`). -/
theorem C17_accuracy_partial (g : FanucGrammar) (dir : Dir) (hn : ((wordsOf g dir).map Prod.fst).Nodup)
    (b out : Block) (h : convert g dir b = .ok out) (i : Nat) (d : Dec) (hi : b[i]? = some (.dec d))
    (wg : WordGrammar) (hd : Dimensional (wordsOf g dir) d.word wg) (hdec : 0 < wg.decTo)
    (hs : ¬ Skipped (b.take i ++ [.dec d])) (hp : Plain d) (hG : d.word ≠ c!"G")
    (hr : ¬ (Rotating (b.take i) ∧ d.word ∈ [c!"I", c!"J", c!"K", c!"R"]))
    (q : ℚ) (hq : Denotes d q) :
    ∃ d' q', out[i]? = some (.dec d') ∧ Denotes d' q' ∧
      |q' - exactConv dir q| ≤ 1 / 2 / 10 ^ decimals wg ∧
      d'.word = d.word ∧ d'.sign = d.sign ∧ (∀ v, d'.value2 = some v → v.length ≤ decimals wg) := by
  rw [wordsOf_eq] at *
  obtain ⟨d', h3, h4⟩ := effect_of h hi
  have hng : ∀ n, gCode d ≠ some n := by
    intro n hh
    unfold gCode at hh
    rw [if_neg hG] at hh
    simp at hh
  have hconv : convertWord (convWords (targetGrammar g dir)) dir d = .ok d' := by
    rcases h4 with ⟨h1, _⟩ | ⟨_, h1, _⟩ | ⟨_, _, _, h1, h⟩ | ⟨_, _, _, h1, h⟩ | ⟨_, h1, _⟩ |
      ⟨_, _, _, _, _, h1, h2, _⟩ | ⟨_, _, _, _, _, _, h⟩
    · exact absurd h1 hs
    · exact absurd hp h1
    · exact absurd h1 (hng _)
    · exact absurd h1 (hng _)
    · exact absurd h1.2.1 (hng _)
    · exact absurd ⟨h1, h2⟩ hr
    · exact h
  have hprec : precision wg = decimals wg := by simp [precision, hdec, decimals]
  have hpos : 0 < decimals wg := List.length_pos_iff.mpr (natStr_ne_nil _)
  have hfac : factor dir q = exactConv dir q := by cases dir <;> rfl
  have hq0 := factor_nonneg (dir := dir) hq.nonneg
  unfold convertWord at hconv
  rw [(convWords_find hn d.word wg).mpr hd] at hconv
  simp only [stod_valueText hq, Out.bind_ok, Out.pure_eq, Out.ok.injEq, hprec] at hconv
  obtain ⟨ip, fp, e1, e2, e3, e4, e5, e6⟩ := numberText_nonneg hpos hq0
  rw [e5] at hconv
  obtain ⟨s1, s2⟩ := store_number d e1 e2 e3
  rw [hconv] at s1 s2
  refine ⟨d', _, h3, s1, ?_, by rw [s2], by rw [s2], ?_⟩
  · rw [e6, ← hfac]
    have := fixed_near (decimals wg) (factor dir q)
    have hneg : decide (factor dir q < 0) = false := by simpa using hq0
    rw [hneg] at this
    simpa [signed] using this
  · intro v hv
    rw [s2] at hv
    simp only at hv
    split at hv
    · simp at hv
    · simp at hv; rw [← hv]; exact e4

example : Denotes { word := c!"X", value := some c!"25", dot := some '.', value2 := some c!"4" } (254 / 10) :=
  ⟨c!"25", c!"4", by decide, by decide, Or.inr rfl, Or.inr ⟨rfl, Or.inr rfl, Or.inl (by decide)⟩, by
    rw [show readNat c!"25" = 25 by decide, show readNat c!"4" = 4 by decide]; norm_num⟩

example : convert sampleConvGrammar .metricToImperial (sampleConvBlock c!"1") =
    .ok [.dec { word := c!"G", value := some c!"1" }, .dec { word := c!"X", value := some c!"1" }] := by
  decide +kernel

/-- **C17 fails without decimals.**  A feed of 2540 mm/min on an address
without decimals becomes `F1` instead of `F100`: the zeros of the integer are
trimmed. -/
theorem C17_violated :
    ∃ (g : FanucGrammar) (b out : Block) (d d' : Dec) (q q' : ℚ),
      convert g .metricToImperial b = .ok out ∧ b[0]? = some (.dec d) ∧ out[0]? = some (.dec d') ∧
      Denotes d q ∧ Denotes d' q' ∧ exactConv .metricToImperial q = 100 ∧ q' = 1 :=
  ⟨sampleConvGrammar, [.dec { word := c!"F", value := some c!"2540" }],
    [.dec { word := c!"F", value := some c!"1" }],
    { word := c!"F", value := some c!"2540" }, { word := c!"F", value := some c!"1" }, 2540, 1,
    by decide +kernel, rfl, rfl,
    ⟨c!"2540", [], by decide, by decide, Or.inr rfl, Or.inl ⟨rfl, rfl, rfl, by decide⟩, by
      rw [show readNat c!"2540" = 2540 by decide, show readNat [] = 0 by decide]; norm_num⟩,
    ⟨c!"1", [], by decide, by decide, Or.inr rfl, Or.inl ⟨rfl, rfl, rfl, by decide⟩, by
      rw [show readNat c!"1" = 1 by decide, show readNat [] = 0 by decide]; norm_num⟩,
    by norm_num [exactConv], rfl⟩

end NC.Props
