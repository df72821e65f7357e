import Verif.RenumberProofs

/-! # C20, C21, C24: renumbering -/

namespace NC.Props
open NC NC.Renumber NC.Spec.Renumber

/-- A grammar with one numbering address `N` (1..99999) and one length address. -/
def sampleNumGrammar : FanucGrammar where
  metric := [(c!"N", ⟨c!"N", 1, 99999, 0, 0, true, .numbering⟩), (c!"X", ⟨c!"X", -999, 999, 0, 999, true, .length⟩)]
  imperial := []

/-- **C20.**  Renumber any list of blocks, starting at `start`.  Block `j` is
unchanged when it is not considered.  Otherwise let `k` be the number of
considered blocks before it: the block is numbered exactly when `k` is a
multiple of the frequency, its number then being the `k / frequency`-th of the
documented sequence (`number`, in closed form), and loses its number
otherwise. -/
theorem C20_sequence (g : FanucGrammar) (s : Settings) (start : Nat) (h : Sane g s start)
    (bs : List Block) (j : Nat) (b : Block) (hb : bs[j]? = some b) :
    let k := (bs.take j).countP (considered (isNumWord g) s.existingOnly)
    let out := (renumberAll g s ⟨start, 0⟩ bs).2
    let p := max 1 s.frequency
    (considered (isNumWord g) s.existingOnly b = false → out[j]? = some b) ∧
    (considered (isNumWord g) s.existingOnly b = true → k % p = 0 →
      ∃ d v, out[j]? = some (.dec d :: body (isNumWord g) b) ∧ d.word = s.word ∧ d.value = some v ∧
        (∀ c ∈ v, isDig c = true) ∧
        readNat v = number start s.step s.maxNumber (restart g s) (k / p) ∧
        v.length = max (columns s.leadingZeroes (highest g s.word))
          (natStr (number start s.step s.maxNumber (restart g s) (k / p))).length) ∧
    (considered (isNumWord g) s.existingOnly b = true → k % p ≠ 0 →
      out[j]? = some (body (isNumWord g) b)) := by
  intro k out p
  have hget : out[j]? = some (renumber g s (stateAt g s start (0 + k)) b).2 := by
    show (renumberAll g s ⟨start, 0⟩ bs).2[j]? = _
    rw [← stateAt_zero g s start]
    exact renumberAll_get h bs 0 j b hb
  rw [Nat.zero_add, renumber_stateAt h k b] at hget
  refine ⟨fun hc => ?_, fun hc hk => ?_, fun hc hk => ?_⟩
  · rw [hget]; simp [hc]
  · have hk' : k % period s = 0 := hk
    rw [hget]
    simp only [hc, if_true, hk']
    have hcnt : (stateAt g s start k).counter = number start s.step s.maxNumber (restart g s) (k / p) := by
      unfold stateAt
      simp only
      rw [(emitted_hit (period_pos s) hk').1]
      rfl
    have ht := counterText_digits g s (stateAt g s start k).counter
    have hl := counterText_length g s (stateAt g s start k).counter
    rw [hcnt] at ht hl
    rw [hcnt]
    generalize counterText g s (number start s.step s.maxNumber (restart g s) (k / p)) = t at *
    rcases b with _ | ⟨a, rest⟩
    · simp [considered] at hc
    rcases a with d | ⟨w, v⟩ | ⟨w, v⟩
    · by_cases h2 : isNumWord g d.word = true
      · exact ⟨{ d with word := s.word, value := some t }, t, by simp [numbered, body, h2], rfl, rfl, ht.1, ht.2, hl⟩
      · exact ⟨{ word := s.word, value := some t }, t, by simp [numbered, body, h2], rfl, rfl, ht.1, ht.2, hl⟩
    · exact ⟨{ word := s.word, value := some t }, t, by simp [numbered, body], rfl, rfl, ht.1, ht.2, hl⟩
    · exact ⟨{ word := s.word, value := some t }, t, by simp [numbered, body], rfl, rfl, ht.1, ht.2, hl⟩
  · have hk' : ¬ k % period s = 0 := hk
    rw [hget]; simp [hc, hk']

example : Sane sampleNumGrammar ⟨c!"N", 10, 2, 9999, false, false⟩ 10 :=
  ⟨by decide, by decide, by decide, by decide, by decide⟩

/-- The block `X5`. -/
def sampleX : Block := [.dec { word := c!"X", value := some c!"5" }]

example : (renumberAll sampleNumGrammar ⟨c!"N", 10, 2, 9999, false, false⟩ ⟨10, 0⟩
      [sampleX, [.chr c!"%" ' '], sampleX, sampleX]).2 =
    [.dec { word := c!"N", value := some (natStr 10) } :: sampleX, [.chr c!"%" ' '], sampleX,
      .dec { word := c!"N", value := some (natStr 20) } :: sampleX] := rfl

/-- **C20, number text.**  A block whose leading number was a plain number (or
absent) ends up with exactly `word` + digits as its first word. -/
theorem C20_plain_number (g : FanucGrammar) (s : Settings) (st : St) (b : Block)
    (hplain : ∀ d rest, b = .dec d :: rest → isNumWord g d.word = true →
      ∃ v, d = { word := d.word, value := some v })
    (hc : considered (isNumWord g) s.existingOnly b = true) (he : emits s st = true) :
    ∃ v, (renumber g s st b).2 = .dec { word := s.word, value := some v } :: body (isNumWord g) b ∧
      (∀ c ∈ v, isDig c = true) ∧ readNat v = st.counter := by
  have ht := counterText_digits g s st.counter
  refine ⟨counterText g s st.counter, ?_, ht.1, ht.2⟩
  rcases b with _ | ⟨a, rest⟩
  · simp [considered] at hc
  rcases a with d | ⟨w, v⟩ | ⟨w, v⟩
  · by_cases h2 : isNumWord g d.word = true
    · obtain ⟨v, hv⟩ := hplain d rest rfl h2
      simp [considered, h2] at hc
      simp only [renumber, hc, if_false, h2, if_true, replaceNumber, he, body]
      rw [hv]
    · simp [considered, h2] at hc
      simp [renumber, hc, h2, insertNumber, he, body]
  · simp [considered] at hc
    simp [renumber, hc, insertNumber, he, body]
  · simp [considered] at hc
    simp [renumber, hc, insertNumber, he, body]

example : considered (isNumWord sampleNumGrammar) false sampleX = true ∧
    emits ⟨c!"N", 10, 2, 9999, false, false⟩ ⟨10, 0⟩ = true := by decide

/-- **C20 fails for macro numbers.**  Renumbering `N#5` keeps the `#`: the
block gets the macro reference `N#1` instead of the number 1. -/
theorem C20_violated_macro_number :
    ∃ (g : FanucGrammar) (s : Settings) (st : St) (b : Block), s.frequency < 2 ∧
      (renumber g s st b).2 =
        [.dec { word := c!"N", mac := some c!"#", value := some (natStr 1) }] :=
  ⟨sampleNumGrammar, ⟨c!"N", 10, 0, 9999, false, false⟩, ⟨1, 0⟩,
    [.dec { word := c!"N", mac := some c!"#", value := some c!"5" }], by decide, rfl⟩

/-- **C21, renumbering.**  Whatever the settings and state, the block after
renumbering is the unchanged block, its body (the block without leading
number), or a word with the numbering address followed by its body. -/
theorem C21_only_number_changes (g : FanucGrammar) (s : Settings) (st : St) (b : Block) :
    (renumber g s st b).2 = b ∨ (renumber g s st b).2 = body (isNumWord g) b ∨
      ∃ d, d.word = s.word ∧ (renumber g s st b).2 = .dec d :: body (isNumWord g) b := by
  rcases renumber_shape g s st b with h | h | ⟨t, h⟩
  · exact Or.inl h
  · exact Or.inr (Or.inl h)
  · right; right
    rw [h]
    rcases b with _ | ⟨a, rest⟩
    · exact ⟨_, rfl, rfl⟩
    rcases a with d | ⟨w, v⟩ | ⟨w, v⟩
    · by_cases h2 : isNumWord g d.word = true
      · exact ⟨{ d with word := s.word, value := some t }, rfl, by simp [numbered, body, h2]⟩
      · exact ⟨{ word := s.word, value := some t }, rfl, by simp [numbered, body, h2]⟩
    · exact ⟨{ word := s.word, value := some t }, rfl, by simp [numbered, body]⟩
    · exact ⟨{ word := s.word, value := some t }, rfl, by simp [numbered, body]⟩

/-- **C21, protected blocks.**  Blocks starting with `%`, `O`, a comment or
`/`, and with "existing only" all blocks without a number, are unchanged and do
not advance the numbering. -/
theorem C21_protected (g : FanucGrammar) (s : Settings) (st : St) (b : Block)
    (h : b = [] ∨ (∃ d rest, b = .dec d :: rest ∧ d.word = c!"/") ∨
      (∃ v rest, b = .chr c!"%" v :: rest) ∨ (∃ v rest, b = .str c!"O" v :: rest) ∨
      (∃ v rest, b = .str c!"(" v :: rest) ∨
      (s.existingOnly = true ∧ body (isNumWord g) b = b)) :
    renumber g s st b = (st, b) := by
  rcases h with rfl | ⟨d, rest, rfl, hd⟩ | ⟨v, rest, rfl⟩ | ⟨v, rest, rfl⟩ | ⟨v, rest, rfl⟩ | ⟨he, hb⟩
  · rfl
  · simp [renumber, hd]
  · simp [renumber]
  · simp [renumber]
  · simp [renumber]
  · rcases b with _ | ⟨a, rest⟩
    · rfl
    rcases a with d | ⟨w, v⟩ | ⟨w, v⟩
    · simp only [renumber]
      split
      · rfl
      · split
        · rename_i h2
          simp only [body, h2, if_true] at hb
          have := congrArg List.length hb
          simp at this
        · simp [he]
    · simp [renumber, he]
    · simp [renumber, he]

example : body (isNumWord sampleNumGrammar) sampleX = sampleX := by decide

/-- **C21, removal.**  Removing numbers drops exactly the leading number word,
if there is one: every other word stays, in order. -/
theorem C21_remove (g : FanucGrammar) (b : Block) :
    (∀ d rest, b = .dec d :: rest → (∃ wg, (d.word, wg) ∈ g.metric ∧ wg.wtype = .numbering) →
      remove g b = rest) ∧
    ((∀ d rest, b = .dec d :: rest → ¬ ∃ wg, (d.word, wg) ∈ g.metric ∧ wg.wtype = .numbering) →
      remove g b = b) := by
  have hiff : ∀ w, isNumWord g w = true ↔ ∃ wg, (w, wg) ∈ g.metric ∧ wg.wtype = .numbering := by
    intro w
    unfold isNumWord numWords
    rw [List.any_eq_true]
    constructor
    · rintro ⟨⟨w', wg⟩, hm, hw⟩
      simp only [beq_iff_eq] at hw
      subst hw
      rw [List.mem_filter] at hm
      exact ⟨wg, hm.1, by simpa using hm.2⟩
    · rintro ⟨wg, hm, ht⟩
      exact ⟨(w, wg), List.mem_filter.mpr ⟨hm, by simpa using ht⟩, by simp⟩
  constructor
  · rintro d rest rfl hn
    simp [remove, (hiff d.word).mpr hn]
  · intro hn
    rcases b with _ | ⟨a, rest⟩
    · rfl
    rcases a with d | ⟨w, v⟩ | ⟨w, v⟩
    · have : isNumWord g d.word ≠ true := fun h => hn d rest rfl ((hiff _).mp h)
      simp [remove, this]
    · rfl
    · rfl

example : remove sampleNumGrammar (.dec { word := c!"N", value := some c!"7" } :: sampleX) = sampleX := by decide

/-- The settings used after splitting by count, tool change, path or time
(AllAttributesParser.cpp:528, 555). -/
def splitSettings : Settings := ⟨c!"N", 1, 0, 0, false, false⟩

/-- The settings used after splitting by text (AllAttributesParser.cpp:485). -/
def textSplitSettings : Settings := ⟨c!"N", 1, 1, 99999, false, false⟩

/-- **C24 fails.**  After a split (other than by text) the numbering maximum is
0, so whatever program is split, and whatever the start value, every
considered block after the first considered one gets the same number. -/
theorem C24_violated (g : FanucGrammar) (start : Nat) (hlow : 0 < restart g splitSettings)
    (hstart : start + 1 < 2 ^ 32) (hr : restart g splitSettings + 1 < 2 ^ 32) (bs : List Block) (j : Nat) (b : Block)
    (hb : bs[j]? = some b) (hc : considered (isNumWord g) false b = true)
    (hprev : 0 < (bs.take j).countP (considered (isNumWord g) false)) :
    ∃ d, (renumberAll g splitSettings ⟨start, 0⟩ bs).2[j]? = some (.dec d :: body (isNumWord g) b) ∧
      d.word = c!"N" ∧ d.value = some (natStr (restart g splitSettings)) := by
  have hbump : ∀ c, c + 1 < 2 ^ 32 → bump g splitSettings c = restart g splitSettings := by
    intro c hc
    unfold bump
    simp only [show splitSettings.step = 1 from rfl, show splitSettings.maxNumber = 0 from rfl]
    rw [Nat.mod_eq_of_lt hc, if_pos (by omega)]
  have hem : ∀ st, emits splitSettings st = true := fun st => rfl
  have htick : ∀ f, tick splitSettings f = f := fun f => rfl
  have htext : ∀ n, counterText g splitSettings n = natStr n := by
    intro n; simp [counterText, splitSettings]
  have hEO : splitSettings.existingOnly = false := rfl
  have hW : splitSettings.word = ['N'] := rfl
  have hstep : ∀ (st : St) (b : Block), renumber g splitSettings st b =
      if considered (isNumWord g) false b then
        (⟨bump g splitSettings st.counter, st.curFreq⟩, numbered (isNumWord g) c!"N" (natStr st.counter) b)
      else (st, b) := by
    intro st b
    rcases b with _ | ⟨a, rest⟩
    · simp [renumber, considered]
    rcases a with d | ⟨w, v⟩ | ⟨w, v⟩
    · by_cases h1 : d.word = ['/']
      · simp [renumber, considered, h1]
      · by_cases h2 : isNumWord g d.word = true
        · simp [renumber, considered, h1, h2, replaceNumber, hem, htick, htext, numbered, hEO, hW]
        · simp [renumber, considered, h1, h2, insertNumber, hem, htick, htext, numbered, hEO, hW]
    · by_cases h4 : w = ['O'] ∨ w = ['(']
      · rcases h4 with h4 | h4 <;> simp [renumber, considered, h4, hEO, hW]
      · have h5 := not_or.mp h4
        simp [renumber, considered, h5.1, h5.2, insertNumber, hem, htick, htext, numbered, hEO, hW]
    · by_cases h4 : w = ['%']
      · simp [renumber, considered, h4, hEO, hW]
      · simp [renumber, considered, h4, insertNumber, hem, htick, htext, numbered, hEO, hW]
  have key : ∀ (bs : List Block) (st : St) (j : Nat) (b : Block), bs[j]? = some b →
      considered (isNumWord g) false b = true → st.counter + 1 < 2 ^ 32 →
      (st.counter = restart g splitSettings ∨ 0 < (bs.take j).countP (considered (isNumWord g) false)) →
      (renumberAll g splitSettings st bs).2[j]? =
        some (numbered (isNumWord g) c!"N" (natStr (restart g splitSettings)) b) := by
    intro bs
    induction bs with
    | nil => intro st j b hb; simp at hb
    | cons a bs ih =>
      intro st j b hb hc hs hor
      cases j with
      | zero =>
        simp at hb; subst hb
        rcases hor with hor | hor
        · simp [renumberAll, hstep, hc, hor]
        · simp at hor
      | succ j =>
        simp only [List.getElem?_cons_succ] at hb
        simp only [renumberAll, List.getElem?_cons_succ]
        by_cases hca : considered (isNumWord g) false a = true
        · apply ih _ _ _ hb hc
          · simp [hstep, hca, hbump _ hs]; omega
          · left; simp [hstep, hca, hbump _ hs]
        · apply ih _ _ _ hb hc
          · simp [hstep, hca]; omega
          · rcases hor with hor | hor
            · left; simp [hstep, hca, hor]
            · right
              simpa [List.take_succ_cons, List.countP_cons, hca] using hor
  rw [key bs ⟨start, 0⟩ j b hb hc hstart (Or.inr hprev)]
  rcases b with _ | ⟨a, rest⟩
  · simp [considered] at hc
  rcases a with d | ⟨w, v⟩ | ⟨w, v⟩
  · by_cases h2 : isNumWord g d.word = true
    · exact ⟨_, by simp only [numbered, body, h2, if_true]; rfl, rfl, rfl⟩
    · exact ⟨_, by simp only [numbered, body, h2, if_false]; rfl, rfl, rfl⟩
  · exact ⟨_, by simp only [numbered, body]; rfl, rfl, rfl⟩
  · exact ⟨_, by simp only [numbered, body]; rfl, rfl, rfl⟩

example : 0 < restart sampleNumGrammar splitSettings ∧ restart sampleNumGrammar splitSettings + 1 < 2 ^ 32 ∧
    0 < ([sampleX, sampleX, sampleX].take 2).countP (considered (isNumWord sampleNumGrammar) false) := by decide

/-- **C24, what does hold.**  After a split by text the numbers of the output
increase strictly by one as long as fewer than 99999 blocks are numbered:
the `k`-th considered block carries `start + k`. -/
theorem C24_text_split_partial (g : FanucGrammar) (start : Nat) (h1 : start ≤ 99999)
    (hlow : restart g textSplitSettings ≤ 99999)
    (bs : List Block) (j : Nat) (b : Block) (hb : bs[j]? = some b)
    (hc : considered (isNumWord g) false b = true)
    (hfew : start + (bs.take j).countP (considered (isNumWord g) false) ≤ 99999) :
    ∃ d v, (renumberAll g textSplitSettings ⟨start, 0⟩ bs).2[j]? = some (.dec d :: body (isNumWord g) b) ∧
      d.word = c!"N" ∧ d.value = some v ∧
      readNat v = start + (bs.take j).countP (considered (isNumWord g) false) := by
  have hs : Sane g textSplitSettings start :=
    ⟨by decide, h1, hlow, by decide, by decide⟩
  obtain ⟨d, v, ho, hw, hv, _, hn, _⟩ := (C20_sequence g textSplitSettings start hs bs j b hb).2.1 hc (Nat.mod_one _)
  refine ⟨d, v, ho, hw, hv, hn.trans ?_⟩
  unfold number
  simp only [show textSplitSettings.step = 1 from rfl, show textSplitSettings.maxNumber = 99999 from rfl,
    show textSplitSettings.existingOnly = false from rfl, show max 1 textSplitSettings.frequency = 1 from rfl,
    Nat.div_one, mul_one]
  rw [if_pos (by omega)]

example : restart sampleNumGrammar textSplitSettings ≤ 99999 := by decide

end NC.Props
