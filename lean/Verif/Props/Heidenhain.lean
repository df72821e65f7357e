import Verif.HeidenhainWrite

/-!
# C94, C95, C96, C97: Heidenhain lines
-/

namespace NC.Props
open NC NC.Gram NC.Hei NC.Spec.Hei

/-! ## C94: what is accepted is read whole, what is written apart is accepted -/

theorem parse_some {p q : Parser} {s : Str} {a : Answer} (h : Hei.parse p s = .ok (q, a)) :
    ∃ G, p.grammar = some G ∧ q = ⟨some (parseWith G s).1⟩ ∧ a = (parseWith G s).2 := by
  unfold Hei.parse at h
  split at h
  · cases h
  · rename_i G hG; cases h; exact ⟨G, hG, rfl, rfl⟩

theorem parseWith_answer (G : Grammar) (s : Str) : (parseWith G s).2 = match phrase s with
    | .accept b => ⟨b, true, none⟩
    | .refuse b at_ => ⟨b, false, some (expectText s at_ [])⟩ := by
  unfold parseWith
  cases h : Hei.phrase s <;> rfl

theorem answer_ok {G : Grammar} {s : Str} (h : (parseWith G s).2.ok = true) :
    phrase s = .accept (parseWith G s).2.words ∧ (parseWith G s).2.message = none := by
  rw [parseWith_answer] at h ⊢
  split at h
  · rename_i b hb; rw [hb]; exact ⟨rfl, rfl⟩
  · cases h

theorem answer_refused {G : Grammar} {s : Str} (h : (parseWith G s).2.ok = false) :
    ∃ x, phrase s = .refuse (parseWith G s).2.words x ∧ (parseWith G s).2.message = some (expectText s x []) := by
  rw [parseWith_answer] at h ⊢
  split at h
  · cases h
  · rename_i b x hb; rw [hb]; exact ⟨x, rfl, rfl⟩

/-- An accepted line consists of the words delivered and of blanks: nothing of it is lost. -/
theorem C94_whole {p q : Parser} {s : Str} {a : Answer} (h : Hei.parse p s = .ok (q, a)) (ok : a.ok = true) :
    Line s a.words := by
  obtain ⟨G, _, _, rfl⟩ := parse_some h
  exact phrase_line (answer_ok ok).1

/-- Words written apart are read as they are written. -/
theorem C94_written {p : Parser} {s : Str} {ws : List Item} (hp : p.grammar.isSome = true) (h : Neat s ws) :
    ∃ q, Hei.parse p s = .ok (q, ⟨ws, true, none⟩) := by
  obtain ⟨G, hG⟩ := Option.isSome_iff_exists.mp hp
  refine ⟨⟨some (parseWith G s).1⟩, ?_⟩
  unfold Hei.parse
  rw [hG]
  dsimp only
  rw [parseWith_answer, phrase_neat h]

/-- The words of an accepted line may be written again: the same words are read. -/
theorem C94_again {p q : Parser} {s : Str} {a : Answer} (h : Hei.parse p s = .ok (q, a)) (ok : a.ok = true) :
    ∃ r, Hei.parse q (write a.words) = .ok (r, a) := by
  obtain ⟨G, _, rfl, rfl⟩ := parse_some h
  obtain ⟨h1, h2⟩ := answer_ok ok
  obtain ⟨r, hr⟩ := C94_written (p := ⟨some (parseWith G s).1⟩) rfl (neat_write h1)
  refine ⟨r, ?_⟩
  rw [hr]
  have : (parseWith G s).2 = ⟨(parseWith G s).2.words, (parseWith G s).2.ok, (parseWith G s).2.message⟩ := rfl
  rw [this, ok, h2]

/-- A word without number. -/
def bare (w : Str) : Item := .general ⟨w, none, none, none, none, none, none⟩

/-- A cycle of the tests. -/
def cycleLine : List Item :=
  [.number 18, .cycle ⟨c!"DEF", some c!"4", some '.', some c!"6"⟩, .general ⟨c!"F", none, none, some c!"100", none, none, none⟩,
   .general ⟨c!"DR", some '+', none, none, none, none, none⟩, .param ⟨200, some '-', c!"2", some '.', some c!"5"⟩,
   .comment ⟨c!"CLEARANCE ", true⟩]

example : (parseWith {} c!"18  CYCL DEF 4.6 F100 DR+ Q200 = -2.5 ;CLEARANCE ~").2 = ⟨cycleLine, true, none⟩ := by decide

example : Line c!"18  CYCL DEF 4.6 F100 DR+ Q200 = -2.5 ;CLEARANCE ~" cycleLine :=
  C94_whole (p := ⟨some {}⟩) (q := _) (a := (parseWith {} c!"18  CYCL DEF 4.6 F100 DR+ Q200 = -2.5 ;CLEARANCE ~").2) rfl
    (by decide)

example : write cycleLine = c!"18 CYCL DEF 4.6 F 100 DR + Q200=-2.5 ;CLEARANCE ~" := by decide

example : Neat c!"18 CYCL DEF 4.6 F 100 DR + Q200=-2.5 ;CLEARANCE ~" cycleLine :=
  (by decide : write cycleLine = c!"18 CYCL DEF 4.6 F 100 DR + Q200=-2.5 ;CLEARANCE ~") ▸
    neat_write (ws := cycleLine) (s := c!"18  CYCL DEF 4.6 F100 DR+ Q200 = -2.5 ;CLEARANCE ~") (by decide)

example : Neat c!"END PGM part MM ;done" [.program ⟨.finish, c!"part", .mm⟩, .comment ⟨c!"done", false⟩] :=
  (by decide : write [.program ⟨.finish, c!"part", .mm⟩, .comment ⟨c!"done", false⟩] = c!"END PGM part MM ;done") ▸
    neat_write (ws := [.program ⟨.finish, c!"part", .mm⟩, .comment ⟨c!"done", false⟩]) (s := c!" END  PGM part   MM ;done")
      (by decide)

/-- Not every number is read as one: the dot of `X.5` becomes part of the word. -/
theorem C94_violated_fraction :
    phrase c!"L X.5" = .accept [bare c!"L", .general ⟨c!"X.", none, none, some c!"5", none, none, none⟩] ∧
      phrase c!"L X0.5" = .accept [bare c!"L", .general ⟨c!"X", none, none, some c!"0", some '.', some c!"5", none⟩] := by
  decide

/-- A negative parameter number comes back as a huge one. -/
theorem C94_violated_id : phrase c!"Q-5 = 1" = .accept [.param ⟨4294967291, none, c!"1", none, none⟩] := by decide

/-! ## C95: the answer depends on the line only -/

/-- Two parsers, whatever they have been used for, give the same answer. -/
theorem C95_history {b b' : Bool} {us us' : List Use} {p p' q q' : Parser} {s : Str} {a a' : Answer}
    (_ : useAll (create b) us = .ok p) (_ : useAll (create b') us' = .ok p')
    (h : Hei.parse p s = .ok (q, a)) (h' : Hei.parse p' s = .ok (q', a')) : a = a' := by
  obtain ⟨G, _, _, rfl⟩ := parse_some h
  obtain ⟨G', _, _, rfl⟩ := parse_some h'
  rw [parseWith_answer, parseWith_answer]

theorem use_ready {p : Parser} (h : p.grammar.isSome = true) (u : Use) : ∃ q, use p u = .ok q ∧ q.grammar.isSome = true := by
  obtain ⟨G, hG⟩ := Option.isSome_iff_exists.mp h
  cases u with
  | parse s => exact ⟨⟨some (parseWith G s).1⟩, by unfold use Hei.parse; rw [hG], rfl⟩
  | settings => exact ⟨_, rfl, rfl⟩
  | transform => exact ⟨p, rfl, h⟩

theorem useAll_ready (us : List Use) {p : Parser} (h : p.grammar.isSome = true) :
    ∃ q, useAll p us = .ok q ∧ q.grammar.isSome = true := by
  induction us generalizing p with
  | nil => exact ⟨p, rfl, h⟩
  | cons u us ih =>
    obtain ⟨q, hq, hq'⟩ := use_ready h u
    obtain ⟨r, hr, hr'⟩ := ih hq'
    exact ⟨r, by unfold useAll; rw [hq]; exact hr, hr'⟩

/-- Calls before the settings of the machine are known are calls of the transformations only. -/
def Patient (us : List Use) : Prop :=
  (∀ u ∈ us, u = Use.transform) ∨ ∃ l r, us = l ++ Use.settings :: r ∧ ∀ u ∈ l, u = Use.transform

theorem useAll_transform (us vs : List Use) (p : Parser) (h : ∀ u ∈ us, u = Use.transform) : useAll p (us ++ vs) = useAll p vs := by
  induction us with
  | nil => rfl
  | cons u us ih =>
    rw [h u (by simp)]
    show useAll p (us ++ vs) = _
    exact ih (fun v hv => h v (by simp [hv]))

/-- A parser made without settings survives exactly the histories that do not parse before
`SetNCSettings`; one made with the flag survives all. -/
theorem C95_safe (us : List Use) :
    (∃ p, useAll (create true) us = .ok p) ∧ ((∃ p, useAll (create false) us = .ok p) ↔ Patient us) := by
  refine ⟨?_, ?_, ?_⟩
  · obtain ⟨q, hq, _⟩ := useAll_ready us (p := create true) rfl
    exact ⟨q, hq⟩
  · intro h
    induction us with
    | nil => exact .inl (fun _ h => by cases h)
    | cons u us ih =>
      cases u with
      | parse s =>
        obtain ⟨p, hp⟩ := h
        have : useAll (create false) (Use.parse s :: us) = .ub := rfl
        rw [this] at hp; cases hp
      | settings => exact .inr ⟨[], us, rfl, fun _ h => by cases h⟩
      | transform =>
        rcases ih h with h | ⟨l, r, e, h⟩
        · exact .inl (fun u hu => by rcases List.mem_cons.mp hu with rfl | hu; rfl; exact h u hu)
        · exact .inr ⟨Use.transform :: l, r, by rw [e]; rfl,
            fun u hu => by rcases List.mem_cons.mp hu with rfl | hu; rfl; exact h u hu⟩
  · rintro (h | ⟨l, r, rfl, h⟩)
    · have := useAll_transform us [] (create false) h
      rw [List.append_nil] at this
      exact ⟨_, this⟩
    · rw [useAll_transform l _ _ h]
      obtain ⟨q, hq, _⟩ := useAll_ready r (p := setNCSettings (create false)) rfl
      exact ⟨q, hq⟩

example : Patient [.transform, .settings, .parse c!"L X5", .transform] := .inr ⟨[.transform], _, rfl, by simp⟩

example : ∃ p q, useAll (create false) [.settings, .parse c!"5 CYCL DEF 3.0", .parse c!"8,2"] = .ok p ∧
    Hei.parse p c!"M30" = .ok (q, ⟨[.general ⟨c!"M", none, none, some c!"30", none, none, none⟩], true, none⟩) :=
  ⟨_, ⟨some (parseWith (parseWith (parseWith {} c!"5 CYCL DEF 3.0").1 c!"8,2").1 c!"M30").1⟩, rfl, by decide⟩

/-- A parser made without settings does not survive its first line. -/
theorem C95_violated_settings (s : Str) : useAll (create false) [.parse s] = .ub := rfl

/-! ## C96: refusals -/

theorem columnFrom_width (s : Str) (w : Nat) :
    columnFrom (w + 1) s = s.foldl (fun w c => if c = '\t' then (w / 4 + 1) * 4 else w + 1) w + 1 := by
  induction s generalizing w with
  | nil => rfl
  | cons c s ih =>
    show columnFrom (if c = '\t' then (w + 1) + (4 - (w + 1 - 1) % 4) else (w + 1) + 1) s = _
    rw [List.foldl_cons]
    by_cases hc : c = '\t'
    · rw [if_pos hc, if_pos hc]
      have : w + 1 + (4 - (w + 1 - 1) % 4) = (w / 4 + 1) * 4 + 1 := by omega
      rw [this]
      exact ih _
    · rw [if_neg hc, if_neg hc]
      exact ih _

/-- A refusal says where: the message gives the column and repeats the text from there on; the
words delivered stand in front of it. -/
theorem C96_position {p q : Parser} {s : Str} {a : Answer} (h : Hei.parse p s = .ok (q, a)) (no : a.ok = false) :
    ∃ f m x, s = f ++ m ++ x ∧ Front f a.words ∧
      a.message = some (c!"1:" ++ natStr (width (f ++ m) + 1) ++ c!": " ++ x) := by
  obtain ⟨G, _, _, rfl⟩ := parse_some h
  obtain ⟨x, h1, h2⟩ := answer_refused no
  obtain ⟨f, m, e, hf⟩ := phrase_refuse h1
  refine ⟨f, m, x, e, hf, ?_⟩
  rw [h2]
  have hb : before s x = f ++ m := by
    unfold before
    rw [e, List.length_append, Nat.add_sub_cancel]
    exact List.take_left
  unfold expectText
  rw [if_pos rfl, List.append_nil, hb]
  have := columnFrom_width (f ++ m) 0
  rw [show (1 : Nat) = 0 + 1 from rfl, this]
  rfl

/-- There is a message exactly if the line is refused. -/
theorem C96_told {p q : Parser} {s : Str} {a : Answer} (h : Hei.parse p s = .ok (q, a)) :
    a.message.isSome = true ↔ a.ok = false := by
  obtain ⟨G, _, _, rfl⟩ := parse_some h
  rw [parseWith_answer]
  split <;> simp

example : (parseWith {} c!"3 L X5 bug,").2 =
    ⟨[.number 3, bare c!"L", .general ⟨c!"X", none, none, some c!"5", none, none, none⟩, bare c!"bug"], false,
      some c!"1:11: ,"⟩ := by decide

example : (parseWith {} c!"\tX5 ,").2.message = some c!"1:8: ," := by decide

/-- A number that is no block number: something else than a blank follows. -/
theorem C96_number {b d x : Str} (hb : Blanks b) (hd : Digits d) (hx : ∀ c u, x = c :: u → ¬ (c = ' ' ∨ c = '\t'))
    (hx' : ∀ c u, x = c :: u → ¬ ('0' ≤ c ∧ c ≤ '9')) (hn : readNat d < 2 ^ 32) : phrase (b ++ d ++ x) = .refuse [] x := by
  have hdx : HeadNot isDig x := fun c u e => by
    by_contra h; exact hx' c u e (isDig_iff.mp (by simpa using h))
  have hsk : skip (b ++ d ++ x) = d ++ x := by
    rw [List.append_assoc, skip_append_blanks hb]
    refine skip_append hd.1 (fun c hc => ?_)
    by_contra hbl
    have := isDig_iff.mpr (hd.2 c hc)
    rcases isBlank_iff.mp (by simpa using hbl) with rfl | rfl <;> simp [isDig] at this
  have hl : lineNumber (d ++ x) = .stop x := by
    unfold lineNumber uint
    rw [optRun_back hd.1 (fun c hc => isDig_iff.mpr (hd.2 c hc)) hdx]
    dsimp only
    rw [if_pos hn]
    cases x with
    | nil => rfl
    | cons c u =>
      dsimp only
      rw [if_neg]
      exact fun h => hx c u rfl (isBlank_iff.mp h)
  unfold Hei.phrase
  rw [hsk, hl]

/-- A line without a word is refused, numbered or not. -/
theorem C96_violated_blank {b : Str} (hb : Blanks b) (n : Nat) (hn : n < 2 ^ 32) :
    phrase b = .refuse [] [] ∧ phrase (natStr n ++ ' ' :: b) = .refuse [.number n] b := by
  constructor
  · unfold Hei.phrase
    rw [skip_all_blanks hb]
    rfl
  · have hl : lineNumber (natStr n ++ ' ' :: b) = .got n b := by
      unfold lineNumber uint
      rw [optRun_back (natStr_ne_nil n) (natStr_isDig n) (headNot_cons (by decide))]
      dsimp only
      rw [readNat_natStr, if_pos hn]
      rfl
    have hsk : skip (natStr n ++ ' ' :: b) = natStr n ++ ' ' :: b := by
      refine skip_append (natStr_ne_nil n) (fun c hc => ?_)
      by_contra hbl
      have := natStr_isDig n c hc
      rcases isBlank_iff.mp (by simpa using hbl) with rfl | rfl <;> simp [isDig] at this
    unfold Hei.phrase
    rw [hsk, hl]
    dsimp only
    unfold rest
    have : ∀ k, items k b = ([], false, b) := by
      intro k
      cases k with
      | zero => rfl
      | succ k => unfold items; rw [item_end (skip_all_blanks hb)]
    rw [this]

theorem item_kept {k x : Str} (hk : Kept k) (hx : ∀ c u, x = c :: u → ¬ (c = ' ' ∨ c = '\t')) :
    item (k ++ x) = .stop x := by
  have hb : blanks1 x = none := by
    cases x with
    | nil => rfl
    | cons c u =>
      unfold blanks1
      dsimp only
      rw [if_neg]
      exact fun h => hx c u rfl (isBlank_iff.mp h)
  rcases hk with rfl | rfl | rfl
  · have : cycleDef (c!"CYCL" ++ x) = .stop x := by unfold cycleDef; rw [lit_back]; dsimp only; rw [hb]; rfl
    unfold item
    rw [show skip (c!"CYCL" ++ x) = c!"CYCL" ++ x from skip_of_not (by decide), this]
    rfl
  · have : startProgram (c!"BEGIN" ++ x) = .stop x := by
      unfold startProgram beginEnd programRest; rw [lit_back]; dsimp only; rw [hb]; rfl
    unfold item
    rw [show skip (c!"BEGIN" ++ x) = c!"BEGIN" ++ x from skip_of_not (by decide), this, cycleDef_fail (by simp)]
    rfl
  · have : startProgram (c!"END" ++ x) = .stop x := by
      unfold startProgram beginEnd programRest; rw [lit_none (by simp), lit_back]; dsimp only; rw [hb]; rfl
    unfold item
    rw [show skip (c!"END" ++ x) = c!"END" ++ x from skip_of_not (by decide), this, cycleDef_fail (by simp)]
    rfl

/-- Every line whose first word merely begins with `CYCL`, `BEGIN` or `END` is refused. -/
theorem C96_violated_kept {k x : Str} (hk : Kept k) (hx : ∀ c u, x = c :: u → ¬ (c = ' ' ∨ c = '\t')) :
    phrase (k ++ x) = .refuse [] x := by
  have hstart : ∃ c u, k = c :: u ∧ isBlank c = false ∧ isDig c = false := by
    rcases hk with rfl | rfl | rfl <;> exact ⟨_, _, rfl, by decide, by decide⟩
  obtain ⟨c, u, e, h1, h2⟩ := hstart
  have hsk : skip (k ++ x) = k ++ x := by rw [e]; exact skip_of_not h1
  have hl : lineNumber (k ++ x) = .fail := by
    unfold lineNumber uint
    rw [optRun_back_none]
    rw [e]
    exact headNot_cons h2
  unfold Hei.phrase
  rw [hsk, hl]
  dsimp only
  unfold rest
  have hlen : ∃ m, (k ++ x).length = m + 1 := ⟨(u ++ x).length, by rw [e]; rfl⟩
  obtain ⟨m, hm⟩ := hlen
  have : items (k ++ x).length (k ++ x) = ([], true, x) := by
    rw [hm]; unfold items; rw [item_kept hk hx]
  rw [this]
  rfl

example : phrase c!"ENDWHILE" = .refuse [] c!"WHILE" := C96_violated_kept (x := c!"WHILE") (.inr (.inr rfl))
  (by intro c u e; cases e; decide)

/-! ## C97: the C interface -/

/-- The flag and the message of a line reach the caller: a refused line leaves a fresh text with
the message, an accepted one leaves the caller's pointer alone; nothing else is touched. -/
theorem C97_verdict_partial {p q : Parser} {s : Str} {a : Answer} (v : Vars) (h : Hei.parse p s = .ok (q, a)) :
    ∃ v', parseValue p s v = .ok (q, a.ok, v') ∧
      (a.ok = true → v'.message = v.message ∧ v'.heap = v.heap) ∧
      (a.ok = false → ∃ m, a.message = some m ∧ v'.message = .addr v.heap.length ∧ v'.heap = v.heap ++ [some (.chars m)]) := by
  refine ⟨_, by unfold parseValue; rw [h], ?_, ?_⟩
  · intro ok
    obtain ⟨G, _, _, rfl⟩ := parse_some h
    rw [(answer_ok ok).2]
    exact ⟨rfl, rfl⟩
  · intro no
    obtain ⟨f, m, x, _, _, hm⟩ := C96_position h no
    refine ⟨_, hm, ?_⟩
    rw [hm]
    unfold fill Wrap.fillMessage
    dsimp only [Option.getD]
    rw [if_neg (by simp)]
    exact ⟨rfl, rfl⟩

example : ∃ q a, Hei.parse (create true) c!"8,2" = .ok (q, a) ∧ a.ok = false := ⟨_, _, rfl, by decide⟩

/-- The words never do: whatever the line, the caller's array and length stay what they were. -/
theorem C97_violated_words (v : Vars) : ∃ p q v', parseValue p c!"L X5" v = .ok (q, true, v') ∧
    (parseWith {} c!"L X5").2.words.length = 2 ∧ v'.value = v.value ∧ v'.length = v.length := by
  refine ⟨create true, _, _, rfl, by decide, rfl, rfl⟩

/-! ## C45 for the enumerations of this parser -/

/-- Names of the enumerators and back. -/
theorem C45_heidenhain : (∀ b, toBeginEnd (beginEndText b) = some b) ∧ (∀ s b, toBeginEnd s = some b → s = beginEndText b) ∧
    (∀ m, toMeasure (measureText m) = some m) ∧ (∀ s m, toMeasure s = some m → s = measureText m) := by
  refine ⟨fun b => by cases b <;> decide, ?_, fun m => by cases m <;> decide, ?_⟩
  · intro s b h
    unfold toBeginEnd at h
    split at h
    · cases h; assumption
    · split at h
      · cases h; assumption
      · cases h
  · intro s m h
    unfold toMeasure at h
    split at h
    · cases h; assumption
    · split at h
      · cases h; assumption
      · cases h

end NC.Props
