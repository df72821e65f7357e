import Verif.PipelineProofs
import Verif.PipeDemo
import Verif.Props.RoundTrip

/-!
# C38, C39, C46: checking a line
-/

namespace NC.Props
open NC NC.Message NC.Gram NC.Ver NC.Pipe NC.Spec.Units

/-! ## C46 -/

/-- What C46 asks for. -/
def translated (z : Zero) (a : Str) (v : ℚ) : ℚ :=
  if a = c!"X" then v - z.x else if a = c!"Y" then v - z.y else if a = c!"Z" then v - z.z else v

/-- What happens instead: a linear axis gets the coordinate of the zero point, unless the
configured coordinate is 1; another axis must have the coordinate 0. -/
def replaced (z : Zero) (a : Str) (v : ℚ) : Option ℚ :=
  if a = c!"X" then some (if v = 1 then 0 else z.x)
  else if a = c!"Y" then some (if v = 1 then 0 else z.y)
  else if a = c!"Z" then some (if v = 1 then 0 else z.z)
  else if v = 0 then some 0 else none

theorem zeroPoint_eq (z : Zero) (a : Str) (v : ℚ) :
    zeroPoint z a v = match replaced z a v with
      | some x => .ok x
      | none => .throw .outOfRange := by
  unfold replaced
  by_cases hx : a = c!"X"
  · subst hx
    rw [if_pos rfl]
    have h1 : zeroCount z c!"X" = 1 := by rfl
    have h2 : zeroAt z c!"X" = .ok z.x := by rfl
    unfold zeroPoint
    rw [h1, h2]
    by_cases hv : v = 1
    · subst hv; simp
    · rw [if_pos (sub_ne_zero.mpr hv), if_neg hv]
  rw [if_neg hx]
  by_cases hy : a = c!"Y"
  · subst hy
    rw [if_pos rfl]
    have h1 : zeroCount z c!"Y" = 1 := by rfl
    have h2 : zeroAt z c!"Y" = .ok z.y := by rfl
    unfold zeroPoint
    rw [h1, h2]
    by_cases hv : v = 1
    · subst hv; simp
    · rw [if_pos (sub_ne_zero.mpr hv), if_neg hv]
  rw [if_neg hy]
  by_cases hz : a = c!"Z"
  · subst hz
    rw [if_pos rfl]
    have h1 : zeroCount z c!"Z" = 1 := by rfl
    have h2 : zeroAt z c!"Z" = .ok z.z := by rfl
    unfold zeroPoint
    rw [h1, h2]
    by_cases hv : v = 1
    · subst hv; simp
    · rw [if_pos (sub_ne_zero.mpr hv), if_neg hv]
  rw [if_neg hz]
  have e : ∀ b : Str, a ≠ b → (b == a) = false := fun b hb => by simpa using fun h => hb h.symm
  have h1 : zeroCount z a = 0 := by
    unfold zeroCount zeroAxes
    simp [e _ hx, e _ hy, e _ hz]
  have h2 : zeroAt z a = .throw .outOfRange := by
    unfold zeroAt zeroAxes
    simp [List.find?, e _ hx, e _ hy, e _ hz]
  unfold zeroPoint
  rw [h1, h2, sub_zero]
  by_cases hv : v = 0
  · subst hv; simp
  · rw [if_pos hv, if_neg hv]

theorem zeroPoints_ok {z : Zero} {m m' : AttrPath.VMap ℚ} :
    zeroPoints z m = .ok m' ↔ List.Forall₂ (fun e e' => e'.1 = e.1 ∧ replaced z e.1 e.2 = some e'.2) m m' := by
  induction m generalizing m' with
  | nil =>
    constructor
    · intro h
      have := Out.ok.inj h
      subst this; exact .nil
    · intro h; cases h; rfl
  | cons e m ih =>
    obtain ⟨a, v⟩ := e
    have step : zeroPoints z ((a, v) :: m) = (zeroPoint z a v >>= fun x => zeroPoints z m >>= fun r => .ok ((a, x) :: r)) := rfl
    rw [step, zeroPoint_eq]
    cases hr : replaced z a v with
    | none =>
      constructor
      · intro h; cases h
      · intro h
        cases h with
        | cons h _ => rw [hr] at h; cases h.2
    | some x =>
      dsimp only
      constructor
      · intro h
        cases hm : zeroPoints z m with
        | ok r =>
          rw [hm] at h
          have := Out.ok.inj h
          subst this
          exact .cons ⟨rfl, hr⟩ (ih.mp hm)
        | throw _ => rw [hm] at h; cases h
        | ub => rw [hm] at h; cases h
      · intro h
        cases h with
        | @cons _ b _ t h1 h2 =>
          obtain ⟨h3, h4⟩ := h1
          rw [ih.mpr h2]
          rw [hr] at h4
          cases h4
          obtain ⟨c, y⟩ := b
          dsimp only at h3
          subst h3
          rfl

/-- C46 (partial: it says what the points become, which is rarely what C46 asks
for): configuring succeeds exactly when the coordinates of all axes but X, Y, Z are 0;
then every coordinate of X, Y, Z but 1 becomes that of the zero point, and 1 becomes 0. -/
theorem C46_points_partial (S S' : Setup) : configure S = .ok S' ↔
    ∃ e b, List.Forall₂ (fun e e' => e'.1 = e.1 ∧ replaced S.zero e.1 e.2 = some e'.2) S.cfg.exchange e ∧
      List.Forall₂ (fun e e' => e'.1 = e.1 ∧ replaced S.zero e.1 e.2 = some e'.2) S.cfg.base b ∧
      S' = { S with cfg := { S.cfg with exchange := e, base := b } } := by
  have step : configure S = (zeroPoints S.zero S.cfg.exchange >>= fun e => zeroPoints S.zero S.cfg.base >>= fun b =>
      .ok { S with cfg := { S.cfg with exchange := e, base := b } }) := rfl
  rw [step]
  constructor
  · intro h
    cases he : zeroPoints S.zero S.cfg.exchange with
    | ok e =>
      rw [he] at h
      cases hb : zeroPoints S.zero S.cfg.base with
      | ok b =>
        have h' : (zeroPoints S.zero S.cfg.base >>= fun b => .ok { S with cfg := { S.cfg with exchange := e, base := b } }) = .ok S' := h
        rw [hb] at h'
        exact ⟨e, b, zeroPoints_ok.mp he, zeroPoints_ok.mp hb, (Out.ok.inj h').symm⟩
      | throw _ =>
        have h' : (zeroPoints S.zero S.cfg.base >>= fun b => .ok { S with cfg := { S.cfg with exchange := e, base := b } }) = .ok S' := h
        rw [hb] at h'; cases h'
      | ub =>
        have h' : (zeroPoints S.zero S.cfg.base >>= fun b => .ok { S with cfg := { S.cfg with exchange := e, base := b } }) = .ok S' := h
        rw [hb] at h'; cases h'
    | throw _ => rw [he] at h; cases h
    | ub => rw [he] at h; cases h
  · rintro ⟨e, b, he, hb, rfl⟩
    rw [zeroPoints_ok.mpr he, zeroPoints_ok.mpr hb]
    rfl

/-- When a coordinate comes out as C46 asks: on X, Y, Z only for twice the zero point or
for 1 with the zero point 1, on other axes only for 0. -/
theorem C46_right_iff_partial (z : Zero) (a : Str) (v : ℚ) : replaced z a v = some (translated z a v) ↔
    (a = c!"X" ∧ (v = 1 ∧ z.x = 1 ∨ v ≠ 1 ∧ v = 2 * z.x)) ∨ (a = c!"Y" ∧ (v = 1 ∧ z.y = 1 ∨ v ≠ 1 ∧ v = 2 * z.y)) ∨
      (a = c!"Z" ∧ (v = 1 ∧ z.z = 1 ∨ v ≠ 1 ∧ v = 2 * z.z)) ∨
      (a ≠ c!"X" ∧ a ≠ c!"Y" ∧ a ≠ c!"Z" ∧ v = 0) := by
  have key : ∀ x : ℚ, (some (if v = 1 then 0 else x) = some (v - x)) ↔ (v = 1 ∧ x = 1 ∨ v ≠ 1 ∧ v = 2 * x) := by
    intro x
    rw [Option.some.injEq]
    by_cases hv : v = 1
    · subst hv
      rw [if_pos rfl]
      constructor
      · intro h; exact .inl ⟨rfl, by linarith⟩
      · rintro (⟨_, h⟩ | ⟨h, _⟩)
        · rw [h]; norm_num
        · exact absurd rfl h
    · rw [if_neg hv]
      constructor
      · intro h; exact .inr ⟨hv, by linarith⟩
      · rintro (⟨h, _⟩ | ⟨_, h⟩)
        · exact absurd h hv
        · rw [h]; ring
  unfold replaced translated
  by_cases hx : a = c!"X"
  · subst hx
    rw [if_pos rfl, if_pos rfl, key]
    have h1 : c!"X" ≠ c!"Y" := by decide
    have h2 : c!"X" ≠ c!"Z" := by decide
    simp [h1, h2]
  rw [if_neg hx, if_neg hx]
  by_cases hy : a = c!"Y"
  · subst hy
    rw [if_pos rfl, if_pos rfl, key]
    have h2 : c!"Y" ≠ c!"Z" := by decide
    simp [hx, h2]
  rw [if_neg hy, if_neg hy]
  by_cases hz : a = c!"Z"
  · subst hz
    rw [if_pos rfl, if_pos rfl, key]
    simp [hx, hy]
  rw [if_neg hz, if_neg hz]
  by_cases hv : v = 0 <;> simp [hx, hy, hz, hv]

/-- A machine with the given zero point and base point. -/
def placed (z : Zero) (b : AttrPath.VMap ℚ) : Setup :=
  { demo with zero := z, cfg := { demo.cfg with base := b, exchange := [] } }

/-- C46 is violated: with the zero point (10, 0, 0) the base point X 100 becomes 10 and
not 90, with no zero point it becomes 0, and a base point with an axis A at 90 cannot be
configured at all. -/
theorem C46_violated :
    (configure (placed ⟨10, 0, 0⟩ [(c!"X", 100)]) = .ok (placed ⟨10, 0, 0⟩ [(c!"X", 10)]) ∧
      translated ⟨10, 0, 0⟩ c!"X" 100 = 90) ∧
    (configure (placed ⟨0, 0, 0⟩ [(c!"X", 100)]) = .ok (placed ⟨0, 0, 0⟩ [(c!"X", 0)]) ∧
      translated ⟨0, 0, 0⟩ c!"X" 100 = 100) ∧
    (∀ S', configure (placed ⟨0, 0, 0⟩ [(c!"A", 90)]) ≠ .ok S') := by
  refine ⟨⟨?_, by norm_num [translated]⟩, ⟨?_, by norm_num [translated]⟩, ?_⟩
  · exact (C46_points_partial _ _).mpr ⟨[], [(c!"X", 10)], .nil, .cons ⟨rfl, by norm_num [replaced, placed]⟩ .nil, rfl⟩
  · exact (C46_points_partial _ _).mpr ⟨[], [(c!"X", 0)], .nil, .cons ⟨rfl, by norm_num [replaced, placed]⟩ .nil, rfl⟩
  · intro S' h
    obtain ⟨e, b, _, hb, _⟩ := (C46_points_partial _ _).mp h
    cases hb with
    | cons h _ =>
      have e : replaced ⟨0, 0, 0⟩ c!"A" 90 = none := by decide +kernel
      have h' : replaced ⟨0, 0, 0⟩ c!"A" 90 = _ := h.2
      rw [e] at h'
      cases h'

/-- The hypotheses of C46_points_partial are met: X 20 at the zero point 10 is right. -/
example : replaced ⟨10, 0, 0⟩ c!"X" 20 = some (translated ⟨10, 0, 0⟩ c!"X" 20) := by
  rw [C46_right_iff_partial]; exact .inl ⟨rfl, .inr ⟨by norm_num, by norm_num⟩⟩

/-! ## C38 -/

section
variable (S : Setup) (l : Enums.ELanguage) (hl : S.lang = .known l) (o : Options) (line : Int) (s : Str) (p q : Parser)
  (r : Bool) (m : Option Str)

/-- The line begins with something that is no word. -/
def NoWord : Prop := ∃ g, phrase (gramOf S) { p.gram with msg := [] } s = (g, .reject)

include hl

/-- C38 (partial: lines without `#`): with macro evaluation, success leaves the
caller's message alone. -/
theorem C38_success_partial (ho : o.evalMacro = true) (hs : '#' ∉ s) (h : parse S o line s p = (q, .ok (true, m))) :
    m = none := by
  unfold parse at h
  split at h
  · rename_i g b hp
    obtain ⟨_, hW⟩ := (phrase_accept (gramOf_chars S)).mp hp
    unfold wordStage at h
    rw [hl] at h
    rcases andThen_cases h with ⟨_, h⟩ | ⟨_, h⟩
    · rw [if_pos ho, macroStage_plain (words_noHash hW hs)] at h
      rcases systemStage_ends hl _ h with h | h
      · exact h.2.1
      · cases h.1.1
    · cases h.1
  · rename_i g hp
    unfold wordStage at h
    rw [hl] at h
    rcases andThen_cases h with ⟨_, h⟩ | ⟨_, h⟩
    · rw [if_pos ho, macroStage_plain (by simp)] at h
      rcases systemStage_ends hl _ h with h | h
      · cases h.1
      · cases h.1.1
    · cases h.1
  · simp at h
  · rw [hl] at h
    simp only [Prod.mk.injEq] at h
    cases (tell_told h.2).1

/-- C38 (partial: regular word tables): without macro evaluation, success makes the
message empty. -/
theorem C38_success_off_partial (hR : RegularTables (Pipe.tableOf S.tables S.units) S.tables.metric S.ops)
    (ho : o.evalMacro = false) (h : parse S o line s p = (q, .ok (true, m))) : m = some [] := by
  unfold parse at h
  split at h
  · rename_i g b hp
    obtain ⟨_, hW⟩ := (phrase_accept (gramOf_chars S)).mp hp
    unfold wordStage at h
    rw [hl] at h
    rcases andThen_cases h with ⟨_, h⟩ | ⟨_, h⟩
    · rw [if_neg (by simp [ho])] at h
      simp only [Prod.mk.injEq, Out.ok.injEq] at h
      obtain ⟨_, _, rfl⟩ := h
      exact congrArg some (words_quiet (regularG hR S.lang) hW)
    · cases h.1
  · unfold wordStage at h
    rw [hl] at h
    rcases andThen_cases h with ⟨_, h⟩ | ⟨_, h⟩
    · rw [if_neg (by simp [ho])] at h
      simp at h
    · cases h.1
  · simp at h
  · rw [hl] at h
    simp only [Prod.mk.injEq] at h
    cases (tell_told h.2).1

/-- C38 (partial: lines without `#` that begin with a word): failure gives a message. -/
theorem C38_failure_partial (hs : '#' ∉ s) (hw : ¬ NoWord S s p) (h : parse S o line s p = (q, .ok (false, m))) :
    ∃ t, m = some t ∧ t ≠ [] := by
  unfold parse at h
  split at h
  · rename_i g b hp
    obtain ⟨_, hW⟩ := (phrase_accept (gramOf_chars S)).mp hp
    unfold wordStage at h
    rw [hl] at h
    rcases andThen_cases h with ⟨_, h⟩ | ⟨_, h⟩
    · by_cases ho : o.evalMacro = true
      · rw [if_pos ho, macroStage_plain (words_noHash hW hs)] at h
        rcases systemStage_ends hl _ h with h | h
        · cases h.1
        · exact h.1.2
      · rw [if_neg ho] at h
        simp at h
    · exact h.2
  · rename_i g hp
    exact absurd ⟨g, hp⟩ hw
  · simp only [Prod.mk.injEq, Out.ok.injEq] at h
    exact ⟨_, h.2.2.symm, expectText_ne _ _ _⟩
  · rw [hl] at h
    simp only [Prod.mk.injEq] at h
    exact (tell_told h.2).2

omit hl in
/-- C38 is violated: after `#1=99999*2` the line `G1 X#1` succeeds with a message; and
lines that begin with no word, with a word out of its range, with a value out of its range
after evaluation, or that assign a missing value, fail without a message. -/
theorem C38_violated :
    (program demo serverOptions (fresh demo) (lines [c!"#1=99999*2", c!"G1 X#1"])).2 =
      .ok [(true, none), (true, some c!"1:3: X199998 <- Value [199998] not in range [-99999, 99999] for address [X]")] ∧
    (program demo serverOptions (fresh demo) (lines [c!"5", c!"X100000", c!"#2=#3", c!"#1=99999*2", c!"X#1"])).2 =
      .ok [(false, none), (false, none), (false, some []), (true, none), (false, none)] := by
  constructor <;> decide +kernel

omit hl in
/-- An ordinary line meets the hypotheses of the three theorems, one that succeeds and one
that fails. -/
example : (∃ q, parse demo serverOptions 1 c!"G1 X5 Y5 F100 S500 M3" (fresh demo) = (q, .ok (true, none))) ∧
    (∃ q t, parse demo serverOptions 1 c!"G1 X5 X7" (fresh demo) = (q, .ok (false, some t)) ∧ t = c!"Code X must be unique within a block") ∧
    ¬ NoWord demo c!"G1 X5 X7" (fresh demo) ∧ demo.lang = .known .English := by
  refine ⟨⟨_, Prod.ext rfl ?_⟩, ⟨_, _, Prod.ext rfl ?_, rfl⟩, ?_, rfl⟩
  · decide +kernel
  · decide +kernel
  · rintro ⟨g, h⟩
    have : (phrase (gramOf demo) { (fresh demo).gram with msg := [] } c!"G1 X5 X7").2 = .reject := by rw [h]
    revert this
    decide +kernel

end

/-! ## C39 -/

/-- The words a line stands for: its own, or those of the code that results from putting
in the values of the variables. -/
def executed (S : Setup) (line : Int) (s : Str) (p : Parser) : Option Block :=
  match phrase (gramOf S) { p.gram with msg := [] } s with
  | (g, .accept b) =>
    match Macro.evaluate S.tr p.macros line b with
    | .ok m =>
      match Macro.substitute S.ops m line b with
      | .ok [] => some b
      | .ok code =>
        match phrase (gramOf S) g code with
        | (_, .accept b2) => some b2
        | _ => none
      | _ => none
    | _ => none
  | _ => none

/-- C39 for one line (partial: success without a message): the units afterwards are those
of the last G20 or G21 among the words executed, else those before. -/
theorem C39_line_partial (S : Setup) (l : Enums.ELanguage) (hl : S.lang = .known l) (o : Options) (ho : o.evalMacro = true)
    (line : Int) (s : Str) (p q : Parser) (h : parse S o line s p = (q, .ok (true, none))) :
    ∃ b, executed S line s p = some b ∧ q.units = inForce p.units b := by
  unfold parse at h
  split at h
  · rename_i g b hp
    unfold wordStage at h
    rw [hl] at h
    rcases andThen_cases h with ⟨_, h⟩ | ⟨_, h⟩
    · rw [if_pos ho] at h
      unfold macroStage at h
      cases hm : Macro.evaluate S.tr p.macros line b with
      | ub => rw [show Macro.evaluate S.tr ({ p with gram := g } : Parser).macros line b = _ from hm] at h; simp at h
      | throw f =>
        rw [show Macro.evaluate S.tr ({ p with gram := g } : Parser).macros line b = _ from hm] at h
        cases f with
        | num e =>
          rw [hl] at h
          simp only [Prod.mk.injEq] at h
          cases (tell_told h.2).1
        | wrongDefinition i => simp at h
        | «calc» f => simp at h
      | ok mm =>
        rw [show Macro.evaluate S.tr ({ p with gram := g } : Parser).macros line b = _ from hm] at h
        dsimp only at h
        unfold substituteStage at h
        dsimp only at h
        cases hs : Macro.substitute S.ops mm line b with
        | ub => rw [hs] at h; simp at h
        | throw f =>
          rw [hs] at h
          cases f with
          | missing v => simp at h
          | num e =>
            dsimp only at h
            rw [hl] at h
            simp only [Prod.mk.injEq] at h
            cases (tell_told h.2).1
        | ok code =>
          rw [hs] at h
          dsimp only at h
          unfold codeStage at h
          cases code with
          | nil =>
            rw [if_pos rfl] at h
            refine ⟨b, by unfold executed; rw [hp]; dsimp only; rw [hm]; dsimp only; rw [hs], ?_⟩
            rcases systemStage_ends hl _ h with h | h
            · exact h.2.2
            · cases h.1.1
          | cons c code =>
            rw [if_neg (by simp)] at h
            dsimp only at h
            split at h
            · rename_i g2 b2 hp2
              refine ⟨b2, by unfold executed; rw [hp]; dsimp only; rw [hm]; dsimp only; rw [hs]; dsimp only; rw [hp2], ?_⟩
              rcases codeWords_ends hl _ h with h | h
              · exact h.2.2
              · cases h.1
            · rcases codeWords_ends hl _ h with h | h
              · cases h.1
              · cases h.1
            · simp at h
            · rw [hl] at h
              simp only [Prod.mk.injEq] at h
              cases (tell_told h.2).1
    · cases h.1
  · unfold wordStage at h
    rw [hl] at h
    rcases andThen_cases h with ⟨_, h⟩ | ⟨_, h⟩
    · rw [if_pos ho, macroStage_plain (by simp)] at h
      rcases systemStage_ends hl _ h with h | h
      · cases h.1
      · cases h.1.1
    · cases h.1
  · simp at h
  · rw [hl] at h
    simp only [Prod.mk.injEq] at h
    cases (tell_told h.2).1

/-- The words executed by a program. -/
def executedAll (S : Setup) (o : Options) : Parser → List (Int × Str) → Option Block
  | _, [] => some []
  | p, e :: t => do
    let b ← executed S e.1 e.2 p
    let r ← executedAll S o (parse S o e.1 e.2 p).1 t
    pure (b ++ r)

theorem inForce_append (u : Units) (a b : Block) : inForce u (a ++ b) = inForce (inForce u a) b := by
  induction a generalizing u with
  | nil => rfl
  | cons x a ih => rw [List.cons_append, lastSwitch_cons, ih, lastSwitch_cons]

/-- C39 over programs (partial: all lines succeed without a message): at the end the
units are those of the last G20 or G21 executed, else the configured ones. -/
theorem C39_program_partial (S : Setup) (l : Enums.ELanguage) (hl : S.lang = .known l) (o : Options) (ho : o.evalMacro = true)
    (ls : List (Int × Str)) (q : Parser) (as : List Answer) (h : program S o (fresh S) ls = (q, .ok as))
    (hok : ∀ a ∈ as, a = (true, none)) : ∃ b, executedAll S o (fresh S) ls = some b ∧ q.units = inForce S.units b := by
  have key : ∀ (ls : List (Int × Str)) (p : Parser) (as : List Answer), program S o p ls = (q, .ok as) →
      (∀ a ∈ as, a = (true, none)) → ∃ b, executedAll S o p ls = some b ∧ q.units = inForce p.units b := by
    intro ls
    induction ls with
    | nil =>
      intro p as h _
      have h' : (p, (Out.ok [] : Out NumExc (List Answer))) = (q, .ok as) := h
      simp only [Prod.mk.injEq] at h'
      exact ⟨[], rfl, by rw [h'.1]; rfl⟩
    | cons e t ih =>
      intro p as h hok
      unfold program at h
      split at h
      · rename_i p' a hpa
        split at h
        · rename_i q' r hr
          simp only [Prod.mk.injEq, Out.ok.injEq] at h
          obtain ⟨rfl, rfl⟩ := h
          have ha := hok a (by simp)
          subst ha
          obtain ⟨b, hb, hu⟩ := C39_line_partial S l hl o ho _ _ _ _ hpa
          obtain ⟨b2, hb2, hu2⟩ := ih p' r hr (fun a ha => hok a (by simp [ha]))
          refine ⟨b ++ b2, ?_, by rw [hu2, hu, inForce_append]⟩
          show (executed S e.1 e.2 p >>= fun b => executedAll S o (parse S o e.1 e.2 p).1 t >>= fun r => pure (b ++ r)) = _
          rw [hb, hpa]
          show (executedAll S o p' t >>= fun r => pure (b ++ r)) = _
          rw [hb2]; rfl
        · simp at h
        · simp at h
      · simp at h
      · simp at h
  exact key ls (fresh S) as h hok

/-- C39 is violated: a line that switches the units succeeds and does not switch them when
macro evaluation is off, and when the code after evaluation has a value out of its range. -/
theorem C39_violated :
    ((program demo { serverOptions with evalMacro := false } (fresh demo) (lines [c!"G20"])).2 = .ok [(true, some [])] ∧
      (program demo { serverOptions with evalMacro := false } (fresh demo) (lines [c!"G20"])).1.units = .metric) ∧
    ((program demo serverOptions (fresh demo) (lines [c!"#1=99999*2", c!"G20 X#1"])).2 =
      .ok [(true, none), (true, some c!"1:4: X199998 <- Value [199998] not in range [-99999, 99999] for address [X]")] ∧
      (program demo serverOptions (fresh demo) (lines [c!"#1=99999*2", c!"G20 X#1"])).1.units = .metric) := by
  and_intros <;> decide +kernel

/-- A program that meets the hypotheses and switches twice, the second time by a variable. -/
example : (program demo serverOptions (fresh demo) (lines [c!"#1=21", c!"G20", c!"G0 X5", c!"G#1"])).2 =
      .ok [(true, none), (true, none), (true, none), (true, none)] ∧
    (program demo serverOptions (fresh demo) (lines [c!"#1=21", c!"G20", c!"G0 X5"])).1.units = .imperial ∧
    (program demo serverOptions (fresh demo) (lines [c!"#1=21", c!"G20", c!"G0 X5", c!"G#1"])).1.units = .metric := by
  and_intros <;> decide +kernel

/-! ## C75 -/

/-- C75: without macro evaluation, checking a line changes neither the variables nor the
units, the position, the totals and what the rotation check remembers. -/
theorem C75_off (S : Setup) (o : Options) (ho : o.evalMacro = false) (line : Int) (s : Str) (p : Parser) :
    let q := (parse S o line s p).1
    q.macros = p.macros ∧ q.units = p.units ∧ q.path = p.path ∧ q.rot = p.rot := by
  have key : ∀ ok b g, ∃ x, (wordStage S o line ok b { p with gram := g }) = ({ p with gram := g }, x) := by
    intro ok b g
    unfold wordStage
    rw [if_neg (by simp [ho])]
    unfold andThen
    split <;> exact ⟨_, rfl⟩
  dsimp only
  unfold parse
  split
  · rename_i g b _
    obtain ⟨x, e⟩ := key true b g
    rw [e]; exact ⟨rfl, rfl, rfl, rfl⟩
  · rename_i g _
    obtain ⟨x, e⟩ := key false [] g
    rw [e]; exact ⟨rfl, rfl, rfl, rfl⟩
  · exact ⟨rfl, rfl, rfl, rfl⟩
  · exact ⟨rfl, rfl, rfl, rfl⟩

/-- With macro evaluation the same line does change them. -/
example : (parse demo serverOptions 1 c!"G20 X5" (fresh demo)).1.units ≠ (fresh demo).units ∧
    (parse demo { serverOptions with evalMacro := false } 1 c!"G20 X5" (fresh demo)).2 = .ok (true, some []) := by
  and_intros <;> decide +kernel

end NC.Props
