import Verif.Pipeline
import Verif.GrammarQuiet
import Verif.Spec.Units

/-! # Lemmas about checking a line -/

namespace NC.Pipe
open NC NC.Message NC.Gram NC.Ver NC.AttrPath NC.Path NC.Spec.Units

/-! ## Messages -/

theorem texts_some (l : Lang) (n : Name) : ∃ t ts, texts (Message.tableOf l) n = .ok (t :: ts) ∧ t ≠ [] := by
  cases l with
  | known l => cases l <;> cases n <;> exact ⟨_, _, rfl, by decide⟩
  | other => cases n <;> exact ⟨_, _, rfl, by decide⟩

theorem append_ne {a b : Str} (h : a ≠ []) : a ++ b ≠ [] := by simp [h]

theorem weave_ne {t : Str} {ts args : List Str} (h : t ≠ []) : weave (t :: ts) args ≠ [] := by
  cases args with
  | nil => exact append_ne h
  | cons a as => rw [weave, List.append_assoc]; exact append_ne h

theorem weave2_ne {t : Str} {ts args : List Str} (h : t ≠ []) : weave2 (t :: ts) args ≠ [] := by
  cases args with
  | nil => exact append_ne h
  | cons a as => simp [weave2, h]

theorem message_ne (n : Name) (l : Lang) (args : List Str) : outText (makeMessage n l args) ≠ [] := by
  obtain ⟨t, ts, h, ht⟩ := texts_some l n
  have : makeMessage n l args = .ok (weave (t :: ts) args) := by unfold makeMessage; rw [h]; rfl
  rw [this]; exact weave_ne ht

theorem message2_ne (n : Name) (l : Lang) (args : List Str) : outText (makeMessage2 n l args) ≠ [] := by
  obtain ⟨t, ts, h, ht⟩ := texts_some l n
  have : makeMessage2 n l args = .ok (weave2 (t :: ts) args) := by unfold makeMessage2; rw [h]; rfl
  rw [this]; exact weave2_ne ht

theorem message0_ne (n : Name) (l : Enums.ELanguage) : outText (makeMessage0 n (.known l)) ≠ [] := by
  obtain ⟨t, ts, h, ht⟩ := texts_some (.known l) n
  have : makeMessage0 n (.known l) = .ok (t :: ts).flatten := by
    cases l
    · show (do let ts ← texts tableEn n; pure ts.flatten) = _
      have h' : texts tableEn n = .ok (t :: ts) := h
      rw [h']; rfl
    · show (do let ts ← texts tablePl n; pure ts.flatten) = _
      have h' : texts tablePl n = .ok (t :: ts) := h
      rw [h']; rfl
  rw [this]
  simpa [outText] using fun h => absurd h ht

theorem excText_ne (l : Enums.ELanguage) (n : Name) (args : List Str) : excText (.known l) n args ≠ [] := by
  unfold excText
  split
  · exact message2_ne _ _ _
  · split
    · exact message0_ne _ _
    · exact message_ne _ _ _

theorem expectText_ne (s t m : Str) : expectText s t m ≠ [] := by
  unfold expectText; simp

/-- A failure with a text. -/
def Told (r : Bool) (m : Option Str) : Prop := r = false ∧ ∃ t, m = some t ∧ t ≠ []

theorem tell_told {l : Enums.ELanguage} {e : Exc} {r : Bool} {m : Option Str} (h : tell (.known l) e = .ok (r, m)) : Told r m := by
  cases e with
  | num e =>
    cases e with
    | outOfRange =>
      have h' := Out.ok.inj h
      simp only [Prod.mk.injEq] at h'
      exact ⟨h'.1.symm, _, h'.2.symm, by decide⟩
    | invalidArgument => cases h
  | msg k n args =>
    have h' := Out.ok.inj h
    simp only [Prod.mk.injEq] at h'
    exact ⟨h'.1.symm, _, h'.2.symm, excText_ne _ _ _⟩

theorem andThen_cases {l : Enums.ELanguage} {x : Out Exc Unit} {p q : Parser} {k : Parser × Out NumExc Answer}
    {r : Bool} {m : Option Str} (h : andThen (.known l) x p k = (q, .ok (r, m))) :
    (x = .ok () ∧ k = (q, .ok (r, m))) ∨ (q = p ∧ Told r m) := by
  cases x with
  | ok u => exact .inl ⟨rfl, h⟩
  | throw e =>
    have h' : (p, tell (.known l) e) = (q, .ok (r, m)) := h
    simp only [Prod.mk.injEq] at h'
    exact .inr ⟨h'.1.symm, tell_told h'.2⟩
  | ub =>
    have h' : (p, (Out.ub : Out NumExc Answer)) = (q, .ok (r, m)) := h
    simp at h'

/-! ## Units -/

theorem lastSwitch_cons (a : Attr) (b : Block) : inForce u (a :: b) = inForce ((unitOf a).getD u) b := by
  unfold inForce lastSwitch
  cases h : unitOf a with
  | none => rw [List.filterMap_cons_none h]; rfl
  | some x =>
    rw [List.filterMap_cons_some h]
    cases hb : b.filterMap unitOf with
    | nil => rfl
    | cons y t => rw [List.getLast?_cons_cons]; cases t <;> simp [List.getLast?_cons]

theorem unitOf_other {d : Dec} (h : d.word ≠ c!"G") : unitOf (.dec d) = none := by
  obtain ⟨w, _, _, _, _, v, _, _, _⟩ := d
  unfold unitOf
  split
  · rename_i h'; cases h'; exact absurd rfl h
  · rfl

theorem unitOf_none {d : Dec} (h : d.value = none) : unitOf (.dec d) = none := by
  obtain ⟨w, _, _, _, _, v, _, _, _⟩ := d
  unfold unitOf
  split
  · rename_i h'; cases h'; cases h
  · rfl

theorem unitOf_some {d : Dec} {v : Str} (hw : d.word = c!"G") (h : d.value = some v) :
    unitOf (.dec d) = if stoi v = .ok 20 then some .imperial else if stoi v = .ok 21 then some .metric else none := by
  obtain ⟨w, _, _, _, _, v', _, _, _⟩ := d
  dsimp only at hw h
  subst hw h
  rfl

/-- The selector does what the words say. -/
theorem selectRun_ok {u : Units} {b : Block} (h : (selectRun u b).2 = .ok ()) : (selectRun u b).1 = inForce u b := by
  induction b generalizing u with
  | nil => rfl
  | cons a b ih =>
    cases a with
    | str x y => rw [lastSwitch_cons]; exact ih h
    | chr x y => rw [lastSwitch_cons]; exact ih h
    | dec d =>
      rw [lastSwitch_cons]
      unfold selectRun at h ⊢
      by_cases hw : d.word ≠ c!"G"
      · rw [if_pos hw] at h ⊢
        rw [unitOf_other hw]
        exact ih h
      · rw [if_neg hw] at h ⊢
        cases hv : d.value with
        | none =>
          rw [hv] at h
          rw [unitOf_none hv]
          exact ih h
        | some v =>
          rw [hv] at h
          rw [unitOf_some (by simpa using hw) hv]
          dsimp only at h ⊢
          cases hs : stoi v with
          | throw e => rw [hs] at h; cases h
          | ub => rw [hs] at h; cases h
          | ok n =>
            rw [hs] at h
            dsimp only at h ⊢
            rw [ih h]
            congr 1
            by_cases h20 : n = 20
            · subst h20; rfl
            · have e1 : ¬ ((Out.ok n : Out NumExc Int) = .ok 20) := fun e => h20 (Out.ok.inj e)
              rw [if_neg h20, if_neg e1]
              by_cases h21 : n = 21
              · subst h21; rfl
              · have e2 : ¬ ((Out.ok n : Out NumExc Int) = .ok 21) := fun e => h21 (Out.ok.inj e)
                rw [if_neg h21, if_neg e2]; rfl

theorem inForce_twice (u : Units) (b : Block) : inForce (inForce u b) b = inForce u b := by
  unfold inForce
  cases lastSwitch b <;> rfl

/-! ## The stages after the line was read -/

/-- How the stages end: as they began (`ok`), without message and with the units of
the block in force, or with a failure that has a text; then the units are as before
if the block can be read by the selector. -/
def Ends (u : Units) (ok : Bool) (b : Block) (q : Parser) (r : Bool) (m : Option Str) : Prop :=
  (r = ok ∧ m = none ∧ q.units = inForce u b) ∨ (Told r m ∧ ((selectRun u b).2 = .ok () → q.units = u))

section
variable {S : Setup} {l : Enums.ELanguage} (hl : S.lang = .known l) {o : Options} {line : Int} {ok : Bool}
  {b : Block} {q : Parser} {r : Bool} {m : Option Str}
include hl

theorem lastStage_ends (p : Parser) (h : lastStage S ok b p = (q, .ok (r, m))) : Ends p.units ok b q r m := by
  unfold lastStage at h
  rw [hl] at h
  cases h1 : (selectRun p.units b).2 with
  | ok u =>
    rw [h1] at h
    have h2 : (selected p b, (Out.ok (ok, none) : Out NumExc Answer)) = (q, .ok (r, m)) := h
    simp only [Prod.mk.injEq, Out.ok.injEq] at h2
    obtain ⟨rfl, rfl, rfl⟩ := h2
    exact .inl ⟨rfl, rfl, selectRun_ok h1⟩
  | throw e =>
    rw [h1] at h
    rcases andThen_cases h with ⟨h2, _⟩ | ⟨_, h2⟩
    · cases h2
    · exact .inr ⟨h2, fun h3 => by rw [h1] at h3; cases h3⟩
  | ub =>
    rw [h1] at h
    rcases andThen_cases h with ⟨h2, _⟩ | ⟨_, h2⟩
    · cases h2
    · exact .inr ⟨h2, fun h3 => by rw [h1] at h3; cases h3⟩

theorem pathStage_ends (p : Parser) (h : pathStage S o line ok b p = (q, .ok (r, m))) : Ends p.units ok b q r m := by
  unfold pathStage at h
  split at h
  · dsimp only at h
    rw [hl] at h
    rcases andThen_cases h with ⟨_, h⟩ | ⟨hq, h⟩
    · rcases andThen_cases h with ⟨_, h⟩ | ⟨hq, h⟩
      · have := lastStage_ends hl _ h; exact this
      · exact .inr ⟨h, fun _ => by rw [hq]; rfl⟩
    · exact .inr ⟨h, fun _ => by rw [hq]; rfl⟩
  · exact lastStage_ends hl p h

theorem groupStage_ends (p : Parser) (h : groupStage S o line ok b p = (q, .ok (r, m))) : Ends p.units ok b q r m := by
  unfold groupStage at h
  rw [hl] at h
  rcases andThen_cases h with ⟨_, h⟩ | ⟨hq, h⟩
  · rcases andThen_cases h with ⟨_, h⟩ | ⟨hq, h⟩
    · exact pathStage_ends hl p h
    · exact .inr ⟨h, fun _ => by rw [hq]⟩
  · exact .inr ⟨h, fun _ => by rw [hq]⟩

theorem analysisStage_ends (p : Parser) (h : analysisStage S o line ok b p = (q, .ok (r, m))) : Ends p.units ok b q r m := by
  unfold analysisStage at h
  split at h
  · dsimp only at h
    rw [hl] at h
    rcases andThen_cases h with ⟨_, h⟩ | ⟨hq, h⟩
    · rcases andThen_cases h with ⟨_, h⟩ | ⟨hq, h⟩
      · have := groupStage_ends hl _ h; exact this
      · exact .inr ⟨h, fun _ => by rw [hq]⟩
    · exact .inr ⟨h, fun _ => by rw [hq]⟩
  · exact groupStage_ends hl p h

theorem systemStage_ends (p : Parser) (h : systemStage S o line ok b p = (q, .ok (r, m))) : Ends p.units ok b q r m := by
  unfold systemStage at h
  split at h
  · have := analysisStage_ends hl _ h; exact this
  · rw [hl] at h
    simp only [Prod.mk.injEq] at h
    exact .inr ⟨tell_told h.2, fun _ => by rw [← h.1]⟩
  · simp at h

theorem codeWords_ends (p : Parser) (h : codeWords S o line ok b p = (q, .ok (r, m))) :
    (r = ok ∧ m = none ∧ q.units = inForce p.units b) ∨ Told r m := by
  unfold codeWords at h
  rw [hl] at h
  rcases andThen_cases h with ⟨h1, h⟩ | ⟨_, h⟩
  · rcases systemStage_ends hl _ h with ⟨h2, h3, h4⟩ | h
    · refine .inl ⟨h2, h3, ?_⟩
      rw [h4]
      show inForce (selectRun p.units b).1 b = _
      rw [selectRun_ok h1, inForce_twice]
    · exact .inr h.1
  · exact .inr h

end

/-! ## Lines without macros -/

theorem macRun_plain {b : Block} (h : ∀ a ∈ b, Plainly a) : Macro.macRun {} b = .ok {} := by
  induction b with
  | nil => rfl
  | cons a b ih =>
    have h1 : Macro.macStep {} a = .ok {} := by
      cases a with
      | str x y => rfl
      | chr x y => rfl
      | dec d =>
        have := (h _ (by simp) d rfl).2
        unfold Macro.macStep
        dsimp only
        rw [if_pos rfl, if_neg this, if_neg (by decide)]
    show (Macro.macStep {} a >>= fun st => Macro.macRun st b) = _
    rw [h1]
    exact ih (fun a ha => h a (by simp [ha]))

theorem evaluate_plain {tr : Str → ℚ → Option ℚ} {m : MacroMap ℚ} {line : Int} {b : Block} (h : ∀ a ∈ b, Plainly a) :
    Macro.evaluate tr m line b = .ok m := by
  unfold Macro.evaluate
  rw [macRun_plain h]
  rfl

theorem subRun_plain {ops : List Str} {m : MacroMap ℚ} {line : Int} {b : Block} (h : ∀ a ∈ b, Plainly a) (st : Macro.SubSt)
    (hm : st.modified = false) : ∃ st', Macro.subRun ops m line st b = .ok st' ∧ st'.modified = false := by
  induction b generalizing st with
  | nil => exact ⟨st, rfl, hm⟩
  | cons a b ih =>
    obtain ⟨st1, e, hm1⟩ : ∃ st1, Macro.subStep ops m line st a = .ok st1 ∧ st1.modified = false := by
      cases a with
      | str x y => exact ⟨st, rfl, hm⟩
      | chr x y => exact ⟨st, rfl, hm⟩
      | dec d =>
        have := (h _ (by simp) d rfl).1
        unfold Macro.subStep
        dsimp only
        rw [this]
        rw [if_neg (by simp)]
        exact ⟨_, rfl, hm⟩
    obtain ⟨st2, e2, hm2⟩ := ih (fun a ha => h a (by simp [ha])) st1 hm1
    refine ⟨st2, ?_, hm2⟩
    show (Macro.subStep ops m line st a >>= fun st => Macro.subRun ops m line st b) = _
    rw [e]
    exact e2

theorem substitute_plain {ops : List Str} {m : MacroMap ℚ} {line : Int} {b : Block} (h : ∀ a ∈ b, Plainly a) :
    Macro.substitute ops m line b = .ok [] := by
  obtain ⟨st, e, hm⟩ := subRun_plain (ops := ops) (m := m) (line := line) h {} rfl
  show (Macro.subRun ops m line {} b >>= fun st => .ok (if st.modified then st.text else [])) = _
  rw [e]
  show Out.ok (if st.modified then st.text else []) = _
  rw [hm]; rfl

/-- Without macros the stages go on with the words of the line. -/
theorem macroStage_plain {S : Setup} {o : Options} {line : Int} {ok : Bool} {b : Block} (h : ∀ a ∈ b, Plainly a) (p : Parser) :
    macroStage S o line ok b p = systemStage S o line ok b p := by
  unfold macroStage
  rw [evaluate_plain h]
  show substituteStage S o line ok b p = _
  unfold substituteStage
  rw [substitute_plain h]
  show codeStage S o line ok b [] p = _
  unfold codeStage
  rw [if_pos rfl]

theorem gramOf_chars (S : Setup) : CharsOk (gramOf S) := buildSymbols_chars _ _

end NC.Pipe
