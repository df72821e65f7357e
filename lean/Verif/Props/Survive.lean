import Verif.Survive
import Verif.PipeDemo
import Verif.Props.Pipeline

/-! # C84: no text ends the server -/

namespace NC.Props
open NC NC.Message NC.Gram NC.Ver NC.AttrPath NC.Pipe NC.Spec.Survive

/-- C84 (partial: only lines whose words are numbers): if a line ends the server by an exception,
then among the words it executes there is one that is no number, a kept address without digits or a
position with a lone decimal point. -/
theorem C84_line_partial (S : Setup) (o : Options) (line : Int) (s : Str) (p : Parser) (e : NumExc)
    (h : (parse S o line s p).2 = .throw e) :
    ∃ b d, executed S line s p = some b ∧ .dec d ∈ b ∧ Unreadable S.cfg.axes d := by
  by_contra hn
  have hn : ∀ b, executed S line s p = some b → ∀ d, .dec d ∈ b → ¬ Unreadable S.cfg.axes d :=
    fun b hb d hd hu => hn ⟨b, d, hb, hd, hu⟩
  refine (show Returns (parse S o line s p).2 from ?_) e h
  unfold parse
  have h1 := phrase_shape (gramOf S) s { p.gram with msg := [] }
  rcases hz : phrase (gramOf S) { p.gram with msg := [] } s with ⟨g, r⟩
  rw [hz] at h1
  cases r with
  | accept b =>
    have hs : ∀ d, Attr.dec d ∈ b → Shape d := fun d hd => h1.1 b rfl _ hd d rfl
    refine wordStage_returns _ hs ?_ ?_
    · intro m hm hc
      refine ⟨hs, hn b ?_⟩
      unfold executed
      rw [hz]
      dsimp only
      rw [show Macro.evaluate S.tr p.macros line b = .ok m from hm]
      dsimp only
      rw [hc]
    · intro m code hm hc hne b2 hb
      refine ⟨fun d hd => (phrase_shape (gramOf S) code g).1 b2 hb _ hd d rfl, hn b2 ?_⟩
      unfold executed
      rw [hz]
      dsimp only
      rw [show Macro.evaluate S.tr p.macros line b = .ok m from hm]
      dsimp only
      rw [hc]
      cases code with
      | nil => exact absurd rfl hne
      | cons c code =>
        dsimp only
        rcases hp : phrase (gramOf S) g (c :: code) with ⟨g2, r⟩
        have hb : (phrase (gramOf S) g (c :: code)).2 = .accept b2 := hb
        rw [hp] at hb
        have hb : r = .accept b2 := hb
        rw [hb]
  | reject => exact wordStage_returns _ (by intro d hd; cases hd) (fun _ _ _ => ⟨nofun, nofun⟩) (by
      intro m code hm hc hne
      exfalso
      have hc : Macro.substitute S.ops m line [] = .ok code := hc
      have : Macro.substitute S.ops m line [] = .ok [] := rfl
      rw [this] at hc
      injection hc with hc
      exact hne hc.symm)
  | expect b t => exact nofun
  | raise b e => rw [h1.2 b e rfl]; exact tell_returns S.lang calm_range

/-- The tables of a setup declare the addresses. -/
def DeclaredIn (S : Setup) : Prop :=
  Declared S.cfg.axes ((gramOf S).syms.decs ++ (gramOf S).syms.assigns) (fun w => ((gramOf S).words.find w).isSome)

theorem flat_sane {S : Setup} (hD : DeclaredIn S) {b : Block} (h : ∀ d, Attr.dec d ∈ b → Flat (gramOf S) d) : Sane S.cfg b := by
  refine ⟨fun d hd => (h d hd).shape, ?_⟩
  rintro d hd ⟨hb, hw⟩
  have hf := h d hd
  have hm : d.word ∈ kept ++ located S.cfg.axes := by
    rcases hw with hw | hw
    · exact List.mem_append_left _ hw
    · exact List.mem_append_right _ hw.2
  have hno : d.word ∉ ([c!"=", c!"+", c!"-", c!"*", c!"/"] : List Str) := by
    rcases List.mem_append.mp hm with h | h
    · revert h
      generalize d.word = w
      intro h h'
      revert w
      decide
    · rcases List.mem_append.mp h with h | h
      · revert h
        generalize d.word = w
        intro h h'
        revert w
        decide
      · exact hD.letters _ h
  rcases hf.name with hn | hn
  · rcases hf.bare hb (hD.ranges _ hm hn) with h | h
    · exact hno (by rw [h]; decide)
    · apply hno
      unfold isOp at h
      simp only [Bool.or_eq_true, decide_eq_true_eq] at h
      rcases h with ((h | h) | h) | h <;> rw [h] <;> decide
  · exact hno (by rw [hn]; decide)

/-- A line without opening brackets, read when none is open, leaves none open and raises nothing. -/
theorem line_survives {S : Setup} (hD : DeclaredIn S) (o : Options) (line : Int) {s : Str} (hs : '[' ∉ s) {p : Parser}
    (hp : p.gram.st.opened = 0) : Returns (parse S o line s p).2 ∧ (parse S o line s p).1.gram.st.opened = 0 := by
  unfold parse
  have h0 := phrase_shape (gramOf S) s { p.gram with msg := [] }
  have h1 := phrase_flat (gramOf S) hs (ps := { p.gram with msg := [] }) hp
  rcases hz : phrase (gramOf S) { p.gram with msg := [] } s with ⟨g, r⟩
  rw [hz] at h0 h1
  have words : ∀ (b : Block) (ok : Bool), (∀ d, Attr.dec d ∈ b → Flat (gramOf S) d) →
      Returns (wordStage S o line ok b { p with gram := g }).2 ∧ (wordStage S o line ok b { p with gram := g }).1.gram.st.opened = 0 := by
    intro b ok hb
    constructor
    · refine wordStage_returns _ (fun d hd => (hb d hd).shape) (fun _ _ _ => flat_sane hD hb) ?_
      intro m code hm hc hne b2 hb2
      exact flat_sane hD ((phrase_flat (gramOf S) (substitute_flat hb hc) h1.1).2 b2 hb2)
    · rcases wordStage_gram (S := S) (o := o) (line := line) (ok := ok) (b := b) { p with gram := g } with h | ⟨m, code, hm, hc, hne, h⟩
      · rw [h]; exact h1.1
      · rw [h]
        exact (phrase_flat (gramOf S) (substitute_flat hb hc) h1.1).1
  cases r with
  | accept b => exact words b true (h1.2 b rfl)
  | reject => exact words [] false (by intro d hd; cases hd)
  | expect b t => exact ⟨nofun, h1.1⟩
  | raise b e => rw [h0.2 b e rfl]; exact ⟨tell_returns S.lang calm_range, h1.1⟩

/-- C84 (partial: texts without opening brackets): with word tables that declare the addresses, a
document without `[` is read to its end, whatever it says, and leaves the parser so that the next
such document is read to its end too. -/
theorem C84_document_partial (S : Setup) (hD : DeclaredIn S) (o : Options) (ls : List (Int × Str)) (hs : ∀ l ∈ ls, '[' ∉ l.2) (p : Parser)
    (hp : p.gram.st.opened = 0) : (∀ e, (program S o p ls).2 ≠ .throw e) ∧ (program S o p ls).1.gram.st.opened = 0 := by
  induction ls generalizing p with
  | nil => exact ⟨nofun, hp⟩
  | cons l t ih =>
    obtain ⟨h1, h2⟩ := line_survives hD o l.1 (hs l (by simp)) hp
    unfold program
    rcases hz : parse S o l.1 l.2 p with ⟨p', r⟩
    rw [hz] at h1 h2
    cases r with
    | throw e => exact absurd rfl (h1 e)
    | ub => exact ⟨nofun, h2⟩
    | ok a =>
      dsimp only
      obtain ⟨h3, h4⟩ := ih (fun l hl => hs l (by simp [hl])) p' h2
      rcases hy : program S o p' t with ⟨q, r⟩
      rw [hy] at h3 h4
      cases r with
      | ok r => exact ⟨nofun, h4⟩
      | throw e => exact absurd rfl (h3 e)
      | ub => exact ⟨nofun, h4⟩

/-- A fresh parser has no bracket open. -/
theorem C84_fresh_partial (S : Setup) (hD : DeclaredIn S) (o : Options) (ls : List (Int × Str)) (hs : ∀ l ∈ ls, '[' ∉ l.2) (e : NumExc) :
    (program S o (fresh S) ls).2 ≠ .throw e := (C84_document_partial S hD o ls hs (fresh S) rfl).1 e

/-- The shipped tables of the mill declare the addresses. -/
theorem demo_declared : DeclaredIn demo := by
  constructor
  · decide +kernel
  · decide

example : (program demo serverOptions (fresh demo) (lines [c!"G0 X5 Y0 Z0", c!"F", c!"X.", c!"#1=5", c!"X#1"])).2 =
    .ok [(true, none), (false, none), (false, none), (true, none), (true, none)] := by decide +kernel

theorem uniqueRun_distinct (g : WordMap) : ∀ (b : Block) (seen : List Str), (b.map Attr.word).Nodup → (∀ a ∈ b, a.word ∉ seen) →
    uniqueRun g seen b = .ok () := by
  intro b
  induction b with
  | nil => intro seen _ _; rfl
  | cons a b ih =>
    intro seen hn hs
    rw [List.map_cons, List.nodup_cons] at hn
    have hs' := fun x hx => hs x (List.mem_cons_of_mem a hx)
    cases a with
    | str _ _ => exact ih seen hn.2 hs'
    | chr _ _ => exact ih seen hn.2 hs'
    | dec d =>
      have hd : d.word ∉ seen := hs (.dec d) (by simp)
      unfold uniqueRun
      split
      · exact ih seen hn.2 hs'
      · split
        · exact ih seen hn.2 hs'
        · refine ih _ hn.2 ?_
          intro x hx h
          rcases List.mem_cons.mp h with h | h
          · exact hn.1 (List.mem_map.mpr ⟨x, hx, h⟩)
          · exact hs' x hx h

theorem sysRun_bare (line : Int) : ∀ (b : Block) (m : MacroMap ℚ), (∃ d, .dec d ∈ b ∧ Shape d ∧ Bare d ∧ d.word ∈ kept) →
    Macro.sysRun line m b = .throw .invalidArgument := by
  intro b
  induction b with
  | nil => rintro m ⟨d, hd, _⟩; cases hd
  | cons a b ih =>
    rintro m ⟨d, hd, hs, hb, hk⟩
    show (Macro.sysStep line m a >>= fun m' => Macro.sysRun line m' b) = _
    rcases List.mem_cons.mp hd with rfl | hd
    · have : Macro.sysStep line m (.dec d) = .throw .invalidArgument := by
        unfold Macro.sysStep
        cases hf : Macro.sysVars.find? (fun p => p.1 == d.word) with
        | none => exact absurd hk ((kept_iff _).mp hf)
        | some e =>
          dsimp only
          rw [plainText_eq hs]
          have hv : stod (valText d) = .throw .invalidArgument := by
            unfold valText
            rw [hb.1, hb.2]
            have h1 : d.sign = none ∨ d.sign = some '-' ∨ d.sign = some '+' := by
              cases hg : d.sign with
              | none => exact .inl rfl
              | some c => rcases hs.sign c hg with rfl | rfl <;> simp
            have h2 : d.dot = none ∨ d.dot = some '.' := by
              cases hg : d.dot with
              | none => exact .inl rfl
              | some c => rw [hs.dot c hg]; exact .inr rfl
            rcases h1 with h1 | h1 | h1 <;> rcases h2 with h2 | h2 <;> rw [h1, h2] <;> decide +kernel
          rw [hv, hf]
          rfl
      rw [this]
      rfl
    · cases hx : Macro.sysStep line m a with
      | ok m' => exact ih m' ⟨d, hd, hs, hb, hk⟩
      | throw e =>
        have : e = .invalidArgument := by
          cases a with
          | dec d' =>
            unfold Macro.sysStep at hx
            dsimp only at hx
            split at hx
            · cases hy : stod (Macro.plainText d') with
              | ok q => rw [hy] at hx; cases hx
              | ub => rw [hy] at hx; cases hx
              | throw f =>
                rw [hy] at hx
                injection hx with hx
                rw [← hx]
                unfold stod at hy
                dsimp only at hy
                split at hy
                · injection hy with hy; exact hy.symm
                · cases hy
            · cases hx
          | str _ _ => cases hx
          | chr _ _ => cases hx
        rw [this]
        rfl
      | ub =>
        exfalso
        cases a with
        | dec d' =>
          unfold Macro.sysStep at hx
          dsimp only at hx
          split at hx
          · cases hy : stod (Macro.plainText d') with
            | ok q => rw [hy] at hx; cases hx
            | throw f => rw [hy] at hx; cases hx
            | ub =>
              unfold stod at hy
              dsimp only at hy
              split at hy <;> cases hy
          · cases hx
        | str _ _ => cases hx
        | chr _ _ => cases hx

/-- C84 violated: every line without variables that the grammar accepts as words with different
addresses, one of them a kept address without digits, ends the server. -/
theorem C84_violated_each (S : Setup) (o : Options) (ho : o.evalMacro = true) (line : Int) (s : Str) (hs : '#' ∉ s) (p : Parser) (g : PS) (b : Block)
    (hp : phrase (gramOf S) { p.gram with msg := [] } s = (g, .accept b)) (hu : (b.map Attr.word).Nodup)
    (hb : ∃ d, .dec d ∈ b ∧ Bare d ∧ d.word ∈ kept) : (parse S o line s p).2 = .throw .invalidArgument := by
  obtain ⟨d, hd, h1, h2⟩ := hb
  have hsh : Shape d := (phrase_shape (gramOf S) s { p.gram with msg := [] }).1 b (by rw [hp]) _ hd d rfl
  have hw := ((phrase_accept (gramOf_chars S)).mp hp).2
  unfold parse
  rw [hp]
  show (wordStage S o line true b { p with gram := g }).2 = _
  unfold wordStage
  rw [show uniqueCode (tableOf S.tables ({ p with gram := g } : Parser).units) b = .ok () from uniqueRun_distinct _ b [] hu (by simp)]
  show (if o.evalMacro then macroStage S o line true b { p with gram := g } else _).2 = _
  rw [if_pos ho, macroStage_plain (words_noHash hw hs)]
  unfold systemStage
  rw [sysRun_bare line b _ ⟨d, hd, hsh, h1, h2⟩]
  rfl

example : ∃ g b, phrase (gramOf demo) { (fresh demo).gram with msg := [] } c!"G1 F[SIN[30]]" = (g, .accept b) ∧ (b.map Attr.word).Nodup ∧
    ∃ d, .dec d ∈ b ∧ Bare d ∧ d.word ∈ kept :=
  ⟨_, _, rfl, by decide +kernel, ⟨c!"F", none, none, some c!"[", none, none, none, none, none⟩, by decide +kernel, by decide, by decide⟩

/-- C84 violated: a function as value of a kept address. -/
theorem C84_violated_function : (program demo serverOptions (fresh demo) (lines [c!"F[SIN[30]]"])).2 = .throw .invalidArgument := by
  decide +kernel

/-- C84 violated: a bracket left open in one line makes a lone address in another one fatal. -/
theorem C84_violated_open : (program demo serverOptions (fresh demo) (lines [c!"#1=SIN[30", c!"G1 X5", c!"S"])).2 = .throw .invalidArgument := by
  decide +kernel

/-- C84 violated: a lone decimal point. -/
theorem C84_violated_dot : (program demo serverOptions (fresh demo) (lines [c!"X[SIN[30]] Y."])).2 = .throw .invalidArgument := by
  decide +kernel

/-- C84 violated: `#` without number after a function. -/
theorem C84_violated_hash : (program demo serverOptions (fresh demo) (lines [c!"X1 SIN#"])).2 = .ub := by
  decide +kernel

end NC.Props
