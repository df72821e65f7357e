import Verif.Vars
import Verif.Spec.Variables
import Verif.CheckProofs
import Verif.Props.Macro

/-! # What an accepted line does to the variables -/

namespace NC.Pipe
open NC NC.Message NC.Gram NC.Ver NC.AttrPath NC.Path NC.Macro NC.Spec.Variables NC.Spec.Survive

/-! ## Numbers -/

theorem takeWhile_digits {a r : Str} (ha : ∀ c ∈ a, isDig c = true) (hr : ∀ c t, r = c :: t → isDig c = false) :
    (a ++ r).takeWhile isDig = a ∧ (a ++ r).dropWhile isDig = r := by
  induction a with
  | nil =>
    cases r with
    | nil => exact ⟨rfl, rfl⟩
    | cons c t =>
      have := hr c t rfl
      constructor
      · rw [List.nil_append, List.takeWhile_cons, if_neg (by rw [this]; decide)]
      · rw [List.nil_append, List.dropWhile_cons, if_neg (by rw [this]; decide)]
  | cons x a ih =>
    obtain ⟨h1, h2⟩ := ih (fun c hc => ha c (by simp [hc]))
    have := ha x (by simp)
    constructor
    · rw [List.cons_append, List.takeWhile_cons, if_pos this, h1]
    · rw [List.cons_append, List.dropWhile_cons, if_pos this, h2]

theorem stod_amount {d : Dec} (h : Shape d) (hb : ¬ Bare d) : stod (plainText d) = .ok (amount d) := by
  obtain ⟨ha, hb2, hd⟩ := shape_digits h
  have hn := not_bare h hb
  have hsg := h.sign
  have hdot := h.dot
  have e1 : d.value.getD [] = strText d.value := by cases d.value <;> rfl
  have e2 : d.value2.getD [] = strText d.value2 := by cases d.value2 <;> rfl
  rw [plainText_eq h]
  unfold amount
  rw [e1, e2]
  show stod (chrText d.sign ++ strText d.value ++ chrText d.dot ++ strText d.value2) = _
  generalize strText d.value = a at *
  generalize strText d.value2 = b at *
  generalize d.dot = p at *
  generalize d.sign = g at *
  have hpt : p = none → b = [] := by
    intro hp
    by_contra hne
    have := hd hne
    rw [hp] at this
    cases this
  have htail : (a ++ (chrText p ++ b)).takeWhile isDig = a ∧ fracDigits ((a ++ (chrText p ++ b)).dropWhile isDig) = b := by
    obtain ⟨k1, k2⟩ := takeWhile_digits (a := a) (r := chrText p ++ b) ha (by
      intro c t hc
      cases p with
      | none => rw [hpt rfl] at hc; cases hc
      | some x =>
        have := hdot x rfl
        subst this
        simp only [chrText, List.cons_append, List.nil_append, List.cons.injEq] at hc
        rw [← hc.1]; decide)
    refine ⟨k1, ?_⟩
    rw [k2]
    cases p with
    | none => rw [hpt rfl]; rfl
    | some x =>
      have := hdot x rfl
      subst this
      show List.takeWhile isDig b = b
      have := (takeWhile_digits (a := b) (r := []) hb2 (by simp)).1
      rwa [List.append_nil] at this
  have h0 : ∀ c r, a ++ (chrText p ++ b) = c :: r → isDig c = true ∨ c = '.' := by
    intro c r h
    cases a with
    | cons x t =>
      simp only [List.cons_append, List.cons.injEq] at h
      left; rw [← h.1]; exact ha x (by simp)
    | nil =>
      cases p with
      | none => rw [hpt rfl] at h; cases h
      | some x =>
        have := hdot x rfl
        subst this
        simp only [chrText, List.nil_append, List.cons_append, List.cons.injEq] at h
        right; exact h.1.symm
  have hne : ¬ (a = [] ∧ b = []) := by tauto
  rw [List.append_assoc, List.append_assoc]
  cases g with
  | none =>
    show stod (a ++ (chrText p ++ b)) = _
    have hsp : (a ++ (chrText p ++ b)).dropWhile isSp = a ++ (chrText p ++ b) := by
      cases hx : a ++ (chrText p ++ b) with
      | nil => rfl
      | cons c r =>
        rw [List.dropWhile_cons, if_neg]
        rcases h0 c r hx with k | k
        · rw [isDig_not_sp k]; decide
        · subst k; decide
    unfold stod
    dsimp only
    rw [hsp, splitSign_other]
    · dsimp only
      rw [htail.1, htail.2, if_neg hne]
      simp
    · intro c r hx
      rcases h0 c r hx with k | k
      · constructor <;> (intro hc; subst hc; exact absurd k (by decide))
      · subst k; decide
  | some x =>
    have : stod (x :: (a ++ (chrText p ++ b))) = Out.ok (if x = '-' then -((readNat a : ℚ) + readNat b / 10 ^ b.length) else (readNat a : ℚ) + readNat b / 10 ^ b.length) := by
      unfold stod
      dsimp only
      rcases hsg x rfl with k | k <;> subst k
      · rw [show ('-' :: (a ++ (chrText p ++ b))).dropWhile isSp = '-' :: (a ++ (chrText p ++ b)) from by simp [List.dropWhile, isSp]]
        simp only [splitSign]
        rw [htail.1, htail.2, if_neg hne]
      · rw [show ('+' :: (a ++ (chrText p ++ b))).dropWhile isSp = '+' :: (a ++ (chrText p ++ b)) from by simp [List.dropWhile, isSp]]
        simp only [splitSign]
        rw [htail.1, htail.2, if_neg hne]
        simp
    show stod (x :: (a ++ (chrText p ++ b))) = _
    rw [this]
    simp only [Option.some.injEq]

/-! ## System variables -/

theorem given_none {a : Str} {b : Block} (h : given a b = none) : ∀ d, Attr.dec d ∈ b → d.word ≠ a := by
  induction b with
  | nil => simp
  | cons x b ih =>
    intro d hd
    cases x with
    | dec d' =>
      simp only [given, Option.or_eq_none_iff] at h
      rcases List.mem_cons.mp hd with e | hd
      · cases e
        intro hw
        rw [if_pos hw] at h
        cases h.2
      · exact ih h.1 d hd
    | str _ _ => simp only [given] at h; exact ih h d (by simpa using hd)
    | chr _ _ => simp only [given] at h; exact ih h d (by simpa using hd)

theorem sysRun_given {line : Int} {a : Str} {i : Nat} (hi : i ∈ idsOf a) : ∀ (b : Block) (m m' : MacroMap ℚ), m.Sorted →
    (∀ d, Attr.dec d ∈ b → Shape d) → sysRun line m b = .ok m' → m'.get ⟨i, line⟩ = (given a b).or (m.get ⟨i, line⟩) := by
  intro b
  induction b with
  | nil => intro m m' _ _ h; cases h; rfl
  | cons x b ih =>
    intro m m' hs hsh h
    rw [sysRun, Out.bind_eq_ok] at h
    obtain ⟨m1, h1, h2⟩ := h
    cases x with
    | str w v => simp [sysStep] at h1; subst h1; exact ih _ _ hs (fun d hd => hsh d (by simp [hd])) h2
    | chr w v => simp [sysStep] at h1; subst h1; exact ih _ _ hs (fun d hd => hsh d (by simp [hd])) h2
    | dec d =>
      have hsp := sysStep_spec hs h1
      rw [ih _ _ hsp.1 (fun d hd => hsh d (by simp [hd])) h2]
      simp only [given]
      by_cases hw : d.word = a
      · rw [if_pos hw]
        obtain ⟨v, hv, hg⟩ := (hsp.2 ⟨i, line⟩).1 ⟨rfl, by rw [hw]; exact hi⟩
        have hb : ¬ Bare d := by
          intro hb
          obtain ⟨e, he⟩ := valText_bare (hsh d (by simp)) hb
          rw [plainText_eq (hsh d (by simp)), he] at hv
          cases hv
        rw [stod_amount (hsh d (by simp)) hb] at hv
        cases hv
        rw [hg]
        cases given a b <;> simp
      · rw [if_neg hw, Option.or_none]
        rw [(hsp.2 ⟨i, line⟩).2]
        rintro ⟨-, hx⟩
        exact hw (idsOf_disjoint hx hi)

/-! ## Accepted lines -/

section
variable {S : Setup} {l : Enums.ELanguage} (hl : S.lang = .known l) {o : Options} {line : Int}
include hl

theorem toldFalse {e : Exc} {m : Option Str} : tell S.lang e ≠ .ok (true, m) := by
  intro h
  rw [hl] at h
  cases (tell_told h).1

/-- An accepted line was read, its assignment evaluated, and then only system variables were recorded. -/
theorem parse_recorded (ho : o.evalMacro = true) {s : Str} {p q : Parser} {m : Option Str} (h : parse S o line s p = (q, .ok (true, m)))
    (hs : p.macros.Sorted) : ∃ g b m1, phrase (gramOf S) { p.gram with msg := [] } s = (g, .accept b) ∧
      Macro.evaluate S.tr p.macros line b = .ok m1 ∧ Wrote (fun k => SystemId k.id ∧ k.line = line) m1 q.macros := by
  unfold parse at h
  split at h
  · rename_i g b hr
    refine ⟨g, b, ?_⟩
    unfold wordStage at h
    rw [hl, andThen_iff] at h
    obtain ⟨-, h⟩ := h
    rw [if_pos ho] at h
    unfold macroStage at h
    split at h
    · rename_i m1 hm
      refine ⟨m1, hr, hm, ?_⟩
      have := substituteStage_wrote (S := S) (o := o) (ok := true) (b := b) (line := line) (P := fun k => SystemId k.id ∧ k.line = line) (m := m1)
        (fun k hk => hk) { p with gram := g, macros := m1 } (.refl (evaluate_wrote hs hm).sorted)
      rwa [h] at this
    · simp only [Prod.mk.injEq] at h; exact absurd h.2 (toldFalse hl)
    · simp at h
    · simp at h
    · simp at h
  · exfalso
    rename_i g hr
    unfold wordStage at h
    rw [hl, andThen_iff] at h
    obtain ⟨-, h⟩ := h
    rw [if_pos ho, macroStage_plain (by simp)] at h
    rcases systemStage_ends hl _ h with h | h
    · cases h.1
    · cases h.1.1
  · simp at h
  · simp only [Prod.mk.injEq] at h; exact absurd h.2 (toldFalse hl)

/-- An accepted line without macro sign: its words are kept in system variables; the tool has its own. -/
theorem parse_words (ho : o.evalMacro = true) {s : Str} (hh : '#' ∉ s) {p q : Parser} {m : Option Str}
    (h : parse S o line s p = (q, .ok (true, m))) (hs : p.macros.Sorted) :
    ∃ g b m1, phrase (gramOf S) { p.gram with msg := [] } s = (g, .accept b) ∧ (∀ d, Attr.dec d ∈ b → Shape d) ∧
      sysRun line p.macros b = .ok m1 ∧ Wrote (fun k => Props.toolVariable k.id ∧ k.line = line) m1 q.macros := by
  obtain ⟨g, b, m0, hr, -, -⟩ := parse_recorded hl ho h hs
  have hb := words_noHash ((phrase_accept (gramOf_chars S)).mp hr).2 hh
  refine ⟨g, b, ?_⟩
  unfold parse at h
  rw [hr] at h
  unfold wordStage at h
  rw [hl, andThen_iff] at h
  obtain ⟨-, h⟩ := h
  rw [if_pos ho, macroStage_plain hb] at h
  unfold systemStage at h
  split at h
  · rename_i m1 hm
    refine ⟨m1, hr, ?_, hm, ?_⟩
    · intro d hd
      exact (phrase_shape (gramOf S) s _).1 b (by rw [hr]) _ hd d rfl
    · have := analysisStage_wrote (S := S) (o := o) (ok := true) (b := b) (line := line) (P := fun k => Props.toolVariable k.id ∧ k.line = line) (m := m1)
        (fun k hk => hk) { p with gram := g, macros := m1 } (.refl (sysRun_sorted hs hm))
      rwa [h] at this
  · simp only [Prod.mk.injEq] at h; exact absurd h.2 (toldFalse hl)
  · simp at h

end
end NC.Pipe
