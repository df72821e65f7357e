import Verif.GrammarAccept
import Verif.AssignRead

/-! # Words written without blanks between them are read back -/

namespace NC.Gram
open NC NC.Message NC.Spec NC.Spec.Words NC.Spec.Tables NC.Spec.Proper

section
variable {G : Gram} (R : RegularG G)
include R

/-- An address with a number is read whatever follows, if it does not go on with the number. -/
theorem address_tight {d : Dec} (h3 : d.word ∈ G.syms.decs) (ha : d.assign = none) (hv : Value G.words d) {t : Str} (ht : Stop t) (hc : hd t ≠ some ']')
    {x : Str} (hx : skip x = txt d ++ t) (he : '=' ∉ txt d ++ t) (ps : PS) : ∃ ps', lineAttribute G ps x = (ps', .match_ (.dec d) (skip t)) := by
  have hsh := numbered_shape hv (by rw [ha]; nofun)
  unfold txt at hx he
  rw [List.append_assoc] at hx he
  obtain ⟨ps', hk⟩ := checked_value hv ps (skip t)
  refine ⟨ps', line_decimal ?_ ?_⟩
  · apply char_fail_skip R
    intro c u hcu
    rw [hx] at hcu
    have h4 := hv.name.1
    generalize d.word = w at *
    cases w with
    | nil => exact absurd rfl h4
    | cons c1 w =>
      cases w with
      | nil =>
        have e1 : c1 = ',' := by simpa using congrArg List.head? hcu
        subst e1
        exact absurd h3 R.2.comma
      | cons c2 w =>
        have e2 : c2 = c := by
          simpa using congrArg (fun l => l.tail.head?) hcu
        subst e2
        exact dec_blank R h3 c2 (by simp)
  · unfold decimalRule
    rw [ahead_none (by rw [hx]; exact he), if_neg (by simp), hx, decs_direct R h3 hv.name.1]
    · dsimp only
      have := operand_direct hv ht hc
      rw [ha] at this
      rw [this]
      exact hk
    · intro c u hcu
      cases hot : otxt d with
      | nil => exact absurd hot (otxt_ne hv)
      | cons c' u' =>
        rw [hot, List.cons_append] at hcu
        cases hcu
        exact .inl (otxt_going hsh c (by rw [hot]; simp))

/-- Addresses that begin with a letter, with numbers, are read back from what is written of them without blanks. -/
theorem tight_direct {l : List Dec} (h : ∀ d ∈ l, d.word ∈ G.syms.decs ∧ d.assign = none ∧ Value G.words d ∧ ∃ c u, d.word = c :: u ∧ letter c = true) :
    ∀ x, skip x = txts l → ∀ ps, ∃ ps', Words G ps x ps' (l.map .dec) := by
  induction l with
  | nil => intro x hx ps; exact ⟨ps, .done _ _ hx⟩
  | cons d l ih =>
    intro x hx ps
    have key : ∀ e ∈ d :: l, '=' ∉ txt e := by
      intro e hd hin
      obtain ⟨h1, h2, h3, c, u, h4, h5⟩ := h e hd
      unfold txt at hin
      rcases List.mem_append.mp hin with hin | hin
      · have := R.2.equals _ h1 hin
        rw [h4] at this
        cases this
        exact absurd h5 (by decide)
      · exact (going_not (otxt_going (numbered_shape h3 (by rw [h2]; nofun)) _ hin)).2 rfl
    have first : ∀ c u, txts l = c :: u → letter c = true := by
      intro c u hcu
      cases l with
      | nil => cases hcu
      | cons e l =>
        obtain ⟨_, _, _, c', u', h4, h5⟩ := h e (by simp)
        have : txts (e :: l) = c' :: (u' ++ otxt e ++ txts l) := by simp [txts, txt, h4]
        rw [this] at hcu
        cases hcu
        exact h5
    have hlet : ∀ c, letter c = true → isDig c = false ∧ c ≠ '.' ∧ isBlank c = false ∧ c ≠ ']' := by
      intro c hc
      refine ⟨?_, by rintro rfl; revert hc; decide, ?_, by rintro rfl; revert hc; decide⟩
      · cases hd : isDig c with
        | false => rfl
        | true =>
          exfalso
          simp only [isDig, letter, Bool.or_eq_true, Bool.and_eq_true, decide_eq_true_eq] at hd hc
          rcases hc with hc | hc
          · exact absurd (Char.le_trans hc.1 hd.2) (by decide)
          · exact absurd (Char.le_trans hc.1 hd.2) (by decide)
      · cases hb : isBlank c with
        | false => rfl
        | true =>
          exfalso
          simp only [isBlank, Bool.or_eq_true, decide_eq_true_eq] at hb
          rcases hb with rfl | rfl <;> revert hc <;> decide
    have hno : '=' ∉ txts (d :: l) := by
      intro hin
      obtain ⟨e, he, hin⟩ := List.mem_flatMap.mp hin
      exact key e he hin
    have hx' : skip x = txt d ++ txts l := hx
    obtain ⟨h1, h2, h3, -⟩ := h d (by simp)
    obtain ⟨ps', h4⟩ := address_tight R h1 h2 h3 (t := txts l) (fun c u hcu => ⟨(hlet c (first c u hcu)).1, (hlet c (first c u hcu)).2.1⟩)
      (by
        cases ht : txts l with
        | nil => nofun
        | cons c u =>
          have := hlet c (first c u ht)
          rw [hd_cons this.2.2.1]
          simpa using this.2.2.2) hx' hno ps
    obtain ⟨ps'', h5⟩ := ih (fun e he => h e (by simp [he])) (skip (txts l)) (by
      rw [skip_skip]
      cases ht : txts l with
      | nil => rfl
      | cons c u => exact skip_of_not (hlet c (first c u ht)).2.2.1) ps'
    exact ⟨ps'', .word h4 h5⟩

end

end NC.Gram
