import Verif.GrammarText
import Verif.Props.RoundTrip

/-! # C89: nothing on an accepted line is lost -/

namespace NC.Props
open NC NC.Message NC.Gram NC.Spec.Lost
open NC.Spec (Source.line Source.word)

/-- C89: the characters of an accepted line other than blanks and tabs are those of its words in the
same order; only letters after a program name are dropped. -/
theorem C89_nothing_lost (words table : WordMap) (ops : List Str) (lang : Lang) (ps ps' : PS) (s : Str) (b : Block)
    (m : Option Str) (h : simpleParse (built words table ops lang) ps s = (ps', .ret b true m)) : Consists b (solid s) := by
  obtain ⟨_, hW⟩ := (phrase_accept (built_chars words table ops lang)).mp (simpleParse_true h).1
  exact words_solid hW

theorem consists_line {b : Block} {t : Str} (h : Consists b t) (hn : ∀ n, Attr.str c!"O" n ∉ b) : t = solid (Source.line b) := by
  have key : ∀ (a : Attr) (b : Block), solid (Source.word a) ++ solid (Source.line b) = solid (Source.line (a :: b)) := by
    intro a b
    cases b with
    | nil => simp [Source.line, solid]
    | cons c b => rw [Source.line.eq_3 a (c :: b) (by simp), solid_append, solid_blank (by decide)]
  induction h with
  | none => rfl
  | word _ ih => rw [ih (fun n hm => hn n (by simp [hm])), key]
  | named _ _ _ => exact absurd List.mem_cons_self (hn _)

/-- C89: without a program name, the line and its words as they are written differ in blanks and tabs only. -/
theorem C89_same_text (words table : WordMap) (ops : List Str) (lang : Lang) (ps ps' : PS) (s : Str) (b : Block)
    (m : Option Str) (h : simpleParse (built words table ops lang) ps s = (ps', .ret b true m))
    (hn : ∀ n, Attr.str c!"O" n ∉ b) : solid s = solid (Source.line b) :=
  consists_line (C89_nothing_lost words table ops lang ps ps' s b m h) hn

/-- C89 is violated for program names: the letters after one are dropped, and the program `O1 TEST` is read as `O1`. -/
theorem C89_violated_name : accepted mill c!"O1 TEST" = some [.str c!"O" c!"1"] ∧
    solid c!"O1 TEST" ≠ solid (Source.line [.str c!"O" c!"1"]) := by
  constructor <;> decide +kernel

/-- A line with words of all kinds but a program name. -/
example : accepted mill c!"/N10G01 X-1.5  Y[#3+ 2]S1 = 5 (a b)" ≠ none ∧
    solid c!"/N10G01 X-1.5  Y[#3+ 2]S1 = 5 (a b)" = c!"/N10G01X-1.5Y[#3+2]S1=5(ab)" := by
  constructor <;> decide +kernel

end NC.Props
