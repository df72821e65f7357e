import Verif.Spec.Expr
import Verif.Spec.Lang

/-!
# Spec: the values of two wanted letters on a line (C100)
-/

namespace NC.Spec.Wanted

open NC.Spec

/-- A written word: blanks, a letter, a sign if negative, a decimal number. -/
structure W where
  gap : Nat
  letter : Char
  neg : Bool
  ip : List (Fin 10)
  fp : List (Fin 10)

def W.text (w : W) : List Char :=
  List.replicate w.gap ' ' ++ w.letter :: ((if w.neg then ['-'] else []) ++ prNum w.ip w.fp)

def W.val (w : W) : ℚ := if w.neg then -numVal w.ip w.fp else numVal w.ip w.fp

def text (ws : List W) : List Char := ws.flatMap W.text

/-- Capital letter, at least one digit; an `E` written without a blank would be the exponent of the
word before. -/
def W.Good (w : W) : Prop :=
  ('A' ≤ w.letter ∧ w.letter ≤ 'Z') ∧ (w.ip ≠ [] ∨ w.fp ≠ []) ∧ (0 < w.gap ∨ w.letter ≠ 'E')

/-- The first word with letter `c` has the value `q`, and `rest` are the words behind it. -/
def First (c : Char) (ws : List W) (q : ℚ) (rest : List W) : Prop :=
  ∃ us w, ws = us ++ w :: rest ∧ (∀ u ∈ us, u.letter ≠ c) ∧ w.letter = c ∧ w.val = q

/-- No word has the letter `c`. -/
def Lacks (c : Char) (ws : List W) : Prop := ∀ w ∈ ws, w.letter ≠ c

/-- Printable or blank characters other than `c`. -/
def Clear (c : Char) (s : List Char) : Prop :=
  ∀ x ∈ s, x = ' ' ∨ x = '\t' ∨ ((33 ≤ x.toNat ∧ x.toNat ≤ 126) ∧ x ≠ c)

/-- A number with an optional sign. -/
def Signed (n : List Char) : Prop :=
  ∃ sg t, n = sg ++ t ∧ (sg = [] ∨ sg = ['-'] ∨ sg = ['+']) ∧ NumTxt t

/-- The text does not begin with a number. -/
def NoNumber (t : List Char) : Prop := ∀ n r, t = n ++ r → ¬ Signed n

end NC.Spec.Wanted
