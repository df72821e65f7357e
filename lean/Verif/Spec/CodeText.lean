import Verif.Base

/-!
# Texts that name a code
-/

namespace NC.Spec.CodeText
open NC

/-- A blank or one of the controls from tabulator to return. -/
def White (c : Char) : Prop := c = ' ' ∨ (9 ≤ c.toNat ∧ c.toNat ≤ 13)

/-- A whole number of 32 bits: digits, with white space around them and perhaps a sign; a minus only before zero. -/
def Whole (s : Str) (n : Nat) : Prop :=
  ∃ w sign d w', s = w ++ (sign ++ (d ++ w')) ∧ (∀ c ∈ w ++ w', White c) ∧ (sign = [] ∨ sign = ['+'] ∨ (sign = ['-'] ∧ n = 0)) ∧
    d ≠ [] ∧ (∀ c ∈ d, '0' ≤ c ∧ c ≤ '9') ∧ d.foldl (fun k c => k * 10 + (c.toNat - 48)) 0 = n ∧ n < 4294967296

/-- A code: a whole number, or two of them with a point between. -/
def Names (s : Str) (c : Nat × Nat) : Prop :=
  ('.' ∉ s ∧ Whole s c.1 ∧ c.2 = 0) ∨ ∃ x y, s = x ++ '.' :: y ∧ '.' ∉ x ∧ Whole x c.1 ∧ Whole y c.2

end NC.Spec.CodeText
