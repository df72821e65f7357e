import Verif.Status

/-!
# The status bar: what is to be shown
-/

namespace NC.Spec.Status
open NC

/-- White space: the controls from tabulator to return, the separators of Unicode and the byte order mark. -/
def Blank (c : Char) : Prop :=
  (9 ≤ c.toNat ∧ c.toNat ≤ 13) ∨ c = ' ' ∨ c = '\u00a0' ∨ c = '\u1680' ∨ (0x2000 ≤ c.toNat ∧ c.toNat ≤ 0x200a) ∨ c = '\u2028' ∨ c = '\u2029' ∨
    c = '\u202f' ∨ c = '\u205f' ∨ c = '\u3000' ∨ c = '\ufeff'

/-- The object has a member; if it is given several times the last one counts. -/
def Has (m : List (Str × JFile.J)) (k : Str) (v : JFile.J) : Prop := ∃ a b, m = a ++ (k, v) :: b ∧ ∀ e ∈ b, e.1 ≠ k

/-- `u` is `t` without the white space around it. -/
def Inside (t u : Str) : Prop :=
  ∃ a b, t = a ++ (u ++ b) ∧ (∀ c ∈ a ++ b, Blank c) ∧ (∀ c, u.head? = some c ∨ u.getLast? = some c → ¬ Blank c)

/-- A name and its extension: a dot and what stands behind the last dot. -/
def Extension (m e : Str) : Prop := m ≠ [] ∧ m ++ e ≠ c!".." ∧ ∃ r, e = '.' :: r ∧ '.' ∉ r

/-- A text stands in another only at its end. -/
def OnlyAtEnd (e s : Str) : Prop := ∀ a b, s = a ++ (e ++ b) → b = []

end NC.Spec.Status
