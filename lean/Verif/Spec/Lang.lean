/-!
# Specification: texts that are macro expressions

A Prop-valued grammar (with blanks, both bracket shapes and exponents),
independent of the parser model.
-/

namespace NC.Spec

/-- Only blanks. -/
def Blank (b : List Char) : Prop := ∀ c ∈ b, c = ' ' ∨ c = '\t'

/-- Only decimal digits. -/
def Digits (b : List Char) : Prop := ∀ c ∈ b, '0' ≤ c ∧ c ≤ '9'

/-- Exponent part: absent, or `e`/`E`, optional sign, digits. -/
inductive ExpTxt : List Char → Prop
  | none : ExpTxt []
  | exp {c : Char} {sg ds : List Char} : (c = 'e' ∨ c = 'E') → (sg = [] ∨ sg = ['-'] ∨ sg = ['+']) →
      Digits ds → ds ≠ [] → ExpTxt (c :: sg ++ ds)

/-- Unsigned decimal number. -/
inductive NumTxt : List Char → Prop
  | int {ip ex : List Char} : Digits ip → ip ≠ [] → ExpTxt ex → NumTxt (ip ++ ex)
  | frac {ip fp ex : List Char} : Digits ip → Digits fp → (ip ≠ [] ∨ fp ≠ []) → ExpTxt ex →
      NumTxt (ip ++ '.' :: fp ++ ex)

mutual
/-- Expression text. -/
inductive IsExpr : List Char → Prop
  | one {t : List Char} : IsTerm t → IsExpr t
  | bin {e b op t : List Char} : IsExpr e → Blank b → op ∈ [['+'], ['-'], ['O', 'R'], ['X', 'O', 'R']] → IsTerm t →
      IsExpr (e ++ b ++ op ++ t)
/-- Term text. -/
inductive IsTerm : List Char → Prop
  | one {f : List Char} : IsFactor f → IsTerm f
  | bin {t b op f : List Char} : IsTerm t → Blank b → op ∈ [['*'], ['/'], ['A', 'N', 'D'], ['M', 'O', 'D']] →
      IsFactor f → IsTerm (t ++ b ++ op ++ f)
/-- Factor text. -/
inductive IsFactor : List Char → Prop
  | num {b sg n : List Char} : Blank b → (sg = [] ∨ sg = ['-'] ∨ sg = ['+']) → NumTxt n → IsFactor (b ++ sg ++ n)
  | br {b e b' : List Char} {o c : Char} : Blank b → (o = '(' ∨ o = '[') → IsExpr e → Blank b' →
      (c = ')' ∨ c = ']') → IsFactor (b ++ o :: e ++ b' ++ [c])
  | sgn {b f : List Char} {c : Char} : Blank b → (c = '-' ∨ c = '+' ∨ c = '#') → IsFactor f → IsFactor (b ++ c :: f)
  | fn {b name b1 e b2 : List Char} {o c : Char} : Blank b →
      name ∈ ["ABS", "ACOS", "ASIN", "ATAN", "FUP", "COS", "COSH", "EXP", "FIX", "LOG10", "LOG", "SIN",
        "SINH", "SQRT", "TAN", "TANH", "ROUND", "BCD", "BIN"].map String.toList →
      Blank b1 → (o = '(' ∨ o = '[') → IsExpr e → Blank b2 → (c = ')' ∨ c = ']') →
      IsFactor (b ++ name ++ b1 ++ o :: e ++ b2 ++ [c])
end

end NC.Spec
