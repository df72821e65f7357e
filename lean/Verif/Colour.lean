import Verif.Base

/-!
# The syntax definition of the extension

`syntaxes/ncproj.tmLanguage.json` colours comments; `language-configuration.json`
says how the editor comments a line out. Both are run by the editor, whose rules
are written down here from general knowledge: patterns are tried from the left,
the range between `begin` and `end` has the name of the rule, the patterns inside
it go first where they match further left.
-/

namespace NC.Colour
open NC

/-- Which characters of a line are coloured as comment, from a place outside or
inside of one (ncproj.tmLanguage.json:29-40): a comment begins with `(` or `;`
(32), ends with `)` or the line (33), and a backslash hides the character after it
(34-39). The keywords (13-28) contain neither of the two beginnings, so that they
do not matter here. The text has no line break. -/
def coloured : Bool → Str → List Bool
  | _, [] => []
  | false, c :: t => if c = '(' ∨ c = ';' then true :: coloured true t else false :: coloured false t
  | true, '\\' :: _ :: t => true :: true :: coloured true t
  | true, c :: t => true :: coloured (!decide (c = ')')) t

/-- "Toggle Line Comment" on a line without comment: the sign of
language-configuration.json:4 and a blank in front of the first character that is
no blank. -/
def commentOut (s : Str) : Str :=
  s.takeWhile (fun c => c = ' ' ∨ c = '\t') ++ '#' :: ' ' :: s.dropWhile (fun c => c = ' ' ∨ c = '\t')

end NC.Colour
