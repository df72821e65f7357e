import Verif.Grammar

/-! # The shipped word tables of the Fanuc mill (conf/fanuc_mill/grammar.json)

The order is that of the file; all other shipped controls have the same words. -/

namespace NC.Gram
open NC NC.Message

/-- `metric` (conf/fanuc_mill/grammar.json). -/
def millMetric : WordMap :=
  [(c!",C", ⟨c!",C", -9999, 9999, 0, 9999, false, .misc⟩),
   (c!",R", ⟨c!",R", -9999, 9999, 0, 9999, false, .misc⟩),
   (c!":", ⟨c!":", 0, 9999, 0, 0, false, .numbering⟩),
   (c!"#", ⟨c!"#", 0, 99999, 0, 0, false, .macro⟩),
   (c!"=", ⟨c!"=", -99999, 99999, 0, 9999, false, .calc⟩),
   (c!"+", ⟨c!"+", -99999, 99999, 0, 9999, false, .calc⟩),
   (c!"-", ⟨c!"-", -99999, 99999, 0, 9999, false, .calc⟩),
   (c!"*", ⟨c!"*", -99999, 99999, 0, 9999, false, .calc⟩),
   (c!"/", ⟨c!"/", -9999, 9999, 0, 9999, false, .calc⟩),
   (c!"A", ⟨c!"A", -99999, 99999, 0, 9999, true, .angle⟩),
   (c!"A2", ⟨c!"A2", -99999, 99999, 0, 9999, true, .assignable⟩),
   (c!"B", ⟨c!"B", -99999, 99999, 0, 9999, true, .angle⟩),
   (c!"B2", ⟨c!"B2", -99999, 99999, 0, 9999, true, .assignable⟩),
   (c!"C", ⟨c!"C", -99999, 99999, 0, 9999, true, .angle⟩),
   (c!"C2", ⟨c!"C2", -99999, 99999, 0, 9999, true, .assignable⟩),
   (c!"D", ⟨c!"D", -999, 999, 0, 999, false, .misc⟩),
   (c!"F", ⟨c!"F", 0, 99999, 0, 99999, false, .feed⟩),
   (c!"G", ⟨c!"G", 0, 999, 0, 9, false, .code⟩),
   (c!"H", ⟨c!"H", -999, 999, 0, 999, false, .misc⟩),
   (c!"I", ⟨c!"I", -99999, 99999, 0, 99999999, true, .length⟩),
   (c!"J", ⟨c!"J", -99999, 99999, 0, 99999999, true, .length⟩),
   (c!"K", ⟨c!"K", -99999, 99999, 0, 99999999, true, .length⟩),
   (c!"L", ⟨c!"L", -9999, 9999, 0, 0, false, .misc⟩),
   (c!"M", ⟨c!"M", 0, 999, 0, 0, false, .code⟩),
   (c!"N", ⟨c!"N", 1, 99999, 0, 0, false, .numbering⟩),
   (c!"P", ⟨c!"P", 0, 99999, 0, 999, false, .misc⟩),
   (c!"Q", ⟨c!"Q", -9999, 9999, 0, 999, false, .misc⟩),
   (c!"R", ⟨c!"R", -99999, 99999, 0, 9999, true, .length⟩),
   (c!"S", ⟨c!"S", 1, 99999, 0, 0, false, .misc⟩),
   (c!"S1", ⟨c!"S1", 0, 99999, 0, 0, false, .assignable⟩),
   (c!"S2", ⟨c!"S2", 0, 99999, 0, 0, false, .assignable⟩),
   (c!"S3", ⟨c!"S3", 0, 99999, 0, 0, false, .assignable⟩),
   (c!"T", ⟨c!"T", 0, 9999, 0, 0, false, .misc⟩),
   (c!"X", ⟨c!"X", -99999, 99999, 0, 9999, true, .length⟩),
   (c!"Y", ⟨c!"Y", -99999, 99999, 0, 9999, true, .length⟩),
   (c!"Z", ⟨c!"Z", -99999, 99999, 0, 9999, true, .length⟩),
   (c!"U", ⟨c!"U", -99999, 99999, 0, 9999, true, .length⟩),
   (c!"V", ⟨c!"V", -99999, 99999, 0, 9999, true, .length⟩),
   (c!"W", ⟨c!"W", -99999, 99999, 0, 9999, true, .length⟩),
   (c!"GOTO", ⟨c!"GOTO", 1, 99999, 0, 0, false, .misc⟩)]

/-- `imperial` (conf/fanuc_mill/grammar.json). -/
def millImperial : WordMap :=
  [(c!",C", ⟨c!",C", -999, 999, 0, 9999, false, .misc⟩),
   (c!",R", ⟨c!",R", -999, 999, 0, 9999, false, .misc⟩),
   (c!":", ⟨c!":", 0, 9999, 0, 0, false, .numbering⟩),
   (c!"#", ⟨c!"#", 0, 99999, 0, 0, false, .macro⟩),
   (c!"=", ⟨c!"=", -9999, 9999, 0, 9999, false, .calc⟩),
   (c!"+", ⟨c!"+", -9999, 9999, 0, 9999, false, .calc⟩),
   (c!"-", ⟨c!"-", -9999, 9999, 0, 9999, false, .calc⟩),
   (c!"*", ⟨c!"*", -9999, 9999, 0, 9999, false, .calc⟩),
   (c!"/", ⟨c!"/", -9999, 9999, 0, 9999, false, .calc⟩),
   (c!"A", ⟨c!"A", -9999, 9999, 0, 9999, true, .angle⟩),
   (c!"A2", ⟨c!"A2", -9999, 9999, 0, 9999, true, .assignable⟩),
   (c!"B", ⟨c!"B", -9999, 9999, 0, 9999, true, .angle⟩),
   (c!"B2", ⟨c!"B2", -9999, 9999, 0, 9999, true, .assignable⟩),
   (c!"C", ⟨c!"C", -9999, 9999, 0, 9999, true, .angle⟩),
   (c!"C2", ⟨c!"C2", -9999, 9999, 0, 9999, true, .assignable⟩),
   (c!"D", ⟨c!"D", -999, 999, 0, 999, false, .misc⟩),
   (c!"F", ⟨c!"F", 0, 9999, 0, 9999, false, .feed⟩),
   (c!"G", ⟨c!"G", 0, 999, 0, 9, false, .code⟩),
   (c!"H", ⟨c!"H", -999, 999, 0, 999, false, .misc⟩),
   (c!"I", ⟨c!"I", -9999, 9999, 0, 9999, true, .length⟩),
   (c!"J", ⟨c!"J", -9999, 9999, 0, 9999, true, .length⟩),
   (c!"K", ⟨c!"K", -9999, 9999, 0, 9999, true, .length⟩),
   (c!"L", ⟨c!"L", -9999, 9999, 0, 0, false, .misc⟩),
   (c!"M", ⟨c!"M", 0, 999, 0, 0, false, .code⟩),
   (c!"N", ⟨c!"N", 1, 99999, 0, 0, false, .numbering⟩),
   (c!"P", ⟨c!"P", 0, 99999, 0, 999, false, .misc⟩),
   (c!"Q", ⟨c!"Q", -999, 999, 0, 9999, false, .misc⟩),
   (c!"R", ⟨c!"R", -9999, 9999, 0, 9999, true, .length⟩),
   (c!"S", ⟨c!"S", 1, 99999, 0, 0, false, .misc⟩),
   (c!"S1", ⟨c!"S1", 0, 99999, 0, 0, false, .assignable⟩),
   (c!"S2", ⟨c!"S2", 0, 99999, 0, 0, false, .assignable⟩),
   (c!"S3", ⟨c!"S3", 0, 99999, 0, 0, false, .assignable⟩),
   (c!"T", ⟨c!"T", 0, 9999, 0, 0, false, .misc⟩),
   (c!"X", ⟨c!"X", -9999, 9999, 0, 9999, true, .length⟩),
   (c!"Y", ⟨c!"Y", -9999, 9999, 0, 9999, true, .length⟩),
   (c!"Z", ⟨c!"Z", -9999, 9999, 0, 9999, true, .length⟩),
   (c!"U", ⟨c!"U", -9999, 9999, 0, 9999, true, .length⟩),
   (c!"V", ⟨c!"V", -9999, 9999, 0, 9999, true, .length⟩),
   (c!"W", ⟨c!"W", -9999, 9999, 0, 9999, true, .length⟩),
   (c!"GOTO", ⟨c!"GOTO", 1, 99999, 0, 0, false, .misc⟩)]

/-- `operations` (conf/fanuc_mill/grammar.json:3-31). -/
def millOps : List Str :=
  [c!"SIN", c!"COS", c!"TAN", c!"ATAN", c!"SQRT", c!"ABS", c!"ROUND", c!"FIX", c!"FUP", c!"OR", c!"XOR", c!"AND", c!"BIN", c!"BCD", c!"OR", c!"XOR", c!"AND", c!"IF", c!"WHILE", c!"DO", c!"END", c!"EQ", c!"NE", c!"GT", c!"GE", c!"LT", c!"LE"]

/-- The grammar object of a parser for the Fanuc mill with metric default units. -/
def mill : Gram := built millMetric millMetric millOps (.known .English)

end NC.Gram
