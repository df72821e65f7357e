import Verif.Grammar
import Verif.Removal
import Verif.Verifiers

/-!
# Fanuc lines: parser_ut/fanuc/AllAttributesParserTest.cpp

What the tests of the repository expect of the line parser, and what the model gives.  These are tests of the model, not proofs about
the program: each case is evaluated by the kernel.
-/

namespace NC.Agreement
open NC NC.Gram NC.Message

/-- The word grammar of the test (AllAttributesParserTest.cpp). -/
def lineWords : WordMap := [
  (c!"N", ⟨c!"N", 1, 9999, 0, 0, false, .numbering⟩),
  (c!":", ⟨c!":", 1, 9999, 0, 0, false, .numbering⟩),
  (c!"#", ⟨c!"#", 1, 9999, 0, 0, false, .macro⟩),
  (c!"G", ⟨c!"G", 1, 99, 1, 9, false, .code⟩),
  (c!"M", ⟨c!"M", 1, 999, 0, 0, false, .code⟩),
  (c!"D", ⟨c!"D", -999, 999, 0, 0, false, .misc⟩),
  (c!"F", ⟨c!"F", 0, 999, 0, 9999, false, .feed⟩),
  (c!"T", ⟨c!"T", 1, 999, 0, 0, false, .misc⟩),
  (c!"C", ⟨c!"C", -999, 999, 0, 9999, true, .length⟩),
  (c!"X", ⟨c!"X", -999, 999, 0, 9999, true, .length⟩),
  (c!"Y", ⟨c!"Y", -999, 999, 0, 9999, true, .length⟩),
  (c!"Z", ⟨c!"Z", -999, 999, 0, 9999, true, .length⟩),
  (c!"C2", ⟨c!"C2", -999, 999, 0, 9999, true, .assignable⟩),
  (c!",C", ⟨c!",C", -999, 999, 0, 9999, false, .misc⟩),
  (c!",R", ⟨c!",R", -999, 999, 0, 9999, false, .misc⟩),
  (c!"=", ⟨c!"=", -999, 999, 0, 9999, false, .calc⟩),
  (c!"+", ⟨c!"+", -999, 999, 0, 9999, false, .calc⟩),
  (c!"-", ⟨c!"-", -999, 999, 0, 9999, false, .calc⟩),
  (c!"*", ⟨c!"*", -999, 999, 0, 9999, false, .calc⟩),
  (c!"/", ⟨c!"/", -999, 999, 0, 9999, false, .calc⟩),
  (c!"GOTO", ⟨c!"GOTO", 1, 9999, 0, 0, false, .misc⟩)]

/-- The operations of the test. -/
def lineOps : List Str := [c!"SIN", c!"COS", c!"TAN", c!"ATAN", c!"SQRT", c!"ABS", c!"ROUND", c!"FIX", c!"FUP", c!"OR", c!"XOR", c!"AND", c!"BIN", c!"BCD", c!"OR", c!"XOR", c!"AND", c!"IF", c!"WHILE", c!"DO", c!"END", c!"EQ", c!"LE"]

/-- `parse` on one line: whether it succeeds, and the words delivered. -/
def lineRead (s : Str) : Bool × Block :=
  match (phrase (built lineWords lineWords lineOps (.known .Polish)) {} s).2 with
  | .accept b => ((match Ver.uniqueCode lineWords b with | .ok _ => true | _ => false), b)
  | .reject => (false, [])
  | .expect b _ => (false, b)
  | .raise b _ => (false, b)

-- AllAttributesParserTest.cpp:163
example : lineRead c!"G10" =
    (true, [.dec ⟨c!"G", none, none, none, none, (some c!"10"), none, none, none⟩]) := by decide +kernel

-- AllAttributesParserTest.cpp:169
example : lineRead c!":100 G02" =
    (true, [.dec ⟨c!":", none, none, none, none, (some c!"100"), none, none, none⟩, .dec ⟨c!"G", none, none, none, none, (some c!"02"), none, none, none⟩]) := by decide +kernel

-- AllAttributesParserTest.cpp:174
example : lineRead c!"G2.2 X-100" =
    (true, [.dec ⟨c!"G", none, none, none, none, (some c!"2"), (some '.'), (some c!"2"), none⟩, .dec ⟨c!"X", none, (some '-'), none, none, (some c!"100"), none, none, none⟩]) := by decide +kernel

-- AllAttributesParserTest.cpp:179
example : lineRead c!"G2.2 X-100.055" =
    (true, [.dec ⟨c!"G", none, none, none, none, (some c!"2"), (some '.'), (some c!"2"), none⟩, .dec ⟨c!"X", none, (some '-'), none, none, (some c!"100"), (some '.'), (some c!"055"), none⟩]) := by decide +kernel

-- AllAttributesParserTest.cpp:184
example : lineRead c!"N100 G02 X100 Y200. Z300.55 M14" =
    (true, [.dec ⟨c!"N", none, none, none, none, (some c!"100"), none, none, none⟩, .dec ⟨c!"G", none, none, none, none, (some c!"02"), none, none, none⟩, .dec ⟨c!"X", none, none, none, none, (some c!"100"), none, none, none⟩, .dec ⟨c!"Y", none, none, none, none, (some c!"200"), (some '.'), none, none⟩, .dec ⟨c!"Z", none, none, none, none, (some c!"300"), (some '.'), (some c!"55"), none⟩, .dec ⟨c!"M", none, none, none, none, (some c!"14"), none, none, none⟩]) := by decide +kernel

-- AllAttributesParserTest.cpp:193
example : lineRead c!"N100G02X100Y200.Z300.55M14" =
    (true, [.dec ⟨c!"N", none, none, none, none, (some c!"100"), none, none, none⟩, .dec ⟨c!"G", none, none, none, none, (some c!"02"), none, none, none⟩, .dec ⟨c!"X", none, none, none, none, (some c!"100"), none, none, none⟩, .dec ⟨c!"Y", none, none, none, none, (some c!"200"), (some '.'), none, none⟩, .dec ⟨c!"Z", none, none, none, none, (some c!"300"), (some '.'), (some c!"55"), none⟩, .dec ⟨c!"M", none, none, none, none, (some c!"14"), none, none, none⟩]) := by decide +kernel

-- AllAttributesParserTest.cpp:202
example : lineRead c!"G2.2 -100" =
    (false, [.dec ⟨c!"G", none, none, none, none, (some c!"2"), (some '.'), (some c!"2"), none⟩]) := by decide +kernel

-- AllAttributesParserTest.cpp:204
example : lineRead c!"G2.2 100" =
    (false, [.dec ⟨c!"G", none, none, none, none, (some c!"2"), (some '.'), (some c!"2"), none⟩]) := by decide +kernel

-- AllAttributesParserTest.cpp:206
example : lineRead c!"G2.2 X-100 Z" =
    (false, [.dec ⟨c!"G", none, none, none, none, (some c!"2"), (some '.'), (some c!"2"), none⟩, .dec ⟨c!"X", none, (some '-'), none, none, (some c!"100"), none, none, none⟩]) := by decide +kernel

-- AllAttributesParserTest.cpp:211
example : lineRead c!"M30F" =
    (false, [.dec ⟨c!"M", none, none, none, none, (some c!"30"), none, none, none⟩]) := by decide +kernel

-- AllAttributesParserTest.cpp:213
example : lineRead c!"M-30" =
    (false, []) := by decide +kernel

-- AllAttributesParserTest.cpp:215
example : lineRead c!"X-100." =
    (true, [.dec ⟨c!"X", none, (some '-'), none, none, (some c!"100"), (some '.'), none, none⟩]) := by decide +kernel

-- AllAttributesParserTest.cpp:217
example : lineRead c!"X-100.55" =
    (true, [.dec ⟨c!"X", none, (some '-'), none, none, (some c!"100"), (some '.'), (some c!"55"), none⟩]) := by decide +kernel

-- AllAttributesParserTest.cpp:220
example : lineRead c!"X-100.55 4" =
    (false, [.dec ⟨c!"X", none, (some '-'), none, none, (some c!"100"), (some '.'), (some c!"55"), none⟩]) := by decide +kernel

-- AllAttributesParserTest.cpp:223
example : lineRead c!"X-100 55" =
    (false, [.dec ⟨c!"X", none, (some '-'), none, none, (some c!"100"), none, none, none⟩]) := by decide +kernel

-- AllAttributesParserTest.cpp:225
example : lineRead c!"X-100. 55" =
    (false, [.dec ⟨c!"X", none, (some '-'), none, none, (some c!"100"), (some '.'), none, none⟩]) := by decide +kernel

-- AllAttributesParserTest.cpp:227
example : lineRead c!"T5 55" =
    (false, [.dec ⟨c!"T", none, none, none, none, (some c!"5"), none, none, none⟩]) := by decide +kernel

-- AllAttributesParserTest.cpp:229
example : lineRead c!",R5" =
    (true, [.dec ⟨c!",R", none, none, none, none, (some c!"5"), none, none, none⟩]) := by decide +kernel

-- AllAttributesParserTest.cpp:231
example : lineRead c!",C7" =
    (true, [.dec ⟨c!",C", none, none, none, none, (some c!"7"), none, none, none⟩]) := by decide +kernel

-- AllAttributesParserTest.cpp:233
example : lineRead c!"A7" =
    (false, []) := by decide +kernel

-- AllAttributesParserTest.cpp:235
example : lineRead c!"N100000" =
    (false, []) := by decide +kernel

-- AllAttributesParserTest.cpp:237
example : lineRead c!"X-100000" =
    (false, []) := by decide +kernel

-- AllAttributesParserTest.cpp:239
example : lineRead c!"X-100000." =
    (false, []) := by decide +kernel

-- AllAttributesParserTest.cpp:241
example : lineRead c!"X-100000.5364365" =
    (false, []) := by decide +kernel

-- AllAttributesParserTest.cpp:243
example : lineRead c!"X-10.543634654" =
    (false, []) := by decide +kernel

-- AllAttributesParserTest.cpp:245
example : lineRead c!"G2.2 X.1" =
    (true, [.dec ⟨c!"G", none, none, none, none, (some c!"2"), (some '.'), (some c!"2"), none⟩, .dec ⟨c!"X", none, none, none, none, none, (some '.'), (some c!"1"), none⟩]) := by decide +kernel

-- AllAttributesParserTest.cpp:250
example : lineRead c!"G2.2 X-.1" =
    (true, [.dec ⟨c!"G", none, none, none, none, (some c!"2"), (some '.'), (some c!"2"), none⟩, .dec ⟨c!"X", none, (some '-'), none, none, none, (some '.'), (some c!"1"), none⟩]) := by decide +kernel

-- AllAttributesParserTest.cpp:255
example : lineRead c!"D-4" =
    (true, [.dec ⟨c!"D", none, (some '-'), none, none, (some c!"4"), none, none, none⟩]) := by decide +kernel

-- AllAttributesParserTest.cpp:257
example : lineRead c!"D40" =
    (true, [.dec ⟨c!"D", none, none, none, none, (some c!"40"), none, none, none⟩]) := by decide +kernel

-- AllAttributesParserTest.cpp:259
example : lineRead c!"F.1" =
    (true, [.dec ⟨c!"F", none, none, none, none, none, (some '.'), (some c!"1"), none⟩]) := by decide +kernel

-- AllAttributesParserTest.cpp:261
example : lineRead c!"/G02" =
    (true, [.dec ⟨c!"/", none, none, none, none, none, none, none, none⟩, .dec ⟨c!"G", none, none, none, none, (some c!"02"), none, none, none⟩]) := by decide +kernel

-- AllAttributesParserTest.cpp:264
example : lineRead c!"/ G02" =
    (true, [.dec ⟨c!"/", none, none, none, none, none, none, none, none⟩, .dec ⟨c!"G", none, none, none, none, (some c!"02"), none, none, none⟩]) := by decide +kernel

-- AllAttributesParserTest.cpp:267
example : lineRead c!"/1 G02" =
    (true, [.dec ⟨c!"/", none, none, none, none, (some c!"1"), none, none, none⟩, .dec ⟨c!"G", none, none, none, none, (some c!"02"), none, none, none⟩]) := by decide +kernel

-- AllAttributesParserTest.cpp:272
example : lineRead c!"/1/2 G02" =
    (true, [.dec ⟨c!"/", none, none, none, none, (some c!"1"), none, none, none⟩, .dec ⟨c!"/", none, none, none, none, (some c!"2"), none, none, none⟩, .dec ⟨c!"G", none, none, none, none, (some c!"02"), none, none, none⟩]) := by decide +kernel

-- AllAttributesParserTest.cpp:278
example : lineRead c!"// G02" =
    (false, []) := by decide +kernel

-- AllAttributesParserTest.cpp:280
example : lineRead c!"//2 G02" =
    (false, []) := by decide +kernel

-- AllAttributesParserTest.cpp:282
example : lineRead c!":100 , G02" =
    (true, [.dec ⟨c!":", none, none, none, none, (some c!"100"), none, none, none⟩, .chr c!"," '\x00', .dec ⟨c!"G", none, none, none, none, (some c!"02"), none, none, none⟩]) := by decide +kernel

-- AllAttributesParserTest.cpp:287
example : lineRead c!":100 ,G02" =
    (false, [.dec ⟨c!":", none, none, none, none, (some c!"100"), none, none, none⟩]) := by decide +kernel

-- AllAttributesParserTest.cpp:289
example : lineRead c!":100,G02" =
    (false, [.dec ⟨c!":", none, none, none, none, (some c!"100"), none, none, none⟩]) := by decide +kernel

-- AllAttributesParserTest.cpp:291
example : lineRead c!":100, G02" =
    (true, [.dec ⟨c!":", none, none, none, none, (some c!"100"), none, none, none⟩, .chr c!"," '\x00', .dec ⟨c!"G", none, none, none, none, (some c!"02"), none, none, none⟩]) := by decide +kernel

-- AllAttributesParserTest.cpp:296
example : lineRead c!"#10=5" =
    (true, [.dec ⟨c!"#", none, none, none, none, (some c!"10"), none, none, none⟩, .dec ⟨c!"=", none, none, none, none, (some c!"5"), none, none, none⟩]) := by decide +kernel

-- AllAttributesParserTest.cpp:303
example : lineRead c!"#10=#20" =
    (true, [.dec ⟨c!"#", none, none, none, none, (some c!"10"), none, none, none⟩, .dec ⟨c!"=", none, none, none, (some c!"#"), (some c!"20"), none, none, none⟩]) := by decide +kernel

-- AllAttributesParserTest.cpp:310
example : lineRead c!"#10=#20+5" =
    (true, [.dec ⟨c!"#", none, none, none, none, (some c!"10"), none, none, none⟩, .dec ⟨c!"=", none, none, none, (some c!"#"), (some c!"20"), none, none, none⟩, .dec ⟨c!"+", none, none, none, none, (some c!"5"), none, none, none⟩]) := by decide +kernel

-- AllAttributesParserTest.cpp:318
example : lineRead c!"#10=#20/#30" =
    (true, [.dec ⟨c!"#", none, none, none, none, (some c!"10"), none, none, none⟩, .dec ⟨c!"=", none, none, none, (some c!"#"), (some c!"20"), none, none, none⟩, .dec ⟨c!"/", none, none, none, (some c!"#"), (some c!"30"), none, none, none⟩]) := by decide +kernel

-- AllAttributesParserTest.cpp:326
example : lineRead c!"#10=#20-#30" =
    (true, [.dec ⟨c!"#", none, none, none, none, (some c!"10"), none, none, none⟩, .dec ⟨c!"=", none, none, none, (some c!"#"), (some c!"20"), none, none, none⟩, .dec ⟨c!"-", none, none, none, (some c!"#"), (some c!"30"), none, none, none⟩]) := by decide +kernel

-- AllAttributesParserTest.cpp:334
example : lineRead c!"#10=#20-30" =
    (true, [.dec ⟨c!"#", none, none, none, none, (some c!"10"), none, none, none⟩, .dec ⟨c!"=", none, none, none, (some c!"#"), (some c!"20"), none, none, none⟩, .dec ⟨c!"-", none, none, none, none, (some c!"30"), none, none, none⟩]) := by decide +kernel

-- AllAttributesParserTest.cpp:342
example : lineRead c!"#10=6*7" =
    (true, [.dec ⟨c!"#", none, none, none, none, (some c!"10"), none, none, none⟩, .dec ⟨c!"=", none, none, none, none, (some c!"6"), none, none, none⟩, .dec ⟨c!"*", none, none, none, none, (some c!"7"), none, none, none⟩]) := by decide +kernel

-- AllAttributesParserTest.cpp:350
example : lineRead c!"#10=-5-#20" =
    (true, [.dec ⟨c!"#", none, none, none, none, (some c!"10"), none, none, none⟩, .dec ⟨c!"=", none, (some '-'), none, none, (some c!"5"), none, none, none⟩, .dec ⟨c!"-", none, none, none, (some c!"#"), (some c!"20"), none, none, none⟩]) := by decide +kernel

-- AllAttributesParserTest.cpp:358
example : lineRead c!"G-#10" =
    (true, [.dec ⟨c!"G", none, (some '-'), none, (some c!"#"), (some c!"10"), none, none, none⟩]) := by decide +kernel

-- AllAttributesParserTest.cpp:364
example : lineRead c!"G#10" =
    (true, [.dec ⟨c!"G", none, none, none, (some c!"#"), (some c!"10"), none, none, none⟩]) := by decide +kernel

-- AllAttributesParserTest.cpp:370
example : lineRead c!"M98 T-#1" =
    (true, [.dec ⟨c!"M", none, none, none, none, (some c!"98"), none, none, none⟩, .dec ⟨c!"T", none, (some '-'), none, (some c!"#"), (some c!"1"), none, none, none⟩]) := by decide +kernel

-- AllAttributesParserTest.cpp:377
example : lineRead c!"N100T#101T#102M6(#6 CENTER DRILL)" =
    (true, [.dec ⟨c!"N", none, none, none, none, (some c!"100"), none, none, none⟩, .dec ⟨c!"T", none, none, none, (some c!"#"), (some c!"101"), none, none, none⟩, .dec ⟨c!"T", none, none, none, (some c!"#"), (some c!"102"), none, none, none⟩, .dec ⟨c!"M", none, none, none, none, (some c!"6"), none, none, none⟩, .str c!"(" c!"#6 CENTER DRILL"]) := by decide +kernel

-- AllAttributesParserTest.cpp:385
example : lineRead c!"#[#1+#2-12]" =
    (true, [.dec ⟨c!"#", none, none, (some c!"["), (some c!"#"), (some c!"1"), none, none, none⟩, .dec ⟨c!"+", none, none, none, (some c!"#"), (some c!"2"), none, none, none⟩, .dec ⟨c!"-", none, none, none, none, (some c!"12"), none, none, (some c!"]")⟩]) := by decide +kernel

-- AllAttributesParserTest.cpp:393
example : lineRead c!"G01X[#1+#2]F#3" =
    (true, [.dec ⟨c!"G", none, none, none, none, (some c!"01"), none, none, none⟩, .dec ⟨c!"X", none, none, (some c!"["), (some c!"#"), (some c!"1"), none, none, none⟩, .dec ⟨c!"+", none, none, none, (some c!"#"), (some c!"2"), none, none, (some c!"]")⟩, .dec ⟨c!"F", none, none, none, (some c!"#"), (some c!"3"), none, none, none⟩]) := by decide +kernel

-- AllAttributesParserTest.cpp:402
example : lineRead c!"G01 X-[#1-#2] F#9" =
    (true, [.dec ⟨c!"G", none, none, none, none, (some c!"01"), none, none, none⟩, .dec ⟨c!"X", none, (some '-'), (some c!"["), (some c!"#"), (some c!"1"), none, none, none⟩, .dec ⟨c!"-", none, none, none, (some c!"#"), (some c!"2"), none, none, (some c!"]")⟩, .dec ⟨c!"F", none, none, none, (some c!"#"), (some c!"9"), none, none, none⟩]) := by decide +kernel

-- AllAttributesParserTest.cpp:411
example : lineRead c!"X-[-#1+#2]" =
    (true, [.dec ⟨c!"X", none, (some '-'), (some c!"["), none, none, none, none, none⟩, .dec ⟨c!"-", none, none, none, (some c!"#"), (some c!"1"), none, none, none⟩, .dec ⟨c!"+", none, none, none, (some c!"#"), (some c!"2"), none, none, (some c!"]")⟩]) := by decide +kernel

-- AllAttributesParserTest.cpp:419
example : lineRead c!"T-[-#1+#2]" =
    (true, [.dec ⟨c!"T", none, (some '-'), (some c!"["), none, none, none, none, none⟩, .dec ⟨c!"-", none, none, none, (some c!"#"), (some c!"1"), none, none, none⟩, .dec ⟨c!"+", none, none, none, (some c!"#"), (some c!"2"), none, none, (some c!"]")⟩]) := by decide +kernel

-- AllAttributesParserTest.cpp:427
example : lineRead c!"#2=BIN[#1]" =
    (true, [.dec ⟨c!"#", none, none, none, none, (some c!"2"), none, none, none⟩, .dec ⟨c!"=", none, none, none, none, none, none, none, none⟩, .dec ⟨c!"BIN", none, none, (some c!"["), (some c!"#"), (some c!"1"), none, none, (some c!"]")⟩]) := by decide +kernel

-- AllAttributesParserTest.cpp:436
example : lineRead c!"#1=SIN[[[#2+#3]*#4+#5]*#6]" =
    (true, [.dec ⟨c!"#", none, none, none, none, (some c!"1"), none, none, none⟩, .dec ⟨c!"=", none, none, none, none, none, none, none, none⟩, .dec ⟨c!"SIN", none, none, (some c!"[[["), (some c!"#"), (some c!"2"), none, none, none⟩, .dec ⟨c!"+", none, none, none, (some c!"#"), (some c!"3"), none, none, (some c!"]")⟩, .dec ⟨c!"*", none, none, none, (some c!"#"), (some c!"4"), none, none, none⟩, .dec ⟨c!"+", none, none, none, (some c!"#"), (some c!"5"), none, none, (some c!"]")⟩, .dec ⟨c!"*", none, none, none, (some c!"#"), (some c!"6"), none, none, (some c!"]")⟩]) := by decide +kernel

-- AllAttributesParserTest.cpp:448
example : lineRead c!"#101=#100/2" =
    (true, [.dec ⟨c!"#", none, none, none, none, (some c!"101"), none, none, none⟩, .dec ⟨c!"=", none, none, none, (some c!"#"), (some c!"100"), none, none, none⟩, .dec ⟨c!"/", none, none, none, none, (some c!"2"), none, none, none⟩]) := by decide +kernel

-- AllAttributesParserTest.cpp:456
example : lineRead c!"#113=8/2" =
    (true, [.dec ⟨c!"#", none, none, none, none, (some c!"113"), none, none, none⟩, .dec ⟨c!"=", none, none, none, none, (some c!"8"), none, none, none⟩, .dec ⟨c!"/", none, none, none, none, (some c!"2"), none, none, none⟩]) := by decide +kernel

-- AllAttributesParserTest.cpp:464
example : lineRead c!"#113=8*2" =
    (true, [.dec ⟨c!"#", none, none, none, none, (some c!"113"), none, none, none⟩, .dec ⟨c!"=", none, none, none, none, (some c!"8"), none, none, none⟩, .dec ⟨c!"*", none, none, none, none, (some c!"2"), none, none, none⟩]) := by decide +kernel

-- AllAttributesParserTest.cpp:472
example : lineRead c!"#113=[8/2]" =
    (true, [.dec ⟨c!"#", none, none, none, none, (some c!"113"), none, none, none⟩, .dec ⟨c!"=", none, none, (some c!"["), none, (some c!"8"), none, none, none⟩, .dec ⟨c!"/", none, none, none, none, (some c!"2"), none, none, (some c!"]")⟩]) := by decide +kernel

-- AllAttributesParserTest.cpp:480
example : lineRead c!"#113=8/2]" =
    (false, [.dec ⟨c!"#", none, none, none, none, (some c!"113"), none, none, none⟩, .dec ⟨c!"=", none, none, none, none, (some c!"8"), none, none, none⟩]) := by decide +kernel

-- AllAttributesParserTest.cpp:487
example : lineRead c!"#113=[8*2]" =
    (true, [.dec ⟨c!"#", none, none, none, none, (some c!"113"), none, none, none⟩, .dec ⟨c!"=", none, none, (some c!"["), none, (some c!"8"), none, none, none⟩, .dec ⟨c!"*", none, none, none, none, (some c!"2"), none, none, (some c!"]")⟩]) := by decide +kernel

-- AllAttributesParserTest.cpp:495
example : lineRead c!"#113=8*2]" =
    (false, [.dec ⟨c!"#", none, none, none, none, (some c!"113"), none, none, none⟩, .dec ⟨c!"=", none, none, none, none, (some c!"8"), none, none, none⟩]) := by decide +kernel

-- AllAttributesParserTest.cpp:502
example : lineRead c!"#113=[[8/2]]" =
    (true, [.dec ⟨c!"#", none, none, none, none, (some c!"113"), none, none, none⟩, .dec ⟨c!"=", none, none, (some c!"[["), none, (some c!"8"), none, none, none⟩, .dec ⟨c!"/", none, none, none, none, (some c!"2"), none, none, (some c!"]]")⟩]) := by decide +kernel

-- AllAttributesParserTest.cpp:510
example : lineRead c!"#113=[8/2]]" =
    (false, [.dec ⟨c!"#", none, none, none, none, (some c!"113"), none, none, none⟩, .dec ⟨c!"=", none, none, (some c!"["), none, (some c!"8"), none, none, none⟩]) := by decide +kernel

-- AllAttributesParserTest.cpp:517
example : lineRead c!"#113=8/2]]" =
    (false, [.dec ⟨c!"#", none, none, none, none, (some c!"113"), none, none, none⟩, .dec ⟨c!"=", none, none, none, none, (some c!"8"), none, none, none⟩]) := by decide +kernel

-- AllAttributesParserTest.cpp:524
example : lineRead c!"#113=[[8*2]]" =
    (true, [.dec ⟨c!"#", none, none, none, none, (some c!"113"), none, none, none⟩, .dec ⟨c!"=", none, none, (some c!"[["), none, (some c!"8"), none, none, none⟩, .dec ⟨c!"*", none, none, none, none, (some c!"2"), none, none, (some c!"]]")⟩]) := by decide +kernel

-- AllAttributesParserTest.cpp:532
example : lineRead c!"#113=[8*2]]" =
    (false, [.dec ⟨c!"#", none, none, none, none, (some c!"113"), none, none, none⟩, .dec ⟨c!"=", none, none, (some c!"["), none, (some c!"8"), none, none, none⟩]) := by decide +kernel

-- AllAttributesParserTest.cpp:539
example : lineRead c!"#113=8*2]]" =
    (false, [.dec ⟨c!"#", none, none, none, none, (some c!"113"), none, none, none⟩, .dec ⟨c!"=", none, none, none, none, (some c!"8"), none, none, none⟩]) := by decide +kernel

-- AllAttributesParserTest.cpp:546
example : lineRead c!"#3=#1 OR #2" =
    (true, [.dec ⟨c!"#", none, none, none, none, (some c!"3"), none, none, none⟩, .dec ⟨c!"=", none, none, none, (some c!"#"), (some c!"1"), none, none, none⟩, .dec ⟨c!"OR", none, none, none, (some c!"#"), (some c!"2"), none, none, none⟩]) := by decide +kernel

-- AllAttributesParserTest.cpp:554
example : lineRead c!"GOTO#2" =
    (true, [.dec ⟨c!"GOTO", none, none, none, (some c!"#"), (some c!"2"), none, none, none⟩]) := by decide +kernel

-- AllAttributesParserTest.cpp:560
example : lineRead c!"GOTO2" =
    (true, [.dec ⟨c!"GOTO", none, none, none, none, (some c!"2"), none, none, none⟩]) := by decide +kernel

-- AllAttributesParserTest.cpp:566
example : lineRead c!"IF[#19EQ0]GOTO10" =
    (true, [.dec ⟨c!"IF", none, none, (some c!"["), (some c!"#"), (some c!"19"), none, none, none⟩, .dec ⟨c!"EQ", none, none, none, none, (some c!"0"), none, none, (some c!"]")⟩, .dec ⟨c!"GOTO", none, none, none, none, (some c!"10"), none, none, none⟩]) := by decide +kernel

-- AllAttributesParserTest.cpp:574
example : lineRead c!"WHILE[#2 LE 10]DO 1" =
    (true, [.dec ⟨c!"WHILE", none, none, (some c!"["), (some c!"#"), (some c!"2"), none, none, none⟩, .dec ⟨c!"LE", none, none, none, none, (some c!"10"), none, none, (some c!"]")⟩, .dec ⟨c!"DO", none, none, none, none, (some c!"1"), none, none, none⟩]) := by decide +kernel

-- AllAttributesParserTest.cpp:582
example : lineRead c!"END 1" =
    (true, [.dec ⟨c!"END", none, none, none, none, (some c!"1"), none, none, none⟩]) := by decide +kernel

-- AllAttributesParserTest.cpp:588
example : lineRead c!"M10." =
    (false, []) := by decide +kernel

-- AllAttributesParserTest.cpp:590
example : lineRead c!"#5=[#3-20]/5*SQRT[ABS[-#1+#2]]" =
    (true, [.dec ⟨c!"#", none, none, none, none, (some c!"5"), none, none, none⟩, .dec ⟨c!"=", none, none, (some c!"["), (some c!"#"), (some c!"3"), none, none, none⟩, .dec ⟨c!"-", none, none, none, none, (some c!"20"), none, none, (some c!"]")⟩, .dec ⟨c!"/", none, none, none, none, (some c!"5"), none, none, none⟩, .dec ⟨c!"*", none, none, none, none, none, none, none, none⟩, .dec ⟨c!"SQRT", none, none, (some c!"["), none, none, none, none, none⟩, .dec ⟨c!"ABS", none, none, (some c!"["), none, none, none, none, none⟩, .dec ⟨c!"-", none, none, none, (some c!"#"), (some c!"1"), none, none, none⟩, .dec ⟨c!"+", none, none, none, (some c!"#"), (some c!"2"), none, none, (some c!"]]")⟩]) := by decide +kernel

-- AllAttributesParserTest.cpp:604
example : lineRead c!"N100 G02 X100 Y200. Z300.55 M14 X200" =
    (false, [.dec ⟨c!"N", none, none, none, none, (some c!"100"), none, none, none⟩, .dec ⟨c!"G", none, none, none, none, (some c!"02"), none, none, none⟩, .dec ⟨c!"X", none, none, none, none, (some c!"100"), none, none, none⟩, .dec ⟨c!"Y", none, none, none, none, (some c!"200"), (some '.'), none, none⟩, .dec ⟨c!"Z", none, none, none, none, (some c!"300"), (some '.'), (some c!"55"), none⟩, .dec ⟨c!"M", none, none, none, none, (some c!"14"), none, none, none⟩, .dec ⟨c!"X", none, none, none, none, (some c!"200"), none, none, none⟩]) := by decide +kernel

-- AllAttributesParserTest.cpp:614
example : lineRead c!"C2=5" =
    (true, [.dec ⟨c!"C2", (some '='), none, none, none, (some c!"5"), none, none, none⟩]) := by decide +kernel

-- AllAttributesParserTest.cpp:620
example : lineRead c!"C2 = 5" =
    (true, [.dec ⟨c!"C2", (some '='), none, none, none, (some c!"5"), none, none, none⟩]) := by decide +kernel

-- AllAttributesParserTest.cpp:626
example : lineRead c!"C25" =
    (true, [.dec ⟨c!"C", none, none, none, none, (some c!"25"), none, none, none⟩]) := by decide +kernel

-- AllAttributesParserTest.cpp:632
example : lineRead c!"G1 Z[-7.8-#26]" =
    (true, [.dec ⟨c!"G", none, none, none, none, (some c!"1"), none, none, none⟩, .dec ⟨c!"Z", none, none, (some c!"["), none, none, none, none, none⟩, .dec ⟨c!"-", none, none, none, none, (some c!"7"), (some '.'), (some c!"8"), none⟩, .dec ⟨c!"-", none, none, none, (some c!"#"), (some c!"26"), none, none, (some c!"]")⟩]) := by decide +kernel

-- AllAttributesParserTest.cpp:644
example : lineRead c!"%" =
    (true, [.chr c!"%" '\x00']) := by decide +kernel

-- AllAttributesParserTest.cpp:646
example : lineRead c!"%   " =
    (true, [.chr c!"%" '\x00']) := by decide +kernel

-- AllAttributesParserTest.cpp:648
example : lineRead c!"%j" =
    (false, []) := by decide +kernel

-- AllAttributesParserTest.cpp:650
example : lineRead c!"%5" =
    (false, []) := by decide +kernel

-- AllAttributesParserTest.cpp:652
example : lineRead c!"% X100" =
    (false, []) := by decide +kernel

-- AllAttributesParserTest.cpp:657
example : lineRead c!"O1234" =
    (true, [.str c!"O" c!"1234"]) := by decide +kernel

-- AllAttributesParserTest.cpp:659
example : lineRead c!"O1234     " =
    (true, [.str c!"O" c!"1234"]) := by decide +kernel

-- AllAttributesParserTest.cpp:661
example : lineRead c!"OA" =
    (true, [.str c!"O" c!"A"]) := by decide +kernel

-- AllAttributesParserTest.cpp:663
example : lineRead c!"O12" =
    (true, [.str c!"O" c!"12"]) := by decide +kernel

-- AllAttributesParserTest.cpp:665
example : lineRead c!"O1234." =
    (false, [.str c!"O" c!"1234"]) := by decide +kernel

-- AllAttributesParserTest.cpp:667
example : lineRead c!"O1234.5" =
    (false, [.str c!"O" c!"1234"]) := by decide +kernel

-- AllAttributesParserTest.cpp:669
example : lineRead c!"O1234A" =
    (true, [.str c!"O" c!"1234A"]) := by decide +kernel

-- AllAttributesParserTest.cpp:671
example : lineRead c!"O12.34" =
    (false, [.str c!"O" c!"12"]) := by decide +kernel

-- AllAttributesParserTest.cpp:673
example : lineRead c!"O1234 A50" =
    (false, [.str c!"O" c!"1234"]) := by decide +kernel

-- AllAttributesParserTest.cpp:675
example : lineRead c!"O1234 O1234" =
    (false, [.str c!"O" c!"1234"]) := by decide +kernel

-- AllAttributesParserTest.cpp:677
example : lineRead c!"O0000" =
    (true, [.str c!"O" c!"0000"]) := by decide +kernel

-- AllAttributesParserTest.cpp:679
example : lineRead c!"O00001" =
    (true, [.str c!"O" c!"00001"]) := by decide +kernel

-- AllAttributesParserTest.cpp:681
example : lineRead c!"O44444" =
    (true, [.str c!"O" c!"44444"]) := by decide +kernel

-- AllAttributesParserTest.cpp:683
example : lineRead c!"O1" =
    (true, [.str c!"O" c!"1"]) := by decide +kernel

-- AllAttributesParserTest.cpp:685
example : lineRead c!"O" =
    (false, []) := by decide +kernel

-- AllAttributesParserTest.cpp:687
example : lineRead c!"O1234(comment)" =
    (true, [.str c!"O" c!"1234", .str c!"(" c!"comment"]) := by decide +kernel

-- AllAttributesParserTest.cpp:693
example : lineRead c!"(This is my comment! )" =
    (true, [.str c!"(" c!"This is my comment! "]) := by decide +kernel

-- AllAttributesParserTest.cpp:695
example : lineRead c!"()" =
    (true, [.str c!"(" []]) := by decide +kernel

-- AllAttributesParserTest.cpp:697
example : lineRead c!"(This is my comment! )    " =
    (true, [.str c!"(" c!"This is my comment! "]) := by decide +kernel

-- AllAttributesParserTest.cpp:699
example : lineRead c!"N50 ( Yet another comment)" =
    (true, [.dec ⟨c!"N", none, none, none, none, (some c!"50"), none, none, none⟩, .str c!"(" c!" Yet another comment"]) := by decide +kernel

-- AllAttributesParserTest.cpp:704
example : lineRead c!"(This is my comment!" =
    (false, []) := by decide +kernel

-- AllAttributesParserTest.cpp:710
example : lineRead c!"This is my comment!)" =
    (false, []) := by decide +kernel

-- AllAttributesParserTest.cpp:716
example : lineRead ['(', '1', '/', '2', '"', ' ', 'D', 'R', 'I', 'L', 'L', ')'] =
    (true, [.str c!"(" ['1', '/', '2', '"', ' ', 'D', 'R', 'I', 'L', 'L']]) := by decide +kernel

-- AllAttributesParserTest.cpp:721
example : (fun r => (r.1, Removal.removeComment r.2)) (lineRead c!"(This is my comment! )") =
    (true, []) := by decide +kernel

-- AllAttributesParserTest.cpp:727
example : (fun r => (r.1, Removal.removeComment r.2)) (lineRead c!"()") =
    (true, []) := by decide +kernel

-- AllAttributesParserTest.cpp:733
example : (fun r => (r.1, Removal.removeComment r.2)) (lineRead c!"(This is my comment! )    ") =
    (true, []) := by decide +kernel

-- AllAttributesParserTest.cpp:739
example : (fun r => (r.1, Removal.removeComment r.2)) (lineRead c!"N50 ( Yet another comment)") =
    (true, [.dec ⟨c!"N", none, none, none, none, (some c!"50"), none, none, none⟩]) := by decide +kernel

-- AllAttributesParserTest.cpp:745
example : (fun r => (r.1, Removal.removeComment r.2)) (lineRead c!"(This is my comment!") =
    (false, []) := by decide +kernel

-- AllAttributesParserTest.cpp:751
example : (fun r => (r.1, Removal.removeComment r.2)) (lineRead c!"This is my comment!)") =
    (false, []) := by decide +kernel

-- AllAttributesParserTest.cpp:757
example : (fun r => (r.1, Removal.removeComment r.2)) (lineRead ['(', '1', '/', '2', '"', ' ', 'D', 'R', 'I', 'L', 'L', ')']) =
    (true, []) := by decide +kernel

-- AllAttributesParserTest.cpp:766
example : (fun r => (r.1, Removal.removeOptional r.2)) (lineRead c!"/G02") =
    (true, [.dec ⟨c!"/", none, none, none, none, none, none, none, none⟩, .dec ⟨c!"G", none, none, none, none, (some c!"02"), none, none, none⟩]) := by decide +kernel

-- AllAttributesParserTest.cpp:770
example : (fun r => (r.1, Removal.removeOptional r.2)) (lineRead c!"/ G02") =
    (true, [.dec ⟨c!"/", none, none, none, none, none, none, none, none⟩, .dec ⟨c!"G", none, none, none, none, (some c!"02"), none, none, none⟩]) := by decide +kernel

-- AllAttributesParserTest.cpp:774
example : (fun r => (r.1, Removal.removeOptional r.2)) (lineRead c!"/] G02") =
    (false, []) := by decide +kernel

-- AllAttributesParserTest.cpp:776
example : (fun r => (r.1, Removal.removeOptional r.2)) (lineRead c!"/1 G02") =
    (true, [.dec ⟨c!"G", none, none, none, none, (some c!"02"), none, none, none⟩]) := by decide +kernel

-- AllAttributesParserTest.cpp:778
example : (fun r => (r.1, Removal.removeOptional r.2)) (lineRead c!"/1] G02") =
    (false, []) := by decide +kernel

-- AllAttributesParserTest.cpp:780
example : (fun r => (r.1, Removal.removeOptional r.2)) (lineRead c!"/1/2 G02") =
    (true, [.dec ⟨c!"G", none, none, none, none, (some c!"02"), none, none, none⟩]) := by decide +kernel

-- AllAttributesParserTest.cpp:782
example : (fun r => (r.1, Removal.removeOptional r.2)) (lineRead c!"// G02") =
    (false, []) := by decide +kernel

-- AllAttributesParserTest.cpp:784
example : (fun r => (r.1, Removal.removeOptional r.2)) (lineRead c!"//2 G02") =
    (false, []) := by decide +kernel

end NC.Agreement
