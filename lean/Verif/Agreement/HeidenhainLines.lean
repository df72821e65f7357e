import Verif.Heidenhain

/-!
# Heidenhain lines: parser_ut/heidenhain/AllAttributesParserTest.cpp

What the tests of the repository expect of the Heidenhain line parser, and what the model gives.  These are tests of the model, not proofs about
the program: each case is evaluated by the kernel.
-/

namespace NC.Agreement
open NC NC.Hei

/-- `parse` on one line: whether it succeeds, and the items delivered. -/
def heiRead (s : Str) : Bool × List Item :=
  let a := (parseWith {} s).2
  (a.ok, a.words)

-- AllAttributesParserTest.cpp:83
example : heiRead c!";This is my comment! " =
    (true, [.comment ⟨c!"This is my comment! ", false⟩]) := by decide +kernel

-- AllAttributesParserTest.cpp:85
example : heiRead c!"; This is my comment! " =
    (true, [.comment ⟨c!" This is my comment! ", false⟩]) := by decide +kernel

-- AllAttributesParserTest.cpp:87
example : heiRead c!";This is my comment! ~" =
    (true, [.comment ⟨c!"This is my comment! ", true⟩]) := by decide +kernel

-- AllAttributesParserTest.cpp:89
example : heiRead c!";" =
    (true, [.comment ⟨[], false⟩]) := by decide +kernel

-- AllAttributesParserTest.cpp:91
example : heiRead c!";~" =
    (true, [.comment ⟨[], true⟩]) := by decide +kernel

-- AllAttributesParserTest.cpp:93
example : heiRead c!";This is~ my comment!" =
    (false, []) := by decide +kernel

-- AllAttributesParserTest.cpp:95
example : heiRead c!";~This is my comment!" =
    (false, []) := by decide +kernel

-- AllAttributesParserTest.cpp:97
example : heiRead c!";This is my comment! ~~" =
    (false, []) := by decide +kernel

-- AllAttributesParserTest.cpp:99
example : heiRead c!"44 ;This is my comment! " =
    (true, [.number 44, .comment ⟨c!"This is my comment! ", false⟩]) := by decide +kernel

-- AllAttributesParserTest.cpp:102
example : heiRead c!"44;This is my comment! " =
    (false, []) := by decide +kernel

-- AllAttributesParserTest.cpp:107
example : heiRead c!"BEGIN PGM hei530_origins MM" =
    (true, [.program ⟨.start, c!"hei530_origins", .mm⟩]) := by decide +kernel

-- AllAttributesParserTest.cpp:111
example : heiRead c!" BEGIN   PGM    hei530_origins    MM   " =
    (true, [.program ⟨.start, c!"hei530_origins", .mm⟩]) := by decide +kernel

-- AllAttributesParserTest.cpp:115
example : heiRead c!"BEGINPGM hei530_origins MM" =
    (false, []) := by decide +kernel

-- AllAttributesParserTest.cpp:117
example : heiRead c!"BEGIN PGMhei530_origins MM" =
    (false, []) := by decide +kernel

-- AllAttributesParserTest.cpp:119
example : heiRead c!"BEGIN PGM hei530_originsMM" =
    (false, []) := by decide +kernel

-- AllAttributesParserTest.cpp:121
example : heiRead c!"0 BEGIN PGM hei530_origins MM" =
    (true, [.number 0, .program ⟨.start, c!"hei530_origins", .mm⟩]) := by decide +kernel

-- AllAttributesParserTest.cpp:126
example : heiRead c!"0    BEGIN PGM hei530_origins MM" =
    (true, [.number 0, .program ⟨.start, c!"hei530_origins", .mm⟩]) := by decide +kernel

-- AllAttributesParserTest.cpp:131
example : heiRead c!"0\tBEGIN PGM hei530_origins MM" =
    (true, [.number 0, .program ⟨.start, c!"hei530_origins", .mm⟩]) := by decide +kernel

-- AllAttributesParserTest.cpp:136
example : heiRead c!"0BEGIN PGM hei530_origins MM" =
    (false, []) := by decide +kernel

-- AllAttributesParserTest.cpp:138
example : heiRead c!"BEGIN hei530_origins MM" =
    (false, []) := by decide +kernel

-- AllAttributesParserTest.cpp:140
example : heiRead c!"BEGIN PGMbug hei530_origins MM" =
    (false, []) := by decide +kernel

-- AllAttributesParserTest.cpp:142
example : heiRead c!"BEGINbug PGM hei530_origins MM" =
    (false, []) := by decide +kernel

-- AllAttributesParserTest.cpp:144
example : heiRead c!"3 BEGIN bug PGM hei530_origins MM" =
    (false, [.number 3]) := by decide +kernel

-- AllAttributesParserTest.cpp:150
example : heiRead c!"BEGIN PGM hei530 origins MM" =
    (false, []) := by decide +kernel

-- AllAttributesParserTest.cpp:152
example : heiRead c!"BEGIN PGM hei530_origins MMbug" =
    (false, []) := by decide +kernel

-- AllAttributesParserTest.cpp:154
example : heiRead c!"BEGIN PGM hei530_origins MM bug" =
    (false, []) := by decide +kernel

-- AllAttributesParserTest.cpp:156
example : heiRead c!"END PGM hei530_origins INCH" =
    (true, [.program ⟨.finish, c!"hei530_origins", .inch⟩]) := by decide +kernel

-- AllAttributesParserTest.cpp:160
example : heiRead c!"8 END PGM hei530_origins INCH" =
    (true, [.number 8, .program ⟨.finish, c!"hei530_origins", .inch⟩]) := by decide +kernel

-- AllAttributesParserTest.cpp:165
example : heiRead c!"-8 END PGM hei530_origins INCH" =
    (false, []) := by decide +kernel

-- AllAttributesParserTest.cpp:167
example : heiRead c!"8. END PGM hei530_origins INCH" =
    (false, []) := by decide +kernel

-- AllAttributesParserTest.cpp:169
example : heiRead c!"8.2 END PGM hei530_origins INCH" =
    (false, []) := by decide +kernel

-- AllAttributesParserTest.cpp:171
example : heiRead c!"8,2 END PGM hei530_origins INCH" =
    (false, []) := by decide +kernel

-- AllAttributesParserTest.cpp:173
example : heiRead c!"0 BEGIN PGM hei530_origins MM ;This is my comment! " =
    (true, [.number 0, .program ⟨.start, c!"hei530_origins", .mm⟩, .comment ⟨c!"This is my comment! ", false⟩]) := by decide +kernel

-- AllAttributesParserTest.cpp:179
example : heiRead c!"0 BEGIN PGM hei530_origins MM;This is my comment! " =
    (false, [.number 0]) := by decide +kernel

-- AllAttributesParserTest.cpp:188
example : heiRead c!"1 BLK FORM 0.1 Z X+0 Y+0 Z-50" =
    (true, [.number 1, .general ⟨c!"BLK", none, none, none, none, none, none⟩, .general ⟨c!"FORM", none, none, (some c!"0"), (some '.'), (some c!"1"), none⟩, .general ⟨c!"Z", none, none, none, none, none, none⟩, .general ⟨c!"X", (some '+'), none, (some c!"0"), none, none, none⟩, .general ⟨c!"Y", (some '+'), none, (some c!"0"), none, none, none⟩, .general ⟨c!"Z", (some '-'), none, (some c!"50"), none, none, none⟩]) := by decide +kernel

-- AllAttributesParserTest.cpp:200
example : heiRead c!"2 BLK FORM 0.2 X+100 Y+100 Z+0" =
    (true, [.number 2, .general ⟨c!"BLK", none, none, none, none, none, none⟩, .general ⟨c!"FORM", none, none, (some c!"0"), (some '.'), (some c!"2"), none⟩, .general ⟨c!"X", (some '+'), none, (some c!"100"), none, none, none⟩, .general ⟨c!"Y", (some '+'), none, (some c!"100"), none, none, none⟩, .general ⟨c!"Z", (some '+'), none, (some c!"0"), none, none, none⟩]) := by decide +kernel

-- AllAttributesParserTest.cpp:211
example : heiRead c!"3 TOOL DEF 6 L+7.5 R+3" =
    (true, [.number 3, .general ⟨c!"TOOL", none, none, none, none, none, none⟩, .general ⟨c!"DEF", none, none, (some c!"6"), none, none, none⟩, .general ⟨c!"L", (some '+'), none, (some c!"7"), (some '.'), (some c!"5"), none⟩, .general ⟨c!"R", (some '+'), none, (some c!"3"), none, none, none⟩]) := by decide +kernel

-- AllAttributesParserTest.cpp:221
example : heiRead c!"4 TOOL CALL 6 Z S2000 F650 DL+1 DR+0.5" =
    (true, [.number 4, .general ⟨c!"TOOL", none, none, none, none, none, none⟩, .general ⟨c!"CALL", none, none, (some c!"6"), none, none, none⟩, .general ⟨c!"Z", none, none, none, none, none, none⟩, .general ⟨c!"S", none, none, (some c!"2000"), none, none, none⟩, .general ⟨c!"F", none, none, (some c!"650"), none, none, none⟩, .general ⟨c!"DL", (some '+'), none, (some c!"1"), none, none, none⟩, .general ⟨c!"DR", (some '+'), none, (some c!"0"), (some '.'), (some c!"5"), none⟩]) := by decide +kernel

-- AllAttributesParserTest.cpp:234
example : heiRead c!"5 L Z+100 R0 FMAX" =
    (true, [.number 5, .general ⟨c!"L", none, none, none, none, none, none⟩, .general ⟨c!"Z", (some '+'), none, (some c!"100"), none, none, none⟩, .general ⟨c!"R", none, none, (some c!"0"), none, none, none⟩, .general ⟨c!"FMAX", none, none, none, none, none, none⟩]) := by decide +kernel

-- AllAttributesParserTest.cpp:244
example : heiRead c!"6 L X-10 Y-10 R0 FMAX M6" =
    (true, [.number 6, .general ⟨c!"L", none, none, none, none, none, none⟩, .general ⟨c!"X", (some '-'), none, (some c!"10"), none, none, none⟩, .general ⟨c!"Y", (some '-'), none, (some c!"10"), none, none, none⟩, .general ⟨c!"R", none, none, (some c!"0"), none, none, none⟩, .general ⟨c!"FMAX", none, none, none, none, none, none⟩, .general ⟨c!"M", none, none, (some c!"6"), none, none, none⟩]) := by decide +kernel

-- AllAttributesParserTest.cpp:256
example : heiRead c!"8 APPR LT X+20 Y+20 LEN 15 RR F100" =
    (true, [.number 8, .general ⟨c!"APPR", none, none, none, none, none, none⟩, .general ⟨c!"LT", none, none, none, none, none, none⟩, .general ⟨c!"X", (some '+'), none, (some c!"20"), none, none, none⟩, .general ⟨c!"Y", (some '+'), none, (some c!"20"), none, none, none⟩, .general ⟨c!"LEN", none, none, (some c!"15"), none, none, none⟩, .general ⟨c!"RR", none, none, none, none, none, none⟩, .general ⟨c!"F", none, none, (some c!"100"), none, none, none⟩]) := by decide +kernel

-- AllAttributesParserTest.cpp:269
example : heiRead c!"9 L X+35 Y+35" =
    (true, [.number 9, .general ⟨c!"L", none, none, none, none, none, none⟩, .general ⟨c!"X", (some '+'), none, (some c!"35"), none, none, none⟩, .general ⟨c!"Y", (some '+'), none, (some c!"35"), none, none, none⟩]) := by decide +kernel

-- AllAttributesParserTest.cpp:278
example : heiRead c!"8 APPR LN X+10 Y+20 LEN 15 RR F100" =
    (true, [.number 8, .general ⟨c!"APPR", none, none, none, none, none, none⟩, .general ⟨c!"LN", none, none, none, none, none, none⟩, .general ⟨c!"X", (some '+'), none, (some c!"10"), none, none, none⟩, .general ⟨c!"Y", (some '+'), none, (some c!"20"), none, none, none⟩, .general ⟨c!"LEN", none, none, (some c!"15"), none, none, none⟩, .general ⟨c!"RR", none, none, none, none, none, none⟩, .general ⟨c!"F", none, none, (some c!"100"), none, none, none⟩]) := by decide +kernel

-- AllAttributesParserTest.cpp:291
example : heiRead c!"8 APPR CT X+10 Y+20 CCA 180 R10 RR F100" =
    (true, [.number 8, .general ⟨c!"APPR", none, none, none, none, none, none⟩, .general ⟨c!"CT", none, none, none, none, none, none⟩, .general ⟨c!"X", (some '+'), none, (some c!"10"), none, none, none⟩, .general ⟨c!"Y", (some '+'), none, (some c!"20"), none, none, none⟩, .general ⟨c!"CCA", none, none, (some c!"180"), none, none, none⟩, .general ⟨c!"R", none, none, (some c!"10"), none, none, none⟩, .general ⟨c!"RR", none, none, none, none, none, none⟩, .general ⟨c!"F", none, none, (some c!"100"), none, none, none⟩]) := by decide +kernel

-- AllAttributesParserTest.cpp:305
example : heiRead c!"8 APPR LCT X+10 Y+20 R10 RR F100" =
    (true, [.number 8, .general ⟨c!"APPR", none, none, none, none, none, none⟩, .general ⟨c!"LCT", none, none, none, none, none, none⟩, .general ⟨c!"X", (some '+'), none, (some c!"10"), none, none, none⟩, .general ⟨c!"Y", (some '+'), none, (some c!"20"), none, none, none⟩, .general ⟨c!"R", none, none, (some c!"10"), none, none, none⟩, .general ⟨c!"RR", none, none, none, none, none, none⟩, .general ⟨c!"F", none, none, (some c!"100"), none, none, none⟩]) := by decide +kernel

-- AllAttributesParserTest.cpp:318
example : heiRead c!"23 L X+30 Y+35 RR F100" =
    (true, [.number 23, .general ⟨c!"L", none, none, none, none, none, none⟩, .general ⟨c!"X", (some '+'), none, (some c!"30"), none, none, none⟩, .general ⟨c!"Y", (some '+'), none, (some c!"35"), none, none, none⟩, .general ⟨c!"RR", none, none, none, none, none, none⟩, .general ⟨c!"F", none, none, (some c!"100"), none, none, none⟩]) := by decide +kernel

-- AllAttributesParserTest.cpp:329
example : heiRead c!"24 L Y+20 RR F100" =
    (true, [.number 24, .general ⟨c!"L", none, none, none, none, none, none⟩, .general ⟨c!"Y", (some '+'), none, (some c!"20"), none, none, none⟩, .general ⟨c!"RR", none, none, none, none, none, none⟩, .general ⟨c!"F", none, none, (some c!"100"), none, none, none⟩]) := by decide +kernel

-- AllAttributesParserTest.cpp:339
example : heiRead c!"25 DEP LT LEN 12.5 F100 M2" =
    (true, [.number 25, .general ⟨c!"DEP", none, none, none, none, none, none⟩, .general ⟨c!"LT", none, none, none, none, none, none⟩, .general ⟨c!"LEN", none, none, (some c!"12"), (some '.'), (some c!"5"), none⟩, .general ⟨c!"F", none, none, (some c!"100"), none, none, none⟩, .general ⟨c!"M", none, none, (some c!"2"), none, none, none⟩]) := by decide +kernel

-- AllAttributesParserTest.cpp:350
example : heiRead c!"25 DEP LN LEN+20 F100 M2" =
    (true, [.number 25, .general ⟨c!"DEP", none, none, none, none, none, none⟩, .general ⟨c!"LN", none, none, none, none, none, none⟩, .general ⟨c!"LEN", (some '+'), none, (some c!"20"), none, none, none⟩, .general ⟨c!"F", none, none, (some c!"100"), none, none, none⟩, .general ⟨c!"M", none, none, (some c!"2"), none, none, none⟩]) := by decide +kernel

-- AllAttributesParserTest.cpp:361
example : heiRead c!"25 DEP CT CCA 180 R+8 F100 M2" =
    (true, [.number 25, .general ⟨c!"DEP", none, none, none, none, none, none⟩, .general ⟨c!"CT", none, none, none, none, none, none⟩, .general ⟨c!"CCA", none, none, (some c!"180"), none, none, none⟩, .general ⟨c!"R", (some '+'), none, (some c!"8"), none, none, none⟩, .general ⟨c!"F", none, none, (some c!"100"), none, none, none⟩, .general ⟨c!"M", none, none, (some c!"2"), none, none, none⟩]) := by decide +kernel

-- AllAttributesParserTest.cpp:373
example : heiRead c!"25 DEP LCT X+10 Y+12 R8 F100 M2" =
    (true, [.number 25, .general ⟨c!"DEP", none, none, none, none, none, none⟩, .general ⟨c!"LCT", none, none, none, none, none, none⟩, .general ⟨c!"X", (some '+'), none, (some c!"10"), none, none, none⟩, .general ⟨c!"Y", (some '+'), none, (some c!"12"), none, none, none⟩, .general ⟨c!"R", none, none, (some c!"8"), none, none, none⟩, .general ⟨c!"F", none, none, (some c!"100"), none, none, none⟩, .general ⟨c!"M", none, none, (some c!"2"), none, none, none⟩]) := by decide +kernel

-- AllAttributesParserTest.cpp:386
example : heiRead c!"7 L X+10 Y+40 RL F200 M3" =
    (true, [.number 7, .general ⟨c!"L", none, none, none, none, none, none⟩, .general ⟨c!"X", (some '+'), none, (some c!"10"), none, none, none⟩, .general ⟨c!"Y", (some '+'), none, (some c!"40"), none, none, none⟩, .general ⟨c!"RL", none, none, none, none, none, none⟩, .general ⟨c!"F", none, none, (some c!"200"), none, none, none⟩, .general ⟨c!"M", none, none, (some c!"3"), none, none, none⟩]) := by decide +kernel

-- AllAttributesParserTest.cpp:398
example : heiRead c!"8 L IX+20 IY-15" =
    (true, [.number 8, .general ⟨c!"L", none, none, none, none, none, none⟩, .general ⟨c!"IX", (some '+'), none, (some c!"20"), none, none, none⟩, .general ⟨c!"IY", (some '-'), none, (some c!"15"), none, none, none⟩]) := by decide +kernel

-- AllAttributesParserTest.cpp:407
example : heiRead c!"9 L X+60 IY-10" =
    (true, [.number 9, .general ⟨c!"L", none, none, none, none, none, none⟩, .general ⟨c!"X", (some '+'), none, (some c!"60"), none, none, none⟩, .general ⟨c!"IY", (some '-'), none, (some c!"10"), none, none, none⟩]) := by decide +kernel

-- AllAttributesParserTest.cpp:416
example : heiRead c!"12 CC X+45 Y+25" =
    (true, [.number 12, .general ⟨c!"CC", none, none, none, none, none, none⟩, .general ⟨c!"X", (some '+'), none, (some c!"45"), none, none, none⟩, .general ⟨c!"Y", (some '+'), none, (some c!"25"), none, none, none⟩]) := by decide +kernel

-- AllAttributesParserTest.cpp:425
example : heiRead c!"13 LP PR+30 PA+0 RR F300 M3" =
    (true, [.number 13, .general ⟨c!"LP", none, none, none, none, none, none⟩, .general ⟨c!"PR", (some '+'), none, (some c!"30"), none, none, none⟩, .general ⟨c!"PA", (some '+'), none, (some c!"0"), none, none, none⟩, .general ⟨c!"RR", none, none, none, none, none, none⟩, .general ⟨c!"F", none, none, (some c!"300"), none, none, none⟩, .general ⟨c!"M", none, none, (some c!"3"), none, none, none⟩]) := by decide +kernel

-- AllAttributesParserTest.cpp:437
example : heiRead c!"14 LP PA+60" =
    (true, [.number 14, .general ⟨c!"LP", none, none, none, none, none, none⟩, .general ⟨c!"PA", (some '+'), none, (some c!"60"), none, none, none⟩]) := by decide +kernel

-- AllAttributesParserTest.cpp:445
example : heiRead c!"15 LP IPA+60" =
    (true, [.number 15, .general ⟨c!"LP", none, none, none, none, none, none⟩, .general ⟨c!"IPA", (some '+'), none, (some c!"60"), none, none, none⟩]) := by decide +kernel

-- AllAttributesParserTest.cpp:453
example : heiRead c!"16 LP PA+180" =
    (true, [.number 16, .general ⟨c!"LP", none, none, none, none, none, none⟩, .general ⟨c!"PA", (some '+'), none, (some c!"180"), none, none, none⟩]) := by decide +kernel

-- AllAttributesParserTest.cpp:461
example : heiRead c!"9 CHF 12 F250" =
    (true, [.number 9, .general ⟨c!"CHF", none, none, (some c!"12"), none, none, none⟩, .general ⟨c!"F", none, none, (some c!"250"), none, none, none⟩]) := by decide +kernel

-- AllAttributesParserTest.cpp:469
example : heiRead c!"7 RND R5 F100" =
    (true, [.number 7, .general ⟨c!"RND", none, none, none, none, none, none⟩, .general ⟨c!"R", none, none, (some c!"5"), none, none, none⟩, .general ⟨c!"F", none, none, (some c!"100"), none, none, none⟩]) := by decide +kernel

-- AllAttributesParserTest.cpp:478
example : heiRead c!"7 C X+45 Y+25 DR+" =
    (true, [.number 7, .general ⟨c!"C", none, none, none, none, none, none⟩, .general ⟨c!"X", (some '+'), none, (some c!"45"), none, none, none⟩, .general ⟨c!"Y", (some '+'), none, (some c!"25"), none, none, none⟩, .general ⟨c!"DR", (some '+'), none, none, none, none, none⟩]) := by decide +kernel

-- AllAttributesParserTest.cpp:488
example : heiRead c!"20 CP PA+180 DR+" =
    (true, [.number 20, .general ⟨c!"CP", none, none, none, none, none, none⟩, .general ⟨c!"PA", (some '+'), none, (some c!"180"), none, none, none⟩, .general ⟨c!"DR", (some '+'), none, none, none, none, none⟩]) := by decide +kernel

-- AllAttributesParserTest.cpp:497
example : heiRead c!"11 CR X+70 Y+40 R+20 DR-" =
    (true, [.number 11, .general ⟨c!"CR", none, none, none, none, none, none⟩, .general ⟨c!"X", (some '+'), none, (some c!"70"), none, none, none⟩, .general ⟨c!"Y", (some '+'), none, (some c!"40"), none, none, none⟩, .general ⟨c!"R", (some '+'), none, (some c!"20"), none, none, none⟩, .general ⟨c!"DR", (some '-'), none, none, none, none, none⟩]) := by decide +kernel

-- AllAttributesParserTest.cpp:508
example : heiRead c!"15 CTP PR+30 PA+30" =
    (true, [.number 15, .general ⟨c!"CTP", none, none, none, none, none, none⟩, .general ⟨c!"PR", (some '+'), none, (some c!"30"), none, none, none⟩, .general ⟨c!"PA", (some '+'), none, (some c!"30"), none, none, none⟩]) := by decide +kernel

-- AllAttributesParserTest.cpp:517
example : heiRead c!"15 CP IPA-1800 IZ+5 DR- RL F50" =
    (true, [.number 15, .general ⟨c!"CP", none, none, none, none, none, none⟩, .general ⟨c!"IPA", (some '-'), none, (some c!"1800"), none, none, none⟩, .general ⟨c!"IZ", (some '+'), none, (some c!"5"), none, none, none⟩, .general ⟨c!"DR", (some '-'), none, none, none, none, none⟩, .general ⟨c!"RL", none, none, none, none, none, none⟩, .general ⟨c!"F", none, none, (some c!"50"), none, none, none⟩]) := by decide +kernel

-- AllAttributesParserTest.cpp:529
example : heiRead c!"7 FPOL X+20 Y+30" =
    (true, [.number 7, .general ⟨c!"FPOL", none, none, none, none, none, none⟩, .general ⟨c!"X", (some '+'), none, (some c!"20"), none, none, none⟩, .general ⟨c!"Y", (some '+'), none, (some c!"30"), none, none, none⟩]) := by decide +kernel

-- AllAttributesParserTest.cpp:538
example : heiRead c!"8 FL IX+10 Y+20 RR F100" =
    (true, [.number 8, .general ⟨c!"FL", none, none, none, none, none, none⟩, .general ⟨c!"IX", (some '+'), none, (some c!"10"), none, none, none⟩, .general ⟨c!"Y", (some '+'), none, (some c!"20"), none, none, none⟩, .general ⟨c!"RR", none, none, none, none, none, none⟩, .general ⟨c!"F", none, none, (some c!"100"), none, none, none⟩]) := by decide +kernel

-- AllAttributesParserTest.cpp:549
example : heiRead c!"9 FCT PR+15 IPA+30 DR+ R15" =
    (true, [.number 9, .general ⟨c!"FCT", none, none, none, none, none, none⟩, .general ⟨c!"PR", (some '+'), none, (some c!"15"), none, none, none⟩, .general ⟨c!"IPA", (some '+'), none, (some c!"30"), none, none, none⟩, .general ⟨c!"DR", (some '+'), none, none, none, none, none⟩, .general ⟨c!"R", none, none, (some c!"15"), none, none, none⟩]) := by decide +kernel

-- AllAttributesParserTest.cpp:560
example : heiRead c!"10 FC CCX+20 CCY+15 DR+ R15" =
    (true, [.number 10, .general ⟨c!"FC", none, none, none, none, none, none⟩, .general ⟨c!"CCX", (some '+'), none, (some c!"20"), none, none, none⟩, .general ⟨c!"CCY", (some '+'), none, (some c!"15"), none, none, none⟩, .general ⟨c!"DR", (some '+'), none, none, none, none, none⟩, .general ⟨c!"R", none, none, (some c!"15"), none, none, none⟩]) := by decide +kernel

-- AllAttributesParserTest.cpp:571
example : heiRead c!"13 FC DR+ R15 CCPR+35 CCPA+40" =
    (true, [.number 13, .general ⟨c!"FC", none, none, none, none, none, none⟩, .general ⟨c!"DR", (some '+'), none, none, none, none, none⟩, .general ⟨c!"R", none, none, (some c!"15"), none, none, none⟩, .general ⟨c!"CCPR", (some '+'), none, (some c!"35"), none, none, none⟩, .general ⟨c!"CCPA", (some '+'), none, (some c!"40"), none, none, none⟩]) := by decide +kernel

-- AllAttributesParserTest.cpp:582
example : heiRead c!"13 FC DR- R10 P1X+42.929 P1Y+60.071" =
    (true, [.number 13, .general ⟨c!"FC", none, none, none, none, none, none⟩, .general ⟨c!"DR", (some '-'), none, none, none, none, none⟩, .general ⟨c!"R", none, none, (some c!"10"), none, none, none⟩, .general ⟨c!"P1X", (some '+'), none, (some c!"42"), (some '.'), (some c!"929"), none⟩, .general ⟨c!"P1Y", (some '+'), none, (some c!"60"), (some '.'), (some c!"071"), none⟩]) := by decide +kernel

-- AllAttributesParserTest.cpp:593
example : heiRead c!"14 FLT AN-70 PDX+50 PDY+53 D10" =
    (true, [.number 14, .general ⟨c!"FLT", none, none, none, none, none, none⟩, .general ⟨c!"AN", (some '-'), none, (some c!"70"), none, none, none⟩, .general ⟨c!"PDX", (some '+'), none, (some c!"50"), none, none, none⟩, .general ⟨c!"PDY", (some '+'), none, (some c!"53"), none, none, none⟩, .general ⟨c!"D", none, none, (some c!"10"), none, none, none⟩]) := by decide +kernel

-- AllAttributesParserTest.cpp:604
example : heiRead c!"13 FC DR- R15 CLSD+ CCX+20 CCY+35" =
    (true, [.number 13, .general ⟨c!"FC", none, none, none, none, none, none⟩, .general ⟨c!"DR", (some '-'), none, none, none, none, none⟩, .general ⟨c!"R", none, none, (some c!"15"), none, none, none⟩, .general ⟨c!"CLSD", (some '+'), none, none, none, none, none⟩, .general ⟨c!"CCX", (some '+'), none, (some c!"20"), none, none, none⟩, .general ⟨c!"CCY", (some '+'), none, (some c!"35"), none, none, none⟩]) := by decide +kernel

-- AllAttributesParserTest.cpp:616
example : heiRead c!"17 FCT DR- R+15 CLSD" =
    (true, [.number 17, .general ⟨c!"FCT", none, none, none, none, none, none⟩, .general ⟨c!"DR", (some '-'), none, none, none, none, none⟩, .general ⟨c!"R", (some '+'), none, (some c!"15"), none, none, none⟩, .general ⟨c!"CLSD", none, none, none, none, none, none⟩]) := by decide +kernel

-- AllAttributesParserTest.cpp:626
example : heiRead c!"15 FCT IX+20 DR- R20 CCA+90 RX 13" =
    (true, [.number 15, .general ⟨c!"FCT", none, none, none, none, none, none⟩, .general ⟨c!"IX", (some '+'), none, (some c!"20"), none, none, none⟩, .general ⟨c!"DR", (some '-'), none, none, none, none, none⟩, .general ⟨c!"R", none, none, (some c!"20"), none, none, none⟩, .general ⟨c!"CCA", (some '+'), none, (some c!"90"), none, none, none⟩, .general ⟨c!"RX", none, none, (some c!"13"), none, none, none⟩]) := by decide +kernel

-- AllAttributesParserTest.cpp:638
example : heiRead c!"16 FL IPR+35 PA+0 RPR 13" =
    (true, [.number 16, .general ⟨c!"FL", none, none, none, none, none, none⟩, .general ⟨c!"IPR", (some '+'), none, (some c!"35"), none, none, none⟩, .general ⟨c!"PA", (some '+'), none, (some c!"0"), none, none, none⟩, .general ⟨c!"RPR", none, none, (some c!"13"), none, none, none⟩]) := by decide +kernel

-- AllAttributesParserTest.cpp:648
example : heiRead c!"19 FL LEN 12.5 PAR 17 DP 12.5" =
    (true, [.number 19, .general ⟨c!"FL", none, none, none, none, none, none⟩, .general ⟨c!"LEN", none, none, (some c!"12"), (some '.'), (some c!"5"), none⟩, .general ⟨c!"PAR", none, none, (some c!"17"), none, none, none⟩, .general ⟨c!"DP", none, none, (some c!"12"), (some '.'), (some c!"5"), none⟩]) := by decide +kernel

-- AllAttributesParserTest.cpp:658
example : heiRead c!"20 FSELECT 2" =
    (true, [.number 20, .general ⟨c!"FSELECT", none, none, (some c!"2"), none, none, none⟩]) := by decide +kernel

-- AllAttributesParserTest.cpp:665
example : heiRead c!"21 FL LEN 20 IAN+95" =
    (true, [.number 21, .general ⟨c!"FL", none, none, none, none, none, none⟩, .general ⟨c!"LEN", none, none, (some c!"20"), none, none, none⟩, .general ⟨c!"IAN", (some '+'), none, (some c!"95"), none, none, none⟩]) := by decide +kernel

-- AllAttributesParserTest.cpp:674
example : heiRead c!"22 FL IAN+220 RAN 18" =
    (true, [.number 22, .general ⟨c!"FL", none, none, none, none, none, none⟩, .general ⟨c!"IAN", (some '+'), none, (some c!"220"), none, none, none⟩, .general ⟨c!"RAN", none, none, (some c!"18"), none, none, none⟩]) := by decide +kernel

-- AllAttributesParserTest.cpp:683
example : heiRead c!"17 FC DR- R10 CCA+0 ICCX+20 ICCY-15 RCCX12 RCCY14" =
    (true, [.number 17, .general ⟨c!"FC", none, none, none, none, none, none⟩, .general ⟨c!"DR", (some '-'), none, none, none, none, none⟩, .general ⟨c!"R", none, none, (some c!"10"), none, none, none⟩, .general ⟨c!"CCA", (some '+'), none, (some c!"0"), none, none, none⟩, .general ⟨c!"ICCX", (some '+'), none, (some c!"20"), none, none, none⟩, .general ⟨c!"ICCY", (some '-'), none, (some c!"15"), none, none, none⟩, .general ⟨c!"RCCX", none, none, (some c!"12"), none, none, none⟩, .general ⟨c!"RCCY", none, none, (some c!"14"), none, none, none⟩]) := by decide +kernel

-- AllAttributesParserTest.cpp:697
example : heiRead c!"5 PATTERN DEF" =
    (true, [.number 5, .general ⟨c!"PATTERN", none, none, none, none, none, none⟩, .general ⟨c!"DEF", none, none, none, none, none, none⟩]) := by decide +kernel

-- AllAttributesParserTest.cpp:705
example : heiRead ['8', ' ', 'S', 'E', 'L', ' ', 'P', 'A', 'T', 'T', 'E', 'R', 'N', ' ', '"', 'T', 'A', 'B', '1', '"'] =
    (true, [.number 8, .general ⟨c!"SEL", none, none, none, none, none, none⟩, .general ⟨c!"PATTERN", none, none, none, none, none, none⟩, .general ⟨['"', 'T', 'A', 'B', '1', '"'], none, none, none, none, none, none⟩]) := by decide +kernel

-- AllAttributesParserTest.cpp:714
example : heiRead c!"47 L  A+Q120  C+Q122 FMAX" =
    (true, [.number 47, .general ⟨c!"L", none, none, none, none, none, none⟩, .general ⟨c!"A", (some '+'), (some 'Q'), (some c!"120"), none, none, none⟩, .general ⟨c!"C", (some '+'), (some 'Q'), (some c!"122"), none, none, none⟩, .general ⟨c!"FMAX", none, none, none, none, none, none⟩]) := by decide +kernel

-- AllAttributesParserTest.cpp:724
example : heiRead c!"5  PLANE SPATIAL SPA-90 SPB+Q27 SPC+90 TURN F99999 SEQ-" =
    (true, [.number 5, .general ⟨c!"PLANE", none, none, none, none, none, none⟩, .general ⟨c!"SPATIAL", none, none, none, none, none, none⟩, .general ⟨c!"SPA", (some '-'), none, (some c!"90"), none, none, none⟩, .general ⟨c!"SPB", (some '+'), (some 'Q'), (some c!"27"), none, none, none⟩, .general ⟨c!"SPC", (some '+'), none, (some c!"90"), none, none, none⟩, .general ⟨c!"TURN", none, none, none, none, none, none⟩, .general ⟨c!"F", none, none, (some c!"99999"), none, none, none⟩, .general ⟨c!"SEQ", (some '-'), none, none, none, none, none⟩]) := by decide +kernel

-- AllAttributesParserTest.cpp:738
example : heiRead c!"6  FN 17: SYSWRITE ID 503 NR99 IDX1 =+0" =
    (true, [.number 6, .general ⟨c!"FN", none, none, (some c!"17"), none, none, none⟩, .general ⟨c!":", none, none, none, none, none, none⟩, .general ⟨c!"SYSWRITE", none, none, none, none, none, none⟩, .general ⟨c!"ID", none, none, (some c!"503"), none, none, none⟩, .general ⟨c!"NR", none, none, (some c!"99"), none, none, none⟩, .general ⟨c!"IDX", none, none, (some c!"1"), none, none, none⟩, .general ⟨c!"=", (some '+'), none, (some c!"0"), none, none, none⟩]) := by decide +kernel

-- AllAttributesParserTest.cpp:754
example : heiRead c!"6 CYCL DEF 1.0 WIERCENIE GLEB." =
    (true, [.number 6, .cycle ⟨c!"DEF", (some c!"1"), (some '.'), (some c!"0")⟩, .general ⟨c!"WIERCENIE", none, none, none, none, none, none⟩, .general ⟨c!"GLEB.", none, none, none, none, none, none⟩]) := by decide +kernel

-- AllAttributesParserTest.cpp:763
example : heiRead c!"7 CYCL DEF 1.1 ODSTEP 2" =
    (true, [.number 7, .cycle ⟨c!"DEF", (some c!"1"), (some '.'), (some c!"1")⟩, .general ⟨c!"ODSTEP", none, none, (some c!"2"), none, none, none⟩]) := by decide +kernel

-- AllAttributesParserTest.cpp:771
example : heiRead c!"8 CYCL DEF 1.2 GLEBOKOSC-15" =
    (true, [.number 8, .cycle ⟨c!"DEF", (some c!"1"), (some '.'), (some c!"2")⟩, .general ⟨c!"GLEBOKOSC", (some '-'), none, (some c!"15"), none, none, none⟩]) := by decide +kernel

-- AllAttributesParserTest.cpp:779
example : heiRead c!"10 CYCL DEF 1.4 CZAS ZWL. 1" =
    (true, [.number 10, .cycle ⟨c!"DEF", (some c!"1"), (some '.'), (some c!"4")⟩, .general ⟨c!"CZAS", none, none, none, none, none, none⟩, .general ⟨c!"ZWL.", none, none, (some c!"1"), none, none, none⟩]) := by decide +kernel

-- AllAttributesParserTest.cpp:788
example : heiRead c!"11 CYCL DEF 1.5 F80" =
    (true, [.number 11, .cycle ⟨c!"DEF", (some c!"1"), (some '.'), (some c!"5")⟩, .general ⟨c!"F", none, none, (some c!"80"), none, none, none⟩]) := by decide +kernel

-- AllAttributesParserTest.cpp:796
example : heiRead c!"14 CYCL DEF 4.2 GLEBOKOSC -10" =
    (true, [.number 14, .cycle ⟨c!"DEF", (some c!"4"), (some '.'), (some c!"2")⟩, .general ⟨c!"GLEBOKOSC", (some '-'), none, (some c!"10"), none, none, none⟩]) := by decide +kernel

-- AllAttributesParserTest.cpp:804
example : heiRead c!"15 CYCL DEF 4.3 DOSUW 4 F80" =
    (true, [.number 15, .cycle ⟨c!"DEF", (some c!"4"), (some '.'), (some c!"3")⟩, .general ⟨c!"DOSUW", none, none, (some c!"4"), none, none, none⟩, .general ⟨c!"F", none, none, (some c!"80"), none, none, none⟩]) := by decide +kernel

-- AllAttributesParserTest.cpp:813
example : heiRead c!"16 CYCL DEF 4.4 X80" =
    (true, [.number 16, .cycle ⟨c!"DEF", (some c!"4"), (some '.'), (some c!"4")⟩, .general ⟨c!"X", none, none, (some c!"80"), none, none, none⟩]) := by decide +kernel

-- AllAttributesParserTest.cpp:821
example : heiRead c!"18 CYCL DEF 4.6 F100 DR+ PROMIEN 10" =
    (true, [.number 18, .cycle ⟨c!"DEF", (some c!"4"), (some '.'), (some c!"6")⟩, .general ⟨c!"F", none, none, (some c!"100"), none, none, none⟩, .general ⟨c!"DR", (some '+'), none, none, none, none, none⟩, .general ⟨c!"PROMIEN", none, none, (some c!"10"), none, none, none⟩]) := by decide +kernel

-- AllAttributesParserTest.cpp:832
example : heiRead c!"5 CYCL DEF 14.1 ZNACZNIK KONTURU 1/2/3" =
    (true, [.number 5, .cycle ⟨c!"DEF", (some c!"14"), (some '.'), (some c!"1")⟩, .general ⟨c!"ZNACZNIK", none, none, none, none, none, none⟩, .general ⟨c!"KONTURU", none, none, (some c!"1"), none, none, none⟩, .general ⟨c!"/", none, none, (some c!"2"), none, none, none⟩, .general ⟨c!"/", none, none, (some c!"3"), none, none, none⟩]) := by decide +kernel

-- AllAttributesParserTest.cpp:843
example : heiRead c!"7 CYCL DEF 30.0 ODPRACOWANIE DANYCH 3D" =
    (true, [.number 7, .cycle ⟨c!"DEF", (some c!"30"), (some '.'), (some c!"0")⟩, .general ⟨c!"ODPRACOWANIE", none, none, none, none, none, none⟩, .general ⟨c!"DANYCH", none, none, (some c!"3"), none, none, none⟩, .general ⟨c!"D", none, none, none, none, none, none⟩]) := by decide +kernel

-- AllAttributesParserTest.cpp:853
example : heiRead c!"8 CYCL DEF 30.1 PGMDIGIT.: DATNEGA" =
    (true, [.number 8, .cycle ⟨c!"DEF", (some c!"30"), (some '.'), (some c!"1")⟩, .general ⟨c!"PGMDIGIT.:", none, none, none, none, none, none⟩, .general ⟨c!"DATNEGA", none, none, none, none, none, none⟩]) := by decide +kernel

-- AllAttributesParserTest.cpp:862
example : heiRead c!"9 CYCL DEF 30.2 X+0 Y+0 Z-35" =
    (true, [.number 9, .cycle ⟨c!"DEF", (some c!"30"), (some '.'), (some c!"2")⟩, .general ⟨c!"X", (some '+'), none, (some c!"0"), none, none, none⟩, .general ⟨c!"Y", (some '+'), none, (some c!"0"), none, none, none⟩, .general ⟨c!"Z", (some '-'), none, (some c!"35"), none, none, none⟩]) := by decide +kernel

-- AllAttributesParserTest.cpp:872
example : heiRead c!"20 CYCL DEF 8.1 Y" =
    (true, [.number 20, .cycle ⟨c!"DEF", (some c!"8"), (some '.'), (some c!"1")⟩, .general ⟨c!"Y", none, none, none, none, none, none⟩]) := by decide +kernel

-- AllAttributesParserTest.cpp:880
example : heiRead c!"8 CYCL DEF 19.1 B+10 C+90 F1000 ABST 50" =
    (true, [.number 8, .cycle ⟨c!"DEF", (some c!"19"), (some '.'), (some c!"1")⟩, .general ⟨c!"B", (some '+'), none, (some c!"10"), none, none, none⟩, .general ⟨c!"C", (some '+'), none, (some c!"90"), none, none, none⟩, .general ⟨c!"F", none, none, (some c!"1000"), none, none, none⟩, .general ⟨c!"ABST", none, none, (some c!"50"), none, none, none⟩]) := by decide +kernel

-- AllAttributesParserTest.cpp:891
example : heiRead c!"16 CYCL DEF 11.1 SCL 0.75" =
    (true, [.number 16, .cycle ⟨c!"DEF", (some c!"11"), (some '.'), (some c!"1")⟩, .general ⟨c!"SCL", none, none, (some c!"0"), (some '.'), (some c!"75"), none⟩]) := by decide +kernel

-- AllAttributesParserTest.cpp:899
example : heiRead c!"27 CYCL DEF 26.1 X 1.4 Y 0.6 CCX+15 CCY+20" =
    (true, [.number 27, .cycle ⟨c!"DEF", (some c!"26"), (some '.'), (some c!"1")⟩, .general ⟨c!"X", none, none, (some c!"1"), (some '.'), (some c!"4"), none⟩, .general ⟨c!"Y", none, none, (some c!"0"), (some '.'), (some c!"6"), none⟩, .general ⟨c!"CCX", (some '+'), none, (some c!"15"), none, none, none⟩, .general ⟨c!"CCY", (some '+'), none, (some c!"20"), none, none, none⟩]) := by decide +kernel

-- AllAttributesParserTest.cpp:910
example : heiRead c!"49 CYCL DEF 9.1 CZAS ZWL.0.5" =
    (true, [.number 49, .cycle ⟨c!"DEF", (some c!"9"), (some '.'), (some c!"1")⟩, .general ⟨c!"CZAS", none, none, none, none, none, none⟩, .general ⟨c!"ZWL.", none, none, (some c!"0"), (some '.'), (some c!"5"), none⟩]) := by decide +kernel

-- AllAttributesParserTest.cpp:919
example : heiRead c!"7 CYCL DEF 12.0 PGM CALL" =
    (true, [.number 7, .cycle ⟨c!"DEF", (some c!"12"), (some '.'), (some c!"0")⟩, .general ⟨c!"PGM", none, none, none, none, none, none⟩, .general ⟨c!"CALL", none, none, none, none, none, none⟩]) := by decide +kernel

-- AllAttributesParserTest.cpp:928
example : heiRead c!"8 CYCL DEF 12.1 LOT31" =
    (true, [.number 8, .cycle ⟨c!"DEF", (some c!"12"), (some '.'), (some c!"1")⟩, .general ⟨c!"LOT", none, none, (some c!"31"), none, none, none⟩]) := by decide +kernel

-- AllAttributesParserTest.cpp:936
example : heiRead c!"9 CYCL CALL" =
    (true, [.number 9, .cycle ⟨c!"CALL", none, none, none⟩]) := by decide +kernel

-- AllAttributesParserTest.cpp:943
example : heiRead c!"9 CYCL DEF 10.1 ROT+Q150" =
    (true, [.number 9, .cycle ⟨c!"DEF", (some c!"10"), (some '.'), (some c!"1")⟩, .general ⟨c!"ROT", (some '+'), (some 'Q'), (some c!"150"), none, none, none⟩]) := by decide +kernel

-- AllAttributesParserTest.cpp:951
example : heiRead c!"7  CYCL DEF 7.1 #2" =
    (true, [.number 7, .cycle ⟨c!"DEF", (some c!"7"), (some '.'), (some c!"1")⟩, .general ⟨c!"#", none, none, (some c!"2"), none, none, none⟩]) := by decide +kernel

-- AllAttributesParserTest.cpp:962
example : heiRead c!"11 CYCL DEF 201 ROZWIERCANIE ~" =
    (true, [.number 11, .cycle ⟨c!"DEF", (some c!"201"), none, none⟩, .general ⟨c!"ROZWIERCANIE", none, none, none, none, none, (some '~')⟩]) := by decide +kernel

-- AllAttributesParserTest.cpp:970
example : heiRead c!"\tQ200 = 2   ;ODSTEP BEZPIECZ. ~" =
    (true, [.param ⟨200, none, c!"2", none, none⟩, .comment ⟨c!"ODSTEP BEZPIECZ. ", true⟩]) := by decide +kernel

-- AllAttributesParserTest.cpp:975
example : heiRead c!"\tQ201 = -15 ;GLEBOKOSC" =
    (true, [.param ⟨201, (some '-'), c!"15", none, none⟩, .comment ⟨c!"GLEBOKOSC", false⟩]) := by decide +kernel

-- AllAttributesParserTest.cpp:980
example : heiRead c!"\tQ206 = 100 ;F DOSUW WGL." =
    (true, [.param ⟨206, none, c!"100", none, none⟩, .comment ⟨c!"F DOSUW WGL.", false⟩]) := by decide +kernel

-- AllAttributesParserTest.cpp:985
example : heiRead c!"\tQ211 = 0.5 ;CZAS ZWL. NA DOLE" =
    (true, [.param ⟨211, none, c!"0", (some '.'), (some c!"5")⟩, .comment ⟨c!"CZAS ZWL. NA DOLE", false⟩]) := by decide +kernel

-- AllAttributesParserTest.cpp:990
example : heiRead c!"\tQ203 = +0  ;WSPL.POWIERZ." =
    (true, [.param ⟨203, (some '+'), c!"0", none, none⟩, .comment ⟨c!"WSPL.POWIERZ.", false⟩]) := by decide +kernel

-- AllAttributesParserTest.cpp:995
example : heiRead c!"\tQ204 = 100 ;2. ODST.BEZP." =
    (true, [.param ⟨204, none, c!"100", none, none⟩, .comment ⟨c!"2. ODST.BEZP.", false⟩]) := by decide +kernel

-- AllAttributesParserTest.cpp:1000
example : heiRead c!"8  CYCL DEF 220 POLAR PATTERN ~" =
    (true, [.number 8, .cycle ⟨c!"DEF", (some c!"220"), none, none⟩, .general ⟨c!"POLAR", none, none, none, none, none, none⟩, .general ⟨c!"PATTERN", none, none, none, none, none, (some '~')⟩]) := by decide +kernel

end NC.Agreement
