import Verif.Agreement.Numbers
import Verif.UnitConv
import Verif.Rotator
import Verif.Renumber
import Verif.Verifiers
import Verif.Macro
import Verif.Message
import Verif.Splitter

/-!
# The parts of the Fanuc parser: parser_ut/fanuc

What the tests of the repository expect of the verifiers, the transformations, the expressions,
the messages and the splitter, and what the model gives.  These are tests of the model, not proofs about
the program: each case is evaluated by the kernel.
-/

namespace NC.Agreement
open NC 

/-! ## UnitConverterTest.cpp -/

/-- The word grammar of the test (UnitConverterTest.cpp:24-49). -/
def unitGrammar : FanucGrammar where
  metric := [(c!"A", ⟨c!"A", -9999, 9999, 0, 9999, true, .angle⟩), (c!"B", ⟨c!"B", -9999, 9999, 0, 9999, true, .angle⟩), (c!"C", ⟨c!"C", -9999, 9999, 0, 9999, true, .angle⟩), (c!"X", ⟨c!"X", -9999, 9999, 0, 9999, true, .length⟩), (c!"Y", ⟨c!"Y", -9999, 9999, 0, 9999, true, .length⟩), (c!"Z", ⟨c!"Z", -9999, 9999, 0, 9999, true, .length⟩), (c!"I", ⟨c!"X", -9999, 9999, 0, 9999, true, .length⟩), (c!"J", ⟨c!"Y", -9999, 9999, 0, 9999, true, .length⟩), (c!"K", ⟨c!"Z", -9999, 9999, 0, 9999, true, .length⟩), (c!"G", ⟨c!"G", 0, 999, 0, 9, false, .code⟩), (c!"F", ⟨c!"F", 0, 9999, 0, 9999, false, .feed⟩)]
  imperial := [(c!"A", ⟨c!"A", -9999, 9999, 0, 9999, true, .angle⟩), (c!"B", ⟨c!"B", -9999, 9999, 0, 9999, true, .angle⟩), (c!"C", ⟨c!"C", -9999, 9999, 0, 9999, true, .angle⟩), (c!"X", ⟨c!"X", -9999, 9999, 0, 9999, true, .length⟩), (c!"Y", ⟨c!"Y", -9999, 9999, 0, 9999, true, .length⟩), (c!"Z", ⟨c!"Z", -9999, 9999, 0, 9999, true, .length⟩), (c!"I", ⟨c!"X", -9999, 9999, 0, 9999, true, .length⟩), (c!"J", ⟨c!"Y", -9999, 9999, 0, 9999, true, .length⟩), (c!"K", ⟨c!"Z", -9999, 9999, 0, 9999, true, .length⟩), (c!"G", ⟨c!"G", 0, 999, 0, 9, false, .code⟩), (c!"F", ⟨c!"F", 0, 9999, 0, 9999, false, .feed⟩)]

-- UnitConverterTest.cpp:62
example : UnitConv.convert unitGrammar .metricToImperial
    [.dec ⟨c!"X", none, none, none, none, (some c!"10"), none, none, none⟩, .dec ⟨c!"Y", none, none, none, none, (some c!"10"), (some '.'), (some c!"055"), none⟩, .dec ⟨c!"A", none, none, none, none, (some c!"10"), none, none, none⟩, .dec ⟨c!"F", none, none, none, none, (some c!"0"), (some '.'), (some c!"033"), none⟩, .dec ⟨c!"Z", none, (some '-'), none, (some c!"#"), (some c!"10"), none, none, none⟩] =
    .ok [.dec ⟨c!"X", none, none, none, none, (some c!"0"), (some '.'), (some c!"3937"), none⟩, .dec ⟨c!"Y", none, none, none, none, (some c!"0"), (some '.'), (some c!"3959"), none⟩, .dec ⟨c!"A", none, none, none, none, (some c!"10"), none, none, none⟩, .dec ⟨c!"F", none, none, none, none, (some c!"0"), (some '.'), (some c!"0013"), none⟩, .dec ⟨c!"Z", none, (some '-'), none, (some c!"#"), (some c!"10"), none, none, none⟩] := by decide +kernel

-- UnitConverterTest.cpp:90
example : UnitConv.convert unitGrammar .metricToImperial
    [.dec ⟨c!"G", none, none, none, none, (some c!"4"), none, none, none⟩, .dec ⟨c!"Y", none, none, none, none, (some c!"10"), (some '.'), (some c!"055"), none⟩, .dec ⟨c!"A", none, none, none, none, (some c!"10"), none, none, none⟩, .dec ⟨c!"F", none, none, none, none, (some c!"0"), (some '.'), (some c!"033"), none⟩, .dec ⟨c!"Z", none, (some '-'), none, (some c!"#"), (some c!"10"), none, none, none⟩] =
    .ok [.dec ⟨c!"G", none, none, none, none, (some c!"4"), none, none, none⟩, .dec ⟨c!"Y", none, none, none, none, (some c!"10"), (some '.'), (some c!"055"), none⟩, .dec ⟨c!"A", none, none, none, none, (some c!"10"), none, none, none⟩, .dec ⟨c!"F", none, none, none, none, (some c!"0"), (some '.'), (some c!"033"), none⟩, .dec ⟨c!"Z", none, (some '-'), none, (some c!"#"), (some c!"10"), none, none, none⟩] := by decide +kernel

-- UnitConverterTest.cpp:117
example : UnitConv.convert unitGrammar .metricToImperial
    [.dec ⟨c!"/", none, none, none, none, none, none, none, none⟩, .dec ⟨c!"Y", none, none, none, none, (some c!"10"), (some '.'), (some c!"055"), none⟩, .dec ⟨c!"A", none, none, none, none, (some c!"10"), none, none, none⟩, .dec ⟨c!"F", none, none, none, none, (some c!"0"), (some '.'), (some c!"033"), none⟩, .dec ⟨c!"Z", none, (some '-'), none, (some c!"#"), (some c!"10"), none, none, none⟩] =
    .ok [.dec ⟨c!"/", none, none, none, none, none, none, none, none⟩, .dec ⟨c!"Y", none, none, none, none, (some c!"10"), (some '.'), (some c!"055"), none⟩, .dec ⟨c!"A", none, none, none, none, (some c!"10"), none, none, none⟩, .dec ⟨c!"F", none, none, none, none, (some c!"0"), (some '.'), (some c!"033"), none⟩, .dec ⟨c!"Z", none, (some '-'), none, (some c!"#"), (some c!"10"), none, none, none⟩] := by decide +kernel

-- UnitConverterTest.cpp:144
example : UnitConv.convert unitGrammar .metricToImperial
    [.dec ⟨c!"G", none, none, none, none, (some c!"68"), none, none, none⟩, .dec ⟨c!"X", none, (some '-'), none, none, (some c!"165"), (some '.'), none, none⟩, .dec ⟨c!"Y", none, none, none, none, (some c!"0"), (some '.'), (some c!"0"), none⟩, .dec ⟨c!"Z", none, none, none, none, (some c!"115"), (some '.'), none, none⟩, .dec ⟨c!"I", none, (some '-'), none, none, (some c!"90"), (some '.'), none, none⟩, .dec ⟨c!"J", none, none, none, none, (some c!"90"), (some '.'), none, none⟩, .dec ⟨c!"K", none, none, none, none, (some c!"0"), (some '.'), (some c!"0"), none⟩] =
    .ok [.dec ⟨c!"G", none, none, none, none, (some c!"68"), none, none, none⟩, .dec ⟨c!"X", none, (some '-'), none, none, (some c!"6"), (some '.'), (some c!"4961"), none⟩, .dec ⟨c!"Y", none, none, none, none, (some c!"0"), none, none, none⟩, .dec ⟨c!"Z", none, none, none, none, (some c!"4"), (some '.'), (some c!"5276"), none⟩, .dec ⟨c!"I", none, (some '-'), none, none, (some c!"90"), (some '.'), none, none⟩, .dec ⟨c!"J", none, none, none, none, (some c!"90"), (some '.'), none, none⟩, .dec ⟨c!"K", none, none, none, none, (some c!"0"), (some '.'), (some c!"0"), none⟩] := by decide +kernel

-- UnitConverterTest.cpp:176
example : UnitConv.convert unitGrammar .metricToImperial
    [.dec ⟨c!"G", none, none, none, none, (some c!"68"), (some '.'), (some c!"2"), none⟩, .dec ⟨c!"X", none, (some '-'), none, none, (some c!"165"), (some '.'), none, none⟩, .dec ⟨c!"Y", none, none, none, none, (some c!"0"), (some '.'), (some c!"0"), none⟩, .dec ⟨c!"Z", none, none, none, none, (some c!"115"), (some '.'), none, none⟩, .dec ⟨c!"I", none, (some '-'), none, none, (some c!"90"), (some '.'), none, none⟩, .dec ⟨c!"J", none, none, none, none, (some c!"90"), (some '.'), none, none⟩, .dec ⟨c!"K", none, none, none, none, (some c!"0"), (some '.'), (some c!"0"), none⟩] =
    .ok [.dec ⟨c!"G", none, none, none, none, (some c!"68"), (some '.'), (some c!"2"), none⟩, .dec ⟨c!"X", none, (some '-'), none, none, (some c!"6"), (some '.'), (some c!"4961"), none⟩, .dec ⟨c!"Y", none, none, none, none, (some c!"0"), none, none, none⟩, .dec ⟨c!"Z", none, none, none, none, (some c!"4"), (some '.'), (some c!"5276"), none⟩, .dec ⟨c!"I", none, (some '-'), none, none, (some c!"90"), (some '.'), none, none⟩, .dec ⟨c!"J", none, none, none, none, (some c!"90"), (some '.'), none, none⟩, .dec ⟨c!"K", none, none, none, none, (some c!"0"), (some '.'), (some c!"0"), none⟩] := by decide +kernel

-- UnitConverterTest.cpp:210
example : UnitConv.convert unitGrammar .metricToImperial
    [.dec ⟨c!"G", none, none, none, none, (some c!"21"), none, none, none⟩] =
    .ok [.dec ⟨c!"G", none, none, none, none, (some c!"20"), none, none, none⟩] := by decide +kernel

-- UnitConverterTest.cpp:225
example : UnitConv.convert unitGrammar .imperialToMetric
    [.dec ⟨c!"X", none, none, none, none, (some c!"0"), (some '.'), (some c!"3937"), none⟩, .dec ⟨c!"Y", none, none, none, none, (some c!"0"), (some '.'), (some c!"3959"), none⟩, .dec ⟨c!"A", none, none, none, none, (some c!"10"), none, none, none⟩, .dec ⟨c!"F", none, none, none, none, (some c!"0"), (some '.'), (some c!"0013"), none⟩, .dec ⟨c!"Z", none, (some '-'), none, (some c!"#"), (some c!"10"), none, none, none⟩] =
    .ok [.dec ⟨c!"X", none, none, none, none, (some c!"10"), none, none, none⟩, .dec ⟨c!"Y", none, none, none, none, (some c!"10"), (some '.'), (some c!"0559"), none⟩, .dec ⟨c!"A", none, none, none, none, (some c!"10"), none, none, none⟩, .dec ⟨c!"F", none, none, none, none, (some c!"0"), (some '.'), (some c!"033"), none⟩, .dec ⟨c!"Z", none, (some '-'), none, (some c!"#"), (some c!"10"), none, none, none⟩] := by decide +kernel

-- UnitConverterTest.cpp:253
example : UnitConv.convert unitGrammar .imperialToMetric
    [.dec ⟨c!"G", none, none, none, none, (some c!"20"), none, none, none⟩] =
    .ok [.dec ⟨c!"G", none, none, none, none, (some c!"21"), none, none, none⟩] := by decide +kernel

/-! ## AxesRotatorTest.cpp -/

-- AxesRotatorTest.cpp:28
example : Rotator.rotate .x90
    [.dec ⟨c!"X", none, none, none, none, (some c!"10"), none, none, none⟩, .dec ⟨c!"X", none, (some '-'), none, none, (some c!"10"), none, none, none⟩, .dec ⟨c!"Y", none, none, none, none, (some c!"10"), (some '.'), (some c!"055"), none⟩, .dec ⟨c!"Y", none, (some '-'), none, none, (some c!"10"), (some '.'), (some c!"055"), none⟩, .dec ⟨c!"Z", none, none, none, (some c!"#"), (some c!"10"), none, none, none⟩, .dec ⟨c!"Z", none, (some '-'), none, (some c!"#"), (some c!"10"), none, none, none⟩, .dec ⟨c!"G", none, none, none, none, (some c!"17"), none, none, none⟩, .dec ⟨c!"G", none, none, none, none, (some c!"18"), none, none, none⟩, .dec ⟨c!"G", none, none, none, none, (some c!"19"), none, none, none⟩, .dec ⟨c!"G", none, none, none, none, (some c!"2"), none, none, none⟩, .dec ⟨c!"G", none, none, none, none, (some c!"3"), none, none, none⟩, .dec ⟨c!"I", none, none, none, none, (some c!"10"), none, none, none⟩, .dec ⟨c!"I", none, (some '-'), none, none, (some c!"10"), none, none, none⟩, .dec ⟨c!"J", none, none, none, none, (some c!"10"), (some '.'), (some c!"055"), none⟩, .dec ⟨c!"J", none, (some '-'), none, none, (some c!"10"), (some '.'), (some c!"055"), none⟩, .dec ⟨c!"K", none, none, none, (some c!"#"), (some c!"10"), none, none, none⟩, .dec ⟨c!"K", none, (some '-'), none, (some c!"#"), (some c!"10"), none, none, none⟩] =
    [.dec ⟨c!"X", none, none, none, none, (some c!"10"), none, none, none⟩, .dec ⟨c!"X", none, (some '-'), none, none, (some c!"10"), none, none, none⟩, .dec ⟨c!"Z", none, (some '-'), none, none, (some c!"10"), (some '.'), (some c!"055"), none⟩, .dec ⟨c!"Z", none, none, none, none, (some c!"10"), (some '.'), (some c!"055"), none⟩, .dec ⟨c!"Y", none, none, none, (some c!"#"), (some c!"10"), none, none, none⟩, .dec ⟨c!"Y", none, (some '-'), none, (some c!"#"), (some c!"10"), none, none, none⟩, .dec ⟨c!"G", none, none, none, none, (some c!"18"), none, none, none⟩, .dec ⟨c!"G", none, none, none, none, (some c!"17"), none, none, none⟩, .dec ⟨c!"G", none, none, none, none, (some c!"19"), none, none, none⟩, .dec ⟨c!"G", none, none, none, none, (some c!"2"), none, none, none⟩, .dec ⟨c!"G", none, none, none, none, (some c!"3"), none, none, none⟩, .dec ⟨c!"I", none, none, none, none, (some c!"10"), none, none, none⟩, .dec ⟨c!"I", none, (some '-'), none, none, (some c!"10"), none, none, none⟩, .dec ⟨c!"K", none, (some '-'), none, none, (some c!"10"), (some '.'), (some c!"055"), none⟩, .dec ⟨c!"K", none, none, none, none, (some c!"10"), (some '.'), (some c!"055"), none⟩, .dec ⟨c!"J", none, none, none, (some c!"#"), (some c!"10"), none, none, none⟩, .dec ⟨c!"J", none, (some '-'), none, (some c!"#"), (some c!"10"), none, none, none⟩] := by decide +kernel

-- AxesRotatorTest.cpp:75
example : Rotator.rotate .x270
    [.dec ⟨c!"X", none, none, none, none, (some c!"10"), none, none, none⟩, .dec ⟨c!"X", none, (some '-'), none, none, (some c!"10"), none, none, none⟩, .dec ⟨c!"Y", none, none, none, none, (some c!"10"), (some '.'), (some c!"055"), none⟩, .dec ⟨c!"Y", none, (some '-'), none, none, (some c!"10"), (some '.'), (some c!"055"), none⟩, .dec ⟨c!"Z", none, none, none, (some c!"#"), (some c!"10"), none, none, none⟩, .dec ⟨c!"Z", none, (some '-'), none, (some c!"#"), (some c!"10"), none, none, none⟩, .dec ⟨c!"G", none, none, none, none, (some c!"17"), none, none, none⟩, .dec ⟨c!"G", none, none, none, none, (some c!"18"), none, none, none⟩, .dec ⟨c!"G", none, none, none, none, (some c!"19"), none, none, none⟩, .dec ⟨c!"G", none, none, none, none, (some c!"2"), none, none, none⟩, .dec ⟨c!"G", none, none, none, none, (some c!"3"), none, none, none⟩, .dec ⟨c!"I", none, none, none, none, (some c!"10"), none, none, none⟩, .dec ⟨c!"I", none, (some '-'), none, none, (some c!"10"), none, none, none⟩, .dec ⟨c!"J", none, none, none, none, (some c!"10"), (some '.'), (some c!"055"), none⟩, .dec ⟨c!"J", none, (some '-'), none, none, (some c!"10"), (some '.'), (some c!"055"), none⟩, .dec ⟨c!"K", none, none, none, (some c!"#"), (some c!"10"), none, none, none⟩, .dec ⟨c!"K", none, (some '-'), none, (some c!"#"), (some c!"10"), none, none, none⟩] =
    [.dec ⟨c!"X", none, none, none, none, (some c!"10"), none, none, none⟩, .dec ⟨c!"X", none, (some '-'), none, none, (some c!"10"), none, none, none⟩, .dec ⟨c!"Z", none, none, none, none, (some c!"10"), (some '.'), (some c!"055"), none⟩, .dec ⟨c!"Z", none, (some '-'), none, none, (some c!"10"), (some '.'), (some c!"055"), none⟩, .dec ⟨c!"Y", none, (some '-'), none, (some c!"#"), (some c!"10"), none, none, none⟩, .dec ⟨c!"Y", none, none, none, (some c!"#"), (some c!"10"), none, none, none⟩, .dec ⟨c!"G", none, none, none, none, (some c!"18"), none, none, none⟩, .dec ⟨c!"G", none, none, none, none, (some c!"17"), none, none, none⟩, .dec ⟨c!"G", none, none, none, none, (some c!"19"), none, none, none⟩, .dec ⟨c!"G", none, none, none, none, (some c!"3"), none, none, none⟩, .dec ⟨c!"G", none, none, none, none, (some c!"2"), none, none, none⟩, .dec ⟨c!"I", none, none, none, none, (some c!"10"), none, none, none⟩, .dec ⟨c!"I", none, (some '-'), none, none, (some c!"10"), none, none, none⟩, .dec ⟨c!"K", none, none, none, none, (some c!"10"), (some '.'), (some c!"055"), none⟩, .dec ⟨c!"K", none, (some '-'), none, none, (some c!"10"), (some '.'), (some c!"055"), none⟩, .dec ⟨c!"J", none, (some '-'), none, (some c!"#"), (some c!"10"), none, none, none⟩, .dec ⟨c!"J", none, none, none, (some c!"#"), (some c!"10"), none, none, none⟩] := by decide +kernel

/-! ## RenumbererTest.cpp -/

/-- The word grammar of the test (RenumbererTest.cpp:89-117). -/
def numberGrammar : FanucGrammar where
  metric := [(c!"N", ⟨c!"N", 1, 9999, 0, 0, true, .numbering⟩), (c!":", ⟨c!":", 1, 9999, 0, 0, true, .numbering⟩), (c!"A", ⟨c!"A", -9999, 9999, 0, 9999, true, .angle⟩), (c!"B", ⟨c!"B", -9999, 9999, 0, 9999, true, .angle⟩), (c!"C", ⟨c!"C", -9999, 9999, 0, 9999, true, .angle⟩), (c!"X", ⟨c!"X", -9999, 9999, 0, 9999, true, .length⟩), (c!"Y", ⟨c!"Y", -9999, 9999, 0, 9999, true, .length⟩), (c!"Z", ⟨c!"Z", -9999, 9999, 0, 9999, true, .length⟩), (c!"I", ⟨c!"X", -9999, 9999, 0, 9999, true, .length⟩), (c!"J", ⟨c!"Y", -9999, 9999, 0, 9999, true, .length⟩), (c!"K", ⟨c!"Z", -9999, 9999, 0, 9999, true, .length⟩), (c!"G", ⟨c!"G", 0, 999, 0, 9, false, .code⟩), (c!"F", ⟨c!"F", 0, 9999, 0, 9999, false, .feed⟩)]
  imperial := [(c!"N", ⟨c!"N", 1, 9999, 0, 0, true, .numbering⟩), (c!":", ⟨c!":", 1, 9999, 0, 0, true, .numbering⟩), (c!"A", ⟨c!"A", -9999, 9999, 0, 9999, true, .angle⟩), (c!"B", ⟨c!"B", -9999, 9999, 0, 9999, true, .angle⟩), (c!"C", ⟨c!"C", -9999, 9999, 0, 9999, true, .angle⟩), (c!"X", ⟨c!"X", -9999, 9999, 0, 9999, true, .length⟩), (c!"Y", ⟨c!"Y", -9999, 9999, 0, 9999, true, .length⟩), (c!"Z", ⟨c!"Z", -9999, 9999, 0, 9999, true, .length⟩), (c!"I", ⟨c!"X", -9999, 9999, 0, 9999, true, .length⟩), (c!"J", ⟨c!"Y", -9999, 9999, 0, 9999, true, .length⟩), (c!"K", ⟨c!"Z", -9999, 9999, 0, 9999, true, .length⟩), (c!"G", ⟨c!"G", 0, 999, 0, 9, false, .code⟩), (c!"F", ⟨c!"F", 0, 9999, 0, 9999, false, .feed⟩)]

-- RenumbererTest.cpp:131
example : Renumber.remove numberGrammar
    [.dec ⟨c!"N", none, none, none, none, (some c!"5"), none, none, none⟩, .dec ⟨c!"X", none, none, none, none, (some c!"10"), none, none, none⟩, .dec ⟨c!"Y", none, none, none, none, (some c!"10"), (some '.'), (some c!"055"), none⟩, .dec ⟨c!"A", none, none, none, none, (some c!"10"), none, none, none⟩, .dec ⟨c!"F", none, none, none, none, (some c!"0"), (some '.'), (some c!"033"), none⟩, .dec ⟨c!"Z", none, (some '-'), none, (some c!"#"), (some c!"10"), none, none, none⟩] =
    [.dec ⟨c!"X", none, none, none, none, (some c!"10"), none, none, none⟩, .dec ⟨c!"Y", none, none, none, none, (some c!"10"), (some '.'), (some c!"055"), none⟩, .dec ⟨c!"A", none, none, none, none, (some c!"10"), none, none, none⟩, .dec ⟨c!"F", none, none, none, none, (some c!"0"), (some '.'), (some c!"033"), none⟩, .dec ⟨c!"Z", none, (some '-'), none, (some c!"#"), (some c!"10"), none, none, none⟩] := by decide +kernel

/-- Consecutive calls on one renumberer: a block to renumber with given settings and the block expected, or
a new starting value. -/
def renumbers : List (Sum Nat (Renumber.Settings × Block × Block)) → Renumber.St → Bool
  | [], _ => true
  | .inl n :: t, st => renumbers t { st with counter := n }
  | .inr (s, a, b) :: t, st =>
    let r := Renumber.renumber numberGrammar s st a
    decide (r.2 = b) && renumbers t r.1

-- RenumbererTest.cpp:153
example : renumbers [
    .inr (⟨c!"N", 1, 1, 100, false, false⟩, [.chr c!"%" '\x00'], [.chr c!"%" '\x00']),
    .inr (⟨c!"N", 1, 1, 100, false, false⟩, [.str c!"O" c!"1234"], [.str c!"O" c!"1234"]),
    .inr (⟨c!"N", 1, 1, 100, false, false⟩, [.str c!"(" c!"The comment"], [.str c!"(" c!"The comment"]),
    .inr (⟨c!"N", 1, 1, 100, false, false⟩, [.dec ⟨c!"/", none, none, none, none, (some c!"1"), none, none, none⟩], [.dec ⟨c!"/", none, none, none, none, (some c!"1"), none, none, none⟩]),
    .inr (⟨c!"N", 1, 1, 100, false, false⟩, [.dec ⟨c!"X", none, none, none, none, (some c!"10"), none, none, none⟩], [.dec ⟨c!"N", none, none, none, none, (some c!"1"), none, none, none⟩, .dec ⟨c!"X", none, none, none, none, (some c!"10"), none, none, none⟩]),
    .inr (⟨c!"N", 1, 1, 100, false, false⟩, [.dec ⟨c!"X", none, none, none, none, (some c!"10"), none, none, none⟩], [.dec ⟨c!"N", none, none, none, none, (some c!"2"), none, none, none⟩, .dec ⟨c!"X", none, none, none, none, (some c!"10"), none, none, none⟩]),
    .inr (⟨c!"N", 2, 1, 5, false, true⟩, [.dec ⟨c!"X", none, none, none, none, (some c!"10"), none, none, none⟩], [.dec ⟨c!"N", none, none, none, none, (some c!"0003"), none, none, none⟩, .dec ⟨c!"X", none, none, none, none, (some c!"10"), none, none, none⟩]),
    .inr (⟨c!"N", 2, 1, 5, false, true⟩, [.dec ⟨c!"X", none, none, none, none, (some c!"10"), none, none, none⟩], [.dec ⟨c!"N", none, none, none, none, (some c!"0005"), none, none, none⟩, .dec ⟨c!"X", none, none, none, none, (some c!"10"), none, none, none⟩]),
    .inr (⟨c!"N", 2, 1, 5, false, true⟩, [.dec ⟨c!"X", none, none, none, none, (some c!"10"), none, none, none⟩], [.dec ⟨c!"N", none, none, none, none, (some c!"0001"), none, none, none⟩, .dec ⟨c!"X", none, none, none, none, (some c!"10"), none, none, none⟩]),
    .inr (⟨c!"N", 2, 3, 6, false, true⟩, [.dec ⟨c!"X", none, none, none, none, (some c!"10"), none, none, none⟩], [.dec ⟨c!"N", none, none, none, none, (some c!"0003"), none, none, none⟩, .dec ⟨c!"X", none, none, none, none, (some c!"10"), none, none, none⟩]),
    .inr (⟨c!"N", 2, 3, 6, false, true⟩, [.dec ⟨c!"X", none, none, none, none, (some c!"10"), none, none, none⟩], [.dec ⟨c!"X", none, none, none, none, (some c!"10"), none, none, none⟩]),
    .inr (⟨c!"N", 2, 3, 6, false, true⟩, [.dec ⟨c!"X", none, none, none, none, (some c!"10"), none, none, none⟩], [.dec ⟨c!"X", none, none, none, none, (some c!"10"), none, none, none⟩]),
    .inr (⟨c!"N", 2, 3, 6, false, true⟩, [.dec ⟨c!"X", none, none, none, none, (some c!"10"), none, none, none⟩], [.dec ⟨c!"N", none, none, none, none, (some c!"0005"), none, none, none⟩, .dec ⟨c!"X", none, none, none, none, (some c!"10"), none, none, none⟩]),
    .inl 3,
    .inr (⟨c!"N", 1, 1, 100, false, false⟩, [.dec ⟨c!"X", none, none, none, none, (some c!"10"), none, none, none⟩], [.dec ⟨c!"N", none, none, none, none, (some c!"3"), none, none, none⟩, .dec ⟨c!"X", none, none, none, none, (some c!"10"), none, none, none⟩])] {} = true := by decide +kernel

-- RenumbererTest.cpp:198
example : renumbers [
    .inr (⟨c!"N", 1, 1, 100, true, false⟩, [.chr c!"%" '\x00'], [.chr c!"%" '\x00']),
    .inr (⟨c!"N", 1, 1, 100, true, false⟩, [.str c!"O" c!"1234"], [.str c!"O" c!"1234"]),
    .inr (⟨c!"N", 1, 1, 100, true, false⟩, [.str c!"(" c!"The comment"], [.str c!"(" c!"The comment"]),
    .inr (⟨c!"N", 1, 1, 100, true, false⟩, [.dec ⟨c!"/", none, none, none, none, (some c!"1"), none, none, none⟩], [.dec ⟨c!"/", none, none, none, none, (some c!"1"), none, none, none⟩]),
    .inr (⟨c!"N", 1, 1, 100, true, false⟩, [.dec ⟨c!"N", none, none, none, none, (some c!"666"), none, none, none⟩, .dec ⟨c!"X", none, none, none, none, (some c!"10"), none, none, none⟩], [.dec ⟨c!"N", none, none, none, none, (some c!"1"), none, none, none⟩, .dec ⟨c!"X", none, none, none, none, (some c!"10"), none, none, none⟩]),
    .inr (⟨c!"N", 1, 1, 100, true, false⟩, [.dec ⟨c!"N", none, none, none, none, (some c!"666"), none, none, none⟩, .dec ⟨c!"X", none, none, none, none, (some c!"10"), none, none, none⟩], [.dec ⟨c!"N", none, none, none, none, (some c!"2"), none, none, none⟩, .dec ⟨c!"X", none, none, none, none, (some c!"10"), none, none, none⟩]),
    .inr (⟨c!"N", 2, 1, 5, true, true⟩, [.dec ⟨c!"N", none, none, none, none, (some c!"666"), none, none, none⟩, .dec ⟨c!"X", none, none, none, none, (some c!"10"), none, none, none⟩], [.dec ⟨c!"N", none, none, none, none, (some c!"0003"), none, none, none⟩, .dec ⟨c!"X", none, none, none, none, (some c!"10"), none, none, none⟩]),
    .inr (⟨c!"N", 2, 1, 5, true, true⟩, [.dec ⟨c!"N", none, none, none, none, (some c!"666"), none, none, none⟩, .dec ⟨c!"X", none, none, none, none, (some c!"10"), none, none, none⟩], [.dec ⟨c!"N", none, none, none, none, (some c!"0005"), none, none, none⟩, .dec ⟨c!"X", none, none, none, none, (some c!"10"), none, none, none⟩]),
    .inr (⟨c!"N", 2, 1, 5, true, true⟩, [.dec ⟨c!"N", none, none, none, none, (some c!"666"), none, none, none⟩, .dec ⟨c!"X", none, none, none, none, (some c!"10"), none, none, none⟩], [.dec ⟨c!"N", none, none, none, none, (some c!"0001"), none, none, none⟩, .dec ⟨c!"X", none, none, none, none, (some c!"10"), none, none, none⟩]),
    .inr (⟨c!"N", 2, 3, 6, true, true⟩, [.dec ⟨c!"N", none, none, none, none, (some c!"666"), none, none, none⟩, .dec ⟨c!"X", none, none, none, none, (some c!"10"), none, none, none⟩], [.dec ⟨c!"N", none, none, none, none, (some c!"0003"), none, none, none⟩, .dec ⟨c!"X", none, none, none, none, (some c!"10"), none, none, none⟩]),
    .inr (⟨c!"N", 2, 3, 6, true, true⟩, [.dec ⟨c!"X", none, none, none, none, (some c!"10"), none, none, none⟩], [.dec ⟨c!"X", none, none, none, none, (some c!"10"), none, none, none⟩]),
    .inr (⟨c!"N", 2, 3, 6, true, true⟩, [.dec ⟨c!"N", none, none, none, none, (some c!"666"), none, none, none⟩, .dec ⟨c!"X", none, none, none, none, (some c!"10"), none, none, none⟩], [.dec ⟨c!"X", none, none, none, none, (some c!"10"), none, none, none⟩]),
    .inr (⟨c!"N", 2, 3, 6, true, true⟩, [.dec ⟨c!"N", none, none, none, none, (some c!"666"), none, none, none⟩, .dec ⟨c!"X", none, none, none, none, (some c!"10"), none, none, none⟩], [.dec ⟨c!"X", none, none, none, none, (some c!"10"), none, none, none⟩]),
    .inr (⟨c!"N", 2, 3, 6, true, true⟩, [.dec ⟨c!"N", none, none, none, none, (some c!"666"), none, none, none⟩, .dec ⟨c!"X", none, none, none, none, (some c!"10"), none, none, none⟩], [.dec ⟨c!"N", none, none, none, none, (some c!"0005"), none, none, none⟩, .dec ⟨c!"X", none, none, none, none, (some c!"10"), none, none, none⟩]),
    .inl 3,
    .inr (⟨c!"N", 1, 1, 100, true, false⟩, [.dec ⟨c!"N", none, none, none, none, (some c!"666"), none, none, none⟩, .dec ⟨c!"X", none, none, none, none, (some c!"10"), none, none, none⟩], [.dec ⟨c!"N", none, none, none, none, (some c!"3"), none, none, none⟩, .dec ⟨c!"X", none, none, none, none, (some c!"10"), none, none, none⟩])] {} = true := by decide +kernel

/-! ## CodeGroupsVerifierTest.cpp -/

/-- An exception of the given verifier was thrown. -/
def threw (k : Ver.Kind) : Out Ver.Exc Unit → Bool
  | .throw (.msg k' _ _) => decide (k = k')
  | _ => false

/-- The G groups of the test (CodeGroupsVerifierTest.cpp:36-38). -/
def gGroups : Ver.Groups := [((4, 0), [c!"0"]), ((5, 1), [c!"0"]), ((5, 4), [c!"0"]), ((2, 0), [c!"1"]), ((2, 2), [c!"1"])]

/-- The M groups of the test (CodeGroupsVerifierTest.cpp:39-44). -/
def mGroups : Ver.Groups := [((14, 0), [c!"0", c!"1"]), ((15, 0), [c!"0"]), ((22, 0), [c!"1"]), ((23, 0), [c!"1"])]

-- CodeGroupsVerifierTest.cpp:71 N10 G04
example : Ver.codeGroups [] gGroups mGroups 1 [.dec ⟨c!"N", none, none, none, none, (some c!"10"), none, none, none⟩, .dec ⟨c!"G", none, none, none, none, (some c!"04"), none, none, none⟩] true = .ok () := by decide +kernel

-- CodeGroupsVerifierTest.cpp:78 N10 G4 G02
example : Ver.codeGroups [] gGroups mGroups 1 [.dec ⟨c!"N", none, none, none, none, (some c!"10"), none, none, none⟩, .dec ⟨c!"G", none, none, none, none, (some c!"4"), none, none, none⟩, .dec ⟨c!"G", none, none, none, none, (some c!"02"), none, none, none⟩] true = .ok () := by decide +kernel

-- CodeGroupsVerifierTest.cpp:86 N10 G4 G5.1
example : threw .groups (Ver.codeGroups [] gGroups mGroups 1 [.dec ⟨c!"N", none, none, none, none, (some c!"10"), none, none, none⟩, .dec ⟨c!"G", none, none, none, none, (some c!"4"), none, none, none⟩, .dec ⟨c!"G", none, none, none, none, (some c!"5"), (some '.'), (some c!"1"), none⟩] true) = true := by decide +kernel

-- CodeGroupsVerifierTest.cpp:94 N10 G10
example : threw .groups (Ver.codeGroups [] gGroups mGroups 1 [.dec ⟨c!"N", none, none, none, none, (some c!"10"), none, none, none⟩, .dec ⟨c!"G", none, none, none, none, (some c!"10"), none, none, none⟩] true) = true := by decide +kernel

-- CodeGroupsVerifierTest.cpp:101 N10 #1=5.4
example : Ver.codeGroups [] gGroups mGroups 1 [.dec ⟨c!"N", none, none, none, none, (some c!"10"), none, none, none⟩, .dec ⟨c!"#", none, none, none, none, (some c!"1"), none, none, none⟩, .dec ⟨c!"=", none, none, none, none, (some c!"5"), (some '.'), (some c!"4"), none⟩] true = .ok () := by decide +kernel

-- CodeGroupsVerifierTest.cpp:109 N10 G2.2 G#1
example : threw .groups (Ver.codeGroups [] gGroups mGroups 1 [.dec ⟨c!"N", none, none, none, none, (some c!"10"), none, none, none⟩, .dec ⟨c!"G", none, none, none, none, (some c!"2"), (some '.'), (some c!"2"), none⟩, .dec ⟨c!"G", none, none, none, (some c!"#"), (some c!"1"), none, none, none⟩] true) = true := by decide +kernel

-- CodeGroupsVerifierTest.cpp:117 N10 G2.2 G#1
example : Ver.codeGroups (mapOf [(⟨1, 1⟩, (27/5))]) gGroups mGroups 1 [.dec ⟨c!"N", none, none, none, none, (some c!"10"), none, none, none⟩, .dec ⟨c!"G", none, none, none, none, (some c!"2"), (some '.'), (some c!"2"), none⟩, .dec ⟨c!"G", none, none, none, (some c!"#"), (some c!"1"), none, none, none⟩] true = .ok () := by decide +kernel

-- CodeGroupsVerifierTest.cpp:125 N10 G5.1 G#1
example : threw .groups (Ver.codeGroups (mapOf [(⟨1, 1⟩, (27/5))]) gGroups mGroups 1 [.dec ⟨c!"N", none, none, none, none, (some c!"10"), none, none, none⟩, .dec ⟨c!"G", none, none, none, none, (some c!"5"), (some '.'), (some c!"1"), none⟩, .dec ⟨c!"G", none, none, none, (some c!"#"), (some c!"1"), none, none, none⟩] true) = true := by decide +kernel

-- CodeGroupsVerifierTest.cpp:133 N10 G5.1 G#2
example : threw .groups (Ver.codeGroups (mapOf [(⟨1, 1⟩, (27/5))]) gGroups mGroups 1 [.dec ⟨c!"N", none, none, none, none, (some c!"10"), none, none, none⟩, .dec ⟨c!"G", none, none, none, none, (some c!"5"), (some '.'), (some c!"1"), none⟩, .dec ⟨c!"G", none, none, none, (some c!"#"), (some c!"2"), none, none, none⟩] true) = true := by decide +kernel

-- CodeGroupsVerifierTest.cpp:144 N10 M14
example : Ver.codeGroups [] gGroups mGroups 1 [.dec ⟨c!"N", none, none, none, none, (some c!"10"), none, none, none⟩, .dec ⟨c!"M", none, none, none, none, (some c!"14"), none, none, none⟩] true = .ok () := by decide +kernel

-- CodeGroupsVerifierTest.cpp:151 N10 M15 M22
example : Ver.codeGroups [] gGroups mGroups 1 [.dec ⟨c!"N", none, none, none, none, (some c!"10"), none, none, none⟩, .dec ⟨c!"M", none, none, none, none, (some c!"15"), none, none, none⟩, .dec ⟨c!"M", none, none, none, none, (some c!"22"), none, none, none⟩] true = .ok () := by decide +kernel

-- CodeGroupsVerifierTest.cpp:159 N10 M14 M15
example : threw .groups (Ver.codeGroups [] gGroups mGroups 1 [.dec ⟨c!"N", none, none, none, none, (some c!"10"), none, none, none⟩, .dec ⟨c!"M", none, none, none, none, (some c!"14"), none, none, none⟩, .dec ⟨c!"M", none, none, none, none, (some c!"15"), none, none, none⟩] true) = true := by decide +kernel

-- CodeGroupsVerifierTest.cpp:167 N10 M14 M23
example : threw .groups (Ver.codeGroups [] gGroups mGroups 1 [.dec ⟨c!"N", none, none, none, none, (some c!"10"), none, none, none⟩, .dec ⟨c!"M", none, none, none, none, (some c!"14"), none, none, none⟩, .dec ⟨c!"M", none, none, none, none, (some c!"23"), none, none, none⟩] true) = true := by decide +kernel

-- CodeGroupsVerifierTest.cpp:175 N10 M10
example : threw .groups (Ver.codeGroups [] gGroups mGroups 1 [.dec ⟨c!"N", none, none, none, none, (some c!"10"), none, none, none⟩, .dec ⟨c!"M", none, none, none, none, (some c!"10"), none, none, none⟩] true) = true := by decide +kernel

-- CodeGroupsVerifierTest.cpp:182 N10 #3=15
example : Ver.codeGroups [] gGroups mGroups 1 [.dec ⟨c!"N", none, none, none, none, (some c!"10"), none, none, none⟩, .dec ⟨c!"#", none, none, none, none, (some c!"3"), none, none, none⟩, .dec ⟨c!"=", none, none, none, none, (some c!"15"), none, none, none⟩] true = .ok () := by decide +kernel

-- CodeGroupsVerifierTest.cpp:190 N10 M22 M#3
example : threw .groups (Ver.codeGroups [] gGroups mGroups 1 [.dec ⟨c!"N", none, none, none, none, (some c!"10"), none, none, none⟩, .dec ⟨c!"M", none, none, none, none, (some c!"22"), none, none, none⟩, .dec ⟨c!"M", none, none, none, (some c!"#"), (some c!"3"), none, none, none⟩] true) = true := by decide +kernel

-- CodeGroupsVerifierTest.cpp:198 N10 M22 M#3
example : Ver.codeGroups (mapOf [(⟨3, 1⟩, 15)]) gGroups mGroups 1 [.dec ⟨c!"N", none, none, none, none, (some c!"10"), none, none, none⟩, .dec ⟨c!"M", none, none, none, none, (some c!"22"), none, none, none⟩, .dec ⟨c!"M", none, none, none, (some c!"#"), (some c!"3"), none, none, none⟩] true = .ok () := by decide +kernel

-- CodeGroupsVerifierTest.cpp:206 N10 M14 M#3
example : threw .groups (Ver.codeGroups (mapOf [(⟨3, 1⟩, 15)]) gGroups mGroups 1 [.dec ⟨c!"N", none, none, none, none, (some c!"10"), none, none, none⟩, .dec ⟨c!"M", none, none, none, none, (some c!"14"), none, none, none⟩, .dec ⟨c!"M", none, none, none, (some c!"#"), (some c!"3"), none, none, none⟩] true) = true := by decide +kernel

-- CodeGroupsVerifierTest.cpp:214 N10 M15 M#2
example : threw .groups (Ver.codeGroups (mapOf [(⟨3, 1⟩, 15)]) gGroups mGroups 1 [.dec ⟨c!"N", none, none, none, none, (some c!"10"), none, none, none⟩, .dec ⟨c!"M", none, none, none, none, (some c!"15"), none, none, none⟩, .dec ⟨c!"M", none, none, none, (some c!"#"), (some c!"2"), none, none, none⟩] true) = true := by decide +kernel

/-! ## RangeVerifierTest.cpp -/

/-- The kinematics of the test (RangeVerifierTest.cpp:34-44). -/
def limits : Ver.Limits := ⟨[(c!"X", (-500, 500)), (c!"Y", (-500, 500)), (c!"Z", (0, 1000))], 20000, 10000, 30⟩

/-- The zero point of the test (RangeVerifierTest.cpp:46). -/
def zero : Ver.Zero := ⟨-400, 0, 0⟩

-- RangeVerifierTest.cpp:76 S10
example : Ver.limitRun false limits [.dec ⟨c!"S", none, none, none, none, (some c!"10"), none, none, none⟩] = .ok () := by decide +kernel

-- RangeVerifierTest.cpp:81 S10001
example : threw .range (Ver.limitRun false limits [.dec ⟨c!"S", none, none, none, none, (some c!"10001"), none, none, none⟩]) = true := by decide +kernel

-- RangeVerifierTest.cpp:86 T10
example : Ver.limitRun false limits [.dec ⟨c!"T", none, none, none, none, (some c!"10"), none, none, none⟩] = .ok () := by decide +kernel

-- RangeVerifierTest.cpp:91 T31
example : threw .range (Ver.limitRun false limits [.dec ⟨c!"T", none, none, none, none, (some c!"31"), none, none, none⟩]) = true := by decide +kernel

-- RangeVerifierTest.cpp:96 F1000
example : Ver.limitRun false limits [.dec ⟨c!"F", none, none, none, none, (some c!"1000"), none, none, none⟩] = .ok () := by decide +kernel

-- RangeVerifierTest.cpp:101 F31000
example : threw .range (Ver.limitRun false limits [.dec ⟨c!"F", none, none, none, none, (some c!"31000"), none, none, none⟩]) = true := by decide +kernel

-- RangeVerifierTest.cpp:107 T1020
example : Ver.limitRun true limits [.dec ⟨c!"T", none, none, none, none, (some c!"1020"), none, none, none⟩] = .ok () := by decide +kernel

-- RangeVerifierTest.cpp:116 Xok
example : Ver.travelRun limits zero [(c!"X", ((-10), 10, 30))] = .ok () := by decide +kernel

-- RangeVerifierTest.cpp:117 Xok
example : Ver.travelRun limits zero [(c!"X", ((-600), 10, 3000))] = .ok () := by decide +kernel

-- RangeVerifierTest.cpp:118 Xnotok
example : threw .range (Ver.travelRun limits zero [(c!"X", ((-60), 1000, 3000))]) = true := by decide +kernel

-- RangeVerifierTest.cpp:119 Xok
example : Ver.travelRun limits zero [(c!"X", ((-60), 800, 3000))] = .ok () := by decide +kernel

/-! ## RotationVerifierTest.cpp -/

/-- An exception of the rotation verifier. -/
def rotThrew : Option Ver.Exc → Bool
  | some (.msg .rotation _ _) => true
  | _ => false

-- RotationVerifierTest.cpp:47 S10 M03 false
example : (Ver.rotation false {} [.dec ⟨c!"S", none, none, none, none, (some c!"10"), none, none, none⟩, .dec ⟨c!"M", none, none, none, none, (some c!"03"), none, none, none⟩]).2 = none := by decide +kernel

-- RotationVerifierTest.cpp:54 S10 M03 true
example : rotThrew (Ver.rotation true {} [.dec ⟨c!"S", none, none, none, none, (some c!"10"), none, none, none⟩, .dec ⟨c!"M", none, none, none, none, (some c!"03"), none, none, none⟩]).2 = true := by decide +kernel

-- RotationVerifierTest.cpp:61 M03 G81 false
example : rotThrew (Ver.rotation false {} [.dec ⟨c!"M", none, none, none, none, (some c!"03"), none, none, none⟩, .dec ⟨c!"G", none, none, none, none, (some c!"81"), none, none, none⟩]).2 = true := by decide +kernel

-- RotationVerifierTest.cpp:68 S100 G89 false
example : rotThrew (Ver.rotation false {} [.dec ⟨c!"S", none, none, none, none, (some c!"100"), none, none, none⟩, .dec ⟨c!"G", none, none, none, none, (some c!"89"), none, none, none⟩]).2 = true := by decide +kernel

-- RotationVerifierTest.cpp:75 G01 false
example : rotThrew (Ver.rotation false {} [.dec ⟨c!"G", none, none, none, none, (some c!"01"), none, none, none⟩]).2 = true := by decide +kernel

-- RotationVerifierTest.cpp:81 G01 true
example : (Ver.rotation true {} [.dec ⟨c!"G", none, none, none, none, (some c!"01"), none, none, none⟩]).2 = none := by decide +kernel

/-! ## SameWordInBlockVerifierTest.cpp -/

-- SameWordInBlockVerifierTest.cpp:24
example : threw .sameWord (Ver.sameWord c!"M" [.dec ⟨c!"M", none, none, none, none, (some c!"10"), none, none, none⟩, .dec ⟨c!"M", none, none, none, none, (some c!"20"), none, none, none⟩]) = true := by decide +kernel

-- SameWordInBlockVerifierTest.cpp:35
example : Ver.sameWord c!"M" [.dec ⟨c!"M", none, none, none, none, (some c!"10"), none, none, none⟩, .dec ⟨c!"X", none, none, none, none, (some c!"10"), none, none, none⟩] = .ok () := by decide +kernel

/-! ## MacroEvaluatedCodeVerifierTest.cpp -/

/-- The operations of the test (MacroEvaluatedCodeVerifierTest.cpp:32-33). -/
def operations : List Str := [c!"SIN", c!"COS", c!"TAN", c!"ATAN", c!"SQRT", c!"ABS", c!"ROUND", c!"FIX", c!"FUP", c!"OR", c!"XOR", c!"AND", c!"BIN", c!"BCD", c!"OR", c!"XOR", c!"AND", c!"IF", c!"WHILE", c!"DO", c!"END", c!"EQ", c!"LE"]

/-- The exception of the verifier. -/
def missingThrew : Out Macro.SubErr Str → Bool
  | .throw (.missing _) => true
  | _ => false

-- MacroEvaluatedCodeVerifierTest.cpp:54 T4
example : Macro.substitute operations [] 1 [.dec ⟨c!"T", none, none, none, none, (some c!"4"), none, none, none⟩] = .ok [] := by decide +kernel

-- MacroEvaluatedCodeVerifierTest.cpp:60 #1=5
example : Macro.substitute operations [] 1 [.dec ⟨c!"#", none, none, none, none, (some c!"1"), none, none, none⟩, .dec ⟨c!"=", none, none, none, none, (some c!"5"), none, none, none⟩] = .ok [] := by decide +kernel

-- MacroEvaluatedCodeVerifierTest.cpp:67 #2=5.4
example : Macro.substitute operations [] 1 [.dec ⟨c!"#", none, none, none, none, (some c!"2"), none, none, none⟩, .dec ⟨c!"=", none, none, none, none, (some c!"5"), (some '.'), (some c!"4"), none⟩] = .ok [] := by decide +kernel

-- MacroEvaluatedCodeVerifierTest.cpp:74 T#1
example : missingThrew (Macro.substitute operations [] 1 [.dec ⟨c!"T", none, none, none, (some c!"#"), (some c!"1"), none, none, none⟩]) = true := by decide +kernel

-- MacroEvaluatedCodeVerifierTest.cpp:80 T#1
example : Macro.substitute operations (mapOf [(⟨1, 1⟩, 5)]) 1 [.dec ⟨c!"T", none, none, none, (some c!"#"), (some c!"1"), none, none, none⟩] = .ok c!"T5" := by decide +kernel

-- MacroEvaluatedCodeVerifierTest.cpp:86 A#1
example : Macro.substitute operations (mapOf [(⟨1, 1⟩, 5)]) 1 [.dec ⟨c!"A", none, none, none, (some c!"#"), (some c!"1"), none, none, none⟩] = .ok c!"A5" := by decide +kernel

-- MacroEvaluatedCodeVerifierTest.cpp:92 A#2
example : missingThrew (Macro.substitute operations (mapOf [(⟨1, 1⟩, 5)]) 1 [.dec ⟨c!"A", none, none, none, (some c!"#"), (some c!"2"), none, none, none⟩]) = true := by decide +kernel

/-! ## SystemMacroAssignerTest.cpp -/

/-- The same variables. -/
def sameMap (o : Out NumExc (MacroMap ℚ)) (e : MacroMap ℚ) : Bool :=
  match o with
  | .ok m => m.length == e.length && e.all fun x => m.any fun y => decide (y.1 = x.1) && near y.2 x.2
  | _ => false

-- SystemMacroAssignerTest.cpp:47 D-4
example : sameMap (Macro.sysRun 1 [] [.dec ⟨c!"D", none, (some '-'), none, none, (some c!"4"), none, none, none⟩]) (mapOf [(⟨4107, 1⟩, (-4)), (⟨4307, 1⟩, (-4)), (⟨4507, 1⟩, (-4))]) = true := by decide +kernel

-- SystemMacroAssignerTest.cpp:50 F1000.43
example : sameMap (Macro.sysRun 1 [] [.dec ⟨c!"F", none, none, none, none, (some c!"1000"), (some '.'), (some c!"43"), none⟩]) (mapOf [(⟨4109, 1⟩, (100043/100)), (⟨4309, 1⟩, (100043/100)), (⟨4509, 1⟩, (100043/100))]) = true := by decide +kernel

-- SystemMacroAssignerTest.cpp:56 F.43
example : sameMap (Macro.sysRun 1 [] [.dec ⟨c!"F", none, none, none, none, none, (some '.'), (some c!"43"), none⟩]) (mapOf [(⟨4109, 1⟩, (43/100)), (⟨4309, 1⟩, (43/100)), (⟨4509, 1⟩, (43/100))]) = true := by decide +kernel

-- SystemMacroAssignerTest.cpp:62 M300
example : sameMap (Macro.sysRun 1 [] [.dec ⟨c!"M", none, none, none, none, (some c!"300"), none, none, none⟩]) (mapOf [(⟨4113, 1⟩, 300), (⟨4313, 1⟩, 300), (⟨4513, 1⟩, 300)]) = true := by decide +kernel

-- SystemMacroAssignerTest.cpp:68 N123
example : sameMap (Macro.sysRun 1 [] [.dec ⟨c!"N", none, none, none, none, (some c!"123"), none, none, none⟩]) (mapOf [(⟨4114, 1⟩, 123), (⟨4314, 1⟩, 123), (⟨4514, 1⟩, 123)]) = true := by decide +kernel

-- SystemMacroAssignerTest.cpp:80 S10
example : sameMap (Macro.sysRun 1 [] [.dec ⟨c!"S", none, none, none, none, (some c!"10"), none, none, none⟩]) (mapOf [(⟨4119, 1⟩, 10), (⟨4319, 1⟩, 10), (⟨4519, 1⟩, 10)]) = true := by decide +kernel

/-! ## ValueCalculatorTest.cpp -/

/-- The value is the one expected. -/
def valueIs (o : Out Calc.CalcFail ℚ) (e : ℚ) : Bool :=
  match o with
  | .ok x => near x e
  | _ => false

-- ValueCalculatorTest.cpp:39
example : valueIs (Calc.evalText fineFn [] c!"5+5") 10 = true := by decide +kernel

-- ValueCalculatorTest.cpp:40
example : valueIs (Calc.evalText fineFn [] c!"SQRT(9)") 3 = true := by decide +kernel

-- ValueCalculatorTest.cpp:41
example : valueIs (Calc.evalText fineFn [] c!"5+5*4") 25 = true := by decide +kernel

-- ValueCalculatorTest.cpp:42
example : valueIs (Calc.evalText fineFn [] c!"(5+5)*4") 40 = true := by decide +kernel

-- ValueCalculatorTest.cpp:43
example : valueIs (Calc.evalText fineFn [] c!"(-5.2+5.4)*4") (4/5) = true := by decide +kernel

-- ValueCalculatorTest.cpp:44
example : valueIs (Calc.evalText fineFn [] c!"SIN(((-2+3)*4+5)*6)") (809016994374947/1000000000000000) = true := by decide +kernel

-- ValueCalculatorTest.cpp:45
example : valueIs (Calc.evalText fineFn [] c!"ABS[-6]/2") 3 = true := by decide +kernel

-- ValueCalculatorTest.cpp:46
example : valueIs (Calc.evalText fineFn (mapOf [(⟨1, 1⟩, 2), (⟨2, 1⟩, 3)]) c!"#1+#2") 5 = true := by decide +kernel

-- ValueCalculatorTest.cpp:47
example : valueIs (Calc.evalText fineFn (mapOf [(⟨1, 1⟩, 2), (⟨2, 1⟩, 3), (⟨5, 1⟩, 7)]) c!"#[#1+#2]") 7 = true := by decide +kernel

-- ValueCalculatorTest.cpp:48
example : valueIs (Calc.evalText fineFn [] c!"8/2") 4 = true := by decide +kernel

-- ValueCalculatorTest.cpp:49
example : valueIs (Calc.evalText fineFn [] c!"[8/2]") 4 = true := by decide +kernel

-- ValueCalculatorTest.cpp:50
example : valueIs (Calc.evalText fineFn [] c!"[[8/2]]") 4 = true := by decide +kernel

/-! ## MacroEvaluatorTest.cpp -/

/-- Consecutive assignments on one table: the variable that becomes the value, or that is refused. -/
def assigns : List (Block × MKey × Option ℚ) → MacroMap ℚ → Bool
  | [], _ => true
  | (b, k, some v) :: t, m =>
    match Macro.evaluate fineFn m 1 b with
    | .ok m' => (match m'.get k with | some x => near x v | none => false) && assigns t m'
    | _ => false
  | (b, k, none) :: t, m =>
    match Macro.evaluate fineFn m 1 b with
    | .throw (.wrongDefinition _) => (m.get k).isNone && assigns t m
    | .throw (.calc _) => (m.get k).isNone && assigns t m
    | _ => false

-- MacroEvaluatorTest.cpp:52-149
example : assigns [
    -- #1=9
    ([.dec ⟨c!"#", none, none, none, none, (some c!"1"), none, none, none⟩, .dec ⟨c!"=", none, none, none, none, (some c!"9"), none, none, none⟩], ⟨1, 1⟩, some 9),
    -- #2=5
    ([.dec ⟨c!"#", none, none, none, none, (some c!"2"), none, none, none⟩, .dec ⟨c!"=", none, none, none, none, (some c!"5"), none, none, none⟩], ⟨2, 1⟩, some 5),
    -- #3=#1*#2
    ([.dec ⟨c!"#", none, none, none, none, (some c!"3"), none, none, none⟩, .dec ⟨c!"=", none, none, none, (some c!"#"), (some c!"1"), none, none, none⟩, .dec ⟨c!"*", none, none, none, (some c!"#"), (some c!"2"), none, none, none⟩], ⟨3, 1⟩, some 45),
    -- #4=SQRT[#1]
    ([.dec ⟨c!"#", none, none, none, none, (some c!"4"), none, none, none⟩, .dec ⟨c!"=", none, none, none, none, none, none, none, none⟩, .dec ⟨c!"SQRT", none, none, (some c!"["), (some c!"#"), (some c!"1"), none, (some c!"]"), none⟩], ⟨4, 1⟩, some 3),
    -- #6=#2/#5
    ([.dec ⟨c!"#", none, none, none, none, (some c!"6"), none, none, none⟩, .dec ⟨c!"=", none, none, none, (some c!"#"), (some c!"2"), none, none, none⟩, .dec ⟨c!"/", none, none, none, (some c!"#"), (some c!"5"), none, none, none⟩], ⟨6, 0⟩, none),
    -- #5=[#3-20]/5*SQRT[ABS[-#1+#2]]
    ([.dec ⟨c!"#", none, none, none, none, (some c!"5"), none, none, none⟩, .dec ⟨c!"=", none, none, (some c!"["), (some c!"#"), (some c!"3"), none, none, none⟩, .dec ⟨c!"-", none, none, none, none, (some c!"20"), none, none, (some c!"]")⟩, .dec ⟨c!"/", none, none, none, none, (some c!"5"), none, none, none⟩, .dec ⟨c!"*", none, none, none, none, none, none, none, none⟩, .dec ⟨c!"SQRT", none, none, (some c!"["), none, none, none, none, none⟩, .dec ⟨c!"ABS", none, none, (some c!"["), none, none, none, none, none⟩, .dec ⟨c!"-", none, none, none, (some c!"#"), (some c!"1"), none, none, none⟩, .dec ⟨c!"+", none, none, none, (some c!"#"), (some c!"2"), none, none, (some c!"]]")⟩], ⟨5, 1⟩, some 10),
    -- #6=SIN[[[#2+#3]*#4+#1]*#2]
    ([.dec ⟨c!"#", none, none, none, none, (some c!"6"), none, none, none⟩, .dec ⟨c!"=", none, none, none, none, none, none, none, none⟩, .dec ⟨c!"SIN", none, none, (some c!"[[["), (some c!"#"), (some c!"2"), none, none, none⟩, .dec ⟨c!"+", none, none, none, (some c!"#"), (some c!"3"), none, none, (some c!"]")⟩, .dec ⟨c!"*", none, none, none, (some c!"#"), (some c!"4"), none, none, none⟩, .dec ⟨c!"+", none, none, none, (some c!"#"), (some c!"1"), none, none, (some c!"]")⟩, .dec ⟨c!"*", none, none, none, (some c!"#"), (some c!"2"), none, none, (some c!"]")⟩], ⟨6, 1⟩, some (241481456572267/250000000000000)),
    -- #7
    ([.dec ⟨c!"#", none, none, none, none, (some c!"7"), none, none, none⟩], ⟨7, 0⟩, none),
    -- #7=
    ([.dec ⟨c!"#", none, none, none, none, (some c!"7"), none, none, none⟩, .dec ⟨c!"=", none, none, none, none, none, none, none, none⟩], ⟨7, 0⟩, none),
    -- #7=5*
    ([.dec ⟨c!"#", none, none, none, none, (some c!"7"), none, none, none⟩, .dec ⟨c!"=", none, none, none, none, (some c!"5"), none, none, none⟩, .dec ⟨c!"*", none, none, none, none, none, none, none, none⟩], ⟨7, 0⟩, none),
    -- #7=#5*
    ([.dec ⟨c!"#", none, none, none, none, (some c!"7"), none, none, none⟩, .dec ⟨c!"=", none, none, none, (some c!"#"), (some c!"5"), none, none, none⟩, .dec ⟨c!"*", none, none, none, none, none, none, none, none⟩], ⟨7, 0⟩, none)] [] = true := by decide +kernel

/-! ## MessageTextTest.cpp -/

-- MessageTextTest.cpp:26
example : Message.makeMessage .ValueNotInRange (.known .Polish) [c!"-1000", c!"-500", c!"500", c!"X"] =
    .ok c!"Wartość [-1000] nie mieści się w zakresie [-500, 500] dla adresu [X]" := by decide +kernel

-- MessageTextTest.cpp:28
example : Message.makeMessage .ValueMissingForHash (.known .Polish) [c!"1"] =
    .ok c!"Brak wartości dla parametru #1" := by decide +kernel

-- MessageTextTest.cpp:29
example : Message.makeMessage .ValueNotInRangeForOptionalBlock (.known .Polish) [c!"15"] =
    .ok c!"Wartość [15] nie mieści się w zakresie [1,9] dla znaku /" := by decide +kernel

-- MessageTextTest.cpp:31
example : Message.makeMessage .ForbiddenCharsInOptionalBlock (.known .Polish) [] =
    .ok c!"Niedozwolone znaki w opcjonalnej wartości bloku" := by decide +kernel

-- MessageTextTest.cpp:33
example : Message.makeMessage .ExpectedInteger (.known .Polish) [c!"G"] =
    .ok c!"Oczekiwana liczba całkowita dla adresu [G]" := by decide +kernel

-- MessageTextTest.cpp:34
example : Message.makeMessage .ValueMissing (.known .Polish) [c!"Y"] =
    .ok c!"Brak wartości dla adresu [Y]" := by decide +kernel

-- MessageTextTest.cpp:35
example : Message.makeMessage .DecimalSeparatorMissing (.known .Polish) [c!"Z"] =
    .ok c!"Brak separatora dziesiętnego (kropki) dla adresu [Z]" := by decide +kernel

-- MessageTextTest.cpp:37
example : Message.makeMessage .ValueAfterDecimalSeparatorNotInRange (.known .Polish) [c!"7777", c!"0", c!"999", c!"X"] =
    .ok c!"Wartość po kropce [7777] nie mieści się w zakresie [0, 999] dla adresu [X]" := by decide +kernel

-- MessageTextTest.cpp:40
example : Message.makeMessage .TNotWithG (.known .Polish) [] =
    .ok c!"Adres T nie może wystąpić w bloku razem z adresem G" := by decide +kernel

-- MessageTextTest.cpp:41
example : Message.makeMessage .MissingValue (.known .Polish) [c!"X"] =
    .ok c!"Brak wartości dla X" := by decide +kernel

-- MessageTextTest.cpp:42
example : Message.makeMessage .MissingPreviousValue (.known .Polish) [c!"Y"] =
    .ok c!"Brak poprzedniej wartości dla Y" := by decide +kernel

-- MessageTextTest.cpp:43
example : Message.makeMessage .MissingPreviousValueForEither (.known .Polish) [c!"X", c!"Y"] =
    .ok c!"Brak poprzedniej wartości dla R lub X i Y" := by decide +kernel

-- MessageTextTest.cpp:45
example : Message.makeMessage .ValueNotSet (.known .Polish) [c!"F"] =
    .ok c!"Wartość F nie ustawiona" := by decide +kernel

-- MessageTextTest.cpp:46
example : Message.makeMessage .ValueNotSetForEither (.known .Polish) [c!"X", c!"Y"] =
    .ok c!"Nie ustawione wartości dla R lub X i Y" := by decide +kernel

-- MessageTextTest.cpp:48
example : Message.makeMessage .ValueNotSetForEitherEither (.known .Polish) [c!"X", c!"Y", c!"Z"] =
    .ok c!"Nie ustawione wartości dla R lub X i Y i Z" := by decide +kernel

-- MessageTextTest.cpp:50
example : Message.makeMessage2 .MissingInCodeGroups (.known .Polish) [c!"M888"] =
    .ok c!"M888 nie występuje w Grupie Kodów" := by decide +kernel

-- MessageTextTest.cpp:51
example : Message.makeMessage2 .InSameCodeGroup (.known .Polish) [c!"M3", c!"M4", c!"5"] =
    .ok c!"M3 i M4 są w tej samej Grupie Kodów = 5" := by decide +kernel

-- MessageTextTest.cpp:53
example : Message.makeMessage .CannotSplitFileNumberOfBlocks (.known .Polish) [] =
    .ok c!"Nie można podzielić pliku dla liczby bloków = 0" := by decide +kernel

-- MessageTextTest.cpp:55
example : Message.makeMessage .CannotSplitFileToolPathLength (.known .Polish) [] =
    .ok c!"Nie można podzielić pliku dla drogi narzędzia = 0" := by decide +kernel

-- MessageTextTest.cpp:57
example : Message.makeMessage .CannotSplitFileToolTime (.known .Polish) [] =
    .ok c!"Nie można podzielić pliku dla czasu narzędzia = 0" := by decide +kernel

-- MessageTextTest.cpp:59
example : Message.makeMessage .WrongMacroDefinition (.known .Polish) [c!"5"] =
    .ok c!"Błędna definicja zmiennej #5" := by decide +kernel

-- MessageTextTest.cpp:60
example : Message.makeMessage .ValueHigherThanAllowed (.known .Polish) [c!"S", c!"78", c!"50"] =
    .ok c!"Wartość S [78] wyższa niż maksymalna dozwolona wartość 50" := by decide +kernel

-- MessageTextTest.cpp:62
example : Message.makeMessage .ValueOutOfRange (.known .Polish) [c!"X", c!"-1000", c!"-500", c!"500"] =
    .ok c!"Wartość X [-1000] poza zakresem [-500, 500]" := by decide +kernel

-- MessageTextTest.cpp:64
example : Message.makeMessage .CodeNotUnique (.known .Polish) [c!"T"] =
    .ok c!"Kod T musi być unikalny w obrębie bloku" := by decide +kernel

-- MessageTextTest.cpp:65
example : Message.makeMessage .UnsupportedOperation (.known .Polish) [c!"nil"] =
    .ok c!"Nieobsługiwana operacja: nil" := by decide +kernel

-- MessageTextTest.cpp:66
example : Message.makeMessage .UnsupportedBinaryOperation (.known .Polish) [c!"op"] =
    .ok c!"Nieobsługiwana operacja dwuargumentowa: [op]" := by decide +kernel

-- MessageTextTest.cpp:68
example : Message.makeMessage .UnsupportedUnaryOperation (.known .Polish) [c!"op"] =
    .ok c!"Nieobsługiwana operacja jednoargumentowa: [op]" := by decide +kernel

-- MessageTextTest.cpp:70
example : Message.makeMessage .UnsupportedFunction (.known .Polish) [c!"func"] =
    .ok c!"Nieobsługiwana funkcja: [func]" := by decide +kernel

/-! ## FileSplitterTest.cpp -/

/-- The retraction plane of the tests (FileSplitterTest.cpp:84-86). -/
def retraction : Block := [.dec ⟨c!"G", none, none, none, none, (some c!"0"), none, none, none⟩, .dec ⟨c!"Z", none, none, none, none, (some c!"400"), none, none, none⟩]

-- FileSplitterTest.cpp:47
example : Splitter.byText c!"txt" (some c!"G0 Z400") [c!"%", c!"O1234", [], c!"(comment)", c!"G0 X0 Y0 Z0", c!"G1 X1 (txt)", c!"G0 Y3", c!"G1 Z5", c!"G0 Y6 (txt)", c!"M30", c!"%"] =
    [[c!"%", c!"O1234", [], c!"(comment)", c!"G0 X0 Y0 Z0", c!"G0 Z400"], [c!"G0 Z400", c!"G1 X1 (txt)", c!"G0 Y3", c!"G1 Z5", c!"G0 Z400"], [c!"G0 Z400", c!"G0 Y6 (txt)", c!"M30", c!"%"]] := by decide +kernel

-- FileSplitterTest.cpp:61
example : Splitter.byCount ⟨false, false, false⟩ 4 false (some retraction)
    [[.chr c!"%" '\x00'],
    [.str c!"O" c!"1234"],
    [.str c!"(" c!"comment)"],
    [.dec ⟨c!"G", none, none, none, none, (some c!"0"), none, none, none⟩, .dec ⟨c!"X", none, none, none, none, (some c!"0"), none, none, none⟩, .dec ⟨c!"Y", none, none, none, none, (some c!"0"), none, none, none⟩, .dec ⟨c!"Z", none, none, none, none, (some c!"0"), none, none, none⟩],
    [.dec ⟨c!"G", none, none, none, none, (some c!"1"), none, none, none⟩, .dec ⟨c!"X", none, none, none, none, (some c!"1"), none, none, none⟩, .str c!"(" c!"txt)"],
    [.dec ⟨c!"G", none, none, none, none, (some c!"0"), none, none, none⟩, .dec ⟨c!"Y", none, none, none, none, (some c!"3"), none, none, none⟩],
    [.dec ⟨c!"G", none, none, none, none, (some c!"1"), none, none, none⟩, .dec ⟨c!"Z", none, none, none, none, (some c!"5"), none, none, none⟩],
    [.dec ⟨c!"G", none, none, none, none, (some c!"0"), none, none, none⟩, .dec ⟨c!"Y", none, none, none, none, (some c!"6"), none, none, none⟩, .str c!"(" c!"txt)"],
    [.dec ⟨c!"M", none, none, none, none, (some c!"30"), none, none, none⟩],
    [.chr c!"%" '\x00']] =
    .ok [[[.chr c!"%" '\x00'],
    [.str c!"O" c!"1234"],
    [.str c!"(" c!"comment)"],
    [.dec ⟨c!"G", none, none, none, none, (some c!"0"), none, none, none⟩, .dec ⟨c!"X", none, none, none, none, (some c!"0"), none, none, none⟩, .dec ⟨c!"Y", none, none, none, none, (some c!"0"), none, none, none⟩, .dec ⟨c!"Z", none, none, none, none, (some c!"0"), none, none, none⟩],
    retraction],
    [retraction,
    [.dec ⟨c!"G", none, none, none, none, (some c!"1"), none, none, none⟩, .dec ⟨c!"X", none, none, none, none, (some c!"1"), none, none, none⟩, .str c!"(" c!"txt)"],
    [.dec ⟨c!"G", none, none, none, none, (some c!"0"), none, none, none⟩, .dec ⟨c!"Y", none, none, none, none, (some c!"3"), none, none, none⟩],
    [.dec ⟨c!"G", none, none, none, none, (some c!"1"), none, none, none⟩, .dec ⟨c!"Z", none, none, none, none, (some c!"5"), none, none, none⟩],
    [.dec ⟨c!"G", none, none, none, none, (some c!"0"), none, none, none⟩, .dec ⟨c!"Y", none, none, none, none, (some c!"6"), none, none, none⟩, .str c!"(" c!"txt)"],
    retraction],
    [retraction,
    [.dec ⟨c!"M", none, none, none, none, (some c!"30"), none, none, none⟩],
    [.chr c!"%" '\x00']]] := by decide +kernel

-- FileSplitterTest.cpp:136
example : Splitter.byCount ⟨false, false, false⟩ 4 true (some retraction)
    [[.chr c!"%" '\x00'],
    [.str c!"O" c!"1234"],
    [.str c!"(" c!"comment)"],
    [.dec ⟨c!"G", none, none, none, none, (some c!"0"), none, none, none⟩, .dec ⟨c!"X", none, none, none, none, (some c!"0"), none, none, none⟩, .dec ⟨c!"Y", none, none, none, none, (some c!"0"), none, none, none⟩, .dec ⟨c!"Z", none, none, none, none, (some c!"0"), none, none, none⟩],
    [.dec ⟨c!"G", none, none, none, none, (some c!"1"), none, none, none⟩, .dec ⟨c!"X", none, none, none, none, (some c!"1"), none, none, none⟩, .str c!"(" c!"txt)"],
    [.dec ⟨c!"G", none, none, none, none, (some c!"0"), none, none, none⟩, .dec ⟨c!"Y", none, none, none, none, (some c!"3"), none, none, none⟩],
    [.dec ⟨c!"G", none, none, none, none, (some c!"1"), none, none, none⟩, .dec ⟨c!"Z", none, none, none, none, (some c!"5"), none, none, none⟩],
    [.dec ⟨c!"G", none, none, none, none, (some c!"0"), none, none, none⟩, .dec ⟨c!"Y", none, none, none, none, (some c!"6"), none, none, none⟩, .str c!"(" c!"txt)"],
    [.dec ⟨c!"M", none, none, none, none, (some c!"30"), none, none, none⟩],
    [.chr c!"%" '\x00']] =
    .ok [[[.chr c!"%" '\x00'],
    [.str c!"O" c!"1234"],
    [.str c!"(" c!"comment)"],
    [.dec ⟨c!"G", none, none, none, none, (some c!"0"), none, none, none⟩, .dec ⟨c!"X", none, none, none, none, (some c!"0"), none, none, none⟩, .dec ⟨c!"Y", none, none, none, none, (some c!"0"), none, none, none⟩, .dec ⟨c!"Z", none, none, none, none, (some c!"0"), none, none, none⟩],
    [.dec ⟨c!"G", none, none, none, none, (some c!"1"), none, none, none⟩, .dec ⟨c!"X", none, none, none, none, (some c!"1"), none, none, none⟩, .str c!"(" c!"txt)"],
    retraction],
    [retraction,
    [.dec ⟨c!"G", none, none, none, none, (some c!"0"), none, none, none⟩, .dec ⟨c!"Y", none, none, none, none, (some c!"3"), none, none, none⟩],
    [.dec ⟨c!"G", none, none, none, none, (some c!"1"), none, none, none⟩, .dec ⟨c!"Z", none, none, none, none, (some c!"5"), none, none, none⟩],
    [.dec ⟨c!"G", none, none, none, none, (some c!"0"), none, none, none⟩, .dec ⟨c!"Y", none, none, none, none, (some c!"6"), none, none, none⟩, .str c!"(" c!"txt)"],
    [.dec ⟨c!"M", none, none, none, none, (some c!"30"), none, none, none⟩],
    retraction],
    [retraction,
    [.chr c!"%" '\x00']]] := by decide +kernel

-- FileSplitterTest.cpp:210
example : Splitter.byCount ⟨false, false, false⟩ 5 false (some retraction)
    [[.chr c!"%" '\x00'],
    [.str c!"O" c!"1234"],
    [.str c!"(" c!"comment)"],
    [.dec ⟨c!"G", none, none, none, none, (some c!"0"), none, none, none⟩, .dec ⟨c!"X", none, none, none, none, (some c!"0"), none, none, none⟩, .dec ⟨c!"Y", none, none, none, none, (some c!"0"), none, none, none⟩, .dec ⟨c!"Z", none, none, none, none, (some c!"0"), none, none, none⟩],
    [.dec ⟨c!"G", none, none, none, none, (some c!"81"), none, none, none⟩, .dec ⟨c!"G", none, none, none, none, (some c!"98"), none, none, none⟩, .dec ⟨c!"R", none, none, none, none, (some c!"105"), none, none, none⟩, .dec ⟨c!"X", none, none, none, none, (some c!"135"), none, none, none⟩, .dec ⟨c!"Y", none, none, none, none, (some c!"70"), none, none, none⟩, .dec ⟨c!"Z", none, none, none, none, (some c!"80"), none, none, none⟩, .dec ⟨c!"F", none, none, none, none, (some c!"250"), none, none, none⟩],
    [.dec ⟨c!"Y", none, none, none, none, (some c!"30"), none, none, none⟩],
    [.dec ⟨c!"G", none, none, none, none, (some c!"80"), none, none, none⟩],
    [.dec ⟨c!"G", none, none, none, none, (some c!"1"), none, none, none⟩, .dec ⟨c!"X", none, none, none, none, (some c!"1"), none, none, none⟩, .str c!"(" c!"txt)"],
    [.dec ⟨c!"G", none, none, none, none, (some c!"0"), none, none, none⟩, .dec ⟨c!"Y", none, none, none, none, (some c!"3"), none, none, none⟩],
    [.dec ⟨c!"G", none, none, none, none, (some c!"1"), none, none, none⟩, .dec ⟨c!"Z", none, none, none, none, (some c!"5"), none, none, none⟩],
    [.dec ⟨c!"G", none, none, none, none, (some c!"0"), none, none, none⟩, .dec ⟨c!"Y", none, none, none, none, (some c!"6"), none, none, none⟩, .str c!"(" c!"txt)"],
    [.dec ⟨c!"M", none, none, none, none, (some c!"30"), none, none, none⟩],
    [.chr c!"%" '\x00']] =
    .ok [[[.chr c!"%" '\x00'],
    [.str c!"O" c!"1234"],
    [.str c!"(" c!"comment)"],
    [.dec ⟨c!"G", none, none, none, none, (some c!"0"), none, none, none⟩, .dec ⟨c!"X", none, none, none, none, (some c!"0"), none, none, none⟩, .dec ⟨c!"Y", none, none, none, none, (some c!"0"), none, none, none⟩, .dec ⟨c!"Z", none, none, none, none, (some c!"0"), none, none, none⟩],
    [.dec ⟨c!"G", none, none, none, none, (some c!"81"), none, none, none⟩, .dec ⟨c!"G", none, none, none, none, (some c!"98"), none, none, none⟩, .dec ⟨c!"R", none, none, none, none, (some c!"105"), none, none, none⟩, .dec ⟨c!"X", none, none, none, none, (some c!"135"), none, none, none⟩, .dec ⟨c!"Y", none, none, none, none, (some c!"70"), none, none, none⟩, .dec ⟨c!"Z", none, none, none, none, (some c!"80"), none, none, none⟩, .dec ⟨c!"F", none, none, none, none, (some c!"250"), none, none, none⟩],
    [.dec ⟨c!"Y", none, none, none, none, (some c!"30"), none, none, none⟩],
    [.dec ⟨c!"G", none, none, none, none, (some c!"80"), none, none, none⟩],
    retraction],
    [retraction,
    [.dec ⟨c!"G", none, none, none, none, (some c!"1"), none, none, none⟩, .dec ⟨c!"X", none, none, none, none, (some c!"1"), none, none, none⟩, .str c!"(" c!"txt)"],
    [.dec ⟨c!"G", none, none, none, none, (some c!"0"), none, none, none⟩, .dec ⟨c!"Y", none, none, none, none, (some c!"3"), none, none, none⟩],
    [.dec ⟨c!"G", none, none, none, none, (some c!"1"), none, none, none⟩, .dec ⟨c!"Z", none, none, none, none, (some c!"5"), none, none, none⟩],
    [.dec ⟨c!"G", none, none, none, none, (some c!"0"), none, none, none⟩, .dec ⟨c!"Y", none, none, none, none, (some c!"6"), none, none, none⟩, .str c!"(" c!"txt)"],
    [.dec ⟨c!"M", none, none, none, none, (some c!"30"), none, none, none⟩],
    retraction],
    [retraction,
    [.chr c!"%" '\x00']]] := by decide +kernel

-- FileSplitterTest.cpp:302
example : Splitter.byTool ⟨false, false, false⟩ none
    [[.chr c!"%" '\x00'],
    [.str c!"O" c!"1234"],
    [.str c!"(" c!"comment)"],
    [.dec ⟨c!"G", none, none, none, none, (some c!"0"), none, none, none⟩, .dec ⟨c!"X", none, none, none, none, (some c!"0"), none, none, none⟩, .dec ⟨c!"Y", none, none, none, none, (some c!"0"), none, none, none⟩, .dec ⟨c!"Z", none, none, none, none, (some c!"0"), none, none, none⟩],
    [.dec ⟨c!"T", none, none, none, none, (some c!"01"), none, none, none⟩, .dec ⟨c!"M", none, none, none, none, (some c!"06"), none, none, none⟩],
    [.dec ⟨c!"G", none, none, none, none, (some c!"1"), none, none, none⟩, .dec ⟨c!"X", none, none, none, none, (some c!"1"), none, none, none⟩, .str c!"(" c!"txt)"],
    [.dec ⟨c!"G", none, none, none, none, (some c!"0"), none, none, none⟩, .dec ⟨c!"Y", none, none, none, none, (some c!"3"), none, none, none⟩],
    [.dec ⟨c!"T", none, none, none, none, (some c!"02"), none, none, none⟩, .dec ⟨c!"M", none, none, none, none, (some c!"06"), none, none, none⟩],
    [.dec ⟨c!"G", none, none, none, none, (some c!"1"), none, none, none⟩, .dec ⟨c!"Z", none, none, none, none, (some c!"5"), none, none, none⟩],
    [.dec ⟨c!"G", none, none, none, none, (some c!"0"), none, none, none⟩, .dec ⟨c!"Y", none, none, none, none, (some c!"6"), none, none, none⟩, .str c!"(" c!"txt)"],
    [.dec ⟨c!"M", none, none, none, none, (some c!"30"), none, none, none⟩],
    [.chr c!"%" '\x00']] =
    .ok [[[.chr c!"%" '\x00'],
    [.str c!"O" c!"1234"],
    [.str c!"(" c!"comment)"],
    [.dec ⟨c!"G", none, none, none, none, (some c!"0"), none, none, none⟩, .dec ⟨c!"X", none, none, none, none, (some c!"0"), none, none, none⟩, .dec ⟨c!"Y", none, none, none, none, (some c!"0"), none, none, none⟩, .dec ⟨c!"Z", none, none, none, none, (some c!"0"), none, none, none⟩],
    [.dec ⟨c!"T", none, none, none, none, (some c!"01"), none, none, none⟩, .dec ⟨c!"M", none, none, none, none, (some c!"06"), none, none, none⟩],
    [.dec ⟨c!"G", none, none, none, none, (some c!"1"), none, none, none⟩, .dec ⟨c!"X", none, none, none, none, (some c!"1"), none, none, none⟩, .str c!"(" c!"txt)"],
    [.dec ⟨c!"G", none, none, none, none, (some c!"0"), none, none, none⟩, .dec ⟨c!"Y", none, none, none, none, (some c!"3"), none, none, none⟩]],
    [[.dec ⟨c!"T", none, none, none, none, (some c!"02"), none, none, none⟩, .dec ⟨c!"M", none, none, none, none, (some c!"06"), none, none, none⟩],
    [.dec ⟨c!"G", none, none, none, none, (some c!"1"), none, none, none⟩, .dec ⟨c!"Z", none, none, none, none, (some c!"5"), none, none, none⟩],
    [.dec ⟨c!"G", none, none, none, none, (some c!"0"), none, none, none⟩, .dec ⟨c!"Y", none, none, none, none, (some c!"6"), none, none, none⟩, .str c!"(" c!"txt)"],
    [.dec ⟨c!"M", none, none, none, none, (some c!"30"), none, none, none⟩],
    [.chr c!"%" '\x00']]] := by decide +kernel

-- FileSplitterTest.cpp:377
example : Splitter.byWork ⟨false, false, false⟩ 2 false [0, 0, 0, 0, 0, 0, 0, (11/10), 0, (11/10), 0, (33/10), 0, 0, (11/10), 0, 0] none
    [[.chr c!"%" '\x00'],
    [.str c!"O" c!"0081"],
    [.dec ⟨c!"G", none, none, none, none, (some c!"0"), none, none, none⟩, .dec ⟨c!"G", none, none, none, none, (some c!"98"), none, none, none⟩, .dec ⟨c!"G", none, none, none, none, (some c!"28"), none, none, none⟩, .dec ⟨c!"Z", none, none, none, none, (some c!"0"), none, none, none⟩],
    [.dec ⟨c!"T", none, none, none, none, (some c!"01"), none, none, none⟩, .dec ⟨c!"M", none, none, none, none, (some c!"06"), none, none, none⟩],
    [.dec ⟨c!"G", none, none, none, none, (some c!"0"), none, none, none⟩, .dec ⟨c!"G", none, none, none, none, (some c!"54"), none, none, none⟩, .dec ⟨c!"G", none, none, none, none, (some c!"90"), none, none, none⟩, .dec ⟨c!"G", none, none, none, none, (some c!"20"), none, none, none⟩, .dec ⟨c!"S", none, none, none, none, (some c!"1900"), none, none, none⟩, .dec ⟨c!"M", none, none, none, none, (some c!"3"), none, none, none⟩],
    [.dec ⟨c!"G", none, none, none, none, (some c!"0"), none, none, none⟩, .dec ⟨c!"X", none, none, none, none, (some c!"7"), none, none, none⟩, .dec ⟨c!"Y", none, none, none, none, (some c!"1"), none, none, none⟩],
    [.dec ⟨c!"G", none, none, none, none, (some c!"0"), none, none, none⟩, .dec ⟨c!"G", none, none, none, none, (some c!"43"), none, none, none⟩, .dec ⟨c!"Z", none, none, none, none, (some c!"1"), (some '.'), (some c!"1"), none⟩, .dec ⟨c!"H", none, none, none, none, (some c!"1"), none, none, none⟩],
    [.dec ⟨c!"G", none, none, none, none, (some c!"99"), none, none, none⟩, .dec ⟨c!"G", none, none, none, none, (some c!"81"), none, none, none⟩, .dec ⟨c!"X", none, none, none, none, (some c!"7"), none, none, none⟩, .dec ⟨c!"Y", none, none, none, none, (some c!"1"), none, none, none⟩, .dec ⟨c!"Z", none, none, none, none, (some c!"0"), none, none, none⟩, .dec ⟨c!"R", none, none, none, none, (some c!"1"), (some '.'), (some c!"1"), none⟩, .dec ⟨c!"F", none, none, none, none, (some c!"4"), none, none, none⟩],
    [.dec ⟨c!"G", none, none, none, none, (some c!"99"), none, none, none⟩, .dec ⟨c!"G", none, none, none, none, (some c!"81"), none, none, none⟩, .dec ⟨c!"Y", none, none, none, none, (some c!"2"), none, none, none⟩, .dec ⟨c!"Z", none, none, none, none, (some c!"0"), none, none, none⟩, .dec ⟨c!"R", none, none, none, none, (some c!"1"), (some '.'), (some c!"1"), none⟩, .dec ⟨c!"F", none, none, none, none, (some c!"4"), none, none, none⟩, .dec ⟨c!"K", none, none, none, none, (some c!"0"), none, none, none⟩],
    [.dec ⟨c!"Y", none, none, none, none, (some c!"3"), none, none, none⟩],
    [.dec ⟨c!"G", none, none, none, none, (some c!"80"), none, none, none⟩],
    [.dec ⟨c!"G", none, none, none, none, (some c!"91"), none, none, none⟩, .dec ⟨c!"G", none, none, none, none, (some c!"81"), none, none, none⟩, .dec ⟨c!"Y", none, none, none, none, (some c!"1"), none, none, none⟩, .dec ⟨c!"Z", none, (some '-'), none, none, (some c!"1"), (some '.'), (some c!"1"), none⟩, .dec ⟨c!"R", none, none, none, none, (some c!"0"), (some '.'), (some c!"1"), none⟩, .dec ⟨c!"F", none, none, none, none, (some c!"4"), none, none, none⟩, .dec ⟨c!"K", none, none, none, none, (some c!"3"), none, none, none⟩],
    [.dec ⟨c!"G", none, none, none, none, (some c!"80"), none, none, none⟩],
    [.dec ⟨c!"G", none, none, none, none, (some c!"90"), none, none, none⟩],
    [.dec ⟨c!"G", none, none, none, none, (some c!"99"), none, none, none⟩, .dec ⟨c!"G", none, none, none, none, (some c!"81"), none, none, none⟩, .dec ⟨c!"X", none, none, none, none, (some c!"7"), none, none, none⟩, .dec ⟨c!"Y", none, none, none, none, (some c!"7"), none, none, none⟩, .dec ⟨c!"Z", none, none, none, none, (some c!"0"), none, none, none⟩, .dec ⟨c!"R", none, none, none, none, (some c!"1"), (some '.'), (some c!"1"), none⟩, .dec ⟨c!"F", none, none, none, none, (some c!"4"), none, none, none⟩],
    [.dec ⟨c!"M", none, none, none, none, (some c!"30"), none, none, none⟩],
    [.chr c!"%" '\x00']] =
    .ok [[[.chr c!"%" '\x00'],
    [.str c!"O" c!"0081"],
    [.dec ⟨c!"G", none, none, none, none, (some c!"0"), none, none, none⟩, .dec ⟨c!"G", none, none, none, none, (some c!"98"), none, none, none⟩, .dec ⟨c!"G", none, none, none, none, (some c!"28"), none, none, none⟩, .dec ⟨c!"Z", none, none, none, none, (some c!"0"), none, none, none⟩],
    [.dec ⟨c!"T", none, none, none, none, (some c!"01"), none, none, none⟩, .dec ⟨c!"M", none, none, none, none, (some c!"06"), none, none, none⟩],
    [.dec ⟨c!"G", none, none, none, none, (some c!"0"), none, none, none⟩, .dec ⟨c!"G", none, none, none, none, (some c!"54"), none, none, none⟩, .dec ⟨c!"G", none, none, none, none, (some c!"90"), none, none, none⟩, .dec ⟨c!"G", none, none, none, none, (some c!"20"), none, none, none⟩, .dec ⟨c!"S", none, none, none, none, (some c!"1900"), none, none, none⟩, .dec ⟨c!"M", none, none, none, none, (some c!"3"), none, none, none⟩],
    [.dec ⟨c!"G", none, none, none, none, (some c!"0"), none, none, none⟩, .dec ⟨c!"X", none, none, none, none, (some c!"7"), none, none, none⟩, .dec ⟨c!"Y", none, none, none, none, (some c!"1"), none, none, none⟩],
    [.dec ⟨c!"G", none, none, none, none, (some c!"0"), none, none, none⟩, .dec ⟨c!"G", none, none, none, none, (some c!"43"), none, none, none⟩, .dec ⟨c!"Z", none, none, none, none, (some c!"1"), (some '.'), (some c!"1"), none⟩, .dec ⟨c!"H", none, none, none, none, (some c!"1"), none, none, none⟩],
    [.dec ⟨c!"G", none, none, none, none, (some c!"99"), none, none, none⟩, .dec ⟨c!"G", none, none, none, none, (some c!"81"), none, none, none⟩, .dec ⟨c!"X", none, none, none, none, (some c!"7"), none, none, none⟩, .dec ⟨c!"Y", none, none, none, none, (some c!"1"), none, none, none⟩, .dec ⟨c!"Z", none, none, none, none, (some c!"0"), none, none, none⟩, .dec ⟨c!"R", none, none, none, none, (some c!"1"), (some '.'), (some c!"1"), none⟩, .dec ⟨c!"F", none, none, none, none, (some c!"4"), none, none, none⟩],
    [.dec ⟨c!"G", none, none, none, none, (some c!"99"), none, none, none⟩, .dec ⟨c!"G", none, none, none, none, (some c!"81"), none, none, none⟩, .dec ⟨c!"Y", none, none, none, none, (some c!"2"), none, none, none⟩, .dec ⟨c!"Z", none, none, none, none, (some c!"0"), none, none, none⟩, .dec ⟨c!"R", none, none, none, none, (some c!"1"), (some '.'), (some c!"1"), none⟩, .dec ⟨c!"F", none, none, none, none, (some c!"4"), none, none, none⟩, .dec ⟨c!"K", none, none, none, none, (some c!"0"), none, none, none⟩],
    [.dec ⟨c!"Y", none, none, none, none, (some c!"3"), none, none, none⟩],
    [.dec ⟨c!"G", none, none, none, none, (some c!"80"), none, none, none⟩]],
    [[.dec ⟨c!"G", none, none, none, none, (some c!"91"), none, none, none⟩, .dec ⟨c!"G", none, none, none, none, (some c!"81"), none, none, none⟩, .dec ⟨c!"Y", none, none, none, none, (some c!"1"), none, none, none⟩, .dec ⟨c!"Z", none, (some '-'), none, none, (some c!"1"), (some '.'), (some c!"1"), none⟩, .dec ⟨c!"R", none, none, none, none, (some c!"0"), (some '.'), (some c!"1"), none⟩, .dec ⟨c!"F", none, none, none, none, (some c!"4"), none, none, none⟩, .dec ⟨c!"K", none, none, none, none, (some c!"3"), none, none, none⟩],
    [.dec ⟨c!"G", none, none, none, none, (some c!"80"), none, none, none⟩]],
    [[.dec ⟨c!"G", none, none, none, none, (some c!"90"), none, none, none⟩],
    [.dec ⟨c!"G", none, none, none, none, (some c!"99"), none, none, none⟩, .dec ⟨c!"G", none, none, none, none, (some c!"81"), none, none, none⟩, .dec ⟨c!"X", none, none, none, none, (some c!"7"), none, none, none⟩, .dec ⟨c!"Y", none, none, none, none, (some c!"7"), none, none, none⟩, .dec ⟨c!"Z", none, none, none, none, (some c!"0"), none, none, none⟩, .dec ⟨c!"R", none, none, none, none, (some c!"1"), (some '.'), (some c!"1"), none⟩, .dec ⟨c!"F", none, none, none, none, (some c!"4"), none, none, none⟩],
    [.dec ⟨c!"M", none, none, none, none, (some c!"30"), none, none, none⟩],
    [.chr c!"%" '\x00']]] := by decide +kernel

-- FileSplitterTest.cpp:537
example : Splitter.byWork ⟨false, false, false⟩ 30 false [0, 0, 0, 0, 0, 0, 0, (33/2), 0, (33/2), 0, (99/2), 0, 0, (33/2), 0, 0] none
    [[.chr c!"%" '\x00'],
    [.str c!"O" c!"0081"],
    [.dec ⟨c!"G", none, none, none, none, (some c!"0"), none, none, none⟩, .dec ⟨c!"G", none, none, none, none, (some c!"98"), none, none, none⟩, .dec ⟨c!"G", none, none, none, none, (some c!"28"), none, none, none⟩, .dec ⟨c!"Z", none, none, none, none, (some c!"0"), none, none, none⟩],
    [.dec ⟨c!"T", none, none, none, none, (some c!"01"), none, none, none⟩, .dec ⟨c!"M", none, none, none, none, (some c!"06"), none, none, none⟩],
    [.dec ⟨c!"G", none, none, none, none, (some c!"0"), none, none, none⟩, .dec ⟨c!"G", none, none, none, none, (some c!"54"), none, none, none⟩, .dec ⟨c!"G", none, none, none, none, (some c!"90"), none, none, none⟩, .dec ⟨c!"G", none, none, none, none, (some c!"20"), none, none, none⟩, .dec ⟨c!"S", none, none, none, none, (some c!"1900"), none, none, none⟩, .dec ⟨c!"M", none, none, none, none, (some c!"3"), none, none, none⟩],
    [.dec ⟨c!"G", none, none, none, none, (some c!"0"), none, none, none⟩, .dec ⟨c!"X", none, none, none, none, (some c!"7"), none, none, none⟩, .dec ⟨c!"Y", none, none, none, none, (some c!"1"), none, none, none⟩],
    [.dec ⟨c!"G", none, none, none, none, (some c!"0"), none, none, none⟩, .dec ⟨c!"G", none, none, none, none, (some c!"43"), none, none, none⟩, .dec ⟨c!"Z", none, none, none, none, (some c!"1"), (some '.'), (some c!"1"), none⟩, .dec ⟨c!"H", none, none, none, none, (some c!"1"), none, none, none⟩],
    [.dec ⟨c!"G", none, none, none, none, (some c!"99"), none, none, none⟩, .dec ⟨c!"G", none, none, none, none, (some c!"81"), none, none, none⟩, .dec ⟨c!"X", none, none, none, none, (some c!"7"), none, none, none⟩, .dec ⟨c!"Y", none, none, none, none, (some c!"1"), none, none, none⟩, .dec ⟨c!"Z", none, none, none, none, (some c!"0"), none, none, none⟩, .dec ⟨c!"R", none, none, none, none, (some c!"1"), (some '.'), (some c!"1"), none⟩, .dec ⟨c!"F", none, none, none, none, (some c!"4"), none, none, none⟩],
    [.dec ⟨c!"G", none, none, none, none, (some c!"99"), none, none, none⟩, .dec ⟨c!"G", none, none, none, none, (some c!"81"), none, none, none⟩, .dec ⟨c!"Y", none, none, none, none, (some c!"2"), none, none, none⟩, .dec ⟨c!"Z", none, none, none, none, (some c!"0"), none, none, none⟩, .dec ⟨c!"R", none, none, none, none, (some c!"1"), (some '.'), (some c!"1"), none⟩, .dec ⟨c!"F", none, none, none, none, (some c!"4"), none, none, none⟩, .dec ⟨c!"K", none, none, none, none, (some c!"0"), none, none, none⟩],
    [.dec ⟨c!"Y", none, none, none, none, (some c!"3"), none, none, none⟩],
    [.dec ⟨c!"G", none, none, none, none, (some c!"80"), none, none, none⟩],
    [.dec ⟨c!"G", none, none, none, none, (some c!"91"), none, none, none⟩, .dec ⟨c!"G", none, none, none, none, (some c!"81"), none, none, none⟩, .dec ⟨c!"Y", none, none, none, none, (some c!"1"), none, none, none⟩, .dec ⟨c!"Z", none, (some '-'), none, none, (some c!"1"), (some '.'), (some c!"1"), none⟩, .dec ⟨c!"R", none, none, none, none, (some c!"0"), (some '.'), (some c!"1"), none⟩, .dec ⟨c!"F", none, none, none, none, (some c!"4"), none, none, none⟩, .dec ⟨c!"K", none, none, none, none, (some c!"3"), none, none, none⟩],
    [.dec ⟨c!"G", none, none, none, none, (some c!"80"), none, none, none⟩],
    [.dec ⟨c!"G", none, none, none, none, (some c!"90"), none, none, none⟩],
    [.dec ⟨c!"G", none, none, none, none, (some c!"99"), none, none, none⟩, .dec ⟨c!"G", none, none, none, none, (some c!"81"), none, none, none⟩, .dec ⟨c!"X", none, none, none, none, (some c!"7"), none, none, none⟩, .dec ⟨c!"Y", none, none, none, none, (some c!"7"), none, none, none⟩, .dec ⟨c!"Z", none, none, none, none, (some c!"0"), none, none, none⟩, .dec ⟨c!"R", none, none, none, none, (some c!"1"), (some '.'), (some c!"1"), none⟩, .dec ⟨c!"F", none, none, none, none, (some c!"4"), none, none, none⟩],
    [.dec ⟨c!"M", none, none, none, none, (some c!"30"), none, none, none⟩],
    [.chr c!"%" '\x00']] =
    .ok [[[.chr c!"%" '\x00'],
    [.str c!"O" c!"0081"],
    [.dec ⟨c!"G", none, none, none, none, (some c!"0"), none, none, none⟩, .dec ⟨c!"G", none, none, none, none, (some c!"98"), none, none, none⟩, .dec ⟨c!"G", none, none, none, none, (some c!"28"), none, none, none⟩, .dec ⟨c!"Z", none, none, none, none, (some c!"0"), none, none, none⟩],
    [.dec ⟨c!"T", none, none, none, none, (some c!"01"), none, none, none⟩, .dec ⟨c!"M", none, none, none, none, (some c!"06"), none, none, none⟩],
    [.dec ⟨c!"G", none, none, none, none, (some c!"0"), none, none, none⟩, .dec ⟨c!"G", none, none, none, none, (some c!"54"), none, none, none⟩, .dec ⟨c!"G", none, none, none, none, (some c!"90"), none, none, none⟩, .dec ⟨c!"G", none, none, none, none, (some c!"20"), none, none, none⟩, .dec ⟨c!"S", none, none, none, none, (some c!"1900"), none, none, none⟩, .dec ⟨c!"M", none, none, none, none, (some c!"3"), none, none, none⟩],
    [.dec ⟨c!"G", none, none, none, none, (some c!"0"), none, none, none⟩, .dec ⟨c!"X", none, none, none, none, (some c!"7"), none, none, none⟩, .dec ⟨c!"Y", none, none, none, none, (some c!"1"), none, none, none⟩],
    [.dec ⟨c!"G", none, none, none, none, (some c!"0"), none, none, none⟩, .dec ⟨c!"G", none, none, none, none, (some c!"43"), none, none, none⟩, .dec ⟨c!"Z", none, none, none, none, (some c!"1"), (some '.'), (some c!"1"), none⟩, .dec ⟨c!"H", none, none, none, none, (some c!"1"), none, none, none⟩],
    [.dec ⟨c!"G", none, none, none, none, (some c!"99"), none, none, none⟩, .dec ⟨c!"G", none, none, none, none, (some c!"81"), none, none, none⟩, .dec ⟨c!"X", none, none, none, none, (some c!"7"), none, none, none⟩, .dec ⟨c!"Y", none, none, none, none, (some c!"1"), none, none, none⟩, .dec ⟨c!"Z", none, none, none, none, (some c!"0"), none, none, none⟩, .dec ⟨c!"R", none, none, none, none, (some c!"1"), (some '.'), (some c!"1"), none⟩, .dec ⟨c!"F", none, none, none, none, (some c!"4"), none, none, none⟩],
    [.dec ⟨c!"G", none, none, none, none, (some c!"99"), none, none, none⟩, .dec ⟨c!"G", none, none, none, none, (some c!"81"), none, none, none⟩, .dec ⟨c!"Y", none, none, none, none, (some c!"2"), none, none, none⟩, .dec ⟨c!"Z", none, none, none, none, (some c!"0"), none, none, none⟩, .dec ⟨c!"R", none, none, none, none, (some c!"1"), (some '.'), (some c!"1"), none⟩, .dec ⟨c!"F", none, none, none, none, (some c!"4"), none, none, none⟩, .dec ⟨c!"K", none, none, none, none, (some c!"0"), none, none, none⟩],
    [.dec ⟨c!"Y", none, none, none, none, (some c!"3"), none, none, none⟩],
    [.dec ⟨c!"G", none, none, none, none, (some c!"80"), none, none, none⟩]],
    [[.dec ⟨c!"G", none, none, none, none, (some c!"91"), none, none, none⟩, .dec ⟨c!"G", none, none, none, none, (some c!"81"), none, none, none⟩, .dec ⟨c!"Y", none, none, none, none, (some c!"1"), none, none, none⟩, .dec ⟨c!"Z", none, (some '-'), none, none, (some c!"1"), (some '.'), (some c!"1"), none⟩, .dec ⟨c!"R", none, none, none, none, (some c!"0"), (some '.'), (some c!"1"), none⟩, .dec ⟨c!"F", none, none, none, none, (some c!"4"), none, none, none⟩, .dec ⟨c!"K", none, none, none, none, (some c!"3"), none, none, none⟩],
    [.dec ⟨c!"G", none, none, none, none, (some c!"80"), none, none, none⟩]],
    [[.dec ⟨c!"G", none, none, none, none, (some c!"90"), none, none, none⟩],
    [.dec ⟨c!"G", none, none, none, none, (some c!"99"), none, none, none⟩, .dec ⟨c!"G", none, none, none, none, (some c!"81"), none, none, none⟩, .dec ⟨c!"X", none, none, none, none, (some c!"7"), none, none, none⟩, .dec ⟨c!"Y", none, none, none, none, (some c!"7"), none, none, none⟩, .dec ⟨c!"Z", none, none, none, none, (some c!"0"), none, none, none⟩, .dec ⟨c!"R", none, none, none, none, (some c!"1"), (some '.'), (some c!"1"), none⟩, .dec ⟨c!"F", none, none, none, none, (some c!"4"), none, none, none⟩],
    [.dec ⟨c!"M", none, none, none, none, (some c!"30"), none, none, none⟩],
    [.chr c!"%" '\x00']]] := by decide +kernel

end NC.Agreement
