import Verif.Enums

/-!
# Message texts (parser/fanuc/MessageText*.cpp/.h)

Texts are lists of characters; the UTF-8 encoding of the Polish texts is not
modelled.  `Lang.other` stands for an `ELanguage` value outside the
enumeration (reached only through a cast).
-/

namespace NC.Message
open NC NC.Enums

/-- `MessageName` without `COUNT` (MessageText.h:13-50). -/
inductive Name where
  | ValueNotInRange
  | ValueMissingForHash
  | ValueNotInRangeForOptionalBlock
  | ForbiddenCharsInOptionalBlock
  | ExpectedInteger
  | ValueMissing
  | DecimalSeparatorMissing
  | ValueAfterDecimalSeparatorNotInRange
  | ParseError
  | TNotWithG
  | MissingValue
  | MissingPreviousValue
  | MissingPreviousValueForEither
  | ValueNotSet
  | ValueNotSetForEither
  | ValueNotSetForEitherEither
  | MissingInCodeGroups
  | InSameCodeGroup
  | CannotSplitFileNumberOfBlocks
  | CannotSplitFileToolPathLength
  | CannotSplitFileToolTime
  | WrongMacroDefinition
  | ValueHigherThanAllowed
  | ValueOutOfRange
  | CodeNotUnique
  | UnsupportedOperation
  | UnsupportedBinaryOperation
  | UnsupportedUnaryOperation
  | UnsupportedFunction
  | DuplicateAddress
  | SNotAllowedWhenOperatorTurnsRotation
  | M3M4NotAllowedWhenOperatorTurnsRotation
  | NonMatchingCloseBracket
deriving DecidableEq, Repr

/-- `message_text_en` (MessageText_en.cpp:8-43). -/
def tableEn : List (Name × List Str) :=
   [(.ValueNotInRange, [c!"Value [", c!"] not in range [", c!", ", c!"] for address [", c!"]"]),
    (.ValueMissingForHash, [c!"Value missing for parameter #"]),
    (.ValueNotInRangeForOptionalBlock, [c!"Value [", c!"] not in range [1,9] for character /"]),
    (.ForbiddenCharsInOptionalBlock, [c!"Forbidden characters in optional block value"]),
    (.ExpectedInteger, [c!"Expected integer number for address [", c!"]"]),
    (.ValueMissing, [c!"Value missing for address [", c!"]"]),
    (.DecimalSeparatorMissing, [c!"Missing decimal separator (dot) for address [", c!"]"]),
    (.ValueAfterDecimalSeparatorNotInRange, [c!"Value after dot [", c!"] not in range [", c!", ", c!"] for address [", c!"]"]),
    (.ParseError, [c!"Parse error at line "]),
    (.TNotWithG, [c!"Address T can not appear in the block together with address G"]),
    (.MissingValue, [c!"Missing value for "]),
    (.MissingPreviousValue, [c!"Missing previous value for "]),
    (.MissingPreviousValueForEither, [c!"Missing previous values for either R or ", c!" and "]),
    (.ValueNotSet, [c!"Value ", c!" not set"]),
    (.ValueNotSetForEither, [c!"Not set values for either R or ", c!" and "]),
    (.ValueNotSetForEitherEither, [c!"Not set values for either R or ", c!" and ", c!" and "]),
    (.MissingInCodeGroups, [c!" is missing in Code Groups"]),
    (.InSameCodeGroup, [c!" and ", c!" are in the same Code Group = "]),
    (.CannotSplitFileNumberOfBlocks, [c!"Cannot split the file for number of blocks = 0"]),
    (.CannotSplitFileToolPathLength, [c!"Cannot split the file for tool path length = 0"]),
    (.CannotSplitFileToolTime, [c!"Cannot split the file for tool time = 0"]),
    (.WrongMacroDefinition, [c!"Wrong #", c!" variable definition"]),
    (.ValueHigherThanAllowed, [c!"Value ", c!" [", c!"] higher than max allowed value "]),
    (.ValueOutOfRange, [c!"Value ", c!" [", c!"] out of range [", c!", ", c!"]"]),
    (.CodeNotUnique, [c!"Code ", c!" must be unique within a block"]),
    (.UnsupportedOperation, [c!"Unsupported operation: "]),
    (.UnsupportedBinaryOperation, [c!"Unsupported binary operation: [", c!"]"]),
    (.UnsupportedUnaryOperation, [c!"Unsupported unary operation: [", c!"]"]),
    (.UnsupportedFunction, [c!"Unsupported function: [", c!"]"]),
    (.DuplicateAddress, [c!"Same address [", c!"] in block not allowed"]),
    (.SNotAllowedWhenOperatorTurnsRotation, [c!"Address S not allowed when Operator turns on rotation"]),
    (.M3M4NotAllowedWhenOperatorTurnsRotation, [c!"M3/M4 not allowed when Operator turns on rotation"]),
    (.NonMatchingCloseBracket, [c!"Non matching close bracket"])]

/-- `message_text_pl` (MessageText_pl.cpp:16-51). -/
def tablePl : List (Name × List Str) :=
   [(.ValueNotInRange, [c!"Wartość [", c!"] nie mieści się w zakresie [", c!", ", c!"] dla adresu [", c!"]"]),
    (.ValueMissingForHash, [c!"Brak wartości dla parametru #"]),
    (.ValueNotInRangeForOptionalBlock, [c!"Wartość [", c!"] nie mieści się w zakresie [1,9] dla znaku /"]),
    (.ForbiddenCharsInOptionalBlock, [c!"Niedozwolone znaki w opcjonalnej wartości bloku"]),
    (.ExpectedInteger, [c!"Oczekiwana liczba całkowita dla adresu [", c!"]"]),
    (.ValueMissing, [c!"Brak wartości dla adresu [", c!"]"]),
    (.DecimalSeparatorMissing, [c!"Brak separatora dziesiętnego (kropki) dla adresu [", c!"]"]),
    (.ValueAfterDecimalSeparatorNotInRange, [c!"Wartość po kropce [", c!"] nie mieści się w zakresie [", c!", ", c!"] dla adresu [", c!"]"]),
    (.ParseError, [c!"Błąd parsowania w linii "]),
    (.TNotWithG, [c!"Adres T nie może wystąpić w bloku razem z adresem G"]),
    (.MissingValue, [c!"Brak wartości dla "]),
    (.MissingPreviousValue, [c!"Brak poprzedniej wartości dla "]),
    (.MissingPreviousValueForEither, [c!"Brak poprzedniej wartości dla R lub ", c!" i "]),
    (.ValueNotSet, [c!"Wartość ", c!" nie ustawiona"]),
    (.ValueNotSetForEither, [c!"Nie ustawione wartości dla R lub ", c!" i "]),
    (.ValueNotSetForEitherEither, [c!"Nie ustawione wartości dla R lub ", c!" i ", c!" i "]),
    (.MissingInCodeGroups, [c!" nie występuje w Grupie Kodów"]),
    (.InSameCodeGroup, [c!" i ", c!" są w tej samej Grupie Kodów = "]),
    (.CannotSplitFileNumberOfBlocks, [c!"Nie można podzielić pliku dla liczby bloków = 0"]),
    (.CannotSplitFileToolPathLength, [c!"Nie można podzielić pliku dla drogi narzędzia = 0"]),
    (.CannotSplitFileToolTime, [c!"Nie można podzielić pliku dla czasu narzędzia = 0"]),
    (.WrongMacroDefinition, [c!"Błędna definicja zmiennej #"]),
    (.ValueHigherThanAllowed, [c!"Wartość ", c!" [", c!"] wyższa niż maksymalna dozwolona wartość "]),
    (.ValueOutOfRange, [c!"Wartość ", c!" [", c!"] poza zakresem [", c!", ", c!"]"]),
    (.CodeNotUnique, [c!"Kod ", c!" musi być unikalny w obrębie bloku"]),
    (.UnsupportedOperation, [c!"Nieobsługiwana operacja: "]),
    (.UnsupportedBinaryOperation, [c!"Nieobsługiwana operacja dwuargumentowa: [", c!"]"]),
    (.UnsupportedUnaryOperation, [c!"Nieobsługiwana operacja jednoargumentowa: [", c!"]"]),
    (.UnsupportedFunction, [c!"Nieobsługiwana funkcja: [", c!"]"]),
    (.DuplicateAddress, [c!"Kolejny adres [", c!"] niedozwolony w bloku"]),
    (.SNotAllowedWhenOperatorTurnsRotation, [c!"Niedozwolony adres S gdy obroty włącza Operator"]),
    (.M3M4NotAllowedWhenOperatorTurnsRotation, [c!"Niedozwolony M3/M4 gdy obroty włącza Operator"]),
    (.NonMatchingCloseBracket, [c!"Niedopasowany nawias zamykający"])]

/-- The `language` argument. -/
inductive Lang where
  | known (l : ELanguage)
  | other
deriving DecidableEq, Repr

/-- `std::find_if` and the dereference of its result (MessageTextImpl.h:21-23):
not found is undefined behaviour. -/
def texts (t : List (Name × List Str)) (n : Name) : Out Empty (List Str) :=
  match t.find? (fun p => p.1 = n) with
  | some p => .ok p.2
  | none => .ub

/-- The alternating loop of `make_message` (MessageTextImpl.h:26-38): text
first; when the texts are used up the remaining arguments follow. -/
def weave : List Str → List Str → Str
  | [], as => as.flatten
  | t :: ts, [] => t ++ weave ts []
  | t :: ts, a :: as => t ++ a ++ weave ts as

/-- The loop of `make_message2` (MessageTextImpl.h:69-81): argument first;
when the texts are used up the remaining arguments follow. -/
def weave2 : List Str → List Str → Str
  | [], as => as.flatten
  | t :: ts, [] => t ++ weave2 ts []
  | t :: ts, a :: as => a ++ t ++ weave2 ts as

/-- The table for a language, in the variants with arguments
(MessageTextImpl.h:43-56, 86-99). -/
def tableOf : Lang → List (Name × List Str)
  | .known .English => tableEn
  | .known .Polish => tablePl
  | .other => tableEn

/-- `make_message(name, language, args...)` and `make_stream_message`, at
least one argument (MessageTextImpl.h:15-56, 101-142). -/
def makeMessage (n : Name) (l : Lang) (args : List Str) : Out Empty Str := do
  let ts ← texts (tableOf l) n
  pure (weave ts args)

/-- `make_message2` (MessageTextImpl.h:58-99). -/
def makeMessage2 (n : Name) (l : Lang) (args : List Str) : Out Empty Str := do
  let ts ← texts (tableOf l) n
  pure (weave2 ts args)

/-- `make_message(name, language)` without arguments (MessageText.cpp:14-43). -/
def makeMessage0 (n : Name) : Lang → Out Empty Str
  | .known .English => do let ts ← texts tableEn n; pure ts.flatten
  | .known .Polish => do let ts ← texts tablePl n; pure ts.flatten
  | .other => .ok []

end NC.Message
