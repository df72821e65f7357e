import Verif.MacroMap
import Verif.Num
import Verif.Message

/-!
# The block verifiers

Sources: parser/fanuc/UniqueCode.cpp, CodeGroupsVerifier.cpp,
RangeVerifier.cpp, RotationVerifier.cpp, SameWordInBlockVerifier.cpp,
GrammarSelector.cpp.

Exceptions keep the name of the message and its arguments; the text is what
`Message.lean` makes of them.  `double` members are rationals.
-/

namespace NC.Ver
open NC

/-- The exception classes of the verifiers. -/
inductive Kind where
  | unique | groups | range | rotation | sameWord | path | macroCode
deriving DecidableEq, Repr

/-- An exception leaving a verifier: a number conversion failure or one of the
`*_exception` classes with its message. -/
inductive Exc where
  | num (e : NumExc)
  | msg (k : Kind) (n : Message.Name) (args : List Str)
deriving DecidableEq, Repr

/-- `std::stoi` inside a verifier. -/
def stoiE (s : Str) : Out Exc Int :=
  match stoi s with
  | .ok n => .ok n
  | .throw e => .throw (.num e)
  | .ub => .ub

/-! ## UniqueCode -/

/-- The visitor over a block; `seen` is the set `codes` (UniqueCode.cpp:24-43, 51-57). -/
def uniqueRun (g : WordMap) : List Str → Block → Out Exc Unit
  | _, [] => .ok ()
  | seen, .dec d :: t =>
    match g.find d.word with
    | none => uniqueRun g seen t
    | some wg =>
      if wg.unique = false then uniqueRun g seen t
      else if d.word ∈ seen then .throw (.msg .unique .CodeNotUnique [d.word])
      else uniqueRun g (d.word :: seen) t
  | seen, .str _ _ :: t => uniqueRun g seen t
  | seen, .chr _ _ :: t => uniqueRun g seen t

/-- `UniqueCode::operator()` (UniqueCode.cpp:51-57). -/
def uniqueCode (g : WordMap) (b : Block) : Out Exc Unit := uniqueRun g [] b

/-! ## SameWordInBlockVerifier -/

/-- The visitor over a block (SameWordInBlockVerifier.cpp:20-34, 42-48). -/
def sameWordRun (w : Str) : Bool → Block → Out Exc Unit
  | _, [] => .ok ()
  | was, .dec d :: t =>
    if d.word = w then
      if was then .throw (.msg .sameWord .DuplicateAddress [w]) else sameWordRun w true t
    else sameWordRun w was t
  | was, .str _ _ :: t => sameWordRun w was t
  | was, .chr _ _ :: t => sameWordRun w was t

/-- `SameWordInBlockVerifier::operator()` (SameWordInBlockVerifier.cpp:42-48). -/
def sameWord (w : Str) (b : Block) : Out Exc Unit := sameWordRun w false b

/-! ## CodeGroupsVerifier -/

/-- `CodeGroupValue` (CodeGroupsDefines.h:12-16). -/
abbrev Code := Nat × Nat

/-- `code_groups_map`; each group set is listed in order. -/
abbrev Groups := List (Code × List Str)

/-- `codes_map.find` (CodeGroupsVerifier.cpp:66). -/
def Groups.find (m : Groups) (c : Code) : Option (List Str) := (m.find? (fun e => e.1 == c)).map (·.2)

/-- `int` to `unsigned int`. -/
def toU32 (z : Int) : Nat := (z % 4294967296).toNat

/-- The code of a macro value from its text (CodeGroupsVerifier.cpp:45-55). -/
def codeOfText (s : Str) : Out Exc Code :=
  let a := s.takeWhile (· ≠ '.')
  match s.dropWhile (· ≠ '.') with
  | [] => do
    let n ← stoiE s
    pure (toU32 n, 0)
  | _ :: b => do
    let n ← stoiE a
    let r ← stoiE b
    pure (toU32 n, toU32 r)

/-- The code a word stands for (CodeGroupsVerifier.cpp:36-63). -/
def codeOf (m : MacroMap ℚ) (line : Int) (d : Dec) (v : Str) : Out Exc Code := do
  let val ← stoiE v
  if d.mac.isSome then
    match m.valueAt (toU32 val) line with
    | none => .throw (.msg .groups .MissingValue [c!"#" ++ v])
    | some q => codeOfText (toStringTrunc q)
  else
    match d.value2 with
    | none => pure (toU32 val, 0)
    | some v2 => do
      let r ← stoiE v2
      pure (toU32 val, toU32 r)

/-- The code as text (CodeGroupsVerifier.cpp:71-73, 87-94). -/
def codeText (letter : Str) (c : Code) : Str :=
  letter ++ natStr c.1 ++ (if c.2 ≠ 0 then '.' :: natStr c.2 else [])

/-- The occurrences map; the newest entry first. -/
abbrev Occ := List (Str × Code)

/-- `occurences.find` (CodeGroupsVerifier.cpp:85). -/
def Occ.find (o : Occ) (g : Str) : Option Code := (o.find? (fun e => e.1 == g)).map (·.2)

/-- The loop over the groups of a code (CodeGroupsVerifier.cpp:82-99). -/
def groupsLoop (letter : Str) (c : Code) : Occ → List Str → Out Exc Occ
  | occ, [] => .ok occ
  | occ, g :: gs =>
    match occ.find g with
    | some c2 => .throw (.msg .groups .InSameCodeGroup [codeText letter c, codeText letter c2, g])
    | none => groupsLoop letter c ((g, c) :: occ) gs

/-- A code joins the occurrences (CodeGroupsVerifier.cpp:66-99). -/
def addCode (letter : Str) (gm : Groups) (missing : Bool) (occ : Occ) (c : Code) : Out Exc Occ :=
  match gm.find c with
  | none =>
    if missing then .throw (.msg .groups .MissingInCodeGroups [codeText letter c]) else .ok occ
  | some gs => groupsLoop letter c occ gs

/-- The visitor over a block (CodeGroupsVerifier.cpp:31-106). -/
def groupsRun (letter : Str) (gm : Groups) (m : MacroMap ℚ) (line : Int) (missing : Bool) :
    Occ → Block → Out Exc Unit
  | _, [] => .ok ()
  | occ, .dec d :: t =>
    if d.word ≠ letter then groupsRun letter gm m line missing occ t
    else
      match d.value with
      | none => groupsRun letter gm m line missing occ t
      | some v =>
        match codeOf m line d v with
        | .ok c =>
          match addCode letter gm missing occ c with
          | .ok occ' => groupsRun letter gm m line missing occ' t
          | .throw e => .throw e
          | .ub => .ub
        | .throw e => .throw e
        | .ub => .ub
  | occ, .str _ _ :: t => groupsRun letter gm m line missing occ t
  | occ, .chr _ _ :: t => groupsRun letter gm m line missing occ t

/-- `CodeGroupsVerifier::operator()` (CodeGroupsVerifier.cpp:112-123). -/
def codeGroups (m : MacroMap ℚ) (gg mg : Groups) (line : Int) (b : Block) (missing : Bool) : Out Exc Unit :=
  match groupsRun c!"G" gg m line missing [] b with
  | .ok () => groupsRun c!"M" mg m line missing [] b
  | .throw e => .throw e
  | .ub => .ub

/-! ## RangeVerifier -/

/-- The members of `Kinematics` the range verifier reads
(parser/GeneralParserDefines.h:116-128). -/
structure Limits where
  axes : List (Str × (ℚ × ℚ))
  maxFeed : ℚ
  maxSpindle : Int
  warehouse : Int

/-- `cartesian_system_axis.find` (RangeVerifier.cpp:77). -/
def Limits.axis (k : Limits) (a : Str) : Option (ℚ × ℚ) := (k.axes.find? (fun e => e.1 == a)).map (·.2)

/-- `std::to_string(double)`. -/
def dblText (q : ℚ) : Str := fixedStr 6 q

/-- The tool number a T word is checked by (RangeVerifier.cpp:38-40). -/
def toolDigits (lathe : Bool) (v : Str) : Str :=
  if lathe = true ∧ 2 < v.length then v.take (v.length / 2) else v

/-- `RangeVerifierVisitor::operator()` on a decimal word (RangeVerifier.cpp:23-58). -/
def limitWord (lathe : Bool) (k : Limits) (d : Dec) : Out Exc Unit :=
  match d.value with
  | none => .ok ()
  | some v =>
    if d.word = c!"S" then do
      let n ← stoiE v
      if n > k.maxSpindle then
        .throw (.msg .range .ValueHigherThanAllowed [c!"S", v, intStr k.maxSpindle])
      else pure ()
    else if d.word = c!"T" then do
      let n ← stoiE (toolDigits lathe v)
      if n > k.warehouse then
        .throw (.msg .range .ValueHigherThanAllowed [c!"T", toolDigits lathe v, intStr k.warehouse])
      else pure ()
    else if d.word = c!"F" then do
      let n ← stoiE v
      if (n : ℚ) > k.maxFeed then
        .throw (.msg .range .ValueHigherThanAllowed [c!"F", v, dblText k.maxFeed])
      else pure ()
    else .ok ()

/-- The visitor applied to every word (RangeVerifier.cpp:65-71). -/
def limitRun (lathe : Bool) (k : Limits) : Block → Out Exc Unit
  | [] => .ok ()
  | .dec d :: t =>
    match limitWord lathe k d with
    | .ok () => limitRun lathe k t
    | .throw e => .throw e
    | .ub => .ub
  | .str _ _ :: t => limitRun lathe k t
  | .chr _ _ :: t => limitRun lathe k t

/-- `ZeroPoint` (parser/GeneralParserDefines.h:140-145). -/
structure Zero where
  x : ℚ
  y : ℚ
  z : ℚ

/-- The shift of an axis range (RangeVerifier.cpp:86-100). -/
def shift (zp : Zero) (a : Str) (r : ℚ × ℚ) : ℚ × ℚ :=
  if a = c!"X" then (r.1 - zp.x, r.2 - zp.x)
  else if a = c!"Y" then (r.1 - zp.y, r.2 - zp.y)
  else if a = c!"Z" then (r.1 - zp.z, r.2 - zp.z)
  else r

/-- `word_range_map`: axis, (min, current, max), in order. -/
abbrev WordRange := List (Str × (ℚ × ℚ × ℚ))

/-- The second `RangeVerifier::operator()` (RangeVerifier.cpp:73-109). -/
def travelRun (k : Limits) (zp : Zero) : WordRange → Out Exc Unit
  | [] => .ok ()
  | e :: t =>
    match k.axis e.1 with
    | none => travelRun k zp t
    | some r =>
      if e.2.2.1 > (shift zp e.1 r).2 ∨ e.2.2.1 < (shift zp e.1 r).1 then
        .throw (.msg .range .ValueOutOfRange
          [e.1, dblText e.2.2.1, dblText (shift zp e.1 r).1, dblText (shift zp e.1 r).2])
      else travelRun k zp t

/-! ## RotationVerifier -/

/-- The flags of the visitor (RotationVerifier.h:63-70). -/
structure Rot where
  G : Bool := false
  M : Bool := false
  S : Bool := false
  reported : Bool := false
deriving DecidableEq, Repr

/-- `RotationVerifierVisitor::operator()` (RotationVerifier.cpp:24-57); `op` is
`operator_turns_on_rotation`.  The flags survive an exception. -/
def rotWord (op : Bool) (st : Rot) (d : Dec) : Rot × Option Exc :=
  if d.word = c!"S" then
    ({ st with S := true },
      if op then some (.msg .rotation .SNotAllowedWhenOperatorTurnsRotation []) else none)
  else if d.word = c!"M" ∧ d.value.isSome then
    match stoi (d.value.getD []) with
    | .ok n =>
      if n = 3 ∨ n = 4 then
        ({ st with M := true },
          if op then some (.msg .rotation .M3M4NotAllowedWhenOperatorTurnsRotation []) else none)
      else (st, none)
    | .throw e => (st, some (.num e))
    | .ub => (st, none)
  else if op = false ∧ d.word = c!"G" ∧ d.value.isSome then
    match stoi (d.value.getD []) with
    | .ok n => if n = 1 ∨ (81 ≤ n ∧ n ≤ 89) then ({ st with G := true }, none) else (st, none)
    | .throw e => (st, some (.num e))
    | .ub => (st, none)
  else (st, none)

/-- The visitor over a block (RotationVerifier.cpp:63-64). -/
def rotRun (op : Bool) : Rot → Block → Rot × Option Exc
  | st, [] => (st, none)
  | st, .dec d :: t =>
    match rotWord op st d with
    | (st', none) => rotRun op st' t
    | (st', some e) => (st', some e)
  | st, .str _ _ :: t => rotRun op st t
  | st, .chr _ _ :: t => rotRun op st t

/-- The checks after a block (RotationVerifier.cpp:65-84). -/
def rotCheck (op : Bool) (st : Rot) : Rot × Option Exc :=
  if st.reported = false ∧ op = false then
    if st.G = true ∧ st.M = false ∧ st.S = false then
      ({ st with reported := true }, some (.msg .rotation .ValueNotSet [c!"S"]))
    else if st.G = true ∧ st.M = true ∧ st.S = false then
      ({ st with reported := true }, some (.msg .rotation .ValueNotSet [c!"S"]))
    else if st.G = true ∧ st.S = true ∧ st.M = false then
      ({ st with reported := true }, some (.msg .rotation .ValueNotSet [c!"M3/M4"]))
    else (st, none)
  else (st, none)

/-- `RotationVerifier::operator()` (RotationVerifier.cpp:59-85). -/
def rotation (op : Bool) (st : Rot) (b : Block) : Rot × Option Exc :=
  match rotRun op st b with
  | (st', none) => rotCheck op st'
  | (st', some e) => (st', some e)

/-- One block after the other on the same verifier object, which the parser
owns (AllAttributesParser.h:139). -/
def rotProgram (op : Bool) : Rot → List Block → List (Option Exc)
  | _, [] => []
  | st, b :: t => (rotation op st b).2 :: rotProgram op (rotation op st b).1 t

/-! ## GrammarSelector -/

/-- Which of the two grammars is active. -/
inductive Units where
  | metric | imperial
deriving DecidableEq, Repr

/-- `GrammarSelectorVisitor` over a block (GrammarSelector.cpp:24-38, 50-56); what was
selected before an exception stays selected. -/
def selectRun : Units → Block → Units × Out Exc Unit
  | u, [] => (u, .ok ())
  | u, .dec d :: t =>
    if d.word ≠ c!"G" then selectRun u t
    else
      match d.value with
      | none => selectRun u t
      | some v =>
        match stoi v with
        | .ok n => selectRun (if n = 20 then .imperial else if n = 21 then .metric else u) t
        | .throw e => (u, .throw (.num e))
        | .ub => (u, .ub)
  | u, .str _ _ :: t => selectRun u t
  | u, .chr _ _ :: t => selectRun u t

end NC.Ver
