import Verif.Grammar
import Verif.Macro
import Verif.Verifiers
import Verif.AttrPath

/-!
# Checking a line (parser/fanuc/AllAttributesParser.cpp)

`parse` puts the line grammar, the macro evaluation, the verifiers and the path
calculation together.  A parser is modelled after `set_ncsettings`, which is
when the grammar object and the path calculator exist.  Numbers of the path
calculation are rationals; its functions `F` and those of the calculator `tr`
are parameters.
-/

namespace NC.Pipe
open NC NC.Message NC.Gram NC.Ver NC.AttrPath NC.Path

/-- What a parser is made of: the constructor arguments and those of
`set_ncsettings` (AllAttributesParser.cpp:46-75, 131-163). -/
structure Setup where
  tables : FanucGrammar
  ops : List Str
  gcodes : Groups
  mcodes : Groups
  haas : Bool
  lang : Lang
  units : Units
  lathe : Bool
  cfg : Cfg ℚ
  limits : Limits
  zero : Zero
  F : Fns ℚ
  tr : Str → ℚ → Option ℚ
  pi : ℚ
  e : ℚ

/-- `ParserSettings` (GeneralParserDefines.h:87-94). -/
structure Options where
  evalMacro : Bool
  groups : Bool
  path : Bool
  analysis : Bool
  zeroPoint : Bool
deriving DecidableEq, Repr

/-- The mutable members of a parser. -/
structure Parser where
  gram : PS
  macros : MacroMap ℚ
  units : Units
  path : St ℚ
  rot : Rot

/-- `word_grammar.metric`, `word_grammar.imperial`. -/
def tableOf (t : FanucGrammar) : Units → WordMap
  | .metric => t.metric
  | .imperial => t.imperial

/-- The grammar object: the words of the default units, the symbols of the metric
table, which was active in the constructor (AllAttributesParser.cpp:50, 64, 138-139, 161-162). -/
def gramOf (S : Setup) : Gram := built (tableOf S.tables S.units) S.tables.metric S.ops S.lang

/-! ## set_ncsettings -/

/-- `zero_point_axis_map` (AllAttributesParser.cpp:142-143). -/
def zeroAxes (z : Zero) : List (Str × ℚ) := [(c!"X", z.x), (c!"Y", z.y), (c!"Z", z.z)]

/-- `count` in that map. -/
def zeroCount (z : Zero) (a : Str) : ℚ := if (zeroAxes z).any (fun e => e.1 == a) then 1 else 0

/-- `at` in that map. -/
def zeroAt (z : Zero) (a : Str) : Out NumExc ℚ :=
  match (zeroAxes z).find? (fun e => e.1 == a) with
  | some e => .ok e.2
  | none => .throw .outOfRange

/-- `it.second - map.count(it.first) ? map.at(it.first) : 0`
(AllAttributesParser.cpp:147-148, 153-154). -/
def zeroPoint (z : Zero) (a : Str) (v : ℚ) : Out NumExc ℚ := if v - zeroCount z a ≠ 0 then zeroAt z a else .ok 0

/-- The loops over the points (AllAttributesParser.cpp:145-155). -/
def zeroPoints (z : Zero) : VMap ℚ → Out NumExc (VMap ℚ)
  | [] => .ok []
  | (a, v) :: t => do
    let x ← zeroPoint z a v
    let r ← zeroPoints z t
    pure ((a, x) :: r)

/-- `set_ncsettings` (AllAttributesParser.cpp:131-163): the path calculator gets the
computed points.  The exception of `at` leaves it. -/
def configure (S : Setup) : Out NumExc Setup := do
  let e ← zeroPoints S.zero S.cfg.exchange
  let b ← zeroPoints S.zero S.cfg.base
  pure { S with cfg := { S.cfg with exchange := e, base := b } }

/-- `init_macro_values` (AllAttributesParser.cpp:98-102); `M_PI` and `M_E` as numbers. -/
def initMacros (S : Setup) : MacroMap ℚ := (MacroMap.emplace [] ⟨3101, -1⟩ S.pi).emplace ⟨3102, -1⟩ S.e

/-- A parser for the configured setup after `reset_macro_values` and `set_ncsettings`. -/
def fresh (S : Setup) : Parser := ⟨{}, initMacros S, S.units, AttrPath.initial S.cfg, {}⟩

/-! ## The result of a call -/

/-- The return value and the message; `none`: the caller's string is left alone. -/
abbrev Answer := Bool × Option Str

/-- `what()` of the exceptions of the verifiers: `make_message2` in two places of
CodeGroupsVerifier.cpp (72, 93), `make_message` elsewhere. -/
def excText (l : Lang) (n : Name) (args : List Str) : Str :=
  if n = .MissingInCodeGroups ∨ n = .InSameCodeGroup then outText (makeMessage2 n l args)
  else if args = [] then outText (makeMessage0 n l)
  else outText (makeMessage n l args)

/-- The `catch` clauses (AllAttributesParser.cpp:289-328): `std::out_of_range` comes from
`std::stoi`; `std::invalid_argument` is not caught. -/
def tell (l : Lang) : Exc → Out NumExc Answer
  | .num .outOfRange => .ok (false, some c!"stoi")
  | .num .invalidArgument => .throw .invalidArgument
  | .msg _ n args => .ok (false, some (excText l n args))

/-- Go on unless an exception was thrown. -/
def andThen (l : Lang) (x : Out Exc Unit) (p : Parser) (k : Parser × Out NumExc Answer) : Parser × Out NumExc Answer :=
  match x with
  | .ok () => k
  | .throw e => (p, tell l e)
  | .ub => (p, .ub)

/-! ## The stages of parse -/

/-- The units are selected by a block (AllAttributesParser.cpp:242, 276). -/
def selected (p : Parser) (b : Block) : Parser := { p with units := (selectRun p.units b).1 }

/-- The end (AllAttributesParser.cpp:276, 330). -/
def lastStage (S : Setup) (ok : Bool) (b : Block) (p : Parser) : Parser × Out NumExc Answer :=
  andThen S.lang (selectRun p.units b).2 (selected p b) (selected p b, .ok (ok, none))

/-- `get_word_range` as the range verifier reads it. -/
def ranges (m : VMap (Rng ℚ)) : WordRange := m.map (fun e => (e.1, (e.2.lo, e.2.cur, e.2.hi)))

/-- The path calculation of a block (AllAttributesParser.cpp:267-268). -/
def calculated (S : Setup) (line : Int) (b : Block) (p : Parser) : Parser × Out Exc Unit :=
  let r := AttrPath.evaluate S.F S.cfg (decide (p.units = .imperial)) line b (p.path, p.macros)
  ({ p with path := r.1.1, macros := r.1.2 }, r.2)

/-- Path and travel (AllAttributesParser.cpp:264-274). -/
def pathStage (S : Setup) (o : Options) (line : Int) (ok : Bool) (b : Block) (p : Parser) : Parser × Out NumExc Answer :=
  if o.path then
    let r := calculated S line b p
    andThen S.lang r.2 r.1
      (andThen S.lang (if o.zeroPoint then travelRun S.limits S.zero (ranges r.1.path.range) else .ok ()) r.1
        (lastStage S ok b r.1))
  else lastStage S ok b p

/-- Code groups and, for Haas, a second M (AllAttributesParser.cpp:257-262). -/
def groupStage (S : Setup) (o : Options) (line : Int) (ok : Bool) (b : Block) (p : Parser) : Parser × Out NumExc Answer :=
  andThen S.lang (if o.groups then codeGroups p.macros S.gcodes S.mcodes line b false else .ok ()) p
    (andThen S.lang (if S.haas then sameWord c!"M" b else .ok ()) p
      (pathStage S o line ok b p))

/-- An optional exception as an outcome. -/
def ofOption : Option Exc → Out Exc Unit
  | none => .ok ()
  | some e => .throw e

/-- Limits and rotation (AllAttributesParser.cpp:249-255). -/
def analysisStage (S : Setup) (o : Options) (line : Int) (ok : Bool) (b : Block) (p : Parser) :
    Parser × Out NumExc Answer :=
  if o.analysis then
    andThen S.lang (limitRun S.lathe S.limits b) p
      (let r := rotation S.cfg.operatorRotation p.rot b
       andThen S.lang (ofOption r.2) { p with rot := r.1 } (groupStage S o line ok b { p with rot := r.1 }))
  else groupStage S o line ok b p

/-- System variables (AllAttributesParser.cpp:247).  `std::stod` raises nothing but
`invalid_argument` here, which ends the run, so that the variables assigned before it do not matter. -/
def systemStage (S : Setup) (o : Options) (line : Int) (ok : Bool) (b : Block) (p : Parser) :
    Parser × Out NumExc Answer :=
  match Macro.sysRun line p.macros b with
  | .ok m => analysisStage S o line ok b { p with macros := m }
  | .throw e => (p, tell S.lang (.num e))
  | .ub => (p, .ub)

/-- The words of the evaluated code select units and are checked further
(AllAttributesParser.cpp:242, 247). -/
def codeWords (S : Setup) (o : Options) (line : Int) (ok : Bool) (b : Block) (p : Parser) : Parser × Out NumExc Answer :=
  andThen S.lang (selectRun p.units b).2 (selected p b) (systemStage S o line ok b (selected p b))

/-- The evaluated code is read by the same grammar object, without `clear_message`; after
an expectation failure `ret` still has the value from the line (AllAttributesParser.cpp:229-245, 278-288). -/
def codeStage (S : Setup) (o : Options) (line : Int) (ok : Bool) (b : Block) (code : Str) (p : Parser) :
    Parser × Out NumExc Answer :=
  if code = [] then systemStage S o line ok b p
  else
    match phrase (gramOf S) p.gram code with
    | (g, .accept b2) => codeWords S o line true b2 { p with gram := g }
    | (g, .reject) => codeWords S o line false [] { p with gram := g }
    | (g, .expect _ t) => ({ p with gram := g }, .ok (ok, some (expectText code t g.msg)))
    | (g, .raise _ e) => ({ p with gram := g }, tell S.lang (.num e))

/-- Variables are replaced (AllAttributesParser.cpp:227-228). -/
def substituteStage (S : Setup) (o : Options) (line : Int) (ok : Bool) (b : Block) (p : Parser) :
    Parser × Out NumExc Answer :=
  match Macro.substitute S.ops p.macros line b with
  | .ok code => codeStage S o line ok b code p
  | .throw (.missing v) => (p, .ok (false, some (outText (makeMessage .MissingValue S.lang [c!"#" ++ v]))))
  | .throw (.num e) => (p, tell S.lang (.num e))
  | .ub => (p, .ub)

/-- Macro evaluation (AllAttributesParser.cpp:219-223): its message is replaced by that of
the grammar. -/
def macroStage (S : Setup) (o : Options) (line : Int) (ok : Bool) (b : Block) (p : Parser) :
    Parser × Out NumExc Answer :=
  match Macro.evaluate S.tr p.macros line b with
  | .ok m => substituteStage S o line ok b { p with macros := m }
  | .throw (.num e) => (p, tell S.lang (.num e))
  | .throw (.wrongDefinition _) => (p, .ok (false, some p.gram.msg))
  | .throw (.calc _) => (p, .ok (false, some p.gram.msg))
  | .ub => (p, .ub)

/-- After the line was read (AllAttributesParser.cpp:211-223). -/
def wordStage (S : Setup) (o : Options) (line : Int) (ok : Bool) (b : Block) (p : Parser) :
    Parser × Out NumExc Answer :=
  andThen S.lang (uniqueCode (tableOf S.tables p.units) b) p
    (if o.evalMacro then macroStage S o line ok b p else (p, .ok (ok, some p.gram.msg)))

/-- `parse` (AllAttributesParser.cpp:203-331). -/
def parse (S : Setup) (o : Options) (line : Int) (s : Str) (p : Parser) : Parser × Out NumExc Answer :=
  match phrase (gramOf S) { p.gram with msg := [] } s with
  | (g, .accept b) => wordStage S o line true b { p with gram := g }
  | (g, .reject) => wordStage S o line false [] { p with gram := g }
  | (g, .expect _ t) => ({ p with gram := g }, .ok (false, some (expectText s t g.msg)))
  | (g, .raise _ e) => ({ p with gram := g }, tell S.lang (.num e))

/-- The settings of the server: everything is on (NCParser.cpp:326-330, 367). -/
def serverOptions : Options := ⟨true, true, true, true, true⟩

/-- The lines of a program one after the other, numbered as given; stops at an exception. -/
def program (S : Setup) (o : Options) : Parser → List (Int × Str) → Parser × Out NumExc (List Answer)
  | p, [] => (p, .ok [])
  | p, l :: t =>
    match parse S o l.1 l.2 p with
    | (p', .ok a) =>
      match program S o p' t with
      | (q, .ok r) => (q, .ok (a :: r))
      | (q, .throw e) => (q, .throw e)
      | (q, .ub) => (q, .ub)
    | (p', .throw e) => (p', .throw e)
    | (p', .ub) => (p', .ub)

end NC.Pipe
