import Verif.MacroMap
import Mathlib.Data.Int.Bitwise

/-!
# Macro expression calculator (parser/fanuc/ValueCalculator.cpp)

The Spirit grammar `calculator` (lines 338-364) as a recursive-descent parser
with fuel (shown to be always sufficient), the evaluator `eval` (204-336), the
BCD conversions (177-202) and `ValueCalculator::parse` (394-433).

Simplifications: numbers are rationals; division by zero and other non-finite
results are the distinct error `nonFinite`; transcendental functions are an
arbitrary oracle `tr`; `inf`/`nan` literals of `qi::double_` are not accepted.
-/

namespace NC.Calc

open NC

/-! Abstract syntax (`operand_type`, `program`; ValueCalculator.cpp:50-76). -/
mutual
inductive Opd where
  | num (q : ℚ)
  | sgn (c : Char) (o : Opd)
  | fn (name : Str) (o : Opd)
  | prog (first : Opd) (rest : Ops)
inductive Ops where
  | nil
  | cons (op : Str) (o : Opd) (rest : Ops)
end

/-- Result of a Spirit rule: no match, `expectation_failure` at the given rest,
success with the rest of the input, or out of fuel. -/
inductive PR (α : Type) where
  | fail
  | expect (pos : Str)
  | ok (a : α) (rest : Str)
  | fuel

/-- The `qi::blank` skipper. -/
def skip (s : Str) : Str := s.dropWhile (fun c => c = ' ' || c = '\t')

/-- Exponent part accepted by `qi::double_`: value of the exponent and the rest;
an `e` that is not followed by digits is left unread. -/
def exponent (s : Str) : Int × Str :=
  match s with
  | c :: r =>
    if c = 'e' ∨ c = 'E' then
      match r with
      | '-' :: r' => if (r'.takeWhile isDig) = [] then (0, s) else (-(readNat (r'.takeWhile isDig) : Int), r'.dropWhile isDig)
      | '+' :: r' => if (r'.takeWhile isDig) = [] then (0, s) else ((readNat (r'.takeWhile isDig) : Int), r'.dropWhile isDig)
      | r' => if (r'.takeWhile isDig) = [] then (0, s) else ((readNat (r'.takeWhile isDig) : Int), r'.dropWhile isDig)
    else (0, s)
  | [] => (0, [])

/-- Fraction digits after an optional dot, and the rest. -/
def fracPart (r : Str) : Str × Str :=
  match r with
  | '.' :: f => (f.takeWhile isDig, f.dropWhile isDig)
  | _ => ([], r)

/-- Unsigned part of `qi::double_`. -/
def ureal (s : Str) : Option (ℚ × Str) :=
  let ip := s.takeWhile isDig
  let fr := fracPart (s.dropWhile isDig)
  if ip = [] ∧ fr.1 = [] then none
  else
    let ex := exponent fr.2
    some (((readNat ip : ℚ) + (readNat fr.1 : ℚ) / 10 ^ fr.1.length) * (10 : ℚ) ^ ex.1, ex.2)

/-- `qi::double_` (used at ValueCalculator.cpp:353) after skipping blanks. -/
def pDouble (s : Str) : Option (ℚ × Str) :=
  match skip s with
  | '-' :: r => (ureal r).map (fun p => (-p.1, p.2))
  | '+' :: r => ureal r
  | r => ureal r

/-- `build_symbols` (ValueCalculator.cpp:371-392). -/
def symTable : List (Str × Str) :=
  [(c!"ABS", c!"abs"), (c!"ACOS", c!"acos"), (c!"ASIN", c!"asin"), (c!"ATAN", c!"atan"),
   (c!"FUP", c!"ceil"), (c!"COS", c!"cos"), (c!"COSH", c!"cosh"), (c!"EXP", c!"exp"),
   (c!"FIX", c!"floor"), (c!"LOG10", c!"log10"), (c!"LOG", c!"log"), (c!"SIN", c!"sin"),
   (c!"SINH", c!"sinh"), (c!"SQRT", c!"sqrt"), (c!"TAN", c!"tan"), (c!"TANH", c!"tanh"),
   (c!"ROUND", c!"round"), (c!"BCD", c!"bcd"), (c!"BIN", c!"bin")]

/-- Longest matching symbol (`qi::symbols` uses longest match). -/
def symBest (tbl : List (Str × Str)) (s : Str) : Option (Str × Str) :=
  tbl.foldl (fun best e =>
    if e.1.isPrefixOf s then
      match best with
      | some b => if b.1.length < e.1.length then some e else some b
      | none => some e
    else best) none

/-- The symbol table parser: evaluated name and rest. -/
def pSym (s : Str) : Option (Str × Str) :=
  let s := skip s
  (symBest symTable s).map (fun e => (e.2, s.drop e.1.length))

/-- `qi::char_("([")`. -/
def isOpen (c : Char) : Bool := c = '(' || c = '['
/-- `qi::char_(")]")`. -/
def isClose (c : Char) : Bool := c = ')' || c = ']'

/-- Low-precedence operators of `expression` (ValueCalculator.cpp:347-348). -/
def lowOp (s : Str) : Option (Str × Str) :=
  match skip s with
  | '+' :: r => some (c!"+", r)
  | '-' :: r => some (c!"-", r)
  | 'O' :: 'R' :: r => some (c!"OR", r)
  | 'X' :: 'O' :: 'R' :: r => some (c!"XOR", r)
  | _ => none

/-- High-precedence operators of `term` (ValueCalculator.cpp:350-351). -/
def highOp (s : Str) : Option (Str × Str) :=
  match skip s with
  | '*' :: r => some (c!"*", r)
  | '/' :: r => some (c!"/", r)
  | 'A' :: 'N' :: 'D' :: r => some (c!"AND", r)
  | 'M' :: 'O' :: 'D' :: r => some (c!"MOD", r)
  | _ => none

/-- `> omit[char_(")]")]` after an expression. -/
def closeAfter (e : PR Opd) (k : Opd → Opd) : PR Opd :=
  match e with
  | .ok a r =>
    match skip r with
    | c :: r' => if isClose c then .ok (k a) r' else .expect r
    | [] => .expect r
  | .fail => .fail
  | .expect p => .expect p
  | .fuel => .fuel

/-- `> rule`: a failing rule becomes an expectation failure. -/
def must (pos : Str) (e : PR Opd) : PR Opd :=
  match e with
  | .fail => .expect pos
  | x => x

/-- Apply a constructor to a successful result. -/
def PR.map {α β : Type} (f : α → β) : PR α → PR β
  | .ok a r => .ok (f a) r
  | .fail => .fail
  | .expect p => .expect p
  | .fuel => .fuel

mutual
/-- `expression` (ValueCalculator.cpp:347-348). -/
def pE : Nat → Str → PR Opd
  | 0, _ => .fuel
  | n + 1, s =>
    match pT n s with
    | .ok t r => (pEl n r).map (Opd.prog t)
    | x => x
/-- The `*( op > term )` part of `expression`. -/
def pEl : Nat → Str → PR Ops
  | 0, _ => .fuel
  | n + 1, s =>
    match lowOp s with
    | none => .ok .nil s
    | some (op, r) =>
      match must r (pT n r) with
      | .ok t r' => (pEl n r').map (Ops.cons op t)
      | .fail => .fail
      | .expect p => .expect p
      | .fuel => .fuel
/-- `term` (ValueCalculator.cpp:350-351). -/
def pT : Nat → Str → PR Opd
  | 0, _ => .fuel
  | n + 1, s =>
    match pF n s with
    | .ok t r => (pTl n r).map (Opd.prog t)
    | x => x
/-- The `*( op > factor )` part of `term`. -/
def pTl : Nat → Str → PR Ops
  | 0, _ => .fuel
  | n + 1, s =>
    match highOp s with
    | none => .ok .nil s
    | some (op, r) =>
      match must r (pF n r) with
      | .ok t r' => (pTl n r').map (Ops.cons op t)
      | .fail => .fail
      | .expect p => .expect p
      | .fuel => .fuel
/-- `factor` and `function_call` (ValueCalculator.cpp:345, 353-354). -/
def pF : Nat → Str → PR Opd
  | 0, _ => .fuel
  | n + 1, s =>
    match pDouble s with
    | some (q, r) => .ok (.num q) r
    | none =>
      match skip s with
      | [] => .fail
      | c :: r =>
        if isOpen c then closeAfter (must r (pE n r)) id
        else if c = '-' ∨ c = '+' ∨ c = '#' then (must r (pF n r)).map (Opd.sgn c)
        else
          match pSym s with
          | none => .fail
          | some (name, r2) =>
            match skip r2 with
            | [] => .expect r2
            | o :: r3 =>
              if isOpen o then closeAfter (must r3 (pE n r3)) (Opd.fn name)
              else .expect r2
end

/-- Fuel that always suffices for a text (`parse_total`). -/
def fuelFor (s : Str) : Nat := 3 * s.length + 3

/-! ## BCD conversions -/

/-- Loop of `uint32_to_bcd` (ValueCalculator.cpp:177-188), 64-bit wrap included. -/
def bcdLoop (usi shift result : Nat) : Nat :=
  if h : usi / 10 = 0 then result
  else bcdLoop (usi / 10) (shift * 16 % 2 ^ 64) ((result + (usi / 10 % 10) * shift) % 2 ^ 64)
termination_by usi
decreasing_by omega

/-- `uint32_to_bcd`. -/
def toBcd (usi : Nat) : Nat := bcdLoop usi 16 (usi % 10)

/-- Loop of `bcd_to_ui32` (ValueCalculator.cpp:190-202), 64-bit wrap included. -/
def ui32Loop (bcd pwr i : Nat) : Nat :=
  if h : bcd / 16 = 0 then i
  else ui32Loop (bcd / 16) (pwr * 10 % 2 ^ 64)
         ((i + (bcd / 16 % 16) * (pwr * 10 % 2 ^ 64)) % 2 ^ 64)
termination_by bcd
decreasing_by omega

/-- `bcd_to_ui32`. -/
def fromBcd (bcd : Nat) : Nat := ui32Loop bcd 1 (bcd % 16) % 2 ^ 32

/-! ## Evaluation -/

/-- Errors of `eval` (`eval_exception`, ValueCalculator.cpp:35-41). -/
inductive CalcErr where
  | badBinary (op : Str)
  | badUnary (c : Char)
  | missing (id : Nat)
  | badFunction (name : Str)
  | nonFinite
deriving DecidableEq, Repr

/-- `static_cast<int>` etc.: truncation toward zero. -/
def truncQ (q : ℚ) : Int := Int.tdiv q.num q.den

/-- Truncating conversion to an integer type with bounds; out of range is UB. -/
def castTo (lo hi : Int) (q : ℚ) : Out CalcErr Int :=
  if lo ≤ truncQ q ∧ truncQ q ≤ hi then .ok (truncQ q) else .ub

/-- `static_cast<int>`. -/
def toI32 (q : ℚ) : Out CalcErr Int := castTo (-2147483648) 2147483647 q
/-- `static_cast<unsigned int>`. -/
def toU32 (q : ℚ) : Out CalcErr Int := castTo 0 4294967295 q
/-- `static_cast<uint64_t>`. -/
def toU64 (q : ℚ) : Out CalcErr Int := castTo 0 18446744073709551615 q

/-- Binary operators (ValueCalculator.cpp:225-248). -/
def evalOp (op : Str) (l r : ℚ) : Out CalcErr ℚ :=
  if op = c!"+" then .ok (l + r)
  else if op = c!"-" then .ok (l - r)
  else if op = c!"*" then .ok (l * r)
  else if op = c!"/" then if r = 0 then .throw .nonFinite else .ok (l / r)
  else if op = c!"AND" then do let a ← toI32 l; let b ← toI32 r; .ok (Int.land a b : Int)
  else if op = c!"OR" then do let a ← toI32 l; let b ← toI32 r; .ok (Int.lor a b : Int)
  else if op = c!"XOR" then do let a ← toI32 l; let b ← toI32 r; .ok (Int.xor a b : Int)
  else if op = c!"MOD" then do
    let a ← toI32 l; let b ← toI32 r
    if b = 0 ∨ (a = -2147483648 ∧ b = -1) then .ub else .ok (Int.tmod a b : Int)
  else .throw (.badBinary op)

/-- `std::round` (half away from zero). -/
def roundQ (q : ℚ) : ℚ := if 0 ≤ q then (⌊q + 1/2⌋ : ℤ) else -((⌊-q + 1/2⌋ : ℤ) : ℚ)

/-- Names evaluated through the oracle (ValueCalculator.cpp:283-310). -/
def oracleNames : List Str :=
  [c!"acos", c!"asin", c!"atan", c!"cos", c!"cosh", c!"exp", c!"log10", c!"log", c!"sin",
   c!"sqrt", c!"tan", c!"tanh"]

/-- Functions (ValueCalculator.cpp:278-321); `tr` is the oracle for the
transcendental ones (`none`: not finite). -/
def evalFn (tr : Str → ℚ → Option ℚ) (name : Str) (x : ℚ) : Out CalcErr ℚ :=
  if name = c!"abs" then .ok |x|
  else if name = c!"ceil" then .ok (⌈x⌉ : ℤ)
  else if name = c!"floor" then .ok (⌊x⌋ : ℤ)
  else if name = c!"round" then .ok (roundQ x)
  else if name = c!"bcd" then do let a ← toU64 x; .ok (fromBcd a.toNat)
  else if name = c!"bin" then do let a ← toU32 x; .ok (toBcd a.toNat)
  else if name ∈ oracleNames then
    match tr name x with
    | some y => .ok y
    | none => .throw .nonFinite
  else .throw (.badFunction name)

/-- Unary operators (ValueCalculator.cpp:250-276). -/
def evalSgn (m : MacroMap ℚ) (c : Char) (x : ℚ) : Out CalcErr ℚ :=
  if c = '-' then .ok (-x)
  else if c = '+' then .ok x
  else if c = '#' then do
    let i ← toU32 x
    match m.valueMax i.toNat with
    | some v => .ok v
    | none => .throw (.missing i.toNat)
  else .throw (.badUnary c)

mutual
/-- `eval::operator()` (ValueCalculator.cpp:213-331). -/
def eval (tr : Str → ℚ → Option ℚ) (m : MacroMap ℚ) : Opd → Out CalcErr ℚ
  | .num q => .ok q
  | .sgn c o => do let x ← eval tr m o; evalSgn m c x
  | .fn name o => do let x ← eval tr m o; evalFn tr name x
  | .prog f rest => do let s ← eval tr m f; evalOps tr m s rest
/-- The loop of `eval::operator()(program)` (ValueCalculator.cpp:323-331). -/
def evalOps (tr : Str → ℚ → Option ℚ) (m : MacroMap ℚ) (state : ℚ) : Ops → Out CalcErr ℚ
  | .nil => .ok state
  | .cons op o rest => do
    let r ← eval tr m o
    let s ← evalOp op state r
    evalOps tr m s rest
end

/-- Why `ValueCalculator::parse` returned false. -/
inductive CalcFail where
  | expect (pos : Str)   -- expectation_failure: message "line:column: rest"
  | evalErr (e : CalcErr) -- eval_exception
  | noMatch              -- phrase_parse false: eval of `nil` throws
deriving DecidableEq, Repr

/-- `ValueCalculator::parse` (ValueCalculator.cpp:394-433).  When the grammar
does not match, `p` is default constructed (`nil` first operand) and `eval`
throws.  The rest of the input is not inspected. -/
def evalText (tr : Str → ℚ → Option ℚ) (m : MacroMap ℚ) (s : Str) : Out CalcFail ℚ :=
  match pE (fuelFor s) s with
  | .ok p _ =>
    match eval tr m p with
    | .ok v => .ok v
    | .throw e => .throw (.evalErr e)
    | .ub => .ub
  | .expect pos => .throw (.expect pos)
  | .fail => .throw .noMatch
  | .fuel => .throw .noMatch

end NC.Calc
