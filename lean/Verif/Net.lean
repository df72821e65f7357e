import Verif.Wrapper

/-!
# The .NET side of the interface (parser_net/AllAttributesParser.cs)

Every method calls a function of the C interface with null pointers (C# clears local
variables), reads the arrays and releases them.  Bytes are characters below 256.

Simplifications: the native function is given by its results; overlong forms and
surrogates in UTF-8 are not refused, and every other malformed byte becomes one
replacement character.
-/

namespace NC.Net
open NC NC.Wrap

/-! ## Texts -/

/-- A character as UTF-8. -/
def utf8Of (c : Char) : Str :=
  let n := c.toNat
  if n < 128 then [c]
  else if n < 2048 then [Char.ofNat (192 + n / 64), Char.ofNat (128 + n % 64)]
  else if n < 65536 then [Char.ofNat (224 + n / 4096), Char.ofNat (128 + n / 64 % 64), Char.ofNat (128 + n % 64)]
  else [Char.ofNat (240 + n / 262144), Char.ofNat (128 + n / 4096 % 64), Char.ofNat (128 + n / 64 % 64), Char.ofNat (128 + n % 64)]

/-- A text as UTF-8. -/
def utf8 (s : Str) : Str := s.flatMap utf8Of

/-- U+FFFD. -/
def bad : Char := Char.ofNat 65533

/-- The first byte of a character: how many follow, and its bits. -/
def lead (n : Nat) : Option (Nat × Nat) :=
  if n < 128 then some (0, n)
  else if n < 194 then none
  else if n < 224 then some (1, n - 192)
  else if n < 240 then some (2, n - 224)
  else if n < 245 then some (3, n - 240)
  else none

/-- `Encoding.UTF8.GetString` (AllAttributesParser.cs:1162): `k` bytes of a character with the bits `acc` are missing. -/
def decode (k acc : Nat) : Str → Str
  | [] => if k = 0 then [] else [bad]
  | a :: r =>
    let n := a.toNat
    if k ≠ 0 ∧ 128 ≤ n ∧ n < 192 then
      if k = 1 then Char.ofNat (acc * 64 + (n - 128)) :: decode 0 0 r else decode (k - 1) (acc * 64 + (n - 128)) r
    else
      (if k = 0 then [] else [bad]) ++
        match lead n with
        | none => bad :: decode 0 0 r
        | some (0, m) => Char.ofNat m :: decode 0 0 r
        | some (j + 1, m) => decode (j + 1) m r

/-- `StringFromNativeUtf8`, from the bytes on (AllAttributesParser.cs:1156-1163). -/
def fromUtf8 (s : Str) : Str := decode 0 0 s

/-- What `UnmanagedType.LPStr` means: UTF-8 on Linux, the code page on Windows. -/
inductive Platform where
  | linux
  | windows (enc dec : Char → Char)

/-- A text that is passed (AllAttributesParser.cs:554-1115, `string`). -/
def toNative : Platform → Str → Str
  | .linux, s => utf8 s
  | .windows enc _, s => s.map enc

/-- A text that is received (`LPStr`, `PtrToStringAnsi`). -/
def fromNative : Platform → Str → Str
  | .linux, s => fromUtf8 s
  | .windows _ dec, s => s.map dec

/-! ## Reading memory -/

/-- The bytes before the terminating NUL. -/
def bytesAt (h : Heap) (p : Ptr) : Out Unit Str :=
  match cell h p with
  | some (.chars s) => .ok (s.takeWhile (fun c => decide (c ≠ '\x00')))
  | _ => .ub

/-- A text field of a structure: `null` or a text. -/
def textAt (pl : Platform) (h : Heap) (p : Ptr) : Out Unit (Option Str) :=
  match p with
  | .null => .ok none
  | p => (bytesAt h p).bind (fun s => .ok (some (fromNative pl s)))

/-- `Marshal.Copy` of `n` numbers; nothing is read when `n` is 0. -/
def intsAt (h : Heap) (p : Ptr) (n : Nat) : Out Unit (List Int) :=
  match cell h p with
  | some (.ints l) => if n ≤ l.length then .ok (l.take n) else .ub
  | _ => .ub

/-- `Marshal.Copy` of `n` numbers. -/
def numsAt (h : Heap) (p : Ptr) (n : Nat) : Out Unit (List ℚ) :=
  match cell h p with
  | some (.nums l) => if n ≤ l.length then .ok (l.take n) else .ub
  | _ => .ub

abbrev NetWord := Option Str × Option Str

/-- The loop over the words (AllAttributesParser.cs:1214-1219): the words and the rest of the array. -/
def wordsAt (pl : Platform) (h : Heap) : Nat → List (Ptr × Ptr) → Out Unit (List NetWord × List (Ptr × Ptr))
  | 0, ws => .ok ([], ws)
  | _ + 1, [] => .ub
  | n + 1, w :: ws =>
    (textAt pl h w.1).bind fun a =>
    (textAt pl h w.2).bind fun b =>
    (wordsAt pl h n ws).bind fun r => .ok ((a, b) :: r.1, r.2)

/-! ## Calls -/

/-- The message of a call: read and released, empty if there is none (AllAttributesParser.cs:1173-1182). -/
def message (h : Heap) (p : Ptr) : Out Unit (Heap × Str) :=
  match p with
  | .null => .ok (h, [])
  | p => (bytesAt h p).bind fun s => (release h p).bind fun h1 => .ok (h1, fromUtf8 s)

/-- The answer of a call: C++ sets one byte, .NET reads four, as nothing else is declared
(AllAttributesParser.cs:646-1113, `bool` without `MarshalAs`); `high` is what the others hold. -/
def answer (high : Nat) (b : Bool) : Bool := decide (high * 256 + (if b then 1 else 0) ≠ 0)

/-- What the native function finds. -/
structure Found where
  ok : Bool
  words : Block
  msg : Str

/-- What the caller gets. -/
structure Got where
  ok : Bool
  words : List NetWord
  msg : Str
deriving DecidableEq

/-- `Parse` without words (AllAttributesParser.cs:1165-1185). -/
def parseOnly (h : Heap) (high : Nat) (f : Found) : Out Unit (Heap × Bool × Str) :=
  let a := fillMessage h f.msg .null
  (message a.1 a.2).bind fun r => .ok (r.1, answer high f.ok, r.2)

/-- The words of an array, and its release (AllAttributesParser.cs:1209-1220). -/
def takeWords (pl : Platform) (h : Heap) (p : Ptr) (n : Nat) : Out Unit (Heap × List NetWord) :=
  if n = 0 then .ok (h, [])
  else
    match cell h p with
    | some (.words ws) =>
      (wordsAt pl h n ws).bind fun w => (disposeWords h p n).bind fun h1 => .ok (h1, w.1)
    | _ => .ub

/-- `Parse` with words (AllAttributesParser.cs:1187-1223); `ConvertLength` (1315-1352), `RemoveNumbering` (1354-1390),
`Renumber` (1392-1429), `RotateAxes` (1441-1478), `RemoveComment` (1665-1701) and `RemoveOptionalBlock` (1703-1739) are alike. -/
def call (pl : Platform) (h : Heap) (high : Nat) (f : Found) : Out Unit (Heap × Got) :=
  let a := fillWords h f.words .null 0
  let b := fillMessage a.1 f.msg .null
  (message b.1 b.2).bind fun r => (takeWords pl r.1 a.2.1 a.2.2).bind fun w => .ok (w.1, ⟨answer high f.ok, w.2, r.2⟩)

/-- `dictionary[key] = value`. -/
def put (d : List ((Int × Int) × ℚ)) (k : Int × Int) (v : ℚ) : List ((Int × Int) × ℚ) :=
  match d with
  | [] => [(k, v)]
  | e :: t => if e.1 = k then (k, v) :: t else e :: put t k v

/-- The loop over the variables (AllAttributesParser.cs:1244-1245, 1267-1268). -/
def putAll (d : List ((Int × Int) × ℚ)) : List (Int × Int) → List ℚ → List ((Int × Int) × ℚ)
  | k :: ks, v :: vs => putAll (put d k v) ks vs
  | _, _ => d

/-- `GetMacroValues` (AllAttributesParser.cs:1225-1250). -/
def macroValues (h : Heap) (m : MacroMap ℚ) : Out Unit (Heap × List ((Int × Int) × ℚ)) :=
  let o := fillMacros h m .null .null .null
  if o.2.2.2.2 = 0 then .ok (o.1, [])
  else
    (intsAt o.1 o.2.1 o.2.2.2.2).bind fun ids =>
    (intsAt o.1 o.2.2.1 o.2.2.2.2).bind fun lines =>
    (numsAt o.1 o.2.2.2.1 o.2.2.2.2).bind fun vals =>
    (disposeMacros o.1 o.2.1 o.2.2.1 o.2.2.2.1).bind fun h1 => .ok (h1, putAll [] (ids.zip lines) vals)

/-- `GetMacroValues` of a line (AllAttributesParser.cs:1252-1273); `d` is the caller's dictionary. -/
def lineMacroValues (h : Heap) (m : MacroMap ℚ) (line junk : Int) (junkQ : ℚ) (d : List ((Int × Int) × ℚ)) :
    Out Unit (Heap × Nat × List ((Int × Int) × ℚ)) :=
  let o := fillLineMacros h m line junk junkQ .null .null
  if o.2.2.2 = 0 then .ok (o.1, 0, d)
  else
    (intsAt o.1 o.2.1 o.2.2.2).bind fun ids =>
    (numsAt o.1 o.2.2.1 o.2.2.2).bind fun vals =>
    (disposeMacros o.1 o.2.1 .null o.2.2.1).bind fun h1 => .ok (h1, o.2.2.2, putAll d (ids.map (fun i => (i, line))) vals)

/-- A structure of totals. -/
def totalsAt (pl : Platform) (h : Heap) (p : Ptr) : Out Unit (List ℚ × Option Str) :=
  match p with
  | .null => .ok ([0, 0, 0, 0], none)
  | p =>
    match cell h p with
    | some (.totals l tool) => (textAt pl h tool).bind fun t => .ok (l, t)
    | _ => .ub

/-- The loop over the ranges (AllAttributesParser.cs:1300-1306). -/
def rangesAt (pl : Platform) (h : Heap) : Nat → List (Ptr × ℚ × ℚ × ℚ) → Out Unit (List (Option Str × ℚ × ℚ × ℚ))
  | 0, _ => .ok []
  | _ + 1, [] => .ub
  | n + 1, w :: ws =>
    (textAt pl h w.1).bind fun a => (rangesAt pl h n ws).bind fun r => .ok ((a, w.2) :: r)

/-- The array of ranges; nothing is read when it is empty (AllAttributesParser.cs:1294-1300). -/
def takeRanges (pl : Platform) (h : Heap) (p : Ptr) (n : Nat) : Out Unit (List (Option Str × ℚ × ℚ × ℚ)) :=
  if n = 0 then .ok []
  else
    match cell h p with
    | some (.ranges ws) => rangesAt pl h n ws
    | _ => .ub

/-- What `GetPathValues` returns. -/
structure GotPath where
  path : List ℚ × Option Str
  time : List ℚ × Option Str
  ranges : List (Option Str × ℚ × ℚ × ℚ)

/-- `GetPathValues` (AllAttributesParser.cs:1280-1308). -/
def pathValues (pl : Platform) (h : Heap) (p t : Totals) (w : List (Str × ℚ × ℚ × ℚ)) : Out Unit (Heap × GotPath) :=
  let o := fillPath h p t w
  (totalsAt pl o.1 o.2.path).bind fun a =>
  (totalsAt pl o.1 o.2.time).bind fun b =>
  (takeRanges pl o.1 o.2.ranges o.2.length).bind fun c =>
  (disposePath o.1 o.2).bind fun h1 => .ok (h1, ⟨a, b, c⟩)

/-- The loop over the blocks of a part (AllAttributesParser.cs:1607-1615). -/
def blocksAt (pl : Platform) (h : Heap) : Nat → List Int → List (Ptr × Ptr) →
    Out Unit (List (List NetWord) × List Int × List (Ptr × Ptr))
  | 0, vv, ws => .ok ([], vv, ws)
  | _ + 1, [], _ => .ub
  | n + 1, k :: vv, ws =>
    (wordsAt pl h k.toNat ws).bind fun a =>
    (blocksAt pl h n vv a.2).bind fun b => .ok (a.1 :: b.1, b.2)

/-- The loop over the parts (AllAttributesParser.cs:1604-1616). -/
def partsAt (pl : Platform) (h : Heap) : List Int → List Int → List (Ptr × Ptr) → Out Unit (List (List (List NetWord)))
  | [], _, _ => .ok []
  | k :: vl, vv, ws =>
    (blocksAt pl h k.toNat vv ws).bind fun a =>
    (partsAt pl h vl a.2.1 a.2.2).bind fun b => .ok (a.1 :: b)

/-- The parts of a file, and their release (AllAttributesParser.cs:1599-1617). -/
def takeParts (pl : Platform) (h : Heap) (o : SplitOut) (vl vv : List Int) : Out Unit (Heap × List (List (List NetWord))) :=
  if o.length = 0 then .ok (h, [])
  else
    match cell h o.value with
    | some (.words ws) => (partsAt pl h vl vv ws).bind fun r => (disposeSplit h o).bind fun h1 => .ok (h1, r)
    | _ => .ub

/-- `SplitFile` with words (AllAttributesParser.cs:1554-1620). -/
def split (pl : Platform) (h : Heap) (high : Nat) (ok : Bool) (r : List (List Block)) (msg : Str) :
    Out Unit (Heap × Bool × List (List (List NetWord)) × Str) :=
  let o := fillSplit h r
  let b := fillMessage o.1 msg .null
  (intsAt b.1 o.2.valueLength o.2.length).bind fun vl =>
  (intsAt b.1 o.2.valueValueLength vl.sum.toNat).bind fun vv =>
  (message b.1 b.2).bind fun m =>
  (takeParts pl m.1 o.2 vl vv).bind fun w => .ok (w.1, answer high ok, w.2, m.2)

/-- The loop over the texts (AllAttributesParser.cs:1641-1646). -/
def textsAt (pl : Platform) (h : Heap) : List Ptr → Out Unit (List (Option Str))
  | [] => .ok []
  | p :: ps => (textAt pl h p).bind fun a => (textsAt pl h ps).bind fun r => .ok (a :: r)

/-- `SplitFile` with texts (AllAttributesParser.cs:1622-1663). -/
def splitTexts (pl : Platform) (h : Heap) (high : Nat) (ok : Bool) (r : List (List Block)) (msg : Str) :
    Out Unit (Heap × Bool × List (Option Str) × Str) :=
  let o := fillTexts h r
  let b := fillMessage o.1 msg .null
  match cell b.1 o.2.1 with
  | some (.ptrs ps) =>
    (textsAt pl b.1 (ps.take o.2.2)).bind fun ts =>
    (message b.1 b.2).bind fun m =>
    (disposeTexts m.1 o.2.1 o.2.2).bind fun h1 => .ok (h1, answer high ok, ts, m.2)
  | _ => .ub

end NC.Net
