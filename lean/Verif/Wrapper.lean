import Verif.Verifiers
import Verif.Splitter

/-!
# The C interface (parser/AllAttributesParserWrapperBase.cpp, parser/fanuc/AllAttributesParserWrapper.cpp)

The heap is a list of cells; the index is the address; a released cell is
`none` and is never used again.  `delete[]` of anything but a live cell is
undefined behaviour.  Simplifications: the strings of a word array are allocated
before the array (the code allocates the array first and fills it), and lengths
fit `int`.
-/

namespace NC.Wrap
open NC

/-- Pointers; `garbage` is the content of uninitialised memory. -/
inductive Ptr where
  | null | addr (n : Nat) | garbage
deriving DecidableEq, Repr

/-- Arrays. `chars` is without the terminating NUL. -/
inductive Obj where
  | chars (s : Str)
  | words (ws : List (Ptr × Ptr))
  | ints (l : List Int)
  | nums (l : List ℚ)
  | ptrs (l : List Ptr)
  | totals (l : List ℚ) (tool : Ptr)
  | ranges (l : List (Ptr × ℚ × ℚ × ℚ))
deriving DecidableEq

abbrev Heap := List (Option Obj)

/-- `new[]`. -/
def alloc (h : Heap) (o : Obj) : Heap × Ptr := (h ++ [some o], .addr h.length)

/-- `if (p) delete[] p` (AllAttributesParserWrapperBase.cpp:43-44 and elsewhere). -/
def release (h : Heap) : Ptr → Out Unit Heap
  | .null => .ok h
  | .garbage => .ub
  | .addr n =>
    match h[n]? with
    | some (some _) => .ok (h.set n none)
    | _ => .ub

/-- The text of the value part of a decimal word (AllAttributesParserWrapper.cpp:97-113). -/
def decText (d : Dec) : Str :=
  d.assign.toList ++ d.sign.toList ++ d.openB.getD [] ++ d.mac.getD [] ++ d.value.getD [] ++ d.dot.toList ++
    d.value2.getD [] ++ d.closeB.getD []

/-- The value string of a word (AllAttributesParserWrapper.cpp:94-141). -/
def valueText : Attr → Str
  | .dec d => decText d
  | .str w v => if w = c!"(" then v ++ c!")" else v
  | .chr _ c => [c]

/-- `Attributes2WordValueWrapperVisitor` (AllAttributesParserWrapper.cpp:86-154). -/
def mkWord (h : Heap) (a : Attr) : Heap × (Ptr × Ptr) :=
  let r1 := alloc h (.chars a.word)
  let r2 := alloc r1.1 (.chars (valueText a))
  (r2.1, (r1.2, r2.2))

/-- The visitor applied to each word. -/
def mkWords (h : Heap) : Block → Heap × List (Ptr × Ptr)
  | [] => (h, [])
  | a :: t =>
    let r1 := mkWord h a
    let r2 := mkWords r1.1 t
    (r2.1, r1.2 :: r2.2)

/-- `fill_message` (AllAttributesParserWrapper.cpp:156-164): the caller's
pointer `p` is left alone when there is nothing to say. -/
def fillMessage (h : Heap) (msg : Str) (p : Ptr) : Heap × Ptr :=
  if msg = [] then (h, p) else alloc h (.chars msg)

/-- `fill_WordValueWrapper` (AllAttributesParserWrapper.cpp:166-175); `p` and
`n` are the caller's variables. -/
def fillWords (h : Heap) (v : Block) (p : Ptr) (n : Nat) : Heap × Ptr × Nat :=
  if v = [] then (h, p, n)
  else
    let r := mkWords h v
    let s := alloc r.1 (.words r.2)
    (s.1, s.2, v.length)

/-- Release the strings of the first words of an array
(AllAttributesParserWrapperBase.cpp:71-77, 251-257). -/
def freeWords (h : Heap) : Nat → List (Ptr × Ptr) → Out Unit (Heap × List (Ptr × Ptr))
  | 0, ws => .ok (h, ws)
  | _ + 1, [] => .ub
  | n + 1, w :: ws =>
    match release h w.1 with
    | .ok h1 =>
      match release h1 w.2 with
      | .ok h2 => freeWords h2 n ws
      | .throw e => .throw e
      | .ub => .ub
    | .throw e => .throw e
    | .ub => .ub

/-- Read an array cell. -/
def cell (h : Heap) : Ptr → Option Obj
  | .addr n => (h[n]?).join
  | _ => none

/-- `DisposeWordValueWrapper` (AllAttributesParserWrapperBase.cpp:66-79). -/
def disposeWords (h : Heap) (p : Ptr) (n : Nat) : Out Unit Heap :=
  match p with
  | .null => .ok h
  | p =>
    match cell h p with
    | some (.words ws) =>
      match freeWords h n ws with
      | .ok (h1, _) => release h1 p
      | .throw e => .throw e
      | .ub => .ub
    | _ => .ub

/-- The four results of `SplitFile`. -/
structure SplitOut where
  value : Ptr
  valueValueLength : Ptr
  valueLength : Ptr
  length : Nat

/-- `SplitFile`, from the nested result on (AllAttributesParserWrapper.cpp:364-389). -/
def fillSplit (h : Heap) (r : List (List Block)) : Heap × SplitOut :=
  let a := mkWords h r.flatten.flatten
  let b := alloc a.1 (.words a.2)
  let c := alloc b.1 (.ints (r.map (fun p => (p.length : Int))))
  let d := alloc c.1 (.ints (r.flatten.map (fun b => (b.length : Int))))
  (d.1, ⟨b.2, d.2, c.2, r.length⟩)

/-- The loop over the blocks of a part (AllAttributesParserWrapperBase.cpp:249-258). -/
def freeBlocks (h : Heap) : Nat → List Int → List (Ptr × Ptr) → Out Unit (Heap × List Int × List (Ptr × Ptr))
  | 0, vv, ws => .ok (h, vv, ws)
  | _ + 1, [], _ => .ub
  | n + 1, k :: vv, ws =>
    match freeWords h k.toNat ws with
    | .ok (h1, ws1) => freeBlocks h1 n vv ws1
    | .throw e => .throw e
    | .ub => .ub

/-- The loop over the parts (AllAttributesParserWrapperBase.cpp:247-259). -/
def freeParts (h : Heap) : Nat → List Int → List Int → List (Ptr × Ptr) → Out Unit Heap
  | 0, _, _, _ => .ok h
  | _ + 1, [], _, _ => .ub
  | n + 1, k :: vl, vv, ws =>
    match freeBlocks h k.toNat vv ws with
    | .ok (h1, vv1, ws1) => freeParts h1 n vl vv1 ws1
    | .throw e => .throw e
    | .ub => .ub

/-- Release three arrays one after the other. -/
def release3 (h : Heap) (p q r : Ptr) : Out Unit Heap := do
  let h1 ← release h p
  let h2 ← release h1 q
  release h2 r

/-- `DisposeSplitFile` (AllAttributesParserWrapperBase.cpp:241-266), for
non-null arrays (which `SplitFile` always returns). -/
def disposeSplit (h : Heap) (o : SplitOut) : Out Unit Heap :=
  match cell h o.value, cell h o.valueLength, cell h o.valueValueLength with
  | some (.words ws), some (.ints vl), some (.ints vv) =>
    match freeParts h o.length vl vv ws with
    | .ok h1 => release3 h1 o.value o.valueValueLength o.valueLength
    | .throw e => .throw e
    | .ub => .ub
  | _, _, _ => .ub

/-- `Attributes2StringVisitor` (AllAttributesParserWrapper.cpp:395-442); a NUL
character value is not written. -/
def attrText : Attr → Str
  | .dec d => d.word ++ decText d
  | .str w v => w ++ v ++ (if w = c!"(" then c!")" else [])
  | .chr w c => w ++ (if c = '\x00' then [] else [c])

/-- The words of a block with blanks between (AllAttributesParserWrapper.cpp:468-473). -/
def blockText (b : Block) : Str := List.intercalate c!" " (b.map attrText)

/-- The text of a part (AllAttributesParserWrapper.cpp:465-475). -/
def partText (p : List Block) : Str := p.flatMap (fun b => blockText b ++ ['\r', '\n'])

/-- The texts; an empty one leaves its slot uninitialised
(AllAttributesParserWrapper.cpp:460-478). -/
def mkTexts (h : Heap) : List Str → Heap × List Ptr
  | [] => (h, [])
  | s :: t =>
    let r1 := fillMessage h s .garbage
    let r2 := mkTexts r1.1 t
    (r2.1, r1.2 :: r2.2)

/-- `SplitFileString`, from the nested result on (AllAttributesParserWrapper.cpp:460-478). -/
def fillTexts (h : Heap) (r : List (List Block)) : Heap × Ptr × Nat :=
  let a := mkTexts h (r.map partText)
  let b := alloc a.1 (.ptrs a.2)
  (b.1, b.2, r.length)

/-- The loop of `DisposeSplitFileString` (AllAttributesParserWrapperBase.cpp:281-285). -/
def freeTexts (h : Heap) : Nat → List Ptr → Out Unit Heap
  | 0, _ => .ok h
  | _ + 1, [] => .ub
  | n + 1, p :: ps =>
    match release h p with
    | .ok h1 => freeTexts h1 n ps
    | .throw e => .throw e
    | .ub => .ub

/-- `DisposeSplitFileString` (AllAttributesParserWrapperBase.cpp:276-287). -/
def disposeTexts (h : Heap) (p : Ptr) (n : Nat) : Out Unit Heap :=
  match p with
  | .null => .ok h
  | p =>
    match cell h p with
    | some (.ptrs ps) =>
      match freeTexts h n ps with
      | .ok h1 => release h1 p
      | .throw e => .throw e
      | .ub => .ub
    | _ => .ub

/-! ## Macro values -/

/-- The three arrays and the length of `GetMacroValues`
(AllAttributesParserWrapper.cpp:200-219). -/
def fillMacros (h : Heap) (m : MacroMap ℚ) (p q r : Ptr) : Heap × Ptr × Ptr × Ptr × Nat :=
  if m = [] then (h, p, q, r, 0)
  else
    let a := alloc h (.ints (m.map (fun e => (e.1.id : Int))))
    let b := alloc a.1 (.ints (m.map (fun e => e.1.line)))
    let c := alloc b.1 (.nums (m.map (·.2)))
    (c.1, a.2, b.2, c.2, m.length)

/-- The elements of one line (AllAttributesParserWrapper.cpp:228-233); inserting
them in order into a `std::map` keeps the order. -/
def lineEntries (m : MacroMap ℚ) (line : Int) : MacroMap ℚ := m.filter (fun e => decide (e.1.line = line))

/-- `GetLineMacroValues` (AllAttributesParserWrapper.cpp:221-249): arrays as long
as the whole table, the first elements filled; `junk` is what uninitialised
elements hold. -/
def fillLineMacros (h : Heap) (m : MacroMap ℚ) (line : Int) (junk : Int) (junkQ : ℚ) (p q : Ptr) :
    Heap × Ptr × Ptr × Nat :=
  if lineEntries m line = [] then (h, p, q, 0)
  else
    let es := lineEntries m line
    let a := alloc h (.ints (es.map (fun e => (e.1.id : Int)) ++ List.replicate (m.length - es.length) junk))
    let b := alloc a.1 (.nums (es.map (·.2) ++ List.replicate (m.length - es.length) junkQ))
    (b.1, a.2, b.2, es.length)

/-! ## Path values -/

/-- `PathResult`, `TimeResult`: total, work, fast and tool total, and the tool. -/
structure Totals where
  nums : List ℚ
  tool : Str
deriving DecidableEq

/-- `convert` (AllAttributesParserWrapper.cpp:255-268) into a new structure (278, 281). -/
def mkTotals (h : Heap) (t : Totals) : Heap × Ptr :=
  let a := alloc h (.chars t.tool)
  alloc a.1 (.totals t.nums a.2)

/-- The loop over the words and their ranges (AllAttributesParserWrapper.cpp:287-297). -/
def mkRanges (h : Heap) : List (Str × ℚ × ℚ × ℚ) → Heap × List (Ptr × ℚ × ℚ × ℚ)
  | [] => (h, [])
  | e :: t =>
    let r1 := alloc h (.chars e.1)
    let r2 := mkRanges r1.1 t
    (r2.1, (r1.2, e.2) :: r2.2)

/-- The results of `GetPathValues` but the unit system. -/
structure PathOut where
  path : Ptr
  time : Ptr
  ranges : Ptr
  length : Nat

/-- `GetPathValues` (AllAttributesParserWrapper.cpp:270-302). -/
def fillPath (h : Heap) (p t : Totals) (w : List (Str × ℚ × ℚ × ℚ)) : Heap × PathOut :=
  let a := mkTotals h p
  let b := mkTotals a.1 t
  let c := mkRanges b.1 w
  let d := alloc c.1 (.ranges c.2)
  (d.1, ⟨a.2, b.2, d.2, w.length⟩)

/-- The branches of `DisposePathValues` for path and time (AllAttributesParserWrapperBase.cpp:116-128). -/
def disposeTotals (h : Heap) : Ptr → Out Unit Heap
  | .null => .ok h
  | p =>
    match cell h p with
    | some (.totals _ tool) =>
      match release h tool with
      | .ok h1 => release h1 p
      | .throw e => .throw e
      | .ub => .ub
    | _ => .ub

/-- The loop over the words (AllAttributesParserWrapperBase.cpp:132-134). -/
def freeRanges (h : Heap) : Nat → List (Ptr × ℚ × ℚ × ℚ) → Out Unit Heap
  | 0, _ => .ok h
  | _ + 1, [] => .ub
  | n + 1, w :: ws =>
    match release h w.1 with
    | .ok h1 => freeRanges h1 n ws
    | .throw e => .throw e
    | .ub => .ub

/-- The rest of `DisposePathValues` (AllAttributesParserWrapperBase.cpp:130-135). -/
def disposeRanges (h : Heap) (p : Ptr) (n : Nat) : Out Unit Heap :=
  match p with
  | .null => .ok h
  | p =>
    match cell h p with
    | some (.ranges ws) =>
      match freeRanges h n ws with
      | .ok h1 => release h1 p
      | .throw e => .throw e
      | .ub => .ub
    | _ => .ub

/-- `DisposePathValues` (AllAttributesParserWrapperBase.cpp:113-136). -/
def disposePath (h : Heap) (o : PathOut) : Out Unit Heap := do
  let h1 ← disposeTotals h o.path
  let h2 ← disposeTotals h1 o.time
  disposeRanges h2 o.ranges o.length

/-- `DisposeMacroValues` (AllAttributesParserWrapperBase.cpp:93-101). -/
def disposeMacros (h : Heap) (ids lines vals : Ptr) : Out Unit Heap := release3 h ids lines vals

/-! ## Configuration arrays -/

/-- Order of `std::string`. -/
def strLt : Str → Str → Bool
  | [], [] => false
  | [], _ :: _ => true
  | _ :: _, [] => false
  | a :: s, b :: t => if a = b then strLt s t else decide (a.toNat < b.toNat)

/-- `std::set<std::string>::insert`. -/
def setInsert (x : Str) : List Str → List Str
  | [] => [x]
  | y :: t => if x = y then y :: t else if strLt x y then x :: y :: t else y :: setInsert x t

/-- `codes[value].insert(key)` (AllAttributesParserWrapper.cpp:61). -/
def addGroup (m : Ver.Groups) (c : Ver.Code) (key : Str) : Ver.Groups :=
  match m with
  | [] => [(c, [key])]
  | e :: t => if e.1 = c then (c, setInsert key e.2) :: t else e :: addGroup t c key

/-- The inner loop (AllAttributesParserWrapper.cpp:60-61): `n` values from
position `total`; reading past the array is undefined. -/
def addGroups (m : Ver.Groups) (key : Str) : Nat → List Ver.Code → Out Unit Ver.Groups
  | 0, _ => .ok m
  | _ + 1, [] => .ub
  | n + 1, c :: cs => addGroups (addGroup m c key) key n cs

/-- The loop over the groups (AllAttributesParserWrapper.cpp:55-63, 66-74);
`vals` is the array from `total` on. -/
def unflatten (m : Ver.Groups) : List Str → List Nat → List Ver.Code → Out Unit Ver.Groups
  | [], _, _ => .ok m
  | _ :: _, [], _ => .ub
  | k :: ks, n :: ns, vals =>
    match addGroups m k n vals with
    | .ok m1 => unflatten m1 ks ns (vals.drop n)
    | .throw e => .throw e
    | .ub => .ub

/-- `wm[key] = value` on the word map. -/
def setWord (m : WordMap) (k : Str) (g : WordGrammar) : WordMap :=
  match m with
  | [] => [(k, g)]
  | e :: t => if e.1 = k then (k, g) :: t else e :: setWord t k g

/-- `build_grammar_map` (AllAttributesParserWrapper.cpp:11-22). -/
def buildGrammar : WordMap → List (Str × WordGrammar) → WordMap
  | m, [] => m
  | m, e :: t => buildGrammar (setWord m e.1 e.2) t

end NC.Wrap
