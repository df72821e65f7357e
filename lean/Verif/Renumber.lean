import Verif.Num

/-!
# Block renumbering (parser/fanuc/Renumberer.cpp, Renumberer.h)

The `unordered_map conv_word_grammar` and the vector `conv_words` are both
built from the metric word grammar by the constructor, so they are represented
by the filtered grammar itself.  `unsigned int` arithmetic wraps at 2^32.
-/

namespace NC.Renumber
open NC

/-- `RenumberSettings` (parser/GeneralParserDefines.h:299-307). -/
structure Settings where
  word : Str
  step : Nat
  frequency : Nat
  maxNumber : Nat
  existingOnly : Bool
  leadingZeroes : Bool
deriving DecidableEq, Repr

/-- The mutable members `counter`, `current_frequency` (Renumberer.h:42-43);
defaults are the in-class initialisers, also what `reset()` (28-32) restores. -/
structure St where
  counter : Nat := 1
  curFreq : Nat := 0
deriving DecidableEq, Repr

/-- `conv_word_grammar` / `conv_words` (Renumberer.cpp:14-24). -/
def numWords (g : FanucGrammar) : WordMap :=
  g.metric.filter (fun p => decide (p.2.wtype = .numbering))

/-- `find_if` over `conv_words` (Renumberer.cpp:35-37, 60-62). -/
def isNumWord (g : FanucGrammar) (w : Str) : Bool :=
  (numWords g).any (fun p => p.1 == w)

/-- `Renumberer::remove` (Renumberer.cpp:26-39). -/
def remove (g : FanucGrammar) : Block → Block
  | .dec d :: rest => if isNumWord g d.word then rest else .dec d :: rest
  | b => b

/-- `leading_zeroes_num` (Renumberer.cpp:48-51). -/
def zeroesNum (g : FanucGrammar) (s : Settings) : Nat :=
  if s.leadingZeroes then
    match (numWords g).find s.word with
    | some wg => (intStr wg.rangeTo).length
    | none => 0
  else 0

/-- The text of the counter (Renumberer.cpp:68-71 and 102-105). -/
def counterText (g : FanucGrammar) (s : Settings) (n : Nat) : Str :=
  if s.leadingZeroes ∧ 0 < zeroesNum g s then padZeros (zeroesNum g s) n else natStr n

/-- `frequency < 2 || (frequency > 1 && current_frequency == 0)`
(Renumberer.cpp:65, 97-98). -/
def emits (s : Settings) (st : St) : Bool :=
  decide (s.frequency < 2) || (decide (1 < s.frequency) && decide (st.curFreq = 0))

/-- The number after which the counter restarts (Renumberer.cpp:115-119); the
`int` `range_from` is converted to `unsigned int`. -/
def restart (g : FanucGrammar) (s : Settings) : Nat :=
  match (numWords g).find s.word with
  | some wg => (wg.rangeFrom % 2 ^ 32).toNat
  | none => 1

/-- Counter update (Renumberer.cpp:110-121). -/
def bump (g : FanucGrammar) (s : Settings) (c : Nat) : Nat :=
  let c' := (c + s.step) % 2 ^ 32
  if s.maxNumber < c' then restart g s else c'

/-- Frequency update (Renumberer.cpp:123-128). -/
def tick (s : Settings) (f : Nat) : Nat :=
  if 1 < s.frequency then
    let f' := (f + 1) % 2 ^ 32
    if f' = s.frequency then 0 else f'
  else f

/-- The tail of the function for a block that does not start with a number
(Renumberer.cpp:97-128). -/
def insertNumber (g : FanucGrammar) (s : Settings) (st : St) (b : Block) : St × Block :=
  if emits s st then
    (⟨bump g s st.counter, tick s st.curFreq⟩,
      .dec { word := s.word, value := some (counterText g s st.counter) } :: b)
  else (⟨st.counter, tick s st.curFreq⟩, b)

/-- The branch for a block that starts with a number word
(Renumberer.cpp:62-78, then 110-128). -/
def replaceNumber (g : FanucGrammar) (s : Settings) (st : St) (d : Dec) (rest : Block) : St × Block :=
  if emits s st then
    (⟨bump g s st.counter, tick s st.curFreq⟩,
      .dec { d with word := s.word, value := some (counterText g s st.counter) } :: rest)
  else (⟨st.counter, tick s st.curFreq⟩, rest)

/-- `Renumberer::renumber` (Renumberer.cpp:41-129). -/
def renumber (g : FanucGrammar) (s : Settings) (st : St) : Block → St × Block
  | [] => (st, [])
  | .dec d :: rest =>
    if d.word = c!"/" then (st, .dec d :: rest)
    else if isNumWord g d.word then replaceNumber g s st d rest
    else if s.existingOnly then (st, .dec d :: rest)
    else insertNumber g s st (.dec d :: rest)
  | .chr w v :: rest =>
    if s.existingOnly then (st, .chr w v :: rest)
    else if w = c!"%" then (st, .chr w v :: rest)
    else insertNumber g s st (.chr w v :: rest)
  | .str w v :: rest =>
    if s.existingOnly then (st, .str w v :: rest)
    else if w = c!"O" ∨ w = c!"(" then (st, .str w v :: rest)
    else insertNumber g s st (.str w v :: rest)

/-- Renumbering consecutive blocks with one renumberer (as the loops in
AllAttributesParser.cpp:486-492, 528-531, 555-558 do). -/
def renumberAll (g : FanucGrammar) (s : Settings) (st : St) : List Block → St × List Block
  | [] => (st, [])
  | b :: bs =>
    let r := renumber g s st b
    let q := renumberAll g s r.1 bs
    (q.1, r.2 :: q.2)

end NC.Renumber
