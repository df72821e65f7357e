import Verif.Heidenhain

/-!
# What a Heidenhain line consists of

Said with texts only: how each kind of word may be written (`Shows`), what a line
made of such words looks like (`Line`), and which texts a programmer can write
without two words running into each other (`Neat`).
-/

namespace NC.Spec.Hei
open NC NC.Hei

/-- Blanks and tabs. -/
def Blanks (s : Str) : Prop := ∀ c ∈ s, c = ' ' ∨ c = '\t'

/-- Decimal digits, at least one. -/
def Digits (s : Str) : Prop := s ≠ [] ∧ ∀ c ∈ s, '0' ≤ c ∧ c ≤ '9'

/-- A letter of the English alphabet. -/
def Letter (c : Char) : Prop := ('a' ≤ c ∧ c ≤ 'z') ∨ ('A' ≤ c ∧ c ≤ 'Z')

/-- A character of a program name. -/
def NameChar (c : Char) : Prop := Letter c ∨ ('0' ≤ c ∧ c ≤ '9') ∨ c = '_'

/-- A character of a word. -/
def WordChar (c : Char) : Prop := Letter c ∨ c = '.' ∨ c = ':' ∨ c = '/'

/-- White space. -/
def Spaces (s : Str) : Prop :=
  ∀ c ∈ s, c = ' ' ∨ c = '\t' ∨ c = '\n' ∨ c = '\r' ∨ c = '\x0b' ∨ c = '\x0c'

/-- The words with a digit inside. -/
def Operation (w : Str) : Prop :=
  (∃ n ∈ c!"123", ∃ a ∈ c!"XYZ", w = ['K', n, a]) ∨ (∃ n ∈ c!"1234567", w = ['P', '0', n]) ∨
    w = c!"P1X" ∨ w = c!"P1Y"

/-- A word in quotes. -/
def Quoted (w : Str) : Prop :=
  ∃ t, t ≠ [] ∧ (∀ c ∈ t, Letter c ∨ ('0' ≤ c ∧ c ≤ '9')) ∧ w = '"' :: t ++ ['"']

/-- Letters (and dots, colons, slashes). -/
def Run (w : Str) : Prop := w ≠ [] ∧ ∀ c ∈ w, WordChar c

/-- The words there are. -/
def IsWord (w : Str) : Prop := Operation w ∨ Run w ∨ w = c!"#" ∨ w = c!"=" ∨ Quoted w

/-- Digits, dot, digits; each may be missing, but the second digits need the dot. -/
structure Number (v : Option Str) (d : Option Char) (v2 : Option Str) : Prop where
  whole : ∀ x, v = some x → Digits x
  dot : ∀ c, d = some c → c = '.'
  part : ∀ x, v2 = some x → Digits x
  sep : v2.isSome = true → d.isSome = true

/-- The text of a number. -/
def numeral (v : Option Str) (d : Option Char) (v2 : Option Str) : Str := v.getD [] ++ d.toList ++ v2.getD []

/-- A sign. -/
def Sign (g : Option Char) : Prop := ∀ c, g = some c → c = '+' ∨ c = '-'

/-- The texts of an integer. -/
inductive IntText : Str → Int → Prop where
  | plain {d : Str} (hd : Digits d) : IntText d (readNat d)
  | plus {d : Str} (hd : Digits d) : IntText ('+' :: d) (readNat d)
  | minus {d : Str} (hd : Digits d) : IntText ('-' :: d) (-(readNat d : Int))

/-- `BEGIN` and `END`. -/
def beginEndWord : BeginEnd → Str
  | .start => c!"BEGIN"
  | .finish => c!"END"

/-- `MM` and `INCH`. -/
def measureWord : Measure → Str
  | .mm => c!"MM"
  | .inch => c!"INCH"

/-- How a word may be written. -/
inductive Shows : Str → Item → Prop where
  | comment {x : Str} {t : Bool} (hx : '~' ∉ x) :
      Shows (';' :: x ++ (if t then ['~'] else [])) (.comment ⟨x, t⟩)
  | program {b : BeginEnd} {n : Str} {u : Measure} {s1 s2 s3 e : Str} (h1 : Blanks s1) (h1' : s1 ≠ [])
      (h2 : Blanks s2) (h2' : s2 ≠ []) (h3 : Blanks s3) (h3' : s3 ≠ []) (hn : ∀ c ∈ n, NameChar c) (hn' : n ≠ [])
      (he : Spaces e) :
      Shows (beginEndWord b ++ s1 ++ c!"PGM" ++ s2 ++ n ++ s3 ++ measureWord u ++ e) (.program ⟨b, n, u⟩)
  | cycle {w s1 s2 : Str} {v : Option Str} {d : Option Char} {v2 : Option Str} (h1 : Blanks s1) (h1' : s1 ≠ [])
      (hw : w = c!"DEF" ∨ w = c!"CALL") (h2 : Blanks s2) (hn : Number v d v2) :
      Shows (c!"CYCL" ++ s1 ++ w ++ s2 ++ numeral v d v2) (.cycle ⟨w, v, d, v2⟩)
  | param {i s1 s2 v : Str} {z : Int} {id : Nat} {g : Option Char} {d : Option Char} {v2 : Option Str}
      (hi : IntText i z) (hz : -2 ^ 31 ≤ z) (hz' : z < 2 ^ 31) (hid : (id : Int) = z % 2 ^ 32) (h1 : Blanks s1)
      (h2 : Blanks s2) (hg : Sign g) (hv : v = [] ∨ Digits v) (hn : Number none d v2) :
      Shows ('Q' :: i ++ s1 ++ c!"=" ++ s2 ++ g.toList ++ v ++ numeral none d v2) (.param ⟨id, g, v, d, v2⟩)
  | general {w s1 : Str} {g q : Option Char} {v : Option Str} {d : Option Char} {v2 : Option Str} {t : Option Char}
      (hw : IsWord w) (h1 : Blanks s1) (hg : Sign g) (hq : ∀ c, q = some c → c = 'Q') (hn : Number v d v2)
      (ht : ∀ c, t = some c → c = '~') :
      Shows (w ++ s1 ++ g.toList ++ q.toList ++ numeral v d v2 ++ t.toList) (.general ⟨w, g, q, v, d, v2, t⟩)

/-- A text made of words, with blanks where one likes. -/
inductive Words : Str → List Item → Prop where
  | nil {s : Str} (h : Blanks s) : Words s []
  | cons {b t r : Str} {w : Item} {ws : List Item} (hb : Blanks b) (ht : Shows t w) (hr : Words r ws) :
      Words (b ++ t ++ r) (w :: ws)

/-- A block number: digits and a blank behind them. -/
inductive Numbered : Str → Nat → Prop where
  | mk {b d : Str} {c : Char} (hb : Blanks b) (hd : Digits d) (hn : readNat d < 2 ^ 32) (hc : c = ' ' ∨ c = '\t') :
      Numbered (b ++ d ++ [c]) (readNat d)

/-- A line: perhaps a block number, then at least one word. -/
inductive Line : Str → List Item → Prop where
  | plain {s : Str} {ws : List Item} (hne : ws ≠ []) (h : Words s ws) : Line s ws
  | numbered {a s : Str} {n : Nat} {ws : List Item} (hn : Numbered a n) (hne : ws ≠ []) (h : Words s ws) :
      Line (a ++ s) (.number n :: ws)

/-! ## Texts without words that run into each other -/

/-- The next character exists and is one of these. -/
def Next (p : Char → Prop) (s : Str) : Prop := ∃ c t, s = c :: t ∧ p c

/-- A general word is not taken for something else: no other rule begins like it, it is
not a letter and a number that look like `P01`, and what follows a run of letters at once
is not again a character of a word. -/
structure Plain (w tail : Str) : Prop where
  q : ¬ Next (· = 'Q') (w ++ tail)
  cycl : ¬ c!"CYCL" <+: w ++ tail
  begin : ¬ c!"BEGIN" <+: w ++ tail
  finish : ¬ c!"END" <+: w ++ tail
  op : Run w → ∀ o, Operation o → ¬ o <+: w ++ tail
  run : Run w → ¬ Next WordChar tail

/-- The word is written so that it is not taken for something else. -/
def Clear (t : Str) : Item → Prop
  | .general g => ∃ tail, t = g.word ++ tail ∧ Plain g.word tail
  | .program p => t.getLast? = (measureWord p.measure).getLast?
  | _ => True

/-- Which characters the text behind the blanks after a word must not begin with. -/
def Bars : Item → Char → Prop
  | .general ⟨_, none, none, none, none, none, none⟩, c => c = '.' ∨ c = 'Q'
  | .cycle ⟨_, none, none, none⟩, c => c = '.'
  | .param ⟨_, none, [], none, none⟩, c => c = '.'
  | .program _, c => NameChar c
  | .comment _, _ => True
  | _, _ => False

/-- Words with blanks between them. -/
inductive Apart : Str → List Item → Prop where
  | last {t e : Str} {w : Item} (ht : Shows t w) (hc : Clear t w) (he : Blanks e)
      (hcom : ∀ c, w = .comment c → e = []) : Apart (t ++ e) [w]
  | cons {t e r : Str} {w : Item} {ws : List Item} (ht : Shows t w) (hc : Clear t w) (he : Blanks e) (he' : e ≠ [])
      (hr : Apart r ws) (hn : ¬ Next (Bars w) r) : Apart (t ++ e ++ r) (w :: ws)

/-- A line of such words, numbered or not. -/
inductive Neat : Str → List Item → Prop where
  | plain {b s : Str} {ws : List Item} (hb : Blanks b) (h : Apart s ws) : Neat (b ++ s) ws
  | numbered {a b s : Str} {n : Nat} {ws : List Item} (hn : Numbered a n) (hb : Blanks b) (h : Apart s ws) :
      Neat (a ++ b ++ s) (.number n :: ws)

end NC.Spec.Hei

/-! ## Writing words -/

namespace NC.Spec.Hei
open NC NC.Hei

/-- A blank in front of what is there. -/
def gap (p : Str) : Str := if p = [] then [] else ' ' :: p

/-- The number of a parameter as a signed number. -/
def signedId (id : Nat) : Str := if id < 2 ^ 31 then natStr id else '-' :: natStr (2 ^ 32 - id)

/-- One way to write a word. -/
def writeItem : Item → Str
  | .number n => natStr n
  | .comment c => ';' :: c.text ++ (if c.tilde then ['~'] else [])
  | .program p => beginEndWord p.beginEnd ++ c!" " ++ c!"PGM" ++ c!" " ++ p.name ++ c!" " ++ measureWord p.measure
  | .cycle c => c!"CYCL" ++ c!" " ++ c.word ++ gap (numeral c.value c.dot c.value2)
  | .param p => 'Q' :: signedId p.id ++ c!"=" ++ p.sign.toList ++ p.value ++ numeral none p.dot p.value2
  | .general g =>
    g.word ++ gap (g.sign.toList ++ (g.name.toList ++ (numeral g.value g.dot g.value2 ++ g.tilde.toList)))

/-- The words with a blank between two of them. -/
def write : List Item → Str
  | [] => []
  | [w] => writeItem w
  | w :: v :: ws => writeItem w ++ ' ' :: write (v :: ws)

/-- How far a text reaches when tabs go to the next multiple of four. -/
def width (s : Str) : Nat := s.foldl (fun w c => if c = '\t' then (w / 4 + 1) * 4 else w + 1) 0

/-- The words in front of a position: the beginning of the line, as far as it consists of them. -/
def Front (a : Str) (ws : List Item) : Prop :=
  Words a ws ∨ ∃ k b n vs, a = k ++ b ∧ ws = .number n :: vs ∧ Numbered k n ∧ Words b vs

/-- The beginnings the parser keeps for itself. -/
def Kept (k : Str) : Prop := k = c!"CYCL" ∨ k = c!"BEGIN" ∨ k = c!"END"

end NC.Spec.Hei
