import Verif.Spec.Source

/-!
# Specification vocabulary: word tables without ambiguities

`decs` are the addresses, operators and function names, `assigns` the addresses
written with `=` (such as `S1=500`), `known w` says that `w` has a declared range.
-/

namespace NC.Spec.Tables
open NC

/-- Blank or tab. -/
def blank (c : Char) : Bool := c = ' ' || c = '\t'

/-- The characters with which the value of a word can go on. -/
def going (c : Char) : Bool :=
  c = '+' || c = '-' || c = '[' || c = ']' || c = '#' || c = '.' || isDig c

/-- The characters with which the other kinds of words begin, and the opening bracket. -/
def reserved (c : Char) : Bool := c = '/' || c = '(' || c = '%' || c = '['

/-- A word table is regular when the beginning of a word tells what the word is:
no blanks inside names; no name begins with a reserved character; the comma is
no name; `=` occurs in no name but `=`; no name with `=` and none with a declared
range begins with `O`; no name goes on like another one followed by a value. -/
structure Regular (decs assigns : List Str) (known : Str → Bool) : Prop where
  blanks : ∀ w ∈ decs ++ assigns, ∀ c ∈ w, blank c = false
  starts : ∀ w ∈ decs ++ assigns, w.head?.all (fun c => !reserved c) = true
  comma : c!"," ∉ decs
  equals : ∀ w ∈ decs, '=' ∈ w → w = c!"="
  noEquals : ∀ w ∈ assigns, '=' ∉ w
  notO : ∀ w ∈ assigns, w.head? ≠ some 'O'
  programs : ∀ w ∈ decs, w.head? = some 'O' → known w = false
  ends : ∀ u ∈ decs, ∀ w ∈ decs, u <+: w → (w.drop u.length).head?.all (fun c => !going c) = true

/-- Letters. -/
def letter (c : Char) : Bool := ('a' ≤ c && c ≤ 'z') || ('A' ≤ c && c ≤ 'Z')

/-- Two words that can be written one after the other: letters after a program
name are dropped, and `A2 =5` is one word where `A2` is written with `=`. -/
def Apart (assigns : List Str) (a b : Attr) : Prop :=
  (a.word = c!"O" → (Source.word b).head?.all (fun c => !letter c) = true) ∧
    (Source.word a ∈ assigns → (Source.word b).head? ≠ some '=')

/-- No word of the block is a lone comma, and any two neighbours can be written
one after the other. -/
def Writable (assigns : List Str) (b : Block) : Prop :=
  (∀ a ∈ b, a.word ≠ c!",") ∧ List.IsChain (Apart assigns) b

end NC.Spec.Tables
