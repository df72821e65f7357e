import Verif.Spec.Settings

/-!
# What a word table and a file of code groups say

As for the settings, but a word listed twice means the last one, and a code belongs to
every group it is listed in.
-/

namespace NC.Spec.Conf
open NC NC.Enums NC.Conf

/-- The last member of a name. -/
def Last (t : PTree) (k : Str) (c : PTree) : Prop :=
  ∃ pre post, t.kids = pre ++ (k, c) :: post ∧ ∀ e ∈ post, e.1 ≠ k

/-- A whole number as a C++ `unsigned int`: negative numbers count from the top. -/
def Unsigned (s : Str) (n : Nat) : Prop :=
  ∃ z : Int, Whole s z ∧ -4294967295 ≤ z ∧ z ≤ 4294967295 ∧ (n : Int) = z % 4294967296

/-- What an entry of a word table says. -/
structure Entry (t : PTree) (g : WordGrammar) : Prop where
  word : ∃ n, At t [c!"word"] n ∧ n.data = g.word
  rangeFrom : ∃ n, At t [c!"range_from"] n ∧ Fits n.data g.rangeFrom
  rangeTo : ∃ n, At t [c!"range_to"] n ∧ Fits n.data g.rangeTo
  decFrom : ∃ n, At t [c!"decimal_from"] n ∧ Unsigned n.data g.decFrom
  decTo : ∃ n, At t [c!"decimal_to"] n ∧ Unsigned n.data g.decTo
  unique : ∃ n, At t [c!"unique"] n ∧ Truth n.data g.unique
  wtype : ∃ n, At t [c!"type"] n ∧ Word n.data (wordTypeToStr g.wtype)

/-- A table of words: every entry can be read, the last one of each name counts. -/
def Table (t : PTree) (m : WordMap) : Prop :=
  (∀ e ∈ t.kids, ∃ g, Entry e.2 g) ∧ ∀ w g, m.find w = some g ↔ ∃ c, Last t w c ∧ Entry c g

/-- The file of a word grammar. -/
structure Grammar (t : PTree) (w : Words) : Prop where
  metric : ∃ n, At t [c!"metric"] n ∧ Table n w.tables.metric
  imperial : ∃ n, At t [c!"imperial"] n ∧ Table n w.tables.imperial
  ops : ∃ n, At t [c!"operations"] n ∧ w.ops = n.kids.map (fun e => e.2.data)

/-- What an entry of a code group says. -/
def CodeEntry (t : PTree) (c : Ver.Code) : Prop :=
  (∃ n, At t [c!"code"] n ∧ Unsigned n.data c.1) ∧ ∃ n, At t [c!"rest"] n ∧ Unsigned n.data c.2

/-- A code is listed in a group. -/
def InGroup (t : PTree) (name : Str) (c : Ver.Code) : Prop :=
  ∃ arr k e, (name, arr) ∈ t.kids ∧ (k, e) ∈ arr.kids ∧ CodeEntry e c

end NC.Spec.Conf
