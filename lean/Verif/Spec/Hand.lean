import Verif.Hand
import Verif.Spec.Form

/-!
# What has to arrive

What a client of the .NET class hands over, and when the parser has it.
-/

namespace NC.Spec.Hand
open NC NC.Enums NC.AttrPath NC.Conf NC.Form NC.Hand NC.Spec.Form

/-- A text without NUL. -/
def Clear (s : Str) : Prop := '\x00' ∉ s

/-- A dictionary: no key twice, no NUL in a key. -/
def Keyed {α : Type} (d : Dict α) : Prop := (d.map (·.1)).Nodup ∧ ∀ e ∈ d, Clear e.1

/-- What a client that has read a settings file hands over. -/
def given (f : File) (t : EMachineTool) : Handed :=
  ⟨t, f.ttype, f.exchange, f.base,
   ⟨f.kin.axes, f.kin.maxFeed, f.kin.maxFast, f.kin.spindle, f.kin.warehouse, f.kin.exchangeTime, f.kin.palletTime, f.kin.measureTime,
    f.kin.diameter2x, f.kin.autoMeasure, some f.kin.palletCode, some f.kin.palletValue, some f.kin.measureCode, some f.kin.measureValue⟩,
   f.cnc, f.zero⟩

/-- The file can be handed over. -/
structure Fit (f : File) : Prop where
  exchange : Keyed f.exchange
  base : Keyed f.base
  axes : Keyed f.kin.axes
  zero : ∀ a ∈ [c!"X", c!"Y", c!"Z"], ∃ v, First f.zero a v
  texts : Clear f.kin.palletCode ∧ Clear f.kin.palletValue ∧ Clear f.kin.measureCode ∧ Clear f.kin.measureValue

/-- One of the four texts is missing. -/
def Null (k : KinObj) : Prop := k.palletCode = none ∨ k.palletValue = none ∨ k.measureCode = none ∨ k.measureValue = none

/-- The grammar of a word. -/
def SameWord (w : WordObj) (g : WordGrammar) : Prop :=
  w.word = some g.word ∧ w.rangeFrom = g.rangeFrom ∧ w.rangeTo = g.rangeTo ∧ w.decFrom = g.decFrom ∧ w.decTo = g.decTo ∧
    w.unique = g.unique ∧ w.wtype = g.wtype

/-- The words of a table, each with a text. -/
def Worded (d : Dict WordObj) : Prop := Keyed d ∧ ∀ e ∈ d, ∃ s, e.2.word = some s ∧ Clear s

/-- The table has the words of the dictionary. -/
def Tabled (d : Dict WordObj) (m : WordMap) : Prop := ∀ k g, m.find k = some g ↔ ∃ w, First d k w ∧ SameWord w g

/-- The groups are those of the dictionary. -/
def Grouped (d : Dict (List Ver.Code)) (m : Ver.Groups) : Prop :=
  ∀ c k, (∃ gs, m.find c = some gs ∧ k ∈ gs) ↔ ∃ l, First d k l ∧ c ∈ l

/-- What a client needs to have. -/
structure Ready (c : Client) : Prop where
  metric : Worded c.metric
  imperial : Worded c.imperial
  ops : ∀ o ∈ c.ops, Clear o
  gcodes : Keyed c.gcodes
  mcodes : Keyed c.mcodes

/-- The parser is the one the client asked for, with these settings of the machine. -/
structure Connected (E : Env) (c : Client) (s : Settings) (S : Pipe.Setup) (o : Pipe.Options) : Prop where
  metric : Tabled c.metric S.tables.metric
  imperial : Tabled c.imperial S.tables.imperial
  ops : S.ops = c.ops
  gcodes : Grouped c.gcodes S.gcodes
  mcodes : Grouped c.mcodes S.mcodes
  lang : S.lang = .known c.language
  driver : s.driver = c.driver
  machine : ∀ w g m, S = { setupOf E s w g m with tables := S.tables, ops := S.ops, gcodes := S.gcodes, mcodes := S.mcodes, lang := S.lang }
  options : o.evalMacro = c.settings.evalMacro ∧ o.groups = c.settings.groups ∧ o.path = c.settings.path ∧
    o.analysis = c.settings.analysis ∧ o.zeroPoint = c.settings.zeroPoint

/-- An unsigned number of C#. -/
def Natural (n : Nat) : Prop := n ≤ 4294967295

/-- The numbers of a word are those of C#. -/
def Sized (w : WordObj) : Prop := Small w.rangeFrom ∧ Small w.rangeTo ∧ Natural w.decFrom ∧ Natural w.decTo

/-- A table of words that a file can have: each has a text, and the numbers are those of C#. -/
def Listed (d : Dict WordObj) : Prop := Worded d ∧ ∀ e ∈ d, Sized e.2

/-- Groups that a file can have. -/
def Coded (d : Dict (List Ver.Code)) : Prop := Keyed d ∧ ∀ e ∈ d, ∀ c ∈ e.2, Natural c.1 ∧ Natural c.2

end NC.Spec.Hand
