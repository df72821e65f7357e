import Verif.Extension

/-!
# Starting the server: what the arguments mean
-/

namespace NC.Spec.Launch
open NC

/-- The names of all options. -/
def names : List Str := [c!"help", c!"single-line-output", c!"convert-length", c!"calculate-path", c!"rotate", c!"rotate-option",
  c!"ncsetting-path", c!"macro-desc-path", c!"log-path"]

/-- The options that have a letter. -/
def letters : List (Str × Char) := [(c!"single-line-output", 's'), (c!"ncsetting-path", 'n'), (c!"macro-desc-path", 'm'), (c!"log-path", 'l')]

/-- The name of an option or a beginning of it that is no beginning of another name. -/
def Brief (name p : Str) : Prop := p = name ∨ (p ≠ [] ∧ p ∈ name.inits ∧ ∀ n ∈ names, p ∈ n.inits → n = name)

/-- An option and its value as arguments: one after the other, or in one argument with an equals sign; the name may be
abbreviated, and some options have a letter, with the value behind it. -/
inductive Spelled (name value : Str) : List Str → Prop
  | apart (p : Str) : Brief name p → value.head? ≠ some '-' → Spelled name value [c!"--" ++ p, value]
  | joined (p : Str) : Brief name p → value ≠ [] → Spelled name value [c!"--" ++ (p ++ '=' :: value)]
  | letter (c : Char) : (name, c) ∈ letters → value.head? ≠ some '-' → Spelled name value [['-', c], value]
  | stuck (c : Char) : (name, c) ∈ letters → value ≠ [] → Spelled name value ['-' :: c :: value]

/-- A command line. -/
inductive Line : List (Str × Str) → List Str → Prop
  | nil : Line [] []
  | cons (n v : Str) (a : List Str) (l : List (Str × Str)) (r : List Str) : Spelled n v a → Line l r → Line ((n, v) :: l) (a ++ r)

/-- Options that take a path. -/
def paths : List Str := [c!"ncsetting-path", c!"log-path", c!"macro-desc-path"]

/-- Options that take a truth value. -/
def truths : List Str := [c!"single-line-output", c!"convert-length", c!"calculate-path", c!"rotate"]

/-- Yes. -/
def yes : List Str := [c!"true", c!"yes", c!"on", c!"1"]

/-- No. -/
def no : List Str := [c!"false", c!"no", c!"off", c!"0"]

/-- The word is one of the list, in small or capital letters. -/
def AnyCase (l : List Str) (v : Str) : Prop := v.map Char.toLower ∈ l

instance (l : List Str) (v : Str) : Decidable (AnyCase l v) := inferInstanceAs (Decidable (_ ∈ _))

/-- Rotations. -/
def rotations : List Str := [c!"X90", c!"X180", c!"X270", c!"Y90", c!"Y180", c!"Y270", c!"Z90", c!"Z180", c!"Z270"]

/-- A value that suits the option. -/
def Suits (name value : Str) : Prop :=
  name ∈ paths ∨ (name ∈ truths ∧ AnyCase (yes ++ no) value) ∨ (name = c!"rotate-option" ∧ value ∈ rotations)

/-- The path given for an option, none if there is none. -/
def PathIs (l : List (Str × Str)) (name p : Str) : Prop := (name, p) ∈ l ∨ ((∀ v, (name, v) ∉ l) ∧ p = [])

/-- What no command line goes on with, whatever follows: an argument without option, a name that is neither an option nor the
beginning of exactly one, an equals sign without value; and an option at the end without its value. -/
inductive Refused : List Str → Prop
  | stray (t : Str) (r : List Str) : t.head? ≠ some '-' → Refused (t :: r)
  | unclear (p : Str) (r : List Str) : p ≠ [] → p.head? ≠ some '-' → '=' ∉ p → p ∉ names → (∀ n ∈ names, p ∈ n.inits → ∃ n' ∈ names, n' ≠ n ∧ p ∈ n'.inits) → Refused ((c!"--" ++ p) :: r)
  | empty (p : Str) (r : List Str) : '=' ∉ p → Refused ((c!"--" ++ (p ++ ['='])) :: r)
  | lacking (n : Str) : n ∈ names → n ≠ c!"help" → Refused [c!"--" ++ n]

/-- The value of a setting of the editor: the workspace's, else the user's, else none. -/
def Configured (c : Ext.Store) (k : Ext.Key) (v : Str) : Prop :=
  c .workspace k = some v ∨ (c .workspace k = none ∧ c .global k = some v) ∨ (c .workspace k = none ∧ c .global k = none ∧ v = [])

/-- Path and time are to be calculated: as the workspace or else the user says, and if neither says anything. -/
def Calculated (c : Ext.Store) : Prop :=
  c .workspace .pathTime = some c!"true" ∨ (c .workspace .pathTime = none ∧ c .global .pathTime = some c!"true") ∨
    (c .workspace .pathTime = none ∧ c .global .pathTime = none)

/-- Options that are described as if they had an effect on the server. -/
def idle : List Str := [c!"single-line-output", c!"convert-length", c!"rotate", c!"rotate-option"]

end NC.Spec.Launch
