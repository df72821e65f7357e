import Verif.Num

/-!
# What lines, clock texts and diagnostics mean, independently of the code
-/

namespace NC.Spec.Lines
open NC

/-- Lines joined by line feeds. -/
def join : List Str → Str
  | [] => []
  | [l] => l
  | l :: ls => l ++ '\n' :: join ls

/-- `ls` are the lines of `text`: none contains a line feed, and the text is the
lines each followed by a line feed, except that the last line feed may be
missing when the last line is not empty. -/
def IsLines (text : Str) (ls : List Str) : Prop :=
  (∀ l ∈ ls, '\n' ∉ l) ∧
  (text = (ls.map (· ++ c!"\n")).flatten ∨ (text = join ls ∧ ∃ l, ls.getLast? = some l ∧ l ≠ []))

/-- `t` is `l` without its trailing white space. -/
def TrimmedEnd (l t : Str) : Prop :=
  (∃ w, l = t ++ w ∧ ∀ c ∈ w, isSp c = true) ∧ ∀ c, t.getLast? = some c → isSp c = false

/-- `t` is `l` without surrounding white space. -/
def Trimmed (l t : Str) : Prop :=
  (∃ v w, l = v ++ t ++ w ∧ (∀ c ∈ v, isSp c = true) ∧ ∀ c ∈ w, isSp c = true) ∧
  (∀ c, t.head? = some c → isSp c = false) ∧ ∀ c, t.getLast? = some c → isSp c = false

/-- A clock text: optional minus sign, optional hours, minutes, seconds with
three decimals; its value in milliseconds. -/
structure Clock where
  neg : Bool
  hours : Option Str
  minutes : Str
  seconds : Str
  milli : Str

/-- How the clock is written. -/
def Clock.text (k : Clock) : Str :=
  (if k.neg then c!"-" else []) ++ (match k.hours with | some h => h ++ c!":" | none => []) ++
    k.minutes ++ c!":" ++ k.seconds ++ c!"." ++ k.milli

/-- Milliseconds the clock denotes. -/
def Clock.value (k : Clock) : Int :=
  (if k.neg then -1 else 1) *
    ((((k.hours.map readNat).getD 0 * 60 + readNat k.minutes) * 60 + readNat k.seconds) * 1000 + readNat k.milli : Nat)

/-- Digits only, minutes and seconds below sixty in two digits (minutes may
have one digit when there are no hours), three digits of milliseconds, no
superfluous hours, no negative zero. -/
structure Clock.Proper (k : Clock) : Prop where
  digits : ∀ c ∈ k.hours.getD [] ++ k.minutes ++ k.seconds ++ k.milli, isDig c = true
  hours : ∀ h, k.hours = some h → 0 < readNat h
  minutes : readNat k.minutes < 60 ∧ (k.hours.isSome → k.minutes.length = 2) ∧ k.minutes ≠ []
  seconds : readNat k.seconds < 60 ∧ k.seconds.length = 2
  milli : k.milli.length = 3
  sign : k.neg = true → k.value ≠ 0

/-- The rejected lines of a run: line index (from zero), line text and the
parser's message, in order.  `ck` is asked about every non-blank line. -/
inductive Rejects {ε σ : Type} (ck : σ → Nat → Str → Out ε (σ × Bool × Str)) :
    σ → Nat → List Str → σ → List (Nat × Str × Str) → Prop
  | done (s n) : Rejects ck s n [] s []
  | blank {s n ls s' rs} : Rejects ck s (n + 1) ls s' rs → Rejects ck s n ([] :: ls) s' rs
  | accepted {s n l ls s₁ m s' rs} : l ≠ [] → ck s (n + 1) l = .ok (s₁, true, m) →
      Rejects ck s₁ (n + 1) ls s' rs → Rejects ck s n (l :: ls) s' rs
  | rejected {s n l ls s₁ m s' rs} : l ≠ [] → ck s (n + 1) l = .ok (s₁, false, m) →
      Rejects ck s₁ (n + 1) ls s' rs → Rejects ck s n (l :: ls) s' ((n, l, m) :: rs)

end NC.Spec.Lines

namespace NC.Spec.Lines
open NC

/-- What the user should be told about a rejected line: the parser's message
`m` either names a column (`1:column:text`), or is plain text, or is empty (then
the line itself is quoted).  `col` is zero-based. -/
inductive Says (l : Str) : Str → Int → Str → Prop
  | placed {ds rest t : Str} : ds ≠ [] → (∀ c ∈ ds, isDig c = true) → 0 < readNat ds → Trimmed rest t →
      Says l (c!"1:" ++ ds ++ c!":" ++ rest) (readNat ds - 1 : Nat) t
  | plain {m t : Str} : m ≠ [] → m.head? ≠ some '1' → Trimmed m t → Says l m 0 t
  | silent : Says l [] 0 (c!"'" ++ l ++ c!"'")

/-- A message the diagnostics can carry: no further colon, no text `line 1`,
something to say, and a plain message does not start with `1`. -/
inductive Calm (l : Str) : Str → Prop
  | placed {ds rest : Str} : ds ≠ [] → (∀ c ∈ ds, isDig c = true) → 0 < readNat ds → readNat ds ≤ 2147483647 →
      ':' ∉ rest → (∃ c ∈ rest, isSp c = false) → ¬ c!"line 1" <:+: c!"1:" ++ ds ++ c!":" ++ rest →
      Calm l (c!"1:" ++ ds ++ c!":" ++ rest)
  | plain {m : Str} : m.head? ≠ some '1' → ':' ∉ m → (∃ c ∈ m, isSp c = false) → ¬ c!"line 1" <:+: m → Calm l m
  | silent : ':' ∉ l → Calm l []

end NC.Spec.Lines
