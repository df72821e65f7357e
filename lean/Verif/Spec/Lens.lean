import Verif.Server
import Verif.Spec.Lines

/-!
# What the path and time lenses of a program are, independently of the code
-/

namespace NC.Spec.Lens
open NC NC.Srv

/-- The lines that are not blank, each with its index (from zero) and the state
of the line parser after it; every line is parsed once, in order, in the state
the earlier lines left. -/
inductive Visits {ε σ : Type} (ck : σ → Nat → Str → Out ε (σ × Bool × Str)) :
    σ → Nat → List Str → σ → List (Nat × σ) → Prop
  | done (s n) : Visits ck s n [] s []
  | blank {s n ls s' vs} : Visits ck s (n + 1) ls s' vs → Visits ck s n ([] :: ls) s' vs
  | parsed {s n l ls s₁ b m s' vs} : l ≠ [] → ck s (n + 1) l = .ok (s₁, b, m) →
      Visits ck s₁ (n + 1) ls s' vs → Visits ck s n (l :: ls) s' ((n, s₁) :: vs)

/-- The lines on which the total time is not what it was after the line before
(zero before the first one). -/
def changes (vs : List (Nat × Srv.Totals)) : List (Nat × Srv.Totals) :=
  ((((0 : ℚ) :: vs.map (·.2.tTotal)).zip vs).filter (fun p => p.1 ≠ p.2.2.tTotal)).map (·.2)

/-- A row of a lens: label and value, shown when the amount is at least a
hundredth. -/
structure Row where
  amount : ℚ
  label : Str
  value : Str

/-- The text of the rows that are shown. -/
def rowsText (rs : List Row) : Str :=
  ((rs.filter (fun r => 1 / 100 ≤ r.amount)).map (fun r => c!" | " ++ r.label ++ c!" = " ++ r.value)).flatten

/-- The rows of a lens: totals so far, the path of the tool unless it is the
whole path, and rapid and cutting sums `fp ft wp wt` so far, shown on lines that
have a rapid or cutting part of their own. -/
def rows (t : Srv.Totals) (fp ft wp wt : ℚ) : List Row :=
  [⟨t.pTotal, c!"Total path", fixedStr 2 t.pTotal⟩, ⟨t.tTotal, c!"Total time", formatTime t.tTotal⟩,
   ⟨min t.pTool (t.pTotal - t.pTool), c!"T" ++ t.toolId ++ c!" total path", fixedStr 2 t.pTool⟩,
   ⟨t.pFast, c!"Total rapid path", fixedStr 2 fp⟩, ⟨t.tFast, c!"Total rapid time", formatTime ft⟩,
   ⟨t.pWork, c!"Total cut path", fixedStr 2 wp⟩, ⟨t.tWork, c!"Total cut time", formatTime wt⟩]

/-- The sum of a figure over some lines. -/
def total (f : Srv.Totals → ℚ) (vs : List (Nat × Srv.Totals)) : ℚ := (vs.map (fun v => f v.2)).sum

/-- `out` are the lenses of the visited lines: one for every change of the total
time, on that line, with the sums up to it. -/
def Lenses (vs : List (Nat × Srv.Totals)) (out : List (Nat × Str)) : Prop :=
  out.length = (changes vs).length ∧
  ∀ i v, (changes vs)[i]? = some v → out[i]? = some (v.1, rowsText (rows v.2
    (total (·.pFast) ((changes vs).take (i + 1))) (total (·.tFast) ((changes vs).take (i + 1)))
    (total (·.pWork) ((changes vs).take (i + 1))) (total (·.tWork) ((changes vs).take (i + 1)))))

end NC.Spec.Lens
