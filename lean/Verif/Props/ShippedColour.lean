import Verif.Props.Shipped
import Verif.Props.Colour

/-!
# C134 for the shipped controls
-/

namespace NC.Props
open NC NC.Gram NC.Pipe NC.Conf NC.Shipped NC.Colour NC.Spec.Colour

/-- The words of every control that is shipped are bare, whatever the units and
the language. -/
theorem shipped_bare : ∀ k ∈ controls, ∀ t l,
    CharsOk (built t (Shipped.words k).tables.metric (Shipped.words k).ops l) ∧
    BareWords (built t (Shipped.words k).tables.metric (Shipped.words k).ops l) := by
  intro k hk t l
  refine ⟨buildSymbols_chars _ _, ?_⟩
  have h : ∀ k ∈ controls, ∀ w ∈ (buildSymbols (Shipped.words k).tables.metric (Shipped.words k).ops).chars ++
      (buildSymbols (Shipped.words k).tables.metric (Shipped.words k).ops).decs ++
      (buildSymbols (Shipped.words k).tables.metric (Shipped.words k).ops).assigns, ∀ c ∈ w, c ≠ '(' ∧ c ≠ ';' := by
    decide +kernel
  exact h k hk

/-- C134 for every shipped control, in any units and language. -/
theorem C134_shipped_partial {k : Control} (hk : k ∈ controls) (t : WordMap) (l : Message.Lang) {ps ps' : PS} {s : Str} {b : Block}
    (h : phrase (built t (Shipped.words k).tables.metric (Shipped.words k).ops l) ps s = (ps', .accept b))
    (hb : ∀ v, .str c!"(" v ∈ b → '\\' ∉ v) : Placed s b (coloured false s) :=
  C134_coloured_partial (shipped_bare k hk t l).1 (shipped_bare k hk t l).2 h hb

end NC.Props
