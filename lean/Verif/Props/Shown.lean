import Verif.Whole
import Verif.Props.SimLength
import Verif.Props.SimModal
import Verif.Props.SimTotals
import Verif.Transform
import Verif.PipeDemo

/-! # C73: the amounts that are shown are those of the motion.  C93: a refused line stays refused -/

namespace NC.Props
open NC NC.Path NC.Ver NC.AttrPath NC.Spec.Sim NC.Pipe

/-- **C71, C73.** The amounts shown after a straight move: its length is the rapid path for G0 and the cut path for G1,
the other path is zero, and the total path is longer by it. -/
theorem C71_shown_partial (R : Whole.Rest) (S : Setup) (hc : WF S.cfg) (hx : AxesOk S.cfg) (hm : S.cfg.mtype = .other) (line : Int)
    (b : Block) (P : Parser) (hp : Inv P.path) (hb : Plain b) (hne : b ≠ []) (hr : NotPending P.path b)
    (hg : motionCode b P.path.g = 0 ∨ motionCode b P.path.g = 1) (h : (calculated S line b P).2 = .ok ()) {x y z t : ℚ}
    (hX : pos P.path c!"X" = some x) (hY : pos P.path c!"Y" = some y) (hZ : pos P.path c!"Z" = some z) (ht : P.path.path.total = some t) :
    let P' := (calculated S line b P).1
    let a := (Whole.server R).totals (S, P')
    ∃ x' y' z', pos P'.path c!"X" = some x' ∧ pos P'.path c!"Y" = some y' ∧ pos P'.path c!"Z" = some z' ∧
      a.pTotal = t + dist3 S.F x y z x' y' z' ∧
      (motionCode b P.path.g = 0 → a.pFast = dist3 S.F x y z x' y' z' ∧ a.pWork = 0) ∧
      (motionCode b P.path.g = 1 → a.pWork = dist3 S.F x y z x' y' z' ∧ a.pFast = 0) := by
  intro P' a
  obtain ⟨x', y', z', h1, h2, h3, k0, k1⟩ :=
    C71_line_partial S.F hc hx hm (decide (P.units = .imperial)) line b (P.path, P.macros) hp hb hne hr hg h hX hY hZ
  have hT := C26_path S.F S.cfg (decide (P.units = .imperial)) line b (P.path, P.macros) hp h
  refine ⟨x', y', z', h1, h2, h3, ?_, ?_, ?_⟩
  · show Whole.shown P'.path.path.total = _
    rw [show P'.path.path.total = _ from hT, show (P.path, P.macros).1.path.total = some t from ht]
    rcases hg with hg | hg
    · rw [(k0 hg).1, (k0 hg).2]; simp [addF, Whole.shown]
    · rw [(k1 hg).1, (k1 hg).2]; simp [addF, Whole.shown]
  · intro e
    exact ⟨by show Whole.shown P'.path.path.fast = _; rw [show P'.path.path.fast = _ from (k0 e).1]; rfl,
      by show Whole.shown P'.path.path.work = _; rw [show P'.path.path.work = _ from (k0 e).2]; rfl⟩
  · intro e
    exact ⟨by show Whole.shown P'.path.path.work = _; rw [show P'.path.path.work = _ from (k1 e).1]; rfl,
      by show Whole.shown P'.path.path.fast = _; rw [show P'.path.path.fast = _ from (k1 e).2]; rfl⟩

/-- **C77, C73.** The times shown are those of the paths shown: the cut path at the feed in force, the rapid path at the
machine's rapid feed. -/
theorem C77_shown_partial (R : Whole.Rest) (S : Setup) (hx : AxesOk S.cfg) (line : Int) (b : Block) (P : Parser)
    (hp : P.path.g = -1 ∨ Good P.path.g) (hb : Steady b) (hne : b ≠ []) (hr : Settled P.path b) (hg : inGroup 1 b P.path.g ≠ -1)
    (h : (calculated S line b P).2 = .ok ()) (hw : (calculated S line b P).1.path.path.work ≠ none)
    (hq : (calculated S line b P).1.path.path.fast ≠ none)
    (hl : (S.cfg.mtype = .lathe ∨ (S.cfg.mtype = .millturn ∧ ((modalOf P.path).after b).plane = 18)) ∨
      ((modalOf P.path).after b).feedMode = 94)
    (hs : ((modalOf P.path).after b).feedMode = 94 ∨ ((modalOf P.path).after b).speedMode = 97)
    (hf : 0 < ((modalOf P.path).after b).feed) (hf' : ((modalOf P.path).after b).perMinute ≠ 0) (hm : 0 < S.cfg.maxFast) :
    let a := (Whole.server R).totals (S, (calculated S line b P).1)
    a.tWork = seconds a.pWork ((modalOf P.path).after b).perMinute ∧ a.tFast = seconds a.pFast S.cfg.maxFast := by
  intro a
  obtain ⟨w, hw⟩ := Option.ne_none_iff_exists'.mp hw
  obtain ⟨q, hq⟩ := Option.ne_none_iff_exists'.mp hq
  obtain ⟨h1, h2⟩ := C77_time_partial S.F hx (decide (P.units = .imperial)) line (P.path, P.macros) hp hb hne hr hg h hw hq hl hs hf hf' hm
  constructor
  · show Whole.shown (calculated S line b P).1.path.time.work = seconds (Whole.shown (calculated S line b P).1.path.path.work) _
    rw [hw, show (calculated S line b P).1.path.time.work = _ from h1]; rfl
  · show Whole.shown (calculated S line b P).1.path.time.fast = seconds (Whole.shown (calculated S line b P).1.path.path.fast) _
    rw [hq, show (calculated S line b P).1.path.time.fast = _ from h2]; rfl

open SimDemo

/-- A setup with the milling machine of the examples. -/
def millSetup : Setup := { Pipe.demo with cfg := mill, F := qf }

/-- From (3, 4, 10) by (-9, 12, 8): the cut path is 17 mm. -/
example :
    let P : Parser := { Pipe.fresh millSetup with path := (run mill [[w c!"G" c!"1", w c!"X" c!"3", w c!"Y" c!"4", w c!"F" c!"100"]] (start mill)).1 }
    let b : Block := [w c!"G" c!"91", wn c!"X" c!"9", w c!"Y" c!"12", w c!"Z" c!"8"]
    (calculated millSetup 1 b P).2 = .ok () ∧ motionCode b P.path.g = 1 ∧ P.path.path.total = some 5 ∧
      (Whole.totalsOf (millSetup, (calculated millSetup 1 b P).1)).pWork = 17 ∧
      (Whole.totalsOf (millSetup, (calculated millSetup 1 b P).1)).pTotal = 22 ∧
      (Whole.totalsOf (millSetup, (calculated millSetup 1 b P).1)).tWork = seconds 17 100 := by
  decide +kernel

/-- **C93.** Whatever is done with the words of a line, the answer to the question whether the line is right, and the
message about it, are those of the reading. -/
theorem C93_told (G : Gram.Gram) (g : FanucGrammar) (j : Xform.Job) (o : Xform.Obj) (l : Str) {b' : Block} {ok : Bool} {m : Option Str}
    (h : (Xform.call G g j o l).2 = .ret b' ok m) : ∃ b, (Gram.simpleParse G o.gram l).2 = .ret b ok m := by
  unfold Xform.call at h
  split at h
  · cases h
  · rename_i ps b ok₁ m₁ he
    rw [he]
    split at h
    · rename_i hk
      have : ok₁ = false := by
        rw [Bool.and_eq_true] at hk
        simpa using hk.2
      cases h
      exact ⟨_, by rw [this]⟩
    · split at h
      · cases h; exact ⟨b, rfl⟩
      · cases h
      · cases h

end NC.Props
