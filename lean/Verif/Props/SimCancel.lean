import Verif.Props.SimDrill

/-!
# C70: cancelling a cycle
-/

namespace NC.Props
open NC NC.Path NC.Ver NC.AttrPath NC.Spec.Sim

section
variable {K : Type} [Field K] [LinearOrder K] [FloorRing K]

/-- Motions that end a cycle: G80, and G0 and G1 if the control is set up so. -/
def Ends (c : Cfg K) (g : Int) : Prop := g = 80 ∨ (g = 0 ∧ c.cancel0 = true) ∨ (g = 1 ∧ c.cancel1 = true)

omit [FloorRing K] in
theorem linear_cycle {F : Fns K} {c : Cfg K} {v : Vis K} {cur : Cur K} {s M : St K} (h : linear F c v cur s = (M, .ok true)) :
    M.path.cycle = (cancelBy c cur.g s).path.cycle ∧ M.path.holes = (cancelBy c cur.g s).path.holes := by
  have sm : ∀ (g : Int) (x : Fl K) (t : St K), (setMotion g x t).path.cycle = t.path.cycle ∧ (setMotion g x t).path.holes = t.path.holes := by
    intro g x t; unfold setMotion; split <;> exact ⟨rfl, rfl⟩
  unfold linear at h
  split at h
  · unfold linearAbs at h
    split at h
    · cases h
    · cases h
    · cases h
    · split at h
      · cases h; exact sm _ _ _
      · cases h
  · unfold linearIncr at h
    split_ifs at h
    · cases h
    · cases h
    · cases h
    · cases h
      exact sm _ _ _

/-- After a motion that ends cycles there is none in force, whatever there was before; the other straight motions leave
the cycle and the count of its holes alone. -/
theorem C70_cancel (F : Fns K) {c : Cfg K} (hx : AxesOk c) (inch : Inch) (line : Int) {b : Block}
    (p : St K × MacroMap ℚ) (hp : Inv p.1) (hb : Steady b) (hne : b ≠ []) (hr : Settled p.1 b)
    {m : Modal K} (hm : m = (modalOf p.1).after b) (h : (evaluate F c inch line b p).2 = .ok ()) :
    (Ends c m.motion → (evaluate F c inch line b p).1.1.path.holes = 0 ∧
      (evaluate F c inch line b p).1.1.path.cycle = (some 0, some 0)) ∧
    ((m.motion = 0 ∨ m.motion = 1) → ¬ Ends c m.motion →
      (evaluate F c inch line b p).1.1.path.holes = p.1.path.holes ∧
      (evaluate F c inch line b p).1.1.path.cycle = p.1.path.cycle) := by
  have key : m.motion = 80 ∨ m.motion = 0 ∨ m.motion = 1 → ∃ v S M, (current v S).g = m.motion ∧
      S.path.cycle = p.1.path.cycle ∧ S.path.holes = p.1.path.holes ∧
      motion F c v (current v S) S = (M, .ok true) ∧
      (evaluate F c inch line b p).1.1.path.cycle = M.path.cycle ∧ (evaluate F c inch line b p).1.1.path.holes = M.path.holes := by
    intro hk
    have hg1 : inGroup 1 b p.1.g ≠ -1 := by
      have : m.motion ≠ -1 := by intro e; rw [e] at hk; revert hk; decide
      rw [hm] at this
      exact this
    obtain ⟨v, S, M, hv, hat, hab, ho, g1, g2, g3, g4, g5, g6, g7, g8, g9, g10, g11, hres⟩ :=
      steady_block F hx inch line p hp.good hb hne hr hg1 h
    rw [← hm] at g10
    have cg : (current v S).g = m.motion := congrArg Modal.motion g10
    rcases hres with ⟨m1, m2, m3⟩ | ⟨m1, m3, m4, m5, m6, m7⟩
    · have w12 : (evaluate F c inch line b p).1.1.path = (counted F c inch (current v S) M).path := by
        rw [m3, (savePositions_modal c v _).2.1]
      exact ⟨v, S, M, cg, g5, g6, m1, by rw [w12]; rfl, by rw [w12]; rfl⟩
    · exfalso
      rw [← cg] at hk
      unfold motion at m1
      rcases hk with hk | hk | hk
      · rw [hk] at m1; cases m1
      · exact m7 hk
      · rw [hk, if_pos (by decide)] at m1
        unfold linear at m1
        split at m1
        · unfold linearAbs at m1
          split at m1
          · cases m1
          · cases m1
          · cases m1
          · split at m1 <;> cases m1
        · unfold linearIncr at m1
          split_ifs at m1 <;> cases m1
  constructor
  · intro he
    obtain ⟨v, S, M, cg, k1, k2, k3, k4, k5⟩ := key (by rcases he with h | h | h; exact .inl h; exact .inr (.inl h.1); exact .inr (.inr h.1))
    rw [k4, k5]
    unfold motion at k3
    rcases he with he | he
    · rw [cg, he] at k3
      cases k3
      exact ⟨rfl, rfl⟩
    · have h01 : m.motion = 0 ∨ m.motion = 1 := by rcases he with h | h; exact .inl h.1; exact .inr h.1
      rw [if_pos (by rw [cg]; exact h01)] at k3
      obtain ⟨l1, l2⟩ := linear_cycle k3
      rw [l1, l2]
      unfold cancelBy
      rw [if_pos (by rw [cg]; rcases he with h | h; exact .inl h; exact .inr (.inl h))]
      exact ⟨rfl, rfl⟩
  · intro h01 hn
    obtain ⟨v, S, M, cg, k1, k2, k3, k4, k5⟩ := key (.inr h01)
    rw [k4, k5, ← k1, ← k2]
    unfold motion at k3
    rw [if_pos (by rw [cg]; exact h01)] at k3
    obtain ⟨l1, l2⟩ := linear_cycle k3
    rw [l1, l2]
    unfold cancelBy
    rw [if_neg]
    · exact ⟨rfl, rfl⟩
    · rw [cg]
      rintro (h | h | h | h)
      · exact hn (.inr (.inl h))
      · exact hn (.inr (.inr h))
      · rw [h.1] at h01; revert h01; decide
      · rw [h.1] at h01; revert h01; decide

/-- A cycle does not survive its end: the next drilling block has to say its levels again. -/
theorem C70_cancelled (F : Fns K) {c : Cfg K} (hw : WF c) (hx : AxesOk c) (inch : Inch) (line line' : Int) {b b' : Block}
    (p : St K × MacroMap ℚ) (hp : Inv p.1) (hb : Steady b) (hne : b ≠ []) (hr : Settled p.1 b)
    (he : Ends c ((modalOf p.1).after b).motion) (h : (evaluate F c inch line b p).2 = .ok ())
    {q : St K × MacroMap ℚ} (hq : q = (evaluate F c inch line b p).1)
    (hb' : Steady b') (hne' : b' ≠ []) (hr' : Settled q.1 b')
    {m : Modal K} (hm : m = (modalOf q.1).after b') (hd : DrillBlock c.axes b' m) (h17 : m.plane = 17)
    (h' : (evaluate F c inch line' b' q).2 = .ok ()) {x y : K} (hX : pos q.1 c!"X" = some x) (hY : pos q.1 c!"Y" = some y) :
    programmed (K := K) b' c!"R" ≠ none ∧ (c.depthless = false → programmed (K := K) b' c!"Z" ≠ none) := by
  have hi : Inv q.1 := by rw [hq]; exact evaluate_inv F hw inch line b p hp
  exact C70_levels_needed F hx inch line' q hi hb' hne' hr' hm hd h17 h' hX hY
    (.inl (by rw [hq]; exact ((C70_cancel F hx inch line p hp hb hne hr rfl h).1 he).1))

end

section
open NC.SimDemo

/-- G80 with a way. -/
def endCycle : Block := [w c!"G" c!"80"]

/-- The cycle again, with its levels. -/
def againHole : Block := [w c!"G" c!"81", w c!"X" c!"60", w c!"Y" c!"80", wn c!"Z" c!"30", w c!"R" c!"2"]

example : Steady endCycle ∧ Settled drilled.1 endCycle ∧ Ends mill ((modalOf drilled.1).after endCycle).motion ∧
    drilled.1.path.holes = 1 ∧ drilled.1.path.cycle = (some 22, some 30) ∧
    (evaluate qf mill false 1 endCycle drilled).2 = .ok () ∧
    (evaluate qf mill false 1 againHole (evaluate qf mill false 1 endCycle drilled).1).2 = .ok () ∧
    (evaluate qf mill false 1 againHole (evaluate qf mill false 1 endCycle drilled).1).1.1.path.work = some 32 ∧
    (evaluate qf mill false 1 [w c!"G" c!"81", w c!"X" c!"60"] (evaluate qf mill false 1 endCycle drilled).1).2 ≠ .ok () := by
  refine ⟨steady_of (by decide), .inl (by decide +kernel), .inl (by decide +kernel), ?_⟩
  and_intros <;> decide +kernel

end
end NC.Props
