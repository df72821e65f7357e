import Verif.PathCalc
import Verif.Spec.Drill
import Mathlib.Tactic.Linarith
import Mathlib.Tactic.Ring
import Mathlib.Tactic.FieldSimp
import Mathlib.Data.Rat.Floor
import Mathlib.Algebra.Order.Floor.Semiring

/-!
# C62: distances of drilling cycles
-/

namespace NC.Props
open NC NC.Path NC.Spec.Drill

variable {K : Type} [Field K] [LinearOrder K] [IsStrictOrderedRing K]

/-- The flag of the specification for a return mode. -/
def isG98 : Ret → Bool
  | .g98 => true
  | .g99 => false

theorem travel_append (z : K) (a b : List K) (e : K) :
    travel z (a ++ e :: b) = travel z (a ++ [e]) + travel e b := by
  induction a generalizing z with
  | nil => simp [travel]
  | cons h t ih =>
    show |z - h| + travel h (t ++ e :: b) = |z - h| + travel h (t ++ [e]) + travel e b
    rw [ih]; ring

theorem sgn_cases (x : K) : (0 ≤ x ∧ |x| = x) ∨ (x < 0 ∧ |x| = -x) := by
  rcases le_or_gt 0 x with h | h
  · exact Or.inl ⟨h, abs_of_nonneg h⟩
  · exact Or.inr ⟨h, abs_of_neg h⟩

/-- Plain drilling with absolute depth, initial level above reference level above bottom: the work
distance is right. -/
theorem C62_work {zp r zg : K} {g : Int} {ret : Ret} (hg : boring g = true) (h1 : r ≤ zp) (h2 : zg ≤ r) :
    (drill zp zg r .absolute g ret).1 = work r zg := by
  have hw : work r zg = r - zg := by
    simp only [work, travel, add_zero]; exact abs_of_nonneg (by linarith)
  rw [hw]
  unfold drill
  rw [if_pos hg]
  cases ret
  · show (if 0 < zp ∧ zg < 0 then _ else _ : K × K).1 = _
    split
    · rename_i h
      show abs (r + |zg|) = _
      rw [abs_of_neg h.2, abs_of_nonneg (by linarith)]; ring
    · rename_i h
      show abs (|r| - |zg|) = _
      rcases sgn_cases r with ⟨a, ha⟩ | ⟨a, ha⟩ <;> rcases sgn_cases zg with ⟨b, hb⟩ | ⟨b, hb⟩ <;> rw [ha, hb]
      · exact abs_of_nonneg (by linarith)
      · have : r = 0 := by
          by_contra hne
          have : 0 < r := lt_of_le_of_ne a (Ne.symm hne)
          exact h ⟨by linarith, b⟩
        rw [this, abs_of_neg (by linarith)]; ring
      · linarith
      · rw [abs_of_nonpos (by linarith)]; ring
  · show (if 0 < zp ∧ zg < 0 then _ else _ : K × K).1 = _
    split
    · rename_i h
      show r + |zg| = _
      rw [abs_of_neg h.2]; ring
    · rename_i h
      show abs (|r| - |zg|) = _
      rcases sgn_cases r with ⟨a, ha⟩ | ⟨a, ha⟩ <;> rcases sgn_cases zg with ⟨b, hb⟩ | ⟨b, hb⟩ <;> rw [ha, hb]
      · exact abs_of_nonneg (by linarith)
      · have : r = 0 := by
          by_contra hne
          have : 0 < r := lt_of_le_of_ne a (Ne.symm hne)
          exact h ⟨by linarith, b⟩
        rw [this, abs_of_neg (by linarith)]; ring
      · linarith
      · rw [abs_of_nonpos (by linarith)]; ring

/-- The same for the rapid distance with return to the reference level. -/
theorem C62_rapid_g99 {zp r zg : K} {g : Int} (hg : boring g = true) (h1 : r ≤ zp) (h2 : zg ≤ r) :
    (drill zp zg r .absolute g .g99).2 = rapid false zp r zg := by
  have hw : rapid false zp r zg = zp - zg := by
    simp only [rapid, travel, add_zero, lastLevel, Bool.false_eq_true, if_false]
    rw [abs_of_nonneg (by linarith), abs_of_nonpos (by linarith)]; ring
  rw [hw]
  unfold drill
  rw [if_pos hg]
  show (if 0 < zp ∧ zg < 0 then _ else _ : K × K).2 = _
  split
  · rename_i h
    show |zp| + |zg| = _
    rw [abs_of_pos h.1, abs_of_neg h.2]; ring
  · rename_i h
    show abs (|zp| - |zg|) = _
    rcases sgn_cases zp with ⟨a, ha⟩ | ⟨a, ha⟩ <;> rcases sgn_cases zg with ⟨b, hb⟩ | ⟨b, hb⟩ <;> rw [ha, hb]
    · exact abs_of_nonneg (by linarith)
    · have : zp = 0 := by
        by_contra hne
        exact h ⟨lt_of_le_of_ne a (Ne.symm hne), b⟩
      rw [this, abs_of_neg (by linarith)]; ring
    · linarith
    · rw [abs_of_nonpos (by linarith)]; ring

/-- With return to the initial level the rapid distance is right exactly when the reference level is not
below zero while the initial level is above and the bottom below zero. -/
theorem C62_rapid_g98_iff_partial {zp r zg : K} {g : Int} (hg : boring g = true) (h1 : r ≤ zp) (h2 : zg ≤ r) :
    (drill zp zg r .absolute g .g98).2 = rapid true zp r zg ↔ ¬ (0 < zp ∧ r < 0) := by
  have hw : rapid true zp r zg = 2 * zp - r - zg := by
    simp only [rapid, travel, add_zero, lastLevel, if_true]
    rw [abs_of_nonneg (by linarith), abs_of_nonpos (by linarith)]; ring
  rw [hw]
  unfold drill
  rw [if_pos hg]
  show (if 0 < zp ∧ zg < 0 then _ else _ : K × K).2 = _ ↔ _
  split
  · rename_i h
    show |(|zp| - |r| + |zp| + |zg|)| = _ ↔ _
    rw [abs_of_pos h.1, abs_of_neg h.2]
    rcases sgn_cases r with ⟨a, ha⟩ | ⟨a, ha⟩ <;> rw [ha]
    · rw [abs_of_nonneg (by linarith)]
      constructor
      · rintro _ ⟨_, h3⟩; linarith
      · intro _; ring
    · rw [abs_of_nonneg (by linarith)]
      constructor
      · intro h3; exfalso; linarith
      · intro h3; exact absurd ⟨h.1, a⟩ h3
  · rename_i h
    show |(|zp| - |r| + |zp| - |zg|)| = _ ↔ _
    have hn : ¬ (0 < zp ∧ r < 0) := fun h3 => h ⟨h3.1, by linarith⟩
    refine ⟨fun _ => hn, fun _ => ?_⟩
    rcases sgn_cases zp with ⟨a, ha⟩ | ⟨a, ha⟩
    · by_cases hz : zp = 0
      · subst hz
        rw [abs_zero, abs_of_nonpos h1, abs_of_nonpos (by linarith : zg ≤ 0)]
        rw [abs_of_nonpos (by linarith)]; ring
      · have hp : 0 < zp := lt_of_le_of_ne a (Ne.symm hz)
        have hb : 0 ≤ zg := by
          by_contra hc
          exact h ⟨hp, not_le.mp hc⟩
        rw [ha, abs_of_nonneg hb, abs_of_nonneg (by linarith : 0 ≤ r), abs_of_nonneg (by linarith)]; ring
    · rw [ha, abs_of_neg (by linarith : r < 0), abs_of_neg (by linarith : zg < 0), abs_of_nonpos (by linarith)]
      ring

example : boring 81 = true ∧ (2 : ℚ) ≤ 10 ∧ (-20 : ℚ) ≤ 2 ∧ drill (10 : ℚ) (-20) 2 .absolute 81 .g98 = (22, 38) := by
  refine ⟨by decide, by norm_num, by norm_num, ?_⟩
  decide +kernel

/-- Violated: from Z10, reference level -2, bottom -20 the rapid distance is 38 instead of 42. -/
theorem C62_violated_negative_R :
    drill (10 : ℚ) (-20) (-2) .absolute 81 .g98 = (18, 38) ∧ rapid true (10 : ℚ) (-2) (-20) = 42 := by
  constructor <;> decide +kernel

/-- Depth given as distance from the reference level, G99: right. -/
theorem C62_incremental_depth_g99 {zp r d : K} {g : Int} (hg : boring g = true) (h1 : r ≤ zp) (h2 : 0 ≤ d) :
    drill zp d r .incremental g .g99 = (work r (r - d), rapid false zp r (r - d)) := by
  unfold drill
  rw [if_pos hg]
  show ((d, zp - r + d) : K × K) = _
  simp only [work, rapid, travel, add_zero, lastLevel, Bool.false_eq_true, if_false]
  rw [show r - (r - d) = d by ring, show r - d - r = -d by ring, abs_neg, abs_of_nonneg h2,
    abs_of_nonneg (by linarith : 0 ≤ zp - r)]

/-- Depth given as distance from the reference level, G98: right only if the cycle begins at the reference
level. -/
theorem C62_incremental_depth_g98_iff_partial {zp r d : K} {g : Int} (hg : boring g = true) (h1 : r ≤ zp) (h2 : 0 ≤ d) :
    drill zp d r .incremental g .g98 = (work r (r - d), rapid true zp r (r - d)) ↔ zp = r := by
  unfold drill
  rw [if_pos hg]
  show ((2 * |d| - (zp - r + |d|), zp - r + |d|) : K × K) = _ ↔ _
  simp only [work, rapid, travel, add_zero, lastLevel, if_true]
  rw [show r - (r - d) = d by ring, abs_of_nonneg h2,
    abs_of_nonneg (by linarith : 0 ≤ zp - r), abs_of_nonpos (by linarith : r - d - zp ≤ 0)]
  constructor
  · intro h
    have := congrArg Prod.fst h
    simp only at this
    linarith
  · rintro rfl
    ext <;> simp only <;> ring

/-- Violated: a shallow hole below a high initial level *reduces* the work path. -/
theorem C62_violated_negative_work : drill (10 : ℚ) 3 2 .incremental 81 .g98 = (-5, 11) := by decide +kernel

/-- Tapping (G74, G84), absolute: right for all levels. -/
theorem C62_tapping (zp r zg : K) {g : Int} {ret : Ret} (hg : tapping g = true) :
    drill zp zg r .absolute g ret = (tapWork r zg, tapRapid (isG98 ret) zp r) := by
  have hb : boring g = false := by
    by_contra h
    simp only [Bool.not_eq_false] at h
    unfold tapping at hg; unfold boring at h
    simp only [List.mem_cons, List.not_mem_nil, or_false, decide_eq_true_eq] at hg h
    omega
  unfold drill
  rw [hb, hg]
  simp only [Bool.false_eq_true, if_false, if_true]
  cases ret <;> simp only [tapWork, tapRapid, travel, lastLevel, isG98, add_zero, if_true, if_false,
    Bool.false_eq_true, sub_self, abs_zero]
  · rw [abs_sub_comm r zg, abs_sub_comm zp r]; ext <;> simp only <;> ring
  · rw [abs_sub_comm r zg, abs_sub_comm zp r]; ext <;> simp only <;> ring

example : tapping 84 = true ∧ drill (10 : ℚ) (-20) 2 .absolute 84 .g98 = (44, 16) := by
  constructor
  · decide
  · decide +kernel

/-- The same hole in incremental mode (G91: reference level from the initial level, bottom from the
reference level): plain drilling, both directions downwards. -/
theorem C62_G91 {zp r zg : K} {g : Int} {ret : Ret} (hg : boring g = true) (h1 : r ≤ zp) (h2 : zg ≤ r) :
    drillIncr (zg - r) (r - zp) g ret = (work r zg, rapid (isG98 ret) zp r zg) := by
  unfold drillIncr
  rw [if_pos hg]
  have e1 : |zg - r| = r - zg := by rw [abs_of_nonpos (by linarith)]; ring
  have e2 : |r - zp| = zp - r := by rw [abs_of_nonpos (by linarith)]; ring
  cases ret <;> simp only [work, rapid, travel, lastLevel, isG98, add_zero, if_true, if_false,
    Bool.false_eq_true, e1, e2]
  · rw [abs_of_nonneg (by linarith : 0 ≤ r - zg), abs_of_nonneg (by linarith : 0 ≤ zp - r),
      abs_of_nonpos (by linarith : zg - zp ≤ 0)]
    ext <;> simp only; ring
  · rw [abs_of_nonneg (by linarith : 0 ≤ r - zg), abs_of_nonneg (by linarith : 0 ≤ zp - r)]
    ext <;> simp only; ring

/-- Tapping in incremental mode: right with return to the initial level; violated with return to the
reference level, where the approach is forgotten. -/
theorem C62_G91_tapping_partial (zp r zg : K) {g : Int} (hg : tapping g = true) :
    drillIncr (zg - r) (r - zp) g .g98 = (tapWork r zg, tapRapid true zp r) ∧
    (drillIncr (zg - r) (r - zp) g .g99 = (tapWork r zg, tapRapid false zp r) ↔ r = zp) := by
  have hb : boring g = false := by
    by_contra h
    simp only [Bool.not_eq_false] at h
    unfold tapping at hg; unfold boring at h
    simp only [List.mem_cons, List.not_mem_nil, or_false, decide_eq_true_eq] at hg h
    omega
  unfold drillIncr
  rw [hb, hg]
  simp only [Bool.false_eq_true, if_false, if_true, tapWork, tapRapid, travel, lastLevel, add_zero, sub_self,
    abs_zero]
  constructor
  · rw [abs_sub_comm r zg, abs_sub_comm zp r]; ext <;> simp only <;> ring
  · rw [abs_sub_comm r zg]
    constructor
    · intro h
      have := congrArg Prod.snd h
      simp only at this
      have := abs_eq_zero.mp this.symm
      linarith
    · rintro rfl
      simp; ring

/-! ## Peck drilling -/

theorem travel_pecks (z r q : K) (hq : 0 ≤ q) (n : Nat) :
    travel z (r :: pecks r q n) = |z - r| + (n * n + n : Nat) * q := by
  induction n with
  | zero => simp [pecks, travel]
  | succ n ih =>
    have hl : travel z (r :: pecks r q (n + 1)) =
        travel z (r :: pecks r q n) + travel r [r - (n + 1 : Nat) * q, r] := by
      show travel z (r :: (pecks r q n ++ [r - (n + 1 : Nat) * q, r])) = _
      cases n with
      | zero => simp [pecks, travel]
      | succ m =>
        show travel z (r :: ((pecks r q m ++ [r - (m + 1 : Nat) * q, r]) ++ [r - (m + 1 + 1 : Nat) * q, r])) = _
        have := travel_append z (r :: (pecks r q m ++ [r - (m + 1 : Nat) * q])) [r - (m + 1 + 1 : Nat) * q, r] r
        simp only [List.cons_append, List.append_assoc, List.nil_append] at this ⊢
        rw [this]
        congr 2
    rw [hl, ih]
    have h0 : 0 ≤ ((n + 1 : Nat) : K) * q := mul_nonneg (Nat.cast_nonneg _) hq
    simp only [travel, add_zero]
    rw [show r - (r - ((n + 1 : Nat) : K) * q) = ((n + 1 : Nat) : K) * q by ring,
      show r - ((n + 1 : Nat) : K) * q - r = -(((n + 1 : Nat) : K) * q) by ring, abs_neg, abs_of_nonneg h0]
    push_cast
    ring

variable [FloorRing K]

theorem floorDiv_natFloor (d q : K) (hd : 0 ≤ d) (hq : 0 < q) : floorDiv d q = (⌊d / q⌋₊ : Int) := by
  unfold floorDiv
  rw [Int.natCast_floor_eq_floor (by positivity)]

theorem fmod_nonneg_eq (d q : K) (hd : 0 ≤ d) (hq : 0 < q) : fmod d q = d - q * (⌊d / q⌋₊ : K) := by
  unfold fmod
  rw [if_pos (by positivity)]
  have := floorDiv_natFloor d q hd hq
  unfold floorDiv at this
  rw [this]; simp

/-- Peck drilling (G83): work and rapid distance together are the distance of the tool that goes down in
pecks of Q, each from and back to the reference level, with a last one for the rest.  The number of
pecks is only required to fit into the machine integer the calculator uses. -/
theorem C62_peck_total {ε : Type} {zp r zg q : K} {ret : Ret} (hq : 0 < q) (h2 : zg ≤ r)
    (hn : fitsInt (floorDiv (r - zg) q * floorDiv (r - zg) q + floorDiv (r - zg) q)) :
    ∃ w v, drillQ (ε := ε) zp zg r q .absolute 83 ret = .ok (some w, some v) ∧
      w + v = travel zp (peckHeights (isG98 ret) zp r q (r - zg) ⌊(r - zg) / q⌋₊) := by
  have hd : 0 ≤ r - zg := by linarith
  have hdr : drillQ (ε := ε) zp zg r q .absolute 83 ret = peck (r - zg) q (peckLin (r - zg) q) |zp - r| ret := by
    unfold drillQ
    simp [hq.ne', abs_of_nonneg hd]
  rw [hdr]
  unfold peck
  simp only [hn, if_true]
  refine ⟨_, _, rfl, ?_⟩
  rw [floorDiv_natFloor _ _ hd hq, fmod_nonneg_eq _ _ hd hq]
  set n := ⌊(r - zg) / q⌋₊ with hnn
  have hrest : (0 < r - zg - q * (n : K)) ↔ (n : K) * q < r - zg := by
    constructor <;> intro h <;> nlinarith
  have htail : ∀ (l : List K) (t : List K), (∃ a, l = a ++ [r]) →
      travel zp (l ++ t) = travel zp l + travel r t := by
    rintro l t ⟨a, rfl⟩
    rw [List.append_assoc, List.singleton_append, travel_append]
  have hends : ∃ a, (r :: pecks r q n) = a ++ [r] := by
    cases n with
    | zero => exact ⟨[], rfl⟩
    | succ m => exact ⟨r :: (pecks r q m ++ [r - (m + 1 : Nat) * q]), by simp [pecks]⟩
  have hpk := travel_pecks zp r q hq.le n
  have hlast : travel r [lastLevel (isG98 ret) zp r] = (retFactor ret - 1) * |zp - r| := by
    cases ret
    · simp [travel, lastLevel, isG98, retFactor, abs_sub_comm]; ring
    · simp [travel, lastLevel, isG98, retFactor]
  unfold peckHeights
  by_cases hc : (n : K) * q < r - zg
  · rw [if_pos (hrest.mpr hc), if_pos hc]
    have e : [r] ++ pecks r q n ++ [r - (r - zg), r] ++ [lastLevel (isG98 ret) zp r] =
        (r :: pecks r q n) ++ ([r - (r - zg)] ++ r :: [lastLevel (isG98 ret) zp r]) := by simp
    rw [e, htail _ _ hends, travel_append, hpk, hlast]
    simp only [List.singleton_append, travel, add_zero]
    rw [show r - (r - (r - zg)) = r - zg by ring, show r - (r - zg) - r = -(r - zg) by ring, abs_neg,
      abs_of_nonneg hd]
    push_cast
    ring
  · rw [if_neg (fun h => hc (hrest.mp h)), if_neg hc]
    have e : [r] ++ pecks r q n ++ [] ++ [lastLevel (isG98 ret) zp r] =
        (r :: pecks r q n) ++ [lastLevel (isG98 ret) zp r] := by simp
    rw [e, htail _ _ hends, hpk, hlast]
    push_cast
    ring

example : fitsInt (floorDiv ((2 : ℚ) - (-20)) 5 * floorDiv ((2 : ℚ) - (-20)) 5 + floorDiv ((2 : ℚ) - (-20)) 5) := by
  decide +kernel

/-- A peck hole programmed absolutely or incrementally has the same distances. -/
theorem C62_peck_G91 {ε : Type} (F : Fns K) {zp r zg q : K} {ret : Ret} (hq : 0 < q) (h2 : zg ≤ r) :
    drillQIncr (ε := ε) F (zg - r) (r - zp) q 83 ret = drillQ zp zg r q .absolute 83 ret := by
  have hd : 0 ≤ r - zg := by linarith
  have e1 : |zg - r| = r - zg := by rw [abs_sub_comm, abs_of_nonneg hd]
  unfold drillQIncr drillQ
  simp only [show ((83 : Int) = 87) = False by simp, show ((83 : Int) = 76) = False by simp,
    show ((83 : Int) = 73) = False by simp, if_false, if_true, hq.ne', e1, abs_of_nonneg hd]
  have hl : chipLin (r - zg) q = peckLin (r - zg) q := by
    unfold chipLin peckLin
    rw [floorDiv_natFloor _ _ hd hq, fmod_nonneg_eq _ _ hd hq]
    push_cast
    ring
  rw [hl, abs_sub_comm r zp]

/-- Without Q the peck count is a conversion of an infinity to `int`: undefined (violated). -/
theorem C62_violated_Q0 (zp zg r : K) (d : Depth) (ret : Ret) :
    drillQ (ε := Unit) zp zg r 0 d 83 ret = .ub := by
  unfold drillQ
  simp

/-- Violated: chip breaking (G73), boring (G76) and back boring (G87) of the same hole differ between
absolute and incremental mode. -/
theorem C62_violated_modes (F : Fns ℚ) :
    drillQ (ε := Unit) (10 : ℚ) (-20) 2 5 .absolute 73 .g98 = .ok (some 26, some 38) ∧
    drillQIncr (ε := Unit) F (-22 : ℚ) (-8) 5 73 .g98 = .ok (some 26, some 42) ∧
    drillQ (ε := Unit) (10 : ℚ) (-20) 2 1 .absolute 76 .g98 = .ok (some 22, some 40) ∧
    drillQIncr (ε := Unit) F (-22 : ℚ) (-8) 1 76 .g98 = .ok (some 22, some 32) := by
  refine ⟨?_, ?_, ?_, ?_⟩
  · decide +kernel
  · show Out.ok (some (chipLin |(-22 : ℚ)| 5), some (retFactor .g98 * |(-8 : ℚ)| + |(-22 : ℚ)| + 5 / 5 * (floorDiv |(-22 : ℚ)| 5 : ℚ))) = _
    decide +kernel
  · decide +kernel
  · show Out.ok (some |(-22 : ℚ)|, some (|(-8 : ℚ)| + |(-22 : ℚ)| + 2 * 1)) = _
    decide +kernel

end NC.Props
