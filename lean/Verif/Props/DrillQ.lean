import Verif.Props.Drill
import Mathlib.Tactic.Positivity

/-!
# C62: chip breaking, fine boring and back boring
-/

namespace NC.Props
open NC NC.Path NC.Spec.Drill

variable {K : Type} [Field K] [LinearOrder K] [IsStrictOrderedRing K] [FloorRing K]

/-- Fine boring (G76) with absolute depth: right for all levels. -/
theorem C62_fine (ε : Type) (zp zg r q : K) (ret : Ret) :
    drillQ (ε := ε) zp zg r q .absolute 76 ret = .ok (some (fineWork r zg), some (fineRapid (isG98 ret) zp r zg q)) := by
  unfold drillQ fineWork fineRapid
  simp only [show ((76 : Int) = 87) = False by simp, if_false, if_true]
  cases ret <;> simp only [travel, lastLevel, isG98, if_true, Bool.false_eq_true, if_false, add_zero] <;>
    rw [abs_sub_comm r zg, abs_sub_comm zp r] <;> congr 3 <;> ring

/-- Fine boring with the depth below the reference level: right. -/
theorem C62_fine_depth (ε : Type) {zp r d q : K} (ret : Ret) (h1 : r ≤ zp) (h2 : 0 ≤ d) :
    drillQ (ε := ε) zp d r q .incremental 76 ret =
      .ok (some (fineWork r (r - d)), some (fineRapid (isG98 ret) zp r (r - d) q)) := by
  unfold drillQ fineWork fineRapid
  simp only [show ((76 : Int) = 87) = False by simp, if_false, if_true]
  have e1 : |r - (r - d)| = |d| := by rw [sub_sub_cancel]
  have e2 : |zp - r| = zp - r := abs_of_nonneg (by linarith)
  have e3 : |r - zp| = zp - r := by rw [abs_sub_comm]; exact e2
  have e4 : |r - d - zp| = zp - r + d := by rw [abs_of_nonpos (by linarith)]; ring
  have e5 : |r - d - r| = d := by rw [abs_of_nonpos (by linarith)]; ring
  cases ret <;> simp only [travel, lastLevel, isG98, if_true, Bool.false_eq_true, if_false, add_zero, e1, e2, e3, e4, e5, abs_of_nonneg h2] <;>
    congr 3 <;> ring

/-- Fine boring in incremental mode forgets one approach: right only from the reference level (violated). -/
theorem C62_fine_G91_partial (ε : Type) (F : Fns K) {zp zg r q : K} (ret : Ret) (h1 : r ≤ zp) (h2 : zg ≤ r) :
    drillQIncr (ε := ε) F (zg - r) (r - zp) q 76 ret =
      .ok (some (fineWork r zg), some (fineRapid (isG98 ret) zp r zg q)) ↔ r = zp := by
  unfold drillQIncr fineWork fineRapid
  simp only [show ((76 : Int) = 87) = False by simp, if_false, if_true]
  have e1 : |zg - r| = r - zg := by rw [abs_of_nonpos (by linarith)]; ring
  have e2 : |r - zp| = zp - r := by rw [abs_of_nonpos (by linarith)]; ring
  have e3 : |r - zg| = r - zg := abs_of_nonneg (by linarith)
  have e4 : |zp - r| = zp - r := abs_of_nonneg (by linarith)
  have e5 : |zg - zp| = zp - zg := by rw [abs_of_nonpos (by linarith)]; ring
  cases ret <;> simp only [travel, lastLevel, isG98, if_true, Bool.false_eq_true, if_false, add_zero, e1, e2, e3, e4, e5,
    Out.ok.injEq, Prod.mk.injEq, Option.some.injEq, true_and] <;> constructor <;> intro h <;> linarith

/-- Back boring (G87) with the reference level below the upper end: right. -/
theorem C62_back (ε : Type) {zp zg r q : K} (d : Depth) (ret : Ret) (h1 : r ≤ zg) (h2 : zg ≤ zp) (hq : 0 ≤ q) :
    drillQ (ε := ε) zp zg r q d 87 ret = .ok (some (backWork r zg), some (backRapid zp r zg q)) := by
  unfold drillQ backWork backRapid
  simp only [if_true, travel, add_zero]
  have e1 : |r - zg| = zg - r := by rw [abs_of_nonpos (by linarith)]; ring
  have e2 : |r - zp| = zp - r := by rw [abs_of_nonpos (by linarith)]; ring
  have e3 : |zp - r| = zp - r := abs_of_nonneg (by linarith)
  have e4 : |zg - zp| = zp - zg := by rw [abs_of_nonpos (by linarith)]; ring
  rw [e1, e2, e3, e4, abs_of_nonneg (by linarith : 0 ≤ zg - r), abs_of_nonneg (by linarith)]
  congr 3
  ring

/-- Back boring in incremental mode is computed as if the tool moved aside and up at once: for a hole of 4 with Q3 from
a reference level 10 below it reports 34 instead of 28 rapid (violated). -/
theorem C62_violated_back_G91 (F : Fns ℚ) (h25 : F.sqrt 25 = 5) :
    drillQIncr (ε := Unit) F (4 : ℚ) (-10) 3 87 .g98 = .ok (some (backWork (-10) (-6)), some 34) ∧
    backRapid (0 : ℚ) (-10) (-6) 3 = 28 := by
  constructor
  · have e : drillQIncr (ε := Unit) F (4 : ℚ) (-10) 3 87 .g98 = .ok (some |4|, some |2 * |(-10)| + 3 * 3 + F.sqrt (3 ^ 2 + 4 ^ 2)|) := rfl
    rw [e, show (3 : ℚ) ^ 2 + 4 ^ 2 = 25 by norm_num, h25]
    decide +kernel
  · decide +kernel

/-- The number of bites of `q` that make a depth. -/
def bites (depth q : K) : Nat := ⌈depth / q⌉₊

theorem bites_floor {depth q : K} (hd : 0 < depth) (hq : 0 < q) :
    ((⌊depth / q⌋₊ = bites depth q - 1 ↔ 0 < fmod depth q) ∧ (fmod depth q = 0 → ⌊depth / q⌋₊ = bites depth q)) ∧
      0 ≤ fmod depth q := by
  have hx : 0 < depth / q := div_pos hd hq
  have hf := fmod_nonneg_eq depth q hd.le hq
  have hfl := Nat.floor_le hx.le
  have hmul : fmod depth q = q * (depth / q - (⌊depth / q⌋₊ : K)) := by
    rw [hf]; field_simp
  have h0 : 0 ≤ fmod depth q := by
    rw [hmul]; exact mul_nonneg hq.le (by linarith)
  have hb : 0 < bites depth q := Nat.ceil_pos.mpr hx
  have heq0 : fmod depth q = 0 → ⌊depth / q⌋₊ = bites depth q := by
    intro h
    rw [hmul] at h
    have h1 : depth / q - (⌊depth / q⌋₊ : K) = 0 := by
      rcases mul_eq_zero.mp h with h | h
      · exact absurd h hq.ne'
      · exact h
    have h2 : depth / q = (⌊depth / q⌋₊ : K) := by linarith
    unfold bites
    conv_rhs => rw [h2]
    rw [Nat.ceil_natCast]
  refine ⟨⟨⟨?_, ?_⟩, heq0⟩, h0⟩
  · intro h
    rcases lt_or_eq_of_le h0 with h1 | h1
    · exact h1
    · have := heq0 h1.symm
      omega
  · intro h
    have hlt : (⌊depth / q⌋₊ : K) < depth / q := by
      rw [hmul] at h
      have := (mul_pos_iff_of_pos_left hq).mp h
      linarith
    have h1 : ⌊depth / q⌋₊ < bites depth q := Nat.lt_ceil.mpr hlt
    have h2 : bites depth q ≤ ⌊depth / q⌋₊ + 1 := Nat.ceil_le_floor_add_one _
    omega

/-- Chip breaking in incremental mode and peck drilling: the feed distance, over again by a fifth of Q for each further
bite, is right unless the last bite is a whole Q; then one bite too many is counted (violated). -/
theorem C62_bites_partial {depth q : K} (hd : 0 < depth) (hq : 0 < q) :
    (chipLin depth q = feedAgain depth (q / 5) (bites depth q) ↔ 0 < fmod depth q) ∧
    peckLin depth q = chipLin depth q ∧
    (fmod depth q = 0 → chipLin depth q = feedAgain depth (q / 5) (bites depth q + 1)) := by
  obtain ⟨⟨h1, h2⟩, h3⟩ := bites_floor hd hq
  have e : chipLin depth q = depth + (⌊depth / q⌋₊ : K) * (q / 5) := by
    unfold chipLin
    rw [floorDiv_natFloor _ _ hd.le hq]
    push_cast
    ring
  refine ⟨?_, ?_, ?_⟩
  · rw [e, ← h1]
    unfold feedAgain
    constructor
    · intro h
      have h5 : q / 5 ≠ 0 := (div_pos hq (by norm_num)).ne'
      have h6 := mul_right_cancel₀ h5 (add_left_cancel h)
      exact_mod_cast h6
    · intro h; rw [h]
  · unfold peckLin chipLin
    rw [floorDiv_natFloor _ _ hd.le hq, fmod_nonneg_eq _ _ hd.le hq]
    push_cast
    ring
  · intro h
    rw [e, h2 h]
    unfold feedAgain
    rw [Nat.add_sub_cancel]

/-- Chip breaking (G73) in incremental mode: right for all holes whose last bite is not a whole Q, with either return. -/
theorem C62_chip_G91_partial (ε : Type) (F : Fns K) {zp zg r q : K} (ret : Ret) (h1 : r ≤ zp) (h2 : zg < r) (hq : 0 < q)
    (hr : 0 < fmod (r - zg) q) :
    drillQIncr (ε := ε) F (zg - r) (r - zp) q 73 ret =
      .ok (some (feedAgain (r - zg) (q / 5) (bites (r - zg) q)),
        some (chipRapid (isG98 ret) zp r zg (q / 5) (bites (r - zg) q))) := by
  have hd : 0 < r - zg := by linarith
  have e1 : |zg - r| = r - zg := by rw [abs_of_nonpos (by linarith)]; ring
  have e2 : |r - zp| = zp - r := by rw [abs_of_nonpos (by linarith)]; ring
  have e4 : |zp - r| = zp - r := abs_of_nonneg (by linarith)
  have e5 : |zg - zp| = zp - zg := by rw [abs_of_nonpos (by linarith)]; ring
  have hb := (C62_bites_partial hd hq).1.mpr hr
  have hn := ((bites_floor hd hq).1.1.mpr hr)
  unfold drillQIncr
  simp only [show ((73 : Int) = 87) = False by simp, show ((73 : Int) = 76) = False by simp, if_false, if_true, hq.ne', e1]
  rw [hb, floorDiv_natFloor _ _ hd.le hq, hn]
  unfold chipRapid
  cases ret <;> simp only [travel, lastLevel, isG98, if_true, Bool.false_eq_true, if_false, add_zero, e1, e2, e4, e5, retFactor] <;>
    congr 3 <;> push_cast <;> ring

/-- In absolute mode the feed distance is the same, but the rapid distance lacks the gaps: it is right only for holes of
one bite (violated otherwise). -/
theorem C62_chip_partial (ε : Type) {zp zg r q : K} (ret : Ret) (h1 : r ≤ zp) (h2 : zg < r) (hq : 0 < q)
    (hr : 0 < fmod (r - zg) q) :
    ∃ v, drillQ (ε := ε) zp zg r q .absolute 73 ret = .ok (some (feedAgain (r - zg) (q / 5) (bites (r - zg) q)), some v) ∧
      v + (bites (r - zg) q - 1 : Nat) * (q / 5) = chipRapid (isG98 ret) zp r zg (q / 5) (bites (r - zg) q) := by
  have hd : 0 < r - zg := by linarith
  have e1 : |zg - r| = r - zg := by rw [abs_of_nonpos (by linarith)]; ring
  have e2 : |r - zp| = zp - r := by rw [abs_of_nonpos (by linarith)]; ring
  have e3 : |r - zg| = r - zg := abs_of_nonneg (by linarith)
  have e4 : |zp - r| = zp - r := abs_of_nonneg (by linarith)
  have e5 : |zg - zp| = zp - zg := by rw [abs_of_nonpos (by linarith)]; ring
  have hb := (C62_bites_partial hd hq).1.mpr hr
  refine ⟨retFactor ret * |r - zp| + |zg - r|, ?_, ?_⟩
  · unfold drillQ
    simp only [show ((73 : Int) = 87) = False by simp, show ((73 : Int) = 76) = False by simp, if_false, if_true, hq.ne', e3]
    rw [hb]
  · unfold chipRapid
    cases ret <;> simp only [travel, lastLevel, isG98, if_true, Bool.false_eq_true, if_false, add_zero, e1, e2, e4, e5, retFactor] <;> ring

example : 0 < fmod ((2 : ℚ) - (-20)) 5 ∧ bites ((2 : ℚ) - (-20)) 5 = 5 ∧
    drillQ (ε := Unit) (10 : ℚ) (-20) 2 5 .absolute 73 .g98 = .ok (some 26, some 38) ∧
    feedAgain ((2 : ℚ) - (-20)) (5 / 5) 5 = 26 ∧ chipRapid true (10 : ℚ) 2 (-20) (5 / 5) 5 = 42 := by
  refine ⟨by decide +kernel, ?_, by decide +kernel, by decide +kernel, by decide +kernel⟩
  unfold bites
  rw [Nat.ceil_eq_iff (by norm_num)]
  norm_num

end NC.Props
