import Verif.RotatorProofs

/-! # C18, C19: axis rotation -/

namespace NC.Props
open NC NC.Rotator NC.Spec.Rotate

/-- **C18, geometry.**  For each of the nine options, each block and each
reading `μ` of magnitudes (any function that does not look at address and
sign), the target point and the arc centre of the rotated block are those of
the original block turned by the corresponding number of quarter turns. -/
theorem C18_rotates_points (o : Opt) (μ : Dec → ℚ) (hμ : ∀ d w s, μ { d with word := w, sign := s } = μ d)
    (b : Block) :
    target μ (rotate o b) = (quarter (axisOf o))^[turns o] (target μ b) ∧
    centre μ (rotate o b) = (quarter (axisOf o))^[turns o] (centre μ b) := by
  have hX := coord_rotate o μ hμ (w := c!"X") (by decide) b
  have hY := coord_rotate o μ hμ (w := c!"Y") (by decide) b
  have hZ := coord_rotate o μ hμ (w := c!"Z") (by decide) b
  have hI := coord_rotate o μ hμ (w := c!"I") (by decide) b
  have hJ := coord_rotate o μ hμ (w := c!"J") (by decide) b
  have hK := coord_rotate o μ hμ (w := c!"K") (by decide) b
  have nn : ∀ c : Option ℚ, neg (neg c) = c := by intro c; cases c <;> simp [neg]
  cases o <;>
  · simp only [tw, table, List.find?, beq_iff_eq] at hX hY hZ hI hJ hK
    simp at hX hY hZ hI hJ hK
    simp only [target, centre, axisOf, turns, Function.iterate_succ, Function.iterate_zero, Function.comp, id, quarter,
      hX, hY, hZ, hI, hJ, hK, nn]
    exact ⟨trivial, trivial⟩

/-- A magnitude reading as required: the digits of the integer part. -/
example : ∀ d w s, (fun d : Dec => ((readNat (d.value.getD []) : ℕ) : ℚ)) { d with word := w, sign := s } =
    (fun d : Dec => ((readNat (d.value.getD []) : ℕ) : ℚ)) d := fun _ _ _ => rfl

example : rotate .z90 [.dec { word := c!"X", value := some c!"5" }, .dec { word := c!"Y", sign := some '-', value := some c!"7" }] =
    [.dec { word := c!"Y", sign := some '-', value := some c!"5" },
     .dec { word := c!"X", sign := some '-', value := some c!"7" }] := by decide

/-- Four quarter turns about the same axis restore every point. -/
theorem C18_full_turn (a : Axis) (p : Pt) : (quarter a)^[4] p = p := by
  have nn : ∀ c : Option ℚ, neg (neg c) = c := by intro c; cases c <;> simp [neg]
  cases a <;> simp [quarter, nn]

/-- **C18, frame.**  Words other than the six coordinate addresses and G are
untouched, the number of words never changes, and a rotation changes nothing of
a coordinate word but its address and sign. -/
theorem C18_frame (o : Opt) (b : Block) :
    (rotate o b).length = b.length ∧
    (∀ (i : Nat) (a : Attr), b[i]? = some a → a.word ∉ [c!"X", c!"Y", c!"Z", c!"I", c!"J", c!"K", c!"G"] →
      (rotate o b)[i]? = some a) ∧
    (∀ (i : Nat) (d : Dec), b[i]? = some (.dec d) → d.word ∈ [c!"X", c!"Y", c!"Z", c!"I", c!"J", c!"K"] →
      ∃ w s, (rotate o b)[i]? = some (.dec { d with word := w, sign := s })) := by
  refine ⟨by simp [rotate], ?_, ?_⟩
  · intro i a ha hw
    simp only [rotate, List.getElem?_map, ha, Option.map_some]
    cases a with
    | str w v => rfl
    | chr w v => rfl
    | dec d =>
      simp only [Attr.word] at hw
      simp only [visit]
      rw [visitDec_other]
      · intro hh; apply hw; simp [coordWords] at hh ⊢; tauto
      · intro hh; apply hw; simp [hh]
  · intro i d hd hw
    refine ⟨(tw o d.word).1, if (tw o d.word).2 then flipSign d.sign else d.sign, ?_⟩
    simp only [rotate, List.getElem?_map, hd, Option.map_some, visit]
    rw [visitDec_coord o hw]

/-- A word with an explicit plus (or no) sign written without it. -/
def normSign (d : Dec) : Dec := { d with sign := if d.sign = some '-' then some '-' else none }

/-- The same for a block. -/
def normSigns (b : Block) : Block :=
  b.map fun a => match a with
    | .dec d => .dec (normSign d)
    | a => a

/-- The option for `n` quarter turns (1, 2, 3). -/
def optOf : Axis → Nat → Option Opt
  | .x, 1 => some .x90
  | .x, 2 => some .x180
  | .x, 3 => some .x270
  | .y, 1 => some .y90
  | .y, 2 => some .y180
  | .y, 3 => some .y270
  | .z, 1 => some .z90
  | .z, 2 => some .z180
  | .z, 3 => some .z270
  | _, _ => none

/-- Rotation by any number of quarter turns. -/
def rotN (a : Axis) (n : Nat) (b : Block) : Block :=
  match optOf a (n % 4) with
  | some o => rotate o b
  | none => b

/-- Image of a coordinate address under `k` quarter turns, with sign change. -/
private def twN (a : Axis) (k : Nat) (w : Str) : Str × Bool :=
  match optOf a (k % 4) with
  | some o => tw o w
  | none => (w, false)

private theorem twN_compose (a : Axis) (m n : Fin 4) (w : Str) (hw : w ∈ coordWords) :
    twN a (m.val + n.val) w =
      ((twN a m.val (twN a n.val w).1).1, xor (twN a n.val w).2 (twN a m.val (twN a n.val w).1).2) := by
  have key : ∀ m n : Fin 4, ∀ w ∈ coordWords, twN a (m.val + n.val) w =
      ((twN a m.val (twN a n.val w).1).1, xor (twN a n.val w).2 (twN a m.val (twN a n.val w).1).2) := by
    cases a <;> decide +kernel
  exact key m n w hw

private theorem twN_mem (a : Axis) (k : Nat) (w : Str) (hw : w ∈ coordWords) : (twN a k w).1 ∈ coordWords := by
  unfold twN
  cases optOf a (k % 4) with
  | none => exact hw
  | some o => exact tw_mem o hw

private theorem rotN_coord (a : Axis) (k : Nat) (d : Dec) (hw : d.word ∈ coordWords) :
    rotN a k [.dec d] = [.dec { d with word := (twN a k d.word).1,
                                       sign := if (twN a k d.word).2 then flipSign d.sign else d.sign }] := by
  unfold rotN twN
  cases optOf a (k % 4) with
  | none => simp
  | some o => simp [rotate, visit, visitDec_coord o hw]

private theorem rotN_fixed (a : Axis) (k : Nat) (d : Dec) (h : ∀ o, visitDec (table o) d = d) :
    rotN a k [.dec d] = [.dec d] := by
  unfold rotN
  cases optOf a (k % 4) with
  | none => rfl
  | some o => simp [rotate, visit, h]

private def planeN (a : Axis) (k : Nat) (v : Str) : Str :=
  match optOf a (k % 4) with
  | some o => match (table o).find? (fun e => e.1 == (c!"G", v)) with
    | some e => intStr e.2.2
    | none => v
  | none => v

private theorem planeN_compose (a : Axis) (m n : Fin 4) (v : Str) (hv : v ∈ [c!"17", c!"18", c!"19"]) :
    planeN a (m.val + n.val) v = planeN a m.val (planeN a n.val v) ∧ planeN a n.val v ∈ [c!"17", c!"18", c!"19"] := by
  have key : ∀ m n : Fin 4, ∀ v ∈ [c!"17", c!"18", c!"19"],
      planeN a (m.val + n.val) v = planeN a m.val (planeN a n.val v) ∧
        planeN a n.val v ∈ [c!"17", c!"18", c!"19"] := by
    cases a <;> decide +kernel
  exact key m n v hv

private theorem rotN_plane (a : Axis) (k : Nat) (d : Dec) (hw : d.word = c!"G") (v : Str) (hd : d.value = some v)
    (hv : v ∈ [c!"17", c!"18", c!"19"]) : rotN a k [.dec d] = [.dec { d with value := some (planeN a k v) }] := by
  unfold rotN planeN
  cases optOf a (k % 4) with
  | none => simp [← hd]
  | some o =>
    have h1 : d.word ∉ coordWords := by rw [hw]; decide
    have h2 : v ∈ [c!"17", c!"18", c!"19", c!"2", c!"3"] := by
      simp at hv ⊢; tauto
    simp only [rotate, List.map_cons, List.map_nil, visit, visitDec, if_neg h1, if_pos hw, hd, if_pos h2]
    cases (table o).find? (fun e => e.1 == (c!"G", v)) with
    | none => simp [← hd]
    | some e => simp

/-- **C18, texts compose.**  For blocks without G2/G3, rotating by `n` and then
by `m` quarter turns about the same axis gives the same words as rotating by
`m + n` quarter turns (in particular 90+90 = 180, 90+180 = 270 and 90+270
restores the block), up to dropping an explicit plus sign. -/
theorem C18_compose (a : Axis) (m n : Nat) (b : Block)
    (hg : ∀ d, Attr.dec d ∈ b → d.word = c!"G" → d.value ≠ some c!"2" ∧ d.value ≠ some c!"3") :
    normSigns (rotN a m (rotN a n b)) = normSigns (rotN a (m + n) b) := by
  -- reduce to single words
  have hword : ∀ (m n : Fin 4) (x : Attr), (∀ d, x = .dec d → d.word = c!"G" → d.value ≠ some c!"2" ∧ d.value ≠ some c!"3") →
      normSigns (rotN a m (rotN a n [x])) = normSigns (rotN a (m.val + n.val) [x]) := by
    intro m n x hx
    cases x with
    | str w v => unfold rotN; cases optOf a (m.val % 4) <;> cases optOf a (n.val % 4) <;>
                   cases optOf a ((m.val + n.val) % 4) <;> rfl
    | chr w v => unfold rotN; cases optOf a (m.val % 4) <;> cases optOf a (n.val % 4) <;>
                   cases optOf a ((m.val + n.val) % 4) <;> rfl
    | dec d =>
      have hx := hx d rfl
      by_cases h1 : d.word ∈ coordWords
      · rw [rotN_coord a n d h1, rotN_coord a m _ (twN_mem a n _ h1), rotN_coord a (m.val + n.val) d h1,
          twN_compose a m n d.word h1]
        simp only [normSigns, List.map_cons, List.map_nil, normSign, List.cons.injEq, Attr.dec.injEq,
          Dec.mk.injEq, and_true, true_and]
        unfold flipSign
        cases (twN a n d.word).2 <;> cases (twN a m (twN a n d.word).1).2 <;>
          by_cases hs : d.sign = some '-' <;> simp [hs]
      · by_cases h2 : d.word = c!"G"
        · by_cases h3 : ∃ v, d.value = some v ∧ v ∈ [c!"17", c!"18", c!"19"]
          · obtain ⟨v, hd, hv⟩ := h3
            obtain ⟨p1, p2⟩ := planeN_compose a m n v hv
            rw [rotN_plane a n d h2 v hd hv, rotN_plane a m { d with value := some (planeN a n v) } h2 _ rfl p2,
              rotN_plane a (m.val + n.val) d h2 v hd hv, p1]
          · have hfix : ∀ o, visitDec (table o) d = d := by
              intro o
              unfold visitDec
              rw [if_neg h1, if_pos h2]
              cases hv : d.value with
              | none => rfl
              | some v =>
                have h4 : v ∉ [c!"17", c!"18", c!"19", c!"2", c!"3"] := by
                  intro hm
                  have := hx h2
                  rw [hv] at this
                  apply h3
                  refine ⟨v, hv, ?_⟩
                  simp at hm this ⊢
                  tauto
                simp only [if_neg h4]
            rw [rotN_fixed a n d hfix, rotN_fixed a m d hfix, rotN_fixed a _ d hfix]
        · have hfix : ∀ o, visitDec (table o) d = d := fun o => visitDec_other o h1 h2
          rw [rotN_fixed a n d hfix, rotN_fixed a m d hfix, rotN_fixed a _ d hfix]
  -- rotation works word by word
  have hcons : ∀ (a : Axis) (k : Nat) (x : Attr) (b : Block), rotN a k (x :: b) = rotN a k [x] ++ rotN a k b := by
    intro a k x b
    unfold rotN
    cases optOf a (k % 4) <;> rfl
  have hsing : ∀ (a : Axis) (k : Nat) (x : Attr), ∃ y, rotN a k [x] = [y] := by
    intro a k x
    unfold rotN
    cases optOf a (k % 4) with
    | none => exact ⟨x, rfl⟩
    | some o => exact ⟨_, rfl⟩
  have hmod : ∀ (k : Nat) (b : Block), rotN a k b = rotN a (k % 4) b := by
    intro k b; unfold rotN; rw [Nat.mod_mod]
  have hnil : ∀ k, rotN a k [] = [] := by
    intro k; unfold rotN; cases optOf a (k % 4) <;> rfl
  induction b with
  | nil => rw [hnil, hnil, hnil]
  | cons x b ih =>
    have hx := hword ⟨m % 4, Nat.mod_lt _ (by decide)⟩ ⟨n % 4, Nat.mod_lt _ (by decide)⟩ x
      (fun d hd hw => hg d (by simp [hd]) hw)
    simp only at hx
    rw [← hmod, ← hmod, hmod (m % 4 + n % 4), show (m % 4 + n % 4) % 4 = (m + n) % 4 by omega, ← hmod] at hx
    have hb := ih (fun d hd => hg d (by simp [hd]))
    obtain ⟨y, hy⟩ := hsing a n x
    rw [hcons a n x b, hy, List.singleton_append, hcons a m y, hcons a (m + n) x b]
    rw [hy] at hx
    unfold normSigns at *
    rw [List.map_append, List.map_append, hx, hb]

example : rotN .x 1 [.dec { word := c!"Y", sign := some '+', value := some c!"7" }] =
    [.dec { word := c!"Z", sign := some '-', value := some c!"7" }] := by decide

/-- **C18, planes.**  A plane selection G17/G18/G19 becomes the selection of
the plane whose perpendicular axis is the turned perpendicular axis (up to its
direction). -/
theorem C18_planes (o : Opt) (d : Dec) (v : Str) (n : Axis) (hw : d.word = c!"G") (hv : d.value = some v)
    (hn : normal v = some n) :
    ∃ v' n', rotate o [.dec d] = [.dec { d with value := some v' }] ∧ normal v' = some n' ∧
      ((quarter (axisOf o))^[turns o] (unit n) = unit n' ∨
       (quarter (axisOf o))^[turns o] (unit n) = opposite (unit n')) := by
  obtain ⟨w, asg, s, ob, mac, v0, dot, v2, cb⟩ := d
  simp only at hw hv
  subst hw; subst hv
  have hv3 : v = c!"17" ∨ v = c!"18" ∨ v = c!"19" := by
    unfold normal at hn
    split at hn <;> simp_all
  rcases hv3 with rfl | rfl | rfl <;> simp only [normal, Option.some.injEq] at hn <;> subst hn <;> cases o
  all_goals
    first
    | exact ⟨c!"17", .z, rfl, rfl, by decide⟩
    | exact ⟨c!"18", .y, rfl, rfl, by decide⟩
    | exact ⟨c!"19", .x, rfl, rfl, by decide⟩

example : normal c!"18" = some .y := rfl

/-- What the arc code must become: turning an arc keeps its sense of rotation
about the turned perpendicular axis, so the code is swapped exactly when the
perpendicular axis is turned onto a negative axis. -/
def ArcOk (o : Opt) (plane code code' : Str) : Prop :=
  ∃ n n', normal plane = some n ∧
    (((quarter (axisOf o))^[turns o] (unit n) = unit n' ∧ code' = code) ∨
     ((quarter (axisOf o))^[turns o] (unit n) = opposite (unit n') ∧ code' = swapArc code))

/-- **C19, plane G17.**  For an arc in the XY plane every rotation option
produces the correct arc code.  Missing: arcs in G18/G19 (`C19_violated`). -/
theorem C19_arcs_in_G17_partial (o : Opt) (d : Dec) (code : Str) (hw : d.word = c!"G") (hv : d.value = some code)
    (hc : code = c!"2" ∨ code = c!"3") :
    ∃ code', rotate o [.dec d] = [.dec { d with value := some code' }] ∧ ArcOk o c!"17" code code' := by
  obtain ⟨w, asg, s, ob, mac, v0, dot, v2, cb⟩ := d
  simp only at hw hv
  subst hw; subst hv
  rcases hc with rfl | rfl <;> cases o
  all_goals
    first
    | exact ⟨c!"2", rfl, .z, .x, rfl, by decide⟩
    | exact ⟨c!"2", rfl, .z, .y, rfl, by decide⟩
    | exact ⟨c!"2", rfl, .z, .z, rfl, by decide⟩
    | exact ⟨c!"3", rfl, .z, .x, rfl, by decide⟩
    | exact ⟨c!"3", rfl, .z, .y, rfl, by decide⟩
    | exact ⟨c!"3", rfl, .z, .z, rfl, by decide⟩

/-- The word `G2`. -/
def sampleG2 : Dec := { word := c!"G", value := some c!"2" }

example : sampleG2.word = c!"G" ∧ sampleG2.value = some c!"2" := ⟨rfl, rfl⟩

/-- **C19 fails, composition.**  Rotating `G2` by 90 degrees about X twice
gives `G2`, rotating it by 180 degrees gives `G3`; 90 then 270 degrees gives
`G3` instead of restoring `G2`.  The same happens about Y. -/
theorem C19_violated_composition :
    rotate .x90 (rotate .x90 [.dec sampleG2]) ≠ rotate .x180 [.dec sampleG2] ∧
    rotate .x270 (rotate .x90 [.dec sampleG2]) ≠ [.dec sampleG2] ∧
    rotate .y90 (rotate .y90 [.dec sampleG2]) ≠ rotate .y180 [.dec sampleG2] ∧
    rotate .y270 (rotate .y90 [.dec sampleG2]) ≠ [.dec sampleG2] := by decide

/-- **C19 fails, geometry.**  A clockwise arc in the ZX plane (G18) rotated by
180 degrees about Z must become counter-clockwise (its axis is reversed), but
`G2` is kept. -/
theorem C19_violated :
    rotate .z180 [.dec sampleG2] = [.dec sampleG2] ∧ ¬ ArcOk .z180 c!"18" c!"2" c!"2" := by
  refine ⟨by decide, ?_⟩
  rintro ⟨n, n', hn, h⟩
  simp [normal] at hn
  subst hn
  rcases h with ⟨h, _⟩ | ⟨_, h⟩
  · cases n' <;> revert h <;> decide
  · revert h; decide

/-- **C19, Z axis.**  About Z the arc codes compose: they are never changed. -/
theorem C19_z_axis_keeps (o : Opt) (ho : axisOf o = .z) (d : Dec) (hw : d.word = c!"G")
    (hc : d.value = some c!"2" ∨ d.value = some c!"3") : rotate o [.dec d] = [.dec d] := by
  obtain ⟨w, asg, s, ob, mac, v0, dot, v2, cb⟩ := d
  simp only at hw hc
  subst hw
  rcases hc with rfl | rfl <;> cases o <;> simp [axisOf] at ho <;> rfl

end NC.Props
