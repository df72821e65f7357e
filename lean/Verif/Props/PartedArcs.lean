import Verif.Props.Back
import Verif.Spec.Parted

/-!
# C138: an arc may be made in pieces
-/

namespace NC.Props
open NC NC.Path NC.Ver NC.AttrPath NC.Spec.Sim NC.Spec.Geo Real

local notation "RF" => realFns

/-- Two arcs one after the other are an arc. -/
theorem arc_joined {s : Sense} {c p q t : ℝ × ℝ} {r φ ψ : ℝ} (h : IsArc s c r φ p q) (h' : IsArc s c r ψ q t) (hs : φ + ψ ≤ 2 * π) :
    IsArc s c r (φ + ψ) p t := by
  obtain ⟨h1, h2, h3, α, rfl, e⟩ := h
  obtain ⟨_, h2', h3', β, e', rfl⟩ := h'
  have hq := e.symm.trans e'
  have hc : cos β = cos (α + s.sgn * φ) := by
    have := congrArg Prod.fst hq
    dsimp only at this
    exact mul_left_cancel₀ h1.ne' (by linarith)
  have hsn : sin β = sin (α + s.sgn * φ) := by
    have := congrArg Prod.snd hq
    dsimp only at this
    exact mul_left_cancel₀ h1.ne' (by linarith)
  refine ⟨h1, by linarith, hs, α, rfl, ?_⟩
  rw [show α + s.sgn * (φ + ψ) = (α + s.sgn * φ) + s.sgn * ψ by ring, cos_add (α + s.sgn * φ), sin_add (α + s.sgn * φ), ← hc, ← hsn, ← cos_add,
    ← sin_add]

/-- An arc that ends where it begins is a full circle. -/
theorem arc_closed {s : Sense} {c p : ℝ × ℝ} {r φ : ℝ} (h : IsArc s c r φ p p) : φ = 2 * π := by
  obtain ⟨h1, h2, h3, α, e, e'⟩ := h
  have hq := e.symm.trans e'
  have hc : cos (α + s.sgn * φ) = cos α := by
    have := congrArg Prod.fst hq
    dsimp only at this
    exact mul_left_cancel₀ h1.ne' (by linarith)
  have hs : sin (α + s.sgn * φ) = sin α := by
    have := congrArg Prod.snd hq
    dsimp only at this
    exact mul_left_cancel₀ h1.ne' (by linarith)
  have h4 : cos (s.sgn * φ) = 1 := by
    have := cos_sub (α + s.sgn * φ) α
    rw [show α + s.sgn * φ - α = s.sgn * φ by ring, hc, hs] at this
    rw [this]
    linarith [sin_sq_add_cos_sq α]
  have h5 : cos φ = 1 := by
    cases s
    · simpa [Sense.sgn] using h4
    · simpa [Sense.sgn] using h4
  obtain ⟨n, hn⟩ := (cos_eq_one_iff φ).mp h5
  have hp := Real.pi_pos
  have n1 : 0 < n := by
    by_contra k
    have : (n : ℝ) ≤ 0 := by exact_mod_cast not_lt.mp k
    nlinarith
  have n2 : n < 2 := by
    by_contra k
    have : (2 : ℝ) ≤ n := by exact_mod_cast not_lt.mp k
    nlinarith
  have : n = 1 := by omega
  rw [← hn, this]
  norm_num

/-- The pieces together are the arc to the last point. -/
theorem parted_arc {s : Sense} {c p : ℝ × ℝ} {r φ : ℝ} {l : List (ℝ × ℝ)} (h : Parted s c r φ p l) :
    0 < φ ∧ (φ ≤ 2 * π → ∀ q, l.getLast? = some q → IsArc s c r φ p q) := by
  induction h with
  | last ha _ =>
    refine ⟨ha.2.1, ?_⟩
    intro _ q e
    cases e
    exact ha
  | @piece φ ψ p q l ha hp hl ih =>
    refine ⟨by linarith [ha.2.1, ih.1], ?_⟩
    intro hs q' e
    have hne : l ≠ [] := by cases hl <;> simp
    rw [List.getLast?_cons_of_ne_nil hne] at e
    exact arc_joined ha (ih.2 (by linarith [ha.2.1]) q' e) hs

/-- The motions from point to point. -/
def piecesOf (s : Sense) (c : ℝ × ℝ) : ℝ × ℝ → List (ℝ × ℝ) → List Leg
  | _, [] => []
  | p, q :: l => .centre s c p q :: piecesOf s c q l

/-- From each point to the next the distance along an axis is at least the tolerance. -/
def Spaced : ℝ × ℝ → List (ℝ × ℝ) → Prop
  | _, [] => True
  | p, q :: l => (tol ≤ |p.1 - q.1| ∨ tol ≤ |p.2 - q.2|) ∧ Spaced q l

/-- **C138, pieces.** However an arc is made in pieces of at most half a turn, what is counted for the pieces together is the length of the arc. -/
theorem C138_pieces {s : Sense} {c p : ℝ × ℝ} {r φ : ℝ} {l : List (ℝ × ℝ)} (h : Parted s c r φ p l) (ht : tol ≤ (π - 1) * r) (hs : Spaced p l) :
    ((piecesOf s c p l).map Leg.len).sum = r * φ := by
  induction h with
  | last ha hp =>
    have : Leg.len (.centre s c _ _) = _ := (C64_arc_exact_iff_partial ha ht hs.1).mpr (.inl hp)
    simp [piecesOf, this]
  | piece ha hp _ ih =>
    have : Leg.len (.centre s c _ _) = _ := (C64_arc_exact_iff_partial ha ht hs.1).mpr (.inl hp)
    simp only [piecesOf, List.map_cons, List.sum_cons, this, ih hs.2]
    ring

/-- **C138, programs.** Two accepted programs make the same motions except that the second makes an arc of the first in pieces of at most half
a turn: they add the same to the path exactly if the arc is at most half a turn, or a full circle, or its ends lie inside different
quadrants about the centre. -/
theorem C138_program_iff_partial {cf : Cfg ℝ} (hc : WF cf) (hx : AxesOk cf) (hm : cf.mtype = .other) (hauto : cf.autoRapid = false) (inch : Inch)
    {q q' : Prog} {p p' : St ℝ × MacroMap ℚ} {before after : List Leg} {s : Sense} {c P Q : ℝ × ℝ} {r φ : ℝ} {l : List (ℝ × ℝ)}
    (h : MovesAlong cf inch q p (before ++ [.centre s c P Q] ++ after)) (h' : MovesAlong cf inch q' p' (before ++ piecesOf s c P l ++ after))
    (hl : Parted s c r φ P l) (hQ : l.getLast? = some Q) (hφ : φ ≤ 2 * π) (ht : tol ≤ (π - 1) * r) (hs : Spaced P l)
    (hd : P = Q ∨ tol ≤ |P.1 - Q.1| ∨ tol ≤ |P.2 - Q.2|)
    (hp : Inv p.1) (hp' : Inv p'.1) (hr : p.1.autoRapid = false) (hr' : p'.1.autoRapid = false) {a : ℝ}
    (hA : p.1.path.total = some a) (hA' : p'.1.path.total = some a)
    (hok : (Sml.run RF cf inch q p).2 = .ok ()) (hok' : (Sml.run RF cf inch q' p').2 = .ok ()) :
    (Sml.run RF cf inch q' p').1.1.path.total = (Sml.run RF cf inch q p).1.1.path.total ↔
      φ ≤ π ∨ P = Q ∨ DifferentQuadrants (P.1 - c.1, P.2 - c.2) (Q.1 - c.1, Q.2 - c.2) := by
  rw [(moves_total hc hx hm hauto inch h hp hr hA hok).1, (moves_total hc hx hm hauto inch h' hp' hr' hA' hok').1]
  have ha := (parted_arc hl).2 hφ Q hQ
  simp only [List.map_append, List.sum_append, C138_pieces hl ht hs, List.map_cons, List.map_nil, List.sum_cons, List.sum_nil, add_zero,
    Option.some.injEq]
  have e : Leg.len (.centre s c P Q) = r * φ ↔ φ ≤ π ∨ P = Q ∨ DifferentQuadrants (P.1 - c.1, P.2 - c.2) (Q.1 - c.1, Q.2 - c.2) := by
    rcases hd with rfl | hd
    · have hf : φ = 2 * π := arc_closed ha
      have : Leg.len (.centre s c P P) = 360 / 180 * π * r :=
        (arc_small ha).2 (by rw [tiny_iff ha.1.le]; linarith) (by unfold samePoint; simp [tol_pos])
      rw [this, hf]
      exact ⟨fun _ => .inr (.inl rfl), fun _ => by ring⟩
    · have hne : P ≠ Q := by
        rintro rfl
        have := tol_pos
        simp at hd
        linarith
      rw [show Leg.len (.centre s c P Q) = r * φ ↔ _ from C64_arc_exact_iff_partial ha ht hd]
      simp [hne]
  rw [← e]
  constructor <;> intro k <;> linarith

/-- The motions from point to point, by the radius. -/
def piecesByRadius (r : ℝ) : ℝ × ℝ → List (ℝ × ℝ) → List Leg
  | _, [] => []
  | p, q :: l => .radius r p q :: piecesByRadius r q l

theorem pieces_radius {s : Sense} {c p : ℝ × ℝ} {r φ : ℝ} {l : List (ℝ × ℝ)} (h : Parted s c r φ p l) (ht : tol ≤ (π - 1) * r) (hs : Spaced p l) :
    ((piecesByRadius r p l).map Leg.len).sum = r * φ := by
  induction h with
  | last ha hp =>
    have : Leg.len (.radius r _ _) = _ := (C64_arc_R ha ht hs.1).1 hp
    simp [piecesByRadius, this]
  | piece ha hp _ ih =>
    have : Leg.len (.radius r _ _) = _ := (C64_arc_R ha ht hs.1).1 hp
    simp only [piecesByRadius, List.map_cons, List.sum_cons, this, ih hs.2]
    ring

/-- **C138, arcs by their radius.** There is no exception if the arc is programmed by its radius (negative if it is more than half a turn), in
one block or in pieces. -/
theorem C138_radius_partial {cf : Cfg ℝ} (hc : WF cf) (hx : AxesOk cf) (hm : cf.mtype = .other) (hauto : cf.autoRapid = false) (inch : Inch)
    {q q' : Prog} {p p' : St ℝ × MacroMap ℚ} {before after : List Leg} {s : Sense} {c P Q : ℝ × ℝ} {r φ : ℝ} {l : List (ℝ × ℝ)}
    (h : MovesAlong cf inch q p (before ++ [.radius (if φ ≤ π then r else -r) P Q] ++ after))
    (h' : MovesAlong cf inch q' p' (before ++ piecesByRadius r P l ++ after))
    (hl : Parted s c r φ P l) (hQ : l.getLast? = some Q) (hφ : φ < 2 * π) (ht : tol ≤ (π - 1) * r) (hs : Spaced P l)
    (hd : tol ≤ |P.1 - Q.1| ∨ tol ≤ |P.2 - Q.2|)
    (hp : Inv p.1) (hp' : Inv p'.1) (hr : p.1.autoRapid = false) (hr' : p'.1.autoRapid = false) {a : ℝ}
    (hA : p.1.path.total = some a) (hA' : p'.1.path.total = some a)
    (hok : (Sml.run RF cf inch q p).2 = .ok ()) (hok' : (Sml.run RF cf inch q' p').2 = .ok ()) :
    (Sml.run RF cf inch q' p').1.1.path.total = (Sml.run RF cf inch q p).1.1.path.total := by
  rw [(moves_total hc hx hm hauto inch h hp hr hA hok).1, (moves_total hc hx hm hauto inch h' hp' hr' hA' hok').1]
  have ha := (parted_arc hl).2 hφ.le Q hQ
  have e : Leg.len (.radius (if φ ≤ π then r else -r) P Q) = r * φ := by
    by_cases k : φ ≤ π
    · rw [if_pos k]
      exact (C64_arc_R ha ht hd).1 k
    · rw [if_neg k]
      exact (C64_arc_R ha ht hd).2 (not_le.mp k).le hφ
  simp only [List.map_append, List.sum_append, pieces_radius hl ht hs, List.map_cons, List.map_nil, List.sum_cons, List.sum_nil, add_zero, e]

/-- **C138 fails for some arcs of more than half a turn.** Three quarters about the origin from (1, 0) to (0, -1) are counted with one quarter,
made in two pieces with three. -/
theorem C138_violated_three_quarters :
    Parted .ccw (0, 0) 1 (3 * π / 2) (1, 0) [(-1, 0), (0, -1)] ∧ Leg.len (.centre .ccw (0, 0) (1, 0) (0, -1)) = π / 2 ∧
      ((piecesOf .ccw (0, 0) (1, 0) [(-1, 0), (0, -1)]).map Leg.len).sum = 3 * π / 2 := by
  have hp := Real.pi_gt_three
  have h1 : IsArc .ccw (0, 0) 1 π (1, 0) (-1, 0) := by
    refine arc_of (by norm_num) (by linarith) (by linarith) (by norm_num) ?_ ?_ <;> simp [Sense.sgn]
  have h2 : IsArc .ccw (0, 0) 1 (π / 2) (-1, 0) (0, -1) := by
    refine arc_of (by norm_num) (by linarith) (by linarith) (by norm_num) ?_ ?_ <;> simp [Sense.sgn]
  have h3 : Parted .ccw (0, 0) 1 (3 * π / 2) (1, 0) [(-1, 0), (0, -1)] := by
    have := Parted.piece h1 le_rfl (Parted.last h2 (by linarith))
    rwa [show π + π / 2 = 3 * π / 2 by ring] at this
  have h4 : Spaced (1, 0) [(-1, 0), (0, -1)] := by
    refine ⟨.inl ?_, .inl ?_, trivial⟩ <;> norm_num [tol]
  refine ⟨h3, ?_, ?_⟩
  · have := C64_violated_three_quarters.2
    show arcIJ RF 1 0 0 (-1) (0 - 1) (0 - 0) 3 = π / 2
    simpa using this
  · rw [C138_pieces h3 (by unfold tol; linarith) h4, one_mul]

section
open SimDemo

/-- Half a turn by one block and by two, with the functions of C127. -/
def inOne : Prog := [(1, [w c!"G" c!"1", w c!"X" c!"5", w c!"Y" c!"0", w c!"F" c!"100"]),
  (2, [w c!"G" c!"3", wn c!"X" c!"5", w c!"Y" c!"0", wn c!"I" c!"5", w c!"J" c!"0"])]
def inParts : Prog := [(1, [w c!"G" c!"1", w c!"X" c!"5", w c!"Y" c!"0", w c!"F" c!"100"]),
  (2, [w c!"G" c!"3", w c!"X" c!"0", w c!"Y" c!"5", wn c!"I" c!"5", w c!"J" c!"0"]),
  (3, [w c!"G" c!"3", wn c!"X" c!"5", w c!"Y" c!"0", w c!"I" c!"0", wn c!"J" c!"5"])]

/-- Both programs are accepted, end at the same place and add the same. -/
example :
    let e := Sml.run quarters mill false inOne (initial mill, [])
    let e' := Sml.run quarters mill false inParts (initial mill, [])
    e.2 = .ok () ∧ e'.2 = .ok () ∧ pos e.1.1 c!"X" = some (-5) ∧ pos e'.1.1 c!"X" = some (-5) ∧
      (∃ L, 20 < L ∧ e.1.1.path.total = some L) ∧ e'.1.1.path.total = e.1.1.path.total := by
  refine ⟨by decide +kernel, by decide +kernel, by decide +kernel, by decide +kernel,
    ⟨((Sml.run quarters mill false inOne (initial mill, [])).1.1.path.total).getD 0, by decide +kernel, by decide +kernel⟩, by decide +kernel⟩

/-- The case of `C138_program_iff_partial` for the half turn above: the points, the sweep and the distances. -/
example : Parted .ccw (0, 0) 5 π (5, 0) [(0, 5), (-5, 0)] ∧ Spaced (5, 0) [(0, 5), (-5, 0)] ∧ tol ≤ (π - 1) * 5 := by
  have hp := Real.pi_gt_three
  have h1 : IsArc .ccw (0, 0) 5 (π / 2) (5, 0) (0, 5) := by
    refine arc_of (by norm_num) (by linarith) (by linarith) (by norm_num) ?_ ?_ <;> simp [Sense.sgn]
  have h2 : IsArc .ccw (0, 0) 5 (π / 2) (0, 5) (-5, 0) := by
    refine arc_of (by norm_num) (by linarith) (by linarith) (by norm_num) ?_ ?_ <;> simp [Sense.sgn]
  have := Parted.piece h1 (by linarith) (Parted.last h2 (by linarith))
  refine ⟨by rwa [show π / 2 + π / 2 = π by ring] at this, ⟨.inl ?_, .inl ?_, trivial⟩, ?_⟩
  · norm_num [tol]
  · norm_num [tol]
  · unfold tol
    linarith

end
end NC.Props
