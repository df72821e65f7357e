import Verif.JsonFileProofs

/-!
# Comparing trees

For the texts of the shipped files: a computable comparison of trees, and reading with a given bound.
-/

namespace NC.JFile
open NC NC.Conf NC.Spec.JsonText

mutual

/-- Are two trees equal? -/
def same : PTree → PTree → Bool
  | .node a k, .node b m => a == b && sameL k m

/-- Are two lists of children equal? -/
def sameL : List (Str × PTree) → List (Str × PTree) → Bool
  | [], [] => true
  | (a, x) :: k, (b, y) :: m => a == b && same x y && sameL k m
  | _, _ => false

end

mutual

theorem same_eq : (p q : PTree) → same p q = true → p = q
  | .node a k, .node b m, h => by
    rw [same, Bool.and_eq_true, beq_iff_eq] at h
    rw [h.1, sameL_eq k m h.2]

theorem sameL_eq : (k m : List (Str × PTree)) → sameL k m = true → k = m
  | [], [], _ => rfl
  | (a, x) :: k, (b, y) :: m, h => by
    rw [sameL, Bool.and_eq_true, Bool.and_eq_true, beq_iff_eq] at h
    rw [h.1.1, same_eq x y h.1.2, sameL_eq k m h.2]
  | [], _ :: _, h => by rw [sameL] at h; cases h; all_goals simp
  | _ :: _, [], h => by rw [sameL] at h; cases h; all_goals simp

end

/-- Reading within a bound gives this tree. -/
def spells (t : Str) (p : PTree) : Bool :=
  match value 60000 t with
  | none => false
  | some v => same v.1 p && (skipWs v.2 == [])

/-- The bound plays no part. -/
theorem spelt {t : Str} {p : PTree} (h : spells t p = true) : readJson t = some p := by
  rw [readJson_iff]
  unfold spells at h
  split at h
  · cases h
  · rename_i v hv
    obtain ⟨q, r⟩ := v
    rw [Bool.and_eq_true, beq_iff_eq] at h
    have := same_eq _ _ h.1
    subst this
    obtain ⟨a, u, ha, hu, rfl⟩ := (value_spelt _).1 _ _ _ hv
    exact ⟨a, u, r, rfl, ha, hu, skipWs_nil h.2⟩

end NC.JFile
