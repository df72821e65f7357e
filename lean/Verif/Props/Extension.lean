import Verif.Extension

/-!
# Reload prompts: C51
-/

namespace NC.Props
open NC NC.Ext

/-- A run of the extension from a given configuration. -/
def runExt (c : Store) (as : List Action) : Ext.St := as.foldl Ext.step ⟨c, false, 0⟩

/-- The settings of the extension. -/
def Relevant (k : Key) : Prop := ∀ n, k ≠ .other n

theorem relevant_iff (k : Key) : Relevant k ↔ k ∈ watched := by
  cases k <;> simp [Relevant, watched]

instance (k : Key) : Decidable (Relevant k) := decidable_of_iff _ (relevant_iff k).symm

/-- An action changes what is stored. -/
def Changes (c : Store) (a : Action) : Prop :=
  match a with
  | .edit t k v => c t k ≠ v
  | .toggle => c .global .pathTime ≠ some (negated (c.effective .pathTime))
  | .choose t k p => c t k ≠ some p

/-- Is a prompt due? A user's edit of a setting of the extension that changes it, and
every command of the extension. -/
def Due (c : Store) (a : Action) : Prop :=
  match a with
  | .edit _ k _ => Relevant k ∧ Changes c a
  | _ => True

instance (c : Store) (a : Action) : Decidable (Changes c a) := by
  cases a <;> simp only [Changes] <;> infer_instance
instance (c : Store) (a : Action) : Decidable (Due c a) := by
  cases a <;> simp only [Due] <;> infer_instance

/-- How many prompts are due in a history, and does every command of the
extension store something new? -/
def due : Store → List Action → Nat
  | _, [] => 0
  | c, a :: as => (if Due c a then 1 else 0) + due (stored c a) as

/-- Every command of the extension in the history stores something new. -/
def CommandsChange : Store → List Action → Prop
  | _, [] => True
  | c, a :: as => ((∃ t k v, a = .edit t k v) ∨ Changes c a) ∧ CommandsChange (stored c a) as

theorem ext_step (s : Ext.St) (a : Action) (hi : s.ignore = false)
    (hc : (∃ t k v, a = .edit t k v) ∨ Changes s.store a) :
    (Ext.step s a).store = stored s.store a ∧ (Ext.step s a).ignore = false ∧
      (Ext.step s a).prompts = s.prompts + (if Due s.store a then 1 else 0) := by
  cases a with
  | edit t k v =>
    by_cases h : s.store t k = v
    · simp [Ext.step, write, h, stored, hi, Due, Changes]
    · by_cases hw : k ∈ watched
      · simp [Ext.step, write, h, stored, hi, Due, Changes, onChange, hw, relevant_iff]
      · simp [Ext.step, write, h, stored, hi, Due, Changes, onChange, hw, relevant_iff]
  | toggle =>
    rcases hc with ⟨_, _, _, hc⟩ | hc
    · cases hc
    · simp only [Changes] at hc
      simp [Ext.step, ownUpdate, write, hc, stored, onChange, Due]
  | choose t k p =>
    rcases hc with ⟨_, _, _, hc⟩ | hc
    · cases hc
    · simp only [Changes] at hc
      simp [Ext.step, ownUpdate, write, hc, stored, onChange, Due]

/-- C51 (part): in every history in which the extension's own updates store
something new, exactly the prompts that are due are shown: one for every user
change of a watched setting and one per command.  Missing: commands that store
the value already present, see below. -/
theorem C51_prompts_partial (c : Store) (as : List Action) (h : CommandsChange c as) :
    (runExt c as).prompts = due c as := by
  have key : ∀ (as : List Action) (s : Ext.St), s.ignore = false → CommandsChange s.store as →
      (as.foldl Ext.step s).prompts = s.prompts + due s.store as := by
    intro as
    induction as with
    | nil => intro s _ _; simp [due]
    | cons a as ih =>
      intro s hi hc
      obtain ⟨h1, h2, h3⟩ := ext_step s a hi hc.1
      rw [List.foldl_cons, ih _ h2 (by rw [h1]; exact hc.2), h3, h1, due]
      omega
  have := key as ⟨c, false, 0⟩ rfl h
  simpa [runExt] using this

/-- Empty configuration. -/
def emptyStore : Store := fun _ _ => none

example : CommandsChange emptyStore
    [.choose .global .macroPath c!"a.json", .edit .workspace .logPath (some c!"l"), .toggle] :=
  ⟨Or.inr (by simp [Changes, emptyStore]), Or.inl ⟨_, _, _, rfl⟩,
    Or.inr (by simp [Changes, stored, Store.set, emptyStore, negated, Store.effective]), trivial⟩

example : due emptyStore [.choose .global .macroPath c!"a.json", .edit .workspace .logPath (some c!"l"), .toggle] = 3 := by
  decide

/-- C51 fails: if the user chooses the file that is already configured, their
next change of any watched setting shows no prompt. -/
theorem C51_violated_same_file (c : Store) (t t' : Target) (k k' : Key) (p : Str) (v : Option Str)
    (hk : c t k = some p) (_hw : Relevant k') (hv : c t' k' ≠ v) :
    (runExt c [.choose t k p, .edit t' k' v]).prompts = (runExt c [.choose t k p]).prompts ∧
    Due (stored c (.choose t k p)) (.edit t' k' v) := by
  have hs : c.set t k (some p) = c := by
    funext t'' k''
    unfold Store.set
    split
    · rename_i h; rw [h.1, h.2, hk]
    · rfl
  constructor
  · simp [runExt, Ext.step, ownUpdate, write, hk, onChange, hs, hv]
  · simp only [Due, Changes, stored, hs]
    exact ⟨_hw, hv⟩

/-- C51 fails for the toggle command as well when a workspace value hides the
global one. -/
theorem C51_violated_hidden_toggle (c : Store) (hw : c .workspace .pathTime = some c!"false")
    (hg : c .global .pathTime = some c!"true") (t : Target) (k : Key) (v : Option Str)
    (hk : Relevant k) (hv : c t k ≠ v) :
    (runExt c [.toggle, .edit t k v]).prompts = (runExt c [.toggle]).prompts ∧ Relevant k := by
  have he : negated (c.effective .pathTime) = c!"true" := by
    simp [Store.effective, hw, negated]
  have hs : c.set .global .pathTime (some c!"true") = c := by
    funext t'' k''
    unfold Store.set
    split
    · rename_i h; rw [h.1, h.2, hg]
    · rfl
  refine ⟨?_, hk⟩
  simp [runExt, Ext.step, ownUpdate, write, he, hg, onChange, hs, hv]

example : (emptyStore.set .workspace .pathTime (some c!"false")).set .global .pathTime (some c!"true") .workspace .pathTime
    = some c!"false" := by decide

/-! ## C72 -/

/-- Path and time are calculated. -/
def PathTimeOn (c : Store) : Prop := c.effective .pathTime = some c!"true"

instance (c : Store) : Decidable (PathTimeOn c) := by unfold PathTimeOn; infer_instance

/-- **C72.** If the workspace has no value of its own, the toggle command switches the calculation of path and time
on if it was off and off if it was on, whatever happened before.  Missing: a workspace value, see below. -/
theorem C72_toggle_partial (c : Store) (as : List Action)
    (hw : (runExt c as).store .workspace .pathTime = none) :
    (PathTimeOn (runExt c (as ++ [.toggle])).store ↔ ¬ PathTimeOn (runExt c as).store) ∧
    ∀ k, k ≠ .pathTime → (runExt c (as ++ [.toggle])).store.effective k = (runExt c as).store.effective k := by
  have hr : runExt c (as ++ [.toggle]) = Ext.step (runExt c as) .toggle := by simp [runExt]
  rw [hr]
  generalize runExt c as = s at *
  have hst : (Ext.step s .toggle).store = s.store.set .global .pathTime (some (negated (s.store.effective .pathTime))) := by
    simp only [Ext.step, ownUpdate, write]
    split
    · rfl
    · simp [onChange]
  rw [hst]
  constructor
  · have hn : ((s.store.set .global .pathTime (some (negated (s.store.effective .pathTime)))).effective .pathTime) =
        some (negated (s.store.effective .pathTime)) := by
      simp [Store.effective, Store.set, hw]
    unfold PathTimeOn
    rw [hn]
    by_cases h : s.store.effective .pathTime = some c!"true"
    · simp [h, negated]
    · simp [h, negated]
  · intro k hk
    simp [Store.effective, Store.set, hk]

/-- **C72, violated** if the workspace has a value: the command changes the user setting, which is hidden. -/
theorem C72_violated_workspace (c : Store) (v : Str) (hw : c .workspace .pathTime = some v) :
    (PathTimeOn (runExt c [.toggle]).store ↔ PathTimeOn c) := by
  have hst : (Ext.step ⟨c, false, 0⟩ .toggle).store = c.set .global .pathTime (some (negated (c.effective .pathTime))) := by
    simp only [Ext.step, ownUpdate, write]
    split
    · rfl
    · simp [onChange]
  have hr : (runExt c [.toggle]).store = (Ext.step ⟨c, false, 0⟩ .toggle).store := by simp [runExt]
  rw [hr, hst]
  simp [PathTimeOn, Store.effective, Store.set, hw]

/-- Without any settings path and time are calculated, until the command is used. -/
example : PathTimeOn emptyStore ∧ ¬ PathTimeOn (runExt emptyStore [.toggle]).store := by decide

example : (runExt emptyStore [.toggle, .edit .global .logPath (some c!"l")]).store .workspace .pathTime = none := by decide

end NC.Props
