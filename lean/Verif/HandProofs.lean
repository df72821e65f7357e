import Verif.Spec.Hand
import Verif.AttrPathProofs
import Verif.FormProofs
import Verif.WrapperProofs

/-!
# Lemmas about handing over
-/

namespace NC.Hand
open NC NC.Enums NC.AttrPath NC.Conf NC.Form NC.Spec.Form NC.Spec.Hand

theorem then_ok {ε α β : Type} (a : α) (f : α → Out ε β) : (Out.ok a).bind f = f a := rfl

theorem bytes_clear {s : Str} (h : Clear s) : bytes s = s := by
  unfold bytes
  induction s with
  | nil => rfl
  | cons c s ih =>
    have hc : c ≠ '\x00' := by rintro rfl; exact h (by simp)
    rw [List.takeWhile_cons_of_pos (by simp [hc]), ih (fun h' => h (by simp [h']))]

theorem keys_clear {α : Type} {d : Dict α} (h : Keyed d) : d.map (fun e => bytes e.1) = d.map (·.1) :=
  List.map_congr_left (fun e he => bytes_clear (h.2 e he))

/-! ## Enumerators -/

theorem tool_num (t : EMachineTool) : (ofTable tools (number 0 netTools t) : Out Exc _) = .ok t := by cases t <;> rfl
theorem driver_num (t : EFanucParserType) : (ofTable drivers (number 0 netDrivers t) : Out Exc _) = .ok t := by cases t <;> rfl
theorem word_num (t : WordType) : (ofTable wordTypes (number 0 netWordTypes t) : Out Exc _) = .ok t := by cases t <;> rfl
theorem kind_num (t : SplitFile.Kind) : (ofTable kinds (number 0 netKinds t) : Out Exc _) = .ok t := by cases t <;> rfl
theorem type_num (t : EMachineToolType) : (ofTable types (number 0 netTypes t) : Out Exc _) = .ok t := by cases t <;> rfl
theorem language_num (t : ELanguage) : (ofTable languages (number 0 netLanguages t) : Out Exc _) = .ok t := by cases t <;> rfl
theorem motion_num (t : EMotion) : (ofTable motions (netMotion t) : Out Exc _) = .ok t := by cases t <;> rfl
theorem plane_num (t : EWorkPlane) : (ofTable planes (netPlane t) : Out Exc _) = .ok t := by cases t <;> rfl
theorem units_num (t : EDriverUnits) : (ofTable unitss (netUnits t) : Out Exc _) = .ok t := by cases t <;> rfl
theorem programming_num (t : EProgrammingType) : (ofTable programmings (netProgramming t) : Out Exc _) = .ok t := by cases t <;> rfl
theorem feed_num (t : EFeedMode) : (ofTable feedModes (netFeedMode t) : Out Exc _) = .ok t := by cases t <;> rfl
theorem direction_num (t : ERotationDirection) : (ofTable directions (netDirection t) : Out Exc _) = .ok t := by cases t <;> rfl
theorem depth_num (t : EDepthProgrammingType) : (ofTable depths (netDepth t) : Out Exc _) = .ok t := by cases t <;> rfl
theorem return_num (t : EDrillGreturnMode) : (ofTable returns (netReturn t) : Out Exc _) = .ok t := by cases t <;> rfl

theorem cnc_read (c : Cnc) : readCnc (cncCells c) = .ok c := by
  unfold cncCells
  rw [readCnc, motion_num, then_ok, plane_num, then_ok, units_num, then_ok, programming_num, then_ok, feed_num, then_ok,
    direction_num, then_ok, depth_num, then_ok, return_num, then_ok]

/-! ## Maps -/

/-- Writing all entries. -/
def fill {α : Type} (f : Str → Str) (d : Dict α) (m : VMap α) : VMap α := d.foldl (fun m e => m.put (f e.1) e.2) m

theorem points_read (f : Str → Str) (d pre : Dict ℚ) (m : VMap ℚ) :
    Hand.readPoints ((pre ++ d).map (fun e => f e.1)) ((pre ++ d).map (·.2)) d.length pre.length m = .ok (fill f d m) := by
  induction d generalizing pre m with
  | nil => rfl
  | cons e d ih =>
    rw [List.length_cons, Hand.readPoints]
    have h1 : ((pre ++ e :: d).map (fun e => f e.1))[pre.length]? = some (f e.1) := by simp
    have h2 : ((pre ++ e :: d).map (·.2))[pre.length]? = some e.2 := by simp
    rw [h1, h2]
    dsimp only
    have h3 := ih (pre ++ [e]) (m.put (f e.1) e.2)
    simp only [List.append_assoc, List.singleton_append, List.length_append, List.length_singleton] at h3
    exact h3

theorem axes_read (d pre : Dict (ℚ × ℚ)) (m : VMap (ℚ × ℚ)) :
    Hand.readAxes ((pre ++ d).map axisCells) d.length pre.length m = .ok (fill bytes d m) := by
  induction d generalizing pre m with
  | nil => rfl
  | cons e d ih =>
    rw [List.length_cons, Hand.readAxes]
    have h1 : ((pre ++ e :: d).map axisCells)[pre.length]? = some (axisCells e) := by simp
    rw [h1]
    dsimp only
    have h2 : readAxis (axisCells e) = .ok (bytes e.1, e.2) := rfl
    rw [h2, then_ok]
    have h3 := ih (pre ++ [e]) (m.put (bytes e.1) e.2)
    simp only [List.append_assoc, List.singleton_append, List.length_append, List.length_singleton] at h3
    exact h3

theorem fill_sorted {α : Type} (f : Str → Str) (d : Dict α) {m : VMap α} (h : m.Sorted) : (fill f d m).Sorted := by
  induction d generalizing m with
  | nil => exact h
  | cons e d ih => exact ih (VMap.sorted_put h _ _)

theorem look_none {α : Type} {d : Dict α} {k : Str} (h : k ∉ d.map (·.1)) : look d k = none := by
  induction d with
  | nil => rfl
  | cons e d ih =>
    rw [List.map_cons, List.mem_cons, not_or] at h
    rw [look_cons, if_neg (fun e' => h.1 e'.symm), ih h.2]

theorem fill_get {α : Type} (d : Dict α) (h : Keyed d) (m : VMap α) (k : Str) : (fill bytes d m).get k = (look d k).or (m.get k) := by
  induction d generalizing m with
  | nil => rfl
  | cons e d ih =>
    obtain ⟨hn, hc⟩ := h
    rw [List.map_cons, List.nodup_cons] at hn
    have h1 := ih ⟨hn.2, fun x hx => hc x (by simp [hx])⟩ (m.put (bytes e.1) e.2)
    show (fill bytes d (m.put (bytes e.1) e.2)).get k = _
    rw [h1, VMap.get_put, bytes_clear (hc e (by simp)), look_cons]
    by_cases he : e.1 = k
    · rw [if_pos he, if_pos he, look_none (he ▸ hn.1)]; rfl
    · rw [if_neg he, if_neg he]

theorem fill_holds {α : Type} (d : Dict α) (h : Keyed d) : Holds (fill bytes d []) d := by
  intro k v
  rw [fill_get d h, ← look_iff]
  have : VMap.get ([] : VMap α) k = none := rfl
  rw [this, Option.or_none]

theorem points_all (d : Dict ℚ) :
    Hand.readPoints (d.map (fun e => bytes e.1)) (d.map (·.2)) d.length 0 [] = .ok (fill bytes d []) := points_read bytes d [] []

theorem axes_all (d : Dict (ℚ × ℚ)) : Hand.readAxes (d.map axisCells) d.length 0 [] = .ok (fill bytes d []) := axes_read d [] []

/-! ## Words -/

theorem words_read (d pre : Dict WordObj) (g : WordObj → WordGrammar) (h : ∀ e ∈ d, readWord (wordCells e.2) = .ok (g e.2)) :
    Hand.readWords ((pre ++ d).map (fun e => bytes e.1)) ((pre ++ d).map (fun e => wordCells e.2)) d.length pre.length =
      .ok (d.map (fun e => (bytes e.1, g e.2))) := by
  induction d generalizing pre with
  | nil => rfl
  | cons e d ih =>
    rw [List.length_cons, Hand.readWords]
    have h1 : ((pre ++ e :: d).map (fun e => bytes e.1))[pre.length]? = some (bytes e.1) := by simp
    have h2 : ((pre ++ e :: d).map (fun e => wordCells e.2))[pre.length]? = some (wordCells e.2) := by simp
    rw [h1, h2]
    dsimp only
    have h3 := ih (pre ++ [e]) (fun x hx => h x (by simp [hx]))
    simp only [List.append_assoc, List.singleton_append, List.length_append, List.length_singleton] at h3
    rw [h e (by simp), then_ok, h3, then_ok]
    rfl

/-- The word as the native side has it. -/
def wordOf (w : WordObj) : WordGrammar := ⟨w.word.getD [], w.rangeFrom, w.rangeTo, w.decFrom, w.decTo, w.unique, w.wtype⟩

theorem word_read {w : WordObj} {s : Str} (h : w.word = some s) (hs : Clear s) : readWord (wordCells w) = .ok (wordOf w) := by
  unfold wordCells wordOf
  rw [h, textCell, readWord, Option.map_some, bytes_clear hs, str, then_ok, word_num, then_ok]
  rfl

theorem table_read (d : Dict WordObj) (h : Worded d) : ∃ m, table d = .ok m ∧ Tabled d m := by
  have h1 := words_read d [] wordOf (fun e he => by
    obtain ⟨s, h1, h2⟩ := h.2 e he
    exact word_read h1 h2)
  simp only [List.nil_append, List.length_nil] at h1
  refine ⟨_, by rw [table, h1, then_ok], fun k g => ?_⟩
  rw [Wrap.buildGrammar_spec]
  have h2 : (d.map (fun e => (bytes e.1, wordOf e.2))).reverse.find? (fun e => e.1 == k) = (look d k).map (fun w => (k, wordOf w)) := by
    clear h1
    induction d with
    | nil => rfl
    | cons e d ih =>
      obtain ⟨⟨hn, hc⟩, hw⟩ := h
      rw [List.map_cons, List.nodup_cons] at hn
      have h3 := ih ⟨⟨hn.2, fun x hx => hc x (by simp [hx])⟩, fun x hx => hw x (by simp [hx])⟩
      rw [List.map_cons, List.reverse_cons, List.find?_append, h3, look_cons, bytes_clear (hc e (by simp))]
      by_cases he : e.1 = k
      · rw [if_pos he, look_none (he ▸ hn.1)]
        simp [he]
      · rw [if_neg he]
        have : (([(e.1, wordOf e.2)] : List (Str × WordGrammar)).find? (fun e => e.1 == k)) = none := by simp [he]
        rw [this, Option.or_none]
  rw [h2]
  have h0 : WordMap.find [] k = none := rfl
  constructor
  · intro hg
    cases hl : look d k with
    | none => rw [hl] at hg; rw [Option.map_none] at hg; simp [h0] at hg
    | some w =>
      rw [hl] at hg
      have hf := (look_iff d k w).mp hl
      obtain ⟨s, hs, -⟩ := h.2 _ (first_mem hf)
      simp only [Option.map_some, Option.some.injEq] at hg
      subst hg
      refine ⟨w, hf, ?_, rfl, rfl, rfl, rfl, rfl, rfl⟩
      dsimp only at hs
      rw [wordOf, hs]; rfl
  · rintro ⟨w, hf, s1, s2, s3, s4, s5, s6, s7⟩
    rw [(look_iff d k w).mpr hf]
    simp only [Option.map_some, Option.some.injEq]
    rw [wordOf, s1, s2, s3, s4, s5, s6, s7]
    rfl

/-! ## Groups -/

theorem flatten_eq (l : List (List Ver.Code)) (r : List Ver.Code × List Nat) :
    flatten l r = (r.1 ++ l.flatten, r.2 ++ l.map List.length) := by
  induction l generalizing r with
  | nil => simp [flatten]
  | cons a l ih => rw [flatten, ih]; simp

end NC.Hand
