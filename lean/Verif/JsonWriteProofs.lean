import Verif.JsonFileProofs
import Verif.JsonWrite
import Verif.FormProofs
import Verif.JsonProofs

/-!
# What Json.NET writes is JSON
-/

namespace NC.JFile
open NC NC.Enums NC.Conf NC.Spec.JsonText

mutual

/-- The numbers of a value are numbers. -/
def J.Good : J → Prop
  | .num t => Number t
  | .obj m => GoodM m
  | .arr l => GoodA l
  | _ => True

/-- Members. -/
def GoodM : List (Str × J) → Prop
  | [] => True
  | (_, v) :: l => v.Good ∧ GoodM l

/-- Elements. -/
def GoodA : List J → Prop
  | [] => True
  | v :: l => v.Good ∧ GoodA l

end

theorem treeM_eq (l : List (Str × J)) : treeM l = l.map (fun e => (e.1, e.2.tree)) := by
  induction l with
  | nil => rw [treeM]; rfl
  | cons e l ih => obtain ⟨k, v⟩ := e; rw [treeM, ih]; rfl

theorem goodM_iff (l : List (Str × J)) : GoodM l ↔ ∀ e ∈ l, e.2.Good := by
  induction l with
  | nil => rw [GoodM]; simp
  | cons e l ih => obtain ⟨k, v⟩ := e; rw [GoodM, ih]; simp

/-! ## Strings -/

theorem hex_chr {n : Nat} (h : n < 16) : Hex (hexChr n) n := by
  unfold hexChr
  split_ifs with h1
  · exact Or.inl ⟨n, h1, rfl, rfl⟩
  · exact Or.inr ⟨n - 10, by omega, Or.inl (by congr 1; omega), by omega⟩

theorem esc_inner (c : Char) {d s : Str} (h : Inner d s) : Inner (c :: d) (escChar c ++ s) := by
  unfold escChar
  split_ifs with h1 h2 h3 h4 h5 h6 h7 h8
  · subst h1; exact .letter _ _ _ _ (by unfold Letter; decide) h
  · subst h2; exact .letter _ _ _ _ (by unfold Letter; decide) h
  · subst h3; exact .letter _ _ _ _ (by unfold Letter; decide) h
  · subst h4; exact .letter _ _ _ _ (by unfold Letter; decide) h
  · subst h5; exact .letter _ _ _ _ (by unfold Letter; decide) h
  · subst h6; exact .letter _ _ _ _ (by unfold Letter; decide) h
  · subst h7; exact .letter _ _ _ _ (by unfold Letter; decide) h
  · have hq : Quad ['0', '0', hexChr (c.toNat / 16), hexChr (c.toNat % 16)] c.toNat :=
      ⟨_, _, _, _, 0, 0, c.toNat / 16, c.toNat % 16, rfl, hex_chr (n := 0) (by omega), hex_chr (n := 0) (by omega), hex_chr (by omega),
        hex_chr (by omega), by omega⟩
    have hb : Bytes c.toNat [Char.ofNat c.toNat] := .one _ (by omega)
    rw [Char.ofNat_toNat] at hb
    exact .number _ _ _ _ c.toNat hq (by omega) hb h
  · exact .plain _ _ _ h1 h2 h

theorem quoted (s : Str) : Quoted s (quote s) := by
  refine ⟨_, ?_, rfl⟩
  induction s with
  | nil => exact .nil
  | cons c s ih => rw [List.flatMap_cons]; exact esc_inner c ih

/-! ## Values -/

theorem brk_space {nl : Str} (h : Space nl) (d : Nat) : Space (brk nl d) := by
  intro c hc
  rw [brk, List.mem_append] at hc
  rcases hc with hc | hc
  · exact h c hc
  · exact Or.inl (List.eq_of_mem_replicate hc)

theorem space_nil : Space [] := by intro c hc; cases hc

section
variable {nl : Str} (hnl : Space nl)
include hnl

mutual

theorem write_value (d : Nat) : (v : J) → v.Good → Value v.tree (v.write nl d)
  | .str s, _ => by rw [J.tree, J.write]; exact .text _ _ (quoted s)
  | .num t, h => by rw [J.Good] at h; rw [J.tree, J.write]; exact .number _ h
  | .bool b, _ => by rw [J.tree, J.write]; cases b <;> exact .literal _ (by decide)
  | .null, _ => by rw [J.tree, J.write]; exact .literal _ (by decide)
  | .obj [], _ => by
    rw [J.tree, J.write, treeM, writeM]
    exact .noMember [] (by intro c hc; cases hc)
  | .obj (e :: l), h => by
    rw [J.Good] at h
    rw [J.tree, J.write]
    exact .object _ _ (writeM_members d (e :: l) h (by simp))
  | .arr [], _ => by
    rw [J.tree, J.write, treeA, writeA]
    exact .noElement [] (by intro c hc; cases hc)
  | .arr (e :: l), h => by
    rw [J.Good] at h
    rw [J.tree, J.write]
    exact .array _ _ (writeA_elements d (e :: l) h (by simp))

theorem writeM_members (d : Nat) : (l : List (Str × J)) → GoodM l → l ≠ [] → Members (treeM l) (writeM nl d l)
  | [], _, h => absurd rfl h
  | [(k, v)], h, _ => by
    rw [GoodM] at h
    have hv := write_value (d + 1) v h.1
    have h1 : Space [' '] := by intro c hc; rw [List.mem_singleton] at hc; exact Or.inl hc
    rw [treeM, treeM, writeM.eq_def]
    exact .one k v.tree _ _ [] [' '] _ _ (brk_space hnl _) (quoted k) space_nil h1 hv (brk_space hnl _)
  | (k, v) :: e :: l, h, _ => by
    rw [GoodM] at h
    have hv := write_value (d + 1) v h.1
    have h1 : Space [' '] := by intro c hc; rw [List.mem_singleton] at hc; exact Or.inl hc
    have hl := writeM_members d (e :: l) h.2 (by simp)
    rw [treeM, writeM.eq_def]
    exact .more k v.tree _ _ [] [' '] _ [] _ _ (brk_space hnl _) (quoted k) space_nil h1 hv space_nil hl

theorem writeA_elements (d : Nat) : (l : List J) → GoodA l → l ≠ [] → Elements (treeA l) (writeA nl d l)
  | [], _, h => absurd rfl h
  | [v], h, _ => by
    rw [GoodA] at h
    have hv := write_value (d + 1) v h.1
    rw [treeA, treeA, writeA.eq_def]
    exact .one v.tree _ _ _ (brk_space hnl _) hv (brk_space hnl _)
  | v :: e :: l, h, _ => by
    rw [GoodA] at h
    have hv := write_value (d + 1) v h.1
    have hl := writeA_elements d (e :: l) h.2 (by simp)
    rw [treeA, writeA.eq_def]
    exact .more v.tree _ _ [] _ _ (brk_space hnl _) hv space_nil hl

end

/-- What is written is a text of the tree. -/
theorem write_text (v : J) (h : v.Good) : Text v.tree (v.write nl 0) :=
  ⟨[], v.write nl 0, [], by simp, space_nil, write_value hnl 0 v h, space_nil⟩

end

/-! ## Numbers -/

theorem whole_number (m : Str) (hm : m = [] ∨ m = ['-']) (n : Nat) (f : Str) (hf : f = [] ∨ ∃ d, Dig d ∧ f = '.' :: d) :
    Number (m ++ (natStr n ++ f)) := by
  refine ⟨m, natStr n, f, [], by simp, hm, ?_, hf, Or.inl rfl⟩
  rcases Nat.eq_zero_or_pos n with rfl | h
  · exact Or.inl (by decide)
  · exact Or.inr ⟨⟨natStr_ne_nil n, natStr_isDig n⟩, JsonP.natStr_head h⟩

theorem number_nat (n : Nat) : Number (natStr n) := by
  have := whole_number [] (Or.inl rfl) n [] (Or.inl rfl)
  simpa using this

theorem number_int (z : Int) : Number (Form.intText z) := by
  unfold Form.intText intStr
  split_ifs
  · have := whole_number ['-'] (Or.inr rfl) z.natAbs [] (Or.inl rfl)
    simpa using this
  · exact number_nat _

theorem number_json (q : ℚ) : Number (Form.jsonNum q) := by
  unfold Form.jsonNum Form.numText
  dsimp only
  have hm : (if q < 0 then ['-'] else []) = ([] : Str) ∨ (if q < 0 then ['-'] else []) = ['-'] := by split_ifs <;> simp
  split_ifs with h1 h2 h2
  all_goals simp only [List.append_nil, List.nil_append, List.append_assoc]
  · exact whole_number ['-'] (Or.inr rfl) _ c!".0" (Or.inr ⟨['0'], ⟨by simp, by intro c hc; rw [List.mem_singleton] at hc; subst hc; decide⟩, rfl⟩)
  · exact whole_number [] (Or.inl rfl) _ c!".0" (Or.inr ⟨['0'], ⟨by simp, by intro c hc; rw [List.mem_singleton] at hc; subst hc; decide⟩, rfl⟩)
  · refine whole_number ['-'] (Or.inr rfl) _ _ (Or.inr ⟨_, ⟨?_, Form.lastDigits_dig _ _⟩, rfl⟩)
    intro h
    exact h1 (by rw [← Form.lastDigits_length (Form.decimals q) _, h]; rfl)
  · refine whole_number [] (Or.inl rfl) _ _ (Or.inr ⟨_, ⟨?_, Form.lastDigits_dig _ _⟩, rfl⟩)
    intro h
    exact h1 (by rw [← Form.lastDigits_length (Form.decimals q) _, h]; rfl)

end NC.JFile

namespace NC.Form
open NC NC.Enums NC.Conf NC.JFile NC.Spec.JsonText

theorem numbersJ_tree (d : Dict ℚ) : (numbersJ d).tree = numbers d := by
  rw [numbersJ, J.tree, treeM_eq, List.map_map, numbers]
  congr 1

theorem numbersJ_good (d : Dict ℚ) : (numbersJ d).Good := by
  rw [numbersJ, J.Good, goodM_iff]
  intro e he
  obtain ⟨x, -, rfl⟩ := List.mem_map.mp he
  rw [J.Good]
  exact number_json _

theorem Kin.json_tree (k : Kin) : k.json.tree = k.tree := by
  have h : treeM (k.axes.map (fun a => (a.1, .obj [(c!"range_min", .num (jsonNum a.2.1)), (c!"range_max", .num (jsonNum a.2.2))]))) =
      k.axes.map (fun a => (a.1, .node [] [item c!"range_min" (jsonNum a.2.1), item c!"range_max" (jsonNum a.2.2)])) := by
    rw [treeM_eq, List.map_map]
    apply List.map_congr_left
    intro e _
    simp only [Function.comp, J.tree, treeM, item]
  simp only [Kin.json, Kin.tree, J.tree, treeM, h, item]

theorem Kin.json_good (k : Kin) : k.json.Good := by
  have h : GoodM (k.axes.map (fun a => (a.1, .obj [(c!"range_min", .num (jsonNum a.2.1)), (c!"range_max", .num (jsonNum a.2.2))]))) := by
    rw [goodM_iff]
    intro e he
    obtain ⟨x, -, rfl⟩ := List.mem_map.mp he
    simp only [J.Good, GoodM, number_json, and_self]
  simp only [Kin.json, J.Good, GoodM, h, number_json, number_int, and_self]

theorem Cnc.json_tree (v : Cnc) : v.json.tree = v.tree := by
  simp only [Cnc.json, Cnc.tree, J.tree, treeM, item]

theorem Cnc.json_good (v : Cnc) : v.json.Good := by
  simp only [Cnc.json, J.Good, GoodM, number_int, and_self]

/-- The value that is written has the tree of the file. -/
theorem File.json_tree (f : File) : f.json.tree = f.tree := by
  have h : treeM (f.extras.map (fun e => (e.1, J.bool e.2))) = f.extras.map (fun e => item e.1 (jsonBool e.2)) := by
    rw [treeM_eq, List.map_map]
    apply List.map_congr_left
    intro e _
    simp only [Function.comp, J.tree, item]
  simp only [File.json, File.tree, J.tree, treeM, h, item, numbersJ_tree, Kin.json_tree, Cnc.json_tree]

theorem File.json_good (f : File) : f.json.Good := by
  have h : GoodM (f.extras.map (fun e => (e.1, J.bool e.2))) := by
    rw [goodM_iff]
    intro e he
    obtain ⟨x, -, rfl⟩ := List.mem_map.mp he
    simp only [J.Good]
  simp only [File.json, J.Good, GoodM, h, numbersJ_good, Kin.json_good, Cnc.json_good, and_self]

/-- The text of a file is a text of its tree. -/
theorem File.text_spells (f : File) {nl : Str} (h : Space nl) : Text f.tree (f.text nl) := by
  rw [← File.json_tree]
  exact write_text h _ (File.json_good f)

end NC.Form
