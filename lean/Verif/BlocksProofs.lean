import Verif.Spec.Blocks
import Verif.FormProofs

/-! # Lemmas about predefined blocks -/

namespace NC.Blocks
open NC NC.Form NC.Spec.Form NC.Spec.Blocks

theorem then_ok {ε α β : Type} (a : α) (f : α → Out ε β) : (Out.ok a).bind f = f a := rfl

theorem then_iff {ε α β : Type} (x : Out ε α) (f : α → Out ε β) (b : β) : x.bind f = .ok b ↔ ∃ a, x = .ok a ∧ f a = .ok b := by
  cases x <;> simp [Out.bind]

theorem format_of {dot s r : Str} (h : Expands dot s r) : format dot s = .ok r := by
  induction h with
  | nil => rw [format]
  | char c s r h1 h2 _ ih =>
    rw [format.eq_8 dot c s (by rintro _ rfl; exact absurd rfl h1) (by rintro _ rfl; exact absurd rfl h2) (by rintro _ rfl; exact absurd rfl h1)
      h2 (by rintro _ _ rfl; exact absurd rfl h1) (by rintro rfl; exact absurd rfl h1), ih, then_ok]
  | opening s r _ ih => rw [format, ih, then_ok]
  | closing s r _ ih => rw [format, ih, then_ok]
  | sign s r _ ih => rw [format, ih, then_ok]

theorem expands_of (dot : Str) (s : Str) : ∀ r, format dot s = .ok r → Expands dot s r := by
  induction s using format.induct with
  | case1 => intro r h; rw [format] at h; injection h with h; subst h; exact .nil
  | case2 s ih =>
    intro r h
    rw [format, then_iff] at h
    obtain ⟨a, ha, h⟩ := h
    injection h with h; subst h
    exact .opening _ _ (ih a ha)
  | case3 s ih =>
    intro r h
    rw [format, then_iff] at h
    obtain ⟨a, ha, h⟩ := h
    injection h with h; subst h
    exact .closing _ _ (ih a ha)
  | case4 s ih =>
    intro r h
    rw [format, then_iff] at h
    obtain ⟨a, ha, h⟩ := h
    injection h with h; subst h
    exact .sign _ _ (ih a ha)
  | case5 s h1 => intro r h; rw [format] at h; cases h; exact h1
  | case6 _ _ _ => intro r h; rw [format] at h; split at h <;> cases h; all_goals assumption
  | case7 _ _ _ => intro r h; rw [format] at h; split at h <;> cases h; all_goals assumption
  | case8 => intro r h; rw [format] at h; cases h
  | case9 c s h1 h2 h3 h4 h5 h6 ih =>
    intro r h
    rw [format.eq_8 dot c s h1 h2 h3 h4 h5 h6, then_iff] at h
    obtain ⟨a, ha, h⟩ := h
    injection h with h; subst h
    refine .char c _ _ ?_ h4 (ih a ha)
    rintro rfl
    cases s with
    | nil => exact h6 rfl rfl
    | cons d s => exact h5 d s rfl rfl

theorem format_iff (dot s r : Str) : format dot s = .ok r ↔ Expands dot s r := ⟨expands_of dot s r, format_of⟩

theorem each_iff {α : Type} (f : α → Out Exc α) (l m : List α) : each f l = .ok m ↔ List.Forall₂ (fun a b => f a = .ok b) l m := by
  induction l generalizing m with
  | nil => rw [each]; simp [eq_comm]
  | cons a l ih =>
    rw [each, then_iff]
    constructor
    · rintro ⟨b, hb, h⟩
      rw [then_iff] at h
      obtain ⟨r, hr, h⟩ := h
      injection h with h; subst h
      exact .cons hb ((ih r).mp hr)
    · intro h
      cases h with
      | cons hb h => exact ⟨_, hb, by rw [(ih _).mpr h, then_ok]⟩

theorem formatText_iff (dot : Str) (x y : Option Str) : formatText dot x = .ok y ↔ ∃ s r, x = some s ∧ y = some r ∧ Expands dot s r := by
  cases x with
  | none => simp [formatText]
  | some s =>
    rw [formatText, then_iff]
    constructor
    · rintro ⟨r, hr, h⟩
      injection h with h
      exact ⟨s, r, rfl, h.symm, (format_iff _ _ _).mp hr⟩
    · rintro ⟨s', r, h1, rfl, h⟩
      injection h1 with h1; subst h1
      exact ⟨r, (format_iff _ _ _).mpr h, rfl⟩

theorem formatBlock_iff (dot : Str) (x y : Option Snippet) :
    formatBlock dot x = .ok y ↔ ∃ b c, x = some b ∧ y = some c ∧ BlockRead dot b c := by
  cases x with
  | none => simp [formatBlock]
  | some b =>
    rw [formatBlock]
    constructor
    · intro h
      split at h
      · rename_i c hc
        rw [then_iff] at h
        obtain ⟨m, hm, h⟩ := h
        injection h with h; subst h
        rw [each_iff] at hm
        exact ⟨b, _, rfl, rfl, rfl, rfl, rfl, c, m, hc, rfl, hm.imp (fun x y h => (formatText_iff _ _ _).mp h)⟩
      · cases h
    · rintro ⟨b', c, h1, rfl, h⟩
      injection h1 with h1; subst h1
      obtain ⟨l, m, h2, h3, h4⟩ := h.code
      rw [h2]
      dsimp only
      rw [then_iff]
      refine ⟨m, (each_iff _ _ _).mpr (h4.imp (fun x y h => (formatText_iff _ _ _).mpr h)), ?_⟩
      have := h.id; have := h.name; have := h.description
      cases b; cases c
      simp_all

theorem formatGroup_iff (dot : Str) (g h : Group) : formatGroup dot g = .ok h ↔ GroupRead dot g h := by
  unfold formatGroup
  constructor
  · intro hh
    split at hh
    · rename_i b hb
      rw [then_iff] at hh
      obtain ⟨m, hm, hh⟩ := hh
      injection hh with hh; subst hh
      rw [each_iff] at hm
      exact ⟨rfl, rfl, rfl, b, m, hb, rfl, hm.imp (fun x y h => (formatBlock_iff _ _ _).mp h)⟩
    · cases hh
  · intro hh
    obtain ⟨l, m, h2, h3, h4⟩ := hh.blocks
    rw [h2]
    dsimp only
    rw [then_iff]
    refine ⟨m, (each_iff _ _ _).mpr (h4.imp (fun x y h => (formatBlock_iff _ _ _).mpr h)), ?_⟩
    have := hh.id; have := hh.name; have := hh.version
    cases g; cases h
    simp_all

/-- What a name gives. -/
def Gives (P : Platform) (J : Codec) (d : Disk) (dir dot : Str) (a : Access) (n : Str) (e : Str × (Group × Access)) : Prop :=
  ∃ t g h, look d.files (P.join (P.full dir) n) = some t ∧ J.read t = .ok (some g) ∧ GroupRead dot g h ∧ e = (P.join (P.full dir) n, (h, a))

theorem load_iff (P : Platform) (J : Codec) (d : Disk) (dir : Str) (a : Access) (l : List Str) (r : Dict (Group × Access)) :
    load P J d dir a l = .ok r ↔ List.Forall₂ (fun n e => ∃ t g, look d.files (P.join (P.full dir) n) = some t ∧ J.read t = .ok (some g) ∧
      e = (P.join (P.full dir) n, (g, a))) l r := by
  induction l generalizing r with
  | nil => rw [load]; simp [eq_comm]
  | cons n l ih =>
    rw [load]
    constructor
    · intro h
      split at h
      · rename_i t ht
        rw [then_iff] at h
        obtain ⟨g, hg, h⟩ := h
        split at h
        · rename_i g
          rw [then_iff] at h
          obtain ⟨r', hr, h⟩ := h
          injection h with h; subst h
          exact .cons ⟨t, g, ht, hg, rfl⟩ ((ih _).mp hr)
        · cases h
      · cases h
    · intro h
      cases h with
      | cons hb h =>
        obtain ⟨t, g, h1, h2, rfl⟩ := hb
        rw [h1]
        dsimp only
        rw [h2, then_ok]
        dsimp only
        rw [(ih _).mpr h, then_ok]

theorem forall₂_comp {α β γ : Type} {R : α → β → Prop} {S : β → γ → Prop} {l : List α} {n : List γ} :
    (∃ m, List.Forall₂ R l m ∧ List.Forall₂ S m n) ↔ List.Forall₂ (fun a c => ∃ b, R a b ∧ S b c) l n := by
  constructor
  · rintro ⟨m, h1, h2⟩
    induction h1 generalizing n with
    | nil => cases h2; exact .nil
    | cons hr _ ih => cases h2 with | cons hs h2 => exact .cons ⟨_, hr, hs⟩ (ih h2)
  · intro h
    induction h with
    | nil => exact ⟨[], .nil, .nil⟩
    | cons hr _ ih =>
      obtain ⟨b, h1, h2⟩ := hr
      obtain ⟨m, h3, h4⟩ := ih
      exact ⟨b :: m, .cons h1 h3, .cons h2 h4⟩

theorem read_iff (P : Platform) (J : Codec) (d : Disk) (dir dot : Str) (a : Access) (r : Dict (Group × Access)) :
    read P J d dir dot a = .ok r ↔ List.Forall₂ (Gives P J d dir dot a) (namesOf P d dir) r := by
  rw [read, then_iff]
  have h1 : (∃ m, load P J d dir a (namesOf P d dir) = .ok m ∧
      each (fun e => (formatGroup dot e.2.1).bind fun g => .ok (e.1, (g, e.2.2))) m = .ok r) ↔ ∃ m, _ ∧ _ :=
    exists_congr (fun m => and_congr (load_iff P J d dir a _ m) (each_iff _ m r))
  rw [h1, forall₂_comp]
  have h2 : (fun n e => ∃ b : Str × (Group × Access), (∃ t g, look d.files (P.join (P.full dir) n) = some t ∧ J.read t = .ok (some g) ∧
      b = (P.join (P.full dir) n, (g, a))) ∧ ((formatGroup dot b.2.1).bind fun g => .ok (b.1, (g, b.2.2))) = .ok e) = Gives P J d dir dot a := by
    funext n e
    apply propext
    constructor
    · rintro ⟨b, ⟨t, g, h1, h2, rfl⟩, h3⟩
      rw [then_iff] at h3
      obtain ⟨h, h4, h5⟩ := h3
      injection h5 with h5
      exact ⟨t, g, h, h1, h2, (formatGroup_iff _ _ _).mp h4, h5.symm⟩
    · rintro ⟨t, g, h, h1, h2, h3, rfl⟩
      refine ⟨_, ⟨t, g, h1, h2, rfl⟩, ?_⟩
      dsimp only
      rw [(formatGroup_iff _ _ _).mpr h3, then_ok]
  rw [h2]

/-! ## Dictionaries -/

theorem first_iff_mem {α : Type} {d : Dict α} (h : (d.map (·.1)).Nodup) (k : Str) (v : α) : First d k v ↔ (k, v) ∈ d := by
  refine ⟨first_mem, fun hm => ?_⟩
  rw [← look_iff]
  induction d with
  | nil => simp at hm
  | cons e d ih =>
    rw [List.map_cons, List.nodup_cons] at h
    rw [look_cons]
    rcases List.mem_cons.mp hm with rfl | hm
    · rw [if_pos rfl]
    · rw [if_neg (fun e' : e.1 = k => h.1 (e' ▸ List.mem_map_of_mem (f := (·.1)) hm))]
      exact ih h.2 hm

theorem look_filter {α : Type} (d : Dict α) (k p : Str) : look (d.filter (fun e => e.1 ≠ k)) p = if p = k then none else look d p := by
  induction d with
  | nil => simp [look]
  | cons e d ih =>
    by_cases he : e.1 = k
    · rw [List.filter_cons_of_neg (by simp [he]), ih, look_cons]
      by_cases hp : p = k
      · rw [if_pos hp, if_pos hp]
      · rw [if_neg hp, if_neg hp, if_neg (fun h => hp (h.symm.trans he))]
    · rw [List.filter_cons_of_pos (by simp [he]), look_cons, ih, look_cons]
      by_cases hp : p = k
      · rw [if_pos hp, if_pos hp, if_neg (fun h => he (h.trans hp))]
      · rw [if_neg hp, if_neg hp]

theorem names_mem (P : Platform) (d : Disk) (dir n : Str) : n ∈ namesOf P d dir ↔ ∃ p t, (p, t) ∈ d.files ∧ P.name (P.full dir) p = some n := by
  unfold namesOf
  rw [List.mem_filterMap]
  constructor
  · rintro ⟨e, he, h⟩; exact ⟨e.1, e.2, he, h⟩
  · rintro ⟨p, t, he, h⟩; exact ⟨(p, t), he, h⟩

theorem names_paths {P : Platform} (hP : Sound P) (d : Disk) (dir : Str) :
    (namesOf P d dir).map (P.join (P.full dir)) = (d.files.filter (fun e => (P.name (P.full dir) e.1).isSome)).map (·.1) := by
  unfold namesOf
  induction d.files with
  | nil => rfl
  | cons e l ih =>
    cases hn : P.name (P.full dir) e.1 with
    | none => rw [List.filterMap_cons_none (f := fun e : Str × Str => P.name (P.full dir) e.1) hn, List.filter_cons_of_neg (by simp [hn]), ih]
    | some n => rw [List.filterMap_cons_some (f := fun e : Str × Str => P.name (P.full dir) e.1) hn, List.filter_cons_of_pos (by simp [hn]), List.map_cons, List.map_cons, ih, ← hP.name dir e.1 n hn]

theorem gives_paths {P : Platform} {J : Codec} {d : Disk} {dir dot : Str} {a : Access} {l : List Str} {r : Dict (Group × Access)}
    (h : List.Forall₂ (Gives P J d dir dot a) l r) : r.map (·.1) = l.map (P.join (P.full dir)) := by
  induction h with
  | nil => rfl
  | cons h _ ih =>
    obtain ⟨t, g, h', -, -, -, rfl⟩ := h
    rw [List.map_cons, List.map_cons, ih]

theorem read_nodup {P : Platform} (hP : Sound P) {J : Codec} {d : Disk} (hd : Tidy P d) {dir dot : Str} {a : Access} {r : Dict (Group × Access)}
    (h : read P J d dir dot a = .ok r) : (r.map (·.1)).Nodup := by
  rw [gives_paths ((read_iff P J d dir dot a r).mp h), names_paths hP]
  exact (List.filter_sublist.map _).nodup hd.1

theorem forall₂_mem {α β : Type} {R : α → β → Prop} {l : List α} {m : List β} (h : List.Forall₂ R l m) :
    (∀ a ∈ l, ∃ b ∈ m, R a b) ∧ ∀ b ∈ m, ∃ a ∈ l, R a b := by
  induction h with
  | nil => simp
  | cons hr _ ih =>
    constructor
    · intro a ha
      rcases List.mem_cons.mp ha with rfl | ha
      · exact ⟨_, by simp, hr⟩
      · obtain ⟨b, hb, h⟩ := ih.1 a ha; exact ⟨b, by simp [hb], h⟩
    · intro b hb
      rcases List.mem_cons.mp hb with rfl | hb
      · exact ⟨_, by simp, hr⟩
      · obtain ⟨a, ha, h⟩ := ih.2 b hb; exact ⟨a, by simp [ha], h⟩

/-! ## Writing -/

theorem clean_look (P : Platform) (groups : Dict (Group × Access)) (dir : Str) (l : List Str) (d : Disk) (p : Str) :
    look (clean P groups dir l d).files p =
      if ∃ n ∈ l, (look groups (P.join dir n)).isSome = false ∧ P.full (P.join dir n) = p then none else look d.files p := by
  induction l generalizing d with
  | nil => simp [clean]
  | cons n l ih =>
    rw [clean, ih]
    by_cases h1 : ∃ m ∈ l, (look groups (P.join dir m)).isSome = false ∧ P.full (P.join dir m) = p
    · rw [if_pos h1, if_pos]
      obtain ⟨m, hm, h⟩ := h1
      exact ⟨m, by simp [hm], h⟩
    · rw [if_neg h1]
      by_cases h2 : (look groups (P.join dir n)).isSome
      · rw [if_pos h2, if_neg]
        rintro ⟨m, hm, h3, h4⟩
        rcases List.mem_cons.mp hm with rfl | hm
        · rw [h2] at h3; cases h3
        · exact h1 ⟨m, hm, h3, h4⟩
      · rw [if_neg h2, delete, look_filter]
        by_cases h3 : p = P.full (P.join dir n)
        · rw [if_pos h3, if_pos]
          exact ⟨n, by simp, by simpa using h2, h3.symm⟩
        · rw [if_neg h3, if_neg]
          rintro ⟨m, hm, h4, h5⟩
          rcases List.mem_cons.mp hm with rfl | hm
          · exact h3 h5.symm
          · exact h1 ⟨m, hm, h4, h5⟩

theorem store_look (P : Platform) (J : Codec) (groups : Dict (Group × Access)) (hf : ∀ e ∈ groups, P.full e.1 = e.1)
    (hn : (groups.map (·.1)).Nodup) (d : Disk) (p : Str) :
    look (store P J groups d).files p =
      match look groups p with
      | some (g, .readWrite) => some (J.write g)
      | _ => look d.files p := by
  induction groups generalizing d with
  | nil => rfl
  | cons e l ih =>
    obtain ⟨k, g, a⟩ := e
    rw [List.map_cons, List.nodup_cons] at hn
    have ih := ih (fun e he => hf e (by simp [he])) hn.2
    have hk : P.full k = k := hf (k, g, a) (by simp)
    rw [look_cons]
    have hl : k = p → look l p = none := by
      rintro rfl
      cases h : look l k with
      | none => rfl
      | some x => exact absurd (List.mem_map_of_mem (f := (·.1)) (first_mem ((look_iff _ _ _).mp h))) hn.1
    cases a with
    | readOnly =>
      rw [store, ih]
      by_cases h : k = p
      · dsimp only
        rw [if_pos h, hl h]
      · dsimp only
        rw [if_neg h]
    | readWrite =>
      rw [store, ih, hk, look_put]
      by_cases h : k = p
      · dsimp only
        rw [if_pos h, hl h]
        dsimp only
        rw [if_pos h]
      · dsimp only
        rw [if_neg h, if_neg h]

theorem put_keys {α : Type} (d : Dict α) (k : Str) (v : α) : (put d k v).map (·.1) = if k ∈ d.map (·.1) then d.map (·.1) else d.map (·.1) ++ [k] := by
  induction d with
  | nil => simp [put]
  | cons e d ih =>
    rw [put]
    by_cases h : e.1 = k
    · rw [if_pos h]; simp [h]
    · rw [if_neg h, List.map_cons, ih]
      by_cases hm : k ∈ d.map (·.1)
      · rw [if_pos hm, if_pos (by simp [hm])]; simp
      · rw [if_neg hm, if_neg (by rw [List.map_cons, List.mem_cons, not_or]; exact ⟨fun e' => h e'.symm, hm⟩)]; simp

theorem put_tidy {P : Platform} (hP : Sound P) {d : Disk} (hd : Tidy P d) (k t : Str) : Tidy P ⟨put d.files (P.full k) t⟩ := by
  have hf : ∀ x ∈ (put d.files (P.full k) t).map (·.1), P.full x = x := by
    intro x hx
    rw [put_keys] at hx
    have h1 : ∀ x ∈ d.files.map (·.1), P.full x = x := by
      intro x hx
      obtain ⟨e, he, rfl⟩ := List.mem_map.mp hx
      exact hd.2 e he
    split at hx
    · exact h1 x hx
    · rcases List.mem_append.mp hx with hx | hx
      · exact h1 x hx
      · rw [List.mem_singleton] at hx; subst hx; exact hP.full k
  refine ⟨?_, fun e he => hf _ (List.mem_map_of_mem (f := (·.1)) he)⟩
  dsimp only
  rw [put_keys]
  split
  · exact hd.1
  · rename_i h
    rw [List.nodup_append]
    refine ⟨hd.1, by simp, ?_⟩
    intro a ha b hb
    rw [List.mem_singleton] at hb
    subst hb
    rintro rfl
    exact h ha

theorem write_tidy {P : Platform} (hP : Sound P) (J : Codec) (groups : Dict (Group × Access)) (dir : Str) {d : Disk} (hd : Tidy P d) :
    Tidy P (write P J groups dir d) := by
  have h1 : ∀ (l : List Str) (d : Disk), Tidy P d → Tidy P (clean P groups dir l d) := by
    intro l
    induction l with
    | nil => intro d h; exact h
    | cons n l ih =>
      intro d h
      rw [clean]
      refine ih _ ?_
      split
      · exact h
      · exact ⟨(List.filter_sublist.map _).nodup h.1, fun e he => h.2 e (List.mem_of_mem_filter he)⟩
  have h2 : ∀ (l : Dict (Group × Access)) (d : Disk), Tidy P d → Tidy P (store P J l d) := by
    intro l
    induction l with
    | nil => intro d h; exact h
    | cons e l ih =>
      intro d h
      obtain ⟨k, g, a⟩ := e
      cases a with
      | readOnly => exact ih d h
      | readWrite => exact ih _ (put_tidy hP h k _)
  exact h2 _ _ (h1 _ _ hd)

theorem simple_read (dot : Str) {g : Group} (h : Simple g) : GroupRead dot g g := by
  have h0 : ∀ s : Str, Braceless s → Expands dot s s := by
    intro s hs
    induction s with
    | nil => exact .nil
    | cons c s ih =>
      obtain ⟨h1, h2⟩ := hs
      simp only [List.mem_cons, not_or] at h1 h2
      exact .char c s s (Ne.symm h1.1) (Ne.symm h2.1) (ih ⟨h1.2, h2.2⟩)
  obtain ⟨l, hl, h⟩ := h
  refine ⟨rfl, rfl, rfl, l, l, hl, hl, List.forall₂_same.mpr (fun x hx => ?_)⟩
  obtain ⟨b, c, rfl, hc, h⟩ := h x hx
  refine ⟨b, b, rfl, rfl, rfl, rfl, rfl, c, c, hc, hc, List.forall₂_same.mpr (fun y hy => ?_)⟩
  obtain ⟨s, rfl, hs⟩ := h y hy
  exact ⟨s, s, rfl, rfl, h0 s hs⟩

end NC.Blocks
