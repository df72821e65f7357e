import Verif.Launch
import Verif.Spec.Launch

/-!
# C114: the server works with what the editor is configured with
-/

namespace NC.Props
open NC NC.Enums NC.Launch NC.Spec.Launch

/-- All options with a value. -/
def launchNames : List Str := paths ++ truths ++ [c!"rotate-option"]

theorem suits_name {n v : Str} (h : Suits n v) : n ∈ launchNames := by
  rcases h with h | ⟨h, -⟩ | ⟨h, -⟩ <;> simp [launchNames, h]

theorem launch_found : ∀ n ∈ launchNames, ∃ d, Launch.find n = .ok (some d) ∧ d.long = n ∧ d.kind ≠ .nothing ∧ n ≠ [] ∧ '=' ∉ n := by
  intro n hn
  have : ∀ n ∈ launchNames, (match Launch.find n with
    | .ok (some d) => d.long == n && (d.kind != .nothing)
    | _ => false) = true ∧ n ≠ [] ∧ '=' ∉ n := by decide +kernel
  obtain ⟨h, h2, h3⟩ := this n hn
  split at h
  · rename_i d hd
    rw [Bool.and_eq_true, beq_iff_eq, bne_iff_ne] at h
    exact ⟨d, hd, h.1, h.2, h2, h3⟩
  · cases h

theorem looks_plain {v : Str} (h : v.head? ≠ some '-') : looks v = .ok false := by
  unfold looks longOpt shortOpt
  match v, h with
  | [], _ => rfl
  | [a], _ => rfl
  | a :: b :: r, h =>
    have ha : a ≠ '-' := by simpa using h
    simp [ha, Out.bind]

theorem long_apart {n : Str} (h0 : n ≠ []) (h : '=' ∉ n) : longOpt (c!"--" ++ n) = .ok (some ⟨n, []⟩) := by
  show longOpt ('-' :: '-' :: n) = _
  unfold longOpt
  simp [h0, h]

theorem before_eq {n v : Str} (h : '=' ∉ n) : (n ++ '=' :: v).takeWhile (· ≠ '=') = n ∧ (n ++ '=' :: v).dropWhile (· ≠ '=') = '=' :: v := by
  induction n with
  | nil => simp
  | cons c n ih =>
    have hc : c ≠ '=' := fun e => h (by simp [e])
    obtain ⟨h1, h2⟩ := ih (fun e => h (List.mem_cons_of_mem _ e))
    rw [List.cons_append, List.takeWhile_cons, List.dropWhile_cons]
    simp only [ne_eq, hc, not_false_eq_true, decide_true, if_true]
    exact ⟨by rw [h1], h2⟩

theorem long_joined {n v : Str} (hv : v ≠ []) (h : '=' ∉ n) : longOpt (c!"--" ++ (n ++ '=' :: v)) = .ok (some ⟨n, [v]⟩) := by
  show longOpt ('-' :: '-' :: (n ++ '=' :: v)) = _
  unfold longOpt
  obtain ⟨h1, h2⟩ := before_eq (v := v) h
  dsimp only
  rw [if_pos ⟨rfl, rfl, by simp⟩, if_pos (by simp), h1, h2]
  simp [hv]

theorem brief_found {n p : Str} (hn : n ∈ launchNames) (h : Brief n p) :
    ∃ d, Launch.find p = .ok (some d) ∧ d.long = n ∧ d.kind ≠ .nothing ∧ p ≠ [] ∧ '=' ∉ p := by
  rcases h with rfl | ⟨h0, h1, h2⟩
  · exact launch_found p hn
  · have : ∀ n ∈ launchNames, ∀ p ∈ n.inits, p ≠ [] → (∀ n' ∈ names, p ∈ n'.inits → n' = n) → (match Launch.find p with
      | .ok (some d) => d.long == n && (d.kind != .nothing)
      | _ => false) = true ∧ '=' ∉ p := by decide +kernel
    obtain ⟨h, h3⟩ := this n hn p h1 h0 h2
    split at h
    · rename_i d hd
      rw [Bool.and_eq_true, beq_iff_eq, bne_iff_ne] at h
      exact ⟨d, hd, h.1, h.2, h0, h3⟩
    · cases h

theorem letter_found : ∀ e ∈ letters, ∃ d, Launch.find ['-', e.2] = .ok (some d) ∧ d.long = e.1 ∧ d.kind ≠ .nothing ∧ plainLetter e.2 = false ∧ e.2 ≠ '-' := by
  intro e he
  have : ∀ e ∈ letters, (match Launch.find ['-', e.2] with
    | .ok (some d) => d.long == e.1 && (d.kind != .nothing)
    | _ => false) = true ∧ plainLetter e.2 = false ∧ e.2 ≠ '-' := by decide +kernel
  obtain ⟨h, h2, h3⟩ := this e he
  split at h
  · rename_i d hd
    rw [Bool.and_eq_true, beq_iff_eq, bne_iff_ne] at h
    exact ⟨d, hd, h.1, h.2, h2, h3⟩
  · cases h

theorem finish_apart {k v : Str} {d : Desc} (hk : k ≠ []) (hf : Launch.find k = .ok (some d)) (hd : d.kind ≠ .nothing) (hv : v.head? ≠ some '-')
    (r : List Str) : finish ⟨k, []⟩ (v :: r) = .ok (⟨d.long, [v]⟩, r) := by
  unfold finish
  rw [if_neg hk, hf]
  simp only [Out.bind]
  rw [if_neg hd, if_neg (by simp)]
  simp [looks_plain hv]

theorem finish_joined {k v : Str} {d : Desc} (hk : k ≠ []) (hf : Launch.find k = .ok (some d)) (hd : d.kind ≠ .nothing)
    (r : List Str) : finish ⟨k, [v]⟩ r = .ok (⟨d.long, [v]⟩, r) := by
  unfold finish
  rw [if_neg hk, hf]
  simp only [Out.bind]
  rw [if_neg hd, if_pos (by simp)]

theorem long_short {c : Char} (h : c ≠ '-') (r : Str) : longOpt ('-' :: c :: r) = .ok none := by
  unfold longOpt
  dsimp only
  rw [if_neg (fun e => h e.2.1)]

theorem short_short {c : Char} (h : c ≠ '-') (r : Str) : shortOpt ('-' :: c :: r) = some (sticky c r) := by
  unfold shortOpt
  dsimp only
  rw [if_pos ⟨rfl, h⟩]

theorem cut_line {l : List (Str × Str)} {args : List Str} (h : Line l args) (hn : ∀ e ∈ l, e.1 ∈ launchNames) (rest : List Str) (m : Nat)
    (hm : args.length + rest.length < m) :
    ∃ m', rest.length < m' ∧ cut m (args ++ rest) = (cut m' rest).bind fun x => .ok (l.map (fun e => ⟨e.1, [e.2]⟩) ++ x) := by
  induction h generalizing m with
  | nil =>
    refine ⟨m, by simpa using hm, ?_⟩
    cases hc : cut m ([] ++ rest) <;> (rw [List.nil_append] at hc; simp [hc, Out.bind])
  | cons n v a l r hs _ ih =>
    have hl := hn (n, v) (List.mem_cons_self ..)
    have hn' := fun e he => hn e (List.mem_cons_of_mem (n, v) he)
    cases m with
    | zero => exact absurd hm (by omega)
    | succ m =>
      cases hs with
      | apart p hp hv =>
        obtain ⟨d, d1, d2, d3, d4, d5⟩ := brief_found hl hp
        obtain ⟨m', h1, ih⟩ := ih hn' m (by simp at hm; omega)
        refine ⟨m', h1, ?_⟩
        rw [List.append_assoc, List.cons_append, cut, long_apart d4 d5]
        simp only [Out.bind, List.singleton_append]
        rw [finish_apart d4 d1 d3 hv, d2]
        simp only [ih, List.map_cons]
        cases cut m' rest <;> rfl
      | joined p hp hv =>
        obtain ⟨d, d1, d2, d3, d4, d5⟩ := brief_found hl hp
        obtain ⟨m', h1, ih⟩ := ih hn' m (by simp at hm; omega)
        refine ⟨m', h1, ?_⟩
        rw [List.append_assoc, List.cons_append, List.nil_append, cut, long_joined hv d5]
        simp only [Out.bind]
        rw [finish_joined d4 d1 d3, d2]
        simp only [ih, List.map_cons]
        cases cut m' rest <;> rfl
      | letter c hc hv =>
        obtain ⟨d, d1, d2, d3, d4, d5⟩ := letter_found _ hc
        obtain ⟨m', h1, ih⟩ := ih hn' m (by simp at hm; omega)
        refine ⟨m', h1, ?_⟩
        dsimp only at d1 d2 d4 d5
        rw [List.append_assoc, List.cons_append, cut, long_short d5]
        simp only [Out.bind, List.singleton_append, short_short d5]
        rw [show sticky c [] = [⟨['-', c], []⟩] from rfl, finishAll, finish_apart (by simp) d1 d3 hv, d2]
        simp only [Out.bind, ih, List.map_cons]
        cases cut m' rest <;> rfl
      | stuck c hc hv =>
        obtain ⟨d, d1, d2, d3, d4, d5⟩ := letter_found _ hc
        obtain ⟨m', h1, ih⟩ := ih hn' m (by simp at hm; omega)
        refine ⟨m', h1, ?_⟩
        dsimp only at d1 d2 d4 d5
        rw [List.append_assoc, List.cons_append, List.nil_append, cut, long_short d5]
        have e : sticky c v = [⟨['-', c], [v]⟩] := by
          cases v with
          | nil => exact absurd rfl hv
          | cons a v => rw [sticky, if_neg (by rw [d4]; decide)]
        simp only [Out.bind, short_short d5, e]
        rw [finishAll, finish_joined (by simp) d1 d3, d2]
        simp only [Out.bind, ih, List.map_cons]
        cases cut m' rest <;> rfl

theorem cut_whole {l : List (Str × Str)} {args : List Str} (h : Line l args) (hn : ∀ e ∈ l, e.1 ∈ launchNames) (m : Nat) (hm : args.length < m) :
    cut m args = .ok (l.map (fun e => ⟨e.1, [e.2]⟩)) := by
  obtain ⟨m', _, h2⟩ := cut_line h hn [] m (by simpa using hm)
  rw [List.append_nil] at h2
  rw [h2]
  cases m' <;> simp [cut, Out.bind]

theorem suits_valid {n v : Str} (h : Suits n v) : valid (kindOf n) v = true := by
  rcases h with h | ⟨h, hv⟩ | ⟨rfl, hv⟩
  · have : ∀ n ∈ paths, kindOf n = .text := by decide +kernel
    rw [this n h]; rfl
  · have h1 : ∀ n ∈ truths, kindOf n = .truth := by decide +kernel
    have h3 : ∀ t ∈ yes ++ no, (if t ∈ [[], c!"on", c!"yes", c!"1", c!"true"] then some true
        else if t ∈ [c!"off", c!"no", c!"0", c!"false"] then some false else none : Option Bool).isSome = true := by decide +kernel
    have h2 : ∀ v, AnyCase (yes ++ no) v → valid .truth v = true := fun v hv => h3 _ hv
    rw [h1 n h]; exact h2 v hv
  · have h2 : ∀ v ∈ rotations, valid (kindOf c!"rotate-option") v = true := by decide +kernel
    exact h2 v hv

theorem store_line (l : List (Str × Str)) (hs : ∀ e ∈ l, Suits e.1 e.2) (acc : List (Str × Str)) (hn : ((acc ++ l).map (·.1)).Nodup) (x : List Item) :
    Launch.store (l.map (fun e => ⟨e.1, [e.2]⟩) ++ x) acc = Launch.store x (acc ++ l) := by
  induction l generalizing acc with
  | nil => simp
  | cons e l ih =>
    obtain ⟨n, v⟩ := e
    have hv := hs (n, v) (List.mem_cons_self ..)
    obtain ⟨d, d1, d2, d3, d4, d5⟩ := launch_found n (suits_name hv)
    rw [List.map_cons, List.cons_append, Launch.store]
    dsimp only
    have hf : ¬ acc.any (fun e => e.1 == n) = true := by
      intro h
      rw [List.any_eq_true] at h
      obtain ⟨e, he, h⟩ := h
      rw [List.map_append, List.nodup_append] at hn
      exact hn.2.2 e.1 (List.mem_map_of_mem he) n (by simp) (beq_iff_eq.mp h)
    rw [if_neg d4, if_neg hf, List.headD_cons, if_pos (suits_valid hv),
      ih (fun e he => hs e (List.mem_cons_of_mem _ he)) (acc ++ [(n, v)]) (by simpa using hn)]
    simp

theorem given_mem {l : List (Str × Str)} (hn : (l.map (·.1)).Nodup) {n v : Str} (h : (n, v) ∈ l) : Launch.given l n = some v := by
  unfold Launch.given
  induction l with
  | nil => cases h
  | cons e l ih =>
    rw [List.map_cons, List.nodup_cons] at hn
    rcases List.mem_cons.mp h with rfl | h
    · simp
    · have : e.1 ≠ n := fun he => hn.1 (by rw [he]; exact List.mem_map_of_mem h)
      rw [List.find?_cons_of_neg (by simpa using this)]
      exact ih hn.2 h

theorem given_none {l : List (Str × Str)} {n : Str} (h : ∀ v, (n, v) ∉ l) : Launch.given l n = none := by
  unfold Launch.given
  rw [Option.map_eq_none_iff, List.find?_eq_none]
  intro e he hh
  rw [beq_iff_eq] at hh
  exact h e.2 (by rw [← hh]; exact he)

theorem given_path {l : List (Str × Str)} (hn : (l.map (·.1)).Nodup) (n p : Str) : PathIs l n p ↔ (Launch.given l n).getD [] = p := by
  unfold PathIs
  by_cases h : ∃ v, (n, v) ∈ l
  · obtain ⟨v, h⟩ := h
    rw [given_mem hn h]
    constructor
    · rintro (h1 | ⟨h1, -⟩)
      · have := (given_mem hn h).symm.trans (given_mem hn h1)
        simpa using this
      · exact absurd h (h1 v)
    · intro e; left; rw [← e]; exact h
  · push Not at h
    rw [given_none h]
    constructor
    · rintro (h1 | ⟨-, h1⟩)
      · exact absurd h1 (h p)
      · exact h1.symm
    · intro e; right; exact ⟨h, e.symm⟩

theorem main_line {l : List (Str × Str)} {args : List Str} (h : Line l args) (hn : (l.map (·.1)).Nodup) (hs : ∀ e ∈ l, Suits e.1 e.2) :
    Launch.main args = .ok (.run ⟨(Launch.given l c!"ncsetting-path").getD [],
      (if (Launch.given l c!"log-path").getD [] = [] then none else Launch.given l c!"log-path"),
      (Launch.given l c!"macro-desc-path").getD [], ((Launch.given l c!"calculate-path").bind truthOf).getD false⟩) := by
  unfold Launch.main
  rw [cut_whole h (fun e he => suits_name (hs e he)) _ (Nat.lt_succ_self _)]
  simp only [Out.bind]
  rw [← List.append_nil (l.map _), store_line l hs [] (by simpa using hn), List.nil_append, Launch.store]
  dsimp only
  have hh : Launch.given l c!"help" = none := given_none (fun v hv => by
    have : c!"help" ∈ launchNames := suits_name (hs _ hv)
    exact absurd this (by decide))
  rw [hh]
  rfl

/-- C114: however suitable options are spelled and ordered, the server starts and works with the paths that were given, writes a log
exactly if a path was given for it, and calculates path and time exactly if this was asked for. -/
theorem C114_line (l : List (Str × Str)) (args : List Str) (h : Line l args) (hn : (l.map (·.1)).Nodup) (hs : ∀ e ∈ l, Suits e.1 e.2) :
    ∃ s, Launch.main args = .ok (.run s) ∧ PathIs l c!"ncsetting-path" s.settings ∧ PathIs l c!"macro-desc-path" s.macros ∧
      PathIs l c!"log-path" (s.log.getD []) ∧ s.log ≠ some [] ∧
      (s.calculate = true ↔ ∃ v, AnyCase yes v ∧ (c!"calculate-path", v) ∈ l) := by
  refine ⟨_, main_line h hn hs, (given_path hn _ _).mpr rfl, (given_path hn _ _).mpr rfl, ?_, ?_, ?_⟩
  · rw [given_path hn]
    dsimp only
    split
    · rename_i h; rw [h]; rfl
    · rfl
  · dsimp only
    split
    · simp
    · rename_i h
      intro e
      rw [e] at h
      exact h rfl
  · dsimp only
    by_cases hc : ∃ v, (c!"calculate-path", v) ∈ l
    · obtain ⟨v, hc⟩ := hc
      rw [given_mem hn hc]
      have hv : AnyCase (yes ++ no) v := by
        rcases hs _ hc with h | ⟨-, h⟩ | ⟨h, -⟩
        · exact absurd h (by show ¬ c!"calculate-path" ∈ paths; decide)
        · exact h
        · exact absurd h (by show ¬ c!"calculate-path" = c!"rotate-option"; decide)
      have h3 : ∀ t ∈ yes ++ no, ((if t ∈ [[], c!"on", c!"yes", c!"1", c!"true"] then some true
          else if t ∈ [c!"off", c!"no", c!"0", c!"false"] then some false else none : Option Bool).getD false = true ↔ t ∈ yes) := by decide +kernel
      have ht : ((some v).bind truthOf).getD false = true ↔ AnyCase yes v := h3 _ hv
      rw [ht]
      constructor
      · intro h; exact ⟨v, h, hc⟩
      · rintro ⟨w, hw, hc'⟩
        have := (given_mem hn hc).symm.trans (given_mem hn hc')
        rw [Option.some.injEq] at this
        rw [this]; exact hw
    · push Not at hc
      rw [given_none hc]
      constructor
      · intro h; cases h
      · rintro ⟨w, -, hc'⟩; exact absurd hc' (hc w)

example : Launch.main [c!"--log-path", c!"a b.log", c!"--calculate-path=ON", c!"-n", c!"C:\\x.ncsetting"] =
    .ok (.run ⟨c!"C:\\x.ncsetting", some c!"a b.log", [], true⟩) := by decide +kernel

example : Line [(c!"log-path", c!"a b.log"), (c!"calculate-path", c!"true")] [c!"--log-path", c!"a b.log", c!"--calculate-path=true"] ∧
    ∀ e ∈ [(c!"log-path", c!"a b.log"), (c!"calculate-path", c!"true")], Suits e.1 e.2 :=
  ⟨.cons _ _ [_, _] _ [_] (.apart _ (Or.inl rfl) (by decide)) (.cons _ _ [_] _ [] (.joined _ (Or.inl rfl) (by decide)) .nil), by unfold Suits; decide⟩

example : Line [(c!"log-path", c!"a b.log"), (c!"ncsetting-path", c!"x"), (c!"calculate-path", c!"1")] [c!"--lo", c!"a b.log", c!"-nx", c!"--calc=1"] :=
  .cons _ _ [_, _] _ [_, _] (.apart c!"lo" (Or.inr (by decide)) (by decide)) (.cons _ _ [_] _ [_] (.stuck 'n' (by decide) (by decide))
    (.cons _ _ [_] _ [] (.joined c!"calc" (Or.inr (by decide)) (by decide)) .nil))

theorem store_twice (l1 l2 : List Item) (i j : Item) (hk : i.key = j.key) (hi : i ∈ l1) (acc : List (Str × Str)) :
    ∃ e, Launch.store (l1 ++ j :: l2) acc = .throw e := by
  have stored : ∀ l : List Item, ∀ acc : List (Str × Str), acc.any (fun e => e.1 == j.key) = true → ∃ e, Launch.store (l ++ j :: l2) acc = .throw e := by
    intro l
    induction l with
    | nil =>
      intro acc ha
      rw [List.nil_append, Launch.store, if_pos ha]
      split
      · exact ⟨_, rfl⟩
      · exact ⟨_, rfl⟩
    | cons x l ih =>
      intro acc ha
      rw [List.cons_append, Launch.store]
      split
      · exact ⟨_, rfl⟩
      · split
        · exact ⟨_, rfl⟩
        · split
          · exact ih _ (by rw [List.any_append, ha]; rfl)
          · exact ⟨_, rfl⟩
  induction l1 generalizing acc with
  | nil => cases hi
  | cons x l ih =>
    rw [List.cons_append, Launch.store]
    split
    · exact ⟨_, rfl⟩
    · split
      · exact ⟨_, rfl⟩
      · split
        · rcases List.mem_cons.mp hi with rfl | h
          · exact stored l _ (by rw [List.any_append, List.any_cons, hk]; simp)
          · exact ih h _
        · exact ⟨_, rfl⟩

/-- C114: an option that is given twice is refused, however it is spelled. -/
theorem C114_once (l : List (Str × Str)) (args : List Str) (h : Line l args) (hn : ¬ (l.map (·.1)).Nodup) (hs : ∀ e ∈ l, Suits e.1 e.2) :
    ∃ e, Launch.main args = .throw e := by
  obtain ⟨l1, l2, x, y, hl, hx, hk⟩ : ∃ l1 l2 x y, l = l1 ++ y :: l2 ∧ x ∈ l1 ∧ x.1 = y.1 := by
    clear h hs
    induction l using List.reverseRecOn with
    | nil => exact absurd List.nodup_nil hn
    | append_singleton l y ih =>
      by_cases hh : (l.map (·.1)).Nodup
      · rw [List.map_append, List.nodup_append] at hn
        have : y.1 ∈ l.map (·.1) := by
          by_contra hy
          refine hn ⟨hh, by simp, ?_⟩
          rintro a ha b hb rfl
          rw [List.map_singleton, List.mem_singleton] at hb
          exact hy (hb ▸ ha)
        obtain ⟨x, hx, hxy⟩ := List.mem_map.mp this
        exact ⟨l, [], x, y, rfl, hx, hxy⟩
      · obtain ⟨l1, l2, x, z, hl, hx, hk⟩ := ih hh
        exact ⟨l1, l2 ++ [y], x, z, by rw [hl]; simp, hx, hk⟩
  unfold Launch.main
  rw [cut_whole h (fun e he => suits_name (hs e he)) _ (Nat.lt_succ_self _)]
  simp only [Out.bind]
  rw [hl, List.map_append, List.map_cons]
  obtain ⟨e, he⟩ := store_twice (l1.map (fun e => ⟨e.1, [e.2]⟩)) (l2.map (fun e => ⟨e.1, [e.2]⟩)) ⟨x.1, [x.2]⟩ ⟨y.1, [y.2]⟩ hk
    (List.mem_map_of_mem (f := fun e : Str × Str => (⟨e.1, [e.2]⟩ : Item)) hx) []
  exact ⟨e, by rw [he]⟩

theorem store_stray (l : List Item) (h : ∃ i ∈ l, i.key = []) (acc : List (Str × Str)) : ∃ e, Launch.store l acc = .throw e := by
  induction l generalizing acc with
  | nil => obtain ⟨i, hi, _⟩ := h; cases hi
  | cons x l ih =>
    obtain ⟨i, hi, hk⟩ := h
    rw [Launch.store]
    split
    · exact ⟨_, rfl⟩
    · rename_i hx
      split
      · exact ⟨_, rfl⟩
      · split
        · rcases List.mem_cons.mp hi with rfl | h
          · exact absurd hk hx
          · exact ih ⟨i, h, hk⟩ _
        · exact ⟨_, rfl⟩

theorem cut_no_ub : ∀ m args, cut m args ≠ .ub := by
  have hfind : ∀ k, Launch.find k ≠ .ub := by
    intro k
    unfold Launch.find
    split
    · simp
    · split
      · simp
      · split <;> simp
  have hlong : ∀ t, longOpt t ≠ .ub := by
    intro t
    unfold longOpt
    split
    · split
      · split
        · split <;> simp
        · simp
      · simp
    · simp
  have bind : ∀ {α β : Type} (x : Out Err α) (f : α → Out Err β), x ≠ .ub → (∀ a, f a ≠ .ub) → x.bind f ≠ .ub := by
    intro α β x f hx hf
    cases x with
    | ok a => exact hf a
    | throw e => simp [Out.bind]
    | ub => exact absurd rfl hx
  have hfin : ∀ i r, finish i r ≠ .ub := by
    intro i r
    unfold finish
    split
    · simp
    · refine bind _ _ (hfind _) ?_
      intro d
      split
      · simp
      · split
        · split <;> simp
        · split
          · simp
          · split
            · simp
            · refine bind _ _ (bind _ _ (hlong _) (by simp)) ?_
              intro b
              refine bind _ _ ?_ ?_
              · split
                · exact hfind _
                · simp
              · intro o
                split <;> simp
  have hall : ∀ l r, finishAll l r ≠ .ub := by
    intro l
    induction l with
    | nil => intro r; simp [finishAll]
    | cons i l ih =>
      intro r
      cases l with
      | nil => rw [finishAll]; exact bind _ _ (hfin _ _) (by simp)
      | cons j l => rw [finishAll]; exacts [bind _ _ (hfin _ _) (fun a => bind _ _ (ih _) (by simp)), by simp]
  intro m
  induction m with
  | zero => intro args; simp [cut]
  | succ m ih =>
    intro args
    cases args with
    | nil => simp [cut]
    | cons t r =>
      rw [cut]
      refine bind _ _ (hlong _) ?_
      intro i
      split
      · exact bind _ _ (hfin _ _) (fun a => bind _ _ (ih _) (by simp))
      · split
        · exact bind _ _ (hall _ _) (fun a => bind _ _ (ih _) (by simp))
        · split
          · simp
          · exact bind _ _ (ih _) (by simp)

/-- C114: what is no list of options with their values is refused, wherever it stands. -/
theorem C114_refused (l : List (Str × Str)) (args rest : List Str) (h : Line l args) (hs : ∀ e ∈ l, Suits e.1 e.2) (hr : Refused rest) :
    ∃ e, Launch.main (args ++ rest) = .throw e := by
  obtain ⟨m, hm, hc⟩ := cut_line h (fun e he => suits_name (hs e he)) rest ((args ++ rest).length + 1) (by simp)
  have key : (∃ e, cut m rest = .throw e) → ∃ e, Launch.main (args ++ rest) = .throw e := by
    rintro ⟨e, he⟩
    refine ⟨e, ?_⟩
    unfold Launch.main
    rw [hc, he]
    rfl
  cases m with
  | zero => exact absurd hm (by omega)
  | succ m =>
    cases hr with
    | stray t r ht =>
      have hlk := looks_plain ht
      have h1 : longOpt t = .ok none := by
        unfold looks at hlk
        cases hx : longOpt t with
        | ok i => cases i with
          | none => rfl
          | some i => rw [hx] at hlk; simp [Out.bind] at hlk
        | throw e => rw [hx] at hlk; cases hlk
        | ub => rw [hx] at hlk; cases hlk
      have h2 : shortOpt t = none := by
        unfold looks at hlk
        rw [h1] at hlk
        simpa [Out.bind] using hlk
      have h3 : t ≠ c!"--" := by rintro rfl; exact ht rfl
      have hcut : cut (m + 1) (t :: r) = (cut m r).bind fun l => .ok (⟨[], [t]⟩ :: l) := by
        rw [cut, h1]
        simp only [Out.bind, h2]
        rw [if_neg h3]
      cases hcr : cut m r with
      | throw e => exact key ⟨e, by rw [hcut, hcr]; rfl⟩
      | ub => exact absurd hcr (cut_no_ub _ _)
      | ok x =>
        rw [hcut, hcr] at hc
        simp only [Out.bind] at hc
        obtain ⟨e, he⟩ := store_stray (l.map (fun e => ⟨e.1, [e.2]⟩) ++ ⟨[], [t]⟩ :: x) ⟨⟨[], [t]⟩, by simp, rfl⟩ []
        refine ⟨e, ?_⟩
        unfold Launch.main
        rw [hc]
        simp only [Out.bind, he]
    | unclear p r h0 hdash h1 h2 h3 =>
      refine key ?_
      have hd : descs.map (·.long) = names := by decide
      have hf : ∃ x, Launch.find p = x ∧ (x = .throw .ambiguous ∨ x = .ok none) := by
        by_cases hp : ∃ n ∈ names, p ∈ n.inits
        · obtain ⟨n, hn, hp⟩ := hp
          have : ∀ n ∈ names, ∀ p ∈ n.inits, p ≠ [] → p ∉ names → (∃ n' ∈ names, n' ≠ n ∧ p ∈ n'.inits) → Launch.find p = .throw .ambiguous := by
            decide +kernel
          exact ⟨_, this n hn p hp h0 h2 (h3 n hn hp), Or.inl rfl⟩
        · refine ⟨_, ?_, Or.inr rfl⟩
          have hnone : ∀ d ∈ descs, d.full p = false := by
            intro d hdm
            unfold Desc.full
            have : d.long ≠ p := by
              rintro rfl
              exact h2 (hd ▸ List.mem_map_of_mem hdm)
            cases hc : d.short with
            | none => simp [this]
            | some c =>
              have he : p ≠ ['-', c] := by rintro rfl; exact hdash rfl
              simp [this, he]
          have hnear : ∀ d ∈ descs, d.near p = false := by
            intro d hdm
            unfold Desc.near
            have : p.isPrefixOf d.long = false := by
              rw [Bool.eq_false_iff]
              intro hpre
              exact hp ⟨d.long, hd ▸ List.mem_map_of_mem hdm, (List.mem_inits _ _).mpr (List.isPrefixOf_iff_prefix.mp hpre)⟩
            rw [this, Bool.and_false]
          unfold Launch.find
          rw [List.filter_eq_nil_iff.mpr (fun d hx => by rw [hnone d hx]; decide), List.find?_eq_none.mpr (fun d hx => by rw [hnone d hx]; decide),
            List.filter_eq_nil_iff.mpr (fun d hx => by rw [hnear d hx]; decide), List.find?_eq_none.mpr (fun d hx => by rw [hnear d hx]; decide)]
          rfl
      obtain ⟨x, hx, hor⟩ := hf
      rw [cut, long_apart h0 h1]
      simp only [Out.bind]
      rcases hor with rfl | rfl
      · have hfin : finish ⟨p, []⟩ r = .throw .ambiguous := by
          unfold finish
          rw [if_neg h0, hx]
          rfl
        exact ⟨_, by rw [hfin]⟩
      · have hfin : finish ⟨p, []⟩ r = .throw .unknown := by
          unfold finish
          rw [if_neg h0, hx]
          rfl
        exact ⟨_, by rw [hfin]⟩
    | empty p r hp =>
      refine key ⟨.empty, ?_⟩
      rw [cut]
      show (longOpt ('-' :: '-' :: (p ++ ['=']))).bind _ = _
      unfold longOpt
      obtain ⟨h1, h2⟩ := before_eq (v := []) hp
      dsimp only
      rw [if_pos ⟨rfl, rfl, by simp⟩, if_pos (by simp), h2]
      rfl
    | lacking n hn hh =>
      refine key ⟨.missing, ?_⟩
      have : n ∈ launchNames := by
        have : ∀ n ∈ names, n ≠ c!"help" → n ∈ launchNames := by decide
        exact this n hn hh
      obtain ⟨d, d1, d2, d3, d4, d5⟩ := launch_found n this
      rw [cut, long_apart d4 d5]
      simp only [Out.bind]
      have hf : finish ⟨n, []⟩ [] = .throw .missing := by
        unfold finish
        rw [if_neg d4, d1]
        simp only [Out.bind]
        rw [if_neg d3, if_neg (by simp)]
      rw [hf]

/-- C114: with `--help` or `-h` the server shows its options and ends with 1. -/
theorem C114_help (l : List (Str × Str)) (args : List Str) (h : Line l args) (hn : (l.map (·.1)).Nodup) (hs : ∀ e ∈ l, Suits e.1 e.2) (t : Str)
    (ht : t ∈ [c!"--help", c!"-h"]) : Launch.main (args ++ [t]) = .ok (.exit 1) := by
  obtain ⟨m, hm, hc⟩ := cut_line h (fun e he => suits_name (hs e he)) [t] ((args ++ [t]).length + 1) (by simp)
  have h1 : cut m [t] = .ok [⟨c!"help", []⟩] := by
    match m, hm with
    | m + 2, _ =>
      simp only [List.mem_cons, List.not_mem_nil, or_false] at ht
      rcases ht with rfl | rfl <;> rfl
  rw [h1] at hc
  simp only [Out.bind] at hc
  have hf : ∀ v, (c!"help", v) ∉ l := by
    intro v hv
    have : c!"help" ∈ launchNames := suits_name (hs _ hv)
    exact absurd this (by decide)
  have hs2 : Launch.store [⟨c!"help", []⟩] l = .ok (l ++ [(c!"help", [])]) := by
    rw [Launch.store]
    have : ¬ l.any (fun e => e.1 == c!"help") = true := by
      intro h
      rw [List.any_eq_true] at h
      obtain ⟨e, he, h⟩ := h
      exact hf e.2 (by rw [← beq_iff_eq.mp h]; exact he)
    dsimp only
    rw [if_neg (by decide), if_neg this, if_pos (by decide)]
    rfl
  unfold Launch.main
  rw [hc]
  simp only [Out.bind]
  rw [store_line l hs [] (by simpa using hn), List.nil_append, hs2]
  dsimp only
  have hg : Launch.given (l ++ [(c!"help", [])]) c!"help" = some [] := by
    unfold Launch.given
    rw [List.find?_append, List.find?_eq_none.mpr]
    · rfl
    · intro e he hh
      exact hf e.2 (by rw [← beq_iff_eq.mp hh]; exact he)
  rw [hg]
  rfl

example : Refused [c!"--r"] ∧ Refused [c!"--log-path=", c!"x"] ∧ Refused [c!"x"] ∧ Refused [c!"--log-path"] ∧ Refused [c!"--logs", c!"x"] :=
  ⟨.unclear c!"r" [] (by decide) (by decide) (by decide) (by decide) (by decide), .empty c!"log-path" _ (by decide), .stray _ _ (by decide),
    .lacking c!"log-path" (by decide) (by decide), .unclear c!"logs" _ (by decide) (by decide) (by decide) (by decide) (by decide)⟩

/-- C114, violated: options that are offered change nothing. -/
theorem C114_violated_idle (l : List (Str × Str)) (args more : List Str) (n v : Str) (hi : n ∈ idle) (h : Line l args) (h' : Line ((n, v) :: l) more)
    (hn : (((n, v) :: l).map (·.1)).Nodup) (hs : ∀ e ∈ (n, v) :: l, Suits e.1 e.2) : Launch.main more = Launch.main args := by
  rw [main_line h' hn hs, main_line h (List.nodup_cons.mp (by simpa using hn)).2 (fun e he => hs e (List.mem_cons_of_mem _ he))]
  have : ∀ n ∈ idle, n ≠ c!"ncsetting-path" ∧ n ≠ c!"log-path" ∧ n ≠ c!"macro-desc-path" ∧ n ≠ c!"calculate-path" := by decide
  obtain ⟨h1, h2, h3, h4⟩ := this n hi
  have hg : ∀ k, n ≠ k → Launch.given ((n, v) :: l) k = Launch.given l k := by
    intro k hk
    unfold Launch.given
    rw [List.find?_cons_of_neg (by simpa using hk)]
  rw [hg _ h1, hg _ h2, hg _ h3, hg _ h4]

/-! ## The editor -/

/-- An option of the extension with its value, if there is one. -/
def passed (n : Str) : Option Str → List (Str × Str)
  | some v => if v = [] then [] else [(n, v)]
  | none => []

theorem pass_line {n : Str} {o : Option Str} (h : ∀ v, o = some v → v.head? ≠ some '-') {l : List (Str × Str)} {r : List Str} (hl : Line l r) :
    Line (passed n o ++ l) (pass (c!"--" ++ n) o ++ r) := by
  unfold passed pass
  cases o with
  | none => exact hl
  | some v =>
    dsimp only
    split
    · exact hl
    · exact .cons _ _ [_, _] _ _ (.apart n (Or.inl rfl) (h v rfl)) hl

theorem configured_iff (c : Ext.Store) (k : Ext.Key) (hk : k ∈ [Ext.Key.ncsettingPath, .logPath, .macroPath]) (v : Str) :
    Configured c k v ↔ (c.effective k).getD [] = v := by
  unfold Configured Ext.Store.effective
  simp only [List.mem_cons, List.not_mem_nil, or_false] at hk
  cases hw : c .workspace k with
  | some x => simp
  | none =>
    cases hg : c .global k with
    | some x => simp
    | none => rcases hk with rfl | rfl | rfl <;> simp [Ext.fallback, eq_comm]

theorem calculated_iff (c : Ext.Store) : Calculated c ↔ c.effective .pathTime = some c!"true" := by
  unfold Calculated Ext.Store.effective
  cases hw : c .workspace .pathTime with
  | some x => simp
  | none =>
    cases hg : c .global .pathTime with
    | some x => simp
    | none => simp [Ext.fallback]

/-- The options that the extension passes. -/
def passedOptions (c : Ext.Store) : List (Str × Str) :=
  passed c!"ncsetting-path" (c.effective .ncsettingPath) ++ (passed c!"log-path" (c.effective .logPath) ++
    ((if c.effective .pathTime = some c!"true" then [(c!"calculate-path", c!"true")] else []) ++
      (passed c!"macro-desc-path" (c.effective .macroPath) ++ [])))

theorem passed_mem {n : Str} {o : Option Str} {e : Str × Str} : e ∈ passed n o ↔ e.1 = n ∧ e.2 ≠ [] ∧ o = some e.2 := by
  unfold passed
  obtain ⟨a, b⟩ := e
  cases o with
  | none => simp
  | some v =>
    dsimp only
    split
    · rename_i h
      subst h
      simp only [List.not_mem_nil, Option.some.injEq, false_iff]
      rintro ⟨-, h1, h2⟩
      exact h1 h2.symm
    · rename_i h
      simp only [List.mem_singleton, Prod.mk.injEq, Option.some.injEq]
      constructor
      · rintro ⟨h1, h2⟩; exact ⟨h1, by rw [h2]; exact h, h2.symm⟩
      · rintro ⟨h1, -, h2⟩; exact ⟨h1, h2.symm⟩

theorem passed_path {c : Ext.Store} {n p : Str} {o : Option Str}
    (hm : ∀ v, (n, v) ∈ passedOptions c ↔ v ≠ [] ∧ o = some v) (h : PathIs (passedOptions c) n p) : o.getD [] = p := by
  rcases h with h | ⟨h, rfl⟩
  · rw [((hm p).mp h).2]; rfl
  · cases o with
    | none => rfl
    | some v =>
      by_cases hv : v = []
      · rw [hv]; rfl
      · exact absurd ((hm v).mpr ⟨hv, rfl⟩) (h v)

/-- C114: whatever the editor is configured with, the server starts and works with it, if no path begins with a dash.
Missing: paths with a dash at the beginning, see below. -/
theorem C114_editor_partial (c : Ext.Store)
    (hp : ∀ k ∈ [Ext.Key.ncsettingPath, .logPath, .macroPath], ∀ v, Configured c k v → v.head? ≠ some '-') :
    ∃ s, Launch.main (arguments c) = .ok (.run s) ∧ Configured c .ncsettingPath s.settings ∧ Configured c .macroPath s.macros ∧
      Configured c .logPath (s.log.getD []) ∧ s.log ≠ some [] ∧ (s.calculate = true ↔ Calculated c) := by
  have hd : ∀ k ∈ [Ext.Key.ncsettingPath, .logPath, .macroPath], ∀ v, c.effective k = some v → v.head? ≠ some '-' :=
    fun k hk v hv => hp k hk v ((configured_iff c k hk v).mpr (by rw [hv]; rfl))
  have hl : Line (passedOptions c) (arguments c) := by
    unfold passedOptions arguments
    refine pass_line (hd _ (by simp)) (pass_line (hd _ (by simp)) ?_)
    rw [← List.append_nil (pass c!"--macro-desc-path" _)]
    split
    · exact .cons _ _ [_, _] _ _ (.apart _ (Or.inl rfl) (by decide)) (pass_line (hd _ (by simp)) .nil)
    · exact pass_line (hd _ (by simp)) .nil
  have hm : ∀ e, e ∈ passedOptions c ↔ (e.1 = c!"ncsetting-path" ∧ e.2 ≠ [] ∧ c.effective .ncsettingPath = some e.2) ∨
      (e.1 = c!"log-path" ∧ e.2 ≠ [] ∧ c.effective .logPath = some e.2) ∨
      (e = (c!"calculate-path", c!"true") ∧ c.effective .pathTime = some c!"true") ∨
      (e.1 = c!"macro-desc-path" ∧ e.2 ≠ [] ∧ c.effective .macroPath = some e.2) := by
    intro e
    unfold passedOptions
    rw [List.mem_append, List.mem_append, List.mem_append, List.append_nil, passed_mem, passed_mem, passed_mem]
    have : (e ∈ if c.effective .pathTime = some c!"true" then [(c!"calculate-path", c!"true")] else []) ↔
        (e = (c!"calculate-path", c!"true") ∧ c.effective .pathTime = some c!"true") := by
      split
      · rename_i h; simp [h]
      · rename_i h; simp [h]
    rw [this]
  have hs : ∀ e ∈ passedOptions c, Suits e.1 e.2 := by
    intro e he
    unfold Suits
    rcases (hm e).mp he with ⟨h, -⟩ | ⟨h, -⟩ | ⟨h, -⟩ | ⟨h, -⟩
    · rw [h]; left; decide
    · rw [h]; left; decide
    · rw [h]; right; left; decide
    · rw [h]; left; decide
  have hn : ((passedOptions c).map (·.1)).Nodup := by
    unfold passedOptions passed
    cases c.effective .ncsettingPath <;> cases c.effective .logPath <;> cases c.effective .macroPath <;> dsimp only <;> split_ifs <;>
      simp only [List.nil_append, List.append_nil, List.cons_append, List.map_cons, List.map_nil] <;> decide
  obtain ⟨s, h1, h2, h3, h4, h5, h6⟩ := C114_line _ _ hl hn hs
  refine ⟨s, h1, ?_, ?_, ?_, h5, ?_⟩
  · rw [configured_iff _ _ (by simp)]
    exact passed_path (fun v => by rw [hm]; simp) h2
  · rw [configured_iff _ _ (by simp)]
    exact passed_path (fun v => by rw [hm]; simp) h3
  · rw [configured_iff _ _ (by simp)]
    exact passed_path (fun v => by rw [hm]; simp) h4
  · rw [h6, calculated_iff]
    constructor
    · rintro ⟨v, -, hv⟩
      rcases (hm _).mp hv with ⟨h, -⟩ | ⟨h, -⟩ | ⟨-, h⟩ | ⟨h, -⟩
      · dsimp only at h; exact absurd h (by decide)
      · dsimp only at h; exact absurd h (by decide)
      · exact h
      · dsimp only at h; exact absurd h (by decide)
    · intro h
      exact ⟨c!"true", by decide, (hm _).mpr (.inr (.inr (.inl ⟨rfl, h⟩)))⟩

/-- Two paths and the default. -/
example : Launch.main (arguments (fun t k => match t, k with
    | .workspace, .ncsettingPath => some c!"/home/me/my mill.ncsetting"
    | .global, .macroPath => some c!"C:\\m.json"
    | _, _ => none)) = .ok (.run ⟨c!"/home/me/my mill.ncsetting", none, c!"C:\\m.json", true⟩) := by decide +kernel

/-- C114, violated: with a path that is a dash and a letter of an option the server does not start. -/
theorem C114_violated_dash (c : Ext.Store) (x : Char) (hx : x ∈ ['h', 's', 'n', 'm', 'l']) (h : Configured c .ncsettingPath ['-', x]) :
    Launch.main (arguments c) = .throw .missing := by
  have he : c.effective .ncsettingPath = some ['-', x] := by
    have := (configured_iff c _ (by simp) _).mp h
    cases hc : c.effective .ncsettingPath with
    | none => rw [hc] at this; cases this
    | some v => rw [hc] at this; exact congrArg some this
  unfold Launch.main arguments
  rw [he]
  generalize (pass c!"--log-path" _ ++ _) = r
  have hf : ∀ r : List Str, finish ⟨c!"ncsetting-path", []⟩ (['-', x] :: r) = .throw .missing := by
    intro r
    simp only [List.mem_cons, List.not_mem_nil, or_false] at hx
    rcases hx with rfl | rfl | rfl | rfl | rfl <;> rfl
  show Out.bind (cut _ (c!"--ncsetting-path" :: ['-', x] :: r)) _ = _
  rw [cut]
  have hl : longOpt c!"--ncsetting-path" = .ok (some ⟨c!"ncsetting-path", []⟩) := by decide
  rw [hl]
  simp only [Out.bind]
  rw [hf]

end NC.Props
