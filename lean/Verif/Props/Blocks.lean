import Verif.BlocksProofs

/-!
# Predefined blocks (C111)
-/

namespace NC.Props
open NC NC.Form NC.Blocks NC.Spec.Form NC.Spec.Blocks

/-- C111, reading: when every JSON file of the directory is a group with everything there, each is read, with the
decimal sign in place of `{0}` and single braces for double ones. -/
theorem C111_read (P : Platform) (hP : Sound P) (J : Codec) (d : Disk) (hd : Tidy P d) (dir dot : Str) (a : Access)
    (h : ∀ p t, JsonIn P dir p → First d.files p t → ∃ g g', J.read t = .ok (some g) ∧ GroupRead dot g g') :
    ∃ r, Blocks.read P J d dir dot a = .ok r ∧ ∀ p x, First r p x ↔
      ∃ t g g', JsonIn P dir p ∧ First d.files p t ∧ J.read t = .ok (some g) ∧ GroupRead dot g g' ∧ x = (g', a) := by
  have hn : ∀ n ∈ namesOf P d dir, ∃ e, Gives P J d dir dot a n e := by
    intro n hn
    obtain ⟨p, t, hm, hp⟩ := (names_mem P d dir n).mp hn
    have hf := (first_iff_mem hd.1 p t).mpr hm
    obtain ⟨g, g', h1, h2⟩ := h p t ⟨n, hp⟩ hf
    rw [hP.name dir p n hp, ← look_iff] at hf
    exact ⟨_, t, g, g', hf, h1, h2, rfl⟩
  have hr : ∃ r, List.Forall₂ (Gives P J d dir dot a) (namesOf P d dir) r := by
    generalize namesOf P d dir = l at hn
    induction l with
    | nil => exact ⟨[], .nil⟩
    | cons n l ih =>
      obtain ⟨e, he⟩ := hn n (by simp)
      obtain ⟨r, hr⟩ := ih (fun m hm => hn m (by simp [hm]))
      exact ⟨e :: r, .cons he hr⟩
  obtain ⟨r, hr⟩ := hr
  have hok := (read_iff P J d dir dot a r).mpr hr
  refine ⟨r, hok, fun p x => ?_⟩
  rw [first_iff_mem (read_nodup hP hd hok)]
  obtain ⟨m1, m2⟩ := forall₂_mem hr
  constructor
  · intro hx
    obtain ⟨n, hn, t, g, g', h1, h2, h3, h4⟩ := m2 (p, x) hx
    injection h4 with h4 h5
    obtain ⟨q, u, -, hq⟩ := (names_mem P d dir n).mp hn
    have hqp : p = q := h4.trans (hP.name dir q n hq).symm
    rw [← h4, look_iff] at h1
    exact ⟨t, g, g', ⟨n, hqp ▸ hq⟩, h1, h2, h3, h5⟩
  · rintro ⟨t, g, g', ⟨n, hn⟩, h1, h2, h3, rfl⟩
    have hmem := (names_mem P d dir n).mpr ⟨p, t, first_mem h1, hn⟩
    obtain ⟨e, he, u, k, k', h4, h5, h6, rfl⟩ := m1 n hmem
    rw [← hP.name dir p n hn, look_iff] at h4
    have := first_det h4 h1
    subst this
    rw [h2] at h5
    injection h5 with h5
    injection h5 with h5
    subst h5
    have h7 := (formatGroup_iff _ _ _).mpr h6
    rw [(formatGroup_iff _ _ _).mpr h3] at h7
    injection h7 with h7
    rw [h7, hP.name dir p n hn]
    exact he

/-- C111, writing into a directory given by its full path: the disk is as it should be. -/
theorem C111_write_partial (P : Platform) (hP : Sound P) (J : Codec) (groups : Dict (Group × Access)) (dir : Str) (d : Disk) (hd : Tidy P d)
    (hdir : P.full dir = dir) (hn : (groups.map (·.1)).Nodup) (hf : ∀ e ∈ groups, P.full e.1 = e.1) :
    Written P J groups dir d (Blocks.write P J groups dir d) := by
  have key : ∀ p, look (Blocks.write P J groups dir d).files p = _ := fun p => store_look P J groups hf hn _ p
  have gone : ∀ p, (∃ n ∈ namesOf P d dir, (look groups (P.join dir n)).isSome = false ∧ P.full (P.join dir n) = p) ↔
      (∃ t, First d.files p t) ∧ JsonIn P dir p ∧ look groups p = none := by
    intro p
    constructor
    · rintro ⟨n, hn, h1, h2⟩
      obtain ⟨q, t, hq, h3⟩ := (names_mem P d dir n).mp hn
      have h4 := hP.join dir q n h3
      rw [h2] at h4
      have h5 := hP.name dir q n h3
      rw [hdir] at h5
      rw [← h5, ← h4] at h1
      subst h4
      exact ⟨⟨t, (first_iff_mem hd.1 p t).mpr hq⟩, ⟨n, h3⟩, by simpa using h1⟩
    · rintro ⟨⟨t, ht⟩, ⟨n, h3⟩, h1⟩
      have h5 := hP.name dir p n h3
      rw [hdir] at h5
      refine ⟨n, (names_mem P d dir n).mpr ⟨p, t, first_mem ht, h3⟩, by rw [← h5, h1]; rfl, hP.join dir p n h3⟩
  refine ⟨fun p g hg => ?_, fun p hp hx t ht => ?_, fun p hg hp t => ?_⟩
  · rw [← look_iff] at hg ⊢
    rw [key, hg]
  · have hl : look groups p = none := by
      cases h : look groups p with
      | none => rfl
      | some x => exact absurd ((look_iff _ _ _).mp h) (hx x)
    rw [← look_iff, key, hl] at ht
    dsimp only at ht
    rw [clean_look] at ht
    by_cases h : ∃ n ∈ namesOf P d dir, (look groups (P.join dir n)).isSome = false ∧ P.full (P.join dir n) = p
    · rw [if_pos h] at ht; cases ht
    · rw [if_neg h, look_iff] at ht
      exact h ((gone p).mpr ⟨⟨t, ht⟩, hp, hl⟩)
  · have h1 : look (Blocks.write P J groups dir d).files p = look (clean P groups dir (namesOf P d dir) d).files p := by
      rw [key]
      cases h : look groups p with
      | none => rfl
      | some x =>
        obtain ⟨g, a⟩ := x
        cases a with
        | readOnly => rfl
        | readWrite => exact absurd ((look_iff _ _ _).mp h) (hg g)
    rw [← look_iff, ← look_iff, h1, clean_look, if_neg]
    intro h
    obtain ⟨-, h2, h3⟩ := (gone p).mp h
    obtain ⟨x, hx⟩ := hp h2
    rw [← look_iff, h3] at hx
    cases hx

/-- C111, back again: groups of the directory whose code has no braces are read as they were written, and no others;
with any decimal sign. -/
theorem C111_back_partial (P : Platform) (hP : Sound P) (J : Codec) (hJ : ∀ g, J.read (J.write g) = .ok (some g)) (groups : Dict (Group × Access))
    (dir dot : Str) (d : Disk) (hd : Tidy P d) (hdir : P.full dir = dir) (hn : (groups.map (·.1)).Nodup) (hf : ∀ e ∈ groups, P.full e.1 = e.1)
    (hs : ∀ p x, JsonIn P dir p → First groups p x → x.2 = .readWrite ∧ Simple x.1) :
    ∃ r, Blocks.read P J (Blocks.write P J groups dir d) dir dot .readWrite = .ok r ∧ ∀ p x, First r p x ↔ JsonIn P dir p ∧ First groups p x := by
  have hw := C111_write_partial P hP J groups dir d hd hdir hn hf
  have ht := write_tidy hP J groups dir hd
  have hk : ∀ p t, JsonIn P dir p → First (Blocks.write P J groups dir d).files p t → ∃ g, First groups p (g, .readWrite) ∧ Simple g ∧ t = J.write g := by
    intro p t hp hpt
    by_cases hx : ∃ x, First groups p x
    · obtain ⟨⟨g, a⟩, hx⟩ := hx
      obtain ⟨h1, h2⟩ := hs p _ hp hx
      dsimp only at h1 h2
      subst h1
      exact ⟨g, hx, h2, first_det hpt (hw.stored p g hx)⟩
    · exact absurd hpt (hw.removed p hp (fun x h => hx ⟨x, h⟩) t)
  obtain ⟨r, hr, h⟩ := C111_read P hP J (Blocks.write P J groups dir d) ht dir dot .readWrite (fun p t hp hpt => by
    obtain ⟨g, -, h2, rfl⟩ := hk p t hp hpt
    exact ⟨g, g, hJ g, simple_read dot h2⟩)
  refine ⟨r, hr, fun p x => ?_⟩
  rw [h p x]
  constructor
  · rintro ⟨t, g, g', hp, h1, h2, h3, rfl⟩
    obtain ⟨k, hk1, hk2, rfl⟩ := hk p t hp h1
    rw [hJ k] at h2
    injection h2 with h2; injection h2 with h2
    subst h2
    have h4 := (formatGroup_iff _ _ _).mpr h3
    rw [(formatGroup_iff _ _ _).mpr (simple_read dot hk2)] at h4
    injection h4 with h4
    subst h4
    exact ⟨hp, hk1⟩
  · rintro ⟨hp, hx⟩
    obtain ⟨h1, h2⟩ := hs p x hp hx
    obtain ⟨g, a⟩ := x
    dsimp only at h1 h2
    subst h1
    exact ⟨_, g, g, hp, hw.stored p g hx, hJ g, simple_read dot h2, rfl⟩

/-- C111 is violated: one line that is no template, as a single brace, and after writing nothing can be read any more. -/
theorem C111_violated_brace (P : Platform) (hP : Sound P) (J : Codec) (hJ : ∀ g, J.read (J.write g) = .ok (some g)) (groups : Dict (Group × Access))
    (dir dot : Str) (d : Disk) (hd : Tidy P d) (hdir : P.full dir = dir) (hn : (groups.map (·.1)).Nodup) (hf : ∀ e ∈ groups, P.full e.1 = e.1)
    (p : Str) (g : Group) (hp : JsonIn P dir p) (hg : First groups p (g, .readWrite)) (l : List (Option Snippet)) (b : Snippet)
    (c : List (Option Str)) (s : Str) (h1 : g.blocks = some l) (h2 : some b ∈ l) (h3 : b.code = some c) (h4 : some s ∈ c)
    (h5 : ∀ r, ¬ Expands dot s r) (a : Access) : ∀ r, Blocks.read P J (Blocks.write P J groups dir d) dir dot a ≠ .ok r := by
  intro r hr
  have hw := (C111_write_partial P hP J groups dir d hd hdir hn hf).stored p g hg
  obtain ⟨n, hpn⟩ := hp
  obtain ⟨m1, -⟩ := forall₂_mem ((read_iff _ _ _ _ _ _ _).mp hr)
  obtain ⟨e, -, t, k, k', e1, e2, e3, -⟩ := m1 n ((names_mem P _ dir n).mpr ⟨p, _, first_mem hw, hpn⟩)
  rw [← hP.name dir p n hpn, look_iff] at e1
  have := first_det e1 hw
  subst this
  rw [hJ g] at e2
  injection e2 with e2; injection e2 with e2
  subst e2
  obtain ⟨l', m, f1, -, f3⟩ := e3.blocks
  rw [h1] at f1
  injection f1 with f1
  subst f1
  obtain ⟨x, -, b', b'', g1, -, g3⟩ := (forall₂_mem f3).1 _ h2
  injection g1 with g1
  subst g1
  obtain ⟨c', m', i1, -, i3⟩ := g3.code
  rw [h3] at i1
  injection i1 with i1
  subst i1
  obtain ⟨y, -, s', r', j1, -, j3⟩ := (forall₂_mem i3).1 _ h4
  injection j1 with j1
  subst j1
  exact h5 r' j3

/-- C111 is violated: when the directory is not given by its full path, files of groups that may only be read are
deleted, and not written. -/
theorem C111_violated_path (P : Platform) (hP : Sound P) (J : Codec) (groups : Dict (Group × Access)) (dir : Str) (d : Disk)
    (hn : (groups.map (·.1)).Nodup) (hf : ∀ e ∈ groups, P.full e.1 = e.1) (p t : Str) (g : Group) (n : Str) (hp : P.name (P.full dir) p = some n)
    (ht : First d.files p t) (hg : First groups p (g, .readOnly)) (hd : P.full (P.join dir n) ≠ P.join dir n) :
    ∀ u, ¬ First (Blocks.write P J groups dir d).files p u := by
  intro u hu
  rw [← look_iff] at hu hg
  have h1 : look (Blocks.write P J groups dir d).files p = look (clean P groups dir (namesOf P d dir) d).files p := by
    unfold Blocks.write
    rw [store_look P J groups hf hn, hg]
  rw [h1, clean_look, if_pos] at hu
  · cases hu
  · refine ⟨n, (names_mem P d dir n).mpr ⟨p, t, first_mem ht, hp⟩, ?_, hP.join dir p n hp⟩
    cases h : look groups (P.join dir n) with
    | none => rfl
    | some x => exact absurd (hf _ (first_mem ((look_iff _ _ _).mp h))) hd

/-! ## A user's directory -/

/-- Paths with slashes and a working directory. -/
def slashes : Platform where
  full
    | [] => c!"/home"
    | '/' :: p => '/' :: p
    | p => c!"/home/" ++ p
  join
    | [], n => n
    | d, n => d ++ '/' :: n
  name d p :=
    let n := p.drop (d.length + 1)
    if d ≠ [] ∧ p = d ++ '/' :: n ∧ '/' ∉ n ∧ c!".json" <:+ n then some n else none

theorem slashes_sound : Sound slashes := by
  have full : ∀ p, ∃ q, slashes.full p = '/' :: q := by
    intro p
    unfold slashes
    dsimp only
    split
    · exact ⟨_, rfl⟩
    · exact ⟨_, rfl⟩
    · exact ⟨_, rfl⟩
  have name : ∀ d p n, slashes.name d p = some n → p = d ++ '/' :: n ∧ d ≠ [] ∧ '/' ∉ n ∧ n ≠ [] := by
    intro d p n h
    unfold slashes at h
    dsimp only at h
    split at h
    · rename_i h1
      injection h with h
      rw [h] at h1
      refine ⟨h1.2.1, h1.1, h1.2.2.1, ?_⟩
      rintro rfl
      have := h1.2.2.2
      simp at this
    · cases h
  have join : ∀ d n, d ≠ [] → slashes.join d n = d ++ '/' :: n := by
    intro d n hd
    cases d with
    | nil => exact absurd rfl hd
    | cons c d => rfl
  refine ⟨?_, ?_, ?_⟩
  · intro p
    obtain ⟨q, hq⟩ := full p
    rw [hq]
    rfl
  · intro dir p n h
    obtain ⟨h1, h2, -⟩ := name _ _ _ h
    rw [join _ _ h2, h1]
  · intro dir p n h
    obtain ⟨h1, h2, h3, h4⟩ := name _ _ _ h
    rw [h1]
    cases dir with
    | nil =>
      cases n with
      | nil => exact absurd rfl h4
      | cons c n =>
        have hc : c ≠ '/' := by rintro rfl; exact h3 (by simp)
        show slashes.full (c :: n) = c!"/home" ++ '/' :: c :: n
        unfold slashes
        dsimp only
        split
        · rename_i h; cases h
        · rename_i h; injection h with h; exact absurd h hc
        · rfl
    | cons c dir =>
      rw [join (c :: dir) n (by simp)]
      by_cases hc : c = '/'
      · subst hc; rfl
      · have h5 : ∀ q : Str, slashes.full (c :: q) = c!"/home/" ++ c :: q := by
          intro q
          unfold slashes
          dsimp only
          split
          · rename_i h; cases h
          · rename_i h; injection h with h; exact absurd h hc
          · rfl
        rw [h5, List.cons_append, h5]
        simp

/-- A group of one block. -/
def oneBlock (code : Str) : Group := ⟨some c!"1.0", 1, some c!"mine", some [some ⟨1, some c!"end", some [some code], some []⟩]⟩

theorem oneBlock_simple {s : Str} (h : Braceless s) : Simple (oneBlock s) := by
  refine ⟨_, rfl, ?_⟩
  intro x hx
  rw [List.mem_singleton] at hx
  subst hx
  refine ⟨_, _, rfl, rfl, ?_⟩
  intro y hy
  rw [List.mem_singleton] at hy
  subst hy
  exact ⟨s, rfl, h⟩

theorem mine_json : JsonIn slashes c!"/u" c!"/u/a.json" := ⟨c!"a.json", by decide⟩

theorem one_first {p : Str} {x y : Group × Access} {q : Str} (h : First [(p, x)] q y) : q = p ∧ y = x := by
  have := first_mem h
  rw [List.mem_singleton] at this
  injection this with h1 h2
  exact ⟨h1, h2⟩

/-- C111: a block with a decimal sign is read. -/
example (J : Codec) (hJ : ∀ g, J.read (J.write g) = .ok (some g)) :
    ∃ r, Blocks.read slashes J ⟨[(c!"/u/a.json", J.write (oneBlock c!"G0 X10{0} {{"))]⟩ c!"/u" c!"." .readOnly = .ok r ∧
      First r c!"/u/a.json" (oneBlock c!"G0 X10. {", .readOnly) := by
  have hr : GroupRead c!"." (oneBlock c!"G0 X10{0} {{") (oneBlock c!"G0 X10. {") := (formatGroup_iff _ _ _).mp (by decide)
  obtain ⟨r, h1, h2⟩ := C111_read slashes slashes_sound J ⟨[(c!"/u/a.json", J.write (oneBlock c!"G0 X10{0} {{"))]⟩
    ⟨by simp, by intro e he; rw [List.mem_singleton] at he; subst he; rfl⟩ c!"/u" c!"." .readOnly (by
      intro p t hp ht
      have := first_mem ht
      rw [List.mem_singleton] at this
      injection this with h1 h2
      subst h2
      exact ⟨_, _, hJ _, hr⟩)
  exact ⟨r, h1, (h2 _ _).mpr ⟨_, _, _, mine_json, .here _ _ _, hJ _, hr, rfl⟩⟩

/-- C111 is violated: a block that was read with one decimal sign and written keeps it when the sign is another one. -/
theorem C111_violated_sign (J : Codec) (hJ : ∀ g, J.read (J.write g) = .ok (some g)) (d : Disk) (hd : Tidy slashes d) (a b : Str) (ha : Braceless a)
    (hab : a ≠ b) :
    ∃ r, Blocks.read slashes J (Blocks.write slashes J [(c!"/u/a.json", (oneBlock (c!"X1" ++ a), .readWrite))] c!"/u" d) c!"/u" b .readWrite = .ok r ∧
      GroupRead a (oneBlock c!"X1{0}") (oneBlock (c!"X1" ++ a)) ∧ First r c!"/u/a.json" (oneBlock (c!"X1" ++ a), .readWrite) ∧
      ¬ GroupRead b (oneBlock c!"X1{0}") (oneBlock (c!"X1" ++ a)) := by
  have hx : ∀ dot : Str, formatGroup dot (oneBlock c!"X1{0}") = .ok (oneBlock (c!"X1" ++ dot)) := by
    intro dot
    have h1 : format dot c!"X1{0}" = .ok (c!"X1" ++ dot) := by
      simp [format, then_ok]
    simp [formatGroup, oneBlock, each, formatBlock, formatText, h1, then_ok]
  obtain ⟨r, h1, h2⟩ := C111_back_partial slashes slashes_sound J hJ [(c!"/u/a.json", (oneBlock (c!"X1" ++ a), .readWrite))] c!"/u" b d hd rfl
    (by simp) (by intro e he; rw [List.mem_singleton] at he; subst he; rfl) (by
      intro p x hp hx
      obtain ⟨-, rfl⟩ := one_first hx
      refine ⟨rfl, oneBlock_simple ⟨?_, ?_⟩⟩
      · simpa using ha.1
      · simpa using ha.2)
  refine ⟨r, h1, (formatGroup_iff _ _ _).mp (hx a), (h2 _ _).mpr ⟨mine_json, .here _ _ _⟩, ?_⟩
  intro h
  have h3 := (formatGroup_iff _ _ _).mpr h
  rw [hx b] at h3
  simp only [oneBlock, Out.ok.injEq, Group.mk.injEq, Option.some.injEq, List.cons.injEq, Snippet.mk.injEq, and_true, true_and] at h3
  exact hab (List.append_cancel_left h3).symm

/-- A disk with a file of a group that was removed, and one of another kind. -/
example (J : Codec) (hJ : ∀ g, J.read (J.write g) = .ok (some g)) (t u : Str) :
    ∃ r, Blocks.read slashes J (Blocks.write slashes J [(c!"/u/a.json", (oneBlock c!"M30", .readWrite))] c!"/u"
      ⟨[(c!"/u/old.json", t), (c!"/u/notes.txt", u)]⟩) c!"/u" c!"." .readWrite = .ok r ∧ First r c!"/u/a.json" (oneBlock c!"M30", .readWrite) ∧
      (∀ x, ¬ First r c!"/u/old.json" x) ∧
      First (Blocks.write slashes J [(c!"/u/a.json", (oneBlock c!"M30", .readWrite))] c!"/u" ⟨[(c!"/u/old.json", t), (c!"/u/notes.txt", u)]⟩).files
        c!"/u/notes.txt" u := by
  have hd : Tidy slashes ⟨[(c!"/u/old.json", t), (c!"/u/notes.txt", u)]⟩ := by
    refine ⟨by simp, ?_⟩
    intro e he
    simp only [List.mem_cons, List.not_mem_nil, or_false] at he
    rcases he with rfl | rfl <;> rfl
  have hf : ∀ e ∈ [(c!"/u/a.json", (oneBlock c!"M30", Access.readWrite))], slashes.full e.1 = e.1 := by
    intro e he; rw [List.mem_singleton] at he; subst he; rfl
  obtain ⟨r, h1, h2⟩ := C111_back_partial slashes slashes_sound J hJ [(c!"/u/a.json", (oneBlock c!"M30", .readWrite))] c!"/u" c!"." _ hd rfl
    (by simp) hf (by
      intro p x hp hx
      obtain ⟨-, rfl⟩ := one_first hx
      exact ⟨rfl, oneBlock_simple (by unfold Braceless; decide)⟩)
  refine ⟨r, h1, (h2 _ _).mpr ⟨mine_json, .here _ _ _⟩, ?_, ?_⟩
  · intro x hx
    have := (one_first ((h2 _ _).mp hx).2).1
    exact absurd this (by decide)
  · refine ((C111_write_partial slashes slashes_sound J _ c!"/u" _ hd rfl (by simp) hf).kept c!"/u/notes.txt" ?_ ?_ u).mpr
      (.there _ _ _ _ (show c!"/u/old.json" ≠ _ by decide) (.here _ _ _))
    · intro g h; exact absurd (one_first h).1 (by decide)
    · rintro ⟨n, hn⟩
      exact absurd hn (by
        have : slashes.name (slashes.full c!"/u") c!"/u/notes.txt" = none := by decide
        rw [this]; simp)

/-- A single brace. -/
example (J : Codec) (hJ : ∀ g, J.read (J.write g) = .ok (some g)) (d : Disk) (hd : Tidy slashes d) :
    ∀ r, Blocks.read slashes J (Blocks.write slashes J [(c!"/u/a.json", (oneBlock c!"G0 X10. {", .readWrite))] c!"/u" d) c!"/u" c!"." .readWrite ≠ .ok r := by
  refine C111_violated_brace slashes slashes_sound J hJ _ c!"/u" c!"." d hd rfl (by simp)
    (by intro e he; rw [List.mem_singleton] at he; subst he; rfl) c!"/u/a.json" (oneBlock c!"G0 X10. {") mine_json (.here _ _ _) _ _ _
    c!"G0 X10. {" rfl (List.mem_singleton.mpr rfl) rfl (List.mem_singleton.mpr rfl) ?_ _
  intro r h
  have := (format_iff _ _ _).mpr h
  exact absurd this (by
    have h2 : format c!"." c!"G0 X10. {" = .throw .format := by decide
    rw [h2]; simp)

/-- A directory below the working directory. -/
example (J : Codec) (t u : Str) :
    ¬ First (Blocks.write slashes J [(c!"/home/u/a.json", (oneBlock c!"M30", .readOnly))] c!"u" ⟨[(c!"/home/u/a.json", t)]⟩).files c!"/home/u/a.json" u :=
  C111_violated_path slashes slashes_sound J _ c!"u" _ (by simp) (by intro e he; rw [List.mem_singleton] at he; subst he; rfl)
    c!"/home/u/a.json" t (oneBlock c!"M30") c!"a.json" (by decide) (.here _ _ _) (.here _ _ _) (by decide) u

end NC.Props
