import Verif.CheckProofs
import Verif.Props.Survive

/-! # C85: a line is accepted exactly when nothing is wrong with it -/

namespace NC.Props
open NC NC.Message NC.Gram NC.Ver NC.AttrPath NC.Pipe NC.Spec.Verify NC.Spec.Survive NC.Spec.Check NC.Spec.Units

/-- What a line is checked against. -/
def machineOf (S : Setup) (u : Units) : Machine :=
  ⟨Pipe.tableOf S.tables u, S.lathe, S.limits, S.zero, S.cfg.operatorRotation, S.gcodes, S.mcodes, S.haas⟩

/-- The checks that the options ask for; the travel is checked along the path. -/
def wantedOf (o : Options) : Wanted := ⟨o.analysis, o.groups, o.path && o.zeroPoint⟩

/-- The simulation of one block in the given units, and whether it succeeds. -/
def moved (S : Setup) (u : Units) (s : St ℚ) (b : Block) : St ℚ × Out Exc Unit :=
  ((evaluate S.F S.cfg (decide (u = .imperial)) 0 b (s, [])).1.1, (evaluate S.F S.cfg (decide (u = .imperial)) 0 b (s, [])).2)

/-- The positions of the axes. -/
def reach (s : St ℚ) : List (Str × ℚ) := s.range.map (fun e => (e.1, e.2.cur))

/-- The simulation after a block. -/
def simulated (S : Setup) (o : Options) (u : Units) (s : St ℚ) (b : Block) : St ℚ := if o.path then (moved S u s b).1 else s

/-- Nothing is wrong with a block: neither with its words nor with its simulation. -/
def Passing (S : Setup) (o : Options) (u : Units) (s : St ℚ) (done : List Block) (b : Block) : Prop :=
  (o.path = true → (moved S u s b).2 = .ok ()) ∧ Flawless (machineOf S u) (wantedOf o) done b (reach (moved S u s b).1)

theorem verdict_none {done : List Block} {b : Block} {r : Option Exc} (h : Verdict done b r) :
    r = none ↔ (Feeds b → (∀ x ∈ done, ¬ Feeds x) → (∃ x ∈ done ++ [b], Speeds x) ∧ ∃ x ∈ done ++ [b], Starts x) := by
  constructor
  · rintro rfl hf hd
    by_contra hn
    by_cases hs : ∃ x ∈ done ++ [b], Speeds x
    · have hm : ¬ ∃ x ∈ done ++ [b], Starts x := fun hm => hn ⟨hs, hm⟩
      push Not at hm
      exact absurd ((h (.msg .rotation .ValueNotSet [c!"M3/M4"])).mpr ⟨hf, hd, .inr ⟨hs, hm, rfl⟩⟩) nofun
    · push Not at hs
      exact absurd ((h (.msg .rotation .ValueNotSet [c!"S"])).mpr ⟨hf, hd, .inl ⟨hs, rfl⟩⟩) nofun
  · intro hall
    cases r with
    | none => rfl
    | some e =>
      obtain ⟨hf, hd, hx⟩ := (h e).mp rfl
      obtain ⟨⟨x, hx1, hx2⟩, y, hy1, hy2⟩ := hall hf hd
      rcases hx with hx | hx
      · exact absurd hx2 (hx.1 x hx1)
      · exact absurd hy2 (hx.2.1 y hy1)

section
variable (S : Setup) (l : Enums.ELanguage) (hl : S.lang = .known l) (o : Options) (line : Int)
include hl

/-- The checks of a block without macros. -/
theorem systemStage_spec (hgg : SetOfGroups S.gcodes) (hmg : SetOfGroups S.mcodes) (b : Block) (hs : ∀ d ∈ decs b, Shape d)
    (hm : ∀ d ∈ decs b, d.mac = none) (hb : Ordinary S.lathe S.limits b) (p : Parser) (done : List Block)
    (hrot : o.analysis = true → S.cfg.operatorRotation = false → RotInv done p.rot)
    (hu : ∀ a, DeclaredUnique (Pipe.tableOf S.tables p.units) a → occurs a b ≤ 1) :
    ((systemStage S o line true b p).2 = .ok (true, none) ↔ Passing S o p.units p.path done b) ∧
    ((systemStage S o line true b p).2 = .ok (true, none) →
      (systemStage S o line true b p).1.units = inForce p.units b ∧
      (systemStage S o line true b p).1.path = simulated S o p.units p.path b ∧
      (systemStage S o line true b p).1.gram = p.gram ∧
      (o.analysis = true → S.cfg.operatorRotation = false → RotInv (done ++ [b]) (systemStage S o line true b p).1.rot)) := by
  have hnum : ∀ d ∈ decs b, ∀ v, d.value = some v → ∃ n, Number v n := fun d hd v hv => ⟨_, number_of hs hb hd hv⟩
  have hread : Readable b := fun d hd _ v hv => hnum d hd v hv
  have hwhole : Sharp S.lathe S.limits b := fun d hd => ⟨hb.clear d hd, hnum d hd⟩
  have hsel : ∀ u, (selectRun u b).2 = .ok () := fun u => selectRun_number b u hnum
  have hg : ∀ m, codeGroups m S.gcodes S.mcodes line b false = .ok () ↔ NoClash S.gcodes (codes c!"G" b) ∧ NoClash S.mcodes (codes c!"M" b) := by
    intro m
    rw [C31_groups m S.gcodes S.mcodes hgg hmg line b false _ _ (codes_mean hs hb hm c!"G") (codes_mean hs hb hm c!"M")]
    simp
  have hlim := (C33_limits_partial S.lathe S.limits b hwhole).1
  unfold C33_full at hlim
  have hev := fun m => evaluate_alone S.F S.cfg (decide (p.units = .imperial)) line b p.path m
  have htr : ∀ s : St ℚ, travelRun S.limits S.zero (ranges s.range) = .ok () ↔ ∀ e ∈ reach s, Inside S.limits S.zero e.1 e.2 := by
    intro s
    rw [C34_travel]
    unfold ranges reach
    simp only [List.forall_mem_map]
  have hoff : o.analysis = true → S.cfg.operatorRotation = false →
      RotInv (done ++ [b]) (rotation S.cfg.operatorRotation p.rot b).1 ∧ Verdict done b (rotation S.cfg.operatorRotation p.rot b).2 := by
    intro ha hop
    rw [hop]
    exact rotation_off done b p.rot (hrot ha hop) hread
  have hon : S.cfg.operatorRotation = true → ((rotation S.cfg.operatorRotation p.rot b).2 = none ↔ ¬ Speeds b ∧ ¬ Starts b) := by
    intro hop
    rw [hop]
    exact (C32_on p.rot b (fun d hd _ => hnum d hd)).1
  have key : ∀ q, systemStage S o line true b p = (q, .ok (true, none)) ↔
      (Passing S o p.units p.path done b ∧ ∃ m, Macro.sysRun line p.macros b = .ok m ∧
        q = (let p1 : Parser := if o.analysis then { p with macros := m, rot := (rotation S.cfg.operatorRotation p.rot b).1 } else { p with macros := m }
             selected (if o.path then (calculated S line b p1).1 else p1) b)) := by
    intro q
    rw [systemStage_iff hl]
    have hsys := sysRun_iff line b p.macros hs
    constructor
    · rintro ⟨m, h1, h2⟩
      rw [analysisStage_iff hl, groupStage_iff hl, pathStage_iff hl, lastStage_iff hl] at h2
      obtain ⟨ha, hgr, hh, hp, _, hq⟩ := h2
      refine ⟨⟨?_, ⟨hu, hsys.mp ⟨m, h1⟩, fun h => hlim.mp (ha h).1, ?_, fun h hop => (hon hop).mp (ha h).2, ?_, ?_, ?_⟩⟩, m, h1, ?_⟩
      · intro h
        have := (hp h).1
        by_cases hoa : o.analysis = true
        · simp only [hoa, if_true] at this
          exact (hev m).2.symm.trans this
        · simp only [hoa] at this
          exact (hev m).2.symm.trans this
      · intro h hop
        exact (verdict_none (hoff h hop).2).mp (ha h).2
      · intro h; exact (hg _).mp (hgr h)
      · intro h; exact (C30_same_word c!"M" b).1.mp (hh h)
      · intro h
        obtain ⟨h3, h4⟩ : o.path = true ∧ o.zeroPoint = true := by simpa [wantedOf] using h
        have := (hp h3).2 h4
        by_cases hoa : o.analysis = true
        · simp only [hoa, if_true] at this
          rw [htr] at this
          have e : (moved S p.units p.path b).1 = _ := (hev m).1.symm
          rw [e]
          exact this
        · simp only [hoa] at this
          rw [htr] at this
          have e : (moved S p.units p.path b).1 = _ := (hev m).1.symm
          rw [e]
          exact this
      · rw [hq]
    · rintro ⟨⟨hp, hf⟩, m, h1, hq⟩
      refine ⟨m, h1, ?_⟩
      rw [analysisStage_iff hl, groupStage_iff hl, pathStage_iff hl, lastStage_iff hl]
      refine ⟨fun h => ⟨hlim.mpr (hf.limits h), ?_⟩, fun h => (hg _).mpr (hf.groups h),
        fun h => (C30_same_word c!"M" b).1.mpr (hf.single h), fun h => ⟨?_, fun hz => ?_⟩, hsel _, hq⟩
      · cases hop : S.cfg.operatorRotation with
        | false =>
          have := (verdict_none (hoff h hop).2).mpr (hf.spindle h hop)
          rw [hop] at this
          exact this
        | true =>
          have := (hon hop).mpr (hf.operator h hop)
          rw [hop] at this
          exact this
      · have h2 : (evaluate S.F S.cfg (decide (p.units = .imperial)) line b (p.path, m)).2 = .ok () := (hev m).2.trans (hp h)
        by_cases hoa : o.analysis = true
        · simp only [hoa, if_true]; exact h2
        · simp only [hoa]; exact h2
      · have h2 := hf.travel (by simp [wantedOf, h, hz])
        have e : (moved S p.units p.path b).1 = _ := (hev m).1.symm
        rw [e] at h2
        by_cases hoa : o.analysis = true
        · simp only [hoa, if_true]; rw [htr]; exact h2
        · simp only [hoa]; rw [htr]; exact h2
  have self : (systemStage S o line true b p).2 = .ok (true, none) ↔
      systemStage S o line true b p = ((systemStage S o line true b p).1, .ok (true, none)) :=
    ⟨fun h => Prod.ext rfl h, fun h => by rw [h]⟩
  constructor
  · constructor
    · intro h; exact ((key _).mp (self.mp h)).1
    · intro h
      obtain ⟨m, hm⟩ := (sysRun_iff line b p.macros hs).mpr h.2.numbers
      rw [(key _).mpr ⟨h, m, hm, rfl⟩]
  · intro h
    obtain ⟨hp, m, hm, hq⟩ := (key _).mp (self.mp h)
    generalize (systemStage S o line true b p).1 = q at hq
    subst hq
    dsimp only
    have hun : ∀ u, (selectRun u b).1 = inForce u b := fun u => selectRun_ok (hsel u)
    have hsim : (evaluate S.F S.cfg (decide (p.units = .imperial)) line b (p.path, m)).1.1 = (moved S p.units p.path b).1 := (hev m).1
    unfold simulated
    by_cases hoa : o.analysis = true <;> by_cases hop : o.path = true
    · simp only [hoa, hop, if_true]
      exact ⟨hun _, hsim, rfl, fun _ h => (hoff hoa h).1⟩
    · simp only [hoa, hop, if_true]
      exact ⟨hun _, rfl, rfl, fun _ h => (hoff hoa h).1⟩
    · simp only [hoa, hop, if_true]
      exact ⟨hun _, hsim, rfl, fun h => by cases h⟩
    · simp only [hoa, hop]
      exact ⟨hun _, rfl, rfl, fun h => by cases h⟩

/-- C85 (partial: lines without `#`, ordinary numbers): a line that is read as the words `b` is
accepted exactly when nothing is wrong with the words and their simulation; then the units are those
of the last G20 or G21, the simulation is that of the words, and the words count for the check of the
spindle. -/
theorem C85_line_partial (ho : o.evalMacro = true) (hgg : SetOfGroups S.gcodes) (hmg : SetOfGroups S.mcodes) (s : Str)
    (hs : '#' ∉ s) (p : Parser) (g : PS) (b : Block) (hr : phrase (gramOf S) { p.gram with msg := [] } s = (g, .accept b))
    (hb : Ordinary S.lathe S.limits b) (done : List Block) (hrot : o.analysis = true → S.cfg.operatorRotation = false → RotInv done p.rot) :
    ((parse S o line s p).2 = .ok (true, none) ↔ Passing S o p.units p.path done b) ∧
    ((parse S o line s p).2 = .ok (true, none) →
      (parse S o line s p).1.units = inForce p.units b ∧ (parse S o line s p).1.path = simulated S o p.units p.path b ∧
      (parse S o line s p).1.gram = g ∧
      (o.analysis = true → S.cfg.operatorRotation = false → RotInv (done ++ [b]) (parse S o line s p).1.rot)) := by
  have hsh : ∀ d ∈ decs b, Shape d := fun d hd =>
    (phrase_shape (gramOf S) s { p.gram with msg := [] }).1 b (by rw [hr]) _ (mem_decs.mp hd) d rfl
  obtain ⟨_, hW⟩ := (phrase_accept (gramOf_chars S)).mp hr
  have hpl := words_noHash hW hs
  have hmac : ∀ d ∈ decs b, d.mac = none := fun d hd => (hpl _ (mem_decs.mp hd) d rfl).1
  have e : parse S o line s p = wordStage S o line true b { p with gram := g } := by unfold parse; rw [hr]
  rw [e]
  unfold wordStage
  rw [if_pos ho, macroStage_plain hpl]
  by_cases hu : uniqueCode (Pipe.tableOf S.tables p.units) b = .ok ()
  · have e : andThen S.lang (uniqueCode (Pipe.tableOf S.tables ({ p with gram := g } : Parser).units) b) { p with gram := g }
        (systemStage S o line true b { p with gram := g }) = systemStage S o line true b { p with gram := g } := by
      show andThen S.lang (uniqueCode (Pipe.tableOf S.tables p.units) b) _ _ = _
      rw [hu]; rfl
    rw [e]
    exact systemStage_spec S l hl o line hgg hmg b hsh hmac hb { p with gram := g } done hrot ((C30_unique _ _).mp hu)
  · have no : (andThen S.lang (uniqueCode (Pipe.tableOf S.tables ({ p with gram := g } : Parser).units) b) { p with gram := g }
        (systemStage S o line true b { p with gram := g })).2 ≠ .ok (true, none) := by
      intro h
      rw [hl] at h
      exact hu (andThen_iff.mp (Prod.ext rfl h)).1
    exact ⟨⟨fun h => absurd h no, fun h => absurd ((C30_unique _ _).mpr h.2.unique) hu⟩, fun h => absurd h no⟩

/-- C85 (partial: lines without `#`, ordinary numbers that can be read): a line with something wrong is
refused with a message, unless the simulation of the line is undefined. -/
theorem C85_refused_partial (ho : o.evalMacro = true) (hgg : SetOfGroups S.gcodes) (hmg : SetOfGroups S.mcodes) (s : Str)
    (hs : '#' ∉ s) (p : Parser) (g : PS) (b : Block) (hr : phrase (gramOf S) { p.gram with msg := [] } s = (g, .accept b))
    (hb : Ordinary S.lathe S.limits b) (hn : ∀ d, Attr.dec d ∈ b → ¬ Unreadable S.cfg.axes d) (done : List Block)
    (hrot : o.analysis = true → S.cfg.operatorRotation = false → RotInv done p.rot)
    (h : ¬ Passing S o p.units p.path done b) :
    (∃ t, t ≠ [] ∧ (parse S o line s p).2 = .ok (false, some t)) ∨ (parse S o line s p).2 = .ub := by
  have hno := fun h' => h ((C85_line_partial S l hl o line ho hgg hmg s hs p g b hr hb done hrot).1.mp h')
  rcases hz : parse S o line s p with ⟨q, r⟩
  rw [hz] at hno
  cases r with
  | ub => exact .inr rfl
  | throw e =>
    exfalso
    obtain ⟨_, hW⟩ := (phrase_accept (gramOf_chars S)).mp hr
    have hpl := words_noHash hW hs
    obtain ⟨b', d, hb', hd, hu⟩ := C84_line_partial S o line s p e (by rw [hz])
    have : executed S line s p = some b := by
      unfold executed
      rw [hr]
      dsimp only
      rw [evaluate_plain hpl]
      dsimp only
      rw [substitute_plain hpl]
    rw [this] at hb'
    cases hb'
    exact hn d hd hu
  | ok a =>
    obtain ⟨r, m⟩ := a
    cases r with
    | true => exact absurd (by rw [C38_success_partial S l hl o line s p q m ho hs hz]) hno
    | false =>
      obtain ⟨t, rfl, ht⟩ := C38_failure_partial S l hl o line s p q m hs (by rintro ⟨g', hg'⟩; rw [hr] at hg'; simp at hg') hz
      exact .inl ⟨t, ht, rfl⟩

end

/-! ## Programs -/

/-- The lines are read one after the other as the given words. -/
inductive ReadAs (S : Setup) : PS → List (Int × Str) → List Block → Prop
  | nil (g) : ReadAs S g [] []
  | cons {g g' x s b t bs} : phrase (gramOf S) { g with msg := [] } s = (g', .accept b) → ReadAs S g' t bs →
      ReadAs S g ((x, s) :: t) (b :: bs)

/-- Nothing is wrong with any block, read and simulated one after the other. -/
def AllPassing (S : Setup) (o : Options) : Units → St ℚ → List Block → List Block → Prop
  | _, _, _, [] => True
  | u, s, done, b :: t => Passing S o u s done b ∧ AllPassing S o (inForce u b) (simulated S o u s b) (done ++ [b]) t

/-- The simulation of blocks one after the other, each in the units in force before it. -/
def simulatedAll (S : Setup) (o : Options) : Units → St ℚ → List Block → St ℚ
  | _, s, [] => s
  | u, s, b :: t => simulatedAll S o (inForce u b) (simulated S o u s b) t

theorem program_iff (S : Setup) (l : Enums.ELanguage) (hl : S.lang = .known l) (o : Options) (ho : o.evalMacro = true)
    (hgg : SetOfGroups S.gcodes) (hmg : SetOfGroups S.mcodes) (ls : List (Int × Str)) :
    ∀ (p : Parser) (bs done : List Block), ReadAs S p.gram ls bs → (∀ x ∈ ls, '#' ∉ x.2) → (∀ b ∈ bs, Ordinary S.lathe S.limits b) →
    (o.analysis = true → S.cfg.operatorRotation = false → RotInv done p.rot) →
    ((program S o p ls).2 = .ok (ls.map (fun _ => (true, none))) ↔ AllPassing S o p.units p.path done bs) ∧
    ((program S o p ls).2 = .ok (ls.map (fun _ => (true, none))) → (program S o p ls).1.path = simulatedAll S o p.units p.path bs ∧
      (program S o p ls).1.units = inForce p.units bs.flatten) := by
  induction ls with
  | nil =>
    intro p bs done hr _ _ _
    cases hr
    exact ⟨⟨fun _ => trivial, fun _ => rfl⟩, fun _ => ⟨rfl, rfl⟩⟩
  | cons x t ih =>
    intro p bs done hr hs hb hrot
    cases hr with
    | @cons _ g' n s b _ bs h1 h2 =>
      obtain ⟨k1, k2⟩ := C85_line_partial S l hl o n ho hgg hmg s (hs _ List.mem_cons_self) p g' b h1 (hb _ List.mem_cons_self) done hrot
      unfold program
      dsimp only
      rcases hz : parse S o n s p with ⟨p', r⟩
      rw [hz] at k1 k2
      dsimp only at k1 k2
      by_cases hok : r = .ok (true, none)
      · subst hok
        obtain ⟨u1, u2, u3, u4⟩ := k2 rfl
        have hp := k1.mp rfl
        obtain ⟨i1, i2⟩ := ih p' bs (done ++ [b]) (by rw [u3]; exact h2) (fun y hy => hs y (List.mem_cons_of_mem _ hy))
          (fun y hy => hb y (List.mem_cons_of_mem _ hy)) u4
        rw [u1, u2] at i1 i2
        have e : (match (program S o p' t) with
            | (q, .ok r) => (q, Out.ok ((true, none) :: r))
            | (q, .throw e) => (q, .throw e)
            | (q, .ub) => (q, .ub) : Parser × Out NumExc (List Answer)).2 = .ok (((n, s) :: t).map (fun _ => (true, none))) ↔
            (program S o p' t).2 = .ok (t.map (fun _ => (true, none))) := by
          rcases program S o p' t with ⟨q, r | r | _⟩ <;> simp
        dsimp only
        have hflat : inForce p.units (b :: bs).flatten = inForce (inForce p.units b) bs.flatten := by
          unfold inForce lastSwitch
          rw [List.flatten_cons, List.filterMap_append, List.getLast?_append]
          cases (List.filterMap unitOf bs.flatten).getLast? <;> simp
        rw [hflat]
        constructor
        · exact Iff.trans e (i1.trans ⟨fun h => ⟨hp, h⟩, fun h => h.2⟩)
        · intro h
          have h' := e.mp h
          obtain ⟨j1, j2⟩ := i2 h'
          rw [show simulatedAll S o p.units p.path (b :: bs) = simulatedAll S o (inForce p.units b) (simulated S o p.units p.path b) bs from rfl,
            ← j1, ← j2]
          rcases program S o p' t with ⟨q, r | r | _⟩ <;> exact ⟨rfl, rfl⟩
      · have no : (match (p', r) with
            | (p', .ok a) =>
              match program S o p' t with
              | (q, .ok r) => (q, Out.ok (a :: r))
              | (q, .throw e) => (q, .throw e)
              | (q, .ub) => (q, .ub)
            | (p', .throw e) => (p', .throw e)
            | (p', .ub) => (p', .ub) : Parser × Out NumExc (List Answer)).2 ≠ .ok (((n, s) :: t).map (fun _ => (true, none))) := by
          cases r with
          | ok a =>
            dsimp only
            have : a ≠ (true, none) := fun h => hok (by rw [h])
            rcases program S o p' t with ⟨q, r | r | _⟩ <;> simp [this]
          | throw e => simp
          | ub => simp
        exact ⟨⟨fun h => absurd h no, fun h => absurd (k1.mpr h.1) hok⟩, fun h => absurd h no⟩

/-- C85 for programs (partial: no `#`, ordinary numbers): read by a fresh parser, every line is
accepted exactly when nothing is wrong with any block; then the simulation is that of the words, one
block after the other, and the units are those of the last switch of the program. -/
theorem C85_program_partial (S : Setup) (l : Enums.ELanguage) (hl : S.lang = .known l) (o : Options) (ho : o.evalMacro = true)
    (hgg : SetOfGroups S.gcodes) (hmg : SetOfGroups S.mcodes) (ls : List (Int × Str)) (bs : List Block)
    (hr : ReadAs S {} ls bs) (hs : ∀ x ∈ ls, '#' ∉ x.2) (hb : ∀ b ∈ bs, Ordinary S.lathe S.limits b) :
    ((program S o (fresh S) ls).2 = .ok (ls.map (fun _ => (true, none))) ↔ AllPassing S o S.units (AttrPath.initial S.cfg) [] bs) ∧
    ((program S o (fresh S) ls).2 = .ok (ls.map (fun _ => (true, none))) →
      (program S o (fresh S) ls).1.path = simulatedAll S o S.units (AttrPath.initial S.cfg) bs ∧
      (program S o (fresh S) ls).1.units = inForce S.units bs.flatten) :=
  program_iff S l hl o ho hgg hmg ls (fresh S) bs [] hr hs hb (fun _ _ => rotInv_nil)

theorem readAs_plain (S : Setup) (hR : RegularTables (Pipe.tableOf S.tables S.units) S.tables.metric S.ops) (ls : List (Int × Str)) (bs : List Block)
    (h : List.Forall₂ (fun x b => verdict (gramOf S) [] x.2 = .ret b true none ∧ ∀ a ∈ b, Spec.Words.Plain a) ls bs) :
    ∀ g, ReadAs S g ls bs := by
  induction h with
  | nil => intro g; exact .nil g
  | @cons x b t bs h _ ih =>
    intro g
    obtain ⟨h1, h2⟩ := h
    obtain ⟨h3, _⟩ := simpleParse_true (G := gramOf S) (ps := {}) (s := x.2) (ps' := (simpleParse (gramOf S) {} x.2).1) (Prod.ext rfl h1)
    obtain ⟨hne, hw⟩ := (phrase_accept (gramOf_chars S)).mp h3
    obtain ⟨g', hw'⟩ := words_plain (regularG hR S.lang) hw h2 { g with msg := [] }
    exact .cons ((phrase_accept (gramOf_chars S)).mpr ⟨hne, hw'⟩) (ih g')

/-- C85 for programs of ordinary words (partial: as before, regular word tables, no brackets and
operators): each line may be read by itself. -/
theorem C85_words_partial (S : Setup) (l : Enums.ELanguage) (hl : S.lang = .known l) (o : Options) (ho : o.evalMacro = true)
    (hgg : SetOfGroups S.gcodes) (hmg : SetOfGroups S.mcodes)
    (hR : RegularTables (Pipe.tableOf S.tables S.units) S.tables.metric S.ops) (ls : List (Int × Str)) (bs : List Block)
    (hr : List.Forall₂ (fun x b => verdict (gramOf S) [] x.2 = .ret b true none ∧ ∀ a ∈ b, Spec.Words.Plain a) ls bs)
    (hs : ∀ x ∈ ls, '#' ∉ x.2) (hb : ∀ b ∈ bs, Ordinary S.lathe S.limits b) :
    ((program S o (fresh S) ls).2 = .ok (ls.map (fun _ => (true, none))) ↔ AllPassing S o S.units (AttrPath.initial S.cfg) [] bs) ∧
    ((program S o (fresh S) ls).2 = .ok (ls.map (fun _ => (true, none))) →
      (program S o (fresh S) ls).1.path = simulatedAll S o S.units (AttrPath.initial S.cfg) bs ∧
      (program S o (fresh S) ls).1.units = inForce S.units bs.flatten) :=
  C85_program_partial S l hl o ho hgg hmg ls bs (readAs_plain S hR ls bs hr {}) hs hb

/-- A check of `Ordinary` that computes: the numbers fit, and the speeds, tools and feeds are whole and not negative. -/
theorem ordinary_of {lathe : Bool} {k : Ver.Limits} {b : Block} (h : (decs b).all (fun d => decide (readNat (d.value.getD []) ≤ 2147483647) &&
    decide (readNat (d.value2.getD []) ≤ 2147483647) && (decide (d.word ≠ c!"S" ∧ d.word ≠ c!"T" ∧ d.word ≠ c!"F") ||
    (decide (d.sign ≠ some '-') && decide (readNat (d.value2.getD []) = 0)))) = true) :
    Ordinary lathe k b := by
  rw [List.all_eq_true] at h
  refine ⟨fun d hd v hv => ?_, fun d hd => ?_⟩
  · have := h d hd
    simp only [Bool.and_eq_true, decide_eq_true_eq] at this
    rcases hv with hv | hv
    · have h1 := this.1.1; rw [hv] at h1; exact h1
    · have h1 := this.1.2; rw [hv] at h1; exact h1
  · have := h d hd
    simp only [Bool.and_eq_true, Bool.or_eq_true, decide_eq_true_eq] at this
    rcases this.2 with hw | hw
    · exact clear_other (by rintro (h' | h' | h') <;> simp [h'] at hw)
    · exact clear_whole hw.1 hw.2

/-- A program that passes: the words of its lines. -/
def goodWords : List Block :=
  [[.dec { word := c!"S", value := some c!"500" }, .dec { word := c!"M", value := some c!"3" }],
   [.dec { word := c!"G", value := some c!"1" }, .dec { word := c!"X", value := some c!"5" }, .dec { word := c!"F", value := some c!"100" }],
   [.dec { word := c!"G", value := some c!"20" }]]

/-- The hypotheses of `C85_program_partial` are met by a program that passes and, with the first line
left out, by one that does not, as it cuts without a spindle speed. -/
example : ReadAs demo {} (lines [c!"S500 M3", c!"G1 X5 F100", c!"G20"]) goodWords ∧ (∀ b ∈ goodWords, Ordinary demo.lathe demo.limits b) ∧
    SetOfGroups demo.gcodes ∧ SetOfGroups demo.mcodes ∧
    AllPassing demo serverOptions demo.units (AttrPath.initial demo.cfg) [] goodWords ∧
    ReadAs demo {} (lines [c!"G1 X5 F100", c!"G20"]) goodWords.tail ∧
    ¬ AllPassing demo serverOptions demo.units (AttrPath.initial demo.cfg) [] goodWords.tail := by
  have h1 : ReadAs demo {} (lines [c!"S500 M3", c!"G1 X5 F100", c!"G20"]) goodWords :=
    .cons (Prod.ext rfl (by decide +kernel)) (.cons (Prod.ext rfl (by decide +kernel)) (.cons (Prod.ext rfl (by decide +kernel)) (.nil _)))
  have h2 : ReadAs demo {} (lines [c!"G1 X5 F100", c!"G20"]) goodWords.tail :=
    .cons (Prod.ext rfl (by decide +kernel)) (.cons (Prod.ext rfl (by decide +kernel)) (.nil _))
  have h3 : ∀ b ∈ goodWords, Ordinary demo.lathe demo.limits b := by
    intro b hb
    refine ordinary_of ?_
    revert b
    decide
  have h4 : SetOfGroups demo.gcodes := by unfold SetOfGroups; decide
  have h5 : SetOfGroups demo.mcodes := by unfold SetOfGroups; decide
  refine ⟨h1, h3, h4, h5, ?_, h2, ?_⟩
  · exact (C85_program_partial demo .English rfl serverOptions rfl h4 h5 _ _ h1 (by decide) h3).1.mp (by decide +kernel)
  · rw [← (C85_program_partial demo .English rfl serverOptions rfl h4 h5 _ _ h2 (by decide) (fun b hb => h3 b (List.mem_of_mem_tail hb))).1]
    decide +kernel

/-- `G1 X5 F0.25`, a feed below one. -/
def slowWords : List Block :=
  [goodWords[0], [.dec { word := c!"G", value := some c!"1" }, .dec { word := c!"X", value := some c!"5" },
    .dec { word := c!"F", value := some c!"0", dot := some '.', value2 := some c!"25" }]]

/-- The hypotheses of `C85_program_partial` are met by a program with a fractional feed, which passes. -/
example : ReadAs demo {} (lines [c!"S500 M3", c!"G1 X5 F0.25"]) slowWords ∧ (∀ b ∈ slowWords, Ordinary demo.lathe demo.limits b) ∧
    AllPassing demo serverOptions demo.units (AttrPath.initial demo.cfg) [] slowWords := by
  have h1 : ReadAs demo {} (lines [c!"S500 M3", c!"G1 X5 F0.25"]) slowWords :=
    .cons (Prod.ext rfl (by decide +kernel)) (.cons (Prod.ext rfl (by decide +kernel)) (.nil _))
  have h3 : ∀ b ∈ slowWords, Ordinary demo.lathe demo.limits b := by
    intro b hb
    simp only [slowWords, List.mem_cons, List.not_mem_nil, or_false] at hb
    rcases hb with rfl | rfl
    · exact ordinary_of (by decide)
    · have hs : ∀ d ∈ decs [.dec { word := c!"G", value := some c!"1" }, .dec { word := c!"X", value := some c!"5" },
          .dec { word := c!"F", value := some c!"0", dot := some '.', value2 := some c!"25" }],
          readNat (d.value.getD []) ≤ 2147483647 ∧ readNat (d.value2.getD []) ≤ 2147483647 := by decide
      refine ⟨fun d hd v hv => ?_, fun d hd => ?_⟩
      · have := hs d hd
        rcases hv with hv | hv <;> rw [hv] at this
        · exact this.1
        · exact this.2
      · simp only [decs, List.mem_cons, List.not_mem_nil, or_false] at hd
        rcases hd with rfl | rfl | rfl
        · exact clear_other (by decide)
        · exact clear_other (by decide)
        · intro v hv
          cases hv
          refine ⟨by simp, by simp, fun _ => .inr ?_⟩
          decide +kernel
  have h4 : SetOfGroups demo.gcodes := by unfold SetOfGroups; decide
  have h5 : SetOfGroups demo.mcodes := by unfold SetOfGroups; decide
  exact ⟨h1, h3, (C85_program_partial demo .English rfl serverOptions rfl h4 h5 _ _ h1 (by decide) h3).1.mp (by decide +kernel)⟩

end NC.Props
