import Verif.AssignStage
import Verif.Props.Written
import Verif.Props.Variables
import Verif.UnitConvProofs

/-! # C98: assignments `#n=expression` -/

namespace NC.Props
open NC NC.Message NC.Gram NC.Pipe NC.Calc NC.Spec NC.Spec.Tables NC.Spec.Verify NC.Spec.Survive NC.Spec.Assign
open NC.Spec (Source.line)
open NC.Ver (RotInv)

/-- The words of the default units, and the names of the table. -/
abbrev rangesOf (S : Setup) : WordMap := Pipe.tableOf S.tables S.units
abbrev namesOf (S : Setup) : List Str := decNames S.tables.metric S.ops

/-- A setup in which expressions can be written: the signs are names of the table, a name without range is an operation, axes
are single letters, and neither signs nor operations are declared to stand once in a line. -/
structure Ready (S : Setup) : Prop where
  regular : RegularTables (rangesOf S) S.tables.metric S.ops
  signs : Signs (rangesOf S) (namesOf S) (assignNames S.tables.metric S.ops)
  named : ∀ w ∈ namesOf S, WordMap.find (rangesOf S) w = none → w ∈ S.ops
  axes : ∀ a ∈ S.cfg.axes, ∃ c, a = [c] ∧ 'A' ≤ c ∧ c ≤ 'Z'
  unique : ∀ u w, DeclaredUnique (Pipe.tableOf S.tables u) w → w ∉ c!"#" :: joints ∧ w ∉ S.ops
  pallet : S.cfg.palletWord ≠ c!"("
  measure : S.cfg.measureWord ≠ c!"("

section
variable {S : Setup} (hS : Ready S)
include hS

omit hS in
theorem txt_valText (d : Dec) : txt d = d.word ++ Macro.valText d := by
  unfold txt otxt vtxt Macro.valText
  obtain ⟨w, a, s, o, m, v, t, v2, c⟩ := d
  cases s <;> cases o <;> cases m <;> cases v <;> cases t <;> cases v2 <;> cases c <;> simp [Macro.optC, Macro.optS]

/-- What the evaluation of the words of an assignment amounts to. -/
theorem evaluate_words {ip : List (Fin 10)} (hip : Numeral (rangesOf S) ip) {e : E} (he : FitE (rangesOf S) (namesOf S) e) (m : MacroMap ℚ) (line : Int) :
    Macro.evaluate S.tr m line ((assignWords ip e).map .dec) =
      match evalText S.tr m e.pr with
      | .ok v => .ok (m.emplace ⟨worthOf ip, line⟩ v)
      | .throw f => .throw (.calc f)
      | .ub => .ub := by
  have hL := lexE_spec e he (wordOf c!"=") (piece_wordOf (.inl (by decide))) (begun_wordOf _)
  obtain ⟨d, t, f1, f2, f3⟩ := hL.first
  have hd : d.word = c!"=" := f2
  have etx : Macro.valText d ++ Macro.tailText t = e.pr := by
    have h1 : txts (d :: t) = '=' :: e.pr := by
      rw [← f1, txts_append]
      have := hL.text
      rw [txt_wordOf] at this
      simpa [txts] using this
    have h2 : txts t = Macro.tailText t := by
      unfold txts Macro.tailText
      congr 1
      funext x
      exact txt_valText x
    rw [txts_cons, txt_valText, hd, h2] at h1
    simpa using h1
  have hs : stoi (ip.map dig) = .ok (worthOf ip : Int) := by
    apply stoi_digits
    · intro c hc
      obtain ⟨x, -, rfl⟩ := List.mem_map.mp hc
      exact dig_isDig x
    · simpa using hip.some
    · exact hip.whole
  have h1 : Macro.macStep {} (Attr.dec (Gram.target ip)) = .ok ⟨(worthOf ip : Int), false, []⟩ := by
    simp [Macro.macStep, Gram.target, hs]
  have h2 : Macro.macStep ⟨(worthOf ip : Int), false, []⟩ (Attr.dec d) = .ok ⟨(worthOf ip : Int), true, Macro.valText d⟩ := by
    have : (worthOf ip : Int) ≠ -1 := by omega
    simp [Macro.macStep, hd, this]
  have h3 : Macro.macRun {} ((assignWords ip e).map .dec) = .ok ⟨(worthOf ip : Int), true, e.pr⟩ := by
    unfold assignWords
    rw [f1, List.map_cons, List.map_cons, Macro.macRun, h1, Out.bind_ok, Macro.macRun, h2, Out.bind_ok, Macro.macRun_tail, etx]
  unfold Macro.evaluate
  rw [h3]
  dsimp only
  rw [if_pos (by omega), if_neg (Macro.E_head e)]
  rfl

/-- The words of an assignment: signs and operations. -/
theorem assign_word {ip : List (Fin 10)} {e : E} (he : FitE (rangesOf S) (namesOf S) e) {d : Dec} (hd : d ∈ assignWords ip e) :
    d.word ∈ c!"#" :: joints ∨ (d.word ∈ S.ops ∧ Lettered d.word) := by
  have hL := lexE_spec e he (wordOf c!"=") (piece_wordOf (.inl (by decide))) (begun_wordOf _)
  unfold assignWords at hd
  rcases List.mem_cons.mp hd with rfl | hd
  · left; simp [Gram.target]
  · have : Piece (rangesOf S) (namesOf S) d := by
      rcases List.mem_append.mp hd with hd | hd
      · exact hL.pieces d hd
      · rw [List.mem_singleton.mp hd]; exact hL.last
    rcases this.word with h | h
    · left; simp [h]
    · exact .inr ⟨hS.named _ h.1.1.1 h.1.2, h.2⟩

theorem assign_inert {ip : List (Fin 10)} {e : E} (he : FitE (rangesOf S) (namesOf S) e) : ∀ d ∈ assignWords ip e, Inert S.cfg.axes d.word := by
  intro d hd hin
  -- every word with a meaning is a single capital letter
  have one : ∃ c, d.word = [c] ∧ 'A' ≤ c ∧ c ≤ 'Z' := by
    unfold located kept at hin
    simp only [List.mem_append, List.mem_cons, List.not_mem_nil, or_false] at hin
    rcases hin with ((hin | hin) | hin)
    · rcases hin with h | h | h | h | h <;> exact ⟨_, h, by decide, by decide⟩
    · rcases hin with h | h
      · rcases h with h | h | h | h | h | h | h | h | h | h | h <;> exact ⟨_, h, by decide, by decide⟩
      · exact hS.axes _ h
    · rcases hin with h | h | h | h | h | h | h | h | h <;> exact ⟨_, h, by decide, by decide⟩
  obtain ⟨c, h1, h2, h3⟩ := one
  rcases assign_word hS he hd with h | ⟨-, c', u, h, hu, -⟩
  · rw [h1] at h
    unfold joints at h
    simp only [List.mem_cons, List.not_mem_nil, or_false, List.cons.injEq, and_true] at h
    rcases h with rfl | rfl | rfl | rfl | rfl | rfl <;> revert h2 h3 <;> decide
  · rw [h1] at h
    cases h
    exact hu rfl

theorem assign_unique {ip : List (Fin 10)} {e : E} (he : FitE (rangesOf S) (namesOf S) e) (u : Ver.Units) :
    Ver.uniqueCode (Pipe.tableOf S.tables u) ((assignWords ip e).map .dec) = .ok () := by
  rw [C30_unique]
  intro w hw
  have : occurs w ((assignWords ip e).map .dec) = 0 := by
    unfold occurs
    rw [List.countP_eq_zero]
    intro d hd
    have hd : d ∈ assignWords ip e := by
      rw [mem_decs] at hd
      obtain ⟨x, hx, e⟩ := List.mem_map.mp hd
      cases e
      exact hx
    obtain ⟨k1, k2⟩ := hS.unique u w hw
    simp only [decide_eq_true_eq]
    rintro rfl
    rcases assign_word hS he hd with h | h
    · exact k1 h
    · exact k2 h.1
  omega

theorem assign_substitute {ip : List (Fin 10)} {e : E} (he : FitE (rangesOf S) (namesOf S) e) (m : MacroMap ℚ) (line : Int) :
    Macro.substitute S.ops m line ((assignWords ip e).map .dec) = .ok [] := by
  have key : ∀ (l : List Dec), (∀ d ∈ l, d.word ∈ c!"#" :: joints ∨ d.word ∈ S.ops) → ∀ t, ∃ t', Macro.subRun S.ops m line ⟨false, false, t⟩ (l.map .dec) = .ok ⟨false, false, t'⟩ := by
    intro l
    induction l with
    | nil => intro _ t; exact ⟨t, rfl⟩
    | cons d l ih =>
      intro h t
      have e1 : (!Macro.plainWords.contains d.word && !S.ops.contains d.word) = false := by
        rcases h d (by simp) with h | h
        · have : d.word ∈ Macro.plainWords := by
            unfold joints at h
            unfold Macro.plainWords
            simp only [List.mem_cons, List.not_mem_nil, or_false] at h ⊢
            tauto
          simp [this]
        · simp [h]
      have e2 : ∃ t', Macro.subStep S.ops m line ⟨false, false, t⟩ (.dec d) = .ok ⟨false, false, t'⟩ := by
        unfold Macro.subStep
        dsimp only
        rw [e1]
        exact ⟨_, rfl⟩
      obtain ⟨t', e2⟩ := e2
      obtain ⟨t'', e3⟩ := ih (fun d hd => h d (by simp [hd])) t'
      refine ⟨t'', ?_⟩
      show (Macro.subStep S.ops m line ⟨false, false, t⟩ (.dec d) >>= fun st => Macro.subRun S.ops m line st (l.map .dec)) = _
      rw [e2]
      exact e3
  obtain ⟨t', h⟩ := key (assignWords ip e) (fun d hd => (assign_word hS he hd).imp id And.left) []
  unfold Macro.substitute
  have h' : Macro.subRun S.ops m line {} ((assignWords ip e).map .dec) = .ok ⟨false, false, t'⟩ := h
  rw [h']
  rfl

/-- The line of a comment is checked as that comment. -/
theorem parse_comment (o : Options) (ho : o.evalMacro = true) (line : Int) (p : Parser) :
    ∃ g, parse S o line c!"()" p = systemStage S o line true [.str c!"(" []] { p with gram := g } := by
  have hd : Declared (rangesOf S) S.tables.metric S.ops [.str c!"(" []] := ⟨.one (.comment (by simp)), .singleton _⟩
  obtain ⟨g, hg⟩ := written_words (lang := S.lang) hS.regular hd { p.gram with msg := [] } [] (by simp)
  refine ⟨g, ?_⟩
  have hg : phrase (gramOf S) { p.gram with msg := [] } c!"()" = (g, .accept [.str c!"(" []]) := hg
  unfold parse
  rw [hg]
  show wordStage S o line true [.str c!"(" []] { p with gram := g } = _
  unfold wordStage
  have : Ver.uniqueCode (Pipe.tableOf S.tables p.units) [.str c!"(" []] = .ok () := rfl
  rw [this]
  show (if o.evalMacro = true then _ else _) = _
  rw [if_pos ho]
  rfl

/-- The line of an assignment. -/
theorem parse_assign (o : Options) (ho : o.evalMacro = true) (line : Int) (p : Parser) (hb : 0 ≤ bal p.gram.st) {ip : List (Fin 10)}
    (hip : Numeral (rangesOf S) ip) {e : E} (he : FitE (rangesOf S) (namesOf S) e) (blanks : Str) (hbl : ∀ c ∈ blanks, c = ' ' ∨ c = '\t') :
    ∃ g : PS, bal p.gram.st ≤ bal g.st ∧ g.msg = [] ∧ parse S o line (Assign.text ip e ++ blanks) p =
      match evalText S.tr p.macros e.pr with
      | .ok v => systemStage S o line true [.str c!"(" []] { p with gram := g, macros := p.macros.emplace ⟨worthOf ip, line⟩ v }
      | .throw _ => ({ p with gram := g }, .ok (false, some g.msg))
      | .ub => ({ p with gram := g }, .ub) := by
  have hG : RegularG (gramOf S) := regularG hS.regular S.lang
  have hs : Gram.skip blanks = [] := by
    clear * - hbl
    induction blanks with
    | nil => rfl
    | cons c t ih =>
      have hc : isBlank c = true := by rcases hbl c (by simp) with rfl | rfl <;> decide
      rw [skip_of_blank hc]
      exact ih (fun c hc => hbl c (by simp [hc]))
  obtain ⟨g, hw, hbal⟩ := assign_read hG hS.signs hip he hs { p.gram with msg := [] } hb
  have hm := words_quiet hG hw
  refine ⟨g, hbal, hm, ?_⟩
  have hp : phrase (gramOf S) { p.gram with msg := [] } (Assign.text ip e ++ blanks) = (g, .accept ((assignWords ip e).map .dec)) :=
    (phrase_accept (gramOf_chars S)).mpr ⟨by simp [assignWords], hw⟩
  unfold parse
  rw [hp]
  show wordStage S o line true ((assignWords ip e).map .dec) { p with gram := g } = _
  unfold wordStage
  rw [assign_unique hS he]
  show (if o.evalMacro = true then _ else _) = _
  rw [if_pos ho]
  unfold macroStage
  rw [evaluate_words hS hip he]
  cases evalText S.tr p.macros e.pr with
  | ok v =>
    dsimp only
    unfold substituteStage
    rw [assign_substitute hS he]
    exact inert_stage (assign_inert hS he) hS.pallet hS.measure (by simp [assignWords]) o line true [] _
  | throw f => rfl
  | ub => rfl

variable {lg : Enums.ELanguage} (hl : S.lang = .known lg)
include hl

theorem comment_of (o : Options) (line line' : Int) (p p' : Parser) (hu : p'.units = p.units) (hp : p'.path = p.path) (hr : p'.rot = p.rot)
    (h : (systemStage S o line true [.str c!"(" []] p).2 = .ok (true, none)) :
    systemStage S o line' true [.str c!"(" []] p' =
      ({ p' with path := (systemStage S o line true [.str c!"(" []] p).1.path, rot := (systemStage S o line true [.str c!"(" []] p).1.rot }, .ok (true, none)) := by
  obtain ⟨h1, h2, h3⟩ := (comment_iff hl hS.pallet hS.measure o line [] p _).mp (Prod.ext rfl h)
  rw [comment_iff hl hS.pallet hS.measure, hr, hu, hp]
  refine ⟨h1, h2, ?_⟩
  have k1 := congrArg Parser.path h3
  have k2 := congrArg Parser.rot h3
  dsimp only at k1 k2
  congr 1

/-- C98: an assignment is accepted exactly when the expression has a value and a line with nothing but a comment would be accepted
in its place. -/
theorem C98_line (o : Options) (ho : o.evalMacro = true) (line : Int) (p : Parser) (hb : 0 ≤ bal p.gram.st) {ip : List (Fin 10)}
    (hip : Numeral (rangesOf S) ip) {e : E} (he : FitE (rangesOf S) (namesOf S) e) (blanks : Str) (hbl : ∀ c ∈ blanks, c = ' ' ∨ c = '\t') :
    (parse S o line (Assign.text ip e ++ blanks) p).2 = .ok (true, none) ↔
      (∃ v, e.val (spTr S.tr) p.macros.valueMax = some v) ∧ (parse S o line c!"()" p).2 = .ok (true, none) := by
  obtain ⟨g, -, -, h⟩ := parse_assign hS o ho line p hb hip he blanks hbl
  obtain ⟨g', h'⟩ := parse_comment hS o ho line p
  rw [h, h']
  constructor
  · intro hx
    cases hv : evalText S.tr p.macros e.pr with
    | ok v =>
      rw [hv] at hx
      refine ⟨⟨v, (C13_expression_value S.tr p.macros e v).mp hv⟩, ?_⟩
      dsimp only at hx
      rw [comment_of hS hl o line line _ { p with gram := g' } (by rfl) (by rfl) (by rfl) hx]
    | throw f => rw [hv] at hx; cases hx
    | ub => rw [hv] at hx; cases hx
  · rintro ⟨⟨v, hv⟩, hx⟩
    rw [(C13_expression_value S.tr p.macros e v).mpr hv]
    dsimp only
    rw [comment_of hS hl o line line _ _ (by rfl) (by rfl) (by rfl) hx]

/-- C98: an accepted assignment gives the variable the value of the expression from its line on, if the line has not been read
before; it changes no other variable, and the simulation is what a comment leaves. -/
theorem C98_effect (o : Options) (ho : o.evalMacro = true) (line : Int) (p : Parser) (hb : 0 ≤ bal p.gram.st) {ip : List (Fin 10)}
    (hip : Numeral (rangesOf S) ip) {e : E} (he : FitE (rangesOf S) (namesOf S) e) (blanks : Str) (hbl : ∀ c ∈ blanks, c = ' ' ∨ c = '\t')
    (q : Parser) (h : parse S o line (Assign.text ip e ++ blanks) p = (q, .ok (true, none))) :
    ∃ v, e.val (spTr S.tr) p.macros.valueMax = some v ∧
      (p.macros.Sorted → q.macros.Sorted ∧
        (p.macros.get ⟨worthOf ip, line⟩ = none → q.macros.get ⟨worthOf ip, line⟩ = some v) ∧
        ∀ k, k ≠ ⟨worthOf ip, line⟩ → q.macros.get k = p.macros.get k) ∧
      q.path = (parse S o line c!"()" p).1.path ∧ q.rot = (parse S o line c!"()" p).1.rot ∧ q.units = p.units ∧ 0 ≤ bal q.gram.st := by
  obtain ⟨g, h1, -, h2⟩ := parse_assign hS o ho line p hb hip he blanks hbl
  obtain ⟨g', h'⟩ := parse_comment hS o ho line p
  rw [h2] at h
  cases hv : evalText S.tr p.macros e.pr with
  | ok v =>
    rw [hv] at h
    dsimp only at h
    refine ⟨v, (C13_expression_value S.tr p.macros e v).mp hv, ?_⟩
    have hx : (systemStage S o line true [.str c!"(" []] { p with gram := g, macros := p.macros.emplace ⟨worthOf ip, line⟩ v }).2 = .ok (true, none) := by rw [h]
    have k1 := comment_of hS hl o line line _ { p with gram := g' } (by rfl) (by rfl) (by rfl) hx
    have hx' : (systemStage S o line true [.str c!"(" []] { p with gram := g' }).2 = .ok (true, none) := by rw [k1]
    have k2 := comment_of hS hl o line line _ { p with gram := g, macros := p.macros.emplace ⟨worthOf ip, line⟩ v } (by rfl) (by rfl) (by rfl) hx'
    rw [h] at k2
    rw [h']
    have hq := congrArg Prod.fst k2
    dsimp only at hq
    rw [hq]
    refine ⟨fun hs => ⟨MacroMap.sorted_emplace hs _ _, ?_, ?_⟩, rfl, rfl, rfl, by show 0 ≤ bal g.st; omega⟩
    · intro hn
      show (p.macros.emplace _ v).get _ = _
      rw [MacroMap.get_emplace hs, if_pos rfl, hn]
      rfl
    · intro k hk
      show (p.macros.emplace _ v).get _ = _
      rw [MacroMap.get_emplace hs, if_neg hk]
  | throw f => rw [hv] at h; cases h
  | ub => rw [hv] at h; cases h

omit hl in
/-- C98: if the expression has no value the line is refused with an empty message and nothing but the count of brackets has
changed, or the behaviour is undefined (a remainder by zero, a number too large for an `int`). -/
theorem C98_no_value (o : Options) (ho : o.evalMacro = true) (line : Int) (p : Parser) (hb : 0 ≤ bal p.gram.st) {ip : List (Fin 10)}
    (hip : Numeral (rangesOf S) ip) {e : E} (he : FitE (rangesOf S) (namesOf S) e) (blanks : Str) (hbl : ∀ c ∈ blanks, c = ' ' ∨ c = '\t')
    (hv : e.val (spTr S.tr) p.macros.valueMax = none) :
    ∃ q, q.macros = p.macros ∧ q.path = p.path ∧ q.units = p.units ∧ q.rot = p.rot ∧
      (parse S o line (Assign.text ip e ++ blanks) p = (q, .ok (false, some [])) ∨ parse S o line (Assign.text ip e ++ blanks) p = (q, .ub)) := by
  obtain ⟨g, -, hm, h⟩ := parse_assign hS o ho line p hb hip he blanks hbl
  refine ⟨{ p with gram := g }, rfl, rfl, rfl, rfl, ?_⟩
  rw [h]
  cases hx : evalText S.tr p.macros e.pr with
  | ok v =>
    rw [(C13_expression_value S.tr p.macros e v).mp hx] at hv
    cases hv
  | throw f => left; dsimp only; rw [hm]
  | ub => exact .inr rfl

end

/-! ## Programs -/

/-- A variable in which the controller keeps words. -/
def Kept (i : Nat) : Prop := (∃ a, i ∈ sysOf a) ∨ toolVariable i

/-- The text of a line. -/
def lineOf : Item → Str
  | .assign ip e => Assign.text ip e
  | .words b => Source.line b

/-- What a line is for the machine: an assignment is nothing but a comment. -/
def blockOf : Item → Block
  | .assign _ _ => [.str c!"(" []]
  | .words b => b

/-- Assignments as above that do not read the words the controller keeps; words as the tables declare them, without variables. -/
def Fits (S : Setup) : Item → Prop
  | .assign ip e => Numeral (rangesOf S) ip ∧ FitE (rangesOf S) (namesOf S) e ∧ ∀ i ∈ readsE e, ¬ Kept i
  | .words b => Declared (rangesOf S) S.tables.metric S.ops b ∧ '#' ∉ Source.line b ∧ Spec.Check.Ordinary S.lathe S.limits b

theorem program_cons (S : Setup) (o : Options) (p : Parser) (n : Int) (s : Str) (t : List (Int × Str)) :
    ((program S o p ((n, s) :: t)).2 = .ok (((n, s) :: t).map (fun _ => (true, none))) ↔
      (parse S o n s p).2 = .ok (true, none) ∧ (program S o (parse S o n s p).1 t).2 = .ok (t.map (fun _ => (true, none)))) ∧
    ((parse S o n s p).2 = .ok (true, none) → (program S o p ((n, s) :: t)).1 = (program S o (parse S o n s p).1 t).1) := by
  rw [program]
  rcases parse S o n s p with ⟨p', a | a | _⟩
  · dsimp only
    rcases program S o p' t with ⟨q, r | r | _⟩ <;> simp
  · simp
  · simp

/-- The latest value after a line has recorded one. -/
theorem valueMax_set {m m' : MacroMap ℚ} (hs : m.Sorted) (hs' : m'.Sorted) {n : Nat} {line : Int} {v : ℚ} (hL : line ≤ 2147483647)
    (hn : ∀ i l, line ≤ l → m.get ⟨i, l⟩ = none) (h1 : m'.get ⟨n, line⟩ = some v) (h2 : ∀ k, k ≠ ⟨n, line⟩ → m'.get k = m.get k) (i : Nat) :
    m'.valueMax i = if i = n then some v else m.valueMax i := by
  have late : ∀ id l, line < l → m'.get ⟨id, l⟩ = none := by
    intro id l hl
    rw [h2 _ (by intro e; simp only [MKey.mk.injEq] at e; omega)]
    exact hn id l (by omega)
  rw [MacroMap.valueMax_eq hs' hL late, MacroMap.valueMax_eq hs hL (fun id l hl => hn id l (by omega))]
  by_cases hi : i = n
  · rw [if_pos hi, hi]
    exact MacroMap.valueAt_of_get hs' h1
  · rw [if_neg hi]
    refine MacroMap.valueAt_congr hs' hs (fun l _ => h2 _ ?_)
    intro e; simp only [MKey.mk.injEq] at e; exact hi e.1

theorem declared_net {words table : WordMap} {ops : List Str} {b : Block} (h : Declared words table ops b) : ∀ a ∈ b, netOf a = 0 := by
  have hw : ∀ {a}, Spec.Proper.Word words (decNames table ops) (assignNames table ops) a → netOf a = 0 := by
    intro a ha
    cases ha with
    | address _ _ h => simp [netOf, net, openLen, closeLen, h.openB, h.closeB]
    | assignment _ _ h => simp [netOf, net, openLen, closeLen, h.openB, h.closeB]
    | comment => rfl
    | program => rfl
  have hl := h.1
  clear h
  induction hl with
  | one h => intro a ha; rw [List.mem_singleton.mp ha]; exact hw h
  | percent => intro a ha; rw [List.mem_singleton.mp ha]; rfl
  | more h _ ih =>
    intro a ha
    rcases List.mem_cons.mp ha with rfl | ha
    · exact hw h
    · exact ih a ha

section
variable {S : Setup} (hS : Ready S) {lg : Enums.ELanguage} (hl : S.lang = .known lg) (o : Options) (ho : o.evalMacro = true)
  (hgg : SetOfGroups S.gcodes) (hmg : SetOfGroups S.mcodes)
include hS hl ho hgg hmg

theorem items_iff (xs : List (Int × Item)) : ∀ (p : Parser) (done : List Block) (env : Nat → Option ℚ),
    (∀ x ∈ xs, Fits S x.2) → xs.Pairwise (fun x y => x.1 < y.1) → (∀ x ∈ xs, x.1 ≤ 2147483647) →
    p.macros.Sorted → (∀ x ∈ xs, ∀ i l, x.1 ≤ l → p.macros.get ⟨i, l⟩ = none) → 0 ≤ bal p.gram.st →
    (o.analysis = true → S.cfg.operatorRotation = false → RotInv done p.rot) →
    (∀ i, ¬ Kept i → p.macros.valueMax i = env i) →
    ((program S o p (xs.map (fun x => (x.1, lineOf x.2)))).2 = .ok (xs.map (fun _ => (true, none))) ↔
      (∃ env', computed (spTr S.tr) env (xs.map Prod.snd) = some env') ∧ AllPassing S o p.units p.path done (xs.map (fun x => blockOf x.2))) ∧
    ((program S o p (xs.map (fun x => (x.1, lineOf x.2)))).2 = .ok (xs.map (fun _ => (true, none))) →
      (program S o p (xs.map (fun x => (x.1, lineOf x.2)))).1.path = simulatedAll S o p.units p.path (xs.map (fun x => blockOf x.2)) ∧
      (∀ env', computed (spTr S.tr) env (xs.map Prod.snd) = some env' → ∀ i, ¬ Kept i →
        (program S o p (xs.map (fun x => (x.1, lineOf x.2)))).1.macros.valueMax i = env' i) ∧
      (program S o p (xs.map (fun x => (x.1, lineOf x.2)))).1.units = Spec.Units.inForce p.units (xs.map (fun x => blockOf x.2)).flatten ∧
      (o.analysis = true → S.cfg.operatorRotation = false →
        RotInv (done ++ xs.map (fun x => blockOf x.2)) (program S o p (xs.map (fun x => (x.1, lineOf x.2)))).1.rot) ∧
      0 ≤ bal (program S o p (xs.map (fun x => (x.1, lineOf x.2)))).1.gram.st ∧
      (program S o p (xs.map (fun x => (x.1, lineOf x.2)))).1.macros.Sorted ∧
      ∀ L, (∀ x ∈ xs, x.1 < L) → (∀ i l, L ≤ l → p.macros.get ⟨i, l⟩ = none) →
        ∀ i l, L ≤ l → (program S o p (xs.map (fun x => (x.1, lineOf x.2)))).1.macros.get ⟨i, l⟩ = none) := by
  induction xs with
  | nil =>
    intro p done env _ _ _ hsort _ hbal hrot henv
    refine ⟨⟨fun _ => ⟨⟨env, rfl⟩, trivial⟩, fun _ => rfl⟩, fun _ => ⟨rfl, ?_, rfl, fun a b => ?_, hbal, hsort, fun L _ h => h⟩⟩
    · rintro env' ⟨⟩ i hi
      exact henv i hi
    · rw [List.map_nil, List.append_nil]
      exact hrot a b
  | cons x t ih =>
    intro p done env hf hlt hmax hsort hnew hbal hrot henv
    obtain ⟨n, it⟩ := x
    have hf0 := hf (n, it) (by simp)
    have hn := hmax (n, it) (by simp)
    have hnew0 := hnew (n, it) (by simp)
    have hlt' := List.pairwise_cons.mp hlt
    obtain ⟨c1, c2⟩ := program_cons S o p n (lineOf it) (t.map (fun x => (x.1, lineOf x.2)))
    have emap : ((n, lineOf it) :: t.map (fun x => (x.1, lineOf x.2))).map (fun _ => ((true, none) : Answer)) = ((n, it) :: t).map (fun _ => (true, none)) := by
      rw [List.map_cons, List.map_cons, List.map_map]; rfl
    have emap2 : (t.map (fun x => (x.1, lineOf x.2))).map (fun _ => ((true, none) : Answer)) = t.map (fun _ => (true, none)) := by
      rw [List.map_map]; rfl
    rw [emap, emap2] at c1
    -- one line, in terms of its block
    have one : ((parse S o n (lineOf it) p).2 = .ok (true, none) ↔ (∃ e1, computed (spTr S.tr) env [it] = some e1) ∧ Passing S o p.units p.path done (blockOf it)) ∧
        ((parse S o n (lineOf it) p).2 = .ok (true, none) →
          (parse S o n (lineOf it) p).1.units = Spec.Units.inForce p.units (blockOf it) ∧
          (parse S o n (lineOf it) p).1.path = simulated S o p.units p.path (blockOf it) ∧
          (o.analysis = true → S.cfg.operatorRotation = false → RotInv (done ++ [blockOf it]) (parse S o n (lineOf it) p).1.rot) ∧
          0 ≤ bal (parse S o n (lineOf it) p).1.gram.st ∧ (parse S o n (lineOf it) p).1.macros.Sorted ∧
          (∀ i l, n < l → (parse S o n (lineOf it) p).1.macros.get ⟨i, l⟩ = none) ∧
          ∀ e1, computed (spTr S.tr) env [it] = some e1 → ∀ i, ¬ Kept i → (parse S o n (lineOf it) p).1.macros.valueMax i = e1 i) := by
      cases it with
      | assign ip e =>
        obtain ⟨f1, f2, f3⟩ := hf0
        have hval : e.val (spTr S.tr) p.macros.valueMax = e.val (spTr S.tr) env :=
          val_readsE _ e f2 (fun i hi => henv i (f3 i hi))
        have hd : Declared (rangesOf S) S.tables.metric S.ops [.str c!"(" []] := ⟨.one (.comment (by simp)), .singleton _⟩
        obtain ⟨g, hg⟩ := written_words (lang := S.lang) hS.regular hd { p.gram with msg := [] } [] (by simp)
        have hg : phrase (gramOf S) { p.gram with msg := [] } c!"()" = (g, .accept [.str c!"(" []]) := hg
        obtain ⟨k1, k2⟩ := C85_line_partial S lg hl o n ho hgg hmg c!"()" (by decide) p g [.str c!"(" []] hg (ordinary_of (by decide)) done hrot
        have hline := C98_line hS hl o ho n p hbal f1 f2 [] (by simp)
        rw [List.append_nil] at hline
        have hfin : (∃ e1, computed (spTr S.tr) env [Item.assign ip e] = some e1) ↔ ∃ v, e.val (spTr S.tr) env = some v := by
          unfold computed
          cases e.val (spTr S.tr) env <;> simp [computed]
        refine ⟨?_, ?_⟩
        · rw [hfin, ← hval]
          exact hline.trans (and_congr_right (fun _ => k1))
        · intro hacc
          have hacc' : (parse S o n c!"()" p).2 = .ok (true, none) := (hline.mp hacc).2
          obtain ⟨u1, u2, u3, u4⟩ := k2 hacc'
          obtain ⟨v, w1, w2, w3, w4, w5, w6⟩ := C98_effect hS hl o ho n p hbal f1 f2 [] (by simp) (parse S o n (lineOf (.assign ip e)) p).1
            (by rw [List.append_nil]; exact Prod.ext rfl hacc)
          obtain ⟨w7, w8, w9⟩ := w2 hsort
          have w8 := w8 (hnew0 _ _ le_rfl)
          refine ⟨w5, by rw [w3, u2]; rfl, fun a b => by rw [w4]; exact u4 a b, w6, w7, ?_, ?_⟩
          · intro i l hl
            rw [w9 _ (by intro e; simp only [MKey.mk.injEq] at e; omega)]
            exact hnew0 i l hl.le
          · intro e1 he1 i hi
            rw [hval] at w1
            unfold computed at he1
            rw [w1] at he1
            dsimp only [computed] at he1
            cases he1
            rw [valueMax_set hsort w7 hn hnew0 w8 w9, henv i hi]
      | words b =>
        obtain ⟨f1, f2, f3⟩ := hf0
        obtain ⟨g, hg⟩ := written_words (lang := S.lang) hS.regular f1 { p.gram with msg := [] } [] (by simp)
        rw [List.append_nil] at hg
        have hg : phrase (gramOf S) { p.gram with msg := [] } (Source.line b) = (g, .accept b) := hg
        obtain ⟨k1, k2⟩ := C85_line_partial S lg hl o n ho hgg hmg (Source.line b) f2 p g b hg f3 done hrot
        refine ⟨k1.trans ⟨fun h => ⟨⟨env, rfl⟩, h⟩, fun h => h.2⟩, ?_⟩
        intro hacc
        obtain ⟨u1, u2, u3, u4⟩ := k2 hacc
        obtain ⟨_, hW⟩ := (phrase_accept (gramOf_chars S)).mp hg
        have hb := words_bal (regularG hS.regular S.lang) hW (declared_net f1)
        obtain ⟨g', b', m1, r1, r2, r3⟩ := parse_recorded (line := n) hl ho (p := p) (q := (parse S o n (Source.line b) p).1) (m := none) (Prod.ext rfl hacc) hsort
        rw [hg] at r1
        cases r1
        rw [evaluate_plain (words_noHash hW f2)] at r2
        cases r2
        refine ⟨u1, u2, u4, ?_, r3.sorted, ?_, ?_⟩
        · show 0 ≤ bal (parse S o n (Source.line b) p).1.gram.st
          rw [u3]
          exact le_trans hbal hb
        · intro i l hl
          show (parse S o n (Source.line b) p).1.macros.get ⟨i, l⟩ = none
          rw [r3.others _ (by rintro ⟨-, h⟩; dsimp only at h; omega)]
          exact hnew0 i l hl.le
        · rintro e1 ⟨⟩ i hi
          rw [← henv i hi]
          have late : ∀ id l, n < l → (parse S o n (Source.line b) p).1.macros.get ⟨id, l⟩ = none := by
            intro id l hl
            rw [r3.others _ (by rintro ⟨-, h⟩; dsimp only at h; omega)]
            exact hnew0 id l hl.le
          show (parse S o n (Source.line b) p).1.macros.valueMax i = _
          rw [MacroMap.valueMax_eq r3.sorted hn late, MacroMap.valueMax_eq hsort hn (fun id l hl => hnew0 id l hl.le)]
          refine MacroMap.valueAt_congr r3.sorted hsort (fun l _ => r3.others _ ?_)
          rintro ⟨h, -⟩
          apply hi
          rcases h with ⟨w, h⟩ | h
          · exact .inl ⟨w, by rw [← idsOf_eq]; exact h⟩
          · exact .inr h
    obtain ⟨o1, o2⟩ := one
    -- the values after the first line and the others
    have fin2 : ∀ e1, computed (spTr S.tr) env [it] = some e1 → computed (spTr S.tr) env (it :: t.map Prod.snd) = computed (spTr S.tr) e1 (t.map Prod.snd) := by
      intro e1 h
      cases it with
      | words b => cases h; rfl
      | assign ip e =>
        have hc : ∀ r, computed (spTr S.tr) env (.assign ip e :: r) = match e.val (spTr S.tr) env with
            | some v => computed (spTr S.tr) (fun i => if i = worthOf ip then some v else env i) r
            | none => none := fun r => by
          conv_lhs => unfold computed
          cases e.val (spTr S.tr) env <;> rfl
        rw [hc] at h ⊢
        cases hv : e.val (spTr S.tr) env with
        | none => rw [hv] at h; cases h
        | some v => rw [hv] at h; dsimp only [computed] at h ⊢; cases h; rfl
    have fin1 : (∃ e', computed (spTr S.tr) env (it :: t.map Prod.snd) = some e') → ∃ e1, computed (spTr S.tr) env [it] = some e1 := by
      rintro ⟨e', h⟩
      cases it with
      | words b => exact ⟨env, rfl⟩
      | assign ip e =>
        unfold computed at h ⊢
        cases hv : e.val (spTr S.tr) env with
        | none => rw [hv] at h; cases h
        | some v => exact ⟨_, rfl⟩
    have next : (parse S o n (lineOf it) p).2 = .ok (true, none) → ∀ e1, computed (spTr S.tr) env [it] = some e1 → _ := fun hacc e1 he1 => by
      obtain ⟨u1, u2, u3, u4, u5, u6, u7⟩ := o2 hacc
      exact ih (parse S o n (lineOf it) p).1 (done ++ [blockOf it]) e1 (fun y hy => hf y (by simp [hy])) hlt'.2 (fun y hy => hmax y (by simp [hy])) u5
        (fun y hy i l hl => u6 i l (lt_of_lt_of_le (hlt'.1 y hy) hl)) u4 u3 (u7 e1 he1)
    simp only [List.map_cons]
    constructor
    · rw [show program S o p ((n, lineOf it) :: t.map (fun x => (x.1, lineOf x.2))) = program S o p ((n, lineOf it) :: t.map (fun x => (x.1, lineOf x.2))) from rfl]
      constructor
      · intro h
        obtain ⟨h1, h2⟩ := c1.mp h
        obtain ⟨⟨e1, he1⟩, hp⟩ := o1.mp h1
        obtain ⟨i1, -⟩ := next h1 e1 he1
        obtain ⟨j1, j2⟩ := i1.mp h2
        obtain ⟨u1, u2, -⟩ := o2 h1
        rw [fin2 e1 he1]
        rw [u1, u2] at j2
        exact ⟨j1, hp, j2⟩
      · rintro ⟨h1, h2, h3⟩
        obtain ⟨e1, he1⟩ := fin1 h1
        have hacc := o1.mpr ⟨⟨e1, he1⟩, h2⟩
        obtain ⟨i1, -⟩ := next hacc e1 he1
        obtain ⟨u1, u2, -⟩ := o2 hacc
        rw [fin2 e1 he1] at h1
        exact c1.mpr ⟨hacc, i1.mpr ⟨h1, by rw [u1, u2]; exact h3⟩⟩
    · intro h
      obtain ⟨h1, h2⟩ := c1.mp h
      obtain ⟨⟨e1, he1⟩, hp⟩ := o1.mp h1
      obtain ⟨-, i2⟩ := next h1 e1 he1
      obtain ⟨u1, u2, -, -, -, u6, -⟩ := o2 h1
      rw [c2 h1]
      obtain ⟨j1, j2, j3, j4, j5, j6, j7⟩ := i2 h2
      rw [u1, u2] at j1
      refine ⟨j1, ?_, ?_, fun a b => ?_, j5, j6, ?_⟩
      · intro env' he i hi
        rw [fin2 e1 he1] at he
        exact j2 env' he i hi
      · rw [j3, u1]
        unfold Spec.Units.inForce Spec.Units.lastSwitch
        rw [List.flatten_cons, List.filterMap_append, List.getLast?_append]
        cases (List.filterMap Spec.Units.unitOf (t.map (fun x => blockOf x.2)).flatten).getLast? <;> simp
      · have := j4 a b
        rwa [List.append_assoc] at this
      · intro L hL _
        exact j7 L (fun x hx => hL x (by simp [hx])) (fun i l hl => u6 i l (lt_of_lt_of_le (hL (n, it) (by simp)) hl))

/-- The values before the first line. -/
def constants (S : Setup) (i : Nat) : Option ℚ := if i = 3101 then some S.pi else if i = 3102 then some S.e else none

omit hS hl ho hgg hmg in
theorem fresh_values (S : Setup) : (∀ i (l : Int), (initMacros S).get ⟨i, l⟩ = if l = -1 then constants S i else none) ∧
    ∀ i, (initMacros S).valueMax i = constants S i := by
  have hg : ∀ i (l : Int), (initMacros S).get ⟨i, l⟩ = if l = -1 then constants S i else none := by
    intro i l
    unfold initMacros constants
    rw [MacroMap.get_emplace (MacroMap.sorted_emplace MacroMap.sorted_nil _ _), MacroMap.get_emplace MacroMap.sorted_nil,
      MacroMap.get_emplace MacroMap.sorted_nil]
    simp only [MKey.mk.injEq]
    by_cases h0 : l = -1
    · subst h0
      by_cases h1 : i = 3102
      · subst h1; simp [MacroMap.get]
      · by_cases h2 : i = 3101
        · subst h2; simp [MacroMap.get]
        · simp [h1, h2, MacroMap.get]
    · simp [h0, MacroMap.get]
  refine ⟨hg, fun i => ?_⟩
  have hsort : (initMacros S).Sorted := fresh_sorted S
  rw [MacroMap.valueMax_eq hsort (L := -1) (by decide) (fun id l hl => by rw [hg, if_neg (by omega)])]
  cases hc : constants S i with
  | none =>
    rw [MacroMap.valueAt_eq_none hsort]
    intro l _
    rw [hg, hc]; simp
  | some v =>
    apply MacroMap.valueAt_of_get hsort
    rw [hg, hc]; simp


/-- C98 for programs (partial: the other lines are words as the tables declare them, without variables; no expression reads a
variable in which the controller keeps words): every line is accepted exactly when every expression has a value, computed line by
line, and nothing is wrong with the program in which comments take the place of the assignments; then the simulation is that of
this program, and the variables have the computed values. -/
theorem C98_program_partial (xs : List (Int × Item)) (hf : ∀ x ∈ xs, Fits S x.2) (hlt : xs.Pairwise (fun x y => x.1 < y.1))
    (hr : ∀ x ∈ xs, 0 ≤ x.1 ∧ x.1 ≤ 2147483647) :
    ((program S o (fresh S) (xs.map (fun x => (x.1, lineOf x.2)))).2 = .ok (xs.map (fun _ => (true, none))) ↔
      (∃ env, computed (spTr S.tr) (constants S) (xs.map Prod.snd) = some env) ∧
        AllPassing S o S.units (AttrPath.initial S.cfg) [] (xs.map (fun x => blockOf x.2))) ∧
    ((program S o (fresh S) (xs.map (fun x => (x.1, lineOf x.2)))).2 = .ok (xs.map (fun _ => (true, none))) →
      (program S o (fresh S) (xs.map (fun x => (x.1, lineOf x.2)))).1.path =
        simulatedAll S o S.units (AttrPath.initial S.cfg) (xs.map (fun x => blockOf x.2)) ∧
      ∀ env, computed (spTr S.tr) (constants S) (xs.map Prod.snd) = some env → ∀ i, ¬ Kept i →
        (program S o (fresh S) (xs.map (fun x => (x.1, lineOf x.2)))).1.macros.valueMax i = env i) := by
  obtain ⟨hg, hv⟩ := fresh_values S
  refine (fun h => ⟨h.1, fun q => ⟨(h.2 q).1, (h.2 q).2.1⟩⟩) (items_iff hS hl o ho hgg hmg xs (fresh S) [] (constants S) hf hlt (fun x hx => (hr x hx).2) (fresh_sorted S) ?_ (show (0 : Int) ≤ bal {} by decide) ?_ ?_)
  · intro x hx i l hl
    have := (hr x hx).1
    show (initMacros S).get ⟨i, l⟩ = none
    rw [hg, if_neg (by omega)]
  · exact fun _ _ => Ver.rotInv_nil
  · exact fun i _ => hv i

end

/-! ## Examples -/

theorem demo_ready : Ready demo where
  regular := mill_regular.1
  signs := by
    have e : namesOf demo = decNames millMetric millOps := rfl
    refine ⟨?_, ?_, ?_, ?_, ?_, ?_, ?_, ?_⟩ <;> first | (unfold Sole; decide +kernel) | decide +kernel
  named := by decide +kernel
  axes := by
    have : ∀ a ∈ demo.cfg.axes, a.length = 1 ∧ ∀ c ∈ a, 'A' ≤ c ∧ c ≤ 'Z' := by decide +kernel
    intro a ha
    obtain ⟨h1, h2⟩ := this a ha
    obtain ⟨c, rfl⟩ := List.length_eq_one_iff.mp h1
    exact ⟨c, rfl, h2 c (by simp)⟩
  unique := by
    have hb : ∀ e ∈ millMetric ++ millImperial, e.2.unique = true → e.1 ∉ c!"#" :: joints ∧ e.1 ∉ millOps := by decide +kernel
    rintro u w ⟨wg, h1, h2⟩
    have hm := UnitConv.find_mem h1
    cases u
    · exact hb (w, wg) (List.mem_append.mpr (.inl hm)) h2
    · exact hb (w, wg) (List.mem_append.mpr (.inr hm)) h2
  pallet := by decide
  measure := by decide

/-- `[[3+#1]*2]-4`, `ABS[ABS[5]+[2*3]]`, and half divided by minus variable 2. -/
def first : E := .bin (.one (.one (.br (.one (.bin (.one (.br (.bin (.one (.one (.num [3] [] (by simp)))) .add
  (.one (.mac (.num [1] [] (by simp))))))) .mul (.num [2] [] (by simp))))))) .sub (.one (.num [4] [] (by simp)))
def second : E := .one (.one (.fn .ABS (.bin (.one (.one (.fn .ABS (.one (.one (.num [5] [] (by simp))))))) .add
  (.one (.br (.one (.bin (.one (.num [2] [] (by simp))) .mul (.num [3] [] (by simp)))))))))
def third : E := .one (.bin (.one (.num [] [5] (by simp))) .div (.neg (.mac (.num [2] [] (by simp)))))

theorem modest_of (ip fp : List (Fin 10)) (h : worthOf ip ≤ 1000 ∧ worthOf fp ≤ 1000 ∧ (fp ≠ [] → 1 ≤ worthOf fp)) : Modest (rangesOf demo) ip fp := by
  have key : ∀ w ∈ joints, ∀ wg, WordMap.find (rangesOf demo) w = some wg → wg.rangeFrom ≤ -1000 ∧ 1000 ≤ wg.rangeTo ∧
      0 < wg.decTo ∧ wg.decFrom ≤ 1 ∧ 1000 ≤ wg.decTo := by
    have : ∀ w ∈ joints, ∀ wg ∈ (WordMap.find (rangesOf demo) w).toList, wg.rangeFrom ≤ -1000 ∧ 1000 ≤ wg.rangeTo ∧
      0 < wg.decTo ∧ wg.decFrom ≤ 1 ∧ 1000 ≤ wg.decTo := by decide +kernel
    intro w hw wg h
    exact this w hw wg (by simp [h])
  obtain ⟨h1, h2, h3⟩ := h
  refine ⟨by omega, by omega, ?_, ?_⟩
  · intro w hw wg hwg
    obtain ⟨k1, k2, -⟩ := key w hw wg hwg
    omega
  · intro hf w hw wg hwg
    obtain ⟨-, -, k1, k2, k3⟩ := key w hw wg hwg
    have := h3 hf
    omega

theorem numeral_of (ip : List (Fin 10)) (h : ip ≠ [] ∧ worthOf ip ≤ 1000) : Numeral (rangesOf demo) ip := by
  have key : ∀ wg ∈ (WordMap.find (rangesOf demo) c!"#").toList, wg.rangeFrom ≤ 0 ∧ 1000 ≤ wg.rangeTo := by decide +kernel
  refine ⟨h.1, by have := h.2; omega, fun wg hwg => ?_⟩
  have := key wg (by simp [hwg])
  have := h.2
  omega

theorem abs_named : Named (rangesOf demo) (namesOf demo) c!"ABS" := ⟨⟨by decide +kernel, by decide +kernel⟩, by decide +kernel⟩

/-- The expressions fit the shipped tables. -/
theorem examples_fit : FitE (rangesOf demo) (namesOf demo) first ∧ FitE (rangesOf demo) (namesOf demo) second ∧
    FitE (rangesOf demo) (namesOf demo) third := by
  unfold first second third
  simp only [FitE, FitT, FitF, LowOk, HighOk]
  and_intros <;> first | trivial | exact abs_named | exact modest_of _ _ (by decide) | exact numeral_of _ (by decide)

/-- The lines `#1=ABS[ABS[5]+[2*3]]`, `#2=[[3+#1]*2]-4`, `S500 M3`, `#3=.5` over minus variable 2, `G1 X5 F100`. -/
def mixed : List (Int × Item) := [(1, .assign [1] second), (2, .assign [2] first), (3, .words goodWords[0]), (4, .assign [3] third), (5, .words goodWords[1])]

example : mixed.map (fun x => lineOf x.2) = [c!"#1=ABS[ABS[5]+[2*3]]", c!"#2=[[3+#1]*2]-4", c!"S500 M3", ['#', '3', '=', '.', '5', '/', '-', '#', '2'], c!"G1 X5 F100"] := by
  decide +kernel

theorem kept_from {i : Nat} (h : Kept i) : 4102 ≤ i := by
  rcases h with ⟨a, h⟩ | h
  · unfold sysOf at h
    split at h <;> simp only [List.mem_cons, List.not_mem_nil, or_false] at h <;> omega
  · unfold toolVariable at h
    omega

theorem mixed_fits : ∀ x ∈ mixed, Fits demo x.2 := by
  obtain ⟨f1, f2, f3⟩ := examples_fit
  have low : ∀ e : E, (∀ i ∈ readsE e, i < 4102) → ∀ i ∈ readsE e, ¬ Kept i := fun e h i hi hk => by
    have := h i hi
    have := kept_from hk
    omega
  intro x hx
  simp only [mixed, List.mem_cons, List.not_mem_nil, or_false] at hx
  rcases hx with rfl | rfl | rfl | rfl | rfl
  · exact ⟨numeral_of _ (by decide), f2, low _ (by decide)⟩
  · exact ⟨numeral_of _ (by decide), f1, low _ (by decide)⟩
  · exact good_declared.2 _ (by decide)
  · exact ⟨numeral_of _ (by decide), f3, low _ (by decide)⟩
  · exact good_declared.2 _ (by decide)

/-- The hypotheses of `C98_line`, `C98_effect` and `C98_program_partial` are met by this program, which is accepted, and gives the
variables 1, 2, 3 the values 11, 24, -1/48. -/
example : Ready demo ∧ (∀ x ∈ mixed, Fits demo x.2) ∧ mixed.Pairwise (fun x y => x.1 < y.1) ∧ (∀ x ∈ mixed, 0 ≤ x.1 ∧ x.1 ≤ 2147483647) ∧
    (∃ env, computed (spTr demo.tr) (constants demo) (mixed.map Prod.snd) = some env) ∧
    AllPassing demo serverOptions demo.units (AttrPath.initial demo.cfg) [] (mixed.map (fun x => blockOf x.2)) ∧
    [1, 2, 3].map (program demo serverOptions (fresh demo) (mixed.map (fun x => (x.1, lineOf x.2)))).1.macros.valueMax =
      [some 11, some 24, some (-1 / 48)] := by
  have h1 : mixed.Pairwise (fun x y => x.1 < y.1) := by simp [mixed]
  have h2 : ∀ x ∈ mixed, 0 ≤ x.1 ∧ x.1 ≤ 2147483647 := by simp [mixed]
  have h3 := (C98_program_partial demo_ready (lg := .English) rfl serverOptions rfl (by unfold SetOfGroups; decide) (by unfold SetOfGroups; decide)
    mixed mixed_fits h1 h2).1.mp (by decide +kernel)
  exact ⟨demo_ready, mixed_fits, h1, h2, h3.1, h3.2, by decide +kernel⟩

/-- The hypotheses of `C98_no_value` are met by reading a variable that has no value. -/
example : FitE (rangesOf demo) (namesOf demo) first ∧ E.val (spTr demo.tr) (fresh demo).macros.valueMax first = none ∧
    (0 : Int) ≤ bal (fresh demo).gram.st := by
  exact ⟨examples_fit.1, by decide +kernel, by decide⟩

/-- C98 violated: the remainder is an operation of the calculator, but no name of the shipped tables: `#2=5MOD3` is refused for
a missing value of the address M. -/
theorem C98_violated_mod : evalText demo.tr (fresh demo).macros c!"5MOD3" = .ok 2 ∧ (c!"MOD" : Str) ∉ namesOf demo ∧
    (parse demo serverOptions 1 c!"#2=5MOD3" (fresh demo)).2 = .ok (false, some c!"1:5: MOD3 <- Value missing for address [M]") := by
  refine ⟨?_, by decide +kernel, ?_⟩
  · decide +kernel
  · decide +kernel

/-- C98 violated: after a line with a closing bracket too many, the assignment `#1=[1]` of the next line is refused, too, for a
bracket that does not match. -/
theorem C98_violated_history : (parse demo serverOptions 2 c!"#1=[1]" (fresh demo)).2 = .ok (true, none) ∧
    (parse demo serverOptions 2 c!"#1=[1]" (parse demo serverOptions 1 c!"#1=1]" (fresh demo)).1).2 =
      .ok (false, some c!"1:3: =[1] <- Non matching close bracket") := by
  refine ⟨?_, ?_⟩ <;> decide +kernel

end NC.Props
