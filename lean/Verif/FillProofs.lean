import Verif.FillText
import Verif.GrammarTight
import Verif.AssignStage

/-! # Lines with numbers in the place of variables: the code and its stages -/

namespace NC.Pipe
open NC NC.Message NC.Gram NC.Ver NC.AttrPath NC.Path NC.Spec.Verify NC.Spec.Filled NC.Spec.Words

/-- The line has a variable in the place of a number. -/
def varied (b : Block) : Bool := (decs b).any (fun d => d.mac.isSome)

theorem sub_filled {ops : List Str} {m : MacroMap ℚ} {line : Int} {b b' : Block} (h : Filled (fun i => m.valueAt i line) (Macro.plainWords ++ ops) b b') :
    ∀ st : Macro.SubSt, ∃ i, Macro.subRun ops m line st b = .ok ⟨st.modified || varied b, i, st.text ++ txts (decs b')⟩ := by
  induction h with
  | nil => intro st; exact ⟨st.interesting, by simp [Macro.subRun, varied, decs, txts]⟩
  | @cons a a' b b' h _ ih =>
    intro st
    cases h with
    | comment v => exact ih st
    | @same d hm ha =>
      have e : ∃ i, Macro.subStep ops m line st (.dec d) = .ok ⟨st.modified, i, st.text ++ txt d⟩ := by
        unfold Macro.subStep
        dsimp only
        rw [hm]
        simp only [Option.isSome_none, Bool.and_false, Bool.false_eq_true, if_false]
        refine ⟨_, congrArg Out.ok (congrArg (Macro.SubSt.mk _ _) ?_)⟩
        unfold txt otxt vtxt
        rw [hm]
        obtain ⟨w, a, s, o, m, v, t, v2, c⟩ := d
        cases s <;> cases o <;> cases v <;> cases t <;> cases v2 <;> cases c <;> simp [Macro.optC, Macro.optS]
      obtain ⟨i, e⟩ := e
      obtain ⟨j, e'⟩ := ih ⟨st.modified, i, st.text ++ txt d⟩
      refine ⟨j, ?_⟩
      rw [Macro.subRun, e, Out.bind_ok, e']
      simp [varied, decs, hm, txts]
    | @value d d' v q hw hm hv hdig hle ha ho hc hdot hv2 hlook hw' hm' ha' ho' hc' hwr hs =>
      have e : Macro.subStep ops m line st (.dec d) = .ok ⟨true, true, st.text ++ txt d'⟩ := by
        have h1 : Macro.plainWords.contains d.word = false := by
          rw [Bool.eq_false_iff]; simp only [ne_eq, List.contains_iff_mem]; exact fun h => hw (by simp [h])
        have h2 : ops.contains d.word = false := by
          rw [Bool.eq_false_iff]; simp only [ne_eq, List.contains_iff_mem]; exact fun h => hw (by simp [h])
        simp only [Macro.subStep, h1, h2, hm, hv, Bool.not_false, Bool.and_self, Bool.or_true, Option.isSome_some, if_true,
          _root_.NC.stoi_digits hdig.2 hdig.1 hle, Int.toNat_natCast, hlook]
        refine congrArg Out.ok (congrArg (Macro.SubSt.mk _ _) ?_)
        rw [trunc_writes hwr]
        unfold txt otxt vtxt
        rw [hw', hm', ho', hc', ho, hc]
        rcases hs with ⟨hq, hs⟩ | ⟨hq, hs, hs'⟩
        · rw [hs, decide_eq_false (not_lt.mpr hq)]
          cases d.sign <;> simp [Macro.optC, Macro.optS, minus]
        · rw [hs, hs', decide_eq_true hq]
          simp [Macro.optC, Macro.optS, minus]
      obtain ⟨j, e'⟩ := ih ⟨true, true, st.text ++ txt d'⟩
      refine ⟨j, ?_⟩
      rw [Macro.subRun, e, Out.bind_ok, e']
      simp [varied, decs, hm, txts]

theorem substitute_filled {ops : List Str} {m : MacroMap ℚ} {line : Int} {b b' : Block} (h : Filled (fun i => m.valueAt i line) (Macro.plainWords ++ ops) b b') :
    Macro.substitute ops m line b = .ok (if varied b then txts (decs b') else []) := by
  obtain ⟨i, e⟩ := sub_filled h {}
  unfold Macro.substitute
  rw [e]
  simp

/-! ## Comments play no part -/

/-- Addresses and comments. -/
def Spoken (b : Block) : Prop := ∀ a ∈ b, (∃ d, a = .dec d) ∨ ∃ v, a = .str c!"(" v

section
variable {b : Block} (h : Spoken b)
include h

omit h in
theorem spoken_tail {a : Attr} {t : Block} (h : Spoken (a :: t)) : Spoken t := fun x hx => h x (by simp [hx])

theorem strip_sys (line : Int) (m : MacroMap ℚ) : Macro.sysRun line m ((decs b).map .dec) = Macro.sysRun line m b := by
  induction b generalizing m with
  | nil => rfl
  | cons a t ih =>
    have ht := spoken_tail h
    rcases h a (by simp) with ⟨d, rfl⟩ | ⟨v, rfl⟩
    · show (Macro.sysStep line m (.dec d) >>= fun m' => Macro.sysRun line m' ((decs t).map .dec)) = (Macro.sysStep line m (.dec d) >>= fun m' => Macro.sysRun line m' t)
      exact congrArg _ (funext fun m' => ih ht m')
    · exact ih ht m

theorem strip_limit (lathe : Bool) (k : Limits) : limitRun lathe k ((decs b).map .dec) = limitRun lathe k b := by
  induction b with
  | nil => rfl
  | cons a t ih =>
    have ht := spoken_tail h
    rcases h a (by simp) with ⟨d, rfl⟩ | ⟨v, rfl⟩
    · show limitRun lathe k (.dec d :: (decs t).map .dec) = _
      unfold limitRun
      rw [ih ht]
    · exact ih ht

theorem strip_rot (op : Bool) (st : Rot) : rotRun op st ((decs b).map .dec) = rotRun op st b := by
  induction b generalizing st with
  | nil => rfl
  | cons a t ih =>
    have ht := spoken_tail h
    rcases h a (by simp) with ⟨d, rfl⟩ | ⟨v, rfl⟩
    · show rotRun op st (.dec d :: (decs t).map .dec) = _
      unfold rotRun
      simp only [ih ht]
    · exact ih ht st

theorem strip_groups (letter : Str) (gm : Groups) (m : MacroMap ℚ) (line : Int) (missing : Bool) (occ : Occ) :
    groupsRun letter gm m line missing occ ((decs b).map .dec) = groupsRun letter gm m line missing occ b := by
  induction b generalizing occ with
  | nil => rfl
  | cons a t ih =>
    have ht := spoken_tail h
    rcases h a (by simp) with ⟨d, rfl⟩ | ⟨v, rfl⟩
    · show groupsRun letter gm m line missing occ (.dec d :: (decs t).map .dec) = _
      unfold groupsRun
      simp only [ih ht]
    · exact ih ht occ

theorem strip_same (w : Str) (was : Bool) : sameWordRun w was ((decs b).map .dec) = sameWordRun w was b := by
  induction b generalizing was with
  | nil => rfl
  | cons a t ih =>
    have ht := spoken_tail h
    rcases h a (by simp) with ⟨d, rfl⟩ | ⟨v, rfl⟩
    · show sameWordRun w was (.dec d :: (decs t).map .dec) = _
      unfold sameWordRun
      simp only [ih ht]
    · exact ih ht was

theorem strip_select (u : Units) : selectRun u ((decs b).map .dec) = selectRun u b := by
  induction b generalizing u with
  | nil => rfl
  | cons a t ih =>
    have ht := spoken_tail h
    rcases h a (by simp) with ⟨d, rfl⟩ | ⟨v, rfl⟩
    · show selectRun u (.dec d :: (decs t).map .dec) = _
      unfold selectRun
      simp only [ih ht]
    · exact ih ht u

variable {S : Setup} (hp : S.cfg.palletWord ≠ c!"(") (hm : S.cfg.measureWord ≠ c!"(")
include hp hm

theorem strip_visit (r : Vis ℚ) : visitAll S.cfg r ((decs b).map .dec) = visitAll S.cfg r b := by
  induction b generalizing r with
  | nil => rfl
  | cons a t ih =>
    have ht := spoken_tail h
    rcases h a (by simp) with ⟨d, rfl⟩ | ⟨v, rfl⟩
    · show visitAll S.cfg r (.dec d :: (decs t).map .dec) = _
      unfold visitAll
      simp only [ih ht]
    · have e : visit S.cfg r (.str c!"(" v) = .ok r := by
        show Out.ok (Act.on r (.aux false (isPallet S.cfg c!"(" v) (isMeasure S.cfg c!"(" v))) = _
        have h1 : isPallet S.cfg c!"(" v = false := by unfold isPallet; simp [Ne.symm hp]
        have h2 : isMeasure S.cfg c!"(" v = false := by unfold isMeasure; simp [Ne.symm hm]
        rw [h1, h2]
        simp [Act.on]
      conv_rhs => rw [visitAll, e]
      exact ih ht r

theorem strip_evaluate (hne : decs b ≠ []) (inch : Inch) (line : Int) (s : St ℚ × MacroMap ℚ) :
    evaluate S.F S.cfg inch line ((decs b).map .dec) s = evaluate S.F S.cfg inch line b s := by
  have hb : b ≠ [] := by rintro rfl; exact hne rfl
  unfold evaluate
  dsimp only
  rw [if_neg (by simpa using hne), if_neg hb, strip_visit h hp hm]

/-- A line is checked like the line without its comments. -/
theorem strip_stage (hne : decs b ≠ []) (o : Options) (line : Int) (ok : Bool) (p : Parser) :
    systemStage S o line ok ((decs b).map .dec) p = systemStage S o line ok b p := by
  have last : ∀ p, lastStage S ok ((decs b).map .dec) p = lastStage S ok b p := by
    intro p
    unfold lastStage selected
    rw [strip_select h]
  have path : ∀ p, pathStage S o line ok ((decs b).map .dec) p = pathStage S o line ok b p := by
    intro p
    unfold pathStage calculated
    rw [strip_evaluate h hp hm hne]
    simp only [last]
  have group : ∀ p, groupStage S o line ok ((decs b).map .dec) p = groupStage S o line ok b p := by
    intro p
    unfold groupStage codeGroups sameWord
    rw [strip_groups h, strip_groups h, strip_same h, path]
  have ana : ∀ p, analysisStage S o line ok ((decs b).map .dec) p = analysisStage S o line ok b p := by
    intro p
    unfold analysisStage rotation
    rw [strip_limit h, strip_rot h]
    simp only [group]
  unfold systemStage
  rw [strip_sys h]
  simp only [ana]

end

/-! ## The grammar plays no part after the line is read -/

theorem andThen_swap (l : Lang) (x : Out Exc Unit) (p : Parser) (k : Parser × Out NumExc Answer) (g : PS) :
    andThen l x { p with gram := g } ({ k.1 with gram := g }, k.2) = ({ (andThen l x p k).1 with gram := g }, (andThen l x p k).2) := by
  rcases x with ⟨⟩ | e | _ <;> rfl

theorem lastStage_swap (S : Setup) (ok : Bool) (b : Block) (p : Parser) (g : PS) :
    lastStage S ok b { p with gram := g } = ({ (lastStage S ok b p).1 with gram := g }, (lastStage S ok b p).2) := by
  unfold lastStage
  exact andThen_swap _ _ (selected p b) (selected p b, _) g

theorem pathStage_swap (S : Setup) (o : Options) (line : Int) (ok : Bool) (b : Block) (p : Parser) (g : PS) :
    pathStage S o line ok b { p with gram := g } = ({ (pathStage S o line ok b p).1 with gram := g }, (pathStage S o line ok b p).2) := by
  unfold pathStage
  split
  · have e : calculated S line b { p with gram := g } = ({ (calculated S line b p).1 with gram := g }, (calculated S line b p).2) := rfl
    dsimp only
    rw [e]
    dsimp only
    rw [lastStage_swap]
    have := andThen_swap S.lang (if o.zeroPoint then travelRun S.limits S.zero (ranges (calculated S line b p).1.path.range) else .ok ()) (calculated S line b p).1
      (lastStage S ok b (calculated S line b p).1) g
    rw [this, andThen_swap]
  · exact lastStage_swap ..

theorem groupStage_swap (S : Setup) (o : Options) (line : Int) (ok : Bool) (b : Block) (p : Parser) (g : PS) :
    groupStage S o line ok b { p with gram := g } = ({ (groupStage S o line ok b p).1 with gram := g }, (groupStage S o line ok b p).2) := by
  unfold groupStage
  rw [pathStage_swap, andThen_swap, andThen_swap]

theorem analysisStage_swap (S : Setup) (o : Options) (line : Int) (ok : Bool) (b : Block) (p : Parser) (g : PS) :
    analysisStage S o line ok b { p with gram := g } = ({ (analysisStage S o line ok b p).1 with gram := g }, (analysisStage S o line ok b p).2) := by
  unfold analysisStage
  split
  · dsimp only
    have e : ({ ({ p with gram := g } : Parser) with rot := (rotation S.cfg.operatorRotation p.rot b).1 } : Parser) =
      { ({ p with rot := (rotation S.cfg.operatorRotation p.rot b).1 } : Parser) with gram := g } := rfl
    rw [groupStage_swap S o line ok b { p with rot := (rotation S.cfg.operatorRotation p.rot b).1 } g, e, andThen_swap, andThen_swap]
  · exact groupStage_swap ..

theorem systemStage_swap (S : Setup) (o : Options) (line : Int) (ok : Bool) (b : Block) (p : Parser) (g : PS) :
    systemStage S o line ok b { p with gram := g } = ({ (systemStage S o line ok b p).1 with gram := g }, (systemStage S o line ok b p).2) := by
  unfold systemStage
  dsimp only
  split
  · exact analysisStage_swap S o line ok b { p with macros := _ } g
  · rfl
  · rfl

/-! ## Reading -/

theorem unique_words {g : WordMap} {look : Nat → Option ℚ} {free : List Str} {b b' : Block} (h : Filled look free b b') : uniqueCode g b = uniqueCode g b' := by
  unfold uniqueCode
  generalize ([] : List Str) = seen
  induction h generalizing seen with
  | nil => rfl
  | cons h _ ih =>
    cases h with
    | comment v => exact ih seen
    | same _ _ => unfold uniqueRun; simp only [ih]
    | value _ _ _ _ _ _ _ _ _ _ _ hw => unfold uniqueRun; simp only [ih, hw]

end NC.Pipe
