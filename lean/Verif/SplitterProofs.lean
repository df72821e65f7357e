import Verif.Splitter
import Verif.Spec.Split

/-! # Lemmas about the splitter -/

namespace NC.Splitter
open NC NC.UnitConv NC.Spec.Split NC.Spec.UnitConv

section Shape
variable {α : Type}

/-- A list of parts built from the front. -/
def build (rp : List α) : List (List α) → List (List α)
  | [] => []
  | [p] => [rp ++ p]
  | p :: q :: ps => (rp ++ p ++ rp) :: build rp (q :: ps)

theorem build_length (rp : List α) (ps : List (List α)) : (build rp ps).length = ps.length := by
  induction ps with
  | nil => rfl
  | cons p ps ih =>
    cases ps with
    | nil => rfl
    | cons q ps => simp only [build, List.length_cons, ih]

theorem build_get (rp : List α) (ps : List (List α)) (k : Nat) (p : List α) (h : ps[k]? = some p) :
    (build rp ps)[k]? = some (rp ++ p ++ (if k + 1 = ps.length then [] else rp)) := by
  induction ps generalizing k with
  | nil => simp at h
  | cons p' ps ih =>
    cases ps with
    | nil =>
      cases k with
      | zero => simp at h; subst h; simp [build]
      | succ k => simp at h
    | cons q ps =>
      cases k with
      | zero => simp at h; subst h; simp [build]
      | succ k =>
        simp only [List.getElem?_cons_succ] at h
        simp only [build, List.getElem?_cons_succ, ih k h, List.length_cons]
        by_cases hk : k + 1 = ps.length + 1
        · rw [if_pos hk, if_pos (by omega)]
        · rw [if_neg hk, if_neg (by omega)]

/-- The first piece has no leading retraction block. -/
def buildFrom (cur p : List α) (rp : List α) (ps : List (List α)) : List (List α) :=
  (cur ++ p ++ (if ps = [] then [] else rp)) :: build rp ps

theorem dressed_buildFrom (rp : Option α) (p : List α) (ps : List (List α)) :
    Dressed rp (p :: ps) (buildFrom [] p rp.toList ps) := by
  refine ⟨by simp [buildFrom, build_length], ?_⟩
  intro k q hk
  cases k with
  | zero =>
    simp at hk; subst hk
    cases ps <;> simp [buildFrom]
  | succ k =>
    simp only [List.getElem?_cons_succ] at hk
    simp only [buildFrom, List.getElem?_cons_succ, build_get _ _ _ _ hk, List.length_cons]
    have hne : ps ≠ [] := by rintro rfl; simp at hk
    by_cases h : k + 1 = ps.length
    · simp [h, hne]
    · simp [h, hne]

end Shape

/-- States and counters met at the cuts.  `Cuts … bs p ps` records that from
the given configuration the loop keeps `p` and then cuts before each piece of
`ps`. -/
inductive Cuts {κ : Type} (c : Cfg) (ctl : Ctl κ) : κ → St → Nat → List Block → List (List Block) → Prop where
  | done (k : κ) (st : St) (i : Nat) : Cuts c ctl k st i [] []
  | keep {k : κ} {st st' : St} {i : Nat} {b : Block} {p : List Block} {ps : List (List Block)} :
      scan c st b = .ok st' → ctl.keep k st' = true → Cuts c ctl (ctl.upd k true i) st' (i + 1) p ps →
      Cuts c ctl k st i (b :: p) ps
  | cut {k : κ} {st st' : St} {i : Nat} {b : Block} {p : List Block} {ps : List (List Block)} :
      scan c st b = .ok st' → ctl.keep k st' = false → Cuts c ctl (ctl.upd k false i) st' (i + 1) p ps →
      Cuts c ctl k st i [] ((b :: p) :: ps)

theorem loop_ok {κ : Type} {c : Cfg} {ctl : Ctl κ} {rp : Option Block} {bs : List Block} :
    ∀ {k : κ} {st : St} {i : Nat} {cur : List Block} {out : List (List Block)},
      loop c ctl rp k st i cur bs = .ok out →
      ∃ p ps, p ++ ps.flatten = bs ∧ out = buildFrom cur p rp.toList ps ∧ Cuts c ctl k st i p ps := by
  induction bs with
  | nil =>
    intro k st i cur out h
    simp only [loop, Out.ok.injEq] at h
    exact ⟨[], [], rfl, by simp [buildFrom, build, ← h], .done _ _ _⟩
  | cons b bs ih =>
    intro k st i cur out h
    simp only [loop] at h
    obtain ⟨st', hs, h⟩ := Out.bind_eq_ok.mp h
    by_cases hk : ctl.keep k st' = true
    · rw [if_pos hk] at h
      obtain ⟨p, ps, h1, h2, h3⟩ := ih h
      exact ⟨b :: p, ps, by simp [← h1], by simp [h2, buildFrom], .keep hs hk h3⟩
    · rw [if_neg hk] at h
      obtain ⟨rest, hr, h⟩ := Out.bind_eq_ok.mp h
      obtain ⟨p, ps, h1, h2, h3⟩ := ih hr
      simp only [Out.pure_eq, Out.ok.injEq] at h
      refine ⟨[], (b :: p) :: ps, by simp [← h1], ?_, .cut hs (by simpa using hk) h3⟩
      rw [← h, h2]
      cases ps <;> simp [buildFrom, build]

theorem loop_succeeds {κ : Type} {c : Cfg} {ctl : Ctl κ} {rp : Option Block} {bs : List Block} :
    ∀ {k : κ} {st : St} {i : Nat} {cur : List Block},
      (∀ b ∈ bs, ∀ st : St, ∃ st', scan c st b = .ok st') →
      ∃ out, loop c ctl rp k st i cur bs = .ok out := by
  induction bs with
  | nil => intro k st i cur _; exact ⟨_, rfl⟩
  | cons b bs ih =>
    intro k st i cur h
    obtain ⟨st', hs⟩ := h b (by simp) st
    have h' : ∀ b ∈ bs, ∀ st : St, ∃ st', scan c st b = .ok st' := fun b hb => h b (by simp [hb])
    simp only [loop, hs, Out.bind_ok]
    split
    · exact ih h'
    · obtain ⟨o, ho⟩ := ih (k := ctl.upd k false i) (st := st') (i := i + 1) (cur := rp.toList ++ [b]) h'
      exact ⟨_, by rw [ho]; rfl⟩

theorem lift_eq_ok {α : Type} {x : Out NumExc α} {a : α} : lift x = .ok a ↔ x = .ok a := by
  cases x <;> simp [lift]

theorem Cuts.nonempty {κ : Type} {c : Cfg} {ctl : Ctl κ} {k : κ} {st : St} {i : Nat} {p : List Block}
    {ps : List (List Block)} (h : Cuts c ctl k st i p ps) : ∀ q ∈ ps, q ≠ [] := by
  induction h with
  | done => simp
  | keep _ _ _ ih => exact ih
  | cut _ _ _ ih =>
    intro q hq
    rcases List.mem_cons.mp hq with rfl | hq
    · simp
    · exact ih q hq

/-! ## Block counts -/

/-- Every piece but the last one has at least `n` blocks. -/
theorem Cuts.count_ge {c : Cfg} {n : Int} {ro : Bool} {k : Int} {st : St} {i : Nat} {p : List Block}
    {ps : List (List Block)} (h : Cuts c (countCtl n ro) k st i p ps) :
    (ps ≠ [] → n ≤ k + p.length) ∧ (∀ q ∈ ps.dropLast, n ≤ (q.length : Int)) := by
  induction h with
  | done => simp
  | keep _ _ _ ih =>
    refine ⟨fun hp => ?_, ih.2⟩
    have := ih.1 hp
    simp only [countCtl, if_true, List.length_cons] at this ⊢
    push_cast; omega
  | @cut k st st' i b p ps hs hk _ ih =>
    refine ⟨fun _ => ?_, ?_⟩
    · simp only [countCtl, keepCond, Bool.or_eq_false_iff, decide_eq_false_iff_not] at hk
      simp; omega
    · intro q hq
      cases ps with
      | nil => simp at hq
      | cons q' ps =>
        rw [List.dropLast_cons_of_ne_nil (by simp)] at hq
        rcases List.mem_cons.mp hq with rfl | hq
        · have := ih.1 (by simp)
          simp only [countCtl, Bool.false_eq_true, if_false] at this
          simp only [List.length_cons]; push_cast; omega
        · exact ih.2 q hq

/-- If a cut happens whenever the count is reached, no piece is longer than `n`. -/
theorem Cuts.count_le {c : Cfg} {n : Int} (hn : 0 < n) {P : St → Prop} {bs : List Block}
    (hP : ∀ st st' b, b ∈ bs → P st → scan c st b = .ok st' → P st' ∧ inCycle st' = false)
    {k : Int} {st : St} {i : Nat} {p : List Block} {ps : List (List Block)}
    (h : Cuts c (countCtl n false) k st i p ps) (hk : k ≤ n) (hst : P st)
    (hb : ∀ b ∈ p ++ ps.flatten, b ∈ bs) :
    k + p.length ≤ n ∧ ∀ q ∈ ps, (q.length : Int) ≤ n := by
  induction h with
  | done => simpa using hk
  | @keep k st st' i b p ps hs hkeep _ ih =>
    obtain ⟨h1, h2⟩ := hP st st' b (hb b (by simp)) hst hs
    simp only [countCtl, keepCond, h2, Bool.false_and, Bool.or_false, decide_eq_true_eq] at hkeep
    have := ih (by simp only [countCtl, if_true]; omega) h1 (fun x hx => hb x (by simp at hx ⊢; tauto))
    simp only [countCtl, if_true] at this
    refine ⟨?_, this.2⟩
    simp only [List.length_cons]; push_cast; omega
  | @cut k st st' i b p ps hs hkeep _ ih =>
    obtain ⟨h1, h2⟩ := hP st st' b (hb b (by simp)) hst hs
    have := ih (by simp only [countCtl, Bool.false_eq_true, if_false]; omega) h1
      (fun x hx => hb x (by simp at hx ⊢; tauto))
    simp only [countCtl, Bool.false_eq_true, if_false] at this
    refine ⟨by simpa using hk, ?_⟩
    intro q hq
    rcases List.mem_cons.mp hq with rfl | hq
    · simp only [List.length_cons]; push_cast; omega
    · exact this.2 q hq

/-! ## Motion codes -/

/-- The last motion code of a sequence, or the earlier one. -/
def after (m : Option Int) (l : List Int) : Option Int := l.getLast?.or m

theorem after_append (m : Option Int) (a b : List Int) : after m (a ++ b) = after (after m a) b := by
  unfold after
  rw [List.getLast?_append]
  cases b.getLast? <;> simp

/-- The visitor agrees with the motion in effect. -/
structure Agree (m : Option Int) (st : St) : Prop where
  cyc : ∀ n, m = some n → isCycle n = true → st.drill = true ∧ (st.activeG = -1 ∨ isCycle st.activeG = true)
  mot : 0 ≤ st.activeG → st.activeG ≤ 3 → m = some st.activeG
  noCyc : (∀ n, m = some n → isCycle n = false) → st.activeG = 80 → m = some 80

theorem isCycle_iff (n : Int) : (isDrill n || isDrillQ n) = isCycle n := by
  unfold isDrill isDrillQ isCycle
  simp only [List.mem_cons, List.not_mem_nil, or_false]
  rw [Bool.eq_iff_iff]
  simp only [Bool.or_eq_true, decide_eq_true_eq]
  omega

theorem isCycle_cases {n : Int} (h : isCycle n = true) : 73 ≤ n ∧ n ≤ 89 ∧ n ≠ 80 := by
  simp only [isCycle, List.mem_cons, List.not_mem_nil, or_false, decide_eq_true_eq] at h
  omega

theorem isMotion_eq (n : Int) : isMotion n = (decide (0 ≤ n ∧ n ≤ 3) || isCycle n || decide (n = 80)) := rfl

theorem onG_agree {c : Cfg} {m : Option Int} {st : St} {n : Int} (h : Agree m st) :
    Agree (if isMotion n then some n else m) (onG c st n) := by
  unfold onG
  rw [isCycle_iff, isMotion_eq]
  by_cases h1 : 0 ≤ n ∧ n ≤ 3
  · have hc : isCycle n = false := by
      by_contra hc; have := isCycle_cases (by simpa using hc); omega
    simp only [h1, if_pos, and_self, decide_true, Bool.true_or]
    exact ⟨fun k hk hkc => by simp at hk; subst hk; simp [hc] at hkc, fun _ _ => rfl, fun _ h => by simp only at h; omega⟩
  · by_cases h2 : isCycle n = true
    · have := isCycle_cases h2
      simp only [h1, h2, if_true, if_false, decide_false, Bool.or_true, Bool.true_or]
      exact ⟨fun k hk hkc => ⟨rfl, .inr h2⟩, fun _ h => by simp only at h; omega, fun _ h => by simp only at h; omega⟩
    · simp only [h1, h2, if_false, decide_false, Bool.false_or, Bool.false_eq_true]
      by_cases h3 : n = 80
      · subst h3
        simp only [true_or, if_true, decide_true]
        exact ⟨fun k hk hkc => by simp at hk; subst hk; exact absurd (isCycle_cases hkc) (by omega),
          fun _ h => by simp at h, fun _ _ => rfl⟩
      · simp only [h3, false_or, decide_false, Bool.false_eq_true, if_false]
        split
        · rename_i h4
          have hm : m = some st.activeG := h.mot (by omega) (by omega)
          refine ⟨fun k hk hkc => ?_, fun a b => by simp only at a b; omega, fun _ h => by simp only at h; omega⟩
          rw [hm] at hk; simp at hk; subst hk
          exact absurd (isCycle_cases hkc) (by omega)
        · exact h

theorem Agree.same {m : Option Int} {st st' : St} (h : Agree m st) (hg : st'.activeG = st.activeG)
    (hd : st'.drill = st.drill) : Agree m st' := by
  obtain ⟨a, b, c⟩ := h
  exact ⟨fun n h1 h2 => by rw [hg, hd]; exact a n h1 h2, by rw [hg]; exact b, by rw [hg]; exact c⟩

/-- The motion code of one word. -/
def wordMotion (d : Dec) : List Int :=
  match gCode d with
  | some n => if isMotion n then [n] else []
  | none => []

theorem changed_same (st : St) : (changed st).activeG = st.activeG ∧ (changed st).drill = st.drill ∧
    (changed st).wasComment = st.wasComment := ⟨rfl, rfl, rfl⟩

theorem visitDec_word {c : Cfg} {st st' : St} {d : Dec} (hw : st.wasComment = false)
    (hd : d.word ≠ ['/']) (h : visitDec c st d = .ok st') :
    st'.wasComment = false ∧
    ((∃ n, gCode d = some n ∧ st' = onG c st n) ∨
      (gCode d = none ∧ st'.activeG = st.activeG ∧ st'.drill = st.drill)) := by
  unfold visitDec at h
  rw [if_neg hd, if_neg (by simp [hw])] at h
  by_cases hG : d.word = c!"G"
  · rw [if_pos hG] at h
    cases hv : d.value with
    | none =>
      simp [hv, optStoi] at h
      subst h
      exact ⟨hw, .inr ⟨by simp [gCode, hG, hv], rfl, rfl⟩⟩
    | some v =>
      simp only [hv, optStoi] at h
      cases hs : stoi v with
      | ok n =>
        simp [hs] at h
        subst h
        refine ⟨?_, .inl ⟨n, by simp [gCode, hG, hv, hs], rfl⟩⟩
        unfold onG
        split_ifs <;> exact hw
      | throw e => simp [hs] at h
      | ub => simp [hs] at h
  · rw [if_neg hG] at h
    have hg : gCode d = none := by simp only [gCode]; rw [if_neg hG]
    by_cases hM : d.word = c!"M"
    · rw [if_pos hM] at h
      split_ifs at h
      · simp at h; subst h; exact ⟨hw, .inr ⟨hg, rfl, rfl⟩⟩
      · simp at h; subst h; exact ⟨hw, .inr ⟨hg, rfl, rfl⟩⟩
      · obtain ⟨o, _, h⟩ := Out.bind_eq_ok.mp h
        simp at h; subst h
        split_ifs
        · exact ⟨hw, .inr ⟨hg, rfl, rfl⟩⟩
        · exact ⟨hw, .inr ⟨hg, rfl, rfl⟩⟩
    · rw [if_neg hM] at h
      split_ifs at h <;> (simp at h; subst h) <;> exact ⟨hw, .inr ⟨hg, rfl, rfl⟩⟩

theorem visitWords_comment {c : Cfg} {b : Block} : ∀ {st st' : St}, st.wasComment = true →
    visitWords c st b = .ok st' → st' = st := by
  induction b with
  | nil => intro st st' _ h; simpa [visitWords] using h.symm
  | cons a b ih =>
    intro st st' hw h
    cases a with
    | dec d =>
      simp only [visitWords] at h
      obtain ⟨s1, h1, h⟩ := Out.bind_eq_ok.mp h
      have : s1 = st := by
        unfold visitDec at h1
        split_ifs at h1
        · simp at h1; rw [← h1]; cases st; simp_all
        · simpa using h1.symm
      rw [this] at h
      exact ih hw h
    | str _ => exact ih hw (by simpa [visitWords] using h)
    | chr _ => exact ih hw (by simpa [visitWords] using h)

theorem visitWords_agree {c : Cfg} {b : Block} : ∀ {m : Option Int} {st st' : St}, st.wasComment = false →
    Agree m st → visitWords c st b = .ok st' → Agree (after m (motions b)) st' := by
  induction b with
  | nil => intro m st st' _ ha h; simp [visitWords] at h; subst h; simpa [motions, after] using ha
  | cons a b ih =>
    intro m st st' hw ha h
    cases a with
    | dec d =>
      simp only [visitWords] at h
      obtain ⟨s1, h1, h⟩ := Out.bind_eq_ok.mp h
      by_cases hd : d.word = ['/']
      · have hs1 : s1 = { st with wasComment := true } := by
          unfold visitDec at h1; rw [if_pos hd] at h1; simpa using h1.symm
        have := visitWords_comment (by rw [hs1]) h
        subst this
        rw [hs1]
        simp only [motions, if_pos hd]
        exact ha.same rfl rfl
      · obtain ⟨hw1, hcase⟩ := visitDec_word hw hd h1
        rcases hcase with ⟨n, hn, rfl⟩ | ⟨hn, hg, hdr⟩
        · have := ih hw1 (onG_agree (c := c) (n := n) ha) h
          simp only [motions, if_neg hd, hn]
          by_cases hm : isMotion n = true
          · rw [if_pos hm] at this ⊢
            rw [show n :: motions b = [n] ++ motions b from rfl, after_append]
            simpa [after] using this
          · rw [if_neg hm] at this ⊢
            exact this
        · have := ih hw1 (ha.same hg hdr) h
          simpa only [motions, if_neg hd, hn] using this
    | str _ => exact ih hw ha (by simpa [visitWords] using h)
    | chr _ => exact ih hw ha (by simpa [visitWords] using h)

/-- After `reset` a cycle in effect shows as -1. -/
theorem reset_agree {m : Option Int} {st : St} (h : Agree m st) : Agree m (reset st) := by
  obtain ⟨a, b, c⟩ := h
  unfold reset
  refine ⟨fun n h1 h2 => ⟨(a n h1 h2).1, ?_⟩, ?_, ?_⟩
  · left
    rcases (a n h1 h2).2 with h | h
    · simp [h]
    · have := isCycle_cases h
      simp only; rw [if_pos (by omega)]
  · simp only
    split
    · intro h; omega
    · exact b
  · intro _ h
    simp only at h
    split at h <;> omega

theorem scan_agree {c : Cfg} {b : Block} {m : Option Int} {st st' : St} (ha : Agree m st)
    (h : scan c st b = .ok st') : Agree (after m (motions b)) st' :=
  visitWords_agree rfl (reset_agree ha) h

theorem init_agree : Agree none ({} : St) :=
  ⟨by simp, fun h => absurd h (by decide), fun _ h => absurd h (by decide)⟩

/-- A block without motion codes keeps the visitor's motion unless it is G0/G1
being cancelled. -/
theorem visitWords_quiet {c : Cfg} {b : Block} : ∀ {st st' : St}, st.activeG = -1 → st.drill = true →
    motions b = [] → st.wasComment = false → visitWords c st b = .ok st' →
    st'.activeG = -1 ∧ st'.drill = true := by
  induction b with
  | nil => intro st st' h1 h2 _ _ h; simp [visitWords] at h; subst h; exact ⟨h1, h2⟩
  | cons a b ih =>
    intro st st' h1 h2 hm hw h
    cases a with
    | dec d =>
      simp only [visitWords] at h
      obtain ⟨s1, hs1, h⟩ := Out.bind_eq_ok.mp h
      by_cases hd : d.word = ['/']
      · have he : s1 = { st with wasComment := true } := by
          unfold visitDec at hs1; rw [if_pos hd] at hs1; simpa using hs1.symm
        have := visitWords_comment (by rw [he]) h
        subst this
        rw [he]; exact ⟨h1, h2⟩
      · obtain ⟨hw1, hcase⟩ := visitDec_word hw hd hs1
        rcases hcase with ⟨n, hn, rfl⟩ | ⟨hn, hg, hdr⟩
        · simp only [motions, if_neg hd, hn] at hm
          by_cases hmo : isMotion n = true
          · simp [hmo] at hm
          · rw [if_neg hmo] at hm
            have hst : onG c st n = st := by
              unfold onG
              rw [isMotion_eq] at hmo
              simp only [Bool.or_eq_true, decide_eq_true_eq, not_or] at hmo
              rw [if_neg hmo.1.1, isCycle_iff, if_neg hmo.1.2, if_neg (by rw [h1]; omega)]
            rw [hst] at h hw1
            exact ih h1 h2 hm hw1 h
        · simp only [motions, if_neg hd, hn] at hm
          exact ih (by rw [hg, h1]) (by rw [hdr, h2]) hm hw1 h
    | str _ => exact ih h1 h2 (by simpa [motions] using hm) hw (by simpa [visitWords] using h)
    | chr _ => exact ih h1 h2 (by simpa [motions] using hm) hw (by simpa [visitWords] using h)

theorem motionAfter_snoc (pre : List Block) (b : Block) :
    motionAfter (pre ++ [b]) = after (motionAfter pre) (motions b) := by
  unfold motionAfter after
  rw [List.flatMap_append, List.getLast?_append]
  simp

/-- What every cut satisfies. -/
theorem Cuts.cut_cond {κ : Type} {c : Cfg} {ctl : Ctl κ} {k : κ} {st : St} {i : Nat} {p : List Block}
    {ps : List (List Block)} (h : Cuts c ctl k st i p ps) :
    ∀ pre : List Block, Agree (motionAfter pre) st →
    ∀ (before : List (List Block)) (b : Block) (q : List Block) (later : List (List Block)),
      ps = before ++ (b :: q) :: later →
      ∃ k' st' st'', Agree (motionAfter (pre ++ p ++ before.flatten)) st' ∧ scan c st' b = .ok st'' ∧
        ctl.keep k' st'' = false := by
  induction h with
  | done => intro _ _ before b q later h; simp at h
  | @keep k st st' i b p ps hs _ _ ih =>
    intro pre ha before b' q later he
    have := ih (pre ++ [b]) (by rw [motionAfter_snoc]; exact scan_agree ha hs) before b' q later he
    simpa using this
  | @cut k st st' i b p ps hs hk _ ih =>
    intro pre ha before b' q later he
    cases before with
    | nil =>
      simp at he
      obtain ⟨⟨rfl, rfl⟩, rfl⟩ := he
      exact ⟨k, st, st', by simpa using ha, hs, hk⟩
    | cons q0 before =>
      simp only [List.cons_append, List.cons.injEq] at he
      obtain ⟨rfl, he⟩ := he
      have := ih (pre ++ [b]) (by rw [motionAfter_snoc]; exact scan_agree ha hs) before b' q later he
      simpa using this

theorem keepCond_false_cycle {ro below : Bool} {st : St} (h : keepCond ro below st = false) :
    inCycle st = false := by
  simp only [keepCond, Bool.or_eq_false_iff] at h; exact h.1.2

theorem scan_cycle {c : Cfg} {m : Option Int} {st st' : St} {b : Block} {n : Int} (ha : Agree m st)
    (hm : m = some n) (hn : isCycle n = true) (hb : motions b = []) (h : scan c st b = .ok st') :
    inCycle st' = true := by
  have hr := reset_agree ha
  have h1 : (reset st).activeG = -1 := by
    rcases (ha.cyc n hm hn).2 with hx | hx
    · simp [reset, hx]
    · have := isCycle_cases hx
      unfold reset; simp only; rw [if_pos (by omega)]
  have := visitWords_quiet h1 (hr.cyc n hm hn).1 hb rfl h
  simp [inCycle, this]

/-- Without cycle codes the visitor never sees a cycle. -/
theorem scan_no_cycle {c : Cfg} {st st' : St} {b : Block} (hd : st.drill = false)
    (hb : ∀ n ∈ motions b, isCycle n = false ∧ n ≠ 80) (h : scan c st b = .ok st') :
    st'.drill = false ∧ inCycle st' = false := by
  have key : ∀ (b : Block) (s s' : St), s.drill = false → s.activeG ≠ 80 → s.wasComment = false →
      (∀ n ∈ motions b, isCycle n = false ∧ n ≠ 80) → visitWords c s b = .ok s' →
      s'.drill = false ∧ s'.activeG ≠ 80 := by
    intro b
    induction b with
    | nil => intro s s' h1 h2 _ _ h; simp [visitWords] at h; subst h; exact ⟨h1, h2⟩
    | cons a b ih =>
      intro s s' h1 h2 hw hb h
      cases a with
      | dec d =>
        simp only [visitWords] at h
        obtain ⟨s1, hs1, h⟩ := Out.bind_eq_ok.mp h
        by_cases hdw : d.word = ['/']
        · have he : s1 = { s with wasComment := true } := by
            unfold visitDec at hs1; rw [if_pos hdw] at hs1; simpa using hs1.symm
          have := visitWords_comment (by rw [he]) h
          subst this
          rw [he]; exact ⟨h1, h2⟩
        · obtain ⟨hw1, hcase⟩ := visitDec_word hw hdw hs1
          rcases hcase with ⟨n, hn, rfl⟩ | ⟨hn, hg, hdr⟩
          · simp only [motions, if_neg hdw, hn] at hb
            by_cases hm : isMotion n = true
            · rw [if_pos hm] at hb
              obtain ⟨hc, h80⟩ := hb n (by simp)
              refine ih _ _ ?_ ?_ hw1 (fun k hk => hb k (by simp [hk])) h
              · unfold onG; rw [isCycle_iff, hc]; split_ifs <;> simp_all
              · unfold onG; rw [isCycle_iff, hc]; split_ifs <;> simp_all
            · rw [if_neg hm] at hb
              rw [isMotion_eq] at hm
              simp only [Bool.or_eq_true, decide_eq_true_eq, not_or] at hm
              refine ih _ _ ?_ ?_ hw1 hb h
              · unfold onG; rw [isCycle_iff]; split_ifs <;> simp_all
              · unfold onG; rw [isCycle_iff]; split_ifs <;> simp_all
          · simp only [motions, if_neg hdw, hn] at hb
            exact ih _ _ (by rw [hdr, h1]) (by rw [hg]; exact h2) hw1 hb h
      | str _ => exact ih _ _ h1 h2 hw (by simpa [motions] using hb) (by simpa [visitWords] using h)
      | chr _ => exact ih _ _ h1 h2 hw (by simpa [motions] using hb) (by simpa [visitWords] using h)
  have h80 : (reset st).activeG ≠ 80 := by
    unfold reset; simp only; split <;> omega
  obtain ⟨a, b'⟩ := key b (reset st) st' hd h80 rfl hb h
  exact ⟨a, by simp [inCycle, a, b']⟩

/-! ## Tool changes -/

theorem onG_tool (c : Cfg) (st : St) (n : Int) :
    (onG c st n).toolChange = st.toolChange ∧ (onG c st n).toolCnt = st.toolCnt := by
  unfold onG; split_ifs <;> exact ⟨rfl, rfl⟩

theorem visitDec_tool {c : Cfg} {st st' : St} {d : Dec} (hw : st.wasComment = false)
    (hd : d.word ≠ ['/']) (h : visitDec c st d = .ok st') :
    st'.toolChange = (st.toolChange || asksExchange c.toolNumberExchanges d) ∧
    st'.toolCnt = st.toolCnt + (if asksExchange c.toolNumberExchanges d then 1 else 0) := by
  unfold visitDec at h
  rw [if_neg hd, if_neg (by simp [hw])] at h
  by_cases hG : d.word = c!"G"
  · rw [if_pos hG] at h
    have ha : asksExchange c.toolNumberExchanges d = false := by
      unfold asksExchange
      cases d.value <;> simp [hG]
    obtain ⟨o, _, h⟩ := Out.bind_eq_ok.mp h
    rw [ha]
    cases o with
    | none => simp at h; subst h; simp
    | some n => simp at h; subst h; simp [onG_tool]
  · rw [if_neg hG] at h
    by_cases hM : d.word = c!"M"
    · rw [if_pos hM] at h
      split_ifs at h with h1 h2
      · simp at h; subst h
        have ha : asksExchange c.toolNumberExchanges d = false := by
          unfold asksExchange
          rcases h1 with h1 | h1 | h1
          · simp [h1]
          · cases hx : d.dot <;> simp_all
          · cases hx : d.value2 <;> simp_all
        simp [ha]
      · simp at h; subst h
        have ha : asksExchange c.toolNumberExchanges d = false := by
          unfold asksExchange
          cases d.value <;> simp [h2, hM]
        simp [ha]
      · obtain ⟨o, ho, h⟩ := Out.bind_eq_ok.mp h
        simp at h; subst h
        have ha : asksExchange c.toolNumberExchanges d = decide (o = some 6) := by
          unfold asksExchange
          simp only [not_or, Bool.not_eq_true, Option.isSome_eq_false_iff, Option.isNone_iff_eq_none] at h1
          cases hv : d.value with
          | none => exact absurd hv h1.1
          | some v =>
            rw [hv] at ho
            simp only [optStoi] at ho
            obtain ⟨n, hn, ho⟩ := Out.bind_eq_ok.mp ho
            simp at ho; subst ho
            simp [h1.2.1, h1.2.2, h2, hM, hn]
        rw [ha]
        by_cases ho6 : o = some 6
        · simp [ho6, changed]
        · simp [ho6]
    · rw [if_neg hM] at h
      by_cases hT : d.word = c!"T"
      · rw [if_pos hT] at h
        split_ifs at h with h1 h2
        · simp at h; subst h
          have ha : asksExchange c.toolNumberExchanges d = false := by
            unfold asksExchange
            rcases h1 with h1 | h1 | h1
            · simp [h1]
            · cases hx : d.dot <;> simp_all
            · cases hx : d.value2 <;> simp_all
          simp [ha]
        · simp at h; subst h
          have ha : asksExchange c.toolNumberExchanges d = true := by
            unfold asksExchange
            simp only [not_or, Bool.not_eq_true, Option.isSome_eq_false_iff, Option.isNone_iff_eq_none] at h1
            cases hv : d.value with
            | none => exact absurd hv h1.1
            | some v => simp [h1.2.1, h1.2.2, h2, hT]
          simp [ha, changed]
        · simp at h; subst h
          have ha : asksExchange c.toolNumberExchanges d = false := by
            unfold asksExchange
            cases d.value <;> simp [h2, hT]
          simp [ha]
      · rw [if_neg hT] at h
        simp at h; subst h
        have ha : asksExchange c.toolNumberExchanges d = false := by
          unfold asksExchange
          cases d.value <;> simp [hT, hM]
        simp [ha]

theorem visitWords_tool {c : Cfg} {b : Block} : ∀ {st st' : St}, st.wasComment = false →
    visitWords c st b = .ok st' →
    st'.toolChange = (st.toolChange || exchanges c.toolNumberExchanges b) ∧ st.toolCnt ≤ st'.toolCnt ∧
    (exchanges c.toolNumberExchanges b = true → st.toolCnt < st'.toolCnt) ∧
    (exchanges c.toolNumberExchanges b = false → st'.toolCnt = st.toolCnt) := by
  induction b with
  | nil => intro st st' _ h; simp [visitWords] at h; subst h; simp [exchanges]
  | cons a b ih =>
    intro st st' hw h
    cases a with
    | dec d =>
      simp only [visitWords] at h
      obtain ⟨s1, h1, h⟩ := Out.bind_eq_ok.mp h
      by_cases hd : d.word = ['/']
      · have hs1 : s1 = { st with wasComment := true } := by
          unfold visitDec at h1; rw [if_pos hd] at h1; simpa using h1.symm
        have := visitWords_comment (by rw [hs1]) h
        subst this
        rw [hs1]
        simp [exchanges, hd]
      · obtain ⟨hw1, _⟩ := visitDec_word hw hd h1
        obtain ⟨t1, t2⟩ := visitDec_tool hw hd h1
        obtain ⟨i1, i2, i3, i4⟩ := ih hw1 h
        simp only [exchanges, if_neg hd]
        cases hx : asksExchange c.toolNumberExchanges d
        · simp only [hx, Bool.or_false, Bool.false_eq_true, if_false, Nat.add_zero] at t1 t2
          rw [t1] at i1; rw [t2] at i2 i3 i4
          simpa using ⟨i1, i2, i3, i4⟩
        · simp only [hx, Bool.or_true, if_true] at t1 t2
          rw [t1] at i1; rw [t2] at i2 i3 i4
          refine ⟨by simpa using i1, by omega, fun _ => by omega, by simp⟩
    | str _ => exact ih hw (by simpa [visitWords] using h)
    | chr _ => exact ih hw (by simpa [visitWords] using h)

theorem scan_tool {c : Cfg} {b : Block} {st st' : St} (h : scan c st b = .ok st') :
    st'.toolChange = exchanges c.toolNumberExchanges b ∧
    (exchanges c.toolNumberExchanges b = true → st.toolCnt < st'.toolCnt) ∧
    (exchanges c.toolNumberExchanges b = false → st'.toolCnt = st.toolCnt) := by
  obtain ⟨h1, _, h3, h4⟩ := visitWords_tool (st := reset st) rfl h
  exact ⟨by simpa [reset] using h1, h3, h4⟩

theorem Cuts.tool {c : Cfg} {k : Unit} {st : St} {i : Nat} {p : List Block} {ps : List (List Block)}
    (h : Cuts c toolCtl k st i p ps) :
    (p.countP (exchanges c.toolNumberExchanges) ≤ (if st.toolCnt = 0 then 1 else 0)) ∧
    ∀ q ∈ ps, ∃ b t, q = b :: t ∧ exchanges c.toolNumberExchanges b = true ∧
      ∀ x ∈ t, exchanges c.toolNumberExchanges x = false := by
  induction h with
  | done => simp
  | @keep k st st' i b p ps hs hk _ ih =>
    refine ⟨?_, ih.2⟩
    obtain ⟨h1, h3, h4⟩ := scan_tool hs
    simp only [toolCtl, Bool.not_eq_true', Bool.and_eq_false_iff, decide_eq_false_iff_not, h1] at hk
    rw [List.countP_cons]
    have i1 := ih.1
    cases hx : exchanges c.toolNumberExchanges b
    · rw [h4 hx] at i1; simpa using i1
    · have := h3 hx
      rcases hk with hk | hk
      · simp [hx] at hk
      · rw [if_neg (show ¬ st'.toolCnt = 0 by omega)] at i1
        rw [if_pos (show st.toolCnt = 0 by omega)]
        simp only [if_true]; omega
  | @cut k st st' i b p ps hs hk _ ih =>
    refine ⟨by simp, ?_⟩
    intro q hq
    rcases List.mem_cons.mp hq with rfl | hq
    · obtain ⟨h1, h3, h4⟩ := scan_tool hs
      simp only [toolCtl, Bool.not_eq_false', Bool.and_eq_true, decide_eq_true_eq, h1] at hk
      refine ⟨b, p, rfl, hk.1, ?_⟩
      have := ih.1
      rw [if_neg (by omega)] at this
      have h0 : p.countP (exchanges c.toolNumberExchanges) = 0 := by omega
      intro x hx
      have := List.countP_eq_zero.mp h0 x hx
      simpa using this
    · exact ih.2 q hq

theorem visitWords_times {c : Cfg} {b : Block} : ∀ {st st' : St}, st.wasComment = false →
    visitWords c st b = .ok st' → st'.toolCnt = st.toolCnt + timesAsked c.toolNumberExchanges b := by
  induction b with
  | nil => intro st st' _ h; simp [visitWords] at h; subst h; rfl
  | cons a b ih =>
    intro st st' hw h
    cases a with
    | dec d =>
      simp only [visitWords] at h
      obtain ⟨s1, h1, h⟩ := Out.bind_eq_ok.mp h
      by_cases hd : d.word = ['/']
      · have hs1 : s1 = { st with wasComment := true } := by
          unfold visitDec at h1; rw [if_pos hd] at h1; simpa using h1.symm
        have := visitWords_comment (by rw [hs1]) h
        subst this
        rw [hs1]
        simp [timesAsked, hd]
      · obtain ⟨hw1, _⟩ := visitDec_word hw hd h1
        obtain ⟨_, t2⟩ := visitDec_tool hw hd h1
        have i1 := ih hw1 h
        simp only [timesAsked, if_neg hd]
        rw [i1, t2]
        cases asksExchange c.toolNumberExchanges d <;> simp <;> omega
    | str _ => exact ih hw (by simpa [visitWords] using h)
    | chr _ => exact ih hw (by simpa [visitWords] using h)

theorem times_exchanges (n : Bool) : ∀ b : Block, timesAsked n b ≠ 0 → exchanges n b = true
  | [], h => absurd rfl h
  | .str _ _ :: t, h => times_exchanges n t h
  | .chr _ _ :: t, h => times_exchanges n t h
  | .dec d :: t, h => by
    unfold timesAsked at h
    unfold exchanges
    by_cases hd : d.word = ['/']
    · rw [if_pos hd] at h; exact absurd rfl h
    · rw [if_neg hd] at h ⊢
      cases ha : asksExchange n d
      · rw [ha] at h
        simpa using times_exchanges n t (by simpa using h)
      · rfl

/-- A cut needs a second exchange. -/
theorem Cuts.tool_first {c : Cfg} {k : Unit} {st : St} {i : Nat} {p : List Block} {ps : List (List Block)}
    (h : Cuts c toolCtl k st i p ps) (h1 : ∀ b ∈ p ++ ps.flatten, timesAsked c.toolNumberExchanges b ≤ 1) (hps : ps ≠ []) :
    1 ≤ st.toolCnt + p.countP (exchanges c.toolNumberExchanges) := by
  induction h with
  | done => exact absurd rfl hps
  | @keep k st st' i b p ps hs hk _ ih =>
    have i1 := ih (fun x hx => h1 x (List.mem_cons_of_mem _ hx)) hps
    have e : st'.toolCnt = st.toolCnt + timesAsked c.toolNumberExchanges b := visitWords_times (st := reset st) rfl hs
    have hb := h1 b (by simp)
    rw [List.countP_cons]
    by_cases h0 : timesAsked c.toolNumberExchanges b = 0
    · omega
    · rw [times_exchanges _ b h0, if_pos rfl]
      omega
  | @cut k st st' i b p ps hs hk _ ih =>
    have e : st'.toolCnt = st.toolCnt + timesAsked c.toolNumberExchanges b := visitWords_times (st := reset st) rfl hs
    have hb := h1 b (by simp)
    simp only [toolCtl, Bool.not_eq_false', Bool.and_eq_true, decide_eq_true_eq] at hk
    omega

/-! ## Path and time -/

theorem workOf_succ (work : List ℚ) (i n : Nat) :
    workOf work i (n + 1) = work.getD i 0 + workOf work (i + 1) n := by
  unfold workOf
  rw [List.range_succ_eq_map]
  simp [List.map_map, Function.comp_def, Nat.add_assoc, Nat.add_comm, Nat.add_left_comm]

/-- Work motion of the pieces: all but the last reach the limit. -/
theorem Cuts.work_ge {c : Cfg} {lim : ℚ} {ro : Bool} {work : List ℚ} {k : ℚ} {st : St} {i : Nat}
    {p : List Block} {ps : List (List Block)} (h : Cuts c (workCtl lim ro work) k st i p ps) :
    (ps ≠ [] → lim ≤ k + workOf work i p.length) ∧
    ∀ (before : List (List Block)) (q : List Block) (later : List (List Block)),
      ps = before ++ q :: later → later ≠ [] →
      lim ≤ workOf work (i + p.length + before.flatten.length) q.length := by
  induction h with
  | done => simp
  | @keep k st st' i b p ps _ _ _ ih =>
    refine ⟨fun hp => ?_, ?_⟩
    · have := ih.1 hp
      simp only [workCtl, if_true] at this
      rw [List.length_cons, workOf_succ]; linarith
    · intro before q later he hl
      have := ih.2 before q later he hl
      rw [List.length_cons]
      rw [show i + (p.length + 1) + before.flatten.length = i + 1 + p.length + before.flatten.length by omega]
      exact this
  | @cut k st st' i b p ps hs hk _ ih =>
    refine ⟨fun _ => ?_, ?_⟩
    · simp only [workCtl, keepCond, Bool.or_eq_false_iff, decide_eq_false_iff_not, not_lt] at hk
      simpa [workOf] using hk.1.1
    · intro before q later he hl
      cases before with
      | nil =>
        simp at he
        obtain ⟨rfl, rfl⟩ := he
        have := ih.1 hl
        simp only [workCtl, Bool.false_eq_true, if_false, zero_add] at this
        simp only [List.length_nil, List.flatten_nil, Nat.add_zero, List.length_cons]
        rw [workOf_succ]; exact this
      | cons q0 before =>
        simp only [List.cons_append, List.cons.injEq] at he
        obtain ⟨rfl, he⟩ := he
        have := ih.2 before q later he hl
        simp only [List.length_nil, List.flatten_cons, List.length_append, List.length_cons]
        rw [show i + 0 + (p.length + 1 + before.flatten.length) = i + 1 + p.length + before.flatten.length by omega]
        exact this

/-- Without cycles, a piece is cut as soon as the limit is reached. -/
theorem Cuts.work_lt {c : Cfg} {lim : ℚ} {work : List ℚ} {P : St → Prop} {bs : List Block}
    (hP : ∀ st st' b, b ∈ bs → P st → scan c st b = .ok st' → P st' ∧ inCycle st' = false)
    {k : ℚ} {st : St} {i : Nat} {p : List Block} {ps : List (List Block)}
    (h : Cuts c (workCtl lim false work) k st i p ps) (hst : P st) (hb : ∀ b ∈ p ++ ps.flatten, b ∈ bs) :
    (∀ j < p.length, k + workOf work i j < lim) ∧
    ∀ (before : List (List Block)) (q : List Block) (later : List (List Block)),
      ps = before ++ q :: later →
      ∀ j, 0 < j → j < q.length → workOf work (i + p.length + before.flatten.length) j < lim := by
  induction h with
  | done => simp
  | @keep k st st' i b p ps hs hkeep _ ih =>
    obtain ⟨h1, h2⟩ := hP st st' b (hb b (by simp)) hst hs
    simp only [workCtl, keepCond, h2, Bool.false_and, Bool.or_false, decide_eq_true_eq] at hkeep
    obtain ⟨i1, i2⟩ := ih h1 (fun x hx => hb x (by simp at hx ⊢; tauto))
    refine ⟨?_, ?_⟩
    · intro j hj
      cases j with
      | zero => simpa [workOf] using hkeep
      | succ j =>
        have := i1 j (by simp at hj; omega)
        simp only [workCtl, if_true] at this
        rw [workOf_succ]; linarith
    · intro before q later he j hj hjq
      have := i2 before q later he j hj hjq
      rw [List.length_cons]
      rw [show i + (p.length + 1) + before.flatten.length = i + 1 + p.length + before.flatten.length by omega]
      exact this
  | @cut k st st' i b p ps hs hkeep _ ih =>
    obtain ⟨h1, h2⟩ := hP st st' b (hb b (by simp)) hst hs
    obtain ⟨i1, i2⟩ := ih h1 (fun x hx => hb x (by simp at hx ⊢; tauto))
    refine ⟨by simp, ?_⟩
    intro before q later he j hj hjq
    cases before with
    | nil =>
      simp at he
      obtain ⟨rfl, rfl⟩ := he
      obtain ⟨j, rfl⟩ : ∃ j', j = j' + 1 := ⟨j - 1, by omega⟩
      have := i1 j (by simp at hjq; omega)
      simp only [workCtl, Bool.false_eq_true, if_false, zero_add] at this
      simp only [List.length_nil, List.flatten_nil, Nat.add_zero]
      rw [workOf_succ]; exact this
    | cons q0 before =>
      simp only [List.cons_append, List.cons.injEq] at he
      obtain ⟨rfl, he⟩ := he
      have := i2 before q later he j hj hjq
      simp only [List.length_nil, List.flatten_cons, List.length_append, List.length_cons]
      rw [show i + 0 + (p.length + 1 + before.flatten.length) = i + 1 + p.length + before.flatten.length by omega]
      exact this

/-! ## Rapid motions -/

theorem visitWords_rapid {c : Cfg} (hc : c.rapidCancels = false) {b : Block} : ∀ {m : Option Int} {st st' : St},
    st.wasComment = false → (m = some 0 → st.activeG = 0) → visitWords c st b = .ok st' →
    (after m (motions b) = some 0 → st'.activeG = 0) := by
  induction b with
  | nil => intro m st st' _ ha h; simp [visitWords] at h; subst h; simpa [motions, after] using ha
  | cons a b ih =>
    intro m st st' hw ha h
    cases a with
    | dec d =>
      simp only [visitWords] at h
      obtain ⟨s1, h1, h⟩ := Out.bind_eq_ok.mp h
      by_cases hd : d.word = ['/']
      · have hs1 : s1 = { st with wasComment := true } := by
          unfold visitDec at h1; rw [if_pos hd] at h1; simpa using h1.symm
        have := visitWords_comment (by rw [hs1]) h
        subst this
        rw [hs1]
        simpa only [motions, if_pos hd, after, List.getLast?_nil, Option.none_or] using ha
      · obtain ⟨hw1, hcase⟩ := visitDec_word hw hd h1
        rcases hcase with ⟨n, hn, rfl⟩ | ⟨hn, hg, hdr⟩
        · have key : (if isMotion n then some n else m) = some 0 → (onG c st n).activeG = 0 := by
            intro h0
            by_cases hm : isMotion n = true
            · rw [if_pos hm] at h0
              simp at h0; subst h0
              simp [onG]
            · rw [if_neg hm] at h0
              rw [isMotion_eq] at hm
              simp only [Bool.or_eq_true, decide_eq_true_eq, not_or] at hm
              unfold onG
              rw [if_neg hm.1.1, isCycle_iff, if_neg hm.1.2, if_neg (by rw [ha h0, hc]; simp [hm.2])]
              exact ha h0
          have := ih hw1 key h
          simp only [motions, if_neg hd, hn]
          by_cases hm : isMotion n = true
          · rw [if_pos hm] at this ⊢
            rw [show n :: motions b = [n] ++ motions b from rfl, after_append]
            simpa [after] using this
          · rw [if_neg hm] at this ⊢
            exact this
        · have := ih hw1 (m := m) (by rw [hg]; exact ha) h
          simpa only [motions, if_neg hd, hn] using this
    | str _ => exact ih hw ha (by simpa [visitWords] using h)
    | chr _ => exact ih hw ha (by simpa [visitWords] using h)

theorem scan_rapid {c : Cfg} (hc : c.rapidCancels = false) {b : Block} {m : Option Int} {st st' : St}
    (ha : m = some 0 → st.activeG = 0) (h : scan c st b = .ok st') :
    after m (motions b) = some 0 → st'.activeG = 0 :=
  visitWords_rapid hc rfl (fun h0 => by simp [reset, ha h0]) h

theorem Cuts.rapid {c : Cfg} (hc : c.rapidCancels = false) {n : Int} (hn : 0 < n) {k : Int} {st : St} {i : Nat}
    {p : List Block} {ps : List (List Block)} (h : Cuts c (countCtl n true) k st i p ps) :
    ∀ pre : List Block, (motionAfter pre = some 0 → st.activeG = 0) →
    (∀ (u : List Block) (b : Block) (v : List Block), p = u ++ b :: v → n ≤ k + u.length →
      motionAfter (pre ++ u ++ [b]) ≠ some 0) ∧
    (∀ (before : List (List Block)) (u : List Block) (b : Block) (v : List Block) (later : List (List Block)),
      ps = before ++ (u ++ b :: v) :: later → n ≤ u.length →
      motionAfter (pre ++ p ++ before.flatten ++ u ++ [b]) ≠ some 0) := by
  induction h with
  | done => intro pre _; simp
  | @keep k st st' i b p ps hs hk _ ih =>
    intro pre ha
    have hb : motionAfter (pre ++ [b]) = some 0 → st'.activeG = 0 := by
      rw [motionAfter_snoc]; exact scan_rapid hc ha hs
    obtain ⟨i1, i2⟩ := ih (pre ++ [b]) hb
    refine ⟨?_, ?_⟩
    · intro u b' v he hle
      cases u with
      | nil =>
        simp at he; obtain ⟨rfl, rfl⟩ := he
        intro h0
        have h0' := hb (by simpa using h0)
        simp only [countCtl, keepCond, inCycle, h0'] at hk
        simp at hk
        simp at hle; omega
      | cons x u =>
        simp only [List.cons_append, List.cons.injEq] at he
        obtain ⟨rfl, he⟩ := he
        have := i1 u b' v he (by simp only [countCtl, if_true]; simp at hle; omega)
        simpa using this
    · intro before u b' v later he hle
      have := i2 before u b' v later he hle
      simpa using this
  | @cut k st st' i b p ps hs hk _ ih =>
    intro pre ha
    have hb : motionAfter (pre ++ [b]) = some 0 → st'.activeG = 0 := by
      rw [motionAfter_snoc]; exact scan_rapid hc ha hs
    obtain ⟨i1, i2⟩ := ih (pre ++ [b]) hb
    refine ⟨by simp, ?_⟩
    intro before u b' v later he hle
    cases before with
    | nil =>
      simp only [List.nil_append, List.cons.injEq] at he
      obtain ⟨he, rfl⟩ := he
      cases u with
      | nil => simp at hle; omega
      | cons x u =>
        simp only [List.cons_append, List.cons.injEq] at he
        obtain ⟨rfl, he⟩ := he
        have := i1 u b' v he (by simp only [countCtl, Bool.false_eq_true, if_false]; simp at hle; omega)
        simpa using this
    | cons q0 before =>
      simp only [List.cons_append, List.cons.injEq] at he
      obtain ⟨rfl, he⟩ := he
      have := i2 before u b' v later he hle
      simpa using this

/-! ## Cuts put off by cycles -/

/-- A cycle the visitor sees one block after its start is in effect. -/
structure Late (m : Option Int) (st : St) : Prop where
  cyc : st.drill = true → st.activeG = -1 ∨ 3 < st.activeG → ∃ n, m = some n ∧ isCycle n = true
  off : st.activeG = 80 → m = some 80

theorem Late.same {m : Option Int} {st st' : St} (h : Late m st) (hg : st'.activeG = st.activeG)
    (hd : st'.drill = st.drill) : Late m st' := by
  obtain ⟨a, b⟩ := h
  exact ⟨by rw [hg, hd]; exact a, by rw [hg]; exact b⟩

theorem onG_late {c : Cfg} {m : Option Int} {st : St} {n : Int} (h : Late m st) :
    Late (if isMotion n then some n else m) (onG c st n) := by
  unfold onG
  rw [isCycle_iff, isMotion_eq]
  by_cases h1 : 0 ≤ n ∧ n ≤ 3
  · simp only [h1, if_pos, and_self, decide_true, Bool.true_or]
    exact ⟨fun _ h => by simp only at h; omega, fun h => by simp only at h; omega⟩
  · by_cases h2 : isCycle n = true
    · have := isCycle_cases h2
      simp only [h1, h2, if_true, if_false, decide_false, Bool.or_true, Bool.true_or]
      exact ⟨fun _ _ => ⟨n, rfl, h2⟩, fun h => by simp only at h; omega⟩
    · simp only [h1, h2, if_false, decide_false, Bool.false_or, Bool.false_eq_true]
      by_cases h3 : n = 80
      · subst h3
        simp only [true_or, if_true, decide_true]
        exact ⟨fun h => by simp at h, fun _ => rfl⟩
      · simp only [h3, false_or, decide_false, Bool.false_eq_true, if_false]
        split
        · exact ⟨fun h => by simp at h, fun h => absurd h h3⟩
        · exact h

theorem visitWords_late {c : Cfg} {b : Block} : ∀ {m : Option Int} {st st' : St}, st.wasComment = false →
    Late m st → visitWords c st b = .ok st' → Late (after m (motions b)) st' := by
  induction b with
  | nil => intro m st st' _ ha h; simp [visitWords] at h; subst h; simpa [motions, after] using ha
  | cons a b ih =>
    intro m st st' hw ha h
    cases a with
    | dec d =>
      simp only [visitWords] at h
      obtain ⟨s1, h1, h⟩ := Out.bind_eq_ok.mp h
      by_cases hd : d.word = ['/']
      · have hs1 : s1 = { st with wasComment := true } := by
          unfold visitDec at h1; rw [if_pos hd] at h1; simpa using h1.symm
        have := visitWords_comment (by rw [hs1]) h
        subst this
        rw [hs1]
        simp only [motions, if_pos hd]
        exact ha.same rfl rfl
      · obtain ⟨hw1, hcase⟩ := visitDec_word hw hd h1
        rcases hcase with ⟨n, hn, rfl⟩ | ⟨hn, hg, hdr⟩
        · have := ih hw1 (onG_late (c := c) (n := n) ha) h
          simp only [motions, if_neg hd, hn]
          by_cases hm : isMotion n = true
          · rw [if_pos hm] at this ⊢
            rw [show n :: motions b = [n] ++ motions b from rfl, after_append]
            simpa [after] using this
          · rw [if_neg hm] at this ⊢
            exact this
        · have := ih hw1 (ha.same hg hdr) h
          simpa only [motions, if_neg hd, hn] using this
    | str _ => exact ih hw ha (by simpa [visitWords] using h)
    | chr _ => exact ih hw ha (by simpa [visitWords] using h)

theorem scan_late {c : Cfg} {b : Block} {m : Option Int} {st st' : St} (ha : Late m st)
    (h : scan c st b = .ok st') : Late (after m (motions b)) st' := by
  refine visitWords_late rfl ?_ h
  obtain ⟨a, b⟩ := ha
  unfold reset
  refine ⟨fun h1 h2 => a h1 ?_, ?_⟩
  · simp only at h2
    split at h2
    · exact Or.inr (by assumption)
    · exact h2
  · simp only
    split <;> intro h <;> omega

theorem init_late : Late none ({} : St) := ⟨by simp, fun h => absurd h (by decide)⟩

theorem late_inCycle {m : Option Int} {st : St} (h : Late m st) (hc : inCycle st = true) :
    ∃ n, m = some n ∧ (isCycle n = true ∨ n = 80) := by
  simp only [inCycle, Bool.or_eq_true, Bool.and_eq_true, decide_eq_true_eq] at hc
  rcases hc with ⟨h1, h2⟩ | h1
  · obtain ⟨n, h3, h4⟩ := h.cyc h2 (Or.inl h1)
    exact ⟨n, h3, Or.inl h4⟩
  · exact ⟨80, h.off h1, Or.inr rfl⟩

/-- A block that stays in its part though the number is reached is under a cycle or ends it. -/
theorem Cuts.count_over {c : Cfg} {n : Int} (hn : 0 < n) {k : Int} {st : St} {i : Nat}
    {p : List Block} {ps : List (List Block)} (h : Cuts c (countCtl n false) k st i p ps) :
    ∀ pre : List Block, Late (motionAfter pre) st →
    (∀ (u : List Block) (b : Block) (v : List Block), p = u ++ b :: v → n ≤ k + u.length →
      ∃ m, motionAfter (pre ++ u ++ [b]) = some m ∧ (isCycle m = true ∨ m = 80)) ∧
    (∀ (before : List (List Block)) (u : List Block) (b : Block) (v : List Block) (later : List (List Block)),
      ps = before ++ (u ++ b :: v) :: later → n ≤ u.length →
      ∃ m, motionAfter (pre ++ p ++ before.flatten ++ u ++ [b]) = some m ∧ (isCycle m = true ∨ m = 80)) := by
  induction h with
  | done => intro pre _; simp
  | @keep k st st' i b p ps hs hk _ ih =>
    intro pre ha
    have hb : Late (motionAfter (pre ++ [b])) st' := by rw [motionAfter_snoc]; exact scan_late ha hs
    obtain ⟨i1, i2⟩ := ih (pre ++ [b]) hb
    refine ⟨?_, ?_⟩
    · intro u b' v he hle
      cases u with
      | nil =>
        simp at he; obtain ⟨rfl, rfl⟩ := he
        simp only [countCtl, keepCond, Bool.false_and, Bool.or_false, Bool.or_eq_true, decide_eq_true_eq] at hk
        rcases hk with hk | hk
        · simp at hle; omega
        · simpa using late_inCycle hb hk
      | cons x u =>
        simp only [List.cons_append, List.cons.injEq] at he
        obtain ⟨rfl, he⟩ := he
        have := i1 u b' v he (by simp only [countCtl, if_true]; simp at hle; omega)
        simpa using this
    · intro before u b' v later he hle
      have := i2 before u b' v later he hle
      simpa using this
  | @cut k st st' i b p ps hs hk _ ih =>
    intro pre ha
    have hb : Late (motionAfter (pre ++ [b])) st' := by rw [motionAfter_snoc]; exact scan_late ha hs
    obtain ⟨i1, i2⟩ := ih (pre ++ [b]) hb
    refine ⟨by simp, ?_⟩
    intro before u b' v later he hle
    cases before with
    | nil =>
      simp only [List.nil_append, List.cons.injEq] at he
      obtain ⟨he, rfl⟩ := he
      cases u with
      | nil => simp at hle; omega
      | cons x u =>
        simp only [List.cons_append, List.cons.injEq] at he
        obtain ⟨rfl, he⟩ := he
        have := i1 u b' v he (by simp only [countCtl, Bool.false_eq_true, if_false]; simp at hle; omega)
        simpa using this
    | cons q0 before =>
      simp only [List.cons_append, List.cons.injEq] at he
      obtain ⟨rfl, he⟩ := he
      have := i2 before u b' v later he hle
      simpa using this

/-- A block that stays in its part though the amount is reached is under a cycle or ends it. -/
theorem Cuts.work_over {c : Cfg} {lim : ℚ} (hl : 0 < lim) {work : List ℚ}
    {k : ℚ} {st : St} {i : Nat} {p : List Block} {ps : List (List Block)}
    (h : Cuts c (workCtl lim false work) k st i p ps) :
    ∀ pre : List Block, Late (motionAfter pre) st →
    (∀ (u : List Block) (b : Block) (v : List Block), p = u ++ b :: v → lim ≤ k + workOf work i u.length →
      ∃ m, motionAfter (pre ++ u ++ [b]) = some m ∧ (isCycle m = true ∨ m = 80)) ∧
    (∀ (before : List (List Block)) (u : List Block) (b : Block) (v : List Block) (later : List (List Block)),
      ps = before ++ (u ++ b :: v) :: later → lim ≤ workOf work (i + p.length + before.flatten.length) u.length →
      ∃ m, motionAfter (pre ++ p ++ before.flatten ++ u ++ [b]) = some m ∧ (isCycle m = true ∨ m = 80)) := by
  induction h with
  | done => intro pre _; simp
  | @keep k st st' i b p ps hs hk _ ih =>
    intro pre ha
    have hb : Late (motionAfter (pre ++ [b])) st' := by rw [motionAfter_snoc]; exact scan_late ha hs
    obtain ⟨i1, i2⟩ := ih (pre ++ [b]) hb
    refine ⟨?_, ?_⟩
    · intro u b' v he hle
      cases u with
      | nil =>
        simp at he; obtain ⟨rfl, rfl⟩ := he
        simp only [workCtl, keepCond, Bool.false_and, Bool.or_false, Bool.or_eq_true, decide_eq_true_eq] at hk
        rcases hk with hk | hk
        · simp [workOf] at hle; linarith
        · simpa using late_inCycle hb hk
      | cons x u =>
        simp only [List.cons_append, List.cons.injEq] at he
        obtain ⟨rfl, he⟩ := he
        have := i1 u b' v he (by
          simp only [workCtl, if_true]
          rw [List.length_cons, workOf_succ] at hle
          linarith)
        simpa using this
    · intro before u b' v later he hle
      have := i2 before u b' v later he (by
        rw [List.length_cons] at hle
        rw [show i + 1 + p.length + before.flatten.length = i + (p.length + 1) + before.flatten.length by omega]
        exact hle)
      simpa using this
  | @cut k st st' i b p ps hs hk _ ih =>
    intro pre ha
    have hb : Late (motionAfter (pre ++ [b])) st' := by rw [motionAfter_snoc]; exact scan_late ha hs
    obtain ⟨i1, i2⟩ := ih (pre ++ [b]) hb
    refine ⟨by simp, ?_⟩
    intro before u b' v later he hle
    cases before with
    | nil =>
      simp only [List.nil_append, List.cons.injEq] at he
      obtain ⟨he, rfl⟩ := he
      cases u with
      | nil => simp [workOf] at hle; linarith
      | cons x u =>
        simp only [List.cons_append, List.cons.injEq] at he
        obtain ⟨rfl, he⟩ := he
        have := i1 u b' v he (by
          simp only [workCtl, Bool.false_eq_true, if_false, zero_add]
          simp only [List.length_nil, List.flatten_nil, Nat.add_zero, List.length_cons] at hle
          rw [workOf_succ] at hle; exact hle)
        simpa using this
    | cons q0 before =>
      simp only [List.cons_append, List.cons.injEq] at he
      obtain ⟨rfl, he⟩ := he
      have := i2 before u b' v later he (by
        simp only [List.length_nil, List.flatten_cons, List.length_append, List.length_cons] at hle
        rw [show i + 0 + (p.length + 1 + before.flatten.length) = i + 1 + p.length + before.flatten.length by omega]
          at hle
        exact hle)
      simpa using this

/-! ## Text -/

theorem textLoop_ok {text : Str} {rp : Option Str} {xs : List Str} : ∀ {cur : List Str},
    ∃ p ps, p ++ ps.flatten = xs ∧ textLoop text rp cur xs = buildFrom cur p rp.toList ps ∧
      (∀ x ∈ p, ¬ text <:+: x) ∧ ∀ q ∈ ps, ∃ x t, q = x :: t ∧ text <:+: x ∧ ∀ y ∈ t, ¬ text <:+: y := by
  induction xs with
  | nil => intro cur; exact ⟨[], [], rfl, by simp [textLoop, buildFrom, build], by simp, by simp⟩
  | cons x xs ih =>
    intro cur
    by_cases hx : text <:+: x
    · obtain ⟨p, ps, h1, h2, h3, h4⟩ := ih (cur := rp.toList ++ [x])
      refine ⟨[], (x :: p) :: ps, by simp [← h1], ?_, by simp, ?_⟩
      · simp only [textLoop, contains, hx, decide_true, if_true, h2]
        cases ps <;> simp [buildFrom, build]
      · intro q hq
        rcases List.mem_cons.mp hq with rfl | hq
        · exact ⟨x, p, rfl, hx, h3⟩
        · exact h4 q hq
    · obtain ⟨p, ps, h1, h2, h3, h4⟩ := ih (cur := cur ++ [x])
      refine ⟨x :: p, ps, by simp [← h1], ?_, ?_, h4⟩
      · simp only [textLoop, contains, hx, decide_false, Bool.false_eq_true, if_false, h2]
        simp [buildFrom]
      · intro y hy
        rcases List.mem_cons.mp hy with rfl | hy
        · exact hx
        · exact h3 y hy

/-! ## Success -/

/-- The numbers the splitter reads are readable. -/
theorem scan_ok {c : Cfg} {b : Block} (h : ∀ (d : Dec) (v : Str), Attr.dec d ∈ b →
    d.word = ['G'] ∨ d.word = ['M'] → d.value = some v → ∃ n, stoi v = .ok n) (st : St) :
    ∃ st', scan c st b = .ok st' := by
  unfold scan
  generalize reset st = s
  induction b generalizing s with
  | nil => exact ⟨s, rfl⟩
  | cons a b ih =>
    have ih' := ih (fun d v hd => h d v (by simp [hd]))
    cases a with
    | dec d =>
      have : ∃ s', visitDec c s d = .ok s' := by
        have hst : d.word = ['G'] ∨ d.word = ['M'] → ∃ o, optStoi d.value = .ok o := by
          intro hw
          cases hv : d.value with
          | none => exact ⟨none, rfl⟩
          | some v =>
            obtain ⟨n, hn⟩ := h d v (by simp) hw hv
            exact ⟨some n, by simp [optStoi, hn]⟩
        unfold visitDec
        split_ifs with h1 h2 h3 h4 h5 h6 h7 h8 <;> try exact ⟨_, rfl⟩
        · obtain ⟨o, ho⟩ := hst (.inl h3)
          rw [ho]; cases o <;> exact ⟨_, rfl⟩
        · obtain ⟨o, ho⟩ := hst (.inr h4)
          rw [ho]; exact ⟨_, rfl⟩
      obtain ⟨s', hs'⟩ := this
      obtain ⟨s'', h''⟩ := ih' s'
      exact ⟨s'', by simp [visitWords, hs', h'']⟩
    | str _ => exact ih' s
    | chr _ => exact ih' s

end NC.Splitter
