import Verif.SplitFileProofs
import Verif.PipeDemo

/-! # C105, C106: files in parts -/

namespace NC.Props
open NC NC.Message NC.Gram NC.Pipe NC.SplitFile NC.Spec NC.Spec.Split NC.Spec.SplitFile NC.Spec.Rewrite NC.Spec.Tables NC.Spec.Check NC.Spec.Verify

/-- The work motion of the last block: its path or its time. -/
def workMotion (k : Kind) (s : AttrPath.St ℚ) : Option ℚ :=
  match k with
  | .path => s.path.work
  | .time => s.time.work
  | _ => none

/-- The amount that is asked for. -/
def wantedAmount (r : Request) : Int :=
  match r.kind with
  | .path => r.path
  | .time => r.time
  | _ => 0

theorem motion_eq {k : Kind} (hk : k = .path ∨ k = .time) (p : Parser) : motion k p = workMotion k p.path := by
  rcases hk with rfl | rfl <;> rfl

theorem wanted_eq {r : Request} (hk : r.kind = .path ∨ r.kind = .time) : (if r.kind = .path then r.path else r.time) = wantedAmount r := by
  unfold wantedAmount
  rcases hk with h | h <;> simp [h]

theorem split_measured {S : Setup} {r : Request} (hk : r.kind = .path ∨ r.kind = .time) (o : Obj) (data : List Str) :
    splitFile S r o data = splitMeasured S r o data := by
  unfold splitFile
  rw [if_neg (by rcases hk with h | h <;> simp [h]), if_pos hk]

theorem split_read {S : Setup} {r : Request} (hk : r.kind = .blocks ∨ r.kind = .tool) (o : Obj) (data : List Str) :
    splitFile S r o data = splitRead S r o data := by
  unfold splitFile
  rw [if_neg (by rcases hk with h | h <;> simp [h]), if_neg (by rcases hk with h | h <;> simp [h])]

/-- The work motions that a check of the file finds, line by line: the parser, which may have read other files before,
accepts every line, and `ws` lists the work motion it reports after each line. -/
structure Reported (S : Setup) (k : Kind) (p : Parser) (data : List Str) (ws : List ℚ) : Prop where
  accepted : ∃ as, (program S options p (counted 0 data)).2 = .ok as ∧ ∀ a ∈ as, a.1 = true
  length : ws.length = data.length
  motion : ∀ i < data.length, workMotion k (program S options p (counted 0 (data.take (i + 1)))).1.path = ws[i]?

/-- C105 (partial: no blank lines): when a file is split by path or time, every line has been accepted, and every part
but the last contains at least the amount of work motion that was asked for, as the check of the lines reports it. -/
theorem C105_amount_partial (S : Setup) (l : Enums.ELanguage) (hl : S.lang = .known l) (r : Request) (hk : r.kind = .path ∨ r.kind = .time)
    (o o' : Obj) (data : List Str) (hn : ∀ s ∈ data, ¬ Blank s) (parts : List (List Block)) (m : Option Str)
    (h : splitFile S r o data = (o', .parts parts m)) :
    ∃ ws bs rp pieces raw, Reported S r.kind o.p data ws ∧ List.Forall₂ (LineRead S) data bs ∧ pieces.flatten = bs ∧ Dressed rp pieces raw ∧
      List.Forall₂ (List.Forall₂ (OnlyNumber S.tables)) raw parts ∧
      ∀ (before : List (List Block)) (q : List Block) (later : List (List Block)), pieces = before ++ q :: later → later ≠ [] →
        (wantedAmount r : ℚ) ≤ workOf ws before.flatten.length q.length := by
  rw [split_measured hk] at h
  obtain ⟨p, ms, m1, rp, ws, raw, h1, _, h3, h4, rfl⟩ := splitMeasured_parts h
  obtain ⟨⟨as, ha, hlen, htrue⟩, hlen', hall⟩ := measure_done hl hn h1
  rw [wanted_eq hk] at h4
  obtain ⟨pieces, hp1, hp2, hp3⟩ := C54_at_least _ _ _ _ _ _ _ h4
  have hws := amounts_some h3
  have hwl : ws.length = data.length := by
    have := congrArg List.length hws
    simpa [hlen'] using this.symm
  refine ⟨ws, ms.map Prod.fst, rp, pieces, raw, ⟨⟨as, by rw [ha], htrue⟩, hwl, ?_⟩, measure_lines hl h1, hp1, hp2,
    renumberParts_only _ _ (by decide) rfl _ _, hp3⟩
  intro i hi
  obtain ⟨g, b, _, hm⟩ := hall i data[i] (List.getElem?_eq_getElem hi)
  have e : (ms.map Prod.snd)[i]? = some (SplitFile.motion r.kind (upTo S o.p 0 data (i + 1))) := by rw [List.getElem?_map, hm]; rfl
  rw [hws, List.getElem?_map, motion_eq hk] at e
  cases hw : ws[i]? with
  | none => rw [hw] at e; simp at e
  | some w => rw [hw] at e; simp only [Option.map_some, Option.some.injEq] at e; exact e.symm

/-- C105 (partial: no blank lines): without drilling cycles, and unless only rapid blocks may begin a part, no part goes
on after the amount is reached. -/
theorem C105_no_more_partial (S : Setup) (l : Enums.ELanguage) (hl : S.lang = .known l) (r : Request) (hk : r.kind = .path ∨ r.kind = .time)
    (hro : r.rapidOnly = false) (o o' : Obj) (data : List Str) (hn : ∀ s ∈ data, ¬ Blank s) (parts : List (List Block)) (m : Option Str)
    (h : splitFile S r o data = (o', .parts parts m))
    (hc : ∀ s ∈ data, ∀ b, LineRead S s b → ∀ n ∈ motions b, isCycle n = false ∧ n ≠ 80) :
    ∃ ws bs rp pieces raw, Reported S r.kind o.p data ws ∧ List.Forall₂ (LineRead S) data bs ∧ pieces.flatten = bs ∧ Dressed rp pieces raw ∧
      List.Forall₂ (List.Forall₂ (OnlyNumber S.tables)) raw parts ∧
      ∀ (before : List (List Block)) (q : List Block) (later : List (List Block)), pieces = before ++ q :: later →
        ∀ j, 0 < j → j < q.length → workOf ws before.flatten.length j < wantedAmount r := by
  obtain ⟨ws', bs', rp', pieces', raw', hrep, _, _, _, _, _⟩ := C105_amount_partial S l hl r hk o o' data hn parts m h
  rw [split_measured hk] at h
  obtain ⟨p, ms, m1, rp, ws, raw, h1, _, h3, h4, rfl⟩ := splitMeasured_parts h
  have hrd := measure_lines hl h1
  rw [wanted_eq hk, hro] at h4
  obtain ⟨pieces, hp1, hp2, hp3⟩ := C54_no_more_than_needed _ _ _ _ _ _ (fun b hb => by
    obtain ⟨s, hs, hsb⟩ := forall₂_right hrd b hb
    exact hc s hs b hsb) h4
  obtain ⟨_, hlen', hall⟩ := measure_done hl hn h1
  have hws := amounts_some h3
  have hwl : ws.length = data.length := by
    have := congrArg List.length hws
    simpa [hlen'] using this.symm
  have : ws = ws' := by
    apply List.ext_getElem?
    intro i
    by_cases hi : i < data.length
    · obtain ⟨g, b, _, hm⟩ := hall i data[i] (List.getElem?_eq_getElem hi)
      have e : (ms.map Prod.snd)[i]? = some (SplitFile.motion r.kind (upTo S o.p 0 data (i + 1))) := by rw [List.getElem?_map, hm]; rfl
      rw [hws, List.getElem?_map, motion_eq hk] at e
      rw [← hrep.motion i hi]
      cases hw : ws[i]? with
      | none => rw [hw] at e; simp at e
      | some w => rw [hw] at e; simp only [Option.map_some, Option.some.injEq] at e; exact e
    · rw [List.getElem?_eq_none (by omega), List.getElem?_eq_none (by rw [hrep.length]; omega)]
  subst this
  exact ⟨ws, ms.map Prod.fst, rp, pieces, raw, hrep, hrd, hp1, hp2, renumberParts_only _ _ (by decide) rfl _ _, hp3⟩


theorem counted_take (data : List Str) : ∀ (x : Int) (k : Nat), counted x (data.take k) = (counted x data).take k := by
  induction data with
  | nil => intro x k; simp [counted]
  | cons l t ih =>
    intro x k
    cases k with
    | zero => rfl
    | succ k => simp [counted, ih]

theorem counted_texts (data : List Str) : ∀ x : Int, (counted x data).map Prod.snd = data := by
  induction data with
  | nil => intro x; rfl
  | cons l t ih => intro x; simp [counted, ih]

theorem counted_mem {data : List Str} {x : Int} {y : Int × Str} (h : y ∈ counted x data) : y.2 ∈ data := by
  rw [← counted_texts data x]
  exact List.mem_map_of_mem h

theorem readAs_take {S : Setup} {g : PS} {ls : List (Int × Str)} {bs : List Block} (h : ReadAs S g ls bs) : ∀ k, ReadAs S g (ls.take k) (bs.take k) := by
  induction h with
  | nil g => intro k; simp only [List.take_nil]; exact .nil g
  | cons hp _ ih =>
    intro k
    cases k with
    | zero => exact .nil _
    | succ k => exact .cons hp (ih k)

theorem readAs_length {S : Setup} {g : PS} {ls : List (Int × Str)} {bs : List Block} (h : ReadAs S g ls bs) : ls.length = bs.length := by
  induction h with
  | nil => rfl
  | cons _ _ ih => simp [ih]

theorem allPassing_take {S : Setup} {o : Options} {bs : List Block} : ∀ {u : Ver.Units} {s : AttrPath.St ℚ} {done : List Block}, AllPassing S o u s done bs →
    ∀ k, AllPassing S o u s done (bs.take k) := by
  induction bs with
  | nil => intro u s done h k; simpa using h
  | cons b t ih =>
    intro u s done h k
    cases k with
    | zero => trivial
    | succ k => exact ⟨h.1, ih h.2 k⟩

theorem program_quiet {S : Setup} {l : Enums.ELanguage} (hl : S.lang = .known l) {ls : List (Int × Str)} : ∀ {p : Parser} {as : List Answer}, (∀ x ∈ ls, '#' ∉ x.2) →
    (program S options p ls).2 = .ok as → (∀ a ∈ as, a.1 = true) → as = ls.map (fun _ => (true, none)) := by
  induction ls with
  | nil => intro p as _ h _; simp only [program, Out.ok.injEq] at h; exact h.symm
  | cons x t ih =>
    intro p as hs h ha
    simp only [program] at h
    rcases hq : parse S options x.1 x.2 p with ⟨q, (a | e | _)⟩
    · rw [hq] at h
      dsimp only at h
      rcases hz : program S options q t with ⟨q', (as' | e | _)⟩
      · rw [hz] at h
        dsimp only at h
        simp only [Out.ok.injEq] at h
        subst h
        obtain ⟨a1, m1⟩ := a
        have : a1 = true := ha (a1, m1) (by simp)
        subst this
        have := C38_success_partial S l hl options x.1 x.2 p q m1 rfl (hs x (by simp)) hq
        subst this
        rw [List.map_cons, ← ih (fun y hy => hs y (by simp [hy])) (by rw [hz]) (fun a h => ha a (by simp [h]))]
      · rw [hz] at h; simp at h
      · rw [hz] at h; simp at h
    · rw [hq] at h; simp at h
    · rw [hq] at h; simp at h

theorem amounts_all {α : Type} {ms : List (α × Path.Fl ℚ)} (h : ∀ e ∈ ms, e.2.isSome = true) : ∃ ws, amounts ms = some ws := by
  induction ms with
  | nil => exact ⟨[], rfl⟩
  | cons e t ih =>
    obtain ⟨ws, hw⟩ := ih (fun e he => h e (by simp [he]))
    rcases e with ⟨a, _ | w⟩
    · have := h (a, none) (by simp); simp at this
    · exact ⟨w :: ws, by simp [amounts, hw]⟩

theorem readAs_numbers {S : Setup} {g : PS} {ls : List (Int × Str)} {bs : List Block} (h : ReadAs S g ls bs) (ho : ∀ b ∈ bs, Ordinary S.lathe S.limits b) :
    ∀ b ∈ bs, ∀ (d : Dec) (v : Str), Attr.dec d ∈ b → d.word = ['G'] ∨ d.word = ['M'] → d.value = some v → ∃ k, stoi v = .ok k := by
  induction h with
  | nil => nofun
  | @cons g g' x s b t bs hp _ ih =>
    intro b' hb d v hd _ hv
    rcases List.mem_cons.mp hb with rfl | hb
    · have hsh : ∀ d ∈ decs b', Gram.Shape d := fun d hd =>
        (phrase_shape (gramOf S) s { g with msg := [] }).1 b' (by rw [hp]) _ ((mem_decs b' d).mp hd) d rfl
      have := number_of hsh (ho b' (by simp)) ((mem_decs b' d).mpr hd) hv
      exact ⟨_, Ver.stoi_number this⟩
    · exact ih (fun b hb => ho b (by simp [hb])) b' hb d v hd ‹_› hv


/-- C105 (partial: no blank lines, no `#`, ordinary numbers, no retraction plane): a new parser splits a file by path or
time exactly when nothing is wrong with its lines, the amount is positive and the simulation finds finite amounts; these
are the amounts of the simulation of the words. -/
theorem C105_exact_partial (S : Setup) (l : Enums.ELanguage) (hl : S.lang = .known l) (hgg : SetOfGroups S.gcodes) (hmg : SetOfGroups S.mcodes)
    (r : Request) (hk : r.kind = .path ∨ r.kind = .time) (hpl : r.plane = []) (num : Renumber.St) (data : List Str) (hn : ∀ s ∈ data, ¬ Blank s)
    (bs : List Block) (hr : ReadAs S {} (counted 0 data) bs) (hs : ∀ s ∈ data, '#' ∉ s) (ho : ∀ b ∈ bs, Ordinary S.lathe S.limits b) :
    ((∃ o' parts m, splitFile S r ⟨fresh S, num⟩ data = (o', .parts parts m)) ↔
      AllPassing S options S.units (AttrPath.initial S.cfg) [] bs ∧ 0 < wantedAmount r ∧
      ∀ i < bs.length, (workMotion r.kind (simulatedAll S options S.units (AttrPath.initial S.cfg) (bs.take (i + 1)))).isSome = true) ∧
    ∀ ws, Reported S r.kind (fresh S) data ws → ∀ i < bs.length,
      ws[i]? = workMotion r.kind (simulatedAll S options S.units (AttrPath.initial S.cfg) (bs.take (i + 1))) := by
  have hs' : ∀ x ∈ counted 0 data, '#' ∉ x.2 := fun x hx => hs _ (counted_mem hx)
  have hlen : data.length = bs.length := by
    rw [← readAs_length hr, ← List.length_map (f := Prod.snd), counted_texts]
  have iff := C85_program_partial S l hl options rfl hgg hmg (counted 0 data) bs hr hs' ho
  have pre : AllPassing S options S.units (AttrPath.initial S.cfg) [] bs → ∀ k,
      (program S options (fresh S) (counted 0 (data.take k))).1.path = simulatedAll S options S.units (AttrPath.initial S.cfg) (bs.take k) := by
    intro ha k
    have h := C85_program_partial S l hl options rfl hgg hmg (counted 0 (data.take k)) (bs.take k) (by rw [counted_take]; exact readAs_take hr k)
      (fun x hx => hs _ (List.mem_of_mem_take (counted_mem hx))) (fun b hb => ho b (List.mem_of_mem_take hb))
    exact (h.2 (h.1.mpr (allPassing_take ha k))).1
  have all_of : ∀ as, (program S options (fresh S) (counted 0 data)).2 = .ok as → (∀ a ∈ as, a.1 = true) →
      AllPassing S options S.units (AttrPath.initial S.cfg) [] bs := by
    intro as h1 h2
    rw [← iff.1, h1, program_quiet hl hs' h1 h2]
  refine ⟨⟨?_, ?_⟩, ?_⟩
  · rintro ⟨o', parts, m, h⟩
    obtain ⟨ws, _, _, _, _, ⟨⟨as, h1, h2⟩, h3, h4⟩, _⟩ := C105_amount_partial S l hl r hk _ o' data hn parts m h
    have ha := all_of as h1 h2
    refine ⟨ha, ?_, ?_⟩
    · rw [split_measured hk] at h
      obtain ⟨_, _, _, _, _, _, _, _, _, h5, _⟩ := splitMeasured_parts h
      rw [wanted_eq hk] at h5
      unfold Splitter.byWork at h5
      split at h5
      · cases h5
      · omega
    · intro i hi
      rw [← pre ha (i + 1), h4 i (by omega), List.getElem?_eq_getElem (by omega)]
      rfl
  · rintro ⟨ha, hw, hf⟩
    have hok := iff.1.mpr ha
    obtain ⟨ms, m', hm⟩ := measure_accepted (S := S) (k := r.kind) (p := fresh S) (p' := (program S options (fresh S) (counted 0 data)).1) (x := 0)
      (as := (counted 0 data).map (fun _ => (true, none))) none hn (Prod.ext rfl hok) (by simp)
    obtain ⟨_, hlen', hall⟩ := measure_done hl hn hm
    obtain ⟨ws, hws⟩ := amounts_all (ms := ms) (by
      intro e he
      obtain ⟨i, hi, rfl⟩ := List.getElem_of_mem he
      obtain ⟨g, b, _, h⟩ := hall i data[i] (List.getElem?_eq_getElem (by omega))
      rw [List.getElem?_eq_getElem hi, Option.some.injEq] at h
      rw [h]
      dsimp only
      rw [motion_eq hk]
      unfold upTo
      rw [pre ha (i + 1)]
      exact hf i (by omega))
    have hms := measure_words hl hgg hmg hn (p := fresh S) hr hs ho hm
    obtain ⟨raw, hraw⟩ := (C22_succeeds (cutting S) (wantedAmount r) r.rapidOnly ws none bs (readAs_numbers hr ho)).2.2.mpr hw
    rw [split_measured hk]
    unfold splitMeasured
    dsimp only
    rw [hm]
    dsimp only
    unfold readPlane
    rw [if_pos hpl]
    dsimp only
    rw [hws]
    dsimp only
    rw [wanted_eq hk, hms, hraw]
    exact ⟨_, _, _, rfl⟩
  · intro ws ⟨⟨as, h1, h2⟩, _, h4⟩ i hi
    rw [← pre (all_of as h1 h2) (i + 1), h4 i (by omega)]

/-! ## C106 -/

/-- How a retraction plane is read: there is none, or it is a line of the program. -/
def PlaneAs (S : Setup) (plane : Str) (rp : Option Block) : Prop :=
  (plane = [] ∧ rp = none) ∨ (plane ≠ [] ∧ ∃ (b : Block) (g : PS) (g' : PS), phrase (gramOf S) { g with msg := [] } plane = (g', .accept b) ∧ rp = some b)

theorem planeAs_of {S : Setup} {g : PS} {plane : Str} {rp : Option Block} (h : PlaneRead S g plane rp) : PlaneAs S plane rp := by
  rcases h with h | ⟨h, g', b, hp, e⟩
  · exact .inl h
  · exact .inr ⟨h, b, _, g', hp, e⟩

theorem split_raw {S : Setup} {l : Enums.ELanguage} (hl : S.lang = .known l) {r : Request} (hk : r.kind ≠ .text) {o o' : Obj} {data : List Str}
    {parts : List (List Block)} {m : Option Str} (h : splitFile S r o data = (o', .parts parts m)) :
    ∃ bs rp pieces raw, List.Forall₂ (LineRead S) data bs ∧ PlaneAs S r.plane rp ∧ pieces.flatten = bs ∧ Dressed rp pieces raw ∧
      parts = (renumberParts S.tables numbers o.num raw).2 ∧ ∀ q ∈ pieces.tail, q ≠ [] := by
  by_cases hm : r.kind = .path ∨ r.kind = .time
  · rw [split_measured hm] at h
    obtain ⟨p, ms, m1, rp, ws, raw, h1, h2, _, h4, h5⟩ := splitMeasured_parts h
    obtain ⟨pieces, e1, e2, e3⟩ := C22_lossless_by_work _ _ _ _ _ _ _ h4
    exact ⟨_, rp, pieces, raw, measure_lines hl h1, planeAs_of h2, e1, e2, h5, e3⟩
  · have hk' : r.kind = .blocks ∨ r.kind = .tool := by
      rcases hr : r.kind with _ | _ | _ | _ | _ <;> simp_all
    rw [split_read hk'] at h
    obtain ⟨bs, g, rp, raw, h1, h2, h3, h4, _⟩ := splitRead_parts h
    by_cases hb : r.kind = .blocks
    · rw [if_pos hb] at h3
      obtain ⟨pieces, e1, e2, e3⟩ := C22_lossless_by_count _ _ _ _ _ _ h3
      exact ⟨bs, rp, pieces, raw, reading_lines h1, planeAs_of h2, e1, e2, h4, e3⟩
    · rw [if_neg hb] at h3
      obtain ⟨pieces, e1, e2, e3⟩ := C22_lossless_by_tool _ _ _ _ h3
      exact ⟨bs, rp, pieces, raw, reading_lines h1, planeAs_of h2, e1, e2, h4, e3⟩

/-- C106: when a file is split by blocks, tools, path or time, every line that is not blank has been read to its end, and
the parts are the words of the lines in their order, with retraction planes where the parts meet; nothing is changed but
the numbers. -/
theorem C106_complete (S : Setup) (l : Enums.ELanguage) (hl : S.lang = .known l) (r : Request) (hk : r.kind ≠ .text) (o o' : Obj) (data : List Str)
    (parts : List (List Block)) (m : Option Str) (h : splitFile S r o data = (o', .parts parts m)) :
    ∃ bs rp pieces raw, List.Forall₂ (LineRead S) data bs ∧ PlaneAs S r.plane rp ∧ pieces.flatten = bs ∧ Dressed rp pieces raw ∧
      List.Forall₂ (List.Forall₂ (OnlyNumber S.tables)) raw parts ∧ ∀ q ∈ pieces.tail, q ≠ [] := by
  obtain ⟨bs, rp, pieces, raw, h1, h2, h3, h4, rfl, h5⟩ := split_raw hl hk h
  exact ⟨bs, rp, pieces, raw, h1, h2, h3, h4, renumberParts_only _ _ (by decide) rfl _ _, h5⟩

/-- The tables declare `N` for block numbers, and it may have the number at which the counter stands and the one at which
it begins again. -/
structure Numbers (S : Setup) (start : Nat) : Prop where
  address : c!"N" ∈ numbering S.tables ∧ c!"N" ∈ decNames S.tables.metric S.ops
  apart : ∀ v, (∀ c ∈ v, isDig c = true) → c!"N" ++ v ∉ assignNames S.tables.metric S.ops
  range : ∀ wg, (Pipe.tableOf S.tables S.units).find c!"N" = some wg →
    wg.rangeFrom ≤ start ∧ (start : Int) ≤ wg.rangeTo ∧ wg.rangeFrom ≤ Renumber.restart S.tables numbers ∧ (Renumber.restart S.tables numbers : Int) ≤ wg.rangeTo
  small : start ≤ 2147483647 ∧ Renumber.restart S.tables numbers ≤ 2147483647

/-- Settings within the range of the address that number like those of the call. -/
def likeNumbers (S : Setup) (start : Nat) : Renumber.Settings :=
  ⟨c!"N", max start (Renumber.restart S.tables numbers) + 1, 0, max start (Renumber.restart S.tables numbers), false, false⟩

theorem likeNumbers_restart (S : Setup) (start : Nat) : Renumber.restart S.tables (likeNumbers S start) = Renumber.restart S.tables numbers := rfl

theorem likeNumbers_fit {S : Setup} {start : Nat} (h : Numbers S start) : Fit S (likeNumbers S start) start := by
  have h1 := h.small
  refine ⟨⟨?_, ?_, ?_, ?_, ?_⟩, ⟨h.address.1, h.address.2, ?_⟩, ?_, h.apart, ?_, ?_⟩
  · simp only [likeNumbers]; omega
  · simp only [likeNumbers]; omega
  · rw [likeNumbers_restart]; simp only [likeNumbers]; omega
  · simp only [likeNumbers]; omega
  · simp only [likeNumbers]; omega
  · simp only [likeNumbers]; decide
  · simp only [likeNumbers]; decide
  · intro wg hw
    obtain ⟨a, b, c, d⟩ := h.range wg hw
    rw [likeNumbers_restart]
    refine ⟨a, c, ?_⟩
    simp only [likeNumbers]
    omega
  · simp only [likeNumbers]; omega

theorem renumber_like {S : Setup} {start : Nat} (h : Numbers S start) {st : Renumber.St} (hc : st.counter ≤ max start (Renumber.restart S.tables numbers)) (b : Block) :
    Renumber.renumber S.tables numbers st b = Renumber.renumber S.tables (likeNumbers S start) st b := by
  have h1 := h.small
  have e1 : Renumber.bump S.tables numbers st.counter = Renumber.restart S.tables numbers := by
    unfold Renumber.bump
    dsimp only
    rw [show numbers.step = 1 from rfl, show numbers.maxNumber = 0 from rfl, Nat.mod_eq_of_lt (by omega), if_pos (by omega)]
  have e2 : Renumber.bump S.tables (likeNumbers S start) st.counter = Renumber.restart S.tables numbers := by
    unfold Renumber.bump
    dsimp only
    rw [likeNumbers_restart, show (likeNumbers S start).step = max start (Renumber.restart S.tables numbers) + 1 from rfl,
      show (likeNumbers S start).maxNumber = max start (Renumber.restart S.tables numbers) from rfl, Nat.mod_eq_of_lt (by omega), if_pos (by omega)]
  have e3 : ∀ b, Renumber.insertNumber S.tables numbers st b = Renumber.insertNumber S.tables (likeNumbers S start) st b := by
    intro b
    unfold Renumber.insertNumber
    rw [e1, e2]
    rfl
  have e4 : ∀ d b, Renumber.replaceNumber S.tables numbers st d b = Renumber.replaceNumber S.tables (likeNumbers S start) st d b := by
    intro d b
    unfold Renumber.replaceNumber
    rw [e1, e2]
    rfl
  rcases b with _ | ⟨d | ⟨w, v⟩ | ⟨w, v⟩, t⟩
  · rfl
  · simp only [Renumber.renumber, e3, e4]; rfl
  · simp only [Renumber.renumber, e3]; rfl
  · simp only [Renumber.renumber, e3]; rfl

/-- The number of a block is plain. -/
def PlainHead (S : Setup) (b : Block) : Prop := ∀ d t, b = .dec d :: t → d.word ∈ numbering S.tables → ∃ v, d = { word := d.word, value := some v }

theorem renumbered_like {S : Setup} {start : Nat} (h : Numbers S start) (bs : List Block) (hb : ∀ b ∈ bs, PlainHead S b) :
    ∀ st : Renumber.St, Counts S (likeNumbers S start) st.counter →
      List.Forall₂ (fun b b' => Renumbered S (likeNumbers S start) b b' ∧ (b = [] → b' = [])) bs (Renumber.renumberAll S.tables numbers st bs).2 := by
  induction bs with
  | nil => intro st _; exact .nil
  | cons b bs ih =>
    intro st hc
    obtain ⟨h1, h2⟩ := renumber_step (likeNumbers_fit h) hc (hb b (by simp))
    rw [← renumber_like h hc.high] at h1 h2
    exact .cons ⟨h1, fun e => by subst e; rfl⟩ (ih (fun x hx => hb x (by simp [hx])) _ h2)

theorem dressed_mem {rp : Option Block} {pieces raw : List (List Block)} (h : Dressed rp pieces raw) : ∀ b ∈ raw.flatten, b ∈ pieces.flatten ∨ rp = some b := by
  intro b hb
  obtain ⟨q, hq, hb⟩ := List.mem_flatten.mp hb
  obtain ⟨k, hk, rfl⟩ := List.getElem_of_mem hq
  have hk' : k < pieces.length := by rw [← h.1]; exact hk
  have := h.2 k pieces[k] (List.getElem?_eq_getElem hk')
  rw [List.getElem?_eq_getElem hk, Option.some.injEq] at this
  rw [this] at hb
  simp only [List.mem_append] at hb
  rcases hb with (hb | hb) | hb
  · split at hb
    · cases hb
    · exact .inr (by simpa using hb)
  · exact .inl (List.mem_flatten.mpr ⟨_, List.getElem_mem hk', hb⟩)
  · split at hb
    · cases hb
    · exact .inr (by simpa using hb)

theorem dressed_none {pieces raw : List (List Block)} (h : Dressed none pieces raw) : raw = pieces := by
  apply List.ext_getElem?
  intro k
  by_cases hk : k < pieces.length
  · rw [h.2 k _ (List.getElem?_eq_getElem hk), List.getElem?_eq_getElem hk]
    simp
  · rw [List.getElem?_eq_none (by rw [h.1]; omega), List.getElem?_eq_none (by omega)]

/-- C106: when the words of the lines and of the retraction plane can be written, every block of the parts is empty, for a
blank line, or what is written of it is read as the same words, whatever was read before. -/
theorem C106_again (S : Setup) (l : Enums.ELanguage) (hl : S.lang = .known l)
    (hR : RegularTables (Pipe.tableOf S.tables S.units) S.tables.metric S.ops) (r : Request) (hk : r.kind ≠ .text) (o o' : Obj)
    (hN : Numbers S o.num.counter) (data : List Str) (parts : List (List Block)) (m : Option Str) (h : splitFile S r o data = (o', .parts parts m))
    (hd : ∀ s, (s ∈ data ∧ ¬ Blank s) ∨ (s = r.plane ∧ r.plane ≠ []) → ∀ (g g' : PS) b, phrase (gramOf S) { g with msg := [] } s = (g', .accept b) →
      Declared (Pipe.tableOf S.tables S.units) S.tables.metric S.ops b ∧ Headed (numbering S.tables) b) :
    ∀ b ∈ parts.flatten, b = [] ∨ ∀ hist, verdict (gramOf S) hist (Wrap.blockText b) = .ret b true none := by
  obtain ⟨bs, rp, pieces, raw, h1, h2, h3, h4, rfl, _⟩ := split_raw hl hk h
  have key : ∀ b ∈ raw.flatten, b = [] ∨ (Declared (Pipe.tableOf S.tables S.units) S.tables.metric S.ops b ∧ Headed (numbering S.tables) b) := by
    intro b hb
    rcases dressed_mem h4 b hb with hb | hb
    · rw [h3] at hb
      obtain ⟨s, hs, hsb⟩ := forall₂_right h1 b hb
      rcases hsb with ⟨_, e⟩ | ⟨hn, g, g', hp⟩
      · exact .inl e
      · exact .inr (hd s (.inl ⟨hs, hn⟩) g g' b hp)
    · rcases h2 with ⟨_, e⟩ | ⟨hne, b', g, g', hp, e⟩
      · rw [e] at hb; cases hb
      · rw [hb] at e
        cases e
        exact .inr (hd _ (.inr ⟨rfl, hne⟩) g g' b hp)
  have hall := renumbered_like hN raw.flatten (fun b hb => by
    rcases key b hb with rfl | hb
    · intro d t e; cases e
    · exact hb.2.plain) o.num (counts_start (likeNumbers_fit hN))
  rw [(renumberParts_flat S.tables numbers raw o.num).1]
  intro b' hb'
  obtain ⟨b, hb, hbb, hnil⟩ := forall₂_right hall b' hb'
  rcases key b hb with e | ⟨hb1, hb2⟩
  · exact .inl (hnil e)
  · right
    intro hist
    have := C86_line _ _ _ S.lang hR _ (declared_renumbered (likeNumbers_fit hN) hbb hb2 hb1) hist [] (by simp)
    rwa [List.append_nil, ← blockText_eq] at this

/-- C106 (partial: no blank lines, no `#`, ordinary numbers, no retraction plane): the parts that a new parser returns,
written one after the other, run like the file. -/
theorem C106_run_partial (S : Setup) (o : Options) (hU : Usual S o) (r : Request) (hk : r.kind ≠ .text) (hpl : r.plane = []) (num : Renumber.St)
    (hN : Numbers S num.counter) (data : List Str) (hn : ∀ s ∈ data, ¬ Blank s) (bs : List Block) (hr : ReadAs S {} (counted 0 data) bs)
    (hs : ∀ s ∈ data, '#' ∉ s)
    (hb : ∀ b ∈ bs, Declared (Pipe.tableOf S.tables S.units) S.tables.metric S.ops b ∧ Headed (numbering S.tables) b ∧ Ordinary S.lathe S.limits b)
    (o' : Obj) (parts : List (List Block)) (m : Option Str) (h : splitFile S r ⟨fresh S, num⟩ data = (o', .parts parts m))
    (ls' : List (Int × Str)) (hls : ls'.map Prod.snd = parts.flatten.map Wrap.blockText) : SameRun S o (counted 0 data) ls' := by
  obtain ⟨l, hl⟩ := hU.lang
  have hraw : ∃ raw, raw.flatten = bs ∧ parts = (renumberParts S.tables numbers num raw).2 := by
    by_cases hm : r.kind = .path ∨ r.kind = .time
    · rw [split_measured hm] at h
      obtain ⟨p, ms, m1, rp, ws, raw, h1, h2, _, h4, h5⟩ := splitMeasured_parts h
      obtain ⟨pieces, e1, e2, _⟩ := C22_lossless_by_work _ _ _ _ _ _ _ h4
      rcases h2 with ⟨_, rfl⟩ | ⟨hne, _⟩
      · refine ⟨raw, ?_, h5⟩
        rw [dressed_none e2, e1, measure_words hl hU.gs hU.ms hn hr hs (fun b hm => (hb b hm).2.2) h1]
      · exact absurd hpl hne
    · have hk' : r.kind = .blocks ∨ r.kind = .tool := by
        rcases hr : r.kind with _ | _ | _ | _ | _ <;> simp_all
      rw [split_read hk'] at h
      obtain ⟨bs', g, rp, raw, h1, h2, h3, h4, _⟩ := splitRead_parts h
      have e : bs' = bs := readAs_unique (reading_readAs h1 hn 0) hr
      subst e
      rcases h2 with ⟨_, rfl⟩ | ⟨hne, _⟩
      · refine ⟨raw, ?_, h4⟩
        by_cases hb : r.kind = .blocks
        · rw [if_pos hb] at h3
          obtain ⟨pieces, e1, e2, _⟩ := C22_lossless_by_count _ _ _ _ _ _ h3
          rw [dressed_none e2, e1]
        · rw [if_neg hb] at h3
          obtain ⟨pieces, e1, e2, _⟩ := C22_lossless_by_tool _ _ _ _ h3
          rw [dressed_none e2, e1]
      · exact absurd hpl hne
  obtain ⟨raw, e, rfl⟩ := hraw
  rw [(renumberParts_flat S.tables numbers raw num).1, e] at hls
  have hall := renumbered_like hN bs (fun b hm => (hb b hm).2.1.plain) num (counts_start (likeNumbers_fit hN))
  refine renumbered_run hU (likeNumbers_fit hN) hr hb (fun x hx => hs _ (counted_mem hx)) (hall.imp (fun _ _ h => h.1)) ?_
  rw [hls]
  exact List.map_congr_left (fun b _ => blockText_eq b)

/-! ## Split at a text -/

theorem renumberLines_ok {S : Setup} {start : Nat} (hf : Fit S textNumbers start) (ls : List Str)
    (hd : ∀ s ∈ ls, ∀ g : PS, ∃ g' b, phrase (gramOf S) { g with msg := [] } s = (g', .accept b) ∧
      Declared (Pipe.tableOf S.tables S.units) S.tables.metric S.ops b ∧ Headed (numbering S.tables) b) :
    ∀ (x : Xform.Obj), Counts S textNumbers x.num.counter → ∃ y bs, renumberLines S x none ls = (y, .done bs none) ∧
      Counts S textNumbers y.num.counter ∧
      List.Forall₂ (fun s b' => ∃ (g : PS) (g' : PS) (b : Block), phrase (gramOf S) { g with msg := [] } s = (g', .accept b) ∧ Renumbered S textNumbers b b' ∧
        Declared (Pipe.tableOf S.tables S.units) S.tables.metric S.ops b') ls bs := by
  induction ls with
  | nil => intro x hc; exact ⟨x, [], rfl, hc, .nil⟩
  | cons s ls ih =>
    intro x hc
    obtain ⟨g', b, hp, hb1, hb2⟩ := hd s (by simp) x.gram
    obtain ⟨h1, h2⟩ := renumber_step hf hc hb2.plain
    obtain ⟨y, bs, h3, h4, h5⟩ := ih (fun s hs => hd s (by simp [hs])) ⟨g', (Renumber.renumber S.tables textNumbers x.num b).1⟩ h2
    have hcall : Xform.call (gramOf S) S.tables (.renumber textNumbers) x s =
        (⟨g', (Renumber.renumber S.tables textNumbers x.num b).1⟩, .ret (Renumber.renumber S.tables textNumbers x.num b).2 true none) := by
      unfold Xform.call
      rw [simpleParse_accept hp]
      dsimp only
      rw [if_neg (by simp)]
      rfl
    refine ⟨y, (Renumber.renumber S.tables textNumbers x.num b).2 :: bs, ?_, h4, .cons ⟨_, g', b, hp, h1, declared_renumbered hf h1 hb2 hb1⟩ h5⟩
    unfold renumberLines
    rw [hcall]
    dsimp only [said]
    rw [h3]
    rfl

theorem renumberFiles_ok {S : Setup} {start : Nat} (hf : Fit S textNumbers start) (fs : List (List Str))
    (hd : ∀ s ∈ fs.flatten, ∀ g : PS, ∃ g' b, phrase (gramOf S) { g with msg := [] } s = (g', .accept b) ∧
      Declared (Pipe.tableOf S.tables S.units) S.tables.metric S.ops b ∧ Headed (numbering S.tables) b) :
    ∀ (x : Xform.Obj), Counts S textNumbers x.num.counter → ∃ y ps, renumberFiles S x none fs = (y, .done ps none) ∧
      List.Forall₂ (List.Forall₂ (fun s b' => ∃ (g : PS) (g' : PS) (b : Block), phrase (gramOf S) { g with msg := [] } s = (g', .accept b) ∧ Renumbered S textNumbers b b' ∧
        Declared (Pipe.tableOf S.tables S.units) S.tables.metric S.ops b')) fs ps := by
  induction fs with
  | nil => intro x hc; exact ⟨x, [], rfl, .nil⟩
  | cons f fs ih =>
    intro x hc
    obtain ⟨y, bs, h1, h2, h3⟩ := renumberLines_ok hf f (fun s hs => hd s (by simp [hs])) x hc
    obtain ⟨z, ps, h4, h5⟩ := ih (fun s hs => hd s (by rw [List.flatten_cons]; exact List.mem_append_right _ hs)) y h2
    refine ⟨z, bs :: ps, ?_, .cons h3 h5⟩
    unfold renumberFiles
    rw [h1]
    dsimp only
    rw [h4]
    rfl

/-- C106 for parts that begin at a text: when the lines and the retraction plane are read, and their words can be written,
the parts are the words of the lines, cut before the lines that contain the text; nothing is changed but the numbers, and
what is written of every block is read as the same words. -/
theorem C106_text (S : Setup) (hR : RegularTables (Pipe.tableOf S.tables S.units) S.tables.metric S.ops) (r : Request) (hk : r.kind = .text) (o : Obj)
    (hf : Fit S textNumbers o.num.counter) (data : List Str)
    (hd : ∀ s, s ∈ data ∨ (s = r.plane ∧ r.plane ≠ []) → ∀ g : PS, ∃ g' b, phrase (gramOf S) { g with msg := [] } s = (g', .accept b) ∧
      Declared (Pipe.tableOf S.tables S.units) S.tables.metric S.ops b ∧ Headed (numbering S.tables) b) :
    ∃ o' parts pieces files, splitFile S r o data = (o', .parts parts none) ∧ pieces.flatten = data ∧
      Dressed (if r.plane = [] then none else some r.plane) pieces files ∧
      (∀ x ∈ pieces.headD [], ¬ r.text <:+: x) ∧ (∀ q ∈ pieces.tail, ∃ x t, q = x :: t ∧ r.text <:+: x ∧ ∀ y ∈ t, ¬ r.text <:+: y) ∧
      List.Forall₂ (List.Forall₂ (fun s b' => ∃ (g : PS) (g' : PS) (b : Block), phrase (gramOf S) { g with msg := [] } s = (g', .accept b) ∧ Renumbered S textNumbers b b')) files parts ∧
      ∀ b ∈ parts.flatten, ∀ hist, verdict (gramOf S) hist (Wrap.blockText b) = .ret b true none := by
  obtain ⟨pieces, h1, h2, h3, h4⟩ := C22_lossless_by_text r.text (if r.plane = [] then none else some r.plane) data
  obtain ⟨y, ps, h5, h6⟩ := renumberFiles_ok hf (Splitter.byText r.text (if r.plane = [] then none else some r.plane) data) (by
    intro s hs
    obtain ⟨q, hq, hb⟩ := List.mem_flatten.mp hs
    refine hd s ?_
    obtain ⟨k, hk, rfl⟩ := List.getElem_of_mem hq
    have hk' : k < pieces.length := by rw [← h2.1]; exact hk
    have := h2.2 k pieces[k] (List.getElem?_eq_getElem hk')
    rw [List.getElem?_eq_getElem hk, Option.some.injEq] at this
    rw [this] at hb
    have pl : s ∈ (if r.plane = [] then none else some r.plane : Option Str).toList → s = r.plane ∧ r.plane ≠ [] := by
      intro h
      split at h
      · cases h
      · next hne => simp only [Option.toList_some, List.mem_singleton] at h; exact ⟨h, hne⟩
    simp only [List.mem_append] at hb
    rcases hb with (hb | hb) | hb
    · split at hb
      · cases hb
      · exact .inr (pl hb)
    · left; rw [← h1]; exact List.mem_flatten.mpr ⟨_, List.getElem_mem hk', hb⟩
    · split at hb
      · cases hb
      · exact .inr (pl hb)) ⟨o.p.gram, o.num⟩ (counts_start hf)
  refine ⟨⟨{ o.p with gram := y.gram }, y.num⟩, ps, pieces, _, ?_, h1, h2, h3, h4,
    h6.imp (fun _ _ h => h.imp (fun _ _ ⟨g, g', b, hp, hb, _⟩ => ⟨g, g', b, hp, hb⟩)), ?_⟩
  · unfold splitFile
    rw [if_pos hk]
    unfold splitText
    rw [h5]
  · intro b hb hist
    obtain ⟨q, hq, hb⟩ := List.mem_flatten.mp hb
    obtain ⟨f, _, hfq⟩ := forall₂_right h6 q hq
    obtain ⟨s, _, _, _, _, _, _, hdec⟩ := forall₂_right hfq b hb
    have := C86_line _ _ _ S.lang hR _ hdec hist [] (by simp)
    rwa [List.append_nil, ← blockText_eq] at this

/-! ## Violations -/

/-- The files that are written from the parts. -/
def splitTexts : Outcome → List (List Str)
  | .parts ps _ => ps.map (·.map Wrap.blockText)
  | _ => []

/-- C105 is false for blank lines: the work motion of the line before is counted again. Of four moves of 10, two make a
part of at least 15; with a blank line after the first of them, it alone does. -/
theorem C105_violated_blank :
    splitTexts (splitFile demo { kind := .path, path := 15 } ⟨fresh demo, {}⟩ [c!"G0 X0 Y0 Z10", c!"G1 X10 F100", c!"X20", c!"X30", c!"X40"]).2 =
      [[c!"N1 G0 X0 Y0 Z10", c!"N1 G1 X10 F100", c!"N1 X20"], [c!"N1 X30", c!"N1 X40"]] ∧
    splitTexts (splitFile demo { kind := .path, path := 15 } ⟨fresh demo, {}⟩ [c!"G0 X0 Y0 Z10", c!"G1 X10 F100", [], c!"X20", c!"X30", c!"X40"]).2 =
      [[c!"N1 G0 X0 Y0 Z10", c!"N1 G1 X10 F100", []], [c!"N1 X20", c!"N1 X30"], [c!"N1 X40"]] := by
  constructor <;> decide +kernel

/-- C105 is false for a parser that has read other files: the same file is split otherwise the second time, since the
simulation goes on from where the first ended. -/
theorem C105_violated_history :
    ∃ o parts parts', splitFile demo { kind := .path, path := 15 } ⟨fresh demo, {}⟩ [c!"G1 X10 F100", c!"X20", c!"X30", c!"X40"] = (o, .parts parts none) ∧
      (splitFile demo { kind := .path, path := 15 } o [c!"G1 X10 F100", c!"X20", c!"X30", c!"X40"]).2 = .parts parts' none ∧
      parts.map List.length = [2, 2] ∧ parts'.map List.length = [1, 2, 1] := by
  have h : (splitFile demo { kind := .path, path := 15 } ⟨fresh demo, {}⟩ [c!"G1 X10 F100", c!"X20", c!"X30", c!"X40"]).2 =
      .parts [[[.dec { word := c!"N", value := some c!"1" }, .dec { word := c!"G", value := some c!"1" }, .dec { word := c!"X", value := some c!"10" }, .dec { word := c!"F", value := some c!"100" }],
        [.dec { word := c!"N", value := some c!"1" }, .dec { word := c!"X", value := some c!"20" }]],
        [[.dec { word := c!"N", value := some c!"1" }, .dec { word := c!"X", value := some c!"30" }], [.dec { word := c!"N", value := some c!"1" }, .dec { word := c!"X", value := some c!"40" }]]] none := by
    decide +kernel
  have h' : (splitFile demo { kind := .path, path := 15 } (splitFile demo { kind := .path, path := 15 } ⟨fresh demo, {}⟩ [c!"G1 X10 F100", c!"X20", c!"X30", c!"X40"]).1
      [c!"G1 X10 F100", c!"X20", c!"X30", c!"X40"]).2 =
      .parts [[[.dec { word := c!"N", value := some c!"1" }, .dec { word := c!"G", value := some c!"1" }, .dec { word := c!"X", value := some c!"10" }, .dec { word := c!"F", value := some c!"100" }]],
        [[.dec { word := c!"N", value := some c!"1" }, .dec { word := c!"X", value := some c!"20" }], [.dec { word := c!"N", value := some c!"1" }, .dec { word := c!"X", value := some c!"30" }]],
        [[.dec { word := c!"N", value := some c!"1" }, .dec { word := c!"X", value := some c!"40" }]]] none := by
    decide +kernel
  exact ⟨_, _, _, Prod.ext rfl h, h', rfl, rfl⟩

/-- C105 is false for amounts that are not positive: the exception is not caught, although the call reports faults by its
result. -/
theorem C105_violated_parameter : ∀ k : Kind, k ≠ .text → k ≠ .tool →
    (splitFile demo { kind := k } ⟨fresh demo, {}⟩ [c!"G1 X10 F100"]).2 = .uncaught .badParameter := by
  intro k
  cases k <;> intro h1 h2
  · decide +kernel
  · exact absurd rfl h2
  · decide +kernel
  · decide +kernel
  · exact absurd rfl h1

/-- C106 is false for parts that begin at a text: of a line that is not read to its end, the rest is lost, and the call
succeeds all the same. -/
theorem C106_violated_text :
    splitTexts (splitFile demo { kind := .text, text := c!"M6" } ⟨fresh demo, {}⟩ [c!"G1 X10 F100", c!"X20 ? Y5", c!"T1 M6", c!"X30"]).2 =
      [[c!"N1 G1 X10 F100", c!"N2 X20"], [c!"N3 T1 M6", c!"N4 X30"]] := by
  decide +kernel

/-! ## The hypotheses can be met -/

/-- The words of the file in the examples. -/
def splitWords : List Block :=
  [[.dec { word := c!"N", value := some c!"5" }, .dec { word := c!"G", value := some c!"0" }, .dec { word := c!"X", value := some c!"0" }, .dec { word := c!"Z", value := some c!"10" }],
   [.dec { word := c!"G", value := some c!"1" }, .dec { word := c!"X", value := some c!"10" }, .dec { word := c!"F", value := some c!"100" }],
   [.dec { word := c!"X", value := some c!"20" }], [.dec { word := c!"X", value := some c!"30" }], [.dec { word := c!"X", value := some c!"40" }]]

/-- The file. -/
def splitLines : List Str := [c!"N5 G0 X0 Z10", c!"G1 X10 F100", c!"X20", c!"X30", c!"X40"]

theorem split_declared : ∀ b ∈ splitWords, Declared (Pipe.tableOf demo.tables demo.units) demo.tables.metric demo.ops b := by
  have key : ∀ (w v : Str), Spec.Proper.Numbered (Pipe.tableOf demo.tables demo.units) { word := w, value := some v } → w ≠ [] ∧ w.head? ≠ some ']' ∧
      w ∉ Spec.Words.operators ∧ w ∈ decNames demo.tables.metric demo.ops →
      Spec.Proper.Word (Pipe.tableOf demo.tables demo.units) (decNames demo.tables.metric demo.ops) (assignNames demo.tables.metric demo.ops)
        (.dec { word := w, value := some v }) :=
    fun w v h1 ⟨h2, h3, h4, h5⟩ => .address h5 rfl ⟨.inl rfl, rfl, rfl, h4, ⟨h2, h3⟩, h1⟩
  have num : ∀ (w v : Str), _ → Spec.Proper.Numbered (Pipe.tableOf demo.tables demo.units) { word := w, value := some v } := fun w v h => whole_of v h
  have ap : ∀ b : Block, (∀ a ∈ b, a.word ≠ c!"O" ∧ Source.word a ∉ [c!"A2", c!"B2", c!"C2", c!"S1", c!"S2", c!"S3"]) →
      b.Pairwise (Apart (assignNames demo.tables.metric demo.ops)) := by
    intro b h
    rw [assigns_mill]
    induction b with
    | nil => exact .nil
    | cons x b ih =>
      exact .cons (fun y _ => ⟨fun e => absurd e (h x (by simp)).1, fun e => absurd e (h x (by simp)).2⟩) (ih (fun a ha => h a (by simp [ha])))
  have fin : ∀ b ∈ splitWords, b.Pairwise (Apart (assignNames demo.tables.metric demo.ops)) := by
    intro b hb
    refine ap b ?_
    revert b
    decide
  intro b hb
  refine ⟨?_, (fin b hb).isChain⟩
  clear fin ap
  simp only [splitWords, List.mem_cons, List.not_mem_nil, or_false] at hb
  rcases hb with rfl | rfl | rfl | rfl | rfl
  · exact .more (key _ _ (num _ _ (by decide +kernel)) (by decide +kernel)) (.more (key _ _ (num _ _ (by decide +kernel)) (by decide +kernel))
      (.more (key _ _ (num _ _ (by decide +kernel)) (by decide +kernel)) (.one (key _ _ (num _ _ (by decide +kernel)) (by decide +kernel)))))
  · exact .more (key _ _ (num _ _ (by decide +kernel)) (by decide +kernel)) (.more (key _ _ (num _ _ (by decide +kernel)) (by decide +kernel))
      (.one (key _ _ (num _ _ (by decide +kernel)) (by decide +kernel))))
  · exact .one (key _ _ (num _ _ (by decide +kernel)) (by decide +kernel))
  · exact .one (key _ _ (num _ _ (by decide +kernel)) (by decide +kernel))
  · exact .one (key _ _ (num _ _ (by decide +kernel)) (by decide +kernel))

theorem split_headed : ∀ b ∈ splitWords, Headed (numbering demo.tables) b := by
  have e : numbering demo.tables = [c!":", c!"N"] := by decide +kernel
  rw [e]
  have key : ∀ b : Block, (decs b.tail).all (fun d => decide (d.word ∉ [c!":", c!"N"])) = true → unnumbered [c!":", c!"N"] b ≠ [] →
      (∀ d ∈ decs b, ∃ v, d = { word := d.word, value := some v }) → Headed [c!":", c!"N"] b := by
    intro b h1 h2 h3
    refine ⟨fun d hd => ?_, fun d t e _ => ?_, h2⟩
    · exact of_decide_eq_true (List.all_eq_true.mp h1 d ((mem_decs _ d).mpr hd))
    · exact h3 d (by rw [e]; simp [decs])
  intro b hb
  refine key b ?_ ?_ ?_
  · revert b; decide
  · revert b; decide
  · intro d hd
    refine ⟨d.value.getD [], ?_⟩
    revert d
    revert b
    decide

theorem split_readAs (g : PS) : ReadAs demo g (counted 0 splitLines) splitWords :=
  readAs_texts demo mill_regular.1 splitWords split_declared _ (by decide +kernel) g

theorem split_phrase : ∀ s ∈ splitLines, ∃ b ∈ splitWords, ∀ g : PS, ∃ g', phrase (gramOf demo) { g with msg := [] } s = (g', .accept b) := by
  intro s hs
  rw [show splitLines = splitWords.map Source.line by decide +kernel] at hs
  obtain ⟨b, hb, rfl⟩ := List.mem_map.mp hs
  refine ⟨b, hb, fun g => ?_⟩
  have := readAs_texts demo mill_regular.1 [b] (fun b' h => by rw [List.mem_singleton.mp h]; exact split_declared b hb) [(0, Source.line b)] rfl g
  cases this with
  | cons hp _ => exact ⟨_, hp⟩

theorem demo_numbers : Numbers demo 1 where
  address := by decide +kernel
  apart := by
    intro v _
    rw [assigns_mill]
    simp
  range := by
    intro wg h
    have e : (Pipe.tableOf demo.tables demo.units).find c!"N" = some ⟨c!"N", 1, 99999, 0, 0, false, .numbering⟩ := by decide +kernel
    rw [e] at h
    cases h
    decide +kernel
  small := by decide +kernel

theorem demo_textFit : Fit demo textNumbers 1 where
  sane := ⟨by decide, by decide, by decide +kernel, by decide, by decide⟩
  address := by decide +kernel
  name := by decide
  apart := by
    intro v _
    rw [assigns_mill]
    simp [textNumbers]
  range := by
    intro wg h
    have e : (Pipe.tableOf demo.tables demo.units).find c!"N" = some ⟨c!"N", 1, 99999, 0, 0, false, .numbering⟩ := by decide +kernel
    rw [show textNumbers.word = c!"N" from rfl, e] at h
    cases h
    decide +kernel
  small := by decide

/-- The hypotheses of the theorems about files in parts are met by a file of five lines: split by path it gives two parts,
by blocks three, and at a text two. -/
example : Usual demo serverOptions ∧ Numbers demo 1 ∧ Fit demo textNumbers 1 ∧ (∀ s ∈ splitLines, ¬ Blank s) ∧ (∀ s ∈ splitLines, '#' ∉ s) ∧
    ReadAs demo {} (counted 0 splitLines) splitWords ∧
    (∀ b ∈ splitWords, Declared (Pipe.tableOf demo.tables demo.units) demo.tables.metric demo.ops b ∧ Headed (numbering demo.tables) b ∧ Ordinary demo.lathe demo.limits b) ∧
    AllPassing demo options demo.units (AttrPath.initial demo.cfg) [] splitWords ∧
    (∀ i < splitWords.length, (workMotion .path (simulatedAll demo options demo.units (AttrPath.initial demo.cfg) (splitWords.take (i + 1)))).isSome = true) ∧
    (∀ s ∈ splitLines, ∀ b, LineRead demo s b → ∀ n ∈ motions b, isCycle n = false ∧ n ≠ 80) ∧
    (∀ s, (s ∈ splitLines ∧ ¬ Blank s) ∨ (s = c!"X40" ∧ c!"X40" ≠ []) → ∀ (g g' : PS) b, phrase (gramOf demo) { g with msg := [] } s = (g', .accept b) →
      Declared (Pipe.tableOf demo.tables demo.units) demo.tables.metric demo.ops b ∧ Headed (numbering demo.tables) b) ∧
    (∀ s, s ∈ splitLines ∨ (s = c!"X40" ∧ c!"X40" ≠ []) → ∀ g : PS, ∃ g' b, phrase (gramOf demo) { g with msg := [] } s = (g', .accept b) ∧
      Declared (Pipe.tableOf demo.tables demo.units) demo.tables.metric demo.ops b ∧ Headed (numbering demo.tables) b) ∧
    splitTexts (splitFile demo { kind := .path, path := 15 } ⟨fresh demo, {}⟩ splitLines).2 =
      [[c!"N1 G0 X0 Z10", c!"N1 G1 X10 F100", c!"N1 X20"], [c!"N1 X30", c!"N1 X40"]] ∧
    splitTexts (splitFile demo { kind := .blocks, step := 2, plane := c!"X40" } ⟨fresh demo, {}⟩ splitLines).2 =
      [[c!"N1 G0 X0 Z10", c!"N1 G1 X10 F100", c!"N1 X40"], [c!"N1 X40", c!"N1 X20", c!"N1 X30", c!"N1 X40"], [c!"N1 X40", c!"N1 X40"]] ∧
    splitTexts (splitFile demo { kind := .text, text := c!"X3", plane := c!"X40" } ⟨fresh demo, {}⟩ splitLines).2 =
      [[c!"N1 G0 X0 Z10", c!"N2 G1 X10 F100", c!"N3 X20", c!"N4 X40"], [c!"N5 X40", c!"N6 X30", c!"N7 X40"]] := by
  have hb : ∀ s ∈ splitLines, ¬ Blank s := by
    intro s hs h
    have : SplitFile.blank s = true := blank_iff.mpr h
    clear h
    revert this
    revert s
    decide
  have ho : ∀ b ∈ splitWords, Ordinary demo.lathe demo.limits b := by
    intro b hb; refine ordinary_of ?_; revert b; decide
  have hpl : ∀ s, s ∈ splitLines ∨ (s = c!"X40" ∧ c!"X40" ≠ []) → s ∈ splitLines := by
    rintro s (h | ⟨rfl, _⟩)
    · exact h
    · decide
  refine ⟨demo_usual, demo_numbers, demo_textFit, hb, by decide, split_readAs {}, fun b hb => ⟨split_declared b hb, split_headed b hb, ho b hb⟩,
    ?_, by decide +kernel, ?_, ?_, ?_, by decide +kernel, by decide +kernel, by decide +kernel⟩
  · exact (C85_program_partial demo .English rfl options rfl demo_usual.gs demo_usual.ms _ _ (split_readAs {}) (by decide) ho).1.mp (by decide +kernel)
  · intro s hs b hr
    have key : ∀ b ∈ splitWords, ∀ n ∈ motions b, isCycle n = false ∧ n ≠ 80 := by decide
    rcases hr with ⟨h, _⟩ | ⟨_, g, g', hp⟩
    · exact absurd h (hb s hs)
    · obtain ⟨b', hb', h⟩ := split_phrase s hs
      obtain ⟨g'', hp'⟩ := h g
      rw [hp] at hp'
      cases hp'
      exact key b hb'
  · intro s hs g g' b hp
    obtain ⟨b', hb', h⟩ := split_phrase s (hpl s (hs.imp And.left id))
    obtain ⟨g'', hp'⟩ := h g
    rw [hp] at hp'
    cases hp'
    exact ⟨split_declared b hb', split_headed b hb'⟩
  · intro s hs g
    obtain ⟨b, hb', h⟩ := split_phrase s (hpl s hs)
    obtain ⟨g', hp⟩ := h g
    exact ⟨g', b, hp, split_declared b hb', split_headed b hb'⟩

end NC.Props
