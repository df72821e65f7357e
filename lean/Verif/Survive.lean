import Verif.PipelineProofs
import Verif.Told
import Verif.AttrPathProofs
import Verif.NumProofs
import Verif.Spec.Survive

/-! # Which exceptions a line can raise -/

namespace NC.Pipe
open NC NC.Message NC.Gram NC.Ver NC.AttrPath NC.Path NC.Spec.Survive

/-- No `std::invalid_argument`. -/
def Calm {α : Type} (x : Out Exc α) : Prop := x ≠ .throw (.num .invalidArgument)

/-- No exception at all. -/
def Returns {α ε : Type} (x : Out ε α) : Prop := ∀ e, x ≠ .throw e

theorem calm_ok {α : Type} (a : α) : Calm (.ok a) := nofun
theorem calm_ub {α : Type} : Calm (.ub : Out Exc α) := nofun
theorem calm_err {α : Type} (n : Name) (l : List Str) : Calm (.throw (err n l) : Out Exc α) := by
  intro h
  injection h with h
  cases h
theorem calm_msg {α : Type} (k : Kind) (n : Name) (l : List Str) : Calm (.throw (.msg k n l) : Out Exc α) := nofun
theorem calm_range {α : Type} : Calm (.throw (.num .outOfRange) : Out Exc α) := nofun

theorem calm_cast {α β : Type} {e : Exc} (h : Calm (.throw e : Out Exc α)) : Calm (.throw e : Out Exc β) := by
  intro h'
  injection h' with h'
  subst h'
  exact h rfl

theorem tell_returns (l : Lang) {e : Exc} (h : Calm (.throw e : Out Exc Unit)) : Returns (tell l e) := by
  intro f hf
  cases e with
  | num e =>
    cases e with
    | outOfRange => simp [tell] at hf
    | invalidArgument => exact h rfl
  | msg k n a => simp [tell] at hf

theorem andThen_returns {l : Lang} {x : Out Exc Unit} {p : Parser} {k : Parser × Out NumExc Answer} (hx : Calm x)
    (hk : Returns k.2) : Returns (andThen l x p k).2 := by
  unfold andThen
  cases x with
  | ok u => exact hk
  | throw e => exact tell_returns l hx
  | ub => exact nofun

/-! ## Numbers -/

theorem stoi_digits {v : Str} (hn : v ≠ []) (hd : ∀ c ∈ v, isDig c = true) : stoi v ≠ .throw .invalidArgument := by
  obtain ⟨c, t, rfl⟩ : ∃ c t, v = c :: t := by cases v with
    | nil => exact absurd rfl hn
    | cons c t => exact ⟨c, t, rfl⟩
  have hc := hd c (by simp)
  have h1 : (c :: t).dropWhile isSp = c :: t := by rw [List.dropWhile_cons, if_neg (by rw [isDig_not_sp hc]; decide)]
  have hs : scanInt (c :: t) = (false, (c :: t).takeWhile isDig) := by
    unfold scanInt
    rw [h1]
    split
    · rename_i r heq; injection heq with h; subst h; exact absurd hc (by decide)
    · rename_i r heq; injection heq with h; subst h; exact absurd hc (by decide)
    · rfl
  unfold stoi
  rw [hs]
  dsimp only
  rw [if_neg (by rw [List.takeWhile_cons, if_pos hc]; simp)]
  split_ifs <;> simp

theorem stoiE_digits {v : Str} (hn : v ≠ []) (hd : ∀ c ∈ v, isDig c = true) : Calm (stoiE v) := by
  unfold stoiE
  have := stoi_digits hn hd
  cases h : stoi v with
  | ok n => exact calm_ok _
  | throw e => rw [h] at this; cases e with
    | outOfRange => exact calm_range
    | invalidArgument => exact absurd rfl this
  | ub => exact calm_ub

/-- A text beginning with a sign, then digits, possibly with a dot. -/
theorem stod_digits {g : Option Char} {a b : Str} {p : Option Char} (hg : ∀ c, g = some c → c = '-' ∨ c = '+') (ha : ∀ c ∈ a, isDig c = true)
    (hp : ∀ c, p = some c → c = '.') (hb : ∀ c ∈ b, isDig c = true) (hpb : b ≠ [] → p = some '.') (hn : a ≠ [] ∨ b ≠ []) :
    ∃ q, stod (chrText g ++ a ++ chrText p ++ b) = .ok q := by
  have h0 : ∀ c r, a ++ chrText p ++ b = c :: r → isDig c = true ∨ c = '.' := by
    intro c r h
    cases a with
    | cons x t =>
      simp only [List.cons_append, List.cons.injEq] at h
      left; rw [← h.1]; exact ha x (by simp)
    | nil =>
      have hb' : b ≠ [] := by rcases hn with h | h; exact absurd rfl h; exact h
      rw [hpb hb'] at h
      simp only [chrText, List.nil_append, List.cons_append, List.cons.injEq] at h
      right; exact h.1.symm
  have h1 : (chrText g ++ a ++ chrText p ++ b).dropWhile isSp = chrText g ++ a ++ chrText p ++ b := by
    have : ∀ c r, chrText g ++ a ++ chrText p ++ b = c :: r → isSp c = false := by
      intro c r h
      cases g with
      | none =>
        have h : a ++ chrText p ++ b = c :: r := h
        rcases h0 c r h with h | h
        · exact isDig_not_sp h
        · subst h; decide
      | some x =>
        have h : x :: (a ++ chrText p ++ b) = c :: r := by simpa [chrText] using h
        injection h with h h'
        subst h
        rcases hg _ rfl with h | h <;> subst h <;> decide
    cases h : chrText g ++ a ++ chrText p ++ b with
    | nil => rfl
    | cons c r => rw [List.dropWhile_cons, if_neg (by rw [this c r h]; decide)]
  have h2 : (splitSign (chrText g ++ a ++ chrText p ++ b)).2 = a ++ chrText p ++ b := by
    cases g with
    | none =>
      show (splitSign (a ++ chrText p ++ b)).2 = _
      rw [splitSign_other]
      intro c r h
      rcases h0 c r h with h | h
      · constructor <;> (intro hc; subst hc; exact absurd h (by decide))
      · subst h; decide
    | some x => rcases hg x rfl with h | h <;> subst h <;> simp [chrText, splitSign]
  unfold stod
  dsimp only
  rw [h1, h2]
  have h3 : (a ++ chrText p ++ b).takeWhile isDig = [] → fracDigits ((a ++ chrText p ++ b).dropWhile isDig) ≠ [] := by
    intro h
    cases a with
    | cons x t =>
      rw [List.cons_append, List.cons_append, List.takeWhile_cons, if_pos (ha x (by simp))] at h
      cases h
    | nil =>
      have hb' : b ≠ [] := by rcases hn with h | h; exact absurd rfl h; exact h
      rw [hpb hb']
      obtain ⟨y, u, rfl⟩ : ∃ y u, b = y :: u := by cases b with
        | nil => exact absurd rfl hb'
        | cons y u => exact ⟨y, u, rfl⟩
      have e : ([] ++ chrText (some '.') ++ y :: u : Str).dropWhile isDig = '.' :: y :: u := by rfl
      rw [e]
      show List.takeWhile isDig (y :: u) ≠ []
      rw [List.takeWhile_cons, if_pos (hb y (by simp))]
      simp
  rw [if_neg (fun h => h3 h.1 h.2)]
  exact ⟨_, rfl⟩

/-! ## Words -/

/-- A word that cannot be converted. -/
abbrev Fatal (c : Cfg ℚ) (d : Dec) : Prop := Unreadable c.axes d

theorem kept_iff (w : Str) : (Macro.sysVars.find? (fun p => p.1 == w)) = none ↔ w ∉ kept := by
  rw [List.find?_eq_none]
  have : kept = Macro.sysVars.map (·.1) := by decide
  rw [this]
  simp only [List.mem_map, not_exists, not_and, beq_iff_eq]

/-- Digits of a word. -/
theorem shape_digits {d : Dec} (h : Shape d) : (∀ c ∈ strText d.value, isDig c = true) ∧ (∀ c ∈ strText d.value2, isDig c = true) ∧
    (strText d.value2 ≠ [] → d.dot = some '.') := by
  refine ⟨?_, ?_, ?_⟩
  · cases hv : d.value with
    | none => simp [strText]
    | some v => exact (h.value v hv).2
  · cases hv : d.value2 with
    | none => simp [strText]
    | some v => exact (h.value2 v hv).2.1
  · cases hv : d.value2 with
    | none => simp [strText]
    | some v => exact fun _ => (h.value2 v hv).2.2

theorem not_bare {d : Dec} (h : Shape d) (hb : ¬ Bare d) : strText d.value ≠ [] ∨ strText d.value2 ≠ [] := by
  unfold Bare at hb
  cases hv : d.value with
  | some v => left; exact (h.value v hv).1
  | none =>
    cases hv2 : d.value2 with
    | some v => right; exact (h.value2 v hv2).1
    | none => exact absurd ⟨hv, hv2⟩ hb

theorem optC_eq (c : Option Char) : Macro.optC c = chrText c := by cases c <;> rfl
theorem optS_eq (c : Option Str) : Macro.optS c = strText c := by cases c <;> rfl

theorem plainText_eq {d : Dec} (h : Shape d) : Macro.plainText d = valText d := by
  unfold Macro.plainText valText
  rw [optC_eq, optS_eq, optS_eq]
  cases hd : d.dot with
  | some c => simp [chrText]
  | none =>
    cases hv : d.value2 with
    | none => simp [chrText, strText]
    | some v => have := (h.value2 v hv).2.2; rw [hd] at this; cases this

theorem valText_ok {d : Dec} (h : Shape d) (hb : ¬ Bare d) : ∃ q, stod (valText d) = .ok q := by
  obtain ⟨h1, h2, h3⟩ := shape_digits h
  exact stod_digits h.sign h1 h.dot h2 h3 (not_bare h hb)

theorem feedText_ok {d : Dec} (h : Shape d) (hb : ¬ Bare d) : ∃ q, stod (feedText d) = .ok q := by
  obtain ⟨h1, h2, h3⟩ := shape_digits h
  have e : feedText d = chrText none ++ strText d.value ++ chrText d.dot ++ strText d.value2 := by
    unfold feedText
    cases hd : d.dot with
    | some c => simp [chrText]
    | none =>
      cases hv : d.value2 with
      | none => simp [chrText, strText]
      | some v => have := (h.value2 v hv).2.2; rw [hd] at this; cases this
  rw [e]
  exact stod_digits nofun h1 h.dot h2 h3 (not_bare h hb)

/-- A block whose words can all be converted. -/
structure Sane (c : Cfg ℚ) (b : Block) : Prop where
  shape : ∀ d, Attr.dec d ∈ b → Shape d
  words : ∀ d, Attr.dec d ∈ b → ¬ Fatal c d

theorem Sane.tail {c : Cfg ℚ} {a : Attr} {b : Block} (h : Sane c (a :: b)) : Sane c b :=
  ⟨fun d hd => h.shape d (by simp [hd]), fun d hd => h.words d (by simp [hd])⟩

/-! ## The stages -/

theorem sysRun_ok {c : Cfg ℚ} (line : Int) : ∀ (b : Block) (m : MacroMap ℚ), Sane c b → ∃ m', Macro.sysRun line m b = .ok m' := by
  intro b
  induction b with
  | nil => intro m _; exact ⟨m, rfl⟩
  | cons a b ih =>
    intro m h
    have step : ∃ m', Macro.sysStep line m a = .ok m' := by
      cases a with
      | dec d =>
        show ∃ m', (match Macro.sysVars.find? (fun p => p.1 == d.word) with
          | some (_, ids) => stod (Macro.plainText d) >>= fun v => Out.ok (ids.foldl (fun (m : MacroMap ℚ) i => m.assign ⟨i, line⟩ v) m)
          | none => .ok m) = .ok m'
        cases hf : Macro.sysVars.find? (fun p => p.1 == d.word) with
        | none => exact ⟨m, rfl⟩
        | some e =>
          have hk : d.word ∈ kept := by
            by_contra hk
            rw [(kept_iff _).mpr hk] at hf
            cases hf
          have hs := h.shape d (by simp)
          obtain ⟨q, hq⟩ := valText_ok hs (fun hb => h.words d (by simp) ⟨hb, .inl hk⟩)
          rw [plainText_eq hs, hq]
          exact ⟨_, rfl⟩
      | str _ _ => exact ⟨m, rfl⟩
      | chr _ _ => exact ⟨m, rfl⟩
    obtain ⟨m', hm⟩ := step
    obtain ⟨m'', hm'⟩ := ih m' h.tail
    refine ⟨m'', ?_⟩
    show (Macro.sysStep line m a >>= fun m' => Macro.sysRun line m' b) = _
    rw [hm]
    exact hm'

theorem uniqueRun_calm (g : WordMap) : ∀ (b : Block) (seen : List Str), Calm (uniqueRun g seen b) := by
  intro b
  induction b with
  | nil => intro seen; exact calm_ok _
  | cons a b ih =>
    intro seen
    cases a with
    | dec d =>
      unfold uniqueRun
      split
      · exact ih _
      · split
        · exact ih _
        · split
          · exact calm_msg _ _ _
          · exact ih _
    | str _ _ => exact ih _
    | chr _ _ => exact ih _

theorem take_digits {v : Str} {n : Nat} (hd : ∀ c ∈ v, isDig c = true) : ∀ c ∈ v.take n, isDig c = true :=
  fun c hc => hd c (List.mem_of_mem_take hc)

theorem bind_calm {α β : Type} {x : Out Exc α} {f : α → Out Exc β} (hx : Calm x) (hf : ∀ a, Calm (f a)) : Calm (x >>= f) := by
  cases x with
  | ok a => exact hf a
  | throw e => exact calm_cast hx
  | ub => exact calm_ub

theorem limitWord_calm {lathe : Bool} {k : Limits} {d : Dec} (h : Shape d) : Calm (limitWord lathe k d) := by
  unfold limitWord
  cases hv : d.value with
  | none => exact calm_ok _
  | some v =>
    obtain ⟨h1, h2⟩ := h.value v hv
    dsimp only
    split
    · exact bind_calm (stoiE_digits h1 h2) (fun n => by split; exact calm_msg _ _ _; exact calm_ok _)
    · split
      · have ht : toolDigits lathe v ≠ [] ∧ ∀ c ∈ toolDigits lathe v, isDig c = true := by
          unfold toolDigits
          split
          · rename_i hl
            refine ⟨?_, take_digits h2⟩
            intro he
            have := congrArg List.length he
            rw [List.length_take] at this
            simp only [List.length_nil] at this
            omega
          · exact ⟨h1, h2⟩
        exact bind_calm (stoiE_digits ht.1 ht.2) (fun n => by split; exact calm_msg _ _ _; exact calm_ok _)
      · split
        · exact bind_calm (stoiE_digits h1 h2) (fun n => by split; exact calm_msg _ _ _; exact calm_ok _)
        · exact calm_ok _

theorem limitRun_calm {c : Cfg ℚ} (lathe : Bool) (k : Limits) : ∀ b : Block, Sane c b → Calm (limitRun lathe k b) := by
  intro b
  induction b with
  | nil => intro _; exact calm_ok _
  | cons a b ih =>
    intro h
    cases a with
    | dec d =>
      unfold limitRun
      have := limitWord_calm (lathe := lathe) (k := k) (h.shape d (by simp))
      cases hl : limitWord lathe k d with
      | ok u => exact ih h.tail
      | throw e => rw [hl] at this; exact this
      | ub => exact calm_ub
    | str _ _ => exact ih h.tail
    | chr _ _ => exact ih h.tail

theorem rotWord_calm (op : Bool) (st : Rot) {d : Dec} (h : Shape d) : Calm (ofOption (rotWord op st d).2) := by
  have hs : d.value.isSome → stoi (d.value.getD []) ≠ .throw .invalidArgument := by
    intro hv
    obtain ⟨v, hv⟩ := Option.isSome_iff_exists.mp hv
    rw [hv]
    exact stoi_digits (h.value v hv).1 (h.value v hv).2
  unfold rotWord
  split
  · dsimp only; split <;> simp [ofOption, Calm]
  · split
    · rename_i hm
      have := hs hm.2
      split
      · split
        · dsimp only; split <;> simp [ofOption, Calm]
        · simp [ofOption, Calm]
      · rename_i e he
        rw [he] at this
        cases e with
        | outOfRange => simp [ofOption, Calm]
        | invalidArgument => exact absurd rfl this
      · simp [ofOption, Calm]
    · split
      · rename_i hm
        have := hs hm.2.2
        split
        · split <;> simp [ofOption, Calm]
        · rename_i e he
          rw [he] at this
          cases e with
          | outOfRange => simp [ofOption, Calm]
          | invalidArgument => exact absurd rfl this
        · simp [ofOption, Calm]
      · simp [ofOption, Calm]

theorem rotRun_calm {c : Cfg ℚ} (op : Bool) : ∀ (b : Block) (st : Rot), Sane c b → Calm (ofOption (rotRun op st b).2) := by
  intro b
  induction b with
  | nil => intro st _; exact calm_ok _
  | cons a b ih =>
    intro st h
    cases a with
    | dec d =>
      unfold rotRun
      have := rotWord_calm op st (h.shape d (by simp))
      rcases hr : rotWord op st d with ⟨st', _ | e⟩
      · exact ih _ h.tail
      · rw [hr] at this; exact this
    | str _ _ => exact ih _ h.tail
    | chr _ _ => exact ih _ h.tail

theorem rotation_calm {c : Cfg ℚ} (op : Bool) (b : Block) (st : Rot) (h : Sane c b) : Calm (ofOption (rotation op st b).2) := by
  unfold rotation
  have := rotRun_calm op b st h
  rcases hr : rotRun op st b with ⟨st', _ | e⟩
  · dsimp only
    unfold rotCheck
    split_ifs <;> simp [ofOption, Calm]
  · rw [hr] at this; exact this

theorem toString_parts (q : ℚ) : ∃ (neg : Bool) (a b : Str), toStringTrunc q = minus neg ++ a ++ b ∧ a ≠ [] ∧
    AllDig a ∧ (b = [] ∨ ∃ f, b = '.' :: f ∧ f ≠ [] ∧ AllDig f) := by
  unfold toStringTrunc
  rw [fixedStr_eq, if_neg (by decide)]
  have hi : AllDig (natStr (scaled 6 q / 10 ^ 6)) := natStr_isDig _
  have hdot : '.' ∉ minus (decide (q < 0)) ++ natStr (scaled 6 q / 10 ^ 6) := by
    intro h
    rcases List.mem_append.mp h with h | h
    · unfold minus at h; split at h <;> simp at h
    · have := hi _ h; revert this; decide
  rw [← List.append_assoc, truncZeros_frac hdot]
  by_cases h0 : rstrip0 (padZeros 6 (scaled 6 q % 10 ^ 6)) = []
  · rw [if_pos h0]
    exact ⟨decide (q < 0), natStr (scaled 6 q / 10 ^ 6), [], by simp, natStr_ne_nil _, hi, .inl rfl⟩
  · rw [if_neg h0]
    exact ⟨_, _, _, rfl, natStr_ne_nil _, hi, .inr ⟨_, rfl, h0, allDig_rstrip (padZeros_allDig _ _)⟩⟩

theorem stoi_minus {v : Str} (hn : v ≠ []) (hd : AllDig v) (neg : Bool) : stoi (minus neg ++ v) ≠ .throw .invalidArgument := by
  cases neg with
  | false => exact stoi_digits hn hd
  | true =>
    obtain ⟨c, t, rfl⟩ : ∃ c t, v = c :: t := by cases v with
      | nil => exact absurd rfl hn
      | cons c t => exact ⟨c, t, rfl⟩
    have hc := hd c (by simp)
    unfold stoi
    have hs : scanInt (minus true ++ c :: t) = (true, (c :: t).takeWhile isDig) := by rfl
    rw [hs]
    dsimp only
    rw [if_neg (by rw [List.takeWhile_cons, if_pos hc]; simp)]
    split_ifs <;> simp

theorem stoiE_minus {v : Str} (hn : v ≠ []) (hd : AllDig v) (neg : Bool) : Calm (stoiE (minus neg ++ v)) := by
  unfold stoiE
  have := stoi_minus hn hd neg
  cases h : stoi (minus neg ++ v) with
  | ok n => exact calm_ok _
  | throw e => rw [h] at this; cases e with
    | outOfRange => exact calm_range
    | invalidArgument => exact absurd rfl this
  | ub => exact calm_ub

theorem minus_dot (neg : Bool) {a : Str} (ha : AllDig a) : ∀ c ∈ minus neg ++ a, c ≠ '.' := by
  intro c hc h
  subst h
  rcases List.mem_append.mp hc with h | h
  · unfold minus at h; split at h <;> simp at h
  · have := ha _ h; revert this; decide

theorem takeWhile_before {a f : Str} (h : ∀ c ∈ a, c ≠ '.') : (a ++ '.' :: f).takeWhile (· ≠ '.') = a ∧
    (a ++ '.' :: f).dropWhile (· ≠ '.') = '.' :: f := by
  induction a with
  | nil => exact ⟨rfl, rfl⟩
  | cons c a ih =>
    obtain ⟨h1, h2⟩ := ih (fun c hc => h c (by simp [hc]))
    have hc : (decide (c ≠ '.')) = true := by simpa using h c (by simp)
    rw [List.cons_append, List.takeWhile_cons, List.dropWhile_cons, if_pos hc, if_pos hc, h1, h2]
    exact ⟨rfl, rfl⟩

theorem dropWhile_without {a : Str} (h : ∀ c ∈ a, c ≠ '.') : a.dropWhile (· ≠ '.') = [] := by
  induction a with
  | nil => rfl
  | cons c a ih =>
    have hc : (decide (c ≠ '.')) = true := by simpa using h c (by simp)
    rw [List.dropWhile_cons, if_pos hc]
    exact ih (fun c hc => h c (by simp [hc]))

theorem codeOfText_calm (q : ℚ) : Calm (codeOfText (toStringTrunc q)) := by
  obtain ⟨neg, a, b, he, hn, ha, hb⟩ := toString_parts q
  rw [he]
  have hm := minus_dot neg ha
  unfold codeOfText
  rcases hb with rfl | ⟨f, rfl, hf, hd⟩
  · rw [List.append_nil]
    dsimp only
    rw [dropWhile_without hm]
    exact bind_calm (stoiE_minus hn ha neg) (fun n => calm_ok _)
  · obtain ⟨h1, h2⟩ := takeWhile_before (f := f) hm
    dsimp only
    rw [h1, h2]
    exact bind_calm (stoiE_minus hn ha neg) (fun n => bind_calm (stoiE_digits hf hd) (fun r => calm_ok _))

theorem codeOf_calm (m : MacroMap ℚ) (line : Int) {d : Dec} {v : Str} (h : Shape d) (hv : d.value = some v) :
    Calm (codeOf m line d v) := by
  obtain ⟨h1, h2⟩ := h.value v hv
  unfold codeOf
  refine bind_calm (stoiE_digits h1 h2) (fun n => ?_)
  split
  · split
    · exact calm_msg _ _ _
    · exact codeOfText_calm _
  · split
    · exact calm_ok _
    · rename_i v2 hv2
      obtain ⟨h3, h4, _⟩ := h.value2 v2 hv2
      exact bind_calm (stoiE_digits h3 h4) (fun r => calm_ok _)

theorem groupsLoop_calm (letter : Str) (c : Code) : ∀ (gs : List Str) (occ : Occ), Calm (groupsLoop letter c occ gs) := by
  intro gs
  induction gs with
  | nil => intro occ; exact calm_ok _
  | cons g gs ih =>
    intro occ
    unfold groupsLoop
    split
    · exact calm_msg _ _ _
    · exact ih _

theorem addCode_calm (letter : Str) (gm : Groups) (missing : Bool) (occ : Occ) (c : Code) : Calm (addCode letter gm missing occ c) := by
  unfold addCode
  split
  · split
    · exact calm_msg _ _ _
    · exact calm_ok _
  · exact groupsLoop_calm _ _ _ _

theorem groupsRun_calm {c : Cfg ℚ} (letter : Str) (gm : Groups) (m : MacroMap ℚ) (line : Int) (missing : Bool) :
    ∀ (b : Block) (occ : Occ), Sane c b → Calm (groupsRun letter gm m line missing occ b) := by
  intro b
  induction b with
  | nil => intro occ _; exact calm_ok _
  | cons a b ih =>
    intro occ h
    cases a with
    | dec d =>
      unfold groupsRun
      split
      · exact ih _ h.tail
      · split
        · exact ih _ h.tail
        · rename_i v hv
          have hc := codeOf_calm m line (h.shape d (by simp)) hv
          cases hx : codeOf m line d v with
          | ok k =>
            dsimp only
            have ha := addCode_calm letter gm missing occ k
            cases hy : addCode letter gm missing occ k with
            | ok o => exact ih _ h.tail
            | throw e => rw [hy] at ha; exact calm_cast ha
            | ub => exact calm_ub
          | throw e => rw [hx] at hc; exact calm_cast hc
          | ub => exact calm_ub
    | str _ _ => exact ih _ h.tail
    | chr _ _ => exact ih _ h.tail

theorem codeGroups_calm {c : Cfg ℚ} (m : MacroMap ℚ) (gg mg : Groups) (line : Int) (b : Block) (missing : Bool) (h : Sane c b) :
    Calm (codeGroups m gg mg line b missing) := by
  unfold codeGroups
  have h1 := groupsRun_calm c!"G" gg m line missing b [] h
  cases hx : groupsRun c!"G" gg m line missing [] b with
  | ok u => exact groupsRun_calm _ _ _ _ _ _ _ h
  | throw e => rw [hx] at h1; exact h1
  | ub => exact calm_ub

theorem sameWordRun_calm (w : Str) : ∀ (b : Block) (was : Bool), Calm (sameWordRun w was b) := by
  intro b
  induction b with
  | nil => intro _; exact calm_ok _
  | cons a b ih =>
    intro was
    cases a with
    | dec d =>
      unfold sameWordRun
      split
      · split
        · exact calm_msg _ _ _
        · exact ih _
      · exact ih _
    | str _ _ => exact ih _
    | chr _ _ => exact ih _

theorem travelRun_calm (k : Limits) (z : Zero) : ∀ r : WordRange, Calm (travelRun k z r) := by
  intro r
  induction r with
  | nil => exact calm_ok _
  | cons e r ih =>
    unfold travelRun
    split
    · exact ih
    · split
      · exact calm_msg _ _ _
      · exact ih

theorem selectRun_calm {c : Cfg ℚ} : ∀ (b : Block) (u : Units), Sane c b → Calm (selectRun u b).2 := by
  intro b
  induction b with
  | nil => intro u _; exact calm_ok _
  | cons a b ih =>
    intro u h
    cases a with
    | dec d =>
      unfold selectRun
      split
      · exact ih _ h.tail
      · split
        · exact ih _ h.tail
        · rename_i v hv
          obtain ⟨h1, h2⟩ := (h.shape d (by simp)).value v hv
          have := stoi_digits h1 h2
          cases hx : stoi v with
          | ok n => exact ih _ h.tail
          | throw e => rw [hx] at this; cases e with
            | outOfRange => exact calm_range
            | invalidArgument => exact absurd rfl this
          | ub => exact calm_ub
    | str _ _ => exact ih _ h.tail
    | chr _ _ => exact ih _ h.tail

/-! ## The path calculation -/

section
variable {K : Type} [Field K] [LinearOrder K] [FloorRing K]

/-- Nothing but messages of checks is thrown. -/
def Msgs {α : Type} (x : Out Exc α) : Prop := ∀ e, x = .throw e → ∃ k n a, e = .msg k n a ∧ Mild n a

omit [Field K] [LinearOrder K] [FloorRing K] in
theorem msgs_ok {α : Type} (a : α) : Msgs (.ok a) := nofun
omit [Field K] [LinearOrder K] [FloorRing K] in
theorem msgs_ub {α : Type} : Msgs (.ub : Out Exc α) := nofun
omit [Field K] [LinearOrder K] [FloorRing K] in
theorem msgs_err {α : Type} (n : Name) (l : List Str) (ht : Mild n l) : Msgs (.throw (err n l) : Out Exc α) := by
  intro e h
  injection h with h
  exact ⟨_, _, _, h.symm, ht⟩
omit [Field K] [LinearOrder K] [FloorRing K] in
theorem Msgs.cast {α β : Type} {e : Exc} (h : Msgs (.throw e : Out Exc α)) : Msgs (.throw e : Out Exc β) := by
  intro f hf
  injection hf with hf
  subst hf
  exact h _ rfl
omit [Field K] [LinearOrder K] [FloorRing K] in
theorem Msgs.calm {α : Type} {x : Out Exc α} (h : Msgs x) : Calm x := by
  intro hx
  obtain ⟨k, n, a, he, _⟩ := h _ hx
  cases he

/-- The names of the axes of a plane are soft. -/
structure SoftAxes (ax : Axes) : Prop where
  a1 : soft ax.a1 = true
  a2 : soft ax.a2 = true
  a3 : soft ax.a3 = true
  p1 : soft ax.p1 = true
  p2 : soft ax.p2 = true
  p3 : soft ax.p3 = true

omit [Field K] [LinearOrder K] [FloorRing K] in
theorem axesOf_soft (pl : Plane) : SoftAxes (axesOf pl) := by
  cases pl <;> exact ⟨by decide, by decide, by decide, by decide, by decide, by decide⟩

/-- A message whose arguments are constants or the axes of a plane. -/
macro "told" : tactic => `(tactic| exact told_of (by decide) (by decide))
/-- A message whose arguments are constants or the axes of a plane. -/
macro "told" h:term : tactic => `(tactic| first
  | exact told_of (by decide) (by decide)
  | exact told_of (by decide) (by simp [($h).a1, ($h).a2, ($h).a3, ($h).p1, ($h).p2, ($h).p3, soft_append ($h).a3 (show soft c!"gleb" = true by decide)]))

omit [FloorRing K] in
theorem linear_msgs (F : Fns K) (c : Cfg K) (v : Vis K) (cur : Cur K) (s : St K) : Msgs (linear F c v cur s).2 := by
  unfold linear
  split
  · unfold linearAbs
    split
    · exact msgs_err _ _ (by told)
    · exact msgs_err _ _ (by told)
    · exact msgs_err _ _ (by told)
    · split
      · exact msgs_ok _
      · exact msgs_ub
  · unfold linearIncr
    split
    · exact msgs_err _ _ (by told)
    · split
      · exact msgs_err _ _ (by told)
      · split
        · exact msgs_err _ _ (by told)
        · exact msgs_ok _

omit [FloorRing K] in
theorem arc_msgs (F : Fns K) (c : Cfg K) (cur : Cur K) {ax : Axes} (hx : SoftAxes ax) (s : St K) (w : CW K) : Msgs (arc F c cur ax s w).2 := by
  unfold arc
  extract_lets w' xp xc yc
  split
  · exact msgs_ok _
  · exact msgs_ok _
  · exact msgs_err _ _ (by told hx)

omit [FloorRing K] in
theorem setTurn_msgs (F : Fns K) (quarter last : Bool) (dz : Option K) (s : St K) (w : CW K) :
    Msgs (setTurn F quarter last dz s w).2 := by
  unfold setTurn
  split
  · exact msgs_ub
  · rename_i dz
    cases ht : turn F quarter dz w with
    | ok t => exact msgs_ok _
    | ub => exact msgs_ub
    | throw e =>
      unfold turn at ht
      split at ht <;> cases ht

omit [Field K] [LinearOrder K] [FloorRing K] in
theorem endHelix_msgs {p : CPart K} (h : Msgs p.2) : Msgs (endHelix p).2 := by
  unfold endHelix
  split
  · exact msgs_ok _
  · exact h

omit [FloorRing K] in
theorem helixRun_msgs (F : Fns K) {ax : Axes} (hx : SoftAxes ax) (incr first : Bool) (s : St K) (w : CW K) :
    Msgs (helixRun F ax incr first s w).2 := by
  unfold helixRun
  extract_lets ip jp kp rp w'
  split
  · exact msgs_err _ _ (by told hx)
  · split
    · exact msgs_err _ _ (by told hx)
    · split
      · unfold helixIncr
        split
        · split
          · exact setTurn_msgs _ _ _ _ _ _
          · exact endHelix_msgs (setTurn_msgs _ _ _ _ _ _)
        · split
          · exact setTurn_msgs _ _ _ _ _ _
          · exact msgs_ok _
        · exact msgs_ok _
      · unfold helixAbs
        split
        · split
          · exact setTurn_msgs _ _ _ _ _ _
          · exact endHelix_msgs (setTurn_msgs _ _ _ _ _ _)
        · split
          · exact msgs_ub
          · split
            · split
              · exact msgs_ub
              · split
                · exact setTurn_msgs _ _ _ _ _ _
                · exact msgs_ok _
            · exact msgs_ok _
        · exact msgs_ok _

omit [FloorRing K] in
theorem arcStep_msgs {F : Fns K} {c : Cfg K} {cur : Cur K} {ax : Axes} {p : CPart K} (hx : SoftAxes ax) (h : Msgs p.2) :
    Msgs (arcStep F c cur ax p).2 := by
  unfold arcStep
  split
  · split
    · exact arc_msgs _ _ _ hx _ _
    · exact msgs_ok _
  · exact msgs_ok _
  · rename_i e he; rw [he] at h; exact h.cast
  · exact msgs_ub

omit [FloorRing K] in
theorem helixStep_msgs {F : Fns K} {ax : Axes} {incr first : Bool} {p : CPart K} (hx : SoftAxes ax) (h : Msgs p.2) :
    Msgs (helixStep F ax incr first p).2 := by
  unfold helixStep
  split
  · split
    · exact msgs_ok _
    · exact helixRun_msgs _ hx _ _ _ _
  · exact h

omit [FloorRing K] in
theorem circular_msgs (F : Fns K) (c : Cfg K) (v : Vis K) (cur : Cur K) (s : St K) : Msgs (circular F c v cur s).2 := by
  unfold circular
  split
  · exact msgs_ok _
  · extract_lets ax
    split
    · exact msgs_err _ _ (by told (show SoftAxes ax from axesOf_soft cur.plane))
    · exact msgs_err _ _ (by told (show SoftAxes ax from axesOf_soft cur.plane))
    · unfold circularFrom
      extract_lets g w h
      split
      · apply arcStep_msgs (axesOf_soft cur.plane)
        apply helixStep_msgs (axesOf_soft cur.plane)
        unfold spiral
        extract_lets w'
        split
        · exact msgs_err _ _ (by told (show SoftAxes ax from axesOf_soft cur.plane))
        · exact msgs_err _ _ (by told (show SoftAxes ax from axesOf_soft cur.plane))
        · split
          · exact msgs_ok _
          · exact msgs_ok _
          · exact msgs_ok _
      · apply arcStep_msgs (axesOf_soft cur.plane)
        apply helixStep_msgs (axesOf_soft cur.plane)
        show Msgs (helixStart ax _ w).1.2
        unfold helixStart
        split
        · split
          · split
            · exact msgs_err _ _ (by told (show SoftAxes ax from axesOf_soft cur.plane))
            · split
              · exact msgs_ok _
              · exact msgs_ok _
          · exact msgs_ok _
        · exact msgs_ok _

theorem holesOf_throws (k : Option K) (e : Exc) : holesOf k ≠ .throw e := by
  unfold holesOf
  cases k with
  | none => simp
  | some k => dsimp only; split_ifs <;> simp

theorem cycleOf_throws (F : Fns K) (c : Cfg K) (cur : Cur K) (zp zg r : K) (q : Option K) (e : Exc) :
    cycleOf F c cur zp zg r q ≠ .throw e := by
  have hp : ∀ (a b d f : K) (n : Ret), (peck a b d f n : Out Exc (Fl K × Fl K)) ≠ .throw e := by
    intro a b d f n
    unfold peck
    extract_lets k x y
    by_cases hk : fitsInt (k * k + k)
    · rw [if_pos hk]; simp
    · rw [if_neg hk]; simp
  unfold cycleOf
  split
  · simp
  · cases q with
    | none => simp
    | some q =>
      dsimp only
      split
      · unfold drillQIncr
        split_ifs <;> first | (simp; done) | exact hp _ _ _ _ _ | (cases cur.ret <;> simp)
      · unfold drillQ
        split_ifs <;> first | (simp; done) | exact hp _ _ _ _ _ | (cases c.depth <;> cases cur.ret <;> simp)

theorem drilling_msgs (F : Fns K) (c : Cfg K) (v : Vis K) (cur : Cur K) (s : St K) : Msgs (drilling F c v cur s).2 := by
  have hh : ∀ s, Msgs (holePart F v cur s).2 := by
    intro s
    unfold holePart
    extract_lets ax x y k cyc
    split
    · exact msgs_err _ _ (by told (show SoftAxes ax from axesOf_soft cur.plane))
    · exact msgs_err _ _ (by told (show SoftAxes ax from axesOf_soft cur.plane))
    · split
      · exact msgs_ok _
      · split
        · exact msgs_ok _
        · cases hk : holesOf k with
          | ok n => exact msgs_ok _
          | ub => exact msgs_ub
          | throw e => exact absurd hk (holesOf_throws _ _)
  have hc : Msgs (cyclePart F c v cur s).2 := by
    unfold cyclePart
    extract_lets ax
    split
    · exact msgs_ok _
    · split
      · exact msgs_err _ _ (by told (show SoftAxes ax from axesOf_soft cur.plane))
      · split
        · exact msgs_err _ _ (by told (show SoftAxes ax from axesOf_soft cur.plane))
        · split
          · exact msgs_err _ _ (by told (show SoftAxes ax from axesOf_soft cur.plane))
          · split
            · exact msgs_ok _
            · rename_i hx; exact absurd hx (cycleOf_throws _ _ _ _ _ _ _ _)
            · exact msgs_ub
  unfold drilling
  split
  · exact msgs_ok _
  · unfold Part.andThen
    split
    · exact hh _
    · exact hc

theorem motion_msgs (F : Fns K) (c : Cfg K) (v : Vis K) (cur : Cur K) (s : St K) : Msgs (motion F c v cur s).2 := by
  unfold motion
  split_ifs
  · exact linear_msgs _ _ _ _ _
  · exact circular_msgs _ _ _ _ _
  · exact msgs_ok _
  · exact drilling_msgs _ _ _ _ _
  · exact msgs_ok _

theorem account_msgs (F : Fns K) (c : Cfg K) (inch : Inch) (v : Vis K) (cur : Cur K) (s : St K) : Msgs (account F c inch v cur s).2 := by
  unfold account
  extract_lets s'
  have : Msgs (checks c cur s') := by
    unfold checks
    split_ifs
    · exact msgs_err _ _ (by told)
    · exact msgs_err _ _ (by told)
    · exact msgs_err _ _ (by told)
    · exact msgs_ok _
  cases h : checks c cur s' with
  | ok u => exact msgs_ok _
  | throw e => rw [h] at this; exact this.cast
  | ub => exact msgs_ub
end

theorem stodE_ok {t : Str} (h : ∃ q, stod t = .ok q) : ∃ q, stodE t = .ok q := by
  obtain ⟨q, h⟩ := h
  exact ⟨q, by unfold stodE; rw [h]⟩

theorem readWord_calm {c : Cfg ℚ} {d : Dec} (hs : Shape d) (hf : ¬ Fatal c d) : Calm (readWord c d) := by
  have hd : ¬ (d.value = none ∧ d.dot = none) → d.dot = none ∨ ¬ Bare d → ¬ Bare d := by
    rintro h (h' | h') hb
    · exact h ⟨hb.1, h'⟩
    · exact h' hb
  unfold readWord
  split_ifs with h1 h2 h3 h4 h5 h6
  · unfold readVal
    by_cases h0 : d.value = none ∧ d.dot = none
    · rw [if_pos h0]; exact calm_ok _
    · rw [if_neg h0]
      obtain ⟨q, hq⟩ := stodE_ok (valText_ok hs (hd h0 (by
        by_contra hx
        rw [not_or, not_not] at hx
        exact hf ⟨hx.2, .inr ⟨hx.1, h1⟩⟩)))
      rw [hq]
      exact calm_ok _
  · unfold readTool
    split
    · exact calm_ok _
    · split
      · exact calm_ok _
      · exact calm_ok _
  · unfold readFeed
    by_cases h0 : d.value = none ∧ d.dot = none
    · rw [if_pos h0]; exact calm_ok _
    · rw [if_neg h0]
      obtain ⟨q, hq⟩ := stodE_ok (feedText_ok hs (fun hb => hf ⟨hb, .inl (by rw [h3]; decide)⟩))
      rw [hq]
      exact calm_ok _
  · unfold readFeed
    by_cases h0 : d.value = none ∧ d.dot = none
    · rw [if_pos h0]; exact calm_ok _
    · rw [if_neg h0]
      obtain ⟨q, hq⟩ := stodE_ok (feedText_ok hs (fun hb => hf ⟨hb, .inl (by rw [h4]; decide)⟩))
      rw [hq]
      exact calm_ok _
  · unfold readAux
    split
    · exact calm_ok _
    · rename_i v hv
      split
      · exact calm_ok _
      · have := stoiE_digits (hs.value v hv).1 (hs.value v hv).2
        cases hx : stoiE v with
        | ok n => exact calm_ok _
        | throw e => rw [hx] at this; exact calm_cast this
        | ub => exact calm_ub
  · unfold readCode
    split
    · exact calm_ok _
    · rename_i v hv
      have := stoiE_digits (hs.value v hv).1 (hs.value v hv).2
      cases hx : stoiE v with
      | ok n => exact calm_ok _
      | throw e => rw [hx] at this; exact calm_cast this
      | ub => exact calm_ub
  · exact calm_ok _

/-- The texts of tools are numbers. -/
def ToolsOk (v : Vis ℚ) : Prop := ∀ t ∈ v.tools, t ≠ [] ∧ AllDig t

theorem readWord_tool {c : Cfg ℚ} {d : Dec} {t : Str} (hs : Shape d) (h : readWord c d = .ok (.tool t)) : t ≠ [] ∧ AllDig t := by
  unfold readWord at h
  have hfeed : ∀ (f : ℚ → Act ℚ), (∀ x, f x ≠ .tool t) → readFeed f d ≠ .ok (.tool t) := by
    intro f hf h
    unfold readFeed at h
    split at h
    · cases h
    · split at h
      · injection h with h; exact hf _ h
      · cases h
      · cases h
  split_ifs at h
  · unfold readVal at h
    split at h
    · cases h
    · split at h <;> cases h
  · unfold readTool at h
    cases hv : d.value with
    | none => rw [hv] at h; cases h
    | some v =>
      rw [hv] at h
      dsimp only at h
      split at h
      · cases h
      · injection h with h
        injection h with h
        obtain ⟨h1, h2⟩ := hs.value v hv
        subst h
        unfold toolNumber
        split
        · rename_i hl
          refine ⟨?_, take_digits h2⟩
          intro he
          have := congrArg List.length he
          rw [List.length_take] at this
          simp only [List.length_nil] at this
          omega
        · exact ⟨h1, h2⟩
  · exact absurd h (hfeed _ nofun)
  · exact absurd h (hfeed _ nofun)
  · unfold readAux at h
    split at h
    · cases h
    · split at h
      · cases h
      · split at h <;> cases h
  · unfold readCode at h
    split at h
    · cases h
    · split at h <;> cases h
  · cases h

theorem act_tools {v : Vis ℚ} {a : Act ℚ} (hv : ToolsOk v) (ha : ∀ t, a = .tool t → t ≠ [] ∧ AllDig t) : ToolsOk (a.on v) := by
  cases a with
  | tool t =>
    intro x hx
    rcases List.mem_append.mp hx with hx | hx
    · exact hv x hx
    · rw [List.mem_singleton] at hx; subst hx; exact ha _ rfl
  | code k t => cases k <;> exact hv
  | nothing => exact hv
  | val _ _ => exact hv
  | feed _ => exact hv
  | spindle _ => exact hv
  | aux _ _ _ => exact hv

theorem visit_calm {c : Cfg ℚ} {a : Attr} {r : Vis ℚ} (h : ∀ d, a = .dec d → Shape d ∧ ¬ Fatal c d) (hr : ToolsOk r) :
    Calm (visit c r a) ∧ ∀ v, visit c r a = .ok v → ToolsOk v := by
  cases a with
  | dec d =>
    unfold visit
    dsimp only
    by_cases h1 : d.word = c!"/"
    · rw [if_pos h1]; exact ⟨calm_ok _, fun v hv => by injection hv with hv; rw [← hv]; exact hr⟩
    · rw [if_neg h1]
      by_cases h2 : r.skip = true
      · rw [if_pos h2]; exact ⟨calm_ok _, fun v hv => by injection hv with hv; rw [← hv]; exact hr⟩
      · rw [if_neg h2]
        obtain ⟨hs, hf⟩ := h d rfl
        have := readWord_calm hs hf
        cases hx : readWord c d with
        | ok a =>
          refine ⟨calm_ok _, fun v hv => ?_⟩
          injection hv with hv
          rw [← hv]
          exact act_tools hr (fun t ht => readWord_tool hs (by rw [hx, ht]))
        | throw e => rw [hx] at this; exact ⟨calm_cast this, fun v hv => by cases hv⟩
        | ub => exact ⟨calm_ub, fun v hv => by cases hv⟩
  | str w x => exact ⟨calm_ok _, fun v hv => by injection hv with hv; rw [← hv]; exact act_tools hr nofun⟩
  | chr w x => exact ⟨calm_ok _, fun v hv => by injection hv with hv; rw [← hv]; exact hr⟩

theorem visitAll_calm {c : Cfg ℚ} : ∀ (b : Block) (r : Vis ℚ), Sane c b → ToolsOk r →
    Calm (visitAll c r b) ∧ ∀ v, visitAll c r b = .ok v → ToolsOk v := by
  intro b
  induction b with
  | nil =>
    intro r _ hr
    exact ⟨calm_ok _, fun v hv => by unfold visitAll at hv; injection hv with hv; rw [← hv]; exact hr⟩
  | cons a b ih =>
    intro r h hr
    have hx := visit_calm (a := a) (r := r) (c := c) (fun d hd => ⟨h.shape d (by simp [hd]), h.words d (by simp [hd])⟩) hr
    unfold visitAll
    cases hv : visit c r a with
    | ok v => exact ih v h.tail (hx.2 v hv)
    | throw e => rw [hv] at hx; exact ⟨calm_cast hx.1, fun v hv => by cases hv⟩
    | ub => exact ⟨calm_ub, fun v hv => by cases hv⟩

theorem evaluate_calm {F : Fns ℚ} {c : Cfg ℚ} {inch : Inch} {line : Int} {b : Block} (p : St ℚ × MacroMap ℚ) (h : Sane c b) :
    Calm (AttrPath.evaluate F c inch line b p).2 := by
  obtain ⟨hv, ht⟩ := visitAll_calm b {} h (by intro t ht; cases ht)
  have hstod : ∀ v t, visitAll c {} b = .ok v → toolOf v = some t → ∃ q, stodE t = .ok q := by
    intro v t h1 h2
    have hm : t ∈ v.tools := by
      unfold toolOf at h2
      split at h2
      · exact List.mem_of_mem_head? h2
      · exact List.mem_of_mem_getLast? h2
    obtain ⟨h3, h4⟩ := ht v h1 t hm
    apply stodE_ok
    have := stod_int false h4 h3
    exact ⟨_, this⟩
  have he := evaluate_eval F c inch line b p
  generalize (AttrPath.evaluate F c inch line b p).2 = o at he ⊢
  generalize (AttrPath.evaluate F c inch line b p).1.1 = s' at he
  have hfin : ∀ o, Msgs o → Calm (finish o) := by
    intro o ho
    cases o with
    | ok b => exact calm_ok _
    | throw e => exact calm_cast ho.calm
    | ub => exact calm_ub
  cases he with
  | empty => exact calm_ok _
  | unread e he => rw [he] at hv; exact calm_cast hv
  | unreadUb _ => exact calm_ub
  | alone => exact calm_ok _
  | aloneErr => exact calm_err _ _
  | badTool v t e h1 h2 h3 h4 =>
    obtain ⟨q, hq⟩ := hstod v t h1 h2
    rw [hq] at h4
    cases h4
  | badToolUb v t => exact calm_ub
  | before => exact calm_ok _
  | halt v S M o h1 h2 h3 h4 h5 h6 h7 =>
    apply hfin
    have := motion_msgs F c v (current v S) S
    rw [h6] at this
    exact this
  | done v S M s' o h1 h2 h3 h4 h5 h6 h7 =>
    apply hfin
    have := account_msgs F c inch v (current v S) M
    rw [h7] at this
    exact this

/-! ## The stages after the words -/

section
variable {S : Setup} {o : Options} {line : Int} {ok : Bool} {b : Block}

theorem lastStage_returns (p : Parser) (h : Sane S.cfg b) : Returns (lastStage S ok b p).2 :=
  andThen_returns (selectRun_calm b p.units h) nofun

theorem pathStage_returns (p : Parser) (h : Sane S.cfg b) : Returns (pathStage S o line ok b p).2 := by
  unfold pathStage
  split
  · refine andThen_returns (evaluate_calm _ h) (andThen_returns ?_ (lastStage_returns _ h))
    split
    · exact travelRun_calm _ _ _
    · exact calm_ok _
  · exact lastStage_returns _ h

theorem groupStage_returns (p : Parser) (h : Sane S.cfg b) : Returns (groupStage S o line ok b p).2 := by
  unfold groupStage
  refine andThen_returns ?_ (andThen_returns ?_ (pathStage_returns _ h))
  · split
    · exact codeGroups_calm _ _ _ _ _ _ h
    · exact calm_ok _
  · split
    · exact sameWordRun_calm _ _ _
    · exact calm_ok _

theorem analysisStage_returns (p : Parser) (h : Sane S.cfg b) : Returns (analysisStage S o line ok b p).2 := by
  unfold analysisStage
  split
  · exact andThen_returns (limitRun_calm _ _ _ h) (andThen_returns (rotation_calm _ _ _ h) (groupStage_returns _ h))
  · exact groupStage_returns _ h

theorem systemStage_returns (p : Parser) (h : Sane S.cfg b) : Returns (systemStage S o line ok b p).2 := by
  unfold systemStage
  obtain ⟨m, hm⟩ := sysRun_ok line b p.macros h
  rw [hm]
  exact analysisStage_returns _ h

theorem codeWords_returns (p : Parser) (h : Sane S.cfg b) : Returns (codeWords S o line ok b p).2 :=
  andThen_returns (selectRun_calm b p.units h) (systemStage_returns _ h)

end

/-! ## What a line is read as -/

theorem macRun_calm : ∀ (b : Block) (st : Macro.MacSt), (∀ d, Attr.dec d ∈ b → Shape d) → Macro.macRun st b ≠ .throw .invalidArgument := by
  intro b
  induction b with
  | nil => intro st _; simp [Macro.macRun]
  | cons a b ih =>
    intro st h
    have hs : Macro.macStep st a ≠ .throw .invalidArgument := by
      cases a with
      | dec d =>
        unfold Macro.macStep
        dsimp only
        split
        · split
          · cases hv : d.value with
            | none => simp
            | some v =>
              have := (h d (by simp)).value v hv
              have := stoi_digits this.1 this.2
              dsimp only
              cases hx : stoi v with
              | ok n => intro hc; cases hc
              | ub => intro hc; cases hc
              | throw e => rw [hx] at this; intro hc; injection hc with hc; exact this (by rw [hc])
          · split <;> simp
        · simp
      | str _ _ => simp [Macro.macStep]
      | chr _ _ => simp [Macro.macStep]
    unfold Macro.macRun
    cases hx : Macro.macStep st a with
    | ok st' => exact ih st' (fun d hd => h d (by simp [hd]))
    | throw e => rw [hx] at hs; intro hc; injection hc with hc; exact hs (by rw [hc])
    | ub => intro hc; cases hc

theorem macro_calm (tr : Str → ℚ → Option ℚ) (m : MacroMap ℚ) (line : Int) {b : Block} (h : ∀ d, Attr.dec d ∈ b → Shape d) :
    Macro.evaluate tr m line b ≠ .throw (.num .invalidArgument) := by
  unfold Macro.evaluate
  have := macRun_calm b {} h
  cases hx : Macro.macRun {} b with
  | throw e => rw [hx] at this; intro hc; injection hc with hc; injection hc with hc; exact this (by rw [hc])
  | ub => simp
  | ok st =>
    dsimp only
    split
    · split
      · simp
      · split <;> simp
    · simp

theorem subRun_calm (ops : List Str) (m : MacroMap ℚ) (line : Int) : ∀ (b : Block) (st : Macro.SubSt),
    (∀ d, Attr.dec d ∈ b → Shape d) → Macro.subRun ops m line st b ≠ .throw (.num .invalidArgument) := by
  intro b
  induction b with
  | nil => intro st _; simp [Macro.subRun]
  | cons a b ih =>
    intro st h
    have hs : Macro.subStep ops m line st a ≠ .throw (.num .invalidArgument) := by
      cases a with
      | dec d =>
        unfold Macro.subStep
        dsimp only
        split
        · cases hv : d.value with
          | none => simp
          | some v =>
            have := (h d (by simp)).value v hv
            have := stoi_digits this.1 this.2
            dsimp only
            cases hx : stoi v with
            | ok n => dsimp only; split <;> simp
            | ub => simp
            | throw e => rw [hx] at this; intro hc; injection hc with hc; injection hc with hc; exact this (by rw [hc])
        · simp
      | str _ _ => simp [Macro.subStep]
      | chr _ _ => simp [Macro.subStep]
    unfold Macro.subRun
    cases hx : Macro.subStep ops m line st a with
    | ok st' => exact ih st' (fun d hd => h d (by simp [hd]))
    | throw e => rw [hx] at hs; intro hc; injection hc with hc; exact hs (by rw [hc])
    | ub => intro hc; cases hc

theorem substitute_calm (ops : List Str) (m : MacroMap ℚ) (line : Int) {b : Block} (h : ∀ d, Attr.dec d ∈ b → Shape d) :
    Macro.substitute ops m line b ≠ .throw (.num .invalidArgument) := by
  unfold Macro.substitute
  have := subRun_calm ops m line b {} h
  cases hx : Macro.subRun ops m line {} b with
  | ok st => intro hc; cases hc
  | throw e => rw [hx] at this; intro hc; injection hc with hc; exact this (by rw [hc])
  | ub => intro hc; cases hc

end NC.Pipe

namespace NC.Gram
open NC NC.Message

/-! ## Invariants of the grammar object -/

theorem orElse_all {P : PS × Res → Prop} {I : PS → Prop} {x : PS × Res} {f : PS → PS × Res} (hx : P x)
    (hI : ∀ ps, P (ps, .fail) → I ps) (hf : ∀ ps, I ps → P (f ps)) : P (orElse x f) := by
  obtain ⟨ps, r⟩ := x
  unfold orElse
  cases r with
  | fail => exact hf ps (hI ps hx)
  | match_ a r => exact hx
  | expect t => exact hx
  | raise e => exact hx

/-- What holds of every word that is tried, holds of the result. -/
theorem line_all {G : Gram} {s : Str} {I : PS → Prop} {Q : Res → Prop}
    (hdec : ∀ ps w r, I ps → w ∈ G.syms.decs → w ++ r <:+ s → I (checked G ps (operand w none r)).1 ∧ Q (checked G ps (operand w none r)).2)
    (hdiv : ∀ ps r, I ps → '/' :: r <:+ s → I (checked G ps (operand c!"/" none r)).1 ∧ Q (checked G ps (operand c!"/" none r)).2)
    (hasg : ∀ ps w r t, I ps → w ∈ G.syms.assigns → w ++ r <:+ s → t <:+ s →
      I (checked G ps (operand w (some '=') t)).1 ∧ Q (checked G ps (operand w (some '=') t)).2)
    (hopt : ∀ ps r, I ps → '/' :: r <:+ s → I (checked G ps (operandClosed c!"/" r)).1 ∧ Q (checked G ps (operandClosed c!"/" r)).2)
    (hfail : Q .fail) (hexp : ∀ t, Q (.expect t)) (hchr : ∀ w c r, Q (.match_ (.chr w c) r)) (hstr : ∀ w v r, Q (.match_ (.str w v) r))
    (ps : PS) (h : I ps) : I (lineAttribute G ps s).1 ∧ Q (lineAttribute G ps s).2 := by
  have hI : ∀ ps, I (ps, Res.fail).1 ∧ Q (ps, Res.fail).2 → I ps := fun ps h => h.1
  unfold lineAttribute
  refine orElse_all (P := fun x => I x.1 ∧ Q x.2) ⟨h, ?_⟩ hI (fun ps h => ?_)
  · dsimp only
    unfold charRule
    split
    · split
      · exact hchr _ _ _
      · exact hfail
    · exact hfail
  refine orElse_all (P := fun x => I x.1 ∧ Q x.2) ?_ hI (fun ps h => ?_)
  · unfold decimalRule
    split
    · exact ⟨h, hfail⟩
    · cases hs : symbol G.syms.decs (skip s) with
      | none => exact ⟨h, hfail⟩
      | some x =>
        obtain ⟨w, r⟩ := x
        obtain ⟨h1, h2⟩ := symbol_some hs
        exact hdec ps w r h (longest_some h1).1 (by rw [← h2]; exact skip_suffix s)
  refine orElse_all (P := fun x => I x.1 ∧ Q x.2) ?_ hI (fun ps h => ?_)
  · unfold divisionRule
    split
    · rename_i r hr
      split
      · exact ⟨h, hexp _⟩
      · exact hdiv ps r h (by rw [← hr]; exact skip_suffix s)
    · exact ⟨h, hfail⟩
  refine orElse_all (P := fun x => I x.1 ∧ Q x.2) ?_ hI (fun ps h => ?_)
  · unfold assignRule
    cases hs : symbol G.syms.assigns (skip s) with
    | none => exact ⟨h, hfail⟩
    | some x =>
      obtain ⟨w, r⟩ := x
      obtain ⟨h1, h2⟩ := symbol_some hs
      dsimp only
      have hw : w ++ r <:+ s := by rw [← h2]; exact skip_suffix s
      split
      · rename_i t ht
        refine hasg ps w r t h (longest_some h1).1 hw ?_
        exact (tail_suffix ht).trans ((List.suffix_append w r).trans hw)
      · exact ⟨h, hexp _⟩
  refine orElse_all (P := fun x => I x.1 ∧ Q x.2) ?_ hI (fun ps h => ?_)
  · unfold optionalRule
    split
    · rename_i r hr
      split
      · exact ⟨h, hexp _⟩
      · exact hopt ps r h (by rw [← hr]; exact skip_suffix s)
    · exact ⟨h, hfail⟩
  refine orElse_all (P := fun x => I x.1 ∧ Q x.2) ⟨h, ?_⟩ hI (fun ps h => ?_)
  · dsimp only
    unfold commentRule
    split
    · split
      · exact hstr _ _ _
      · exact hexp _
    · exact hfail
  refine orElse_all (P := fun x => I x.1 ∧ Q x.2) ⟨h, ?_⟩ hI (fun ps h => ⟨h, ?_⟩)
  · dsimp only
    unfold startRule
    split
    · split
      · exact hchr _ _ _
      · exact hfail
    · exact hfail
  · dsimp only
    unfold nameRule
    split
    · split
      · exact hstr _ _ _
      · exact hexp _
    · exact hfail

/-- The same for a whole text. -/
theorem phrase_all {G : Gram} {s : Str} {I : PS → Prop} {A : Attr → Prop} {E : NumExc → Prop}
    (hline : ∀ t, t <:+ s → ∀ ps, I ps → I (lineAttribute G ps t).1 ∧
      (∀ a r, (lineAttribute G ps t).2 = .match_ a r → A a) ∧ ∀ e, (lineAttribute G ps t).2 = .raise e → E e) (ps : PS) (h : I ps) :
    I (phrase G ps s).1 ∧ (∀ b, (phrase G ps s).2 = .accept b → ∀ a ∈ b, A a) ∧ ∀ b e, (phrase G ps s).2 = .raise b e → E e := by
  have more : ∀ n ps b t, t <:+ s → I ps → (∀ a ∈ b, A a) → I (moreWords G n ps b t).1 ∧
      (∀ b', (moreWords G n ps b t).2 = .accept b' → ∀ a ∈ b', A a) ∧ ∀ b' e, (moreWords G n ps b t).2 = .raise b' e → E e := by
    have hend : ∀ b t, (∀ a ∈ b, A a) → (∀ b', atEnd b t = .accept b' → ∀ a ∈ b', A a) ∧ ∀ b' e, atEnd b t = .raise b' e → E e := by
      intro b t hb
      unfold atEnd
      split
      · exact ⟨fun b' h => (by injection h with h; rw [← h]; exact hb), fun b' e h => (by cases h)⟩
      · exact ⟨fun b' h => (by cases h), fun b' e h => (by cases h)⟩
    intro n
    induction n with
    | zero => intro ps b t ht hI hb; exact ⟨hI, hend b t hb⟩
    | succ n ih =>
      intro ps b t ht hI hb
      unfold moreWords
      obtain ⟨h1, h2, h3⟩ := hline t ht ps hI
      rcases hx : lineAttribute G ps t with ⟨ps', r⟩
      rw [hx] at h1 h2 h3
      cases r with
      | match_ a r =>
        refine ih ps' (b ++ [a]) r ((lineAttribute_suffix hx).trans ht) h1 ?_
        intro x hx
        rcases List.mem_append.mp hx with hx | hx
        · exact hb x hx
        · rw [List.mem_singleton] at hx; subst hx; exact h2 _ _ rfl
      | fail => exact ⟨h1, hend b t hb⟩
      | expect u => exact ⟨h1, fun b' h => (by cases h), fun b' e h => (by cases h)⟩
      | raise e => exact ⟨h1, fun b' h => (by cases h), fun b' f h => (by injection h with _ h; rw [← h]; exact h3 _ rfl)⟩
  unfold phrase
  obtain ⟨h1, h2, h3⟩ := hline s (List.suffix_refl s) ps h
  rcases hx : lineAttribute G ps s with ⟨ps', r⟩
  rw [hx] at h1 h2 h3
  cases r with
  | match_ a r => exact more _ ps' [a] r (lineAttribute_suffix hx) h1 (fun x hx => by rw [List.mem_singleton] at hx; subst hx; exact h2 _ _ rfl)
  | fail => exact ⟨h1, fun b' h => (by cases h), fun b' e h => (by cases h)⟩
  | expect u => exact ⟨h1, fun b' h => (by cases h), fun b' e h => (by cases h)⟩
  | raise e => exact ⟨h1, fun b' h => (by cases h), fun b' f h => (by injection h with _ h; rw [← h]; exact h3 _ rfl)⟩

/-! ## Words without brackets -/

theorem stoi_raise {v : Str} {e : NumExc} (hn : v ≠ []) (hd : ∀ c ∈ v, isDig c = true) (h : stoi v = .throw e) : e = .outOfRange := by
  cases e with
  | outOfRange => rfl
  | invalidArgument => exact absurd h (Pipe.stoi_digits hn hd)

theorem stoi_ub {v : Str} : stoi v ≠ .ub := by
  unfold stoi
  dsimp only
  split_ifs <;> simp

theorem judgeDecimals_raise {l : Lang} {wg : WordGrammar} {d : Dec} {v2 : Str} {e : NumExc} (hv : v2 ≠ [] ∧ ∀ c ∈ v2, isDig c = true)
    (h : judgeDecimals l wg d v2 = .raise e) : e = .outOfRange := by
  unfold judgeDecimals at h
  split at h
  · cases h
  · cases hx : stoi v2 with
    | ok n => rw [hx] at h; dsimp only at h; split at h <;> cases h
    | throw f => rw [hx] at h; injection h with h; rw [← h]; exact stoi_raise hv.1 hv.2 hx
    | ub => exact absurd hx stoi_ub

theorem judgeMissing_raise {l : Lang} {wg : WordGrammar} {s : Status} {d : Dec} {e : NumExc} : judgeMissing l wg s d ≠ .raise e := by
  unfold judgeMissing
  split <;> simp

theorem judgeChars_raise {l : Lang} {d : Dec} {e : NumExc} : judgeChars l d ≠ .raise e := by
  unfold judgeChars
  split <;> simp

theorem judgeInt_raise {g : WordMap} {l : Lang} {w : Str} {n : Int} {e : NumExc} : judgeInt g l w n ≠ .raise e := by
  unfold judgeInt
  split
  · simp
  · split <;> simp

/-- The only exception of a check is that a number is too big. -/
theorem verify_raise {g : WordMap} {l : Lang} {d : Dec} {s : Status} {e : NumExc} (hs : Shape d) (h : (verify g l d s).2 = .raise e) :
    e = .outOfRange := by
  unfold verify at h
  split at h
  · cases h
  · rename_i wg _
    unfold judge at h
    split at h
    · cases h
    · split at h
      · unfold judgeMacro at h
        dsimp only at h
        split at h
        · cases h
        · split at h
          · exact absurd h judgeInt_raise
          · cases h
      · unfold judgePlain at h
        split at h
        · dsimp only at h
          unfold judgeOptional at h
          split at h
          · exact absurd h judgeChars_raise
          · rename_i v hv
            obtain ⟨h1, h2⟩ := hs.value v hv
            cases hx : stoi v with
            | ok n =>
              rw [hx] at h
              dsimp only at h
              split at h
              · cases h
              · exact absurd h judgeChars_raise
            | throw f => rw [hx] at h; injection h with h; rw [← h]; exact stoi_raise h1 h2 hx
            | ub => exact absurd hx stoi_ub
        · split at h
          · rename_i v hv
            obtain ⟨h1, h2⟩ := hs.value v hv
            unfold judgeValue at h
            cases hx : stoi v with
            | throw f => rw [hx] at h; injection h with h; rw [← h]; exact stoi_raise h1 h2 hx
            | ub => exact absurd hx stoi_ub
            | ok n =>
              rw [hx] at h
              dsimp only at h
              split at h
              · cases h
              · split at h
                · cases h
                · split at h
                  · cases h
                  · dsimp only at h
                    unfold judgeFraction at h
                    split at h
                    · split at h <;> cases h
                    · split at h
                      · cases h
                      · rename_i v2 hv2
                        have := hs.value2 v2 hv2
                        exact judgeDecimals_raise ⟨this.1, this.2.1⟩ h
          · dsimp only at h
            unfold judgeNoValue at h
            split at h
            · exact absurd h judgeMissing_raise
            · split at h
              · exact absurd h judgeMissing_raise
              · rename_i v2 hv2
                have := hs.value2 v2 hv2
                exact judgeDecimals_raise ⟨this.1, this.2.1⟩ h

theorem checked_raise {G : Gram} {ps : PS} {p : Dec × Str} {e : NumExc} (hs : Shape p.1) (h : (checked G ps p).2 = .raise e) :
    e = .outOfRange := by
  unfold checked at h
  dsimp only at h
  split at h
  · cases h
  · cases h
  · rename_i f hf
    injection h with h
    subst h
    exact verify_raise hs hf

theorem checked_dec {G : Gram} {ps : PS} {p : Dec × Str} {a : Attr} {r : Str} (h : (checked G ps p).2 = .match_ a r) : a = .dec p.1 := by
  unfold checked at h
  dsimp only at h
  split at h
  · injection h with h _; exact h.symm
  · cases h
  · cases h

/-- A text is read as words of digits, and the only exception is that a number is too big. -/
theorem phrase_shape (G : Gram) (s : Str) (ps : PS) : (∀ b, (phrase G ps s).2 = .accept b → ∀ a ∈ b, ∀ d, a = .dec d → Shape d) ∧
    ∀ b e, (phrase G ps s).2 = .raise b e → e = .outOfRange := by
  refine (phrase_all (I := fun _ => True) (A := fun a => ∀ d, a = .dec d → Shape d) (E := fun e => e = .outOfRange) ?_ ps trivial).2
  intro t _ ps _
  have key : ∀ (ps : PS) (p : Dec × Str), Shape p.1 → True ∧ (∀ a r, (checked G ps p).2 = .match_ a r → ∀ d, a = .dec d → Shape d) ∧
      ∀ e, (checked G ps p).2 = .raise e → e = .outOfRange := by
    intro ps p hp
    refine ⟨trivial, ?_, fun e h => checked_raise hp h⟩
    intro a r h d hd
    rw [checked_dec h] at hd
    injection hd with hd
    rw [← hd]
    exact hp
  refine line_all (I := fun _ => True) (Q := fun x => (∀ a r, x = .match_ a r → ∀ d, a = .dec d → Shape d) ∧ ∀ e, x = .raise e → e = .outOfRange)
    ?_ ?_ ?_ ?_ ?_ ?_ ?_ ?_ ps trivial
  · intro ps w r _ _ _; exact key _ _ (operand_shape _ _ _ (by simp))
  · intro ps r _ _; exact key _ _ (operand_shape _ _ _ (by simp))
  · intro ps w r t _ _ _ _; exact key _ _ (operand_shape _ _ _ (by intro c hc; cases hc; rfl))
  · intro ps r _ _; exact key _ _ (operandClosed_shape _ _)
  · exact ⟨nofun, nofun⟩
  · exact fun _ => ⟨nofun, nofun⟩
  · intro w c r; exact ⟨fun a r h d hd => (by injection h with h _; rw [← h] at hd; cases hd), nofun⟩
  · intro w c r; exact ⟨fun a r h d hd => (by injection h with h _; rw [← h] at hd; cases hd), nofun⟩

/-- Without opening brackets the count of those stays nought. -/
theorem verify_opened {g : WordMap} {l : Lang} {d : Dec} {s : Status} (ho : d.openB = none) (h : s.opened = 0) : (verify g l d s).1.opened = 0 := by
  have h1 : addOpen d s = s := by unfold addOpen; rw [ho]
  have h2 : (addClose d (noteMacro d s)).opened = 0 := by
    unfold addClose noteMacro
    split <;> split_ifs <;> exact h
  unfold verify
  rw [h1]
  split
  · exact h
  · unfold judge
    split
    · exact h2
    · split
      · exact h2
      · unfold judgePlain
        split
        · exact h2
        · split
          · unfold judgeValue
            split
            · exact h2
            · exact h2
            · split
              · exact h2
              · split
                · rename_i hc; rw [h2] at hc; exact absurd hc.2 (by decide)
                · split
                  · exact h2
                  · exact h2
          · exact h2

/-- A declared word without digits does not pass. -/
theorem verify_bare {g : WordMap} {l : Lang} {d : Dec} {s : Status} (ho : d.openB = none) (h : s.opened = 0) (hb : Spec.Survive.Bare d)
    (hg : (g.find d.word).isSome) (hp : (verify g l d s).2 = .pass) : d.word = c!"=" ∨ isOp d.word = true := by
  have h1 : addOpen d s = s := by unfold addOpen; rw [ho]
  have h2 : (addClose d (noteMacro d s)).opened = 0 := by
    unfold addClose noteMacro
    split <;> split_ifs <;> exact h
  unfold verify at hp
  rw [h1] at hp
  split at hp
  · rename_i hx; rw [hx] at hg; cases hg
  · rename_i wg _
    have hm : judgeMissing l wg (addClose d (noteMacro d s)) d = .pass → d.word = c!"=" ∨ isOp d.word = true := by
      intro h
      unfold judgeMissing at h
      split at h
      · rename_i hc
        rcases hc with hc | hc
        · exact absurd h2 hc
        · exact hc
      · cases h
    unfold judge at hp
    split at hp
    · cases hp
    · split at hp
      · rw [hb.1] at hp; cases hp
      · unfold judgePlain at hp
        split at hp
        · rename_i hw; right; rw [hw.1]; decide
        · rw [hb.1] at hp
          dsimp only at hp
          unfold judgeNoValue at hp
          rw [hb.2] at hp
          split at hp
          · exact hm hp
          · exact hm hp

theorem checked_st (G : Gram) (ps : PS) (p : Dec × Str) : (checked G ps p).1.st = (verify G.words G.lang p.1 ps.st).1 := by
  unfold checked
  dsimp only
  split <;> rfl

theorem checked_pass {G : Gram} {ps : PS} {p : Dec × Str} {a : Attr} {r : Str} (h : (checked G ps p).2 = .match_ a r) :
    (verify G.words G.lang p.1 ps.st).2 = .pass := by
  unfold checked at h
  dsimp only at h
  split at h
  · assumption
  · cases h
  · cases h

/-- A word of a line without brackets. -/
structure Flat (G : Gram) (d : Dec) : Prop where
  shape : Shape d
  openB : d.openB = none
  word : '[' ∉ d.word
  name : d.word ∈ G.syms.decs ++ G.syms.assigns ∨ d.word = c!"/"
  bare : Spec.Survive.Bare d → (G.words.find d.word).isSome → d.word = c!"=" ∨ isOp d.word = true

theorem operand_flat {w : Str} {a : Option Char} {r : Str} (h : '[' ∉ r) : (operand w a r).1.openB = none := by
  unfold operand
  dsimp only
  show (optRun isOpen (skip (optSign r).2)).1 = none
  cases hx : (optRun isOpen (skip (optSign r).2)).1 with
  | none => rfl
  | some b =>
    exfalso
    obtain ⟨h1, h2, h3, _⟩ := optRun_some hx
    cases b with
    | nil => exact h1 rfl
    | cons c b =>
      have hc : c = '[' := by simpa [isOpen] using h2 c (by simp)
      subst hc
      have : '[' ∈ skip (optSign r).2 := by rw [h3]; simp
      exact h (((skip_suffix _).trans (optSign_suffix r)).subset this)

/-- A text without opening brackets, read when none is open. -/
theorem phrase_flat (G : Gram) {s : Str} (hs : '[' ∉ s) {ps : PS} (h0 : ps.st.opened = 0) : (phrase G ps s).1.st.opened = 0 ∧
    ∀ b, (phrase G ps s).2 = .accept b → ∀ d, .dec d ∈ b → Flat G d := by
  have key : ∀ (ps : PS) (p : Dec × Str), ps.st.opened = 0 → Shape p.1 → p.1.openB = none → '[' ∉ p.1.word →
      (p.1.word ∈ G.syms.decs ++ G.syms.assigns ∨ p.1.word = c!"/") → (checked G ps p).1.st.opened = 0 ∧
      ∀ a r, (checked G ps p).2 = .match_ a r → ∀ d, a = .dec d → Flat G d := by
    intro ps p h1 h2 h3 h4 h5
    refine ⟨by rw [checked_st]; exact verify_opened h3 h1, ?_⟩
    intro a r h d hd
    rw [checked_dec h] at hd
    injection hd with hd
    rw [← hd]
    exact ⟨h2, h3, h4, h5, fun hb hg => verify_bare h3 h1 hb hg (checked_pass h)⟩
  have := phrase_all (G := G) (s := s) (I := fun ps => ps.st.opened = 0) (A := fun a => ∀ d, a = .dec d → Flat G d) (E := fun _ => True) ?_ ps h0
  · exact ⟨this.1, fun b hb d hd => this.2.1 b hb _ hd d rfl⟩
  · intro t ht ps hps
    have hn : ∀ u, u <:+ t → '[' ∉ u := fun u hu hm => hs ((hu.trans ht).subset hm)
    have := line_all (G := G) (s := t) (I := fun ps => ps.st.opened = 0) (Q := fun x => ∀ a r, x = .match_ a r → ∀ d, a = .dec d → Flat G d)
      ?_ ?_ ?_ ?_ ?_ ?_ ?_ ?_ ps hps
    · exact ⟨this.1, this.2, fun _ _ => trivial⟩
    · intro ps w r h1 h2 h3
      have h4 := hn _ h3
      rw [List.mem_append, not_or] at h4
      exact key _ _ h1 (operand_shape _ _ _ (by simp)) (operand_flat h4.2) h4.1 (.inl (List.mem_append_left _ h2))
    · intro ps r h1 h3
      have h4 := hn _ h3
      rw [List.mem_cons, not_or] at h4
      exact key _ _ h1 (operand_shape _ _ _ (by simp)) (operand_flat h4.2) (show '[' ∉ c!"/" by decide) (.inr rfl)
    · intro ps w r u h1 h2 h3 h4
      have h5 := hn _ h3
      rw [List.mem_append, not_or] at h5
      exact key _ _ h1 (operand_shape _ _ _ (by intro c hc; cases hc; rfl)) (operand_flat (hn _ h4)) h5.1 (.inl (List.mem_append_right _ h2))
    · intro ps r h1 h3
      exact key _ _ h1 (operandClosed_shape _ _) rfl (show '[' ∉ c!"/" by decide) (.inr rfl)
    · exact nofun
    · exact fun _ => nofun
    · intro w c r a r' h d hd; injection h with h _; rw [← h] at hd; cases hd
    · intro w c r a r' h d hd; injection h with h _; rw [← h] at hd; cases hd

end NC.Gram

namespace NC.Pipe
open NC NC.Message NC.Gram NC.Ver NC.AttrPath NC.Path NC.Spec.Survive

/-! ## Lines -/

section
variable {S : Setup} {o : Options} {line : Int} {ok : Bool} {b : Block}

theorem wordStage_returns (p : Parser) (hs : ∀ d, Attr.dec d ∈ b → Shape d)
    (h0 : ∀ m, Macro.evaluate S.tr p.macros line b = .ok m → Macro.substitute S.ops m line b = .ok [] → Sane S.cfg b)
    (h1 : ∀ m code, Macro.evaluate S.tr p.macros line b = .ok m → Macro.substitute S.ops m line b = .ok code → code ≠ [] →
      ∀ b2, (phrase (gramOf S) p.gram code).2 = .accept b2 → Sane S.cfg b2) : Returns (wordStage S o line ok b p).2 := by
  unfold wordStage
  refine andThen_returns (uniqueRun_calm _ _ _) ?_
  split
  · unfold macroStage
    have hm := macro_calm S.tr p.macros line hs
    cases hx : Macro.evaluate S.tr p.macros line b with
    | throw f =>
      rw [hx] at hm
      cases f with
      | num e => cases e with
        | outOfRange => exact tell_returns S.lang calm_range
        | invalidArgument => exact absurd rfl hm
      | wrongDefinition n => exact nofun
      | «calc» f => exact nofun
    | ub => exact nofun
    | ok m =>
      dsimp only
      unfold substituteStage
      have hc := substitute_calm S.ops m line hs
      cases hy : Macro.substitute S.ops m line b with
      | throw f =>
        rw [hy] at hc
        cases f with
        | num e => cases e with
          | outOfRange => exact tell_returns S.lang calm_range
          | invalidArgument => exact absurd rfl hc
        | missing v => exact nofun
      | ub => exact nofun
      | ok code =>
        dsimp only
        unfold codeStage
        by_cases hcode : code = []
        · rw [if_pos hcode]
          subst hcode
          exact systemStage_returns _ (h0 m hx hy)
        · rw [if_neg hcode]
          dsimp only
          have h2 := h1 m code hx hy hcode
          have h3 := (phrase_shape (gramOf S) code p.gram).2
          rcases hz : phrase (gramOf S) p.gram code with ⟨g, r⟩
          rw [hz] at h2 h3
          cases r with
          | accept b2 => exact codeWords_returns _ (h2 b2 rfl)
          | reject => exact codeWords_returns _ ⟨nofun, nofun⟩
          | expect b t => exact nofun
          | raise b e => rw [h3 b e rfl]; exact tell_returns S.lang calm_range
  · exact nofun

theorem subRun_flat {G : Gram} (ops : List Str) (m : MacroMap ℚ) : ∀ (b : Block) (st st' : Macro.SubSt), (∀ d, Attr.dec d ∈ b → Flat G d) →
    '[' ∉ st.text → Macro.subRun ops m line st b = .ok st' → '[' ∉ st'.text := by
  intro b
  induction b with
  | nil => intro st st' _ h0 h; unfold Macro.subRun at h; injection h with h; rw [← h]; exact h0
  | cons a b ih =>
    intro st st' hb h0 h
    unfold Macro.subRun at h
    cases hx : Macro.subStep ops m line st a with
    | throw e => rw [hx] at h; cases h
    | ub => rw [hx] at h; cases h
    | ok st1 =>
      rw [hx] at h
      refine ih st1 st' (fun d hd => hb d (by simp [hd])) ?_ h
      cases a with
      | str _ _ => unfold Macro.subStep at hx; injection hx with hx; rw [← hx]; exact h0
      | chr _ _ => unfold Macro.subStep at hx; injection hx with hx; rw [← hx]; exact h0
      | dec d =>
        have hf := hb d (by simp)
        have hdig : ∀ v : Str, (∀ c ∈ v, isDig c = true) → '[' ∉ v := fun v hv hm => absurd (hv _ hm) (by decide)
        have hval : '[' ∉ Macro.optS d.value := by
          cases hv : d.value with
          | none => simp [Macro.optS]
          | some v => exact hdig v (hf.shape.value v hv).2
        have hval2 : '[' ∉ Macro.optS d.value2 := by
          cases hv : d.value2 with
          | none => simp [Macro.optS]
          | some v => exact hdig v (hf.shape.value2 v hv).2.1
        have hdot : '[' ∉ Macro.optC d.dot := by
          cases hv : d.dot with
          | none => simp [Macro.optC]
          | some v => rw [hf.shape.dot v hv]; decide
        have hsign : '[' ∉ Macro.optC d.sign := by
          cases hv : d.sign with
          | none => simp [Macro.optC]
          | some v => rcases hf.shape.sign v hv with h | h <;> rw [h] <;> decide
        have hclose : '[' ∉ Macro.optS d.closeB := by
          cases hv : d.closeB with
          | none => simp [Macro.optS]
          | some v =>
            intro hm
            have := (hf.shape.closeB v hv).2 '[' hm
            exact absurd this (by decide)
        have hopen : Macro.optS d.openB = [] := by rw [hf.openB]; rfl
        have hnum : ∀ q : ℚ, '[' ∉ toStringTrunc q := by
          intro q
          obtain ⟨neg, x, y, he, _, hx, hy⟩ := toString_parts q
          rw [he]
          simp only [List.mem_append, not_or]
          refine ⟨⟨by unfold minus; split <;> simp, hdig x hx⟩, ?_⟩
          rcases hy with rfl | ⟨f, rfl, _, hf⟩
          · simp
          · rw [List.mem_cons, not_or]; exact ⟨by decide, hdig f hf⟩
        unfold Macro.subStep at hx
        dsimp only at hx
        split at hx
        · split at hx
          · cases hx
          · split at hx
            · cases hx
            · cases hx
            · split at hx
              · cases hx
              · injection hx with hx
                rw [← hx]
                simp only [List.mem_append, not_or, hopen]
                exact ⟨⟨⟨⟨⟨h0, hf.word⟩, hsign⟩, by simp⟩, hnum _⟩, hclose⟩
        · injection hx with hx
          rw [← hx]
          simp only [List.mem_append, not_or, hopen]
          exact ⟨⟨⟨⟨⟨⟨⟨h0, hf.word⟩, hsign⟩, by simp⟩, hval⟩, hdot⟩, hval2⟩, hclose⟩

theorem substitute_flat {G : Gram} {ops : List Str} {m : MacroMap ℚ} {b : Block} {code : Str} (hb : ∀ d, Attr.dec d ∈ b → Flat G d)
    (h : Macro.substitute ops m line b = .ok code) : '[' ∉ code := by
  unfold Macro.substitute at h
  cases hx : Macro.subRun ops m line {} b with
  | throw e => rw [hx] at h; cases h
  | ub => rw [hx] at h; cases h
  | ok st =>
    rw [hx] at h
    have h : Out.ok (if st.modified then st.text else []) = Out.ok code := h
    injection h with h
    rw [← h]
    split
    · exact subRun_flat ops m b {} st hb (by simp) hx
    · simp

/-! ## The grammar object through the stages -/

theorem andThen_gram {l : Lang} {x : Out Exc Unit} {p : Parser} {k : Parser × Out NumExc Answer} {g : PS} (hp : p.gram = g)
    (hk : k.1.gram = g) : (andThen l x p k).1.gram = g := by
  unfold andThen
  cases x with
  | ok u => exact hk
  | throw e => exact hp
  | ub => exact hp

theorem lastStage_gram (p : Parser) : (lastStage S ok b p).1.gram = p.gram := andThen_gram rfl rfl

theorem pathStage_gram (p : Parser) : (pathStage S o line ok b p).1.gram = p.gram := by
  unfold pathStage
  split
  · exact andThen_gram rfl (andThen_gram rfl (lastStage_gram _))
  · exact lastStage_gram _

theorem groupStage_gram (p : Parser) : (groupStage S o line ok b p).1.gram = p.gram := by
  unfold groupStage
  exact andThen_gram rfl (andThen_gram rfl (pathStage_gram _))

theorem analysisStage_gram (p : Parser) : (analysisStage S o line ok b p).1.gram = p.gram := by
  unfold analysisStage
  split
  · exact andThen_gram rfl (andThen_gram rfl (groupStage_gram _))
  · exact groupStage_gram _

theorem systemStage_gram (p : Parser) : (systemStage S o line ok b p).1.gram = p.gram := by
  unfold systemStage
  split
  · exact analysisStage_gram _
  · rfl
  · rfl

theorem codeWords_gram (p : Parser) : (codeWords S o line ok b p).1.gram = p.gram := by
  unfold codeWords
  exact andThen_gram rfl (systemStage_gram _)

/-- The grammar object reads the line and the code made of it, nothing else. -/
theorem wordStage_gram (p : Parser) : (wordStage S o line ok b p).1.gram = p.gram ∨
    ∃ m code, Macro.evaluate S.tr p.macros line b = .ok m ∧ Macro.substitute S.ops m line b = .ok code ∧ code ≠ [] ∧
      (wordStage S o line ok b p).1.gram = (phrase (gramOf S) p.gram code).1 := by
  unfold wordStage
  cases hu : uniqueCode (tableOf S.tables p.units) b with
  | throw e => exact .inl rfl
  | ub => exact .inl rfl
  | ok u =>
    show (if o.evalMacro then macroStage S o line ok b p else (p, .ok (ok, some p.gram.msg))).1.gram = _ ∨ ∃ m code, _ ∧ _ ∧ _ ∧
      (if o.evalMacro then macroStage S o line ok b p else (p, .ok (ok, some p.gram.msg))).1.gram = _
    split
    · unfold macroStage
      cases hx : Macro.evaluate S.tr p.macros line b with
      | throw f => cases f <;> exact .inl rfl
      | ub => exact .inl rfl
      | ok m =>
        dsimp only
        unfold substituteStage
        cases hy : Macro.substitute S.ops m line b with
        | throw f => cases f <;> exact .inl rfl
        | ub => exact .inl rfl
        | ok code =>
          dsimp only
          unfold codeStage
          by_cases hc : code = []
          · rw [if_pos hc]; exact .inl (systemStage_gram _)
          · rw [if_neg hc]
            dsimp only
            right
            refine ⟨m, code, rfl, hy, hc, ?_⟩
            rcases hz : phrase (gramOf S) p.gram code with ⟨g, r⟩
            cases r with
            | accept b2 => exact codeWords_gram _
            | reject => exact codeWords_gram _
            | expect b t => rfl
            | raise b e => rfl
    · exact .inl rfl

end

end NC.Pipe
