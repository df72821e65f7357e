import Verif.ExprProofs
import Verif.GrammarQuiet
import Verif.AssignLex
import Verif.GrammarAccept

/-! # The words of an assignment are read and pass -/

namespace NC.Gram
open NC NC.Message NC.Spec NC.Spec.Words NC.Spec.Tables NC.Spec.Assign

theorem dig_isDig (x : Fin 10) : isDig (dig x) = true := by revert x; decide

theorem digits_map {ip : List (Fin 10)} (h : ip ≠ []) : Digits (ip.map dig) := by
  refine ⟨by simpa using h, ?_⟩
  intro c hc
  obtain ⟨x, _, rfl⟩ := List.mem_map.mp hc
  exact dig_isDig x

/-- What follows the name of a word of an expression. -/
structure Body (words : WordMap) (d : Dec) : Prop where
  assign : d.assign = none
  sign : d.sign = none ∨ d.sign = some '-' ∨ d.sign = some '+'
  openB : ∀ b, d.openB = some b → b ≠ [] ∧ ∀ c ∈ b, c = '['
  closeB : ∀ b, d.closeB = some b → b ≠ [] ∧ ∀ c ∈ b, c = ']'
  figure : Figure words d

theorem Piece.body {words : WordMap} {decs : List Str} {d : Dec} (h : Piece words decs d) : Body words d :=
  ⟨h.assign, h.sign, h.openB, h.closeB, h.figure⟩

/-- What may follow a word of an expression. -/
structure Follow (t : Str) : Prop where
  first : ∀ c u, t = c :: u → isDig c = false ∧ c ≠ '.'
  next : ∀ c, hd t = some c → isDig c = false ∧ c ≠ '.' ∧ c ≠ ']' ∧ c ≠ '#' ∧ c ≠ '['

theorem close_piece {o : Option Str} (ho : ∀ b, o = some b → b ≠ [] ∧ ∀ c ∈ b, c = ']') {t : Str} (ht : Follow t) :
    (∃ t', optRun isClose (skip (o.getD [] ++ t)) = (o, t') ∧ skip t' = skip t) ∧
    (∀ c u, o.getD [] ++ t = c :: u → isDig c = false ∧ c ≠ '.') ∧
    (∀ c, hd (o.getD [] ++ t) = some c → isDig c = false ∧ c ≠ '.' ∧ c ≠ '#' ∧ c ≠ '[') := by
  have hcl : ∀ c r, skip t = c :: r → isClose c = false := by
    intro c r h
    have := (ht.next c (head_of_hd h)).2.2.1
    simpa [isClose] using this
  cases o with
  | none =>
    refine ⟨⟨skip t, optRun_back_none hcl, skip_skip t⟩, ht.first, ?_⟩
    intro c hc
    obtain ⟨h1, h2, h3, h4, h5⟩ := ht.next c hc
    exact ⟨h1, h2, h4, h5⟩
  | some b =>
    obtain ⟨hne, hb⟩ := ho b rfl
    have nb : ∀ c ∈ b, isBlank c = false := by intro c hc; rw [hb c hc]; decide
    have hfirst : ∀ c u, b ++ t = c :: u → c = ']' := by
      intro c u h
      cases b with
      | nil => exact absurd rfl hne
      | cons x b => cases h; exact hb _ (by simp)
    refine ⟨?_, ?_, ?_⟩
    · show ∃ t', optRun isClose (skip (b ++ t)) = (some b, t') ∧ skip t' = skip t
      rw [skip_append hne nb]
      by_cases hbt : ∀ c r, t = c :: r → isClose c = false
      · exact ⟨t, optRun_back hne (by intro c hc; rw [hb c hc]; decide) hbt, rfl⟩
      · exfalso
        apply hbt
        rintro c r rfl
        by_cases hc : isBlank c = true
        · have : c ≠ ']' := by rintro rfl; revert hc; decide
          simpa [isClose] using this
        · exact hcl c r (skip_of_not (by simpa using hc))
    · intro c u h
      rw [hfirst c u h]; decide
    · intro c hc
      have h1 : hd (b ++ t) = some c := hc
      rw [hd_append hne nb] at h1
      cases b with
      | nil => exact absurd rfl hne
      | cons x b =>
        cases h1
        have : c = ']' := hb c (by simp)
        subst this
        decide

theorem optDot_not {t : Str} (h : ∀ c u, t = c :: u → c ≠ '.') : optDot t = (none, t) := by
  rcases optDot_cases t with ⟨r, hr, _⟩ | ⟨e, _⟩
  · exact absurd rfl (h _ _ hr)
  · exact e

theorem value_piece {words : WordMap} {d : Dec} (h : Body words d) {t : Str} (ht : Follow t) :
    ∃ t', value d.word none d.sign d.openB (vtxt d ++ t) = (d, t') ∧ skip t' = skip t := by
  obtain ⟨⟨t', c1, c2⟩, f1, f2⟩ := close_piece h.closeB ht
  refine ⟨t', ?_, c2⟩
  have e : ∀ (m : Option Str) (r1 : Str) (v : Option Str) (r2 : Str) (p : Option Char) (r3 : Str) (v2 : Option Str) (r4 : Str),
      optHash (vtxt d ++ t) = (m, r1) → optRun isDig (skip r1) = (v, r2) → optDot r2 = (p, r3) → optRun isDig r3 = (v2, r4) →
      skip r4 = skip (d.closeB.getD [] ++ t) → d.mac = m → d.value = v → d.dot = p → d.value2 = v2 →
      value d.word none d.sign d.openB (vtxt d ++ t) = (d, t') := by
    intro m r1 v r2 p r3 v2 r4 h1 h2 h3 h4 h5 e1 e2 e3 e4
    have h6 := h.assign
    unfold value
    dsimp only
    rw [h1, h2, h3, h4, h5, c1]
    obtain ⟨_, _, _, _, _, _, _, _, _⟩ := d
    simp_all
  set T := d.closeB.getD [] ++ t with hT
  have nb : ∀ {v : Str}, Digits v → ∀ c ∈ v, isBlank c = false := fun hv c hc => dig_not_blank (hv.2 c hc)
  have nh : ∀ {v r : Str}, Digits v → hd (v ++ r) ≠ some '#' := by
    intro v r hv
    rw [hd_append hv.1 (nb hv)]
    cases v with
    | nil => exact absurd rfl hv.1
    | cons c v =>
      intro h
      have : c = '#' := by simpa using h
      subst this
      exact absurd (hv.2 '#' (by simp)) (by decide)
  have Tdig : ∀ c u, T = c :: u → isDig c = false := fun c u h => (f1 c u h).1
  have Tdot : ∀ c u, T = c :: u → c ≠ '.' := fun c u h => (f1 c u h).2
  cases h.figure with
  | none h1 h2 h3 h4 =>
    have ev : vtxt d ++ t = T := by unfold vtxt; rw [h1, h2, h3, h4, hT]; simp
    refine e none (skip T) none (skip T) none (skip T) none (skip T) ?_ ?_ ?_ ?_ (skip_skip T) h1 h2 h3 h4
    · rw [ev]
      refine optHash_other ?_
      intro hh
      exact (f2 '#' hh).2.2.1 rfl
    · rw [skip_skip]
      exact optRun_back_none (fun c r h => (f2 c (head_of_hd h)).1)
    · exact optDot_not (fun c r h => (f2 c (head_of_hd h)).2.1)
    · exact optRun_back_none (fun c r h => (f2 c (head_of_hd h)).1)
  | num ip fp h0 hn h1 h2 h3 h4 =>
    by_cases hip : ip = []
    · have hfp : fp ≠ [] := by rcases hn with h | h; exact absurd hip h; exact h
      rw [if_pos hip] at h2
      rw [if_neg hfp] at h3 h4
      have ev : vtxt d ++ t = '.' :: (fp.map dig ++ T) := by unfold vtxt; rw [h1, h2, h3, h4, hT]; simp
      have hsk : skip ('.' :: (fp.map dig ++ T)) = '.' :: (fp.map dig ++ T) := skip_of_not (by decide)
      refine e none ('.' :: (fp.map dig ++ T)) none ('.' :: (fp.map dig ++ T)) (some '.') (fp.map dig ++ T) (some (fp.map dig)) T ?_ ?_ rfl ?_ rfl h1 h2 h3 h4
      · rw [ev, optHash_other (by rw [hd_cons (by decide)]; decide), hsk]
      · rw [hsk]; refine optRun_back_none ?_; rintro c r ⟨⟩; decide
      · exact optRun_back (digits_map hfp).1 (digits_map hfp).2 Tdig
    · have dv := digits_map hip
      rw [if_neg hip] at h2
      by_cases hfp : fp = []
      · rw [if_pos hfp] at h3 h4
        have ev : vtxt d ++ t = ip.map dig ++ T := by unfold vtxt; rw [h1, h2, h3, h4, hT]; simp
        refine e none (ip.map dig ++ T) (some (ip.map dig)) T none T none T ?_ ?_ (optDot_not Tdot) (optRun_back_none Tdig) rfl h1 h2 h3 h4
        · rw [ev, optHash_other (nh dv), skip_append dv.1 (nb dv)]
        · rw [skip_append dv.1 (nb dv)]; exact optRun_back dv.1 dv.2 Tdig
      · rw [if_neg hfp] at h3 h4
        have df := digits_map hfp
        have ev : vtxt d ++ t = ip.map dig ++ ('.' :: (fp.map dig ++ T)) := by unfold vtxt; rw [h1, h2, h3, h4, hT]; simp
        refine e none (ip.map dig ++ ('.' :: (fp.map dig ++ T))) (some (ip.map dig)) ('.' :: (fp.map dig ++ T)) (some '.') (fp.map dig ++ T) (some (fp.map dig)) T
          ?_ ?_ rfl ?_ rfl h1 h2 h3 h4
        · rw [ev, optHash_other (nh dv), skip_append dv.1 (nb dv)]
        · rw [skip_append dv.1 (nb dv)]
          refine optRun_back dv.1 dv.2 ?_
          rintro c r ⟨⟩; decide
        · exact optRun_back df.1 df.2 Tdig
  | mac ip h0 h1 h2 h3 h4 =>
    have dv := digits_map h0.some
    have ev : vtxt d ++ t = '#' :: (ip.map dig ++ T) := by unfold vtxt; rw [h1, h2, h3, h4, hT]; simp
    refine e (some c!"#") (ip.map dig ++ T) (some (ip.map dig)) T none T none T ?_ ?_ (optDot_not Tdot) (optRun_back_none Tdig) rfl h1 h2 h3 h4
    · rw [ev]
      unfold optHash
      rw [skip_of_not (by decide)]
      rfl
    · rw [skip_append dv.1 (nb dv)]; exact optRun_back dv.1 dv.2 Tdig

theorem vtxt_piece {words : WordMap} {d : Dec} (h : Body words d) :
    (vtxt d = [] ∧ d.value = none ∧ d.value2 = none ∧ d.closeB = none) ∨
    ∃ c u, vtxt d = c :: u ∧ isBlank c = false ∧ c ≠ '[' ∧ c ≠ '-' ∧ c ≠ '+' ∧ c ≠ '/' := by
  have hdig : ∀ c, isDig c = true → isBlank c = false ∧ c ≠ '[' ∧ c ≠ '-' ∧ c ≠ '+' ∧ c ≠ '/' := by
    intro c hc
    refine ⟨dig_not_blank hc, ?_, ?_, ?_, ?_⟩ <;> (rintro rfl; revert hc; decide)
  have hmap : ∀ {ip : List (Fin 10)} (r : Str), ip ≠ [] → ∃ c u, ip.map dig ++ r = c :: u ∧ isBlank c = false ∧ c ≠ '[' ∧ c ≠ '-' ∧ c ≠ '+' ∧ c ≠ '/' := by
    intro ip r hip
    cases ip with
    | nil => exact absurd rfl hip
    | cons x ip => exact ⟨dig x, _, rfl, hdig _ (dig_isDig x)⟩
  cases h.figure with
  | none h1 h2 h3 h4 =>
    cases hc : d.closeB with
    | none => left; exact ⟨by unfold vtxt; rw [h1, h2, h3, h4, hc]; rfl, h2, h4, rfl⟩
    | some b =>
      right
      obtain ⟨b1, b2⟩ := h.closeB b hc
      cases b with
      | nil => exact absurd rfl b1
      | cons c b =>
        have : c = ']' := b2 c (by simp)
        subst this
        exact ⟨']', b, by unfold vtxt; rw [h1, h2, h3, h4, hc]; rfl, by decide, by decide, by decide, by decide, by decide⟩
  | num ip fp h0 hn h1 h2 h3 h4 =>
    right
    by_cases hip : ip = []
    · have hfp : fp ≠ [] := by rcases hn with h | h; exact absurd hip h; exact h
      rw [if_pos hip] at h2
      rw [if_neg hfp] at h3 h4
      exact ⟨'.', _, by unfold vtxt; rw [h1, h2, h3]; rfl, by decide, by decide, by decide, by decide, by decide⟩
    · rw [if_neg hip] at h2
      obtain ⟨c, u, e, hh⟩ := hmap (d.dot.toList ++ (d.value2.getD [] ++ d.closeB.getD [])) hip
      exact ⟨c, u, by unfold vtxt; rw [h1, h2]; exact e, hh⟩
  | mac ip h0 h1 h2 h3 h4 =>
    right
    exact ⟨'#', _, by unfold vtxt; rw [h1]; rfl, by decide, by decide, by decide, by decide, by decide⟩

theorem operand_piece {words : WordMap} {d : Dec} (h : Body words d) {t : Str} (ht : Follow t)
    (hb : Bare d → hd t ≠ some '-' ∧ hd t ≠ some '+') :
    ∃ t', operand d.word none (otxt d ++ t) = (d, t') ∧ skip t' = skip t := by
  obtain ⟨t', v1, v2⟩ := value_piece h ht
  refine ⟨t', ?_, v2⟩
  have hvo : ∀ c r, skip (vtxt d ++ t) = c :: r → c ≠ '[' := by
    intro c r hcr
    rcases vtxt_piece h with ⟨e, _⟩ | ⟨x, u, e, hx, hx', _⟩
    · rw [e, List.nil_append] at hcr
      exact (ht.next c (head_of_hd hcr)).2.2.2.2
    · rw [e, List.cons_append, skip_of_not hx] at hcr
      cases hcr; exact hx'
  have hopen : ∃ r, optRun isOpen (skip (d.openB.getD [] ++ (vtxt d ++ t))) = (d.openB, r) ∧ value d.word none d.sign d.openB r = (d, t') := by
    cases ho : d.openB with
    | none =>
      refine ⟨skip (vtxt d ++ t), ?_, ?_⟩
      · show optRun isOpen (skip (vtxt d ++ t)) = _
        exact optRun_back_none (fun c r hcr => by simpa [isOpen] using hvo c r hcr)
      · rw [value_skip, ← ho]; exact v1
    | some b =>
      obtain ⟨hne, hbb⟩ := h.openB b ho
      have nb : ∀ c ∈ b, isBlank c = false := by intro c hc; rw [hbb c hc]; decide
      refine ⟨vtxt d ++ t, ?_, by rw [← ho]; exact v1⟩
      show optRun isOpen (skip (b ++ (vtxt d ++ t))) = _
      rw [skip_append hne nb]
      refine optRun_back hne (by intro c hc; rw [hbb c hc]; decide) ?_
      intro c r hcr
      by_cases hc : isBlank c = true
      · have : c ≠ '[' := by rintro rfl; revert hc; decide
        simpa [isOpen] using this
      · have : c ≠ '[' := hvo c r (by rw [hcr]; exact skip_of_not (by simpa using hc))
        simpa [isOpen] using this
  obtain ⟨r, o1, o2⟩ := hopen
  have e0 : otxt d ++ t = d.sign.toList ++ (d.openB.getD [] ++ (vtxt d ++ t)) := by unfold otxt; simp
  unfold operand
  dsimp only
  rcases h.sign with e | e | e
  · have hs : optSign (otxt d ++ t) = (none, skip (d.openB.getD [] ++ (vtxt d ++ t))) := by
      rw [e0, e]
      simp only [Option.toList_none, List.nil_append]
      have hx : hd (d.openB.getD [] ++ (vtxt d ++ t)) ≠ some '-' ∧ hd (d.openB.getD [] ++ (vtxt d ++ t)) ≠ some '+' := by
        cases ho : d.openB with
        | some b =>
          obtain ⟨hne, hbb⟩ := h.openB b ho
          have nb : ∀ c ∈ b, isBlank c = false := by intro c hc; rw [hbb c hc]; decide
          show hd (b ++ (vtxt d ++ t)) ≠ _ ∧ hd (b ++ (vtxt d ++ t)) ≠ _
          rw [hd_append hne nb]
          cases b with
          | nil => exact absurd rfl hne
          | cons c b => rw [hbb c (by simp)]; exact ⟨by simp, by simp⟩
        | none =>
          show hd (vtxt d ++ t) ≠ _ ∧ hd (vtxt d ++ t) ≠ _
          rcases vtxt_piece h with ⟨e', h1, h2, h3⟩ | ⟨x, u, e', hx, _, hx1, hx2, _⟩
          · rw [e', List.nil_append]; exact hb ⟨e, ho, h1, h2, h3⟩
          · rw [e', List.cons_append, hd_cons hx]
            exact ⟨by simpa using hx1, by simpa using hx2⟩
      exact optSign_other hx.1 hx.2
    rw [hs, skip_skip, o1]
    rw [e] at o2
    exact o2
  · have hs : optSign (otxt d ++ t) = (some '-', d.openB.getD [] ++ (vtxt d ++ t)) := by
      rw [e0, e]
      unfold optSign
      simp only [Option.toList_some, List.singleton_append]
      rw [skip_of_not (by decide)]
      rfl
    rw [hs, o1]
    rw [e] at o2
    exact o2
  · have hs : optSign (otxt d ++ t) = (some '+', d.openB.getD [] ++ (vtxt d ++ t)) := by
      rw [e0, e]
      unfold optSign
      simp only [Option.toList_some, List.singleton_append]
      rw [skip_of_not (by decide)]
      rfl
    rw [hs, o1]
    rw [e] at o2
    exact o2

/-! ## The words pass -/

/-- Brackets opened less brackets closed so far. -/
def bal (s : Status) : Int := s.opened - s.closed

theorem bal_addOpen (d : Dec) (s : Status) : bal (addOpen d s) = bal s + openLen d := by
  unfold addOpen bal openLen
  cases d.openB <;> simp <;> ring

theorem bal_addClose (d : Dec) (s : Status) : bal (addClose d s) = bal s - closeLen d := by
  unfold addClose bal closeLen
  cases d.closeB <;> simp <;> ring

theorem bal_noteMacro (d : Dec) (s : Status) : bal (noteMacro d s) = bal s := by
  unfold noteMacro bal
  split
  · rfl
  · split <;> rfl

theorem bal_takeOff (d : Dec) (s : Status) : bal (takeOff d s) = bal s := by
  unfold takeOff bal
  cases d.closeB <;> simp

theorem short_worth {ip : List (Fin 10)} (h : ip ≠ []) (hs : worthOf ip ≤ 2147483647) : Proper.Short (ip.map dig) := ⟨digits_map h, hs⟩

theorem closeLen_nonneg (d : Dec) : 0 ≤ closeLen d := by unfold closeLen; exact Int.natCast_nonneg _

/-- A word of an expression passes when the brackets match so far. -/
theorem verify_piece {words : WordMap} {decs : List Str} {lang : Lang} {d : Dec} (h : Piece words decs d) (s : Status)
    (hk : WordMap.find words c!"=" ≠ none) (hm : s.wasMacro = true) (hq : d.word = c!"=" ∨ s.wasEq = true) (hb : 0 ≤ bal s + net d) :
    (verify words lang d s).2 = .pass ∧ (verify words lang d s).1.wasMacro = true ∧ (verify words lang d s).1.wasEq = true ∧
    bal s + net d ≤ bal (verify words lang d s).1 := by
  have hc0 := closeLen_nonneg d
  unfold verify
  cases hw : WordMap.find words d.word with
  | none =>
    dsimp only
    have hwe : s.wasEq = true := by
      rcases hq with e | e
      · rw [e] at hw; exact absurd hw hk
      · exact e
    refine ⟨rfl, ?_, ?_, ?_⟩
    · unfold addOpen; cases d.openB <;> exact hm
    · unfold addOpen; cases d.openB <;> exact hwe
    · rw [bal_addOpen]; unfold net; omega
  | some wg =>
    dsimp only
    have hj : d.word ∈ joints := by
      rcases h.word with hj | ⟨⟨_, hn⟩, _⟩
      · exact hj
      · rw [hw] at hn; cases hn
    have hash : d.word ≠ c!"#" := by intro e; rw [e] at hj; revert hj; decide
    generalize hs3 : addClose d (noteMacro d (addOpen d s)) = s3
    have b3 : bal s3 = bal s + net d := by
      rw [← hs3, bal_addClose, bal_noteMacro, bal_addOpen]; unfold net; omega
    have m1 : (addOpen d s).wasMacro = true := by unfold addOpen; cases d.openB <;> exact hm
    have q1 : s.wasEq = true → (addOpen d s).wasEq = true := by intro e; unfold addOpen; cases d.openB <;> exact e
    have m2 : (noteMacro d (addOpen d s)).wasMacro = true ∧ (noteMacro d (addOpen d s)).wasEq = true := by
      unfold noteMacro
      rw [if_neg hash]
      by_cases he : d.word = c!"="
      · rw [if_pos (by rw [m1, he]; rfl)]; exact ⟨m1, rfl⟩
      · rw [if_neg (by simp [he])]
        exact ⟨m1, q1 (by tauto)⟩
    have m3 : s3.wasMacro = true ∧ s3.wasEq = true := by
      rw [← hs3]; unfold addClose; cases d.closeB <;> exact m2
    have ok : ∀ s', s' = s3 ∨ s' = takeOff d s3 → s'.wasMacro = true ∧ s'.wasEq = true ∧ bal s + net d ≤ bal s' := by
      rintro s' (rfl | rfl)
      · exact ⟨m3.1, m3.2, by omega⟩
      · refine ⟨?_, ?_, by rw [bal_takeOff]; omega⟩
        · unfold takeOff; cases d.closeB <;> exact m3.1
        · unfold takeOff; cases d.closeB <;> exact m3.2
    suffices hh : (judge words lang wg s3 d).2 = .pass ∧ ((judge words lang wg s3 d).1 = s3 ∨ (judge words lang wg s3 d).1 = takeOff d s3) by
      exact ⟨hh.1, ok _ hh.2⟩
    unfold judge
    have e3 : bal s3 = s3.opened - s3.closed := rfl
    rw [if_neg (by rintro ⟨_, h'⟩; omega)]
    have missing : ∀ s', judgeMissing lang wg s' d = .pass := by
      intro s'
      unfold judgeMissing
      refine if_pos (.inr ?_)
      revert hj
      unfold joints isOp
      simp only [List.mem_cons, List.mem_nil_iff, or_false, Bool.or_eq_true, decide_eq_true_eq]
      tauto
    have nsl : ¬ (d.word = c!"/" ∧ s3.wasMacro = false) := by rw [m3.1]; simp
    cases h.figure with
    | none h1 h2 h3 h4 =>
      rw [h1]
      dsimp only
      unfold judgePlain
      rw [if_neg nsl, h2]
      refine ⟨?_, .inl rfl⟩
      show judgeNoValue lang wg s3 d = .pass
      unfold judgeNoValue
      rw [h4, missing]
      simp
    | mac ip h0 h1 h2 h3 h4 =>
      rw [h1]
      refine ⟨?_, .inl rfl⟩
      show judgeMacro words lang c!"#" d.value = .pass
      rw [h2]
      unfold judgeMacro
      dsimp only
      rw [stoi_short (short_worth h0.some h0.whole)]
      show judgeInt words lang c!"#" _ = .pass
      unfold judgeInt
      cases hh : WordMap.find words c!"#" with
      | none => rfl
      | some wg' =>
        obtain ⟨h7, h8⟩ := h0.range wg' hh
        unfold worthOf at h7 h8
        dsimp only
        rw [if_neg (by omega)]
    | num ip fp h0 hn h1 h2 h3 h4 =>
      have fraction : ∀ f, d.value2 = some f → wg.decTo ≠ 0 ∧ judgeDecimals lang wg d f = .pass := by
        intro f hf
        rw [h4] at hf
        split at hf
        · cases hf
        · rename_i hfp
          cases hf
          obtain ⟨k1, k2, k3⟩ := h0.decimals hfp d.word hj wg hw
          refine ⟨by omega, decimals_of (short_worth hfp h0.part) ⟨digits_map hfp, ?_, k2, k3⟩⟩
          rw [h3, if_neg hfp]
      rw [h1]
      dsimp only
      unfold judgePlain
      rw [if_neg nsl]
      by_cases hip : ip = []
      · rw [h2, if_pos hip]
        refine ⟨?_, .inl rfl⟩
        show judgeNoValue lang wg s3 d = .pass
        unfold judgeNoValue
        split
        · exact missing _
        · cases hv : d.value2 with
          | none => exact missing _
          | some f => exact (fraction f hv).2
      · rw [h2, if_neg hip]
        dsimp only
        unfold judgeValue
        rw [stoi_short (short_worth hip h0.whole)]
        dsimp only
        obtain ⟨r1, r2⟩ := h0.range d.word hj wg hw
        unfold worthOf at r1 r2
        have hsig : wg.rangeFrom ≤ signed d (readNat (ip.map dig) : Int) ∧ signed d (readNat (ip.map dig) : Int) ≤ wg.rangeTo := by
          unfold signed
          split <;> omega
        rw [if_neg (by omega)]
        split
        · exact ⟨rfl, .inr rfl⟩
        · rw [if_neg (by rintro ⟨_, hx⟩; exact hx m3)]
          refine ⟨?_, .inl rfl⟩
          show judgeFraction lang wg d = .pass
          unfold judgeFraction
          by_cases hfp : fp = []
          · rw [h3, h4, if_pos hfp, if_pos hfp]; simp
          · obtain ⟨k1, k2⟩ := fraction (fp.map dig) (by rw [h4, if_neg hfp])
            rw [if_neg k1, h4, if_neg hfp]
            exact k2

/-- The variable in front of `=`. -/
def target (ip : List (Fin 10)) : Dec := { word := c!"#", value := some (ip.map dig) }

theorem verify_target {words : WordMap} {lang : Lang} {ip : List (Fin 10)} (h : Numeral words ip) (s : Status)
    (hk : WordMap.find words c!"#" ≠ none) :
    (verify words lang (target ip) s).2 = .pass ∧ (verify words lang (target ip) s).1.wasMacro = true ∧
    bal (verify words lang (target ip) s).1 = bal s := by
  unfold verify
  cases hw : WordMap.find words (target ip).word with
  | none => exact absurd hw hk
  | some wg =>
    obtain ⟨r1, r2⟩ := h.range wg hw
    unfold worthOf at r1 r2
    have key : judge words lang wg (addClose (target ip) (noteMacro (target ip) (addOpen (target ip) s))) (target ip) =
        ({ s with wasMacro := true }, .pass) := by
      have e0 : addClose (target ip) (noteMacro (target ip) (addOpen (target ip) s)) = { s with wasMacro := true } := rfl
      rw [e0]
      unfold judge
      rw [if_neg (by simp [target])]
      show judgePlain lang wg _ (target ip) = _
      unfold judgePlain
      rw [if_neg (by simp)]
      show judgeValue lang wg _ (target ip) (ip.map dig) = _
      unfold judgeValue
      rw [stoi_short (short_worth h.some h.whole)]
      dsimp only
      have op : ¬ isOp (target ip).word = true := by show ¬ isOp c!"#" = true; decide
      have hsig : signed (target ip) (readNat (ip.map dig) : Int) = (readNat (ip.map dig) : Int) := rfl
      rw [hsig, if_neg (by omega), if_neg (by rintro ⟨h', _⟩; exact absurd h' op), if_neg (by rintro ⟨h', _⟩; exact absurd h' op)]
      unfold judgeFraction
      split <;> rfl
    dsimp only
    rw [key]
    exact ⟨rfl, rfl, rfl⟩

/-! ## The words are read -/

section
variable {G : Gram} (R : RegularG G)
include R

omit R in
theorem sole_symbol {w y : Str} (h : Sole G.syms.decs w) (hne : w ≠ []) : symbol G.syms.decs (w ++ y) = some (w, y) := by
  refine symbol_eq (longest_eq_some h.1 hne (List.prefix_append _ _) ?_) rfl
  intro u hu hp
  by_contra hlt
  have hwu : w <+: u := List.prefix_of_prefix_length_le (List.prefix_append _ _) hp (by omega)
  rw [h.2 u hu hwu] at hlt
  exact hlt (le_refl _)

omit R in
theorem ahead_none {x : Str} (h : '=' ∉ skip x) : assignAhead G x = false := by
  unfold assignAhead
  cases hy : symbol G.syms.assigns (skip x) with
  | none => rfl
  | some p =>
    obtain ⟨v, rest⟩ := p
    obtain ⟨_, v2⟩ := symbol_some hy
    dsimp only
    split
    · rename_i q hq
      exfalso
      apply h
      rw [v2]
      refine List.mem_append_right _ ?_
      have : '=' ∈ skip rest := by rw [hq]; simp
      unfold skip at this
      exact (List.dropWhile_sublist _).subset this
    · rfl

theorem ahead_head {x u : Str} {c : Char} (hx : skip x = c :: u) (h : ∀ w ∈ G.syms.assigns, w.head? ≠ some c) : assignAhead G x = false := by
  unfold assignAhead
  have : symbol G.syms.assigns (skip x) = none := by
    rw [symbol_none]
    apply longest_eq_none
    intro w hw hne hp
    exact h w hw (prefix_head R hne hp hx)
  rw [this]

omit R in
theorem checked_passes {ps : PS} {d : Dec} {r : Str} (h : (verify G.words G.lang d ps.st).2 = .pass) :
    checked G ps (d, r) = ({ ps with st := (verify G.words G.lang d ps.st).1 }, .match_ (.dec d) r) := by
  unfold checked
  dsimp only
  rw [h]

omit R in
theorem decimal_read {x t t' : Str} {d : Dec} {ps : PS} (hS : Sole G.syms.decs d.word) (hne : d.word ≠ []) (hx : skip x = txt d ++ t)
    (ha : assignAhead G x = false) (ho : operand d.word none (otxt d ++ t) = (d, t'))
    (hv : (verify G.words G.lang d ps.st).2 = .pass) :
    decimalRule G ps x = ({ ps with st := (verify G.words G.lang d ps.st).1 }, .match_ (.dec d) t') := by
  unfold decimalRule
  rw [ha, hx]
  have e : txt d ++ t = d.word ++ (otxt d ++ t) := by unfold txt; simp
  rw [e, sole_symbol hS hne]
  show checked G ps (operand d.word none (otxt d ++ t)) = _
  rw [ho, checked_passes hv]

/-- A word of an expression is read. -/
theorem piece_read {d : Dec} (hS : Signs G.words G.syms.decs G.syms.assigns) (h : Piece G.words G.syms.decs d) {t : Str} (ht : Follow t)
    (hb : Bare d → hd t ≠ some '-' ∧ hd t ≠ some '+') (hsl : hd t ≠ some '/' ∨ ¬ Bare d) (he : d.word ≠ c!"=" → '=' ∉ txt d ++ t)
    {x : Str} (hx : skip x = txt d ++ t) (ps : PS) (hv : (verify G.words G.lang d ps.st).2 = .pass) :
    ∃ t', lineAttribute G ps x = ({ ps with st := (verify G.words G.lang d ps.st).1 }, .match_ (.dec d) t') ∧ skip t' = skip t := by
  obtain ⟨t', o1, o2⟩ := operand_piece h.body ht hb
  refine ⟨t', ?_, o2⟩
  by_cases hw : d.word = c!"/"
  · have hx' : skip x = '/' :: (otxt d ++ t) := by rw [hx]; unfold txt; rw [hw]; rfl
    have hc : charRule G x = .fail := char_fail_head R hx' (by decide)
    obtain ⟨s1, s2⟩ := symbol_reserved R hx' (by decide)
    have h0 : decimalRule G ps x = (ps, .fail) := by
      unfold decimalRule
      rw [s1]
      split <;> rfl
    refine line_division hc h0 ?_
    rw [division_eq hx', if_neg, ← hw, o1, checked_passes hv]
    unfold slashNext
    split
    · rename_i r hr
      exfalso
      have e0 : otxt d ++ t = d.sign.toList ++ (d.openB.getD [] ++ (vtxt d ++ t)) := by unfold otxt; simp
      rw [e0] at hr
      rcases h.sign with e | e | e
      · rw [e] at hr
        simp only [Option.toList_none, List.nil_append] at hr
        cases hop : d.openB with
        | some b =>
          obtain ⟨hne, hbb⟩ := h.openB b hop
          rw [hop] at hr
          cases b with
          | nil => exact absurd rfl hne
          | cons c b =>
            have : c = '[' := hbb c (by simp)
            subst this
            have hr' : skip ('[' :: (b ++ (vtxt d ++ t))) = '/' :: r := hr
            rw [skip_of_not (by decide)] at hr'
            cases hr'
        | none =>
          rw [hop] at hr
          have hr' : skip (vtxt d ++ t) = '/' :: r := hr
          rcases vtxt_piece h.body with ⟨e', h1, h2, h3⟩ | ⟨y, u, e', hy, _, _, _, hy'⟩
          · rw [e', List.nil_append] at hr'
            rcases hsl with hsl | hsl
            · exact hsl (head_of_hd hr')
            · exact hsl ⟨e, hop, h1, h2, h3⟩
          · rw [e', List.cons_append, skip_of_not hy] at hr'
            cases hr'
            exact hy' rfl
      · rw [e] at hr
        simp only [Option.toList_some, List.singleton_append] at hr
        rw [skip_of_not (by decide)] at hr
        cases hr
      · rw [e] at hr
        simp only [Option.toList_some, List.singleton_append] at hr
        rw [skip_of_not (by decide)] at hr
        cases hr
    · simp
  · have hsole : Sole G.syms.decs d.word := by
      rcases h.word with hj | hn
      · have : d.word = c!"=" ∨ d.word = c!"+" ∨ d.word = c!"-" ∨ d.word = c!"*" := by
          revert hj; unfold joints
          simp only [List.mem_cons, List.mem_nil_iff, or_false]
          tauto
        rcases this with e | e | e | e <;> rw [e]
        · exact hS.eq
        · exact hS.plus
        · exact hS.minus
        · exact hS.times
      · exact hn.1.1
    obtain ⟨c, u, hcu, hcomma⟩ : ∃ c u, d.word = c :: u ∧ c ≠ ',' := by
      rcases h.word with hj | ⟨_, c, u, e, _, h1, h2⟩
      · revert hj; unfold joints
        simp only [List.mem_cons, List.mem_nil_iff, or_false]
        rintro (e | e | e | e | e) <;> exact ⟨_, _, e, by decide⟩
      · exact ⟨c, u, e, by rintro rfl; revert h1; decide⟩
    have hne : d.word ≠ [] := by rw [hcu]; simp
    have hx' : skip x = c :: (u ++ (otxt d ++ t)) := by rw [hx]; unfold txt; rw [hcu]; simp
    refine line_decimal (char_fail_head R hx' hcomma) (decimal_read hsole hne hx ?_ o1 hv)
    by_cases hq : d.word = c!"="
    · rw [hq] at hcu
      cases hcu
      refine ahead_head R hx' ?_
      intro w hw' hh
      refine R.2.noEquals w hw' ?_
      cases w with
      | nil => cases hh
      | cons y w => cases hh; simp
    · refine ahead_none ?_
      rw [hx]
      exact he hq

omit R in
/-- How a word of an expression begins. -/
theorem piece_start {words : WordMap} {decs : List Str} {d : Dec} (h : Piece words decs d) (he : d.word ≠ c!"=") :
    ∃ c u, d.word = c :: u ∧ isBlank c = false ∧ isDig c = false ∧ c ≠ '.' ∧ c ≠ ']' ∧ c ≠ '#' ∧ c ≠ '[' ∧
      (c = '-' → d.word = c!"-") ∧ (c = '+' → d.word = c!"+") ∧ (c = '/' → d.word = c!"/") := by
  rcases h.word with hj | ⟨_, c, u, e, _, h1, h2⟩
  · revert hj; unfold joints
    simp only [List.mem_cons, List.mem_nil_iff, or_false]
    rintro (e | e | e | e | e)
    · exact absurd e he
    all_goals
      rw [e]
      exact ⟨_, _, rfl, by decide, by decide, by decide, by decide, by decide, by decide, by decide, by decide, by decide⟩
  · refine ⟨c, u, e, ?_, ?_, ?_, ?_, ?_, ?_, ?_, ?_, ?_⟩
    · by_contra hb
      have : c = ' ' ∨ c = '\t' := by
        have h' : isBlank c = true := by simpa using hb
        unfold isBlank at h'
        simpa only [Bool.or_eq_true, decide_eq_true_eq] using h'
      rcases this with rfl | rfl <;> revert h1 <;> decide
    · by_contra hb
      have hb : isDig c = true := by simpa using hb
      unfold isDig at hb
      simp only [Bool.and_eq_true, decide_eq_true_eq] at hb
      exact absurd (Char.le_trans h1 hb.2) (by decide)
    all_goals (rintro rfl; first | exact absurd h1 (by decide) | exact absurd h2 (by decide))

/-- `=` is not written in a word of an expression. -/
theorem piece_eq {d : Dec} (h : Piece G.words G.syms.decs d) (he : d.word ≠ c!"=") : '=' ∉ txt d := by
  have hword : '=' ∉ d.word := by
    rcases h.word with hj | ⟨⟨hn, _⟩, _⟩
    · revert hj he; unfold joints
      simp only [List.mem_cons, List.mem_nil_iff, or_false]
      rintro he (e | e | e | e | e)
      · exact absurd e he
      all_goals rw [e]; decide
    · intro hc; exact he (R.2.equals _ hn.1 hc)
  have hdig : ∀ ip : List (Fin 10), '=' ∉ ip.map dig := by
    intro ip hc
    obtain ⟨x, _, hx⟩ := List.mem_map.mp hc
    have := dig_isDig x
    rw [hx] at this
    revert this; decide
  unfold txt otxt vtxt
  simp only [List.mem_append, not_or]
  refine ⟨hword, ?_, ?_, ?_, ?_, ?_, ?_, ?_⟩
  · rcases h.sign with e | e | e <;> rw [e] <;> decide
  · cases ho : d.openB with
    | none => simp
    | some b => intro hc; have := (h.openB b ho).2 _ hc; revert this; decide
  · cases h.figure with
    | none h1 _ _ _ => rw [h1]; simp
    | num _ _ _ _ h1 _ _ _ => rw [h1]; simp
    | mac _ _ h1 _ _ _ => rw [h1]; decide
  · cases h.figure with
    | none _ h1 _ _ => rw [h1]; simp
    | num ip _ _ _ _ h1 _ _ => rw [h1]; split; simp; exact hdig ip
    | mac ip _ _ h1 _ _ => rw [h1]; exact hdig ip
  · cases h.figure with
    | none _ _ h1 _ => rw [h1]; simp
    | num _ fp _ _ _ _ h1 _ => rw [h1]; split <;> decide
    | mac _ _ _ _ h1 _ => rw [h1]; simp
  · cases h.figure with
    | none _ _ _ h1 => rw [h1]; simp
    | num _ fp _ _ _ _ _ h1 => rw [h1]; split; simp; exact hdig fp
    | mac _ _ _ _ _ h1 => rw [h1]; simp
  · cases ho : d.closeB with
    | none => simp
    | some b => intro hc; have := (h.closeB b ho).2 _ hc; revert this; decide

omit R in
theorem blank_all {suf : Str} (hs : skip suf = []) : ∀ c ∈ suf, isBlank c = true := by
  induction suf with
  | nil => simp
  | cons c suf ih =>
    have hc : isBlank c = true := by
      by_contra hc
      rw [skip_of_not (by simpa using hc)] at hs
      cases hs
    rw [skip_of_blank hc] at hs
    intro x hx
    rcases List.mem_cons.mp hx with rfl | hx
    · exact hc
    · exact ih hs x hx

omit R in
theorem follow_end {suf : Str} (hs : skip suf = []) : Follow suf := by
  constructor
  · rintro c u rfl
    have hc := blank_all hs c (by simp)
    exact ⟨(blank_not hc).1, (blank_not hc).2.1⟩
  · intro c hc
    unfold hd at hc
    rw [hs] at hc
    cases hc

theorem pieces_read (hS : Signs G.words G.syms.decs G.syms.assigns) {suf : Str} (hs : skip suf = []) :
    ∀ (l : List Dec) (d : Dec) (x : Str) (ps : PS), (∀ p ∈ d :: l, Piece G.words G.syms.decs p) → List.IsChain Seam (d :: l) →
      (∀ p ∈ l, p.word ≠ c!"=") → ps.st.wasMacro = true → (d.word = c!"=" ∨ ps.st.wasEq = true) → Above 0 (bal ps.st) (d :: l) →
      skip x = txts (d :: l) ++ suf →
      ∃ ps', Words G ps x ps' ((d :: l).map .dec) ∧ bal ps.st + sumNet (d :: l) ≤ bal ps'.st := by
  have hnone : hd suf = none := by unfold hd; rw [hs]; rfl
  have hsuf : '=' ∉ suf := by intro hc; have := blank_all hs _ hc; revert this; decide
  intro l
  induction l with
  | nil =>
    intro d x ps hp hch hl hm hq ha hx
    have hd := hp d (by simp)
    obtain ⟨v1, v2, v3, v4⟩ := verify_piece (lang := G.lang) hd ps.st hS.eqKnown hm hq ha.1
    obtain ⟨t', r1, r2⟩ := piece_read R hS hd (follow_end hs) (fun _ => by rw [hnone]; simp) (.inl (by rw [hnone]; simp))
      (fun he hc => by
        rcases List.mem_append.mp hc with hc | hc
        · exact piece_eq R hd he hc
        · exact hsuf hc) (x := x) (by rw [hx, txts_cons]; simp [txts]) ps v1
    refine ⟨_, .word r1 (.done _ _ (by rw [r2, hs])), ?_⟩
    simpa [sumNet] using v4
  | cons d' l ih =>
    intro d x ps hp hch hl hm hq ha hx
    have hd := hp d (by simp)
    have hd' := hp d' (by simp)
    have he' := hl d' (by simp)
    obtain ⟨v1, v2, v3, v4⟩ := verify_piece (lang := G.lang) hd ps.st hS.eqKnown hm hq ha.1
    obtain ⟨c, u, e, s1, s2, s3, s4, s5, s6, s7, s8, s9⟩ := piece_start hd' he'
    obtain ⟨c1, c2⟩ := List.isChain_cons_cons.mp hch
    have et : txts (d' :: l) ++ suf = c :: (u ++ (otxt d' ++ (txts l ++ suf))) := by
      rw [txts_cons]; unfold txt; rw [e]; simp
    have hhd : Gram.hd (txts (d' :: l) ++ suf) = some c := by rw [et, hd_cons s1]
    have hfol : Follow (txts (d' :: l) ++ suf) := by
      constructor
      · intro c' u' h'
        rw [et] at h'
        cases h'
        exact ⟨s2, s3⟩
      · intro c' h'
        rw [hhd] at h'
        cases h'
        exact ⟨s2, s3, s4, s5, s6⟩
    have hnoeq : '=' ∉ txts (d' :: l) ++ suf := by
      intro hc
      rcases List.mem_append.mp hc with hc | hc
      · unfold txts at hc
        obtain ⟨p, hpm, hpc⟩ := List.mem_flatMap.mp hc
        exact piece_eq R (hp p (by simp only [List.mem_cons] at hpm ⊢; tauto)) (hl p hpm) hpc
      · exact hsuf hc
    obtain ⟨t', r1, r2⟩ := piece_read R hS hd hfol
      (fun hb => by
        obtain ⟨b1, b2, b3⟩ := c1 hb
        rw [hhd]
        exact ⟨fun h' => b2 (s7 (by simpa using h')), fun h' => b1 (s8 (by simpa using h'))⟩)
      (by
        by_cases hb : Bare d
        · obtain ⟨b1, b2, b3⟩ := c1 hb
          left
          rw [hhd]
          exact fun h' => b3 (s9 (by simpa using h'))
        · exact .inr hb)
      (fun he hc => by
        rcases List.mem_append.mp hc with hc | hc
        · exact piece_eq R hd he hc
        · exact hnoeq hc) (x := x) (by rw [hx, txts_cons]; simp) ps v1
    obtain ⟨ps', w1, w2⟩ := ih d' t' { ps with st := (verify G.words G.lang d ps.st).1 } (fun p hpm => hp p (by simp only [List.mem_cons] at hpm ⊢; tauto))
      c2 (fun p hpm => hl p (by simp [hpm])) v2 (.inr v3) (above_shift ha.2 (by dsimp only; omega))
      (by rw [r2, et, skip_of_not s1])
    refine ⟨ps', .word r1 w1, ?_⟩
    rw [sumNet_cons]
    dsimp only at w2
    omega

/-- The words of the assignment `#n=e`. -/
def assignWords (ip : List (Fin 10)) (e : E) : List Dec :=
  target ip :: ((lexE (wordOf c!"=") e).1 ++ [(lexE (wordOf c!"=") e).2])

/-- An assignment is read as its words; the count of brackets does not fall. -/
theorem assign_read (hS : Signs G.words G.syms.decs G.syms.assigns) {ip : List (Fin 10)} (hip : Numeral G.words ip) {e : E}
    (he : FitE G.words G.syms.decs e) {suf : Str} (hs : skip suf = []) (ps : PS) (hb : 0 ≤ bal ps.st) :
    ∃ ps', Words G ps (Assign.text ip e ++ suf) ps' ((assignWords ip e).map .dec) ∧ bal ps.st ≤ bal ps'.st := by
  have hL := lexE_spec e he (wordOf c!"=") (piece_wordOf (.inl (by decide))) (begun_wordOf _)
  obtain ⟨d, t, f1, f2, f3⟩ := hL.first
  obtain ⟨v1, v2, v3⟩ := verify_target (lang := G.lang) hip ps.st hS.hashKnown
  have etx : txts (d :: t) = '=' :: e.pr := by
    rw [← f1, txts_append]
    have := hL.text
    rw [txt_wordOf] at this
    simpa [txts] using this
  have hbody : Body ([] : WordMap) (target ip) := by
    refine ⟨rfl, .inl rfl, by simp [target], by simp [target], ?_⟩
    refine .num ip [] ⟨hip.whole, by decide, fun w _ wg h => (by cases h), fun h => absurd rfl h⟩ (.inl hip.some) rfl ?_ rfl rfl
    rw [if_neg hip.some]; rfl
  have hfol : Follow ('=' :: (e.pr ++ suf)) := by
    constructor
    · rintro c u ⟨⟩; decide
    · intro c hc
      rw [hd_cons (by decide)] at hc
      cases hc; decide
  have hnb : ¬ Bare (target ip) := by rintro ⟨_, _, h, _⟩; cases h
  obtain ⟨t', o1, o2⟩ := operand_piece hbody hfol (fun h => absurd h hnb)
  have ett : txt (target ip) = '#' :: ip.map dig := by simp [txt, otxt, vtxt, target]
  have hx : skip (Assign.text ip e ++ suf) = txt (target ip) ++ ('=' :: (e.pr ++ suf)) := by
    rw [ett]
    unfold Assign.text
    rw [List.cons_append, List.cons_append, skip_of_not (by decide)]
    simp
  have hx' : skip (Assign.text ip e ++ suf) = '#' :: (ip.map dig ++ ('=' :: (e.pr ++ suf))) := by rw [hx, ett]; rfl
  have h1 : lineAttribute G ps (Assign.text ip e ++ suf) = ({ ps with st := (verify G.words G.lang (target ip) ps.st).1 }, .match_ (.dec (target ip)) t') := by
    refine line_decimal (char_fail_head R hx' (by decide)) (decimal_read hS.hash (by simp [target]) hx ?_ o1 v1)
    exact ahead_head R hx' hS.assigns
  have habove : Above 0 (bal (verify G.words G.lang (target ip) ps.st).1) (d :: t) := by
    rw [← f1, above_append]
    have hT := hL.total
    have hA := hL.above
    have e0 : openLen (wordOf c!"=") = 0 := rfl
    rw [e0] at hT hA
    refine ⟨above_shift hA (by omega), ?_, trivial⟩
    omega
  have hsum : sumNet (d :: t) = 0 := by
    rw [← f1, sumNet_append]
    have hT := hL.total
    have e0 : openLen (wordOf c!"=") = 0 := rfl
    rw [e0] at hT
    simpa [sumNet] using hT
  obtain ⟨ps', w1, w2⟩ := pieces_read R hS hs t d t' { ps with st := (verify G.words G.lang (target ip) ps.st).1 }
    (by
      intro p hp
      rw [← f1] at hp
      rcases List.mem_append.mp hp with hp | hp
      · exact hL.pieces p hp
      · rw [List.mem_singleton.mp hp]; exact hL.last)
    (by rw [← f1]; exact hL.chain) f3 v2 (.inl f2) habove
    (by rw [o2, etx, skip_of_not (by decide)]; rfl)
  refine ⟨ps', .word h1 ?_, ?_⟩
  · rw [f1]; exact w1
  · dsimp only at w2
    omega

end

/-! ## Values and the variables that are read -/

mutual
theorem val_readsE {words : WordMap} {decs : List Str} (tr : Fun → ℚ → Option ℚ) {look look' : Nat → Option ℚ} : ∀ e : E, FitE words decs e →
    (∀ i ∈ readsE e, look i = look' i) → e.val tr look = e.val tr look'
  | .one t, h, hr => by
    rw [FitE] at h; rw [readsE] at hr; rw [E.val, E.val]
    exact val_readsT tr t h hr
  | .bin e op t, h, hr => by
    rw [FitE] at h; rw [readsE] at hr; rw [E.val, E.val]
    rw [val_readsE tr e h.1 (fun i hi => hr i (by simp [hi])), val_readsT tr t h.2.2 (fun i hi => hr i (by simp [hi]))]
theorem val_readsT {words : WordMap} {decs : List Str} (tr : Fun → ℚ → Option ℚ) {look look' : Nat → Option ℚ} : ∀ t : T, FitT words decs t →
    (∀ i ∈ readsT t, look i = look' i) → t.val tr look = t.val tr look'
  | .one f, h, hr => by
    rw [FitT] at h; rw [readsT] at hr; rw [T.val, T.val]
    exact val_readsF tr f h hr
  | .bin t op f, h, hr => by
    rw [FitT] at h; rw [readsT] at hr; rw [T.val, T.val]
    rw [val_readsT tr t h.1 (fun i hi => hr i (by simp [hi])), val_readsF tr f h.2.2 (fun i hi => hr i (by simp [hi]))]
theorem val_readsF {words : WordMap} {decs : List Str} (tr : Fun → ℚ → Option ℚ) {look look' : Nat → Option ℚ} : ∀ f : F, FitF words decs f →
    (∀ i ∈ readsF f, look i = look' i) → f.val tr look = f.val tr look'
  | .num ip fp _, h, hr => by rw [F.val, F.val]
  | .br e, h, hr => by
    rw [FitF] at h; rw [readsF] at hr; rw [F.val, F.val]
    exact val_readsE tr e h hr
  | .mac (.num ip [] _), h, hr => by
    rw [FitF] at h
    rw [readsF] at hr
    rw [F.val, F.val, F.val, F.val]
    have e : numVal ip [] = ((worthOf ip : ℕ) : ℚ) := by
      unfold numVal worthOf
      rw [Calc.readNat_digs]
      simp
    have e2 : u32 (numVal ip []) = some (worthOf ip : Int) := by
      rw [e]
      unfold u32 ipartIn ipart
      have := h.whole
      have hf : ⌊((worthOf ip : ℕ) : ℚ)⌋ = (worthOf ip : Int) := by simp
      have h0 : (0 : ℚ) ≤ ((worthOf ip : ℕ) : ℚ) := Nat.cast_nonneg _
      simp only [if_pos h0, hf]
      rw [if_pos ⟨by omega, by omega⟩]
    show (u32 (numVal ip [])).bind _ = (u32 (numVal ip [])).bind _
    rw [e2]
    exact hr _ (by simp)
  | .mac (.num _ (_ :: _) _), h, _ => by simp [FitF] at h
  | .mac (.br _), h, _ => by simp [FitF] at h
  | .mac (.mac _), h, _ => by simp [FitF] at h
  | .mac (.neg _), h, _ => by simp [FitF] at h
  | .mac (.pos _), h, _ => by simp [FitF] at h
  | .mac (.fn _ _), h, _ => by simp [FitF] at h
  | .neg f, h, hr => by
    rw [FitF] at h; rw [readsF] at hr; rw [F.val, F.val]
    rw [val_readsF tr f h hr]
  | .pos f, h, hr => by
    rw [FitF] at h; rw [readsF] at hr; rw [F.val, F.val]
    exact val_readsF tr f h hr
  | .fn g e, h, hr => by
    rw [FitF] at h; rw [readsF] at hr; rw [F.val, F.val]
    rw [val_readsE tr e h.2 hr]
end

/-! ## The count of brackets on other lines -/

theorem verify_bal {words : WordMap} {lang : Lang} (d : Dec) (s : Status) : bal s + net d ≤ bal (verify words lang d s).1 := by
  have hc0 := closeLen_nonneg d
  unfold verify
  cases hw : WordMap.find words d.word with
  | none => dsimp only; rw [bal_addOpen]; unfold net; omega
  | some wg =>
    dsimp only
    have b3 : bal (addClose d (noteMacro d (addOpen d s))) = bal s + net d := by
      rw [bal_addClose, bal_noteMacro, bal_addOpen]; unfold net; omega
    generalize addClose d (noteMacro d (addOpen d s)) = s3 at b3
    have val : ∀ v, (judgeValue lang wg s3 d v).1 = s3 ∨ (judgeValue lang wg s3 d v).1 = takeOff d s3 := by
      intro v
      unfold judgeValue
      repeat' split
      all_goals tauto
    have : (judge words lang wg s3 d).1 = s3 ∨ (judge words lang wg s3 d).1 = takeOff d s3 := by
      unfold judge judgePlain
      split
      · exact .inl rfl
      · split
        · exact .inl rfl
        · split
          · exact .inl rfl
          · split
            · exact val _
            · exact .inl rfl
    rcases this with e | e
    · rw [e]; omega
    · rw [e, bal_takeOff]; omega

/-- Brackets opened less brackets closed by a word. -/
def netOf : Attr → Int
  | .dec d => net d
  | _ => 0

section
variable {G : Gram} (R : RegularG G)
include R

theorem line_bal {ps ps' : PS} {s r : Str} {a : Attr} (h : lineAttribute G ps s = (ps', .match_ a r)) :
    bal ps.st + netOf a ≤ bal ps'.st ∨ hd r = some '[' := by
  have ck : ∀ {p : PS} {d : Dec × Str}, checked G p d = (ps', .match_ (.dec d.1) d.2) → bal p.st + net d.1 ≤ bal ps'.st := by
    intro p d h
    have := (checked_match h).2.2.1
    have e := verify_bal (words := G.words) (lang := G.lang) d.1 p.st
    rw [this] at e
    exact e
  replace h := lineAttribute_made h
  cases h with
  | comma w r c h hb hp => left; rw [hp]; simp [netOf]
  | decimal w r hc ha h hk => left; exact ck hk
  | division r h0 hc h hn hk =>
    left
    rw [decimal_reserved R h (by decide)] at h0
    simp only [Prod.mk.injEq, and_true] at h0
    rw [h0]
    exact ck hk
  | assign w r z h0 hc h1 h he' hk =>
    left
    obtain ⟨h5, h6⟩ := symbol_some h
    obtain ⟨h3, h4, _⟩ := longest_some h5
    have a0 : assignAhead G s = true := by unfold assignAhead; rw [h]; dsimp only; rw [he']; rfl
    have e0 : ∀ ps, decimalRule G ps s = (ps, .fail) := by intro ps; unfold decimalRule; rw [a0, if_pos rfl]
    have hsl : hd s ≠ some '/' := by
      cases w with
      | nil => exact absurd rfl h4
      | cons c w =>
        rw [head_of_hd h6]
        intro hcc
        have : c = '/' := by simpa using hcc
        subst this
        exact absurd (assign_not R h3 rfl) (by decide)
    rw [e0] at h0
    simp only [Prod.mk.injEq, and_true] at h0
    rw [division_other hsl] at h1
    simp only [Prod.mk.injEq, and_true] at h1
    rw [h0, h1]
    exact ck hk
  | optional r h0 hc h1 h2 h hn hk =>
    by_cases hb : hd (operandClosed c!"/" r).2 = some '['
    · exact .inr hb
    · exfalso
      rw [decimal_reserved R h (by decide)] at h0
      simp only [Prod.mk.injEq, and_true] at h0
      subst h0
      rw [assign_reserved R h (by decide)] at h2
      simp only [Prod.mk.injEq, and_true] at h2
      subst h2
      rw [division_eq h] at h1
      rw [hn, if_neg (by simp), ← closed_eq _ _ hb] at h1
      obtain ⟨m, hv⟩ := checked_fail_refuse h1
      obtain ⟨m', hv'⟩ := verify_again (by rfl) (by rfl) hv
      have := (checked_match hk).2.2.1
      rw [this] at hv'
      cases hv'
  | comment r0 t0 c h0 hc h1 h2 h3 h ht0 =>
    left
    obtain ⟨g0, g1, g2, g3⟩ := rules_reserved R h (by decide) (by decide) ps
    rw [g0] at h0; simp only [Prod.mk.injEq, and_true] at h0; subst h0
    rw [g1] at h1; simp only [Prod.mk.injEq, and_true] at h1; subst h1
    rw [g2] at h2; simp only [Prod.mk.injEq, and_true] at h2; subst h2
    rw [g3] at h3; simp only [Prod.mk.injEq, and_true] at h3; rw [h3]; simp [netOf]
  | start r0 h0 hc h1 h2 h3 h hr0 =>
    left
    obtain ⟨g0, g1, g2, g3⟩ := rules_reserved R h (by decide) (by decide) ps
    rw [g0] at h0; simp only [Prod.mk.injEq, and_true] at h0; subst h0
    rw [g1] at h1; simp only [Prod.mk.injEq, and_true] at h1; subst h1
    rw [g2] at h2; simp only [Prod.mk.injEq, and_true] at h2; subst h2
    rw [g3] at h3; simp only [Prod.mk.injEq, and_true] at h3; rw [h3]; simp [netOf]
  | name r0 t0 n h0 hc h1 h2 h3 h hn =>
    left
    obtain ⟨g0, g1, g2, g3⟩ := rules_name R h (name_symbol R h h0) ps
    rw [g0] at h0; simp only [Prod.mk.injEq, and_true] at h0; subst h0
    rw [g1] at h1; simp only [Prod.mk.injEq, and_true] at h1; subst h1
    rw [g2] at h2; simp only [Prod.mk.injEq, and_true] at h2; subst h2
    rw [g3] at h3; simp only [Prod.mk.injEq, and_true] at h3; rw [h3]; simp [netOf]

/-- A line without brackets does not lower the count. -/
theorem words_bal {ps ps' : PS} {s : Str} {b : Block} (h : Words G ps s ps' b) (hb : ∀ a ∈ b, netOf a = 0) : bal ps.st ≤ bal ps'.st := by
  induction h with
  | done _ _ _ => exact le_rfl
  | @word ps ps1 ps' s r a b h t ih =>
    have i := ih (fun a ha => hb a (by simp [ha]))
    rcases line_bal R h with h' | h'
    · have := hb a (by simp)
      omega
    · exfalso
      cases t with
      | done _ _ hs => unfold hd at h'; rw [hs] at h'; simp at h'
      | word h2 _ => exact bracket_fail R h' h2

end

end NC.Gram
