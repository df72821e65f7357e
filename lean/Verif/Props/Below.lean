import Verif.Vars
import Verif.Whole
import Verif.Props.Server
import Verif.Props.Lens
import Verif.Props.Document

/-! # C90: what is shown on a line does not depend on the lines below it -/

namespace NC.Props
open NC NC.Srv NC.Spec.Server NC.Pipe

/-! ## The table of variables -/

theorem fresh_sorted (S : Setup) : (Pipe.fresh S).macros.Sorted := by
  show (initMacros S).Sorted
  exact MacroMap.sorted_emplace (MacroMap.sorted_emplace MacroMap.sorted_nil _ _) _ _

/-- The lines before and the rest. -/
theorem parseLoop_append {S G C σ : Type} (W : World S G C σ) : ∀ (l1 l2 : List Str) (s : σ) (a : Acc) (n : Nat),
    parseLoop W s a n (l1 ++ l2) = parseLoop W s a n l1 >>= fun r => parseLoop W r.1 r.2 (n + l1.length) l2 := by
  intro l1
  induction l1 with
  | nil => intro l2 s a n; rfl
  | cons l l1 ih =>
    intro l2 s a n
    have e : n + (l :: l1).length = n + 1 + l1.length := by simp; omega
    rw [List.cons_append, parseLoop, parseLoop, e]
    by_cases hl : l = []
    · rw [if_pos hl, if_pos hl, ih]
    · rw [if_neg hl, if_neg hl]
      cases W.line s (n + 1) l with
      | ok r =>
        simp only [Out.bind_ok]
        cases (if W.pathTime = true then addLens (addMessage a r.2.1 (reword (n + 1) l r.2.2)) n (W.totals r.1)
          else Out.ok (addMessage a r.2.1 (reword (n + 1) l r.2.2))) with
        | ok a' => simp only [Out.bind_ok]; exact ih _ _ _ _
        | throw e => rfl
        | ub => rfl
      | throw e => rfl
      | ub => rfl

/-- The lines after the first `n` record values for larger numbers only. -/
theorem parseLoop_wrote (R : Whole.Rest) : ∀ (ls : List Str) (x x' : Setup × Parser) (a a' : Acc) (n : Nat),
    parseLoop (Whole.server R) x a n ls = .ok (x', a') → x.2.macros.Sorted →
    Wrote (fun k => (n : Int) < k.line) x.2.macros x'.2.macros := by
  intro ls
  induction ls with
  | nil => intro x x' a a' n h hm; cases h; exact .refl hm
  | cons l ls ih =>
    intro x x' a a' n h hm
    rw [parseLoop] at h
    by_cases hl : l = []
    · rw [if_pos hl] at h
      exact (ih _ _ _ _ _ h hm).mono (fun k hk => by push_cast at hk; omega)
    · rw [if_neg hl] at h
      simp only [Out.bind_eq_ok] at h
      obtain ⟨⟨y, r, m⟩, hy, a1, -, h⟩ := h
      obtain ⟨S, p⟩ := x
      obtain ⟨m', -, -, rfl⟩ := parseLine_ok (show Whole.parseLine (S, p) (n + 1) l = .ok (y, r, m) from hy)
      have h1 := parse_wrote (S := S) (o := serverOptions) (line := ((n + 1 : Nat) : Int)) l p hm
      have h2 := ih _ _ _ _ _ h h1.sorted
      exact (h1.mono (fun k hk => by push_cast at hk; omega)).trans (h2.mono (fun k hk => by push_cast at hk; omega))

/-- The values of a document that are in effect on its first lines are those of these lines. -/
theorem runCode_take (R : Whole.Rest) {s : Conf.Settings} {g : Conf.Words} {gc mc : Ver.Groups} {t : Str} {r : Parsed}
    (h : runCode (Whole.server R) s g gc mc t = .ok r) (k : Nat) :
    ∃ x y a, Whole.freshParser R.env s g gc mc = .ok x ∧ parseLoop (Whole.server R) x {} 0 ((splitLines t).take k) = .ok (y, a) ∧
      r.macros.Sorted ∧ ∀ id (L : Int), L ≤ k → r.macros.valueAt id L = y.2.macros.valueAt id L := by
  simp only [runCode, Out.bind_eq_ok] at h
  obtain ⟨x, hx, ⟨z, a⟩, hz, h⟩ := h
  cases h
  have hx : Whole.freshParser R.env s g gc mc = .ok x := hx
  have hm : x.2.macros.Sorted := by
    unfold Whole.freshParser at hx
    split at hx
    · cases hx; exact fresh_sorted _
    · cases hx
    · cases hx
  rw [← List.take_append_drop k (splitLines t), parseLoop_append, Out.bind_eq_ok] at hz
  obtain ⟨⟨y, a1⟩, hy, hz⟩ := hz
  have w1 := parseLoop_wrote R _ _ _ _ _ _ hy hm
  by_cases hk : k ≤ (splitLines t).length
  · have w2 := parseLoop_wrote R _ _ _ _ _ _ hz w1.sorted
    refine ⟨x, y, a1, hx, hy, w2.sorted, fun id L hL => ?_⟩
    refine MacroMap.valueAt_congr w2.sorted w1.sorted (fun l hl => w2.others _ ?_)
    rw [List.length_take]
    push_cast
    rw [min_eq_left (by exact_mod_cast hk)]
    omega
  · rw [List.drop_eq_nil_of_le (by omega)] at hz
    cases hz
    exact ⟨x, y, a1, hx, hy, w1.sorted, fun _ _ _ => rfl⟩

/-- Some value is always recorded. -/
theorem runCode_macros_ne (R : Whole.Rest) {s : Conf.Settings} {g : Conf.Words} {gc mc : Ver.Groups} {t : Str} {r : Parsed}
    (h : runCode (Whole.server R) s g gc mc t = .ok r) : r.macros ≠ [] := by
  obtain ⟨x, y, a, hx, hy, -, hv⟩ := runCode_take R h 0
  unfold Whole.freshParser at hx
  split at hx
  · rename_i S hS
    cases hx
    rw [List.take_zero] at hy
    cases hy
    have := hv 3101 0 (le_refl _)
    have e : (Pipe.fresh S).macros.valueAt 3101 0 = some S.pi := rfl
    rw [e] at this
    rintro q
    rw [q] at this
    cases this
  · cases hx
  · cases hx

/-! ## Hover -/

section
variable {S G C σ : Type} {W : World S G C σ}

/-- Hover reads the line and the values in effect on it. -/
theorem hoverIn_ctx {F : Files S G C} {st : Srv.St S G C} {c1 c2 : Option Ctx} {line ch : Int} (ht : textFor c1 line = textFor c2 line)
    (hn : macrosFor c1 = [] ↔ macrosFor c2 = []) (hv : ∀ id, (macrosFor c1).valueAt id (line + 1) = (macrosFor c2).valueAt id (line + 1)) :
    hoverIn W F st c1 line ch = hoverIn W F st c2 line ch := by
  have hm : ∀ md tok, macroHover W md (macrosFor c1) line tok = macroHover W md (macrosFor c2) line tok := by
    intro md tok
    unfold macroHover
    simp only [hv]
  unfold hoverIn
  simp only [ht, hn, hv, hm]

theorem answer_step {α : Type} {x : Out Srv.Exc α} {f g : α → Out Srv.Exc (Srv.St S G C × List Json)}
    (h : ∀ a, x = .ok a → answer (f a) = answer (g a)) : answer (x >>= f) = answer (x >>= g) := by
  cases x with
  | ok a => exact h a rfl
  | throw e => rfl
  | ub => rfl

/-- Hover requests are answered alike when the results are. -/
theorem hover_answers {F : Files S G C} {st₁ st₂ : Srv.St S G C} {u : Str} (hn : ∀ c ∈ u, c.toNat ≠ 0) {d : Json} (hd : docUri d = some u)
    {line : Int} (hl : intAt [c!"params", c!"position", c!"line"] d = some line)
    (h : ∀ ch, (hoverIn W F st₁ (ctxFor st₁ u line) line ch >>= fun r => .ok r.2) =
      ((hoverIn W F st₂ (ctxFor st₂ u line) line ch >>= fun r => .ok r.2) : Out Srv.Exc Json)) :
    answer (hover W F st₁ d) = answer (hover W F st₂ d) := by
  have hcu : ∀ (x y : Json), x.get (ε := Srv.Exc) c!"textDocument" = .ok y → d.get (ε := Srv.Exc) c!"params" = .ok x →
      ∀ z, y.get (ε := Srv.Exc) c!"uri" = .ok z → z.getCStr (ε := Srv.Exc) = .ok u := by
    intro x y hx hdx z hz
    rw [get_ok] at hx hdx hz
    have : path [c!"params", c!"textDocument", c!"uri"] d = some z := path_cons.mpr ⟨x, hdx, path_cons.mpr ⟨y, hx, hz⟩⟩
    have hd' := textAt_eq.mp hd
    rw [this] at hd'
    cases hd'
    simp [Json.getCStr, Json.getStr, cstr_of_clean hn]
  unfold hover
  refine answer_step fun x hx => answer_step fun pos hpos => answer_step fun jl hjl => answer_step fun line' hline => answer_step fun jc _ => answer_step fun ch _ =>
    answer_step fun y hy => answer_step fun z hz => ?_
  rw [hcu x y hy hx z hz]
  refine answer_step fun u' hu' => ?_
  cases hu'
  refine answer_step fun ji _ => answer_step fun id _ => ?_
  have : line' = line := by
    rw [get_ok] at hx hpos hjl
    have q : path [c!"params", c!"position", c!"line"] d = some jl := path_cons.mpr ⟨x, hx, path_cons.mpr ⟨pos, hpos, hjl⟩⟩
    rw [(intAt_eq.mp hl).1] at q
    cases q
    exact (Json.int.inj (getInt_ok.mp hline).1).symm
  subst this
  have := h ch
  generalize hoverIn W F st₁ (ctxFor st₁ u line') line' ch = a at this ⊢
  generalize hoverIn W F st₂ (ctxFor st₂ u line') line' ch = b at this ⊢
  cases a with
  | ok a => cases b with
    | ok b =>
      simp only [Out.bind_ok, Out.ok.injEq] at this
      simp [answer, this]
    | _ => cases this
  | throw e => cases b with
    | throw e' => cases this; rfl
    | _ => cases this
  | ub => cases b with
    | ub => rfl
    | _ => cases this
end

/-- C90: after two histories that leave texts with the same first `k` lines of a document, every hover
request on one of these lines is answered alike, whatever the lines below are: what is shown is the
value in effect on that line and nothing later. -/
theorem C90_hover_above (R : Whole.Rest) (F : Files Conf.Settings Conf.Words Ver.Groups) {s : Conf.Settings} {g : Conf.Words} {gc mc : Ver.Groups}
    (hL : Srv.Loaded (Whole.server R) F s g gc mc) (ds₁ ds₂ : List Json) (hcl₁ : ∀ d ∈ ds₁, Clean d) (hcl₂ : ∀ d ∈ ds₂, Clean d)
    {st₁ st₂ : Srv.St Conf.Settings Conf.Words Ver.Groups} {o₁ o₂ : List (List Json)} (h₁ : run (Whole.server R) {} (ds₁.map (F, ·)) = .ok (st₁, o₁))
    (h₂ : run (Whole.server R) {} (ds₂.map (F, ·)) = .ok (st₂, o₂)) (u : Str) (hn : ∀ c ∈ u, c.toNat ≠ 0) (t₁ t₂ : Str)
    (hu₁ : latest u ds₁ = some t₁) (hu₂ : latest u ds₂ = some t₂) (k : Nat) (ht : (contentLines t₁).take k = (contentLines t₂).take k)
    (d : Json) (hd : docUri d = some u) (line : Int) (hl : intAt [c!"params", c!"position", c!"line"] d = some line) (hk : line < k) :
    answer (hover (Whole.server R) F st₁ d) = answer (hover (Whole.server R) F st₂ d) := by
  obtain ⟨i1, c1⟩ := contexts_loaded F hL u ds₁ {} st₁ o₁ none hcl₁ h₁ .start rfl
  obtain ⟨i2, c2⟩ := contexts_loaded F hL u ds₂ {} st₂ o₂ none hcl₂ h₂ .start rfl
  unfold latest at hu₁ hu₂
  rw [hu₁] at c1
  rw [hu₂] at c2
  obtain ⟨r1, e1, c1⟩ := c1
  obtain ⟨r2, e2, c2⟩ := c2
  have hmd : st₁.macroDesc = st₂.macroDesc := by
    have ne1 : st₁.contexts ≠ [] := by intro q; rw [q] at c1; cases c1
    have ne2 : st₂.contexts ≠ [] := by intro q; rw [q] at c2; cases c2
    rcases i1.macroDesc with q | ⟨c, e, q, hr⟩
    · exact absurd q (i1.opened ne1)
    rcases i2.macroDesc with q2 | ⟨c2, e2, q2, hr2⟩
    · exact absurd q2 (i2.opened ne2)
    rw [hr] at hr2
    cases hr2
    rw [q, q2]
  have hval : ∀ id, r1.macros.valueAt id (line + 1) = r2.macros.valueAt id (line + 1) := by
    intro id
    obtain ⟨x1, y1, a1, q1, p1, -, v1⟩ := runCode_take R e1 k
    obtain ⟨x2, y2, a2, q2, p2, -, v2⟩ := runCode_take R e2 k
    rw [q1] at q2
    cases q2
    have : (splitLines t₁).take k = (splitLines t₂).take k := by
      rw [splitLines_eq, splitLines_eq, ← List.map_take, ← List.map_take, ht]
    rw [this, p2] at p1
    cases p1
    rw [v1 _ _ (by omega), v2 _ _ (by omega)]
  have hlen : ∀ (a b : List Str), a.take k = b.take k → line < a.length → 0 ≤ line → line < b.length := by
    intro a b q h1 h2
    have := congrArg List.length q
    rw [List.length_take, List.length_take] at this
    omega
  have hget : 0 ≤ line → (contentLines t₁)[line.toNat]? = (contentLines t₂)[line.toNat]? := by
    intro h0
    have := congrArg (fun l => l[line.toNat]?) ht
    simp only [List.getElem?_take] at this
    rwa [if_pos (by omega), if_pos (by omega)] at this
  refine hover_answers hn hd hl (fun ch => ?_)
  rw [hoverIn_same i1 i2 (ctxFor st₁ u line) (fun _ => hmd)]
  congr 1
  unfold ctxFor
  rw [c1, c2]
  dsimp only
  by_cases hin : 0 ≤ line ∧ line < (contentLines t₁).length
  · rw [if_pos hin, if_pos ⟨hin.1, hlen _ _ ht hin.2 hin.1⟩]
    refine hoverIn_ctx ?_ ?_ hval
    · simp only [textFor, hget hin.1]
    · have n1 := runCode_macros_ne R e1
      have n2 := runCode_macros_ne R e2
      simp only [macrosFor]
      exact ⟨fun q => absurd q n1, fun q => absurd q n2⟩
  · rw [if_neg hin, if_neg (fun q => hin ⟨q.1, hlen _ _ ht.symm q.2 q.1⟩)]

/-! ## Diagnostics -/

theorem rejects_split {ε σ : Type} {ck : σ → Nat → Str → Out ε (σ × Bool × Str)} : ∀ (l1 l2 : List Str) (s s' : σ) (n : Nat) (rs : List (Nat × Str × Str)),
    Spec.Lines.Rejects ck s n (l1 ++ l2) s' rs → ∃ q r1 r2, Spec.Lines.Rejects ck s n l1 q r1 ∧ Spec.Lines.Rejects ck q (n + l1.length) l2 s' r2 ∧ rs = r1 ++ r2 := by
  intro l1
  induction l1 with
  | nil => intro l2 s s' n rs h; exact ⟨s, [], rs, .done _ _, h, rfl⟩
  | cons l l1 ih =>
    intro l2 s s' n rs h
    have e : n + (l :: l1).length = n + 1 + l1.length := by simp; omega
    rw [e]
    cases h with
    | blank h =>
      obtain ⟨q, r1, r2, h1, h2, rfl⟩ := ih _ _ _ _ _ h
      exact ⟨q, r1, r2, .blank h1, h2, rfl⟩
    | accepted hl hc h =>
      obtain ⟨q, r1, r2, h1, h2, rfl⟩ := ih _ _ _ _ _ h
      exact ⟨q, r1, r2, .accepted hl hc h1, h2, rfl⟩
    | rejected hl hc h =>
      obtain ⟨q, r1, r2, h1, h2, rfl⟩ := ih _ _ _ _ _ h
      exact ⟨q, _, r2, .rejected hl hc h1, h2, rfl⟩

theorem rejects_unique {ε σ : Type} {ck : σ → Nat → Str → Out ε (σ × Bool × Str)} : ∀ (l : List Str) (s s1 s2 : σ) (n : Nat) (r1 r2 : List (Nat × Str × Str)),
    Spec.Lines.Rejects ck s n l s1 r1 → Spec.Lines.Rejects ck s n l s2 r2 → s1 = s2 ∧ r1 = r2 := by
  intro l
  induction l with
  | nil => intro s s1 s2 n r1 r2 h1 h2; cases h1; cases h2; exact ⟨rfl, rfl⟩
  | cons l ls ih =>
    intro s s1 s2 n r1 r2 h1 h2
    cases h1 with
    | blank h1 =>
      cases h2 with
      | blank h2 => exact ih _ _ _ _ _ _ h1 h2
      | accepted hl => exact absurd rfl hl
      | rejected hl => exact absurd rfl hl
    | accepted hl hc h1 =>
      cases h2 with
      | blank h2 => exact absurd rfl hl
      | accepted _ hc2 h2 => rw [hc] at hc2; cases hc2; exact ih _ _ _ _ _ _ h1 h2
      | rejected _ hc2 h2 => rw [hc] at hc2; cases hc2
    | rejected hl hc h1 =>
      cases h2 with
      | blank h2 => exact absurd rfl hl
      | accepted _ hc2 h2 => rw [hc] at hc2; cases hc2
      | rejected _ hc2 h2 =>
        rw [hc] at hc2; cases hc2
        obtain ⟨rfl, rfl⟩ := ih _ _ _ _ _ _ h1 h2
        exact ⟨rfl, rfl⟩

theorem diagsOf_append {ε : Type} : ∀ (a b : List Str) (dl : List Diag), diagsOf (ε := ε) (a ++ b) = .ok dl →
    ∃ x y, diagsOf (ε := ε) a = .ok x ∧ dl = x ++ y := by
  intro a
  induction a with
  | nil => intro b dl _; exact ⟨[], dl, rfl, rfl⟩
  | cons m a ih =>
    intro b dl h
    rw [List.cons_append, diagsOf] at h
    simp only [Out.bind_eq_ok] at h
    obtain ⟨d, hd, ds, hds, h⟩ := h
    cases h
    obtain ⟨x, y, hx, rfl⟩ := ih _ _ hds
    refine ⟨d.toList ++ x, y, ?_, by rw [List.append_assoc]⟩
    rw [diagsOf, hd, Out.bind_ok, hx, Out.bind_ok]

/-- C90: the diagnostics of the first lines of a document are those they have when nothing follows
them: cutting the document after any number of lines leaves an initial part of the list of
diagnostics, whatever the server did before in either case. -/
theorem C90_diagnostics_above (R : Whole.Rest) (F : Files Conf.Settings Conf.Words Ver.Groups) {s : Conf.Settings} {g : Conf.Words} {gc mc : Ver.Groups}
    (hL : Srv.Loaded (Whole.server R) F s g gc mc) {md : Srv.MacroDesc} (hM : Srv.readMacros R.logging F.userDesc F.macroDesc = .ok (md, none))
    {S : Setup} (hS : Pipe.configure (Conf.setupOf R.env s g gc mc) = .ok S)
    (ds₁ ds₂ : List Json) (hcl₁ : ∀ d ∈ ds₁, Clean d) (hcl₂ : ∀ d ∈ ds₂, Clean d)
    {st₁ st₂ st₁' st₂' : Srv.St Conf.Settings Conf.Words Ver.Groups} {o₁ o₂ : List (List Json)} (h₁ : run (Whole.server R) {} (ds₁.map (F, ·)) = .ok (st₁, o₁))
    (h₂ : run (Whole.server R) {} (ds₂.map (F, ·)) = .ok (st₂, o₂)) (d₁ d₂ : Json) (u₁ u₂ t₁ t₂ : Str)
    (he₁ : event d₁ = some (u₁, some t₁)) (he₂ : event d₂ = some (u₂, some t₂)) (hc₁ : Clean d₁) (hc₂ : Clean d₂) {out₁ out₂ : List Json}
    (hh₁ : handle (Whole.server R) F st₁ d₁ = .ok (st₁', out₁)) (hh₂ : handle (Whole.server R) F st₂ d₂ = .ok (st₂', out₂))
    (k : Nat) (ht : contentLines t₂ = (contentLines t₁).take k) :
    ∃ above below, out₂ = [publication u₂ above] ∧ out₁ = [publication u₁ (above ++ below)] := by
  obtain ⟨q1, rs1, dl1, hr1, hd1, rfl⟩ := published R F hL hM hS ds₁ hcl₁ h₁ d₁ u₁ t₁ he₁ hc₁ hh₁
  obtain ⟨q2, rs2, dl2, hr2, hd2, rfl⟩ := published R F hL hM hS ds₂ hcl₂ h₂ d₂ u₂ t₂ he₂ hc₂ hh₂
  have hs : splitLines t₂ = (splitLines t₁).take k := by
    rw [splitLines_eq, splitLines_eq, ht, List.map_take]
  rw [← List.take_append_drop k (splitLines t₁), ← hs] at hr1
  obtain ⟨q, r1, r2, h3, -, rfl⟩ := rejects_split _ _ _ _ _ _ hr1
  obtain ⟨rfl, rfl⟩ := rejects_unique _ _ _ _ _ _ _ h3 hr2
  rw [List.map_append] at hd1
  obtain ⟨x, y, hx, rfl⟩ := diagsOf_append _ _ _ hd1
  rw [hd2] at hx
  cases hx
  exact ⟨_, y.map diagJson, rfl, by rw [List.map_append]⟩

/-- What a hover answer shows. -/
def shown : Json → Option Str
  | .obj [_, _, (_, .obj [(_, .str s), _])] => some s
  | _ => none

/-- How many diagnostics a publication has. -/
def diagCount : Json → Option Nat
  | .obj [_, _, (_, .obj [_, (_, .arr l)])] => some l.length
  | _ => none

/-- The hypotheses are met by two texts that differ in their last line; hovering over `#1` on the
second line shows what the first line assigned. -/
example : Srv.Loaded (Whole.server plainRest) shipped Conf.defaults ⟨demo.tables, demo.ops⟩ demo.gcodes demo.mcodes ∧
    (contentLines c!"#1=5\nX#1\n#1=7").take 2 = (contentLines c!"#1=5\nX#1\nG0").take 2 ∧
    (run (Whole.server plainRest) {} [(shipped, Demo.opened c!"f" c!"#1=5\nX#1\nG0")]).isOk = true ∧
    (match run (Whole.server plainRest) {} [(shipped, Demo.opened c!"f" c!"#1=5\nX#1\n#1=7"), (shipped, Demo.hovered 1 c!"f" 1 2)] with
      | .ok (_, [_, [m]]) => shown m
      | _ => none) = some c!"#1 = 5" :=
  ⟨⟨.inl ⟨rfl, rfl⟩, rfl, rfl, rfl⟩, by decide, by decide +kernel, by decide +kernel⟩

/-- Two diagnostics, of which the first remains when the text is cut after the second line. -/
example : contentLines c!"X1\nX1 X2" = (contentLines c!"X1\nX1 X2\nG0\nX1 X2").take 2 ∧
    (match run (Whole.server plainRest) {} [(shipped, Demo.opened c!"f" c!"X1\nX1 X2\nG0\nX1 X2"), (shipped, Demo.opened c!"f" c!"X1\nX1 X2")] with
      | .ok (_, [[m], [m']]) => (diagCount m, diagCount m')
      | _ => (none, none)) = (some 2, some 1) :=
  ⟨by decide, by decide +kernel⟩

end NC.Props
