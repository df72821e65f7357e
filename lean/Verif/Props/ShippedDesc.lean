import Verif.Shipped
import Verif.Props.Describe

/-!
# C104: every shipped description of a code is shown
-/

namespace NC.Props
open NC NC.Srv NC.Spec.Server NC.Demo NC.Shipped

/-- The codes described for a letter of a control. -/
def describedBy (k : Control) (c : Char) : List Str := if c ∈ ['G', 'g'] then k.gdesc else k.mdesc

/-- The names under which the entries of a file are stored. -/
def storedKeys (keys : List Str) : List Str :=
  keys.flatMap (fun k => k :: (if k.length = 1 ∨ k.length = 3 ∧ k[1]? = some '.' then ['0' :: k] else []))

theorem offered_keys (f : DescFile) : offered f = storedKeys (f.map Prod.fst) := by
  unfold offered storedKeys
  induction f with
  | nil => rfl
  | cons e f ih => rw [List.map_cons, List.flatMap_cons, List.flatMap_cons, ih]

/-- The controls whose M codes are described with leading zeros. -/
def generics : List Str := [c!"generic_lathe", c!"generic_mill"]

theorem shipped_keys : ∀ k ∈ controls, ((storedKeys k.gdesc).Nodup ∧ ∀ x ∈ k.gdesc, x ≠ [] ∧ (x.head? ≠ some '0' ∨ x.length = 1)) ∧
    (k.name ∉ generics → (storedKeys k.mdesc).Nodup ∧ ∀ x ∈ k.mdesc, x ≠ [] ∧ (x.head? ≠ some '0' ∨ x.length = 1)) := by
  decide +kernel

variable {S G C σ : Type} {W : World S G C σ}

/-- C74: hovering over a code that is not described shows the code as it is written. -/
theorem C74_undescribed (F : Files S G C) {s : S} {g : G} {gc mc : C} (hL : Loaded W F s g gc mc) (c : Char) (f : DescFile)
    (hf : FileOf F c f) (code : Str) (hn : extractCode code ∉ offered f)
    (ds : List Json) (hcl : ∀ d ∈ ds, Clean d) {st st' : Srv.St S G C} {outs : List (List Json)}
    (h : run W {} (ds.map (F, ·)) = .ok (st, outs)) (u t : Str) (hu : latest u ds = some t) (hnu : ∀ c ∈ u, c.toNat ≠ 0)
    (d : Json) (hd : docUri d = some u) (hm : method d = some c!"textDocument/hover") (line ch : Int)
    (hpl : intAt [c!"params", c!"position", c!"line"] d = some line)
    (hpc : intAt [c!"params", c!"position", c!"character"] d = some ch) (hline : 0 ≤ line)
    {o : List Json} (ha : handle W F st d = .ok (st', o)) (l : Str) (hl : (contentLines t)[line.toNat]? = some l)
    (a b : Nat) (ht : TokenAt IsCode l a b) (hs : slice l a b = c :: code)
    (h1 : (a : Int) ≤ ch) (h2 : ch < b) :
    ∃ id r, o = [response id r] ∧ textAt [c!"contents"] r = some (c :: code) := by
  have hI := run_inv hL ds {} st outs h .start
  cases handle_step ha with
  | hover _ hh =>
    obtain ⟨line', ch', uri, id, r, q1, q2, q3, q4, h5, rfl⟩ := hover_ok hh
    rw [hpl] at q1; cases q1
    rw [hpc] at q2; cases q2
    rw [hd] at q3; cases q3
    rw [cstr_of_clean hnu] at h5
    refine ⟨id, r, rfl, ?_⟩
    have hcl' : ∀ e ∈ ds.map (F, ·), Clean e.2 := by
      intro e he; obtain ⟨x, hx, rfl⟩ := List.mem_map.mp he; exact hcl x hx
    have hu' : latest u ((ds.map (F, ·)).map (·.2)) = some t := by
      rw [List.map_map]
      simpa [Function.comp_def] using hu
    have htext : textFor (ctxFor st u line) line = l := by
      rw [textFor_latest hcl' h u t hu' line hline, hl]; rfl
    have hsearch := (search_iff longest_code apart_code l ch ⟨a, b, slice l a b⟩).mpr ⟨ht, h1, h2, rfl⟩
    unfold hoverIn at h5
    dsimp only at h5
    rw [htext, hsearch] at h5
    simp only [Out.bind_eq_ok] at h5
    obtain ⟨⟨s1, cg⟩, e1, ⟨s2, cm⟩, e2, h5⟩ := h5
    cases h5
    have tg := fetchG_table hI e1
    have tm := fetchM_table hI (fetchG_ok e1).2.2.2.2.1 e2
    have : describe c cg cm (extractCode code) (c :: code) = c :: code := by
      rcases hf with ⟨hc, hf⟩ | ⟨hc, hf⟩
      · simp only [List.mem_cons, List.not_mem_nil, or_false] at hc
        rw [hf] at tg; cases tg
        simp only [describe, if_pos hc, find_addCodes_other _ f {} hn]
        rfl
      · simp only [List.mem_cons, List.not_mem_nil, or_false] at hc
        have hc' : ¬ (c = 'G' ∨ c = 'g') := by rcases hc with rfl | rfl <;> decide
        rw [hf] at tm; cases tm
        simp only [describe, if_neg hc', find_addCodes_other _ f {} hn]
        rfl
    unfold hoverResult
    rw [hs]
    simp only [List.headD_cons, List.drop_succ_cons, List.drop_zero]
    rw [this]
    rfl
  | quiet hq => exact absurd (by decide) (hq _ hm).1
  | text h' h'' => rw [hm] at h'; cases h'; exact absurd h'' (by decide)
  | _ h' => rw [hm] at h'; cases h'

section
variable {k : Control} (hk : k ∈ controls) (F : Files S G C) {s : S} {g : G} {gc mc : C} (hL : Loaded W F s g gc mc) (c : Char) (f : DescFile)
  (hf : FileOf F c f) (hkeys : f.map Prod.fst = describedBy k c)
  (ds : List Json) (hcl : ∀ d ∈ ds, Clean d) {st st' : Srv.St S G C} {outs : List (List Json)}
  (h : run W {} (ds.map (F, ·)) = .ok (st, outs)) (u t : Str) (hu : latest u ds = some t) (hnu : ∀ c ∈ u, c.toNat ≠ 0)
  (d : Json) (hd : docUri d = some u) (hm : method d = some c!"textDocument/hover") (line ch : Int)
  (hpl : intAt [c!"params", c!"position", c!"line"] d = some line)
  (hpc : intAt [c!"params", c!"position", c!"character"] d = some ch) (hline : 0 ≤ line)
  {o : List Json} (ha : handle W F st d = .ok (st', o)) (l : Str) (hl : (contentLines t)[line.toNat]? = some l)
  (a b : Nat) (ht : TokenAt IsCode l a b) (h1 : (a : Int) ≤ ch) (h2 : ch < b)
include hk hL hf hkeys hcl h hu hnu hd hm hpl hpc hline ha hl ht h1 h2

/-- C104 (partial: not the M codes of the generic controls): whatever titles and texts the description files of a shipped control have, each entry
is shown when hovering over its code, written with any number of leading zeros. -/
theorem C104_shown_partial (hg : c ∈ ['G', 'g'] ∨ k.name ∉ generics) (code : Str) (td : Str × Str) (tds : List (Str × Str)) (he : (code, td :: tds) ∈ f)
    (z : Nat) (hs : slice l a b = c :: (List.replicate z '0' ++ code)) :
    ∃ id r, o = [response id r] ∧
      textAt [c!"contents"] r = some (hoverText (c :: (List.replicate z '0' ++ code)) td.1 td.2) := by
  obtain ⟨k1, k2⟩ := shipped_keys k hk
  have key : (storedKeys (describedBy k c)).Nodup ∧ ∀ x ∈ describedBy k c, x ≠ [] ∧ (x.head? ≠ some '0' ∨ x.length = 1) := by
    unfold describedBy
    split
    · exact k1
    · next q => exact k2 (hg.resolve_left q)
  have hmem : code ∈ describedBy k c := by rw [← hkeys]; exact List.mem_map.mpr ⟨_, he, rfl⟩
  exact C74_hovered F hL c f hf (by rw [offered_keys, hkeys]; exact key.1) code td tds he (key.2 code hmem).1 (key.2 code hmem).2 z ds hcl h u t hu hnu
    d hd hm line ch hpl hpc hline ha l hl a b ht hs h1 h2

/-- C104 violated: with the generic controls, none of the descriptions of M0 to M9 is ever shown, although each of them is in the file: hovering over these
codes, written with any number of leading zeros, shows the code only. -/
theorem C104_violated_generic (hz : k.name ∈ generics) (hg : c ∈ ['M', 'm']) (x : Char) (hx : x ∈ c!"0123456789")
    (z : Nat) (hs : slice l a b = c :: (List.replicate z '0' ++ [x])) :
    ['0', x] ∈ f.map Prod.fst ∧ ∃ id r, o = [response id r] ∧ textAt [c!"contents"] r = some (c :: (List.replicate z '0' ++ [x])) := by
  have data : ∀ k ∈ controls, k.name ∈ generics → ∀ x ∈ c!"0123456789", ['0', x] ∈ k.mdesc ∧ [x] ∉ storedKeys k.mdesc := by
    decide +kernel
  have hd' : describedBy k c = k.mdesc := by
    unfold describedBy
    rw [if_neg]
    simp only [List.mem_cons, List.not_mem_nil, or_false] at hg ⊢
    rcases hg with rfl | rfl <;> decide
  obtain ⟨d1, d2⟩ := data k hk hz x hx
  refine ⟨by rw [hkeys, hd']; exact d1, ?_⟩
  refine C74_undescribed F hL c f hf _ ?_ ds hcl h u t hu hnu d hd hm line ch hpl hpc hline ha l hl a b ht hs h1 h2
  rw [extractCode_zeros z [x] (by simp) (.inr rfl), offered_keys, hkeys, hd']
  exact d2
end

/-- Description files of a shipped control in which each code has its own name as the title. -/
def describing (k : Control) : Files Unit Unit Unit :=
  { files with gDesc := .good (k.gdesc.map (fun x => (x, [(x, c!"text")]))), mDesc := .good (k.mdesc.map (fun x => (x, [(x, c!"text")]))) }

/-- The hypotheses can be met: a function of each of two controls. -/
example : controls[7] ∈ controls ∧ controls[7].name ∈ generics ∧ controls[8] ∈ controls ∧ controls[8].name ∉ generics ∧
    (∃ st outs st' r, run w0 {} ([opened c!"u" c!"X5 M03"].map (describing controls[7], ·)) = .ok (st, outs) ∧
      handle w0 (describing controls[7]) st (hovered 2 c!"u" 0 4) = .ok (st', [response 2 r]) ∧ textAt [c!"contents"] r = some c!"M03") ∧
    (∃ st outs st' r, run w0 {} ([opened c!"u" c!"X5 M02"].map (describing controls[8], ·)) = .ok (st, outs) ∧
      handle w0 (describing controls[8]) st (hovered 2 c!"u" 0 4) = .ok (st', [response 2 r]) ∧
      textAt [c!"contents"] r = some c!"**M02: 2** \n\n---\n\ntext") :=
  ⟨by simp [controls], by decide +kernel, by simp [controls], by decide +kernel, ⟨_, _, _, _, rfl, rfl, rfl⟩, ⟨_, _, _, _, rfl, rfl, rfl⟩⟩

end NC.Props
