import Verif.GrammarBack
import Verif.Spec.Assign

/-!
# The words of an expression

How the line grammar cuts an expression into words: a word is an operator or a function name with the sign,
the brackets and the number that follow.
-/

namespace NC.Gram
open NC NC.Message NC.Spec NC.Spec.Words NC.Spec.Assign

/-- What is written of a word. -/
def txt (d : Dec) : Str := d.word ++ otxt d

/-- What is written of several words. -/
def txts (l : List Dec) : Str := l.flatMap txt

/-- A word of its own. -/
def wordOf (w : Str) : Dec := { word := w }

def withNum (p : Dec) (ip fp : List (Fin 10)) : Dec :=
  { p with value := if ip = [] then none else some (ip.map dig), dot := if fp = [] then none else some '.', value2 := if fp = [] then none else some (fp.map dig) }

def withMac (p : Dec) (ip : List (Fin 10)) : Dec := { p with mac := some c!"#", value := some (ip.map dig) }

def opened (p : Dec) : Dec := { p with openB := some (p.openB.getD [] ++ c!"[") }
def closed (p : Dec) : Dec := { p with closeB := some (p.closeB.getD [] ++ c!"]") }

mutual
/-- The finished words of an expression that follows the word begun, and the last word. -/
def lexE (p : Dec) : E → List Dec × Dec
  | .one t => lexT p t
  | .bin e op t => ((lexE p e).1 ++ (lexE p e).2 :: (lexT (wordOf op.txt) t).1, (lexT (wordOf op.txt) t).2)
def lexT (p : Dec) : T → List Dec × Dec
  | .one f => lexF p f
  | .bin t op f => ((lexT p t).1 ++ (lexT p t).2 :: (lexF (wordOf op.txt) f).1, (lexF (wordOf op.txt) f).2)
def lexF (p : Dec) : F → List Dec × Dec
  | .num ip fp _ => ([], withNum p ip fp)
  | .br e => ((lexE (opened p) e).1, closed (lexE (opened p) e).2)
  | .mac (.num ip _ _) => ([], withMac p ip)
  | .mac _ => ([], p)
  | .neg f =>
    if p.sign = none ∧ p.openB = none then lexF { p with sign := some '-' } f
    else (p :: (lexF (wordOf c!"-") f).1, (lexF (wordOf c!"-") f).2)
  | .pos f =>
    if p.sign = none ∧ p.openB = none then lexF { p with sign := some '+' } f
    else (p :: (lexF (wordOf c!"+") f).1, (lexF (wordOf c!"+") f).2)
  | .fn g e => (p :: (lexE (opened (wordOf g.txt)) e).1, closed (lexE (opened (wordOf g.txt)) e).2)
end

/-! ## What the words look like -/

/-- Nothing but the sign and opening brackets has been written. -/
structure Begun (p : Dec) : Prop where
  assign : p.assign = none
  mac : p.mac = none
  value : p.value = none
  dot : p.dot = none
  value2 : p.value2 = none
  closeB : p.closeB = none

/-- The number of a word of an expression. -/
inductive Figure (words : WordMap) (d : Dec) : Prop
  | none : d.mac = none → d.value = none → d.dot = none → d.value2 = none → Figure words d
  | num (ip fp : List (Fin 10)) : Modest words ip fp → (ip ≠ [] ∨ fp ≠ []) → d.mac = none →
      d.value = (if ip = [] then none else some (ip.map dig)) → d.dot = (if fp = [] then none else some '.') →
      d.value2 = (if fp = [] then none else some (fp.map dig)) → Figure words d
  | mac (ip : List (Fin 10)) : Numeral words ip → d.mac = some c!"#" → d.value = some (ip.map dig) → d.dot = none →
      d.value2 = none → Figure words d

/-- A name written with capital letters first. -/
def Lettered (w : Str) : Prop := ∃ c u, w = c :: u ∧ u ≠ [] ∧ 'A' ≤ c ∧ c ≤ 'Z'

/-- A word of an expression. -/
structure Piece (words : WordMap) (decs : List Str) (d : Dec) : Prop where
  assign : d.assign = none
  sign : d.sign = none ∨ d.sign = some '-' ∨ d.sign = some '+'
  openB : ∀ b, d.openB = some b → b ≠ [] ∧ ∀ c ∈ b, c = '['
  closeB : ∀ b, d.closeB = some b → b ≠ [] ∧ ∀ c ∈ b, c = ']'
  figure : Figure words d
  word : d.word ∈ joints ∨ (Named words decs d.word ∧ Lettered d.word)

/-- Nothing follows the name. -/
def Bare (d : Dec) : Prop := d.sign = none ∧ d.openB = none ∧ d.value = none ∧ d.value2 = none ∧ d.closeB = none

/-- A word without anything is not followed by a sign or a division. -/
def Seam (d d' : Dec) : Prop := Bare d → d'.word ≠ c!"+" ∧ d'.word ≠ c!"-" ∧ d'.word ≠ c!"/"

def openLen (d : Dec) : Int := (d.openB.getD []).length
def closeLen (d : Dec) : Int := (d.closeB.getD []).length

/-- Brackets opened less brackets closed. -/
def net (d : Dec) : Int := openLen d - closeLen d

def sumNet (l : List Dec) : Int := (l.map net).sum

/-- The count of brackets, `k` at first, never falls below `m`. -/
def Above (m : Int) : Int → List Dec → Prop
  | _, [] => True
  | k, d :: l => m ≤ k + net d ∧ Above m (k + net d) l

theorem above_append {m k : Int} {a b : List Dec} : Above m k (a ++ b) ↔ Above m k a ∧ Above m (k + sumNet a) b := by
  induction a generalizing k with
  | nil => simp [Above, sumNet]
  | cons d a ih =>
    simp only [List.cons_append, Above, ih]
    have : k + sumNet (d :: a) = k + net d + sumNet a := by simp [sumNet]; ring
    rw [this]
    tauto

theorem above_shift {m k m' k' : Int} {a : List Dec} (h : Above m k a) (hm : m' - k' ≤ m - k) : Above m' k' a := by
  induction a generalizing k k' with
  | nil => trivial
  | cons d a ih => exact ⟨by have := h.1; omega, ih h.2 (by omega)⟩

theorem sumNet_append (a b : List Dec) : sumNet (a ++ b) = sumNet a + sumNet b := by simp [sumNet]
theorem sumNet_cons (d : Dec) (b : List Dec) : sumNet (d :: b) = net d + sumNet b := by simp [sumNet]

/-- The words of the text `s` behind the word begun. -/
structure Lexed (words : WordMap) (decs : List Str) (p : Dec) (s : Str) (r : List Dec × Dec) : Prop where
  text : txts r.1 ++ txt r.2 = txt p ++ s
  pieces : ∀ d ∈ r.1, Piece words decs d
  last : Piece words decs r.2
  done : ¬ Bare r.2
  chain : List.IsChain Seam (r.1 ++ [r.2])
  above : Above (openLen p) 0 r.1
  total : sumNet r.1 + net r.2 = openLen p
  first : ∃ d t, r.1 ++ [r.2] = d :: t ∧ d.word = p.word ∧ ∀ x ∈ t, x.word ≠ c!"="

variable {words : WordMap} {decs : List Str}

theorem txts_append (a b : List Dec) : txts (a ++ b) = txts a ++ txts b := by simp [txts]
theorem txts_cons (d : Dec) (b : List Dec) : txts (d :: b) = txt d ++ txts b := by simp [txts]
theorem txt_wordOf (w : Str) : txt (wordOf w) = w := by simp [txt, otxt, vtxt, wordOf]

theorem lexed_join {p q : Dec} {s w s' : Str} {a b : List Dec × Dec} (ha : Lexed words decs p s a) (hb : Lexed words decs q s' b)
    (hq : q.word ≠ c!"=") (ht : txt q = w) (ho : openLen q = 0) :
    Lexed words decs p (s ++ w ++ s') (a.1 ++ a.2 :: b.1, b.2) := by
  obtain ⟨d, t, f1, f2, f3⟩ := ha.first
  obtain ⟨d', t', g1, g2, g3⟩ := hb.first
  have e : (a.1 ++ a.2 :: b.1) ++ [b.2] = (a.1 ++ [a.2]) ++ (b.1 ++ [b.2]) := by simp
  refine ⟨?_, ?_, hb.last, hb.done, ?_, ?_, ?_, ?_⟩
  · show txts (a.1 ++ a.2 :: b.1) ++ txt b.2 = _
    rw [txts_append, txts_cons]
    have h1 := ha.text
    have h2 := hb.text
    rw [ht] at h2
    calc txts a.1 ++ (txt a.2 ++ txts b.1) ++ txt b.2 = (txts a.1 ++ txt a.2) ++ (txts b.1 ++ txt b.2) := by simp
      _ = _ := by rw [h1, h2]; simp
  · intro d hd
    rcases List.mem_append.mp hd with h | h
    · exact ha.pieces d h
    · rcases List.mem_cons.mp h with rfl | h
      · exact ha.last
      · exact hb.pieces d h
  · show List.IsChain Seam ((a.1 ++ a.2 :: b.1) ++ [b.2])
    rw [e]
    refine List.isChain_append.mpr ⟨ha.chain, hb.chain, ?_⟩
    intro x hx y _ hbare
    have : x = a.2 := by simpa using hx.symm
    subst this
    exact absurd hbare ha.done
  · show Above _ 0 (a.1 ++ a.2 :: b.1)
    have h1 := ha.total
    refine above_append.mpr ⟨ha.above, ?_, ?_⟩
    · omega
    · refine above_shift hb.above ?_
      omega
  · show sumNet (a.1 ++ a.2 :: b.1) + net b.2 = _
    rw [sumNet_append, sumNet_cons]
    have h1 := ha.total
    have h2 := hb.total
    omega
  · refine ⟨d, t ++ (b.1 ++ [b.2]), ?_, f2, ?_⟩
    · show (a.1 ++ a.2 :: b.1) ++ [b.2] = _
      rw [e, f1]; rfl
    · intro x hx
      rcases List.mem_append.mp hx with h | h
      · exact f3 x h
      · rw [g1] at h
        rcases List.mem_cons.mp h with rfl | h
        · rw [g2]; exact hq
        · exact g3 x h

theorem lexed_behind {p q : Dec} {w s : Str} {b : List Dec × Dec} (hp : Piece words decs p) (hb : Lexed words decs q s b)
    (hq : q.word ≠ c!"=") (ht : txt q = w) (ho : openLen q = 0) (hc : closeLen p = 0) (hs : Bare p → q.word ≠ c!"+" ∧ q.word ≠ c!"-" ∧ q.word ≠ c!"/") :
    Lexed words decs p (w ++ s) (p :: b.1, b.2) := by
  obtain ⟨d', t', g1, g2, g3⟩ := hb.first
  refine ⟨?_, ?_, hb.last, hb.done, ?_, ?_, ?_, ?_⟩
  · show txts (p :: b.1) ++ txt b.2 = _
    rw [txts_cons, List.append_assoc, hb.text, ht]
  · intro d hd
    rcases List.mem_cons.mp hd with rfl | h
    · exact hp
    · exact hb.pieces d h
  · show List.IsChain Seam (p :: (b.1 ++ [b.2]))
    have := hb.chain
    rw [g1] at this ⊢
    exact List.isChain_cons_cons.mpr ⟨fun h => by rw [g2]; exact hs h, this⟩
  · refine ⟨by unfold net; omega, above_shift hb.above (by unfold net; omega)⟩
  · show sumNet (p :: b.1) + net b.2 = _
    rw [sumNet_cons]
    have := hb.total
    unfold net at *
    omega
  · refine ⟨p, b.1 ++ [b.2], rfl, rfl, ?_⟩
    rw [g1]
    intro x hx
    rcases List.mem_cons.mp hx with rfl | h
    · rw [g2]; exact hq
    · exact g3 x h

theorem begun_vtxt {p : Dec} (h : Begun p) : vtxt p = [] := by
  unfold vtxt; rw [h.mac, h.value, h.dot, h.value2, h.closeB]; rfl

theorem txt_opened {p : Dec} (h : Begun p) : txt (opened p) = txt p ++ c!"[" := by
  have h1 := begun_vtxt h
  have h2 : vtxt (opened p) = [] := h1
  unfold txt otxt
  rw [h1, h2]
  simp [opened]

theorem txt_closed (p : Dec) : txt (closed p) = txt p ++ c!"]" := by
  unfold txt otxt vtxt
  simp [closed]

theorem piece_closed {p : Dec} (h : Piece words decs p) : Piece words decs (closed p) := by
  refine ⟨h.assign, h.sign, h.openB, ?_, ?_, h.word⟩
  · rintro b ⟨⟩
    refine ⟨by simp, ?_⟩
    intro c hc
    rcases List.mem_append.mp hc with hc | hc
    · cases hb : p.closeB with
      | none => rw [hb] at hc; cases hc
      | some b => rw [hb] at hc; exact (h.closeB b hb).2 c hc
    · simpa using hc
  · cases h.figure with
    | none h1 h2 h3 h4 => exact .none h1 h2 h3 h4
    | num ip fp h0 h1 h2 h3 h4 h5 => exact .num ip fp h0 h1 h2 h3 h4 h5
    | mac ip h1 h2 h3 h4 h5 => exact .mac ip h1 h2 h3 h4 h5

theorem begun_opened {p : Dec} (h : Begun p) : Begun (opened p) := ⟨h.assign, h.mac, h.value, h.dot, h.value2, h.closeB⟩

theorem piece_opened {p : Dec} (h : Piece words decs p) (hb : Begun p) : Piece words decs (opened p) := by
  refine ⟨h.assign, h.sign, ?_, h.closeB, .none hb.mac hb.value hb.dot hb.value2, h.word⟩
  rintro b ⟨⟩
  refine ⟨by simp, ?_⟩
  intro c hc
  rcases List.mem_append.mp hc with hc | hc
  · cases hb : p.openB with
    | none => rw [hb] at hc; cases hc
    | some b => rw [hb] at hc; exact (h.openB b hb).2 c hc
  · simpa using hc

theorem lexed_close {p q : Dec} {s : Str} {a : List Dec × Dec} (ha : Lexed words decs q s a) (ht : txt q = txt p ++ c!"[")
    (ho : openLen q = openLen p + 1) (hw : q.word = p.word) : Lexed words decs p ('[' :: s ++ [']']) (a.1, closed a.2) := by
  obtain ⟨d, t, f1, f2, f3⟩ := ha.first
  refine ⟨?_, ha.pieces, piece_closed ha.last, ?_, ?_, ?_, ?_, ?_⟩
  · show txts a.1 ++ txt (closed a.2) = _
    rw [txt_closed, ← List.append_assoc, ha.text, ht]
    simp
  · intro h; exact absurd h.2.2.2.2 (by simp [closed])
  · show List.IsChain Seam (a.1 ++ [closed a.2])
    have := List.isChain_append.mp ha.chain
    refine List.isChain_append.mpr ⟨this.1, List.isChain_singleton _, ?_⟩
    intro x hx y hy
    have h1 := this.2.2 x hx a.2 (by simp)
    have : y = closed a.2 := by simpa using hy.symm
    subst this
    exact h1
  · exact above_shift ha.above (by omega)
  · show sumNet a.1 + net (closed a.2) = _
    have h1 := ha.total
    have h2 : net (closed a.2) = net a.2 - 1 := by
      simp [net, openLen, closeLen, closed]; ring
    omega
  · cases hl : a.1 with
    | nil =>
      rw [hl] at f1
      have : d = a.2 ∧ t = [] := by simpa using f1.symm
      refine ⟨closed a.2, [], rfl, ?_, by simp⟩
      rw [← this.1]
      exact f2.trans hw
    | cons x l =>
      rw [hl] at f1
      cases f1
      refine ⟨_, l ++ [closed a.2], rfl, f2.trans hw, ?_⟩
      intro y hy
      rcases List.mem_append.mp hy with h | h
      · exact f3 y (by simp [h])
      · have : y = closed a.2 := by simpa using h
        subst this
        exact f3 a.2 (by simp)

theorem lexed_one {p q : Dec} {s : Str} (hq : Piece words decs q) (hd : ¬ Bare q) (ht : txt q = txt p ++ s) (hn : net q = openLen p)
    (hw : q.word = p.word) : Lexed words decs p s ([], q) :=
  ⟨ht, by simp, hq, hd, List.isChain_singleton _, trivial, by simpa [sumNet] using hn, q, [], rfl, hw, by simp⟩

theorem lexed_sign {p q : Dec} {s : Str} {c : Char} {a : List Dec × Dec} (ha : Lexed words decs q s a) (ht : txt q = txt p ++ [c])
    (ho : openLen q = openLen p) (hw : q.word = p.word) : Lexed words decs p (c :: s) a := by
  refine ⟨?_, ha.pieces, ha.last, ha.done, ha.chain, ho ▸ ha.above, ho ▸ ha.total, hw ▸ ha.first⟩
  rw [ha.text, ht]; simp

theorem begun_wordOf (w : Str) : Begun (wordOf w) := ⟨rfl, rfl, rfl, rfl, rfl, rfl⟩

theorem piece_wordOf {w : Str} (h : w ∈ joints ∨ (Named words decs w ∧ Lettered w)) : Piece words decs (wordOf w) :=
  ⟨rfl, .inl rfl, nofun, nofun, .none rfl rfl rfl rfl, h⟩

theorem low_word {op : LowO} (h : LowOk words decs op) : op.txt ∈ joints ∨ (Named words decs op.txt ∧ Lettered op.txt) := by
  cases op
  · exact .inl (by decide)
  · exact .inl (by decide)
  · exact .inr ⟨h, _, _, rfl, by decide, by decide, by decide⟩
  · exact .inr ⟨h, _, _, rfl, by decide, by decide, by decide⟩

theorem high_word {op : HighO} (h : HighOk words decs op) : op.txt ∈ joints ∨ (Named words decs op.txt ∧ Lettered op.txt) := by
  cases op
  · exact .inl (by decide)
  · exact .inl (by decide)
  · exact .inr ⟨h, _, _, rfl, by decide, by decide, by decide⟩
  · exact .inr ⟨h, _, _, rfl, by decide, by decide, by decide⟩

theorem fun_lettered (g : Fun) : Lettered g.txt := by
  cases g <;> exact ⟨_, _, rfl, by decide, by decide, by decide⟩

theorem fun_sign (g : Fun) : g.txt ≠ c!"+" ∧ g.txt ≠ c!"-" ∧ g.txt ≠ c!"/" ∧ g.txt ≠ c!"=" := by
  cases g <;> decide

theorem low_eq (op : LowO) : op.txt ≠ c!"=" := by cases op <;> decide
theorem high_eq (op : HighO) : op.txt ≠ c!"=" := by cases op <;> decide

theorem piece_signed {p : Dec} (h : Piece words decs p) {c : Char} (hc : c = '-' ∨ c = '+') : Piece words decs { p with sign := some c } := by
  refine ⟨h.assign, by rcases hc with rfl | rfl <;> simp, h.openB, h.closeB, ?_, h.word⟩
  cases h.figure with
  | none h1 h2 h3 h4 => exact .none h1 h2 h3 h4
  | num ip fp h0 h1 h2 h3 h4 h5 => exact .num ip fp h0 h1 h2 h3 h4 h5
  | mac ip h1 h2 h3 h4 h5 => exact .mac ip h1 h2 h3 h4 h5

theorem begun_signed {p : Dec} (h : Begun p) (c : Char) : Begun { p with sign := some c } := ⟨h.assign, h.mac, h.value, h.dot, h.value2, h.closeB⟩

theorem txt_signed {p : Dec} (h : Begun p) (h1 : p.sign = none) (h2 : p.openB = none) (c : Char) : txt { p with sign := some c } = txt p ++ [c] := by
  have h3 := begun_vtxt h
  have h4 : vtxt { p with sign := some c } = [] := h3
  unfold txt otxt
  rw [h3, h4]
  simp [h1, h2]

theorem lexed_num {p : Dec} (hp : Piece words decs p) (hb : Begun p) {ip fp : List (Fin 10)} (h : Modest words ip fp) (hn : ip ≠ [] ∨ fp ≠ []) :
    Lexed words decs p (prNum ip fp) ([], withNum p ip fp) := by
  refine lexed_one ?_ ?_ ?_ ?_ rfl
  · exact ⟨hp.assign, hp.sign, hp.openB, hp.closeB, .num ip fp h hn hb.mac rfl rfl rfl, hp.word⟩
  · rintro ⟨_, _, h3, h4, _⟩
    rcases hn with hn | hn
    · simp [withNum, hn] at h3
    · simp [withNum, hn] at h4
  · have h1 := begun_vtxt hb
    have h2 : vtxt (withNum p ip fp) = prNum ip fp := by
      unfold vtxt withNum prNum
      dsimp only
      rw [hb.mac, hb.closeB]
      by_cases h3 : ip = [] <;> by_cases h4 : fp = [] <;> simp [h3, h4]
    unfold txt otxt
    rw [h1, h2]
    simp [withNum]
  · simp [net, closeLen, withNum, hb.closeB, openLen]

theorem lexed_mac {p : Dec} (hp : Piece words decs p) (hb : Begun p) {ip : List (Fin 10)} (h : Numeral words ip) :
    Lexed words decs p ('#' :: prNum ip []) ([], withMac p ip) := by
  refine lexed_one ?_ ?_ ?_ ?_ rfl
  · exact ⟨hp.assign, hp.sign, hp.openB, hp.closeB, .mac ip h rfl rfl hb.dot hb.value2, hp.word⟩
  · rintro ⟨_, _, h3, _⟩
    simp [withMac] at h3
  · have h1 := begun_vtxt hb
    have h2 : vtxt (withMac p ip) = '#' :: prNum ip [] := by
      unfold vtxt withMac prNum
      dsimp only
      rw [hb.closeB, hb.dot, hb.value2]
      simp
    unfold txt otxt
    rw [h1, h2]
    simp [withMac]
  · simp [net, closeLen, withMac, hb.closeB, openLen]

theorem lexed_signed {p : Dec} (hp : Piece words decs p) (hb : Begun p) {c : Char} (hc : c = '-' ∨ c = '+') {s : Str} {f : F}
    (ih : ∀ p, Piece words decs p → Begun p → Lexed words decs p s (lexF p f)) :
    Lexed words decs p (c :: s) (if p.sign = none ∧ p.openB = none then lexF { p with sign := some c } f
      else (p :: (lexF (wordOf [c]) f).1, (lexF (wordOf [c]) f).2)) := by
  split
  · rename_i h
    exact lexed_sign (ih _ (piece_signed hp hc) (begun_signed hb c)) (txt_signed hb h.1 h.2 c) rfl rfl
  · rename_i h
    refine lexed_behind (w := [c]) hp (ih (wordOf [c]) (piece_wordOf (.inl ?_)) (begun_wordOf _)) ?_ (txt_wordOf _) rfl
      (by simp [closeLen, hb.closeB]) (fun hbare => absurd ⟨hbare.1, hbare.2.1⟩ h)
    · rcases hc with rfl | rfl <;> decide
    · rcases hc with rfl | rfl <;> decide

mutual
theorem lexE_spec (e : E) (h : FitE words decs e) (p : Dec) (hp : Piece words decs p) (hb : Begun p) : Lexed words decs p e.pr (lexE p e) := by
  match e with
  | .one t =>
    unfold FitE at h
    rw [lexE, E.pr]
    exact lexT_spec t h p hp hb
  | .bin e op t =>
    unfold FitE at h
    rw [lexE, E.pr]
    exact lexed_join (lexE_spec e h.1 p hp hb) (lexT_spec t h.2.2 (wordOf op.txt) (piece_wordOf (low_word h.2.1)) (begun_wordOf _))
      (low_eq op) (txt_wordOf _) rfl
theorem lexT_spec (t : T) (h : FitT words decs t) (p : Dec) (hp : Piece words decs p) (hb : Begun p) : Lexed words decs p t.pr (lexT p t) := by
  match t with
  | .one f =>
    unfold FitT at h
    rw [lexT, T.pr]
    exact lexF_spec f h p hp hb
  | .bin t op f =>
    unfold FitT at h
    rw [lexT, T.pr]
    exact lexed_join (lexT_spec t h.1 p hp hb) (lexF_spec f h.2.2 (wordOf op.txt) (piece_wordOf (high_word h.2.1)) (begun_wordOf _))
      (high_eq op) (txt_wordOf _) rfl
theorem lexF_spec (f : F) (h : FitF words decs f) (p : Dec) (hp : Piece words decs p) (hb : Begun p) : Lexed words decs p f.pr (lexF p f) := by
  match f with
  | .num ip fp hn =>
    unfold FitF at h
    rw [lexF, F.pr]
    exact lexed_num hp hb h hn
  | .br e =>
    unfold FitF at h
    rw [lexF, F.pr]
    exact lexed_close (lexE_spec e h (opened p) (piece_opened hp hb) (begun_opened hb)) (txt_opened hb)
      (by simp [openLen, opened]) rfl
  | .mac (.num ip [] hn) =>
    unfold FitF at h
    rw [lexF, F.pr, F.pr]
    exact lexed_mac hp hb h
  | .mac (.num ip (x :: fp) hn) => unfold FitF at h; exact h.elim
  | .mac (.br _) => unfold FitF at h; exact h.elim
  | .mac (.mac _) => unfold FitF at h; exact h.elim
  | .mac (.neg _) => unfold FitF at h; exact h.elim
  | .mac (.pos _) => unfold FitF at h; exact h.elim
  | .mac (.fn _ _) => unfold FitF at h; exact h.elim
  | .neg f =>
    unfold FitF at h
    rw [lexF, F.pr]
    exact lexed_signed hp hb (.inl rfl) (fun p hp hb => lexF_spec f h p hp hb)
  | .pos f =>
    unfold FitF at h
    rw [lexF, F.pr]
    exact lexed_signed hp hb (.inr rfl) (fun p hp hb => lexF_spec f h p hp hb)
  | .fn g e =>
    unfold FitF at h
    rw [lexF, F.pr]
    obtain ⟨s1, s2, s2', s3⟩ := fun_sign g
    have hw := piece_wordOf (words := words) (decs := decs) (.inr ⟨h.1, fun_lettered g⟩)
    have h1 := lexE_spec e h.2 (opened (wordOf g.txt)) (piece_opened hw (begun_wordOf _)) (begun_opened (begun_wordOf _))
    have h2 : Lexed words decs (wordOf g.txt) ('[' :: e.pr ++ [']']) _ := lexed_close h1 (txt_opened (begun_wordOf _)) (by simp [openLen, opened, wordOf]) rfl
    have h3 := lexed_behind (w := g.txt) hp h2 s3 (txt_wordOf _) rfl (by simp [closeLen, hb.closeB]) (fun _ => ⟨s1, s2, s2'⟩)
    simpa using h3
end

end NC.Gram
