import Verif.Spec.Status
import Verif.Props.JsonText

/-!
# C115: the status bar names the machine
-/

namespace NC.Props
open NC NC.JFile NC.Status NC.Spec.Status

theorem taken_all {p : Char → Bool} {s : Str} {c : Char} (h : c ∈ s.takeWhile p) : p c = true := by
  induction s with
  | nil => cases h
  | cons x s ih =>
    rw [List.takeWhile_cons] at h
    split at h
    · rcases List.mem_cons.mp h with rfl | h
      · assumption
      · exact ih h
    · cases h

theorem rest_head {p : Char → Bool} {s r : Str} {c : Char} (h : s.dropWhile p = c :: r) : p c = false := by
  induction s with
  | nil => cases h
  | cons x s ih =>
    rw [List.dropWhile_cons] at h
    split at h
    · exact ih h
    · rename_i hx
      injection h with h1 h2
      rw [← h1]; simpa using hx

theorem space_iff (c : Char) : space c = true ↔ Blank c := by
  have e : ∀ d : Char, c = d ↔ c.toNat = d.toNat := fun d => ⟨fun h => by rw [h], fun h => Char.toNat_inj.mp h⟩
  unfold Status.space Blank
  simp only [e]
  simp only [Bool.or_eq_true, decide_eq_true_eq, Bool.and_eq_true, List.mem_cons, List.not_mem_nil, or_false]
  simp only [show ' '.toNat = 32 from rfl, show '\u00a0'.toNat = 160 from rfl, show '\u1680'.toNat = 5760 from rfl, show '\u2028'.toNat = 8232 from rfl,
    show '\u2029'.toNat = 8233 from rfl, show '\u202f'.toNat = 8239 from rfl, show '\u205f'.toNat = 8287 from rfl, show '\u3000'.toNat = 12288 from rfl,
    show '\ufeff'.toNat = 65279 from rfl]
  omega

theorem space_not (c : Char) : space c = false ↔ ¬ Blank c := by
  rw [← space_iff, Bool.not_eq_true]

theorem member_iff (m : List (Str × J)) (k : Str) (v : J) : member m k = some v ↔ Has m k v := by
  unfold member Has
  rw [Option.map_eq_some_iff]
  constructor
  · rintro ⟨⟨k', v'⟩, h, rfl⟩
    rw [List.find?_eq_some_iff_append] at h
    obtain ⟨hk, as, bs, h1, h2⟩ := h
    rw [beq_iff_eq] at hk
    dsimp only at hk
    subst hk
    refine ⟨bs.reverse, as.reverse, ?_, ?_⟩
    · have := congrArg List.reverse h1
      simpa using this
    · intro e he
      have := h2 e (List.mem_reverse.mp he)
      simpa using this
  · rintro ⟨a, b, rfl, hb⟩
    refine ⟨(k, v), ?_, rfl⟩
    rw [List.find?_eq_some_iff_append]
    refine ⟨by simp, b.reverse, a.reverse, by simp, ?_⟩
    intro e he
    have := hb e (List.mem_reverse.mp he)
    simpa using this

theorem trim_inside (t : Str) : Inside t (trim t) := by
  refine ⟨t.takeWhile Status.space, ((t.dropWhile Status.space).reverse.takeWhile Status.space).reverse, ?_, ?_, ?_⟩
  · unfold trim
    rw [← List.reverse_append, List.takeWhile_append_dropWhile, List.reverse_reverse, List.takeWhile_append_dropWhile]
  · intro c hc
    rw [List.mem_append, List.mem_reverse] at hc
    rw [← space_iff]
    rcases hc with h | h <;> exact taken_all h
  · intro c hc
    rw [← space_not]
    unfold trim at hc
    rw [List.head?_reverse, List.getLast?_reverse] at hc
    rcases hc with h | h
    · -- the last character that is left is the first behind the white space
      have hs : ((t.dropWhile Status.space).reverse.dropWhile Status.space) <:+ (t.dropWhile Status.space).reverse := List.dropWhile_suffix _
      have hl : (t.dropWhile Status.space).reverse.getLast? = some c := by
        obtain ⟨p, hp⟩ := hs
        rw [← hp, List.getLast?_append, h]; rfl
      rw [List.getLast?_reverse] at hl
      cases hd : t.dropWhile Status.space with
      | nil => rw [hd] at hl; cases hl
      | cons x r =>
        rw [hd] at hl
        simp only [List.head?_cons, Option.some.injEq] at hl
        rw [← hl]
        exact rest_head hd
    · cases hd : (t.dropWhile Status.space).reverse.dropWhile Status.space with
      | nil => rw [hd] at h; cases h
      | cons x r =>
        rw [hd] at h
        simp only [List.head?_cons, Option.some.injEq] at h
        rw [← h]
        exact rest_head hd

theorem extname_of {m e : Str} (h : Extension m e) : extname (m ++ e) = e := by
  obtain ⟨h1, h2, r, rfl, h3⟩ := h
  have ht : (m ++ '.' :: r).reverse.takeWhile (· ≠ '.') = r.reverse := by
    rw [List.reverse_append, List.reverse_cons, List.append_assoc, List.takeWhile_append_of_pos]
    · simp
    · intro c hc
      have : c ≠ '.' := fun hh => h3 (by rw [← hh]; exact List.mem_reverse.mp hc)
      simpa using this
  unfold extname
  rw [if_neg (by simp [h2]), ht, List.reverse_reverse, if_neg]
  have := List.length_pos_of_ne_nil h1
  simp
  omega

theorem replaceFirst_end {s m e : Str} (hs : s = m ++ e) (h : OnlyAtEnd e s) : replaceFirst s e = m := by
  induction m generalizing s with
  | nil =>
    rw [List.nil_append] at hs
    subst hs
    unfold replaceFirst
    rw [if_pos (by simp)]
    simp
  | cons c m ih =>
    subst hs
    unfold replaceFirst
    have hn : ¬ e.isPrefixOf (c :: m ++ e) = true := by
      intro hp
      obtain ⟨b, hb⟩ := List.isPrefixOf_iff_prefix.mp hp
      have := h [] b (by rw [List.nil_append]; exact hb.symm)
      subst this
      have := congrArg List.length hb
      simp at this
      omega
    rw [if_neg hn]
    show c :: replaceFirst (m ++ e) e = _
    rw [ih rfl]
    intro a b hab
    exact h (c :: a) b (by rw [List.cons_append, List.cons_append, hab])

/-- C115: the status bar shows the name of the machine without the blanks around it, if the settings file has one. -/
theorem C115_machine (parse : Str → Option J) (name data : Str) (m : List (Str × J)) (t : Str) (h : parse data = some (.obj m))
    (ht : Has m c!"machine_tool_id" (.str t)) (hb : ∃ c ∈ t, ¬ Blank c) :
    Inside t (statusText parse name (some data)) ∧ statusText parse name (some data) ≠ [] := by
  have hn : trim t ≠ [] := by
    intro he
    obtain ⟨a, b, e1, e2, -⟩ := trim_inside t
    rw [he, List.nil_append] at e1
    obtain ⟨c, hc, hs⟩ := hb
    rw [e1] at hc
    exact hs (e2 c hc)
  have he : statusText parse name (some data) = trim t := by
    unfold statusText
    rw [Option.bind_some, h]
    dsimp only
    rw [(member_iff _ _ _).mpr ht]
    exact if_neg hn
  rw [he]
  exact ⟨trim_inside t, hn⟩

/-- C115: otherwise it shows the name of the file without its extension.  Missing: names in which the extension stands twice, see below. -/
theorem C115_file_partial (parse : Str → Option J) (m e : Str) (data : Option Str) (h : Extension m e) (ho : OnlyAtEnd e (m ++ e))
    (hd : ∀ l t, data.bind parse = some (.obj l) → Has l c!"machine_tool_id" (.str t) → ∀ c ∈ t, Blank c) :
    statusText parse (m ++ e) data = m := by
  have hs : stem (m ++ e) = m := by
    unfold stem
    rw [extname_of h]
    exact replaceFirst_end rfl ho
  unfold statusText
  split
  · rename_i l hl
    split
    · rename_i t ht
      rw [if_pos, hs]
      have hb := hd l t hl ((member_iff _ _ _).mp ht)
      obtain ⟨a, b, e1, -, e3⟩ := trim_inside t
      cases hx : trim t with
      | nil => rfl
      | cons c r =>
        have h1 := e3 c (by rw [hx]; simp)
        have h2 := hb c (by rw [e1, hx]; simp)
        exact absurd h2 h1
    · exact hs
  · exact hs

/-- An extension that stands at the end only. -/
example : Extension c!"my mill" c!".ncsetting" ∧ OnlyAtEnd c!".nc" (c!"mill" ++ c!".nc") := by
  refine ⟨⟨by decide, by decide, c!"ncsetting", rfl, by decide⟩, ?_⟩
  intro a b h
  have hl := congrArg List.length h
  simp at hl
  have : a.length ≤ 4 := by omega
  match a, h with
  | [], h => simp at h
  | [_], h => simp at h
  | [_, _], h => simp at h
  | [_, _, _], h => simp at h
  | [_, _, _, _], h => simp at h; exact h.2.2.2.2
  | _ :: _ :: _ :: _ :: _ :: _, _ => simp at this; omega

/-- C115, violated: of a name in which the extension stands before, the wrong part is taken away. -/
theorem C115_violated_twice (parse : Str → Option J) (a b r : Str) (c : Char) (ha : '.' ∉ a) (hr : '.' ∉ r) (hc : c ≠ '.') :
    statusText parse (a ++ ('.' :: r ++ (c :: b ++ '.' :: r))) none = a ++ (c :: b ++ '.' :: r) ∧
      a ++ (c :: b ++ '.' :: r) ≠ a ++ ('.' :: r ++ c :: b) := by
  constructor
  · have he : extname (a ++ ('.' :: r ++ (c :: b ++ '.' :: r))) = '.' :: r := by
      have := extname_of (m := a ++ ('.' :: r ++ c :: b)) (e := '.' :: r) ⟨by simp, ?_, r, rfl, hr⟩
      · simpa using this
      · intro h
        have hl := congrArg List.length h
        simp at hl
        omega
    show stem _ = _
    unfold stem
    rw [he]
    clear he
    induction a with
    | nil =>
      unfold replaceFirst
      rw [List.nil_append, if_pos (by simp [List.isPrefixOf_iff_prefix])]
      simp
    | cons x a ih =>
      have hx : x ≠ '.' := fun e => ha (by simp [e])
      unfold replaceFirst
      rw [if_neg]
      · show x :: replaceFirst (a ++ ('.' :: r ++ (c :: b ++ '.' :: r))) _ = _
        rw [ih (fun h => ha (List.mem_cons_of_mem _ h))]; rfl
      · intro h
        have := List.isPrefixOf_iff_prefix.mp h
        obtain ⟨t, ht⟩ := this
        simp at ht
        exact hx ht.1.symm
  · intro h
    have := List.append_cancel_left h
    simp at this
    exact hc this.1

/-- `tool.ncx.nc` is shown as `toolx.nc`. -/
example : stem c!"tool.ncx.nc" = c!"toolx.nc" ∧ stem c!"mill.ncsetting" = c!"mill" ∧ stem c!".ncsetting" = c!".ncsetting" ∧
    stem c!"a.b." = c!"ab." := by decide

/-- C115: for a file of the form the status bar shows the name that was entered. -/
theorem C115_form (parse : Str → Option J) (f : Form.File) (nl name : Str) (h : parse (f.text nl) = some f.json)
    (hb : ∃ c ∈ f.toolId, ¬ Blank c) : Inside f.toolId (statusText parse name (some (f.text nl))) :=
  (C115_machine parse name _ _ f.toolId h ((member_iff _ _ _).mp rfl) hb).1

end NC.Props
