import Verif.Blocks
import Verif.Spec.Form

/-!
# What predefined blocks are
-/

namespace NC.Spec.Blocks
open NC NC.Form NC.Blocks NC.Spec.Form

/-- A template and its text: braces are doubled, `{0}` is the decimal sign. -/
inductive Expands (dot : Str) : Str → Str → Prop
  | nil : Expands dot [] []
  | char (c : Char) (s r : Str) (h1 : c ≠ '{') (h2 : c ≠ '}') (h : Expands dot s r) : Expands dot (c :: s) (c :: r)
  | opening (s r : Str) (h : Expands dot s r) : Expands dot ('{' :: '{' :: s) ('{' :: r)
  | closing (s r : Str) (h : Expands dot s r) : Expands dot ('}' :: '}' :: s) ('}' :: r)
  | sign (s r : Str) (h : Expands dot s r) : Expands dot ('{' :: '0' :: '}' :: s) (dot ++ r)

/-- A text with no brace. -/
def Braceless (s : Str) : Prop := '{' ∉ s ∧ '}' ∉ s

/-- A block without anything missing, and what is read. -/
structure BlockRead (dot : Str) (b c : Snippet) : Prop where
  id : c.id = b.id
  name : c.name = b.name
  description : c.description = b.description
  code : ∃ l m, b.code = some l ∧ c.code = some m ∧ List.Forall₂ (fun x y => ∃ s r, x = some s ∧ y = some r ∧ Expands dot s r) l m

/-- A group without anything missing, and what is read. -/
structure GroupRead (dot : Str) (g h : Group) : Prop where
  id : h.id = g.id
  name : h.name = g.name
  version : h.version = g.version
  blocks : ∃ l m, g.blocks = some l ∧ h.blocks = some m ∧ List.Forall₂ (fun x y => ∃ b c, x = some b ∧ y = some c ∧ BlockRead dot b c) l m

/-- A group without anything missing and without braces in its code. -/
def Simple (g : Group) : Prop :=
  ∃ l, g.blocks = some l ∧ ∀ x ∈ l, ∃ b c, x = some b ∧ b.code = some c ∧ ∀ y ∈ c, ∃ s, y = some s ∧ Braceless s

/-- Paths: a full path is its own, a file is its directory and its name, and its full path is that of the directory and
its name. -/
structure Sound (P : Platform) : Prop where
  full : ∀ p, P.full (P.full p) = P.full p
  name : ∀ dir p n, P.name (P.full dir) p = some n → p = P.join (P.full dir) n
  join : ∀ dir p n, P.name (P.full dir) p = some n → P.full (P.join dir n) = p

/-- A disk: no path twice, and all are full. -/
def Tidy (P : Platform) (d : Disk) : Prop := (d.files.map (·.1)).Nodup ∧ ∀ e ∈ d.files, P.full e.1 = e.1

/-- A JSON file of a directory. -/
def JsonIn (P : Platform) (dir p : Str) : Prop := ∃ n, P.name (P.full dir) p = some n

/-- The disk after writing: groups that may be written are there, other JSON files of the directory are gone unless a
group is named after them, and the rest is as it was. -/
structure Written (P : Platform) (J : Codec) (groups : Dict (Group × Access)) (dir : Str) (d d' : Disk) : Prop where
  stored : ∀ p g, First groups p (g, .readWrite) → First d'.files p (J.write g)
  removed : ∀ p, JsonIn P dir p → (∀ x, ¬ First groups p x) → ∀ t, ¬ First d'.files p t
  kept : ∀ p, (∀ g, ¬ First groups p (g, .readWrite)) → (JsonIn P dir p → ∃ x, First groups p x) →
    ∀ t, First d'.files p t ↔ First d.files p t

end NC.Spec.Blocks
