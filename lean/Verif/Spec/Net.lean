import Verif.Base
import Mathlib.Data.Rat.Defs

/-! # What a text is for a client of the .NET interface -/

namespace NC.Spec.Net
open NC

/-- The bytes of a character in UTF-8 (RFC 3629): the first byte tells how many bits follow in bytes that begin with 10. -/
inductive Utf8Char : Char → List Nat → Prop where
  | one {c : Char} : c.toNat < 0x80 → Utf8Char c [c.toNat]
  | two {c : Char} {a b : Nat} : a < 0x20 → b < 0x40 → 0x80 ≤ c.toNat → c.toNat = a * 0x40 + b → Utf8Char c [0xC0 + a, 0x80 + b]
  | three {c : Char} {a b d : Nat} : a < 0x10 → b < 0x40 → d < 0x40 → 0x800 ≤ c.toNat → c.toNat = (a * 0x40 + b) * 0x40 + d →
      Utf8Char c [0xE0 + a, 0x80 + b, 0x80 + d]
  | four {c : Char} {a b d e : Nat} : a < 0x8 → b < 0x40 → d < 0x40 → e < 0x40 → 0x10000 ≤ c.toNat →
      c.toNat = ((a * 0x40 + b) * 0x40 + d) * 0x40 + e → Utf8Char c [0xF0 + a, 0x80 + b, 0x80 + d, 0x80 + e]

/-- The bytes of a text in UTF-8. -/
inductive Utf8 : Str → List Nat → Prop where
  | nil : Utf8 [] []
  | cons {c s x y} : Utf8Char c x → Utf8 s y → Utf8 (c :: s) (x ++ y)

/-- A text on the platform: UTF-8, or one byte for every character by a code page. -/
def Text (page : Option (Char → Char)) (s t : Str) : Prop :=
  '\x00' ∉ s ∧ match page with
  | none => Utf8 t (s.map Char.toNat)
  | some f => s.map f = t

/-- The value of a key in a dictionary. -/
def entry (d : List ((Int × Int) × ℚ)) (k : Int × Int) : Option ℚ := (d.find? (fun e => decide (e.1 = k))).map (·.2)

end NC.Spec.Net
