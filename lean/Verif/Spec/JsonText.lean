import Verif.Settings

/-!
# The texts that spell a tree

The grammar of JSON (RFC 8259), as a relation between a tree and its texts.  It says nothing about how a text is read.
-/

namespace NC.Spec.JsonText
open NC NC.Conf

/-- White space. -/
def Space (s : Str) : Prop := ∀ c ∈ s, c = ' ' ∨ c = '\t' ∨ c = '\n' ∨ c = '\r'

/-- A hexadecimal digit and its value. -/
def Hex (c : Char) (n : Nat) : Prop :=
  (∃ k, k < 10 ∧ c = Char.ofNat (48 + k) ∧ n = k) ∨ (∃ k, k < 6 ∧ (c = Char.ofNat (97 + k) ∨ c = Char.ofNat (65 + k)) ∧ n = 10 + k)

/-- Four digits and their value. -/
def Quad (s : Str) (n : Nat) : Prop :=
  ∃ a b c d x y z w, s = [a, b, c, d] ∧ Hex a x ∧ Hex b y ∧ Hex c z ∧ Hex d w ∧ n = ((x * 16 + y) * 16 + z) * 16 + w

/-- The bytes of the character with a number. -/
inductive Bytes : Nat → Str → Prop
  | one (n : Nat) : n < 128 → Bytes n [Char.ofNat n]
  | two (a b : Nat) : 2 ≤ a → a < 32 → b < 64 → Bytes (a * 64 + b) [Char.ofNat (192 + a), Char.ofNat (128 + b)]
  | three (a b c : Nat) : a < 16 → b < 64 → c < 64 → 2048 ≤ (a * 64 + b) * 64 + c →
      Bytes ((a * 64 + b) * 64 + c) [Char.ofNat (224 + a), Char.ofNat (128 + b), Char.ofNat (128 + c)]
  | four (a b c d : Nat) : a < 5 → b < 64 → c < 64 → d < 64 → 65536 ≤ ((a * 64 + b) * 64 + c) * 64 + d →
      Bytes (((a * 64 + b) * 64 + c) * 64 + d) [Char.ofNat (240 + a), Char.ofNat (128 + b), Char.ofNat (128 + c), Char.ofNat (128 + d)]

/-- The escapes of one letter. -/
def Letter (e c : Char) : Prop :=
  (e = '"' ∧ c = '"') ∨ (e = '\\' ∧ c = '\\') ∨ (e = '/' ∧ c = '/') ∨ (e = 'b' ∧ c = '\x08') ∨ (e = 'f' ∧ c = '\x0c') ∨
    (e = 'n' ∧ c = '\n') ∨ (e = 'r' ∧ c = '\r') ∨ (e = 't' ∧ c = '\t')

/-- What stands between the quotes of a string. -/
inductive Inner : Str → Str → Prop
  | nil : Inner [] []
  | plain (c : Char) (d s : Str) : c ≠ '"' → c ≠ '\\' → Inner d s → Inner (c :: d) (c :: s)
  | letter (e c : Char) (d s : Str) : Letter e c → Inner d s → Inner (c :: d) ('\\' :: e :: s)
  | number (q b d s : Str) (n : Nat) : Quad q n → ¬ (55296 ≤ n ∧ n < 57344) → Bytes n b → Inner d s →
      Inner (b ++ d) ('\\' :: 'u' :: (q ++ s))
  | pair (p q b d s : Str) (h l : Nat) : Quad p (55296 + h) → Quad q (56320 + l) → h < 1024 → l < 1024 →
      Bytes (65536 + h * 1024 + l) b → Inner d s → Inner (b ++ d) ('\\' :: 'u' :: (p ++ '\\' :: 'u' :: (q ++ s)))

/-- A string. -/
def Quoted (d t : Str) : Prop := ∃ s, Inner d s ∧ t = '"' :: (s ++ ['"'])

/-- Digits. -/
def Dig (s : Str) : Prop := s ≠ [] ∧ ∀ c ∈ s, isDig c = true

/-- A number. -/
def Number (t : Str) : Prop :=
  ∃ m i f e, t = m ++ (i ++ (f ++ e)) ∧ (m = [] ∨ m = ['-']) ∧ (i = ['0'] ∨ (Dig i ∧ i.head? ≠ some '0')) ∧
    (f = [] ∨ ∃ d, Dig d ∧ f = '.' :: d) ∧
    (e = [] ∨ ∃ x g d, (x = 'e' ∨ x = 'E') ∧ (g = [] ∨ g = ['+'] ∨ g = ['-']) ∧ Dig d ∧ e = x :: (g ++ d))

mutual

/-- A text spells a tree. -/
inductive Value : PTree → Str → Prop
  | text (d t : Str) : Quoted d t → Value (.node d []) t
  | number (t : Str) : Number t → Value (.node t []) t
  | literal (t : Str) : t = c!"true" ∨ t = c!"false" ∨ t = c!"null" → Value (.node t []) t
  | noMember (a : Str) : Space a → Value (.node [] []) ('{' :: (a ++ ['}']))
  | object (k : List (Str × PTree)) (s : Str) : Members k s → Value (.node [] k) ('{' :: (s ++ ['}']))
  | noElement (a : Str) : Space a → Value (.node [] []) ('[' :: (a ++ [']']))
  | array (k : List (Str × PTree)) (s : Str) : Elements k s → Value (.node [] k) ('[' :: (s ++ [']']))

/-- Named values with commas between them. -/
inductive Members : List (Str × PTree) → Str → Prop
  | one (k : Str) (v : PTree) (a q b c t d : Str) : Space a → Quoted k q → Space b → Space c → Value v t → Space d →
      Members [(k, v)] (a ++ (q ++ (b ++ ':' :: (c ++ (t ++ d)))))
  | more (k : Str) (v : PTree) (a q b c t d : Str) (l : List (Str × PTree)) (s : Str) : Space a → Quoted k q → Space b → Space c →
      Value v t → Space d → Members l s → Members ((k, v) :: l) (a ++ (q ++ (b ++ ':' :: (c ++ (t ++ (d ++ ',' :: s))))))

/-- Values with commas between them; they have no names. -/
inductive Elements : List (Str × PTree) → Str → Prop
  | one (v : PTree) (c t d : Str) : Space c → Value v t → Space d → Elements [([], v)] (c ++ (t ++ d))
  | more (v : PTree) (c t d : Str) (l : List (Str × PTree)) (s : Str) : Space c → Value v t → Space d → Elements l s →
      Elements (([], v) :: l) (c ++ (t ++ (d ++ ',' :: s)))

end

/-- A whole file spells a tree. -/
def Text (p : PTree) (t : Str) : Prop := ∃ a v b, t = a ++ (v ++ b) ∧ Space a ∧ Value p v ∧ Space b

end NC.Spec.JsonText
