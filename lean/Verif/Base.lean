import Mathlib.Data.List.Basic
import Mathlib.Data.Nat.Digits.Lemmas
import Mathlib.Data.Rat.Floor
import Mathlib.Tactic.Linarith
import Mathlib.Tactic.Ring
import Mathlib.Tactic.NormNum

/-!
# Common vocabulary of the model

Character strings, C++-like outcomes (normal return, exception, undefined
behaviour), decimal text <-> number conversions (`std::to_string`, `std::stoi`,
`std::stod`) and the attribute types produced by the Fanuc line parser.
-/

namespace NC

/-- `std::string` / `std::string_view` contents, as a list of characters. -/
abbrev Str := List Char

open Lean in
/-- `c!"abc"` is the character list `['a','b','c']`. -/
scoped macro:max "c!" s:str : term => do
  let cs := s.getString.toList.map (fun c => Syntax.mkCharLit c)
  let arr := cs.toArray
  `(([$arr,*] : List Char))

/-- Outcome of a C++ call: normal return, exception, or undefined behaviour. -/
inductive Out (ε α : Type) where
  | ok (a : α)
  | throw (e : ε)
  | ub
deriving DecidableEq, Repr

namespace Out
variable {ε α β : Type}

/-- Sequencing: exceptions and undefined behaviour propagate. -/
def bind (x : Out ε α) (f : α → Out ε β) : Out ε β :=
  match x with
  | ok a => f a
  | throw e => throw e
  | ub => ub

instance : Monad (Out ε) where
  pure := Out.ok
  bind := Out.bind

@[simp] theorem bind_ok (a : α) (f : α → Out ε β) : (Out.ok a >>= f) = f a := rfl
@[simp] theorem bind_throw (e : ε) (f : α → Out ε β) : ((Out.throw e : Out ε α) >>= f) = .throw e := rfl
@[simp] theorem bind_ub (f : α → Out ε β) : ((Out.ub : Out ε α) >>= f) = .ub := rfl
@[simp] theorem pure_eq (a : α) : (pure a : Out ε α) = .ok a := rfl

/-- The call returned normally. -/
def isOk : Out ε α → Bool
  | ok _ => true
  | _ => false

theorem bind_eq_ok {x : Out ε α} {f : α → Out ε β} {b : β} :
    (x >>= f) = .ok b ↔ ∃ a, x = .ok a ∧ f a = .ok b := by
  cases x <;> simp

end Out

/-! ## Decimal digits -/

/-- ASCII decimal digit (`qi::digit`, `\d`, `isdigit`). -/
def isDig (c : Char) : Bool := decide ('0' ≤ c) && decide (c ≤ '9')

/-- Numeric value of a digit character. -/
def digVal (c : Char) : Nat := c.toNat - '0'.toNat

/-- The digit character of a number below ten. -/
def digChr (n : Nat) : Char := Char.ofNat ('0'.toNat + n)

/-- Value of a digit string (most significant digit first). -/
def readNat (s : Str) : Nat := s.foldl (fun a c => a * 10 + digVal c) 0

/-- `std::to_string` of an unsigned number. -/
def natStr (n : Nat) : Str :=
  if n = 0 then c!"0" else ((Nat.digits 10 n).reverse).map digChr

/-- `std::to_string` of a signed number. -/
def intStr (z : Int) : Str :=
  if z < 0 then '-' :: natStr z.natAbs else natStr z.natAbs

theorem digVal_digChr {n : Nat} (h : n < 10) : digVal (digChr n) = n := by
  interval_cases n <;> decide

theorem isDig_digChr {n : Nat} (h : n < 10) : isDig (digChr n) = true := by
  interval_cases n <;> decide

theorem readNat_append (a b : Str) :
    readNat (a ++ b) = readNat a * 10 ^ b.length + readNat b := by
  have key : ∀ (b : Str) (x : Nat),
      b.foldl (fun a c => a * 10 + digVal c) x = x * 10 ^ b.length + readNat b := by
    intro b
    induction b with
    | nil => intro x; simp [readNat]
    | cons c b ih =>
      intro x
      rw [List.foldl_cons, ih]
      have h2 : readNat (c :: b) = digVal c * 10 ^ b.length + readNat b := by
        unfold readNat; rw [List.foldl_cons, ih]; simp [readNat]
      rw [h2, List.length_cons, pow_succ]; ring
  unfold readNat
  rw [List.foldl_append, key]; rfl

theorem readNat_cons (c : Char) (b : Str) :
    readNat (c :: b) = digVal c * 10 ^ b.length + readNat b := by
  have := readNat_append [c] b
  simpa [readNat] using this

theorem readNat_digits : ∀ (l : List Nat), (∀ x ∈ l, x < 10) →
    readNat (l.reverse.map digChr) = Nat.ofDigits 10 l := by
  intro l
  induction l with
  | nil => intro _; rfl
  | cons x l ih =>
    intro h
    rw [List.reverse_cons, List.map_append, readNat_append, ih (fun y hy => h y (by simp [hy]))]
    have hx : x < 10 := h x (by simp)
    simp [readNat, digVal_digChr hx, Nat.ofDigits_cons]
    ring

theorem natStr_ne_nil (n : Nat) : natStr n ≠ [] := by
  unfold natStr; split
  · simp
  · rename_i h
    simp [Nat.digits_ne_nil_iff_ne_zero.mpr h]

/-- Reading back a printed number gives the number. -/
theorem readNat_natStr (n : Nat) : readNat (natStr n) = n := by
  unfold natStr; split
  · subst n; decide
  · rw [readNat_digits _ (fun x hx => Nat.digits_lt_base (by norm_num) hx), Nat.ofDigits_digits]

theorem natStr_isDig (n : Nat) : ∀ c ∈ natStr n, isDig c = true := by
  unfold natStr; split
  · simp; decide
  · intro c hc
    simp only [List.mem_map, List.mem_reverse] at hc
    obtain ⟨d, hd, rfl⟩ := hc
    exact isDig_digChr (Nat.digits_lt_base (by norm_num) hd)

theorem natStr_inj {m n : Nat} (h : natStr m = natStr n) : m = n := by
  rw [← readNat_natStr m, h, readNat_natStr]

theorem digVal_lt {c : Char} (h : isDig c = true) : digVal c < 10 := by
  simp only [isDig, Bool.and_eq_true, decide_eq_true_eq] at h
  obtain ⟨_, h2⟩ := h
  have : c.toNat ≤ '9'.toNat := h2
  unfold digVal
  have h0 : '0'.toNat = 48 := rfl
  have h9 : '9'.toNat = 57 := rfl
  omega

theorem readNat_lt {s : Str} (h : ∀ c ∈ s, isDig c = true) : readNat s < 10 ^ s.length := by
  induction s with
  | nil => simp [readNat]
  | cons c s ih =>
    rw [readNat_cons, List.length_cons, pow_succ]
    have h1 := digVal_lt (h c (by simp))
    have h2 := ih (fun x hx => h x (by simp [hx]))
    nlinarith [pow_pos (show 0 < 10 by norm_num) s.length]

/-! ## `std::stoi`, `std::stod`, `atoi` -/

/-- The standard exceptions the modelled code can raise through number parsing. -/
inductive NumExc where
  | invalidArgument
  | outOfRange
deriving DecidableEq, Repr

/-- `isspace` in the "C" locale. -/
def isSp (c : Char) : Bool :=
  c = ' ' || c = '\t' || c = '\n' || c = '\r' || c = '\x0b' || c = '\x0c'

/-- Sign and leading digits of a text, as scanned by `strtol` in base 10. -/
def scanInt (s : Str) : Bool × Str :=
  match s.dropWhile isSp with
  | '-' :: r => (true, r.takeWhile isDig)
  | '+' :: r => (false, r.takeWhile isDig)
  | r => (false, r.takeWhile isDig)

/-- `std::stoi` (32 bit `int`). -/
def stoi (s : Str) : Out NumExc Int :=
  let (neg, ds) := scanInt s
  if ds = [] then .throw .invalidArgument
  else
    let v : Int := if neg then -(readNat ds : Int) else readNat ds
    if -2147483648 ≤ v ∧ v ≤ 2147483647 then .ok v else .throw .outOfRange

/-- `atoi`: like `stoi` but 0 when there is no number.  (Overflow, undefined in
C, is modelled as saturation; no theorem relies on it.) -/
def atoi (s : Str) : Int :=
  let (neg, ds) := scanInt s
  let v : Int := if neg then -(readNat ds : Int) else readNat ds
  max (-2147483648) (min v 2147483647)

/-- Leading sign: is it a minus, and the rest. -/
def splitSign : Str → Bool × Str
  | '-' :: r => (true, r)
  | '+' :: r => (false, r)
  | r => (false, r)

/-- Digits after a leading dot. -/
def fracDigits : Str → Str
  | '.' :: f => f.takeWhile isDig
  | _ => []

/-- `std::stod` restricted to plain decimals (no exponent, hex, inf, nan: such
texts are not produced by the line grammar). -/
def stod (s : Str) : Out NumExc ℚ :=
  let sr := splitSign (s.dropWhile isSp)
  let ip := sr.2.takeWhile isDig
  let fp := fracDigits (sr.2.dropWhile isDig)
  if ip = [] ∧ fp = [] then .throw .invalidArgument
  else
    let v : ℚ := (readNat ip : ℚ) + (readNat fp : ℚ) / 10 ^ fp.length
    .ok (if sr.1 then -v else v)

theorem splitSign_minus (r : Str) : splitSign ('-' :: r) = (true, r) := rfl
theorem splitSign_plus (r : Str) : splitSign ('+' :: r) = (false, r) := rfl
theorem splitSign_other {s : Str} (h : ∀ c r, s = c :: r → c ≠ '-' ∧ c ≠ '+') : splitSign s = (false, s) := by
  unfold splitSign
  split
  · exact absurd rfl (h _ _ rfl).1
  · exact absurd rfl (h _ _ rfl).2
  · rfl

theorem isDig_not_sp {c : Char} (h : isDig c = true) : isSp c = false := by
  simp only [isDig, Bool.and_eq_true, decide_eq_true_eq] at h
  obtain ⟨h1, _⟩ := h
  have h1 : '0'.toNat ≤ c.toNat := h1
  have h0 : '0'.toNat = 48 := rfl
  by_contra hc
  simp only [isSp, Bool.not_eq_false, Bool.or_eq_true, decide_eq_true_eq] at hc
  rcases hc with ((((h|h)|h)|h)|h)|h <;> subst h <;> revert h1 <;> decide

theorem takeWhile_all {p : Char → Bool} {s : Str} (h : ∀ c ∈ s, p c = true) : s.takeWhile p = s := by
  induction s with
  | nil => rfl
  | cons a s ih => simp [List.takeWhile, h a (by simp), ih (fun c hc => h c (by simp [hc]))]

theorem dropWhile_all {p : Char → Bool} {s : Str} (h : ∀ c ∈ s, p c = true) : s.dropWhile p = [] := by
  induction s with
  | nil => rfl
  | cons a s ih => simp [List.dropWhile, h a (by simp), ih (fun c hc => h c (by simp [hc]))]

theorem scanInt_digits {s : Str} (h : ∀ c ∈ s, isDig c = true) : scanInt s = (false, s) := by
  cases s with
  | nil => rfl
  | cons a s =>
    have ha := h a (by simp)
    have h1 : (a :: s).dropWhile isSp = a :: s := by
      simp [List.dropWhile, isDig_not_sp ha]
    unfold scanInt
    rw [h1]
    have hm : a ≠ '-' := by rintro rfl; revert ha; decide
    have hp : a ≠ '+' := by rintro rfl; revert ha; decide
    have ht := takeWhile_all h
    split
    · rename_i heq; simp at heq; exact absurd heq.1 hm
    · rename_i heq; simp at heq; exact absurd heq.1 hp
    · rw [ht]

/-- `stoi` on a non-empty digit string that fits an `int`. -/
theorem stoi_digits {s : Str} (h : ∀ c ∈ s, isDig c = true) (hne : s ≠ [])
    (hr : readNat s ≤ 2147483647) : stoi s = .ok (readNat s : Int) := by
  unfold stoi
  rw [scanInt_digits h]
  simp [hne]
  omega

/-- `stoi` on a digit string never sees an invalid argument and never a negative number. -/
theorem stoi_digits_cases {s : Str} (h : ∀ c ∈ s, isDig c = true) (hne : s ≠ []) :
    stoi s = if readNat s ≤ 2147483647 then .ok (readNat s : Int) else .throw .outOfRange := by
  unfold stoi
  rw [scanInt_digits h]
  simp only [hne, if_false, Bool.false_eq_true]
  by_cases hr : readNat s ≤ 2147483647
  · rw [if_pos (by omega), if_pos hr]
  · rw [if_neg (by omega), if_neg hr]

theorem stoi_natStr {n : Nat} (h : n ≤ 2147483647) : stoi (natStr n) = .ok (n : Int) := by
  rw [stoi_digits (natStr_isDig n) (natStr_ne_nil n) (by rw [readNat_natStr]; exact h), readNat_natStr]

/-! ## Attributes (parser/fanuc/AllAttributesParserDefines.h) -/

/-- `DecimalAttributeData` (AllAttributesParserDefines.h:33-52). -/
structure Dec where
  word : Str
  assign : Option Char := none
  sign : Option Char := none
  openB : Option Str := none
  mac : Option Str := none
  value : Option Str := none
  dot : Option Char := none
  value2 : Option Str := none
  closeB : Option Str := none
deriving DecidableEq, Repr

/-- `AttributeVariant` (AllAttributesParserDefines.h:58): a decimal, string or
character attribute. -/
inductive Attr where
  | dec (d : Dec)
  | str (word value : Str)
  | chr (word : Str) (value : Char)
deriving DecidableEq, Repr

/-- The address of a word. -/
def Attr.word : Attr → Str
  | .dec d => d.word
  | .str w _ => w
  | .chr w _ => w

/-- A block: the parsed words of a line. -/
abbrev Block := List Attr

/-- `WordType` (AllAttributesParserDefines.h:60-71). -/
inductive WordType where
  | misc | angle | calc | code | feed | length | macro | numbering | assignable
deriving DecidableEq, Repr

/-- `WordGrammar` (AllAttributesParserDefines.h:76-85). -/
structure WordGrammar where
  word : Str
  rangeFrom : Int
  rangeTo : Int
  decFrom : Nat
  decTo : Nat
  unique : Bool
  wtype : WordType
deriving DecidableEq, Repr

/-- `word_map` (AllAttributesParserDefines.h:87), an association list; the
iteration order of the `unordered_map` is the (arbitrary) list order. -/
abbrev WordMap := List (Str × WordGrammar)

/-- `unordered_map::find`. -/
def WordMap.find (m : WordMap) (w : Str) : Option WordGrammar :=
  (List.find? (fun p => p.1 == w) m).map (·.2)

/-- `FanucWordGrammar` (AllAttributesParserDefines.h:89-93). -/
structure FanucGrammar where
  metric : WordMap
  imperial : WordMap

end NC
