import Verif.Calc

/-!
# `OrderAttributeParser` (parser/fanuc/OrderAttributeParser.cpp)

The only instance of the template is `parse<float, float>` (lines 94-96). Values are rationals, the
rounding to `float` and the spellings `inf` and `nan` of `qi::float_` are left out.
-/

namespace NC.OrderAttr

open NC NC.Calc

/-- `ascii::graph`. -/
def isGraph (c : Char) : Bool := decide (33 ≤ c.toNat ∧ c.toNat ≤ 126)

/-- `qi::omit[*(ascii::graph - c)]` with the skipper `qi::blank`, and the skipping of `qi::lexeme`
before its first character (OrderAttributeParser.cpp:40-41): what is left to read. -/
def seek (c : Char) : Str → Str
  | [] => []
  | x :: t =>
    if x = ' ' ∨ x = '\t' then seek c t
    else if isGraph x = true ∧ x ≠ c then seek c t
    else x :: t

/-- `qi::float_` inside of `qi::lexeme`: nothing is skipped before it
(OrderAttributeParser.cpp:36-41, get_spirit_parser.h). -/
def number : Str → Option (ℚ × Str)
  | '-' :: r => (ureal r).map (fun p => (-p.1, p.2))
  | '+' :: r => ureal r
  | r => ureal r

/-- What one word gives: its value and the rest, no word at all, or the expectation point
`lit(c) > attr_rule` violated in front of the given text. -/
inductive Word1 where
  | value (q : ℚ) (rest : Str)
  | absent
  | broken (at_ : Str)
  deriving DecidableEq

/-- `omit[*(graph - c)] >> lexeme[lit(c) > attr_rule]` (OrderAttributeParser.cpp:40-41). -/
def word (c : Char) (s : Str) : Word1 :=
  match seek c s with
  | [] => .absent
  | x :: t =>
    if x = c then
      match number t with
      | some (q, r) => .value q r
      | none => .broken t
    else .absent

/-- The answer: the returned flag, the two fields of `value`, and the text in front of which an
expectation point was violated (it becomes the message). -/
structure Answer where
  ret : Bool
  fst : ℚ
  snd : ℚ
  err : Option Str
  deriving DecidableEq

/-- `OrderAttributeParser::parse<float, float>` (OrderAttributeParser.cpp:52-92); `v` are the fields
of `value` before the call. The trailing `omit[*graph]` always matches, and the end of the text is not
asked for. -/
def parse (c1 c2 : Char) (v : ℚ × ℚ) (s : Str) : Answer :=
  match word c1 s with
  | .absent => ⟨false, v.1, v.2, none⟩
  | .broken t => ⟨false, v.1, v.2, some t⟩
  | .value a r =>
    match word c2 r with
    | .absent => ⟨false, a, v.2, none⟩
    | .broken t => ⟨false, a, v.2, some t⟩
    | .value b _ => ⟨true, a, b, none⟩

end NC.OrderAttr
