import Verif.Base

/-!
# Removing comments and optional block marks
(parser/fanuc/AllAttributesParser.cpp:583-593 and 608-627, the loops after
`simple_parse`)
-/

namespace NC.Removal
open NC

/-- The iterator loop of `remove_comment` (AllAttributesParser.cpp:581-591):
`kept` are the words the iterator has passed. -/
def commentLoop (kept : Block) : Block → Block
  | [] => kept
  | .str w v :: as => if w = c!"(" then commentLoop kept as else commentLoop (kept ++ [.str w v]) as
  | a :: as => commentLoop (kept ++ [a]) as

/-- `remove_comment` on a parsed block. -/
def removeComment (b : Block) : Block := commentLoop [] b

/-- The loop of `remove_optional_block` (AllAttributesParser.cpp:613-625). -/
def removeOptional : Block → Block
  | .dec d :: as => if d.word = c!"/" ∧ d.value.isSome then removeOptional as else .dec d :: as
  | b => b

end NC.Removal
