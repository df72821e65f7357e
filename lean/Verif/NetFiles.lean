import Verif.Hand

/-!
# Grammar and code groups in .NET (parser_net/Grammar.cs, CodeGroups.cs)

The objects that the files are read into, and the JSON of them as a tree.  The text of a file and Newtonsoft are not
modelled: a file is the tree of an object.
-/

namespace NC.Hand
open NC NC.Enums NC.Conf NC.Form

/-- The names of `WordType` (AllAttributesParser.cs:186-197). -/
def wordTypeText : WordType → Str
  | .misc => c!"misc"
  | .angle => c!"angle"
  | .calc => c!"calc"
  | .code => c!"code"
  | .feed => c!"feed"
  | .length => c!"length"
  | .macro => c!"macro"
  | .numbering => c!"numbering"
  | .assignable => c!"assignable"

/-- `WordGrammarWrapper` (AllAttributesParser.cs:199-211) as JSON. -/
def wordTree (w : WordObj) : PTree :=
  .node [] [item c!"word" (w.word.getD c!"null"), item c!"range_from" (intText w.rangeFrom), item c!"range_to" (intText w.rangeTo),
    item c!"decimal_from" (natStr w.decFrom), item c!"decimal_to" (natStr w.decTo), item c!"unique" (jsonBool w.unique),
    item c!"type" (wordTypeText w.wtype)]

/-- A table of words. -/
def tableTree (d : Dict WordObj) : PTree := .node [] (d.map (fun e => (e.1, wordTree e.2)))

/-- `FanucGrammar` (Grammar.cs:9-15). -/
structure GrammarFile where
  version : Str
  ops : List Str
  imperial : Dict WordObj
  metric : Dict WordObj

/-- Its JSON. -/
def GrammarFile.tree (g : GrammarFile) : PTree :=
  .node [] [item c!"version" g.version, (c!"operations", .node [] (g.ops.map (item []))), (c!"imperial", tableTree g.imperial),
    (c!"metric", tableTree g.metric)]

/-- `CodeGroupsCollection` (CodeGroups.cs:33-37). -/
structure GroupsFile where
  version : Str
  groups : Dict (List Ver.Code)

/-- `CodeGroupValue` (CodeGroups.cs:10-13). -/
def codeTree (c : Ver.Code) : Str × PTree := ([], .node [] [item c!"code" (natStr c.1), item c!"rest" (natStr c.2)])

/-- Its JSON. -/
def GroupsFile.tree (g : GroupsFile) : PTree :=
  .node [] [item c!"version" g.version, (c!"groups", .node [] (g.groups.map (fun e => (e.1, .node [] (e.2.map codeTree)))))]

/-- A client that reads the files of a control and its settings (Grammar.cs:22-27, CodeGroups.cs:50-57): the constructor
gets what is in them. -/
def clientOf (g : GrammarFile) (gc mc : GroupsFile) (p : ParserObj) (l : ELanguage) (d : EFanucParserType) : Client :=
  ⟨g.metric, g.imperial, g.ops, gc.groups, mc.groups, p, l, d⟩

end NC.Hand
