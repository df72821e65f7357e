import Verif.Server

/-!
# A small server for examples

A line is accepted unless it begins with `!`; macro 100 has the value 5 from
line 1 on.  Used to show that hypotheses of the server theorems can be met.
-/

namespace NC.Demo
open NC NC.Srv

/-- Description files. -/
def gFile : DescFile := [(c!"0", [(c!"Rapid", c!"Rapid traverse")]), (c!"54", [(c!"Zero", c!"Zero point")])]

/-- Description files. -/
def mFile : DescFile := [(c!"30", [(c!"End", c!"End of program")])]

/-- Description files. -/
def macroFile : DescFile :=
  [(c!"3101", [(c!"PI", c!"Pi")]), (c!"100", [(c!"Common", c!"Range: #100-#131 cleared")])]

/-- The world of the examples; `readJson` is given by the caller. -/
def world (rd : Str → Option Json) : World Unit Unit Unit Unit where
  fresh _ _ _ _ := .ok ()
  line _ _ l := .ok ((), l.head? != some '!', c!"1: 2: wrong")
  totals _ := ⟨0, 0, [], 0, 0, 0, 0, 0⟩
  macros _ := [(⟨100, 1⟩, 5)]
  pathTime := false
  defaults := ()
  readJson := rd
  logging := true
  related _ := .null

/-- Readable files. -/
def files : Files Unit Unit Unit where
  settings := none
  grammar := .good ()
  gGroups := .good ()
  mGroups := .good ()
  gDesc := .good gFile
  mDesc := .good mFile
  macroDesc := .good macroFile
  userDesc := none

/-- A `didOpen` notification. -/
def opened (uri text : Str) : Json :=
  .obj [(c!"method", .str c!"textDocument/didOpen"),
    (c!"params", .obj [(c!"textDocument", .obj [(c!"uri", .str uri), (c!"text", .str text)])])]

/-- A `didChange` notification. -/
def changed (uri text : Str) : Json :=
  .obj [(c!"method", .str c!"textDocument/didChange"),
    (c!"params", .obj [(c!"textDocument", .obj [(c!"uri", .str uri)]),
      (c!"contentChanges", .arr [.obj [(c!"text", .str text)]])])]

/-- A `didClose` notification. -/
def closed (uri : Str) : Json :=
  .obj [(c!"method", .str c!"textDocument/didClose"),
    (c!"params", .obj [(c!"textDocument", .obj [(c!"uri", .str uri)])])]

/-- A hover request. -/
def hovered (id : Int) (uri : Str) (line ch : Int) : Json :=
  .obj [(c!"id", .int id), (c!"method", .str c!"textDocument/hover"),
    (c!"params", .obj [(c!"textDocument", .obj [(c!"uri", .str uri)]),
      (c!"position", .obj [(c!"line", .int line), (c!"character", .int ch)])])]

/-- A lens request. -/
def lensed (id : Int) (uri : Str) : Json :=
  .obj [(c!"id", .int id), (c!"method", .str c!"textDocument/codeLens"),
    (c!"params", .obj [(c!"textDocument", .obj [(c!"uri", .str uri)])])]

/-- A completion request. -/
def completed (id : Int) : Json :=
  .obj [(c!"id", .int id), (c!"method", .str c!"textDocument/completion")]

/-- `shutdown`. -/
def shut (id : Int) : Json := .obj [(c!"id", .int id), (c!"method", .str c!"shutdown")]

/-- `exit`. -/
def quit : Json := .obj [(c!"method", .str c!"exit")]

end NC.Demo
