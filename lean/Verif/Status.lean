import Verif.JsonWrite

/-!
# The status bar of the editor (vscode-client/src/extension.ts:148-180)

`setStatusText` shows the name of the machine, or the name of the settings file.

Simplified: `JSON.parse` is a parameter that gives a value of JSON or fails; `path.basename` of the normalised path is
given as the last component of the path; characters are code points.
-/

namespace NC.Status
open NC NC.JFile

/-- White space and line ends of JavaScript. -/
def space (c : Char) : Bool :=
  c.toNat ∈ [9, 10, 11, 12, 13, 32, 160, 5760, 8232, 8233, 8239, 8287, 12288, 65279] || (8192 ≤ c.toNat && c.toNat ≤ 8202)

/-- `trim`. -/
def trim (s : Str) : Str := ((s.dropWhile space).reverse.dropWhile space).reverse

/-- A member of an object; the last one of a name counts. -/
def member (m : List (Str × J)) (k : Str) : Option J := (m.reverse.find? (fun e => e.1 == k)).map (·.2)

/-- `path.extname` of a name: from the last dot on, but not if the name begins with it, and nothing for `..`. -/
def extname (name : Str) : Str :=
  if '.' ∉ name ∨ name = c!".." then []
  else if (name.reverse.takeWhile (· ≠ '.')).length + 1 = name.length then []
  else '.' :: (name.reverse.takeWhile (· ≠ '.')).reverse

/-- `replace` with a text: the first place. -/
def replaceFirst (s t : Str) : Str :=
  if t.isPrefixOf s then s.drop t.length
  else match s with
    | [] => []
    | c :: r => c :: replaceFirst r t

/-- `stem` (extension.ts:175-180). -/
def stem (name : Str) : Str := replaceFirst name (extname name)

/-- `setStatusText` (extension.ts:148-173); `none`: the file cannot be read. -/
def statusText (parse : Str → Option J) (name : Str) (data : Option Str) : Str :=
  match data.bind parse with
  | some (.obj m) => match member m c!"machine_tool_id" with
    | some (.str t) => if trim t = [] then stem name else trim t
    | _ => stem name
  | _ => stem name

end NC.Status
