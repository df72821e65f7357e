import Verif.Form

/-!
# Predefined blocks (parser_net/PredefinedBlocks.cs)

Simplifications: the files of a directory are listed in the order they have here; JSON is a codec that is given;
writing and deleting succeed.
-/

namespace NC.Blocks
open NC NC.Form

/-- Exceptions of .NET. -/
inductive Exc where
  | format
  | null
  | json
deriving DecidableEq

/-- `Block` (PredefinedBlocks.cs:15-21); lists and texts may be null. -/
structure Snippet where
  id : Int
  name : Option Str
  code : Option (List (Option Str))
  description : Option (List (Option Str))
deriving DecidableEq

/-- `Group` (PredefinedBlocks.cs:23-31) without the access. -/
structure Group where
  version : Option Str
  id : Int
  name : Option Str
  blocks : Option (List (Option Snippet))
deriving DecidableEq

/-- `BlockAccessType` (PredefinedBlocks.cs:9-13). -/
inductive Access where
  | readOnly
  | readWrite
deriving DecidableEq

/-- `string.Format(s, dot)` with one argument: doubled braces, and `{0}`.  An index other than 0 is out of range, and a
brace that is neither doubled nor before a digit is an error.  Items with an alignment, a format, blanks or leading
zeroes are not modelled: `ub`. -/
def format (dot : Str) : Str → Out Exc Str
  | [] => .ok []
  | '{' :: '{' :: s => (format dot s).bind fun r => .ok ('{' :: r)
  | '}' :: '}' :: s => (format dot s).bind fun r => .ok ('}' :: r)
  | '{' :: '0' :: '}' :: s => (format dot s).bind fun r => .ok (dot ++ r)
  | '}' :: _ => .throw .format
  | '{' :: c :: _ => if c = '0' then .ub else .throw .format
  | '{' :: [] => .throw .format
  | c :: s => (format dot s).bind fun r => .ok (c :: r)

/-- A text that may be null: `ArgumentNullException`. -/
def formatText (dot : Str) : Option Str → Out Exc (Option Str)
  | some s => (format dot s).bind fun r => .ok (some r)
  | none => .throw .null

/-- A loop that changes each element. -/
def each {α : Type} (f : α → Out Exc α) : List α → Out Exc (List α)
  | [] => .ok []
  | a :: l => (f a).bind fun b => (each f l).bind fun r => .ok (b :: r)

/-- The loop over the lines of a block (PredefinedBlocks.cs:56-57). -/
def formatBlock (dot : Str) : Option Snippet → Out Exc (Option Snippet)
  | some b =>
    match b.code with
    | some c => (each (formatText dot) c).bind fun c => .ok (some { b with code := some c })
    | none => .throw .null
  | none => .throw .null

/-- The loop over the blocks of a group (PredefinedBlocks.cs:55). -/
def formatGroup (dot : Str) (g : Group) : Out Exc Group :=
  match g.blocks with
  | some b => (each (formatBlock dot) b).bind fun b => .ok { g with blocks := some b }
  | none => .throw .null

/-- The disk: the files by their full paths. -/
structure Disk where
  files : Dict Str

/-- What of the platform is used: `full` is `Path.GetFullPath`, `join` the path of a file in a directory, and `name` the
name of a file when it matches `*.json` and is in the directory, both given by full paths. -/
structure Platform where
  full : Str → Str
  join : Str → Str → Str
  name : Str → Str → Option Str

/-- JSON of groups (Newtonsoft). -/
structure Codec where
  write : Group → Str
  /-- null, a group, or an error -/
  read : Str → Out Exc (Option Group)

/-- The names of the JSON files of a directory. -/
def namesOf (P : Platform) (d : Disk) (dir : Str) : List Str := d.files.filterMap (fun e => P.name (P.full dir) e.1)

/-- A file is read and stored (PredefinedBlocks.cs:45-51). -/
def load (P : Platform) (J : Codec) (d : Disk) (dir : Str) (a : Access) : List Str → Out Exc (Dict (Group × Access))
  | [] => .ok []
  | n :: l =>
    match look d.files (P.join (P.full dir) n) with
    | some t => (J.read t).bind fun g =>
      match g with
      | some g => (load P J d dir a l).bind fun r => .ok ((P.join (P.full dir) n, (g, a)) :: r)
      | none => .throw .null
    | none => .throw .null

/-- `Read` (PredefinedBlocks.cs:35-66); a directory that is missing has no files here. -/
def read (P : Platform) (J : Codec) (d : Disk) (dir dot : Str) (a : Access) : Out Exc (Dict (Group × Access)) :=
  (load P J d dir a (namesOf P d dir)).bind fun r =>
    each (fun e => (formatGroup dot e.2.1).bind fun g => .ok (e.1, (g, e.2.2))) r

/-- `File.Delete`, by the full path. -/
def delete (P : Platform) (d : Disk) (p : Str) : Disk := ⟨d.files.filter (fun e => e.1 ≠ P.full p)⟩

/-- The loop over the files of the user (PredefinedBlocks.cs:76-80); the paths begin with the one that was given. -/
def clean (P : Platform) (groups : Dict (Group × Access)) (dir : Str) : List Str → Disk → Disk
  | [], d => d
  | n :: l, d =>
    clean P groups dir l (if (look groups (P.join dir n)).isSome then d else delete P d (P.join dir n))

/-- The loop over the groups (PredefinedBlocks.cs:82-88). -/
def store (P : Platform) (J : Codec) : Dict (Group × Access) → Disk → Disk
  | [], d => d
  | (k, (g, a)) :: l, d =>
    match a with
    | .readOnly => store P J l d
    | .readWrite => store P J l ⟨put d.files (P.full k) (J.write g)⟩

/-- `Write` (PredefinedBlocks.cs:74-89). -/
def write (P : Platform) (J : Codec) (groups : Dict (Group × Access)) (dir : Str) (d : Disk) : Disk :=
  store P J groups (clean P groups dir (namesOf P d dir) d)

end NC.Blocks
