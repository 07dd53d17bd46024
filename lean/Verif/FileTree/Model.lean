import Verif.Path.Model

/-!
# The exported file tree (model of `include/process_sandbox/filetree.h`)
-/

namespace Verif.FileTree

open Verif.Path

/-- An entry of a virtual directory: `std::variant<DirPtr, FileHandle, DirHandle>`,
`include/process_sandbox/filetree.h:104-106`.  A handle is represented by its descriptor
number; a virtual directory is an association list (the `unordered_map`). -/
inductive Entry where
  | file (h : Int)
  | dirh (h : Int)
  | tree (d : List (Comp × Entry))
  deriving Repr

/-- `ExportedDirectory::directory`, `include/process_sandbox/filetree.h:104-106`. -/
abbrev Dir := List (Comp × Entry)

/-- `directory.find(name)`, `include/process_sandbox/filetree.h:122` and `:152`. -/
def find : Dir → Comp → Option Entry
  | [], _ => none
  | (k, e) :: d, c => if k = c then some e else find d c

/-- `directory[name] = e`, `include/process_sandbox/filetree.h:169`, `:178`, `:187`. -/
def assign : Dir → Comp → Entry → Dir
  | [], c, e => [(c, e)]
  | (k, x) :: d, c, e => if k = c then (k, e) :: d else (k, x) :: assign d c e

/-- `DirLookupResult`, `include/process_sandbox/filetree.h:112-113`. -/
inductive DirLookup where
  | monostate
  | handle (h : Int)
  | dir (d : Dir)

/-- `ExportedDirectory::get_dir`, `include/process_sandbox/filetree.h:120-144`. -/
def getDir (d : Dir) (c : Comp) : DirLookup :=
  match find d c with
  | none => .monostate
  | some (.file _) => .monostate
  | some (.tree t) => .dir t
  | some (.dirh h) => .handle h

/-- `ExportedDirectory::get_file`, `include/process_sandbox/filetree.h:150-162`. -/
def getFile (d : Dir) (c : Comp) : Option Int :=
  match find d c with
  | some (.file h) => some h
  | _ => none

mutual
/-- The handles owned by an entry (those closed when it is destroyed or overwritten: the
destructor of the variant, `include/process_sandbox/filetree.h:75-106`). -/
def Entry.handles : Entry → List Int
  | .file h => [h]
  | .dirh h => [h]
  | .tree d => handlesOf d
/-- The handles owned by a directory (`include/process_sandbox/filetree.h:104-106`). -/
def handlesOf : List (Comp × Entry) → List Int
  | [] => []
  | (_, e) :: d => e.handles ++ handlesOf d
end

/-- The handles closed when the entry stored under a name is overwritten
(`include/process_sandbox/filetree.h:169`, `:178`, `:187`). -/
def closedBy (old : Option Entry) : List Int :=
  match old with
  | none => []
  | some e => e.handles

/-- `std::string::npos` for a 64-bit `size_t` (`include/process_sandbox/filetree.h:215`). -/
@[irreducible] def npos : Nat := 2 ^ 64 - 1

/-- `path.find_last_of('/')`, `include/process_sandbox/filetree.h:215`. -/
def findLastOf (s : List Byte) : Nat :=
  match s.reverse.findIdx? (· == slash) with
  | some k => s.length - 1 - k
  | none => npos

/-- `path.find_first_of('/', pos)`, `include/process_sandbox/filetree.h:218`. -/
def findFirstOf (s : List Byte) (pos : Nat) : Nat :=
  match (s.drop pos).findIdx? (· == slash) with
  | some k => pos + k
  | none => npos

/-- `path.substr(pos, n)`, `include/process_sandbox/filetree.h:219` and `:237`; `none` is the
exception `std::out_of_range`. -/
def substr (s : List Byte) (pos n : Nat) : Option (List Byte) :=
  if pos ≤ s.length then some ((s.drop pos).take n) else none

/-- Result of `add_handle`, `include/process_sandbox/filetree.h:210-240`: `true`, `false`,
or the exception `std::out_of_range` escaping from `substr`. -/
inductive AddResult where
  | added
  | refused
  | threw
  deriving Repr, DecidableEq

/-- The next separator is further on (needed for termination of `addLoop`; no counterpart in
the code). -/
theorem findFirstOf_gt (s : List Byte) (it : Nat) (_ : it < npos) :
    it < findFirstOf s (it + 1) := by
  unfold findFirstOf; split <;> omega

/-- `ExportedFileTree::add_handle`, `include/process_sandbox/filetree.h:210-240`, from the
loop test on: `it` is the current position and `dir` the current directory.  Returns the
result, the updated directory and the handles closed by overwriting.  `it + 1` wraps around
when `it` is `npos`.  The conjunct `it < npos` is redundant for a `size_t` (`end` is at most
`npos`) and makes the definition total.  `leaf` is the entry that the callable `add` stores. -/
def addLoop (path : List Byte) (leaf : Entry) (dir : Dir) (it : Nat) :
    AddResult × Dir × List Int :=
  if _h : it < findLastOf path ∧ it < npos then
    let next := findFirstOf path (it + 1)
    match substr path ((it + 1) % (npos + 1)) (next - it - 1) with
    | none => (.threw, dir, [])
    | some component =>
      match getDir dir component with
      | .dir d =>
        let (r, d', cl) := addLoop path leaf d next
        (r, assign dir component (.tree d'), cl)
      | .monostate =>
        let (r, d', cl) := addLoop path leaf [] next
        (r, assign dir component (.tree d'), closedBy (find dir component) ++ cl)
      | .handle _ => (.refused, dir, [])
  else
    match substr path ((it + 1) % (npos + 1)) npos with
    | none => (.threw, dir, [])
    | some component =>
      (.added, assign dir component leaf, closedBy (find dir component))
termination_by npos + 1 - it
decreasing_by
  all_goals
    have h1 := findFirstOf_gt path it _h.2
    omega

/-- `ExportedFileTree::add_directory`, `include/process_sandbox/filetree.h:301-306`. -/
def addDirectory (root : Dir) (path : List Byte) (h : Int) : AddResult × Dir × List Int :=
  addLoop path (.dirh h) root 0

/-- `ExportedFileTree::add_file`, `include/process_sandbox/filetree.h:312-317`. -/
def addFile (root : Dir) (path : List Byte) (h : Int) : AddResult × Dir × List Int :=
  addLoop path (.file h) root 0

/-- The traversal of `ExportedFileTree::lookup_file`,
`include/process_sandbox/filetree.h:259-291`: all components but the last are looked up as
directories (the loop runs only if there is more than one component), the last one as a
file. -/
def lookupLoop (dir : Dir) : List Comp → Option (Int × Path)
  | [] => none
  | [c] => (getFile dir c).map (fun h => (h, {}))
  | c :: c' :: cs =>
    match getDir dir c with
    | .dir d => lookupLoop d (c' :: cs)
    | .handle h => some (h, ofComponents (c' :: cs))
    | .monostate => none

/-- `ExportedFileTree::lookup_file`, `include/process_sandbox/filetree.h:256-292`.  Whether the
path is absolute is not looked at. -/
def lookupFile (root : Dir) (p : Path) : Option (Int × Path) := lookupLoop root p.components

/-- An export operation: `add_file` or `add_directory`
(`include/process_sandbox/filetree.h:301-317`). -/
structure Export where
  isDir : Bool
  path : List Byte
  handle : Int
  deriving Repr, DecidableEq

/-- Run one export on a tree (`include/process_sandbox/filetree.h:301-317`). -/
def Export.run (root : Dir) (e : Export) : AddResult × Dir × List Int :=
  if e.isDir then addDirectory root e.path e.handle else addFile root e.path e.handle

/-- Run a history of exports on the initially empty tree
(`include/process_sandbox/filetree.h:199`). -/
def runHistory (hist : List Export) : Dir :=
  hist.foldl (fun d e => (e.run d).2.1) []

end Verif.FileTree
