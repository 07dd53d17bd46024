import Verif.Basic

/-!
# Exported files (specification)

The exports in force are a plain list of (path, kind, handle).  A path is a non-empty list of
names.
-/

namespace Verif.FileTree.Spec

/-- A file path: a list of names. -/
abbrev Names := List (List Byte)

/-- One export in force. -/
structure Item where
  path : Names
  isDir : Bool
  handle : Int
  deriving Repr, DecidableEq

/-- `p` lies strictly beneath `q`. -/
def beneath (p q : Names) : Bool := q.isPrefixOf p && !(q == p)

/-- Two paths hide each other: one is equal to or beneath the other. -/
def related (p q : Names) : Bool := p.isPrefixOf q || q.isPrefixOf p

/-- May something be exported at `p`?  Not beneath an exported directory. -/
def allowed (live : List Item) (p : Names) : Bool :=
  !(live.any (fun i => i.isDir && beneath p i.path))

/-- Export: refused (no change) beneath an exported directory; otherwise the new item
replaces everything at, above and beneath its path. -/
def export_ (live : List Item) (i : Item) : List Item :=
  if allowed live i.path then i :: live.filter (fun j => !(related i.path j.path)) else live

/-- `live` answers a lookup of `p` with the directory `h` and the rest `rest`, or with the file
`h` (`rest = []`). -/
inductive Answers (live : List Item) (p : Names) : Int → Names → Prop where
  | file (h : Int) : ⟨p, false, h⟩ ∈ live → Answers live p h []
  | dir (q rest : Names) (h : Int) :
      ⟨q, true, h⟩ ∈ live → p = q ++ rest → rest ≠ [] → Answers live p h rest

/-- Cut a text at every `/`. -/
def cut : List Byte → Names
  | [] => [[]]
  | b :: bs =>
    if b = 47 then [] :: cut bs
    else
      match cut bs with
      | [] => [[b]]
      | c :: cs => (b :: c) :: cs

/-- The names an export path text stands for in the code: the first character is dropped, the
rest is cut at `/`; a text without any `/` additionally gets itself as last name.  (For a
well-formed absolute path `/a/b/c` this is `a, b, c`.) -/
def namesOf (s : List Byte) : Names :=
  if (47 : Byte) ∈ s then cut s.tail else [s.tail, s]

end Verif.FileTree.Spec
