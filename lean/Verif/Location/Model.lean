import Verif.Basic

/-!
# Passing the heap's location to the child (model)

C strings are lists of characters without the final NUL.
-/

namespace Verif.Location

/-- The digit characters of `%zx` (`src/libsandbox.cc:847`). -/
def hexChar (d : Nat) : Char := if d < 10 then Char.ofNat (48 + d) else Char.ofNat (87 + d)

/-- `%zx`, `src/libsandbox.cc:847`: lower-case hexadecimal digits, most significant first, no leading zeros,
and `0` for zero. -/
def hexText (n : Nat) : List Char :=
  if n < 16 then [hexChar n] else hexText (n / 16) ++ [hexChar (n % 16)]
termination_by n

/-- The name of the variable with `=`, `src/libsandbox.cc:847` and `src/library_runner.cc:368`. -/
def name : List Char := "SANDBOX_LOCATION=".toList

/-- The whole text `snprintf` is asked for, `src/libsandbox.cc:844-849`. -/
def fullText (addr size : Word) : List Char := name ++ hexText addr.toNat ++ ':' :: hexText size.toNat

/-- `snprintf` into `location`, `src/libsandbox.cc:843-849`: the first 51 characters are stored, and the
length of the whole text is returned. -/
def location (addr size : Word) : List Char × Nat :=
  ((fullText addr size).take 51, (fullText addr size).length)

/-- `isspace` in the C locale, used by `strtoull` (`src/library_runner.cc:374`). -/
def isSpace (c : Char) : Bool :=
  c == ' ' || c == '\t' || c == '\n' || c == '\x0b' || c == '\x0c' || c == '\r'

/-- The value of a digit in base 16, for `strtoull` (`src/library_runner.cc:374`). -/
def digit (c : Char) : Option Nat :=
  if '0' ≤ c ∧ c ≤ '9' then some (c.toNat - 48)
  else if 'a' ≤ c ∧ c ≤ 'f' then some (c.toNat - 87)
  else if 'A' ≤ c ∧ c ≤ 'F' then some (c.toNat - 55)
  else none

/-- The longest run of digits, its value, how many there are, and the rest (`src/library_runner.cc:374`). -/
def digits : Nat → Nat → List Char → Nat × Nat × List Char
  | v, k, [] => (v, k, [])
  | v, k, c :: s =>
    match digit c with
    | some d => digits (v * 16 + d) (k + 1) s
    | none => (v, k, c :: s)

/-- The optional sign of `strtoull` (`src/library_runner.cc:374`). -/
def sign : List Char → Bool × List Char
  | '-' :: s => (true, s)
  | '+' :: s => (false, s)
  | s => (false, s)

/-- The optional `0x` of `strtoull` in base 16 (`src/library_runner.cc:374`): skipped only if a digit
follows. -/
def skip0x : List Char → List Char
  | '0' :: x :: d :: s => if (x == 'x' || x == 'X') && (digit d).isSome then d :: s else '0' :: x :: d :: s
  | s => s

/-- `strtoull(s, &end, 16)`, `src/library_runner.cc:374` and `:379`: the value and the text at `end`.
Values that do not fit become the largest one. -/
def strtoull (s : List Char) : Word × List Char :=
  let (neg, s1) := sign (s.dropWhile isSpace)
  match digits 0 0 (skip0x s1) with
  | (v, k, rest) =>
    if k = 0 then (0, s)
    else if 2 ^ 64 ≤ v then (BitVec.ofNat 64 (2 ^ 64 - 1), rest)
    else (if neg then - BitVec.ofNat 64 v else BitVec.ofNat 64 v, rest)

/-- How the search ends: a place, the failed invariant at `src/library_runner.cc:375-378`, or the error at
`src/library_runner.cc:384-387`. -/
inductive Found where
  | place (addr length : Word)
  | badSeparator
  | notFound
  deriving Repr, DecidableEq

/-- `bootstrap`, `src/library_runner.cc:365-387`: take the first variable with the right name. -/
def bootstrap : List (List Char) → Found
  | [] => .notFound
  | e :: es =>
    -- `strncmp(ev_name, ev, name_length) == 0`
    if e.take name.length = name then
      match strtoull (e.drop name.length) with
      | (addr, ':' :: s) =>
        let length := (strtoull s).1
        if addr = 0 ∨ length = 0 then .notFound else .place addr length
      | _ => .badSeparator
    else bootstrap es

end Verif.Location
