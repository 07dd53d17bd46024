import Verif.RefArgs.Model

/-!
# Arguments that are references (specification)

What C++ means by a call of the function itself, without a proxy.
-/

namespace Verif.RefArgs

/-- The function called directly: a parameter of reference type is the variable of the caller, another one a local
variable. -/
def direct (args : Nat → Arg) : Prog → (Nat → Int) → (Nat → Int) → Int × (Nat → Int)
  | .ret v, _, vars => (v, vars)
  | .get i k, loc, vars =>
    match args i with
    | .val _ => direct args (k (loc i)) loc vars
    | .ref x => direct args (k (vars x)) loc vars
  | .set i v k, loc, vars =>
    match args i with
    | .val _ => direct args k (fun j => if j = i then v else loc j) vars
    | .ref x => direct args k loc (fun y => if y = x then v else vars y)

/-- A direct call. -/
def native (p : Prog) (args : Nat → Arg) (vars : Nat → Int) : Int × (Nat → Int) :=
  direct args p (fun i => match args i with | .val v => v | .ref _ => 0) vars

/-- Some path through the function stores to parameter `i`. -/
def Prog.Stores (i : Nat) : Prog → Prop
  | .ret _ => False
  | .get _ k => ∃ v, (k v).Stores i
  | .set j _ k => j = i ∨ k.Stores i

/-- The function stores to no parameter that is a reference here. -/
def OnlyReads (p : Prog) (args : Nat → Arg) : Prop := ∀ i, p.Stores i → ∃ v, args i = .val v

/-- No variable is passed by reference twice. -/
def Distinct (args : Nat → Arg) : Prop := ∀ i j x, args i = .ref x → args j = .ref x → i = j

end Verif.RefArgs
