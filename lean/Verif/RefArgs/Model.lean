/-!
# Arguments that are references (model)

A proxy of the host can be made for a function with reference parameters.  The frame of the call has no references.
-/

namespace Verif.RefArgs

/-- The body of a function, `Ret (*function)(Args...)`, `include/process_sandbox/cxxsandbox.h:161`, as far as it uses its
parameters: it returns, loads parameter `i` and carries on with what it found, or stores to parameter `i`.  Every value
(`include/process_sandbox/cxxsandbox.h:25-38`) is a number here; what else the function does in its process is not
modelled. -/
inductive Prog where
  | ret (v : Int)
  | get (i : Nat) (k : Int → Prog)
  | set (i : Nat) (v : Int) (k : Prog)

/-- An argument of the call, `Args... args`, `include/process_sandbox/cxxsandbox.h:99`: a value, or for a parameter of
reference type a variable of the caller. -/
inductive Arg where
  | val (v : Int)
  | ref (x : Nat)
  deriving DecidableEq, Repr

/-- What is copied to the frame for an argument: `callframe->args = std::forward_as_tuple(args...)`,
`include/process_sandbox/cxxsandbox.h:107`, where `args` of the frame is a tuple of
`std::remove_reference_t<Args>...`, `:35`. -/
def Arg.value (vars : Nat → Int) : Arg → Int
  | .val v => v
  | .ref x => vars x

/-- `std::apply(function, frame->args)`, `include/process_sandbox/cxxsandbox.h:180`: parameters of reference type
are bound to the elements of the tuple, so they are places of the frame, as the others are.  (Others are copied once more;
the copies differ from the elements in nothing that can be seen, as nobody reads the elements again.) -/
def apply : Prog → (Nat → Int) → Int × (Nat → Int)
  | .ret v, fr => (v, fr)
  | .get i k, fr => apply (k (fr i)) fr
  | .set i v k, fr => apply k (fun j => if j = i then v else fr j)

/-- `Function::operator()`, `include/process_sandbox/cxxsandbox.h:99-119`, with a sandbox that runs the function: the
result and the variables of the caller afterwards.  Nothing but `ret` is read from the frame after `send`, `:108-113`. -/
def callOp (p : Prog) (args : Nat → Arg) (vars : Nat → Int) : Int × (Nat → Int) :=
  let (ret, _) := apply p (fun i => (args i).value vars)
  (ret, vars)

end Verif.RefArgs
