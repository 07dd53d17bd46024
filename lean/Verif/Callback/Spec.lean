import Verif.Callback.Model

/-!
# Callback dispatch (specification)

Only the vocabulary (`Request`, `Event`, ...) of the model is used here, none of its functions.
-/

namespace Verif.Callback.Spec

/-- A trace in which every accepted request is answered at once: by one reply, whose content
is the one given by `answer`, or by killing the child; and nothing else is ever sent. -/
inductive Answered (answer : Request → Int → Result) : List Event → Prop where
  | nil : Answered answer []
  | replied (req : Request) (fd : Int) (tr : List Event) : Answered answer tr →
      Answered answer
        (.received req fd :: .replied (answer req fd).integer (answer req fd).handle :: tr)
  | killed (req : Request) (fd : Int) (tr : List Event) : Answered answer tr →
      Answered answer (.received req fd :: .killed :: tr)

/-- The number of accepted requests in a trace. -/
def receivedCount (tr : List Event) : Nat :=
  tr.countP (fun e => match e with | .received .. => true | _ => false)

/-- The number of replies and kills in a trace. -/
def answeredCount (tr : List Event) : Nat :=
  tr.countP (fun e => match e with | .received .. => false | _ => true)

/-- Which handler should serve callback number `n`, given the handlers registered by the user
in order: numbers below 7 are built in, the `i`-th user handler has number `7 + i`, and there
is nothing else. -/
def handlerFor (users : List Nat) (n : Nat) : Option Handler :=
  if n < 7 then some (.builtin n) else (users[n - 7]?).map .user

end Verif.Callback.Spec
