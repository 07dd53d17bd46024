import Verif.SigMem.Model

/-!
# Memory requests and signals (specification)
-/

namespace Verif.SigMem.Spec

open Verif.Rpc

/-- What the host answers to requests that are made one after the other. -/
def answers {σ} (answer : σ → Req → Resp × σ) (h : σ) : List Req → List Resp
  | [] => []
  | q :: qs => (answer h q).1 :: answers answer (answer h q).2 qs

/-- All handlers are installed with `SA_RESTART`. -/
def Restarting (as : List Act) : Prop := .signal false ∉ as

/-- The requests made. -/
def requests : List Act → List Req
  | [] => []
  | .enter q :: as => q :: requests as
  | _ :: as => requests as

/-- The code is inside a request. -/
def Inside (p : Pc) : Prop := p ≠ .idle

/-- How many handlers have not returned, counted from the beginning of a run; `none` if more have returned than begun. -/
def handlers (k : Nat) : List Act → Option Nat
  | [] => some k
  | .signal _ :: as => handlers (k + 1) as
  | .sigret :: as => match k with
    | 0 => none
    | k + 1 => handlers k as
  | _ :: as => handlers k as

end Verif.SigMem.Spec
