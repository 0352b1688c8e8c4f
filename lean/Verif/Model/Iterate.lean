import Verif.Model.GraphState

/-!
# Stepping through the samples of a `GraphState`

`graph_state.py:66-76`: `iter(state)` (also `for sample in state`) makes a new generator, which reads the state when it is advanced; `next(state)` makes a generator of its own.
-/

namespace LCL.Iterate
open LCL
variable {α : Type}

/-- A state and the generators that were made from it: the index each will extract next. -/
structure World (α : Type) where
  state : GState α
  gens : List Nat

/-- What a program does with the state and the generators. -/
inductive Act (α : Type)
  | set (node param : Name) (v : Val α) (fixed : Bool)
  | update (arg : GState.UpdateArg α) (allFixed : Bool)
  | iter
  | advance (i : Nat)
  | next

/-- What it gets. -/
inductive Out (α : Type)
  | done
  | raised (e : Err)
  | generator (i : Nat)
  | sample (s : GState α)
  | stopIteration

/-- graph_state.py:72-76 `_iterate`, advanced once: the loop `for idx in range(self.num_samples)` at `idx`. -/
def advance (s : GState α) (idx : Nat) : Nat × Out α :=
  if idx < s.numSamples then
    match s.extractSample idx with
    | .ok g => (idx + 1, .sample g)
    | .error e => (s.numSamples, .raised e)
  else (idx, .stopIteration)

/-- One action: graph_state.py:386-483 `set` and `update`, 69-70 `__iter__`, `next` of a generator, 66-67 `__next__`. Advancing a generator that was not made cannot be
written; the model raises. -/
def step (w : World α) : Act α → World α × Out α
  | .set n p v f => match w.state.set n p v f with
    | (s, none) => ({ w with state := s }, .done)
    | (s, some e) => ({ w with state := s }, .raised e)
  | .update a f => match w.state.update a f with
    | (s, none) => ({ w with state := s }, .done)
    | (s, some e) => ({ w with state := s }, .raised e)
  | .iter => ({ w with gens := w.gens ++ [0] }, .generator w.gens.length)
  | .advance i => match w.gens[i]? with
    | none => (w, .raised .nameError)
    | some idx => match advance w.state idx with
      | (idx', o) => ({ w with gens := w.gens.set i idx' }, o)
  | .next => (w, (advance w.state 0).2)

/-- A history of actions. -/
def run (w : World α) : List (Act α) → World α
  | [] => w
  | a :: rest => run (step w a).1 rest

end LCL.Iterate
