import Verif.Model.Basic

/-!
# Stateful python code

A python method acts on an object and may raise; what it changed before raising stays changed.
So a stateful computation returns a result or an exception, and in both cases the new state.
-/

namespace MD

/-- Stateful code that may raise. -/
abbrev PyM (σ α : Type _) := σ → Except PyErr α × σ

namespace PyM
variable {σ α β : Type _}

/-- return a value -/
def pure (a : α) : PyM σ α := fun s => (.ok a, s)

/-- sequencing; an exception skips the rest and keeps the state reached -/
def bind (m : PyM σ α) (f : α → PyM σ β) : PyM σ β := fun s =>
  match m s with
  | (.ok a, s') => f a s'
  | (.error e, s') => (.error e, s')

/-- `raise` -/
def throw (e : PyErr) : PyM σ α := fun s => (.error e, s)

/-- code without effects -/
def lift (r : Except PyErr α) : PyM σ α := fun s => (r, s)

/-- read the state -/
def get : PyM σ σ := fun s => (.ok s, s)

/-- replace the state -/
def modify (f : σ → σ) : PyM σ Unit := fun s => (.ok (), f s)

/-- a `for` loop collecting one value per element -/
def forEach (f : α → PyM σ β) : List α → PyM σ (List β)
  | [] => PyM.pure []
  | a :: t => PyM.bind (f a) fun b => PyM.bind (forEach f t) fun bs => PyM.pure (b :: bs)

end PyM
end MD
