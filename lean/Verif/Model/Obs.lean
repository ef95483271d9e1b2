import Verif.Model.Basic

/-!
# ngmix observations

External data structure: the planes of an `ngmix.Observation` that the modelled code reads or
writes.  ngmix raises `AttributeError` when an absent plane is read, so absent planes are `none`.
`rest` is everything else carried by the observation (Jacobian, PSF observation, meta data).
`izw` is `ignore_zero_weight`.
-/

namespace MD

/-- An `ngmix.Observation`. -/
structure Obs (K X : Type _) where
  image : Img K
  weight : Img K
  noise : Option (Img K)
  bmask : Option (Img Nat)
  ormask : Option (Img Nat)
  mfrac : Option (Img K)
  izw : Bool
  rest : X

namespace Obs
variable {K X : Type _}

/-- the array has the shape of the observation's image -/
def HasShape {α : Type _} (o : Obs K X) (im : Img α) : Prop :=
  im.nr = o.image.nr ∧ im.nc = o.image.nc

/-- what the ngmix constructor enforces: every plane has the shape of the image -/
structure Ok (o : Obs K X) : Prop where
  weight : o.HasShape o.weight
  noise : ∀ n, o.noise = some n → o.HasShape n
  bmask : ∀ b, o.bmask = some b → o.HasShape b
  ormask : ∀ b, o.ormask = some b → o.HasShape b
  mfrac : ∀ m, o.mfrac = some m → o.HasShape m

end Obs

/-- a multi band observation list: bands, each a list of epochs -/
abbrev MbObs (K X : Type _) := List (List (Obs K X))

/-- `mbobs[0][0]` (`IndexError` when there is none) -/
def MbObs.first {K X : Type _} (m : MbObs K X) : Except PyErr (Obs K X) :=
  match m with
  | (o :: _) :: _ => .ok o
  | _ => .error .indexError

end MD
