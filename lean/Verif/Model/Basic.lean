/-!
# Common vocabulary of the model

`PyErr`   the exception classes that the modelled functions raise or run into
`Img`     a two dimensional numpy array
Nothing in this file models a particular function of /repo; it fixes how python values
are represented (see DESIGN.md, section 1).
-/

namespace MD

/-- Exception classes (values of a failed python call). -/
inductive PyErr
  | valueError
  | runtimeError
  | indexError
  | keyError
  | attributeError
  | typeError
  | assertionError
  | unboundLocalError
  | zeroDivisionError
  | lengthError        -- lsst.pex.exceptions.LengthError
  | bootPSFFailure     -- ngmix.gexceptions.BootPSFFailure
  | psfFluxFailure     -- ngmix.gexceptions.PSFFluxFailure
  | gmixFatalError     -- ngmix.gexceptions.GMixFatalError
  | gmixRangeError     -- ngmix.gexceptions.GMixRangeError
  | other              -- any other exception
  deriving DecidableEq, Repr

/-- A two dimensional numpy array.  Only pixels with `r < nr`, `c < nc` are meaningful. -/
structure Img (α : Type _) where
  nr : Nat
  nc : Nat
  px : Nat → Nat → α

namespace Img
variable {α β γ : Type _}

/-- `(r, c)` is a pixel of the array. -/
def In (im : Img α) (r c : Nat) : Prop := r < im.nr ∧ c < im.nc

instance (im : Img α) (r c : Nat) : Decidable (im.In r c) :=
  inferInstanceAs (Decidable (_ ∧ _))

/-- `np.full((nr, nc), v)` -/
def const (nr nc : Nat) (v : α) : Img α := ⟨nr, nc, fun _ _ => v⟩

/-- `im[r, c] = v` -/
def set (im : Img α) (r c : Nat) (v : α) : Img α :=
  { im with px := fun i j => if i = r ∧ j = c then v else im.px i j }

/-- `im[r, c] = f(im[r, c])` -/
def modify (im : Img α) (r c : Nat) (f : α → α) : Img α :=
  im.set r c (f (im.px r c))

/-- elementwise function -/
def map (f : α → β) (im : Img α) : Img β := ⟨im.nr, im.nc, fun r c => f (im.px r c)⟩

/-- elementwise function of two arrays (shape of the first one) -/
def zip (f : α → β → γ) (a : Img α) (b : Img β) : Img γ :=
  ⟨a.nr, a.nc, fun r c => f (a.px r c) (b.px r c)⟩

/-- The pixel coordinates in raster order (`for r in range(nr): for c in range(nc)`). -/
def coords (nr nc : Nat) : List (Nat × Nat) :=
  (List.range nr).flatMap fun r => (List.range nc).map fun c => (r, c)

/-- The pixel values in raster order (`im.ravel()`). -/
def toList (im : Img α) : List α := (coords im.nr im.nc).map fun p => im.px p.1 p.2

/-- `np.all(im)` for a boolean array -/
def allPx (im : Img α) (p : α → Bool) : Bool := im.toList.all p

/-- `np.any(im)` for a boolean array -/
def anyPx (im : Img α) (p : α → Bool) : Bool := im.toList.any p

/-- `im.size` -/
def size (im : Img α) : Nat := im.nr * im.nc

/-- `np.rot90(im)` (one counter-clockwise quarter turn). -/
def rot90 (im : Img α) : Img α := ⟨im.nc, im.nr, fun r c => im.px c (im.nc - 1 - r)⟩

/-- `np.rot90(im, k=k)` -/
def rot90k : Nat → Img α → Img α
  | 0, im => im
  | k + 1, im => (rot90k k im).rot90

end Img

/-- equality of arrays as numpy sees it: same shape, same pixels -/
def Img.Same {α : Type _} (a b : Img α) : Prop :=
  a.nr = b.nr ∧ a.nc = b.nc ∧ ∀ r c, a.In r c → a.px r c = b.px r c

end MD
