import Verif.Props.PipelineLocal

/-! # C123: where in the image an object lies does not change its fits -/

set_option linter.unusedSectionVars false

namespace MD.Pipeline
open Detect (Det CatRow Plane Meds Detim PixelOf)
open Driver (CatEntry Table)
open Wavg (Row)
open Joint (Rest JObs JMb)
open Driver (doMetadetect)
open Cache (FitOk NoAlias Sub McalRes freshAnswer Uniform)

variable {K : Type} [Field K] [LinearOrder K] [IsStrictOrderedRing K] [FloorRing K]
variable {J F S G Id Key : Type} [DecidableEq J] [DecidableEq Id] [DecidableEq Key] [DecidableEq F]

/-! ### Specification -/

/-- SPEC: the stamp of side `n` of an object whose centre is in pixel `(y, x)` lies in the image -/
def StampInside {α : Type} (y x : Nat) (n : Int) (a : Img α) : Prop :=
  0 ≤ (y : Int) - n / 2 + 1 ∧ (y : Int) - n / 2 + 1 + n ≤ a.nr ∧
  0 ≤ (x : Int) - n / 2 + 1 ∧ (x : Int) - n / 2 + 1 + n ≤ a.nc

/-- SPEC: the stamp around pixel `(y, x)` of one image and the stamp around pixel `(y', x')` of another lie in the images
and hold the same pixels -/
def SameStampAt {α : Type} (y x y' x' : Nat) (n : Int) (a b : Img α) : Prop :=
  StampInside y x n a ∧ StampInside y' x' n b ∧
  ∀ r c r' c' : Nat, InStamp y x n r c → (r' : Int) - y' = r - y → (c' : Int) - x' = c - x → a.px r c = b.px r' c'

/-- SPEC: two observations with the same WCS and PSF, with the same stamps in the image, weight, bit mask and noise
planes -/
structure MovedObs (y x y' x' : Nat) (n : Int) (o o' : JObs K J) : Prop where
  rest : o.rest = o'.rest
  image : SameStampAt y x y' x' n o.image o'.image
  weight : SameStampAt y x y' x' n o.weight o'.weight
  bmask : Option.Rel (SameStampAt y x y' x' n) o.bmask o'.bmask
  noise : Option.Rel (SameStampAt y x y' x' n) o.noise o'.noise

/-- SPEC: the observation made from cutouts depends on the place of the object only through the size of the stamp and the
position in the stamp (assumption about `NGMixMEDS.get_obslist`, for the image planes, the WCS and the PSF) -/
def PlaceFree (p : Pipe K J F S G Id Key) : Prop :=
  ∀ wt cut (c c' : CatRow K) k rest, c.boxSize = c'.boxSize → c.cutoutRow = c'.cutoutRow → c.cutoutCol = c'.cutoutCol →
    p.obslist wt cut c k rest = p.obslist wt cut c' k rest

/-- SPEC: object `i` found in the images `mb` and object `j` found in the images `mb'` have the same stamp size and number
in the segmentation map, their recorded positions differ by whole pixels, and their stamps in the planes of every band
and in the two segmentation maps hold the same pixels -/
def MovedObject (p p' : Pipe K J F S G Id Key) (mb mb' : JMb K J) (bands bands' : List Nat) (cat cat' : List (CatEntry K))
    (i j : Nat) : Prop :=
  ∃ (objs objs' : List (Det K × Nat)) (seg seg' : Img Nat) (d d' : Det K × Nat) (e e' : CatEntry K) (y x y' x' : Nat),
    found p mb bands = .ok (objs, seg) ∧ found p' mb' bands' = .ok (objs', seg') ∧ cat[i]? = some e ∧ cat'[j]? = some e' ∧
    objs[i]? = some d ∧ objs'[j]? = some d' ∧ d.2 = d'.2 ∧ e.2.2 = e'.2.2 ∧
    PixelOf y (p.rd e.2.1) ∧ PixelOf x (p.rd e.1) ∧
    p.rd e'.2.1 - y' = p.rd e.2.1 - y ∧ p.rd e'.1 - x' = p.rd e.1 - x ∧
    SameStampAt y x y' x' e.2.2 seg seg' ∧ List.Forall₂ (List.Forall₂ (MovedObs y x y' x' e.2.2)) mb mb'

/-! ### Proofs -/

theorem clipped_inside (dim : Nat) (start n : Int) (hs : 0 ≤ start) (hd : start + n ≤ dim) :
    Detect.clippedBoxes dim start n = ⟨start, start + n, 0, n⟩ := by
  unfold Detect.clippedBoxes
  dsimp only
  rw [if_neg (not_lt.2 hs)]
  dsimp only
  rw [if_neg (by omega)]

theorem slice_inside (m : Nat) (a n : Int) (ha : 0 ≤ a) (hn : 0 ≤ n) (h : a + n ≤ m) :
    Detect.pySlice m a (a + n) = (a.toNat, n.toNat) := by
  unfold Detect.pySlice
  dsimp only
  rw [if_neg (not_lt.2 ha), if_neg (by omega)]
  ext <;> dsimp only <;> omega

theorem cutout_moved {α : Type} (y x y' x' : Nat) (n : Int) (a b : Img α) (h : SameStampAt y x y' x' n a b) (dflt : α) :
    Detect.cutout a dflt (max ((y : Int) - n / 2 + 1) 0) (max ((x : Int) - n / 2 + 1) 0) n =
      Detect.cutout b dflt (max ((y' : Int) - n / 2 + 1) 0) (max ((x' : Int) - n / 2 + 1) 0) n := by
  obtain ⟨⟨a1, a2, a3, a4⟩, ⟨b1, b2, b3, b4⟩, h3⟩ := h
  unfold InStamp at h3
  rw [max_eq_left a1, max_eq_left a3, max_eq_left b1, max_eq_left b3]
  rw [max_eq_left a1, max_eq_left a3] at h3
  unfold Detect.cutout
  by_cases hn : n < 0
  · rw [if_pos hn, if_pos hn]
  rw [if_neg hn, if_neg hn]
  have hn0 : 0 ≤ n := by omega
  dsimp only
  rw [clipped_inside a.nr _ n a1 a2, clipped_inside a.nc _ n a3 a4, clipped_inside b.nr _ n b1 b2,
    clipped_inside b.nc _ n b3 b4]
  dsimp only
  rw [slice_inside a.nr _ n a1 hn0 a2, slice_inside a.nc _ n a3 hn0 a4, slice_inside b.nr _ n b1 hn0 b2,
    slice_inside b.nc _ n b3 hn0 b4]
  have e0 : Detect.pySlice n.toNat 0 n = (0, n.toNat) := by
    have := slice_inside n.toNat 0 n (le_refl _) hn0 (by omega)
    simpa using this
  rw [e0]
  unfold Detect.assignBlock
  dsimp only
  rw [if_pos ⟨.inl rfl, .inl rfl⟩, if_pos ⟨.inl rfl, .inl rfl⟩]
  simp only [if_true]
  congr 1
  congr 1
  funext r c
  split
  · apply h3 <;> omega
  · rfl

theorem getCutout_moved (rd : K → K) (y x y' x' : Nat) (e e' : CatEntry K) (hn : e.2.2 = e'.2.2)
    (hy : PixelOf y (rd e.2.1)) (hx : PixelOf x (rd e.1)) (hy' : PixelOf y' (rd e'.2.1)) (hx' : PixelOf x' (rd e'.1))
    (o o' : JObs K J) (ho : MovedObs y x y' x' e.2.2 o o') (seg seg' : Img Nat)
    (hs : SameStampAt y x y' x' e.2.2 seg seg')
    (psf : Img K) (cat cat' : List (CatRow K)) (i j nr nc nr' nc' : Nat)
    (hi : cat[i]? = some (Detect.catRow rd nr nc e.1 e.2.1 e.2.2))
    (hj : cat'[j]? = some (Detect.catRow rd nr' nc' e'.1 e'.2.1 e'.2.2)) :
    Detect.getCutout (medsOf o psf seg cat) i = Detect.getCutout (medsOf o' psf seg' cat') j := by
  funext type
  unfold Detect.getCutout medsOf
  simp only [hi, hj]
  have tr : ∀ {v : K} {q : Nat}, PixelOf q v → Masking.truncInt v = (q : Int) := fun {v q} h =>
    Detect.trunc_pixel (le_trans (by exact_mod_cast Nat.zero_le q) h.1) h
  simp only [Detect.catRow, tr hy, tr hx, tr hy', tr hx', ← hn]
  rw [cutout_moved y x y' x' e.2.2 _ _ ho.image, cutout_moved y x y' x' e.2.2 _ _ ho.weight,
    cutout_moved y x y' x' e.2.2 _ _ hs]
  have hb : (match Masking.need o.bmask with
      | .error e => Except.error e
      | .ok b => (Detect.cutout b Detect.BMASK_EDGE (max ((y : Int) - e.2.2 / 2 + 1) 0)
          (max ((x : Int) - e.2.2 / 2 + 1) 0) e.2.2).map (Plane.int (K := K))) =
      (match Masking.need o'.bmask with
      | .error e => Except.error e
      | .ok b => (Detect.cutout b Detect.BMASK_EDGE (max ((y' : Int) - e.2.2 / 2 + 1) 0)
          (max ((x' : Int) - e.2.2 / 2 + 1) 0) e.2.2).map (Plane.int (K := K))) := by
    have h := ho.bmask
    generalize o.bmask = u at h
    generalize o'.bmask = v at h
    cases h with
    | none => rfl
    | some h => simp only [Masking.need, cutout_moved y x y' x' e.2.2 _ _ h]
  have hno : (match Masking.need o.noise with
      | .error e => Except.error e
      | .ok b => (Detect.cutout b 0 (max ((y : Int) - e.2.2 / 2 + 1) 0)
          (max ((x : Int) - e.2.2 / 2 + 1) 0) e.2.2).map (Plane.real (K := K))) =
      (match Masking.need o'.noise with
      | .error e => Except.error e
      | .ok b => (Detect.cutout b 0 (max ((y' : Int) - e.2.2 / 2 + 1) 0)
          (max ((x' : Int) - e.2.2 / 2 + 1) 0) e.2.2).map (Plane.real (K := K))) := by
    have h := ho.noise
    generalize o.noise = u at h
    generalize o'.noise = v at h
    cases h with
    | none => rfl
    | some h => simp only [Masking.need, cutout_moved y x y' x' e.2.2 _ _ h]
  split
  · rfl
  split
  · rfl
  split
  · rfl
  split
  · exact hb
  split
  · exact hno
  rfl

theorem pixel_moved {y y' : Nat} {v v' : K} (h : PixelOf y v) (e : v' - y' = v - y) : PixelOf y' v' := by
  obtain ⟨h1, h2⟩ := h
  constructor <;> linarith

/-- the position in the stamp -/
theorem inStamp_moved (rd : K → K) (y x y' x' : Nat) (e e' : CatEntry K) (hn : e.2.2 = e'.2.2)
    (hy : PixelOf y (rd e.2.1)) (hx : PixelOf x (rd e.1)) (my : rd e'.2.1 - y' = rd e.2.1 - y)
    (mx : rd e'.1 - x' = rd e.1 - x) {α : Type} (a b : Img α) (ha : StampInside y x e.2.2 a)
    (hb : StampInside y' x' e.2.2 b) (nr nc nr' nc' : Nat) :
    (Detect.catRow rd nr nc e.1 e.2.1 e.2.2).cutoutRow = (Detect.catRow rd nr' nc' e'.1 e'.2.1 e'.2.2).cutoutRow ∧
    (Detect.catRow rd nr nc e.1 e.2.1 e.2.2).cutoutCol = (Detect.catRow rd nr' nc' e'.1 e'.2.1 e'.2.2).cutoutCol := by
  have tr : ∀ {v : K} {q : Nat}, PixelOf q v → Masking.truncInt v = (q : Int) := fun {v q} h =>
    Detect.trunc_pixel (le_trans (by exact_mod_cast Nat.zero_le q) h.1) h
  obtain ⟨a1, -, a3, -⟩ := ha
  obtain ⟨b1, -, b3, -⟩ := hb
  simp only [Detect.catRow, tr hy, tr hx, tr (pixel_moved hy my), tr (pixel_moved hx mx), ← hn, max_eq_left a1,
    max_eq_left a3, max_eq_left b1, max_eq_left b3]
  push_cast
  constructor
  · congr 1
    linear_combination -my
  · congr 1
    linear_combination -mx

theorem bandStamp_moved (p : Pipe K J F S G Id Key) (hpf : PlaceFree p) (y x y' x' : Nat) (e e' : CatEntry K)
    (hn : e.2.2 = e'.2.2) (hy : PixelOf y (p.rd e.2.1))
    (hx : PixelOf x (p.rd e.1)) (my : p.rd e'.2.1 - y' = p.rd e.2.1 - y) (mx : p.rd e'.1 - x' = p.rd e.1 - x)
    (rest0 : Rest K J) (seg seg' : Img Nat) (hs : SameStampAt y x y' x' e.2.2 seg seg')
    (cat cat' : List (CatRow K)) (i j nr nc nr' nc' k : Nat)
    (hi : cat[i]? = some (Detect.catRow p.rd nr nc e.1 e.2.1 e.2.2))
    (hj : cat'[j]? = some (Detect.catRow p.rd nr' nc' e'.1 e'.2.1 e'.2.2)) (ol ol' : List (JObs K J))
    (ho : List.Forall₂ (MovedObs y x y' x' e.2.2) ol ol') :
    bandStamp p rest0 seg cat i k ol = bandStamp p rest0 seg' cat' j k ol' := by
  unfold bandStamp
  cases ho with
  | nil => rfl
  | cons h t =>
    simp only [← h.rest, hi, hj]
    split
    · rfl
    · rw [getCutout_moved p.rd y x y' x' e e' hn hy hx (pixel_moved hy my) (pixel_moved hx mx) _ _ h seg seg' hs _ cat
        cat' i j nr nc nr' nc' hi hj]
      obtain ⟨q1, q2⟩ := inStamp_moved p.rd y x y' x' e e' hn hy hx my mx seg seg' hs.1 hs.2.1 nr nc nr' nc'
      exact hpf _ _ _ _ _ _ hn q1 q2

theorem cutStamps_moved (p : Pipe K J F S G Id Key) (hpf : PlaceFree p) (y x y' x' : Nat) (e e' : CatEntry K)
    (hn : e.2.2 = e'.2.2) (hy : PixelOf y (p.rd e.2.1))
    (hx : PixelOf x (p.rd e.1)) (my : p.rd e'.2.1 - y' = p.rd e.2.1 - y) (mx : p.rd e'.1 - x' = p.rd e.1 - x)
    (seg seg' : Img Nat) (hs : SameStampAt y x y' x' e.2.2 seg seg') (mb mb' : JMb K J)
    (hmb : List.Forall₂ (List.Forall₂ (MovedObs y x y' x' e.2.2)) mb mb') (l l' : List (CatEntry K × Nat)) (i j k : Nat)
    (hi : l[i]? = some (e, k)) (hj : l'[j]? = some (e', k)) (st st' : List (JMb K J))
    (h : cutStamps p mb l seg = .ok st) (h' : cutStamps p mb' l' seg' = .ok st') : ∃ s, st[i]? = some s ∧ st'[j]? = some s := by
  have hl := cutStamps_length p mb l seg st h
  have hl' := cutStamps_length p mb' l' seg' st' h'
  unfold cutStamps at h h'
  split at h
  · cases h
  · cases h
  · cases h
  rename_i o0 t0
  split at h
  · cases h
  split at h'
  · cases h'
  · cases h'
  · cases h'
  rename_i o0' t0'
  split at h'
  · cases h'
  cases hmb with
  | cons h0 ht =>
  cases h0 with
  | cons h0 hnil =>
  rw [mapM_forall₂, List.forall₂_iff_get] at h h'
  obtain ⟨gi, ei⟩ := List.getElem?_eq_some_iff.1 hi
  obtain ⟨gj, ej⟩ := List.getElem?_eq_some_iff.1 hj
  have a := h.2 i (by simpa using gi) (by omega)
  have b := h'.2 j (by simpa using gj) (by omega)
  simp only [List.get_eq_getElem, List.getElem_zip, List.getElem_range, ei, ej] at a b
  rw [← h0.rest] at b
  have key := mapM_congr₂
    (bandStamp p o0.rest seg (l.map fun e => Detect.catRow p.rd o0.image.nr o0.image.nc e.1.1 e.1.2.1 e.1.2.2) i k)
    (bandStamp p o0.rest seg' (l'.map fun e => Detect.catRow p.rd o0'.image.nr o0'.image.nc e.1.1 e.1.2.1 e.1.2.2) j k)
    (l := [o0] :: t0) (l' := [o0'] :: t0') (List.Forall₂.imp (fun ol ol' ho =>
      bandStamp_moved p hpf y x y' x' e e' hn hy hx my mx o0.rest seg seg' hs _ _ i j o0.image.nr o0.image.nc
        o0'.image.nr o0'.image.nc k
        (by rw [List.getElem?_map, hi]; rfl) (by rw [List.getElem?_map, hj]; rfl) ol ol' ho)
      (.cons (.cons h0 hnil) ht))
  rw [key, b] at a
  simp only [Except.ok.injEq] at a
  exact ⟨_, List.getElem?_eq_getElem (by omega), by rw [← a]; exact List.getElem?_eq_getElem (by omega)⟩

/-- C123 (stamps): detection is run on two sets of images, perhaps of different size, and finds an object at different
places.  When the stamps around the two places hold the same pixels and lie in the images, the stamps of the object are
the same. -/
theorem C123_stamps (p p' : Pipe K J F S G Id Key) (hp : SameSettings p p') (hpf : PlaceFree p) (mb mb' : JMb K J)
    (bands bands' : List Nat)
    (cat cat' : List (CatEntry K)) (stamps stamps' : List (JMb K J))
    (h : doDetect p mb bands = .ok (cat, stamps)) (h' : doDetect p' mb' bands' = .ok (cat', stamps')) (i j : Nat)
    (hs : MovedObject p p' mb mb' bands bands' cat cat' i j) : ∃ s, stamps[i]? = some s ∧ stamps'[j]? = some s := by
  obtain ⟨env', rfl⟩ := hp
  obtain ⟨objs, objs', seg, seg', d, d', e, e', y, x, y', x', hf, hf', hi, hj, hd, hd', hk, hn, hy, hx, my, mx, hseg,
    hmb⟩ := hs
  obtain ⟨o1, s1, a1, a3⟩ := doDetect_found p mb bands cat stamps h
  obtain ⟨o2, s2, b1, b3⟩ := doDetect_found _ mb' bands' cat' stamps' h'
  rw [hf] at a1
  cases a1
  rw [hf'] at b1
  cases b1
  refine cutStamps_moved p hpf y x y' x' e e' hn hy hx my mx seg seg' hseg mb mb' hmb _ _ i j d.2 ?_ ?_ stamps stamps'
    a3 b3
  · rw [List.getElem?_zip_eq_some]
    exact ⟨hi, by rw [List.getElem?_map, hd]; rfl⟩
  · rw [List.getElem?_zip_eq_some]
    exact ⟨hj, by rw [List.getElem?_map, hd', hk]; rfl⟩

/-- C123 (tables): with the tables measured for the two detections in the same shear bands, the rows of the object have the
same values in all columns of every moments fitter. -/
theorem C123_columns (p p' : Pipe K J F S G Id Key) (hp : SameSettings p p') (hpf : PlaceFree p) (toF : K → F)
    (ss : List (Config.Setting K)) (sb : List Nat) (mb mb' : JMb K J) (bands bands' : List Nat)
    (cat cat' : List (CatEntry K)) (stamps stamps' : List (JMb K J)) (tab tab' : Option (Table K (Cols F)))
    (h : doDetect p mb bands = .ok (cat, stamps)) (h' : doDetect p' mb' bands' = .ok (cat', stamps'))
    (ht : DetectionTable p toF ss sb cat stamps tab) (ht' : DetectionTable p' toF ss sb cat' stamps' tab') (i j : Nat)
    (hs : MovedObject p p' mb mb' bands bands' cat cat' i j) (c : Config.Setting K) (hc : c ∈ ss) (hw : c.isWavg = true) :
    SameColumns p c tab tab' i j := by
  obtain ⟨s, s1, s2⟩ := C123_stamps p p' hp hpf mb mb' bands bands' cat cat' stamps stamps' h h' i j hs
  obtain ⟨env', rfl⟩ := hp
  obtain ⟨objs, objs', seg, seg', d, d', e, e', y, x, y', x', -, -, hi, hj, -⟩ := hs
  obtain ⟨rows, r, rfl, r2, r3⟩ := table_row p toF ss sb cat stamps tab ht i e s hi s1
  obtain ⟨rows', r', rfl, r2', r3'⟩ := table_row _ toF ss sb cat' stamps' tab' ht' j e' s hj s2
  obtain ⟨m, row, a1, a2, a3, a4⟩ := row_columns p toF ss c hc hw sb stamps s _ r3
  obtain ⟨m', row', b1, b2, b3, b4⟩ := row_columns _ toF ss c hc hw sb stamps' s _ r3'
  change p.fitter c.fitter = some m' at b1
  rw [a1] at b1
  cases b1
  change Wavg.fitMbobsWavg p.fl p.mom m p.bmaskFlags (some sb) (toF c.fwhmReg) c.symm s = .ok row' at b2
  rw [a2] at b2
  cases b2
  exact ⟨rows, rows', r, r', m, row, rfl, rfl, r2, r2', a1, a3, b3, fun x hx => ⟨a4 x hx, b4 x hx⟩⟩

/-- C123 (runs): two runs of `do_metadetect` with the same settings, on other images and from other random states.  When
both find an object, at places whose recorded positions differ by whole pixels, and the metacal images of a type hold the
same pixels in the stamps at the two places, then the row of this object has the same values in all columns of the
moments fitters, in the tables of both runs. -/
theorem C123_run (p p' : Pipe K J F S G Id Key) (hp : SameSettings p p') (hpf : PlaceFree p) (toF : K → F)
    (hu : ∀ i, Uniform (p.env.obs i)) (hfit : FitOk p.env) (hna : NoAlias p.env) (hmc : Driver.MetacalOk p.env)
    (hu' : ∀ i, Uniform (p'.env.obs i)) (hfit' : FitOk p'.env) (hna' : NoAlias p'.env) (hmc' : Driver.MetacalOk p'.env)
    (ss : List (Config.Setting K)) (ha : Config.Aligned p.lists ss) (s s' : S)
    (hcol : p.colorKey = none ∨ p.env.dep = none) (hcol' : p.colorKey = none ∨ p'.env.dep = none)
    (r r' : PyDict String (Option (Table K (Cols F))))
    (h : doMetadetect (drv p toF) s = .ok (some r)) (h' : doMetadetect (drv p' toF) s' = .ok (some r')) :
    ∃ (sub sub' : Sub K (Rest K J)) (m m' : McalRes K (Rest K J))
      (tables tables' : List (String → Option (Table K (Cols F)))),
      freshAnswer p.env s none (List.range (p.env.obs p.env.main).length) = .ok sub ∧
      sub.mcal = some (some m) ∧
      freshAnswer p'.env s' none (List.range (p'.env.obs p'.env.main).length) = .ok sub' ∧
      sub'.mcal = some (some m') ∧
      (∀ t, Driver.IsEntry (p.types.getD ["noshear", "1p", "1m", "2p", "2m"]) t (tables.map (· t)) (r.get? t)) ∧
      (∀ t, Driver.IsEntry (p.types.getD ["noshear", "1p", "1m", "2p", "2m"]) t (tables'.map (· t)) (r'.get? t)) ∧
      tables.length = (p.shearCombs.zip p.detCombs).length ∧ tables'.length = (p.shearCombs.zip p.detCombs).length ∧
      ∀ (k : Nat) b T T', (p.shearCombs.zip p.detCombs)[k]? = some b → tables[k]? = some T → tables'[k]? = some T' →
        ∀ t mb mb', m.get? t = some mb → m'.get? t = some mb' → ∃ cat cat' stamps stamps',
          doDetect p mb b.2 = .ok (cat, stamps) ∧ doDetect p' mb' b.2 = .ok (cat', stamps') ∧
          ∀ i j, MovedObject p p' mb mb' b.2 b.2 cat cat' i j → ∀ c ∈ ss, c.isWavg = true →
            SameColumns p c (T t) (T' t) i j := by
  obtain ⟨env', rfl⟩ := id hp
  obtain ⟨sub, m, tables, a1, a2, a3, a4⟩ := C84_rows p toF hu hfit hna hmc ss ha s hcol r h
  obtain ⟨sub', m', tables', b1, b2, b3, b4⟩ := C84_rows _ toF hu' hfit' hna' hmc' ss ha s' hcol' r' h'
  refine ⟨sub, sub', m, m', tables, tables', a1, a2, b1, b2, a4, b4, a3.length_eq.symm, b3.length_eq.symm, ?_⟩
  intro k b T T' hb hT hT' t mb mb' hm hm'
  obtain ⟨g, e⟩ := List.getElem?_eq_some_iff.1 hb
  obtain ⟨g1, e1⟩ := List.getElem?_eq_some_iff.1 hT
  obtain ⟨g2, e2⟩ := List.getElem?_eq_some_iff.1 hT'
  have c1 := (List.forall₂_iff_get.1 a3).2 k g g1 t
  have c2 := (List.forall₂_iff_get.1 b3).2 k g g2 t
  simp only [List.get_eq_getElem, e, e1, e2] at c1 c2
  obtain ⟨cat, stamps, d1, d2⟩ := c1.2 mb hm
  obtain ⟨cat', stamps', f1, f2⟩ := c2.2 mb' hm'
  exact ⟨cat, cat', stamps, stamps', d1, f1, fun i j hs c hc hw =>
    C123_columns p _ hp hpf toF ss b.1 mb mb' b.2 b.2 cat cat' stamps stamps' _ _ d1 f1 d2 f2 i j hs c hc hw⟩

/-! ### Example -/

section Examples

/-- an eight by eight observation with a bright pixel at the given place -/
def exStar (y x : Nat) : JObs ℚ Nat :=
  { image := ⟨8, 8, fun r c => if r = y ∧ c = x then 100 else if r = y + 1 ∧ c = x then 30 else 1⟩,
    weight := ⟨8, 8, fun _ _ => 1⟩, noise := none,
    bmask := some ⟨8, 8, fun _ _ => 0⟩, ormask := some ⟨8, 8, fun _ _ => 0⟩, mfrac := none,
    izw := true, rest := ⟨7, some ⟨⟨1, 1, fun _ _ => 1⟩, ⟨1, 1, fun _ _ => 1⟩, 8⟩⟩ }

/-- the images of a run -/
def exStars (y x : Nat) : JMb ℚ Nat := [[exStar y x], [exStar y x]]

/-- the object is found a quarter of a pixel from the bright pixel, which is at row 2, column 1 or at row 4, column 3 -/
def exStarPipe (y x : Nat) : Pipe ℚ Nat ℚ Nat Unit Nat Nat :=
  { exPipe exSettings none with
    env := { (exPipe exSettings none).env with
      obs := fun _ => exStars y x
      metacal := fun _ _ s => (.ok [("noshear", exStars y x)], s + 1) }
    meds := ⟨"sigma_size", 5, 4, 2, 2, 2, 2⟩
    sep := fun im => .ok (if 50 < im.detim.px 2 1 then [(⟨5 / 4, 9 / 4, 0, 1, 0, 1, 1, 1, 2, 2⟩, 1)]
      else [(⟨13 / 4, 17 / 4, 0, 1, 0, 1, 1, 1, 2, 2⟩, 1)], ⟨8, 8, fun _ _ => 1⟩)
    obslist := fun _ cut c _ rest => match cut "image" with
      | .ok (.real im) => .ok [{ exObs with image := ⟨im.nr, im.nc, fun i j => im.px i j + c.cutoutRow⟩, rest := rest }]
      | .ok _ => .error .valueError
      | .error e => .error e }

theorem exStar_placeFree (y x : Nat) : PlaceFree (exStarPipe y x) := by
  intro wt cut c c' k rest _ h _
  simp only [exStarPipe, h]

theorem exStar_moved : MovedObs 2 1 4 3 2 (exStar 2 1) (exStar 4 3) := by
  have hin : ∀ {α : Type} (f : Nat → Nat → α), StampInside 2 1 2 (⟨8, 8, f⟩ : Img α) ∧
      StampInside 4 3 2 (⟨8, 8, f⟩ : Img α) := by
    intro α f
    simp [StampInside]
  refine ⟨rfl, ⟨(hin _).1, (hin _).2, ?_⟩, ⟨(hin _).1, (hin _).2, fun _ _ _ _ _ _ _ => rfl⟩,
    .some ⟨(hin _).1, (hin _).2, fun _ _ _ _ _ _ _ => rfl⟩, .none⟩
  intro r c r' c' _ h1 h2
  obtain rfl : r' = r + 2 := by omega
  obtain rfl : c' = c + 2 := by omega
  simp only [exStar, Nat.reduceEqDiff, Nat.add_left_inj]

theorem exStar_object (cat cat' : List (CatEntry ℚ)) (stamps stamps' : List (JMb ℚ Nat))
    (h : doDetect (exStarPipe 2 1) (exStars 2 1) [0, 1] = .ok (cat, stamps))
    (h' : doDetect (exStarPipe 4 3) (exStars 4 3) [0, 1] = .ok (cat', stamps')) :
    MovedObject (exStarPipe 2 1) (exStarPipe 4 3) (exStars 2 1) (exStars 4 3) [0, 1] [0, 1] cat cat' 0 0 := by
  have e : exCat (doDetect (exStarPipe 2 1) (exStars 2 1) [0, 1]) = some [(5 / 4, 9 / 4, 2)] := by decide +kernel
  have e' : exCat (doDetect (exStarPipe 4 3) (exStars 4 3) [0, 1]) = some [(13 / 4, 17 / 4, 2)] := by decide +kernel
  rw [h] at e
  rw [h'] at e'
  simp only [exCat, Option.some.injEq] at e e'
  subst e e'
  obtain ⟨objs, seg, f1, -⟩ := doDetect_found _ _ _ _ _ h
  obtain ⟨objs', seg', f1', -⟩ := doDetect_found _ _ _ _ _ h'
  have k : (match found (exStarPipe 2 1) (exStars 2 1) [0, 1] with
      | .ok (o, _) => o.map (·.2)
      | .error _ => []) = [1] := by decide +kernel
  have k' : (match found (exStarPipe 4 3) (exStars 4 3) [0, 1] with
      | .ok (o, _) => o.map (·.2)
      | .error _ => []) = [1] := by decide +kernel
  have sg : ∀ y x o s, found (exStarPipe y x) (exStars y x) [0, 1] = .ok (o, s) → s = ⟨8, 8, fun _ _ => 1⟩ := by
    intro y x o s hf
    have g : found (exStarPipe y x) (exStars y x) [0, 1] =
      (Detect.setDetim (exStarPipe y x).env.np 1 [exStar y x, exStar y x]).bind (exStarPipe y x).sep := rfl
    rw [g] at hf
    cases hd : Detect.setDetim (exStarPipe y x).env.np 1 [exStar y x, exStar y x] with
    | error e => rw [hd] at hf; cases hf
    | ok im =>
      rw [hd] at hf
      simp only [Except.bind, exStarPipe, Except.ok.injEq, Prod.mk.injEq] at hf
      exact hf.2.symm
  rw [f1] at k
  rw [f1'] at k'
  obtain rfl := sg 2 1 _ _ f1
  obtain rfl := sg 4 3 _ _ f1'
  have n1 : objs.length = 1 := by simpa using congrArg List.length k
  have n2 : objs'.length = 1 := by simpa using congrArg List.length k'
  obtain ⟨d, rfl⟩ := List.length_eq_one_iff.1 n1
  obtain ⟨d', rfl⟩ := List.length_eq_one_iff.1 n2
  simp only [List.map_cons, List.map_nil, List.cons.injEq, and_true] at k k'
  refine ⟨[d], [d'], _, _, d, d', _, _, 2, 1, 4, 3, f1, f1', rfl, rfl, rfl, rfl, by rw [k, k'], rfl, ?_, ?_, ?_, ?_,
    ⟨by simp [StampInside], by simp [StampInside], fun _ _ _ _ _ _ _ => rfl⟩,
    .cons (.cons exStar_moved .nil) (.cons (.cons exStar_moved .nil) .nil)⟩
  · simp only [PixelOf, exStarPipe, exPipe, id]; norm_num
  · simp only [PixelOf, exStarPipe, exPipe, id]; norm_num
  · simp only [exStarPipe, exPipe, id]; norm_num
  · simp only [exStarPipe, exPipe, id]; norm_num

/-- the stamps of the object are the same at both places -/
example (cat cat' : List (CatEntry ℚ)) (stamps stamps' : List (JMb ℚ Nat))
    (h : doDetect (exStarPipe 2 1) (exStars 2 1) [0, 1] = .ok (cat, stamps))
    (h' : doDetect (exStarPipe 4 3) (exStars 4 3) [0, 1] = .ok (cat', stamps')) :
    ∃ s, stamps[0]? = some s ∧ stamps'[0]? = some s :=
  C123_stamps _ _ ⟨_, rfl⟩ (exStar_placeFree 2 1) _ _ _ _ cat cat' stamps stamps' h h' 0 0
    (exStar_object cat cat' stamps stamps' h h')

theorem exStar_uniform (y x i : Nat) : Uniform ((exStarPipe y x).env.obs i) := by
  refine ⟨8, 8, by decide, by decide, ?_⟩
  intro ol hol
  have hol : ol ∈ [[exStar y x], [exStar y x]] := hol
  refine ⟨exStar y x, by simpa using hol, rfl, rfl, ⟨⟨rfl, rfl⟩, ?_, ?_, ?_, ?_⟩, rfl, rfl⟩
  · intro n h; simp [exStar] at h
  · intro b h; simp only [exStar, Option.some.injEq] at h; subst h; exact ⟨rfl, rfl⟩
  · intro b h; simp only [exStar, Option.some.injEq] at h; subst h; exact ⟨rfl, rfl⟩
  · intro n h; simp [exStar] at h

theorem exStar_metacal (y x : Nat) : Driver.MetacalOk (exStarPipe y x).env := by
  intro i p s m h
  simp only [exStarPipe, Except.ok.injEq] at h
  subst h
  simp [PyDict.Ok, PyDict.keys]

theorem exStar_fit (y x : Nat) : FitOk (exStarPipe y x).env := by
  intro i s p h
  simp only [exStarPipe, exPipe, Except.ok.injEq] at h
  subst h
  intro ol _ o _
  exact ⟨_, rfl, rfl, .inl rfl⟩

/-- the rows of the object in both runs have the same columns of the moments fitter -/
example : ∃ r r', doMetadetect (drv (exStarPipe 2 1) id) 0 = .ok (some r) ∧
    doMetadetect (drv (exStarPipe 4 3) id) 3 = .ok (some r') ∧
    ∃ T T' : String → Option (Table ℚ (Cols ℚ)),
      SameColumns (exStarPipe 2 1) ⟨.mom "wmom" 1 none, 1, 0, true, true, false⟩ (T "noshear") (T' "noshear") 0 0 := by
  have e1 : exRows (doMetadetect (drv (exStarPipe 2 1) id) 0) "noshear" =
      some (some [(5 / 4, ["wmom_T", "shear_bands", "am_T"])]) := by decide +kernel
  have e2 : exRows (doMetadetect (drv (exStarPipe 4 3) id) 3) "noshear" =
      some (some [(13 / 4, ["wmom_T", "shear_bands", "am_T"])]) := by decide +kernel
  obtain ⟨r, hr⟩ := exRows_some e1
  obtain ⟨r', hr'⟩ := exRows_some e2
  obtain ⟨sub, sub', m, m', tables, tables', a1, a2, b1, b2, -, -, l1, l2, key⟩ := C123_run (exStarPipe 2 1)
    (exStarPipe 4 3) ⟨_, rfl⟩ (exStar_placeFree 2 1) id (exStar_uniform 2 1) (exStar_fit 2 1)
    (exNoAlias exSettings none true) (exStar_metacal 2 1)
    (exStar_uniform 4 3) (exStar_fit 4 3) (exNoAlias exSettings none true) (exStar_metacal 4 3)
    exSettings (exAligned exSettings none true) 0 3 (.inl rfl) (.inl rfl) r r' hr hr'
  have hm : ∀ y x s (sub : Sub ℚ (Rest ℚ Nat)) m, freshAnswer (exStarPipe y x).env s none [0, 1] = .ok sub →
      sub.mcal = some (some m) → m.get? "noshear" = some (exStars y x) := by
    intro y x s sub m h1 h2
    obtain ⟨m0, k1, -, k2⟩ := Driver.first_mcal _ s [0, 1] sub h1
    rw [h2] at k1
    cases k1
    obtain ⟨_, _, k3⟩ := k2 m rfl
    simp only [exStarPipe, Except.ok.injEq] at k3
    rw [← k3]
    rfl
  match tables, tables', l1, l2 with
  | [T], [T'], _, _ =>
  obtain ⟨cat, cat', stamps, stamps', d1, d2, d3⟩ := key 0 ([0], [0, 1]) T T' rfl rfl rfl "noshear" _ _
    (hm 2 1 0 sub m a1 a2) (hm 4 3 3 sub' m' b1 b2)
  exact ⟨r, r', hr, hr', T, T', d3 0 0 (exStar_object cat cat' stamps stamps' d1 d2) _ (by simp [exSettings]) rfl⟩

end Examples

end MD.Pipeline
