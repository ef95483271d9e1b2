import Verif.Props.Pipeline
import Verif.Props.Detect

/-!
# C101: what is detected, and what the stamps of a run of `do_metadetect` are cut from

C84 says that the rows of a table belong to the detections of its detection bands and are measured on
their stamps.  Here it is said what these detections and stamps are.
-/

set_option linter.unusedSectionVars false

namespace MD.Pipeline
open Detect (Det CatRow Plane Meds MedsConfig NpExt Detim StampOf TypePlane PixelOf StoreOk MedianOk HasWeight
  NoDet medWeight Wanted SmallestAllowed)
open Driver (Drv CatEntry doMetadetect Table)
open Wavg (Row MomExt MomFitter Flt)
open Joint (Rest JObs JMb JointExt)
open Cache (FitOk NoAlias Sub McalRes freshAnswer Uniform)

variable {K : Type} [Field K] [LinearOrder K] [IsStrictOrderedRing K] [FloorRing K]
variable {J F S G Id Key : Type} [DecidableEq J] [DecidableEq Id] [DecidableEq Key] [DecidableEq F]

/-! ### Specification -/

/-- SPEC: all planes of all observations have one shape -/
def OneShape (nr nc : Nat) (mb : JMb K J) : Prop :=
  ∀ ol ∈ mb, ∀ o ∈ ol, o.image.nr = nr ∧ o.image.nc = nc ∧ o.Ok

/-- SPEC: the detection image of observations: their images averaged with the medians of their positive
weights, its noise, and the pixels at which no object may be found -/
structure DetectionImage (p : Pipe K J F S G Id Key) (nr nc : Nat) (obs : List (JObs K J)) (im : Detim K) :
    Prop where
  nr : im.detim.nr = nr
  nc : im.detim.nc = nc
  px : ∀ r c, im.detim.px r c * (obs.map (medWeight p.env.np)).sum =
    (obs.map fun o => medWeight p.env.np o * o.image.px r c).sum
  noise : im.detnoise = p.env.np.sq (1 / (obs.map (medWeight p.env.np)).sum)
  mask : ∀ r c, im.detmask.px r c = true ↔ ∃ o ∈ obs, NoDet p.nodet o r c

/-- SPEC: asked for a type of cutout, `cut` gives the `n` by `n` stamp of the plane with that name whose
first pixel is at `(r0, c0)` of the image, and the whole PSF image for `psf`.  Planes that the observation
lacks and other names raise. -/
def CutsOf (o : JObs K J) (psf : Img K) (seg : Img Nat) (r0 c0 : Int) (n : Nat)
    (cut : String → Except PyErr (Plane K)) : Prop :=
  ∀ type,
    (∃ pl, cut type = .ok pl ∧ TypePlane
      { image := o.image, weight := o.weight, bmask := o.bmask, noise := o.noise, seg := seg, psf := psf,
        cat := [] } r0 c0 n type pl) ∨
    (type = "bmask" ∧ o.bmask = none ∧ cut type = .error .attributeError) ∨
    (type = "noise" ∧ o.noise = none ∧ cut type = .error .attributeError) ∨
    (type ∉ ["image", "weight", "seg", "bmask", "noise", "psf"] ∧ cut type = .error .valueError)

/-- SPEC: the catalogue row `c` is that of the object at column `e.1` and row `e.2.1` with a stamp of side
`e.2.2`, which starts half its side before the pixel of the object (not before the image), and the
position in the stamp is that in the image less the start of the stamp -/
structure RowFor (rd : K → K) (nr nc : Nat) (e : CatEntry K) (c : CatRow K) : Prop where
  box : c.boxSize = e.2.2
  row : c.origRow = rd e.2.1
  col : c.origCol = rd e.1
  startRow : ∀ r : Nat, PixelOf r (rd e.2.1) → c.startRow = max ((r : Int) - e.2.2 / 2 + 1) 0
  startCol : ∀ q : Nat, PixelOf q (rd e.1) → c.startCol = max ((q : Int) - e.2.2 / 2 + 1) 0
  endRow : ∀ r : Nat, PixelOf r (rd e.2.1) → c.endRow = min ((r : Int) + e.2.2 / 2 + 1) nr
  endCol : ∀ q : Nat, PixelOf q (rd e.1) → c.endCol = min ((q : Int) + e.2.2 / 2 + 1) nc
  inRow : c.cutoutRow = rd (c.origRow - c.startRow)
  inCol : c.cutoutCol = rd (c.origCol - c.startCol)

/-- SPEC: the stamps of one object: for every band what the MEDS reader makes from the cutouts of that
band's own planes at the place of the object, with the number of the object in the segmentation map, and
the Jacobian and PSF centre of the first band -/
def ObjectStamps (p : Pipe K J F S G Id Key) (nr nc : Nat) (mb : JMb K J) (seg : Img Nat) (e : CatEntry K)
    (number : Nat) (stamp : JMb K J) : Prop :=
  ∃ o0 t0, mb = [o0] :: t0 ∧ List.Forall₂ (fun ol st => ∃ o t psf c cut, ol = o :: t ∧ o.rest.psf = some psf ∧
    p.obslist p.weightType cut c number o0.rest = .ok st ∧ RowFor p.rd nr nc e c ∧
    ∀ (n r q : Nat), e.2.2 = n → 2 ≤ n → PixelOf r (p.rd e.2.1) → PixelOf q (p.rd e.1) → r < nr → q < nc →
      CutsOf o psf.image seg c.startRow c.startCol n cut) mb stamp

/-- SPEC: `cat` and `stamps` are those of the objects found in the images of the bands `bands`: the
detection program is run on the detection image of these bands, every object it finds has an entry with
its position and the smallest allowed stamp size that holds it, and its stamps in all bands (also those not
used for the detection) -/
def Detected (p : Pipe K J F S G Id Key) (nr nc : Nat) (mb : JMb K J) (bands : List Nat)
    (cat : List (CatEntry K)) (stamps : List (JMb K J)) : Prop :=
  ∃ obs im objs seg,
    List.Forall₂ (fun b o => ∃ t, mb[b]? = some (o :: t)) bands obs ∧
    DetectionImage p nr nc obs im ∧ p.sep im = .ok (objs, seg) ∧
    List.Forall₂ (fun d e => e.1 = d.1.x ∧ e.2.1 = d.1.y ∧ ∃ w, Wanted p.fwhmFac p.meds d.1 w ∧
      SmallestAllowed p.meds.minBox p.meds.maxBox (max p.meds.minBox (min w p.meds.maxBox)) e.2.2) objs cat ∧
    List.Forall₂ (fun ed stamp => ObjectStamps p nr nc mb seg ed.1 ed.2.2 stamp) (cat.zip objs) stamps

/-! ### Proofs -/

theorem rowFor (rd : K → K) (nr nc : Nat) (e : CatEntry K) :
    RowFor rd nr nc e (Detect.catRow rd nr nc e.1 e.2.1 e.2.2) := by
  have key : ∀ (z : K) (r : Nat), PixelOf r z → Masking.truncInt z = r := fun z r h =>
    Detect.trunc_pixel (le_trans (by exact_mod_cast Nat.zero_le r) h.1) h
  refine ⟨rfl, rfl, rfl, ?_, ?_, ?_, ?_, rfl, rfl⟩ <;> intro r hr <;>
    simp only [Detect.catRow, key _ _ hr]

theorem startRange (rd : K → K) (nr nc : Nat) (e : CatEntry K) (c : CatRow K) (h : RowFor rd nr nc e c)
    (n r q : Nat) (hn : e.2.2 = n) (h2 : 2 ≤ n) (hr : PixelOf r (rd e.2.1)) (hq : PixelOf q (rd e.1))
    (hr' : r < nr) (hq' : q < nc) :
    -(n : Int) ≤ c.startRow ∧ c.startRow ≤ nr ∧ -(n : Int) ≤ c.startCol ∧ c.startCol ≤ nc := by
  rw [h.startRow r hr, h.startCol q hq, hn]
  omega

theorem cutsOf (nr nc : Nat) (o : JObs K J) (psf : Img K) (seg : Img Nat) (cat : List (CatRow K)) (i : Nat)
    (c : CatRow K) (hi : cat[i]? = some c) (n : Nat) (hn : c.boxSize = n)
    (ho : o.image.nr = nr ∧ o.image.nc = nc ∧ o.Ok) (hs : seg.nr = nr ∧ seg.nc = nc)
    (hr : -(n : Int) ≤ c.startRow ∧ c.startRow ≤ nr ∧ -(n : Int) ≤ c.startCol ∧ c.startCol ≤ nc) :
    CutsOf o psf seg c.startRow c.startCol n (Detect.getCutout (medsOf o psf seg cat) i) := by
  intro type
  have hm : (medsOf o psf seg cat).Ok nr nc := by
    obtain ⟨h1, h2, h3⟩ := ho
    refine ⟨⟨h1, h2⟩, ?_, hs, ?_, ?_⟩
    · exact ⟨h3.weight.1.trans h1, h3.weight.2.trans h2⟩
    · intro b hb
      exact ⟨(h3.bmask b hb).1.trans h1, (h3.bmask b hb).2.trans h2⟩
    · intro b hb
      exact ⟨(h3.noise b hb).1.trans h1, (h3.noise b hb).2.trans h2⟩
  rcases Detect.C25_get_cutout (medsOf o psf seg cat) nr nc hm i c hi n hn hr.1 hr.2.1 hr.2.2.1 hr.2.2.2 type with
    ⟨pl, e1, e2⟩ | h | h | h
  · refine .inl ⟨pl, e1, ?_⟩
    cases e2 with
    | image h => exact .image h
    | weight h => exact .weight h
    | seg h => exact .seg h
    | bmask hb h => exact .bmask hb h
    | noise hb h => exact .noise hb h
    | psf => exact .psf
  · exact .inr (.inl h)
  · exact .inr (.inr (.inl h))
  · exact .inr (.inr (.inr h))

theorem bandStamp_spec (p : Pipe K J F S G Id Key) (nr nc : Nat) (rest0 : Rest K J) (seg : Img Nat)
    (hseg : seg.nr = nr ∧ seg.nc = nc) (entries : List (CatEntry K × Nat)) (i number : Nat)
    (e : CatEntry K) (he : (entries[i]?).map (·.1) = some e) (ol st : List (JObs K J))
    (hol : ∀ o ∈ ol, o.image.nr = nr ∧ o.image.nc = nc ∧ o.Ok)
    (h : bandStamp p rest0 seg (entries.map fun e => Detect.catRow p.rd nr nc e.1.1 e.1.2.1 e.1.2.2) i number
      ol = .ok st) :
    ∃ o t psf c cut, ol = o :: t ∧ o.rest.psf = some psf ∧
      p.obslist p.weightType cut c number rest0 = .ok st ∧ RowFor p.rd nr nc e c ∧
      ∀ (n r q : Nat), e.2.2 = n → 2 ≤ n → PixelOf r (p.rd e.2.1) → PixelOf q (p.rd e.1) → r < nr → q < nc →
        CutsOf o psf.image seg c.startRow c.startCol n cut := by
  unfold bandStamp at h
  split at h
  · cases h
  rename_i o t
  split at h
  · cases h
  rename_i psf hp
  have hc : (entries.map fun e => Detect.catRow p.rd nr nc e.1.1 e.1.2.1 e.1.2.2)[i]? =
      some (Detect.catRow p.rd nr nc e.1 e.2.1 e.2.2) := by
    rw [List.getElem?_map]
    cases hx : entries[i]? with
    | none => rw [hx] at he; cases he
    | some x => rw [hx] at he; simp only [Option.map_some, Option.some.injEq] at he; rw [← he]; rfl
  rw [hc] at h
  simp only at h
  refine ⟨o, t, psf, _, _, rfl, hp, h, rowFor _ _ _ _, ?_⟩
  intro n r q hn h2 hr hq hr' hq'
  exact cutsOf nr nc o psf.image seg _ i _ hc n hn (hol o (by simp)) hseg
    (startRange _ _ _ _ _ (rowFor _ _ _ _) n r q hn h2 hr hq hr' hq')

theorem cutStamps_spec (p : Pipe K J F S G Id Key) (nr nc : Nat) (mb : JMb K J) (hmb : OneShape nr nc mb)
    (entries : List (CatEntry K × Nat)) (seg : Img Nat) (hseg : seg.nr = nr ∧ seg.nc = nc)
    (stamps : List (JMb K J)) (h : cutStamps p mb entries seg = .ok stamps) :
    List.Forall₂ (fun en stamp => ObjectStamps p nr nc mb seg en.1 en.2 stamp) entries stamps := by
  have hlen := cutStamps_length p mb entries seg stamps h
  unfold cutStamps at h
  split at h
  · cases h
  · cases h
  · cases h
  rename_i o0 t0
  split at h
  · cases h
  rw [mapM_forall₂] at h
  have h0 := hmb [o0] (by simp) o0 (by simp)
  rw [List.forall₂_iff_get] at h ⊢
  refine ⟨hlen.symm, ?_⟩
  intro i h1 h2
  have hi := h.2 i (by simpa using h1) h2
  simp only [List.get_eq_getElem, List.getElem_zip, List.getElem_range] at hi ⊢
  rw [mapM_forall₂] at hi
  refine ⟨o0, t0, rfl, ?_⟩
  rw [List.forall₂_iff_get] at hi ⊢
  refine ⟨hi.1, ?_⟩
  intro b g1 g2
  have hb := hi.2 b g1 g2
  rw [h0.1, h0.2.1] at hb
  exact bandStamp_spec p nr nc _ seg hseg entries i _ _ (by simp [List.getElem?_eq_getElem h1]) _ _
    (fun o ho => hmb _ (List.get_mem _ _) o ho) hb

/-- C101: what a detection is.  `sep` is assumed to return a segmentation map of the shape of the
image. -/
theorem C101_detection (p : Pipe K J F S G Id Key) (nr nc : Nat) (mb : JMb K J) (hmb : OneShape nr nc mb)
    (hmed : MedianOk p.env.np) (bands : List Nat)
    (hw : ∀ b ∈ bands, ∀ ol, mb[b]? = some ol → ∀ o ∈ ol, HasWeight o)
    (hsep : ∀ im objs seg, p.sep im = .ok (objs, seg) → seg.nr = im.detim.nr ∧ seg.nc = im.detim.nc)
    (hlo : 0 < p.meds.minBox) (hhi : p.meds.minBox ≤ p.meds.maxBox)
    (ht : p.meds.boxType = "sigma_size" ∨ p.meds.boxType = "iso_radius")
    (cat : List (CatEntry K)) (stamps : List (JMb K J)) (h : doDetect p mb bands = .ok (cat, stamps)) :
    Detected p nr nc mb bands cat stamps := by
  unfold doDetect at h
  simp only [bind, Except.bind] at h
  split at h
  · cases h
  rename_i det hdet
  split at h
  · cases h
  rename_i ol0 det'
  split at h
  · cases h
  split at h
  · cases h
  rename_i obs hobs
  split at h
  · cases h
  rename_i im him
  split at h
  · cases h
  rename_i os hos
  obtain ⟨objs, seg⟩ := os
  simp only at h
  split at h
  · cases h
  rename_i boxes hboxes
  split at h
  · cases h
  rename_i st hst
  simp only [Except.ok.injEq, Prod.mk.injEq] at h
  obtain ⟨rfl, rfl⟩ := h
  rw [mapM_forall₂] at hdet hobs
  -- the observations of the detection bands
  have hob : List.Forall₂ (fun b o => ∃ t, mb[b]? = some (o :: t)) bands obs := by
    rw [List.forall₂_iff_get] at hdet hobs ⊢
    refine ⟨hdet.1.trans hobs.1, ?_⟩
    intro i g1 g2
    have e1 := hdet.2 i g1 (by rw [← hdet.1]; exact g1)
    have e2 := hobs.2 i (by rw [← hdet.1]; exact g1) g2
    simp only [Cache.selectBand] at e1
    split at e1
    · cases e1
    rename_i ol hol
    cases e1
    split at e2
    · cases e2
    rename_i o t ho
    cases e2
    exact ⟨t, by rw [hol, ho]⟩
  have hmem : ∀ o ∈ obs, (o.image.nr = nr ∧ o.image.nc = nc ∧ o.Ok) ∧ HasWeight o := by
    intro o ho
    obtain ⟨i, hi, rfl⟩ := List.getElem_of_mem ho
    have hi' : i < bands.length := by rw [hob.length_eq]; exact hi
    obtain ⟨t, e⟩ := (List.forall₂_iff_get.1 hob).2 i hi' hi
    simp only [List.get_eq_getElem] at e
    exact ⟨hmb _ (List.mem_of_getElem? e) _ (by simp), hw _ (List.getElem_mem hi') _ e _ (by simp)⟩
  have hne : obs ≠ [] := by
    rintro rfl
    cases hobs
  obtain ⟨d, d1, d2, d3, ⟨f, f1, f2, f3⟩, d4, d5, d6, d7⟩ := Detect.C27_detection_image p.env.np hmed p.nodet
    obs hne nr nc (fun o ho => ⟨(hmem o ho).1.1, (hmem o ho).1.2.1⟩) (fun o ho => (hmem o ho).2)
  rw [him] at d1
  cases d1
  have hseg := hsep _ _ _ hos
  rw [d2, d3] at hseg
  obtain ⟨sizes, s1, s2⟩ := Detect.C24_catalogue p.fwhmFac p.meds (objs.map (·.1)) hlo hhi ht
  rw [hboxes] at s1
  cases s1
  have hl : objs.length = boxes.length := by simpa using s2.length_eq
  refine ⟨obs, im, objs, seg, hob, ⟨d2, d3, ?_, d4, d7⟩, hos, ?_, ?_⟩
  · intro r c
    rw [f3, ← List.sum_map_mul_right]
    congr 1
    apply List.map_congr_left
    intro o ho
    rw [← (f1 o ho).2]
    ring
  · rw [List.forall₂_iff_get] at s2 ⊢
    refine ⟨by simp [hl], ?_⟩
    intro i g1 g2
    have := s2.2 i (by simpa using g1) (by omega)
    simp only [List.get_eq_getElem, List.getElem_map, List.getElem_zipWith] at this ⊢
    exact ⟨trivial, trivial, this⟩
  · have hcs := cutStamps_spec p nr nc mb hmb _ seg hseg _ hst
    rw [List.forall₂_iff_get] at hcs ⊢
    refine ⟨by simpa using hcs.1, ?_⟩
    intro i g1 g2
    have := hcs.2 i (by simpa using g1) g2
    simpa using this

/-- C101 (colours): in colour-dependent mode the stamps of given objects are cut in the same way, with an
empty segmentation map, in which the objects have the numbers from 1 on. -/
theorem C101_colour_stamps (p : Pipe K J F S G Id Key) (nr nc : Nat) (mb : JMb K J) (hmb : OneShape nr nc mb)
    (cat : List (CatEntry K)) (stamps : List (JMb K J)) (h : colorStamps p mb cat = .ok stamps) :
    ∃ seg : Img Nat, seg.nr = nr ∧ seg.nc = nc ∧ (∀ r c, seg.px r c = 0) ∧
      stamps.length = cat.length ∧
      ∀ k (hk : k < cat.length) (hs : k < stamps.length),
        ObjectStamps p nr nc mb seg cat[k] (k + 1) stamps[k] := by
  unfold colorStamps at h
  have hc : ∃ o t l, mb = (o :: t) :: l := by
    unfold cutStamps at h
    split at h
    · cases h
    · cases h
    · exact ⟨_, _, _, rfl⟩
    · exact ⟨_, _, _, rfl⟩
  obtain ⟨o, t, l, rfl⟩ := hc
  have ho := hmb (o :: t) (by simp) o (by simp)
  simp only at h
  have hcs := cutStamps_spec p nr nc _ hmb _ _ ⟨ho.1, ho.2.1⟩ _ h
  refine ⟨Img.const o.image.nr o.image.nc 0, ho.1, ho.2.1, fun _ _ => rfl, by simpa using hcs.length_eq.symm, ?_⟩
  intro k hk hs
  have := (List.forall₂_iff_get.1 hcs).2 k (by simpa using hk) hs
  simpa using this

/-- C101 (runs): the tables of a result of `do_metadetect` without colours: for every combination of shear
and detection bands and every metacal type whose images have one shape and some weight in the detection
bands, the rows of the table are those of the objects detected in these bands of that type's images, each
measured on its own stamps. -/
theorem C101_run (p : Pipe K J F S G Id Key) (toF : K → F) (hu : ∀ i, Uniform (p.env.obs i))
    (hfit : FitOk p.env) (hna : NoAlias p.env) (hmc : Driver.MetacalOk p.env)
    (ss : List (Config.Setting K)) (ha : Config.Aligned p.lists ss) (s : S)
    (hcol : p.colorKey = none ∨ p.env.dep = none) (hmed : MedianOk p.env.np)
    (hsep : ∀ im objs seg, p.sep im = .ok (objs, seg) → seg.nr = im.detim.nr ∧ seg.nc = im.detim.nc)
    (hlo : 0 < p.meds.minBox) (hhi : p.meds.minBox ≤ p.meds.maxBox)
    (ht : p.meds.boxType = "sigma_size" ∨ p.meds.boxType = "iso_radius")
    (r : PyDict String (Option (Table K (Cols F)))) (h : doMetadetect (drv p toF) s = .ok (some r)) :
    ∃ (m : McalRes K (Rest K J)) (tables : List (String → Option (Table K (Cols F)))),
      List.Forall₂ (fun b tab => ∀ t mb nr nc, m.get? t = some mb → OneShape nr nc mb →
          (∀ k ∈ b.2, ∀ ol, mb[k]? = some ol → ∀ o ∈ ol, HasWeight o) →
          ∃ cat stamps, Detected p nr nc mb b.2 cat stamps ∧ DetectionTable p toF ss b.1 cat stamps (tab t))
        (p.shearCombs.zip p.detCombs) tables ∧
      ∀ t, Driver.IsEntry (p.types.getD ["noshear", "1p", "1m", "2p", "2m"]) t (tables.map (· t))
        (r.get? t) := by
  obtain ⟨sub, m, tables, -, -, h4, h5⟩ := C84_rows p toF hu hfit hna hmc ss ha s hcol r h
  refine ⟨m, tables, h4.imp ?_, h5⟩
  intro b tab hb t mb nr nc hm hs hw
  obtain ⟨cat, stamps, g1, g2⟩ := (hb t).2 mb hm
  exact ⟨cat, stamps, C101_detection p nr nc mb hs hmed b.2 hw hsep hlo hhi ht cat stamps g1, g2⟩

/-! ### Example -/

/-- the example of C84 with a segmentation map of the shape of the detection image -/
def exStampPipe : Pipe ℚ Nat ℚ Nat Unit Nat Nat :=
  { exPipe exSettings none with
    sep := fun im => .ok ([(⟨0, 0, 0, 1, 0, 1, 1, 1, 2, 2⟩, 1), (⟨1, 1, 0, 1, 0, 1, 1, 1, 2, 2⟩, 2)],
      Img.const im.detim.nr im.detim.nc 0) }

theorem exMedianOk : MedianOk exStampPipe.env.np := by
  intro l hl hp
  cases l with
  | nil => exact absurd rfl hl
  | cons a t => exact hp a (by simp)

theorem exOneShape : OneShape 2 2 [[exObs], [exObs]] := by
  intro ol hol o ho
  have : o = exObs := by
    simp only [List.mem_cons, List.not_mem_nil, or_false, or_self] at hol
    subst hol
    simpa using ho
  subst this
  refine ⟨rfl, rfl, ⟨⟨rfl, rfl⟩, ?_, ?_, ?_, ?_⟩⟩
  · intro n h; simp [exObs] at h
  · intro b h; simp only [exObs, Option.some.injEq] at h; subst h; exact ⟨rfl, rfl⟩
  · intro b h; simp only [exObs, Option.some.injEq] at h; subst h; exact ⟨rfl, rfl⟩
  · intro n h; simp [exObs] at h

/-- two detections with their stamps -/
example : ∃ cat stamps, doDetect exStampPipe [[exObs], [exObs]] [1, 0] = .ok (cat, stamps) ∧ cat.length = 2 ∧
    Detected exStampPipe 2 2 [[exObs], [exObs]] [1, 0] cat stamps := by
  have e : (match doDetect exStampPipe [[exObs], [exObs]] [1, 0] with
      | .ok (cat, _) => cat.map fun e => (e.1, e.2.2)
      | .error _ => []) = [(0, 32), (1, 32)] := by decide +kernel
  cases h : doDetect exStampPipe [[exObs], [exObs]] [1, 0] with
  | error e' => rw [h] at e; cases e
  | ok cs =>
    obtain ⟨cat, stamps⟩ := cs
    rw [h] at e
    refine ⟨cat, stamps, rfl, by simpa using congrArg List.length e, ?_⟩
    refine C101_detection _ 2 2 _ exOneShape exMedianOk _ ?_ ?_ (by decide) (by decide) (.inl rfl) _ _ h
    · intro b _ ol hol o ho
      have := List.mem_of_getElem? hol
      have : o = exObs := by
        simp only [List.mem_cons, List.not_mem_nil, or_false, or_self] at this
        subst this
        simpa using ho
      subst this
      exact ⟨0, 0, by decide, by decide⟩
    · intro im objs seg h
      simp only [exStampPipe, Except.ok.injEq, Prod.mk.injEq] at h
      rw [← h.2]
      exact ⟨rfl, rfl⟩

/-- stamps of given objects -/
example : ∃ stamps, colorStamps exStampPipe [[exObs], [exObs]] [(1, 0, 32)] = .ok stamps ∧ stamps.length = 1 := by
  have e : (match colorStamps exStampPipe [[exObs], [exObs]] [(1, 0, 32)] with
      | .ok s => s.length
      | .error _ => 0) = 1 := by decide +kernel
  cases h : colorStamps exStampPipe [[exObs], [exObs]] [(1, 0, 32)] with
  | error e' => rw [h] at e; cases e
  | ok s =>
    obtain ⟨_, -, -, -, h1, -⟩ := C101_colour_stamps _ 2 2 _ exOneShape _ _ h
    exact ⟨s, rfl, h1⟩

end MD.Pipeline
