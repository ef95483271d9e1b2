import Verif.Props.PipelineStamps
import Verif.Props.DriverFitters

/-! # C121: the fits of an object depend only on the pixels of its stamp -/

set_option linter.unusedSectionVars false

namespace MD.Pipeline
open Detect (Det CatRow Plane Meds Detim PixelOf)
open Driver (CatEntry Table)
open Wavg (Row)
open Joint (Rest JObs JMb)
open Driver (doMetadetect)
open Cache (FitOk NoAlias Sub McalRes freshAnswer Uniform)

variable {K : Type} [Field K] [LinearOrder K] [IsStrictOrderedRing K] [FloorRing K]
variable {J F S G Id Key : Type} [DecidableEq J] [DecidableEq Id] [DecidableEq Key] [DecidableEq F]

/-! ### Specification -/

/-- SPEC: pixel `(r, c)` of the image is in the stamp of side `n` of an object whose centre is in pixel `(y, x)`: the stamp
starts half its side before the pixel of the object (not before the image) -/
def InStamp (y x : Nat) (n : Int) (r c : Nat) : Prop :=
  max ((y : Int) - n / 2 + 1) 0 ≤ r ∧ (r : Int) < max ((y : Int) - n / 2 + 1) 0 + n ∧
  max ((x : Int) - n / 2 + 1) 0 ≤ c ∧ (c : Int) < max ((x : Int) - n / 2 + 1) 0 + n

/-- SPEC: two images of one shape that agree in the stamp -/
def AgreeIn {α : Type} (y x : Nat) (n : Int) (a b : Img α) : Prop :=
  a.nr = b.nr ∧ a.nc = b.nc ∧ ∀ r c, a.In r c → InStamp y x n r c → a.px r c = b.px r c

/-- SPEC: two observations with the same WCS and PSF whose image, weight, bit mask and noise planes agree in the stamp -/
structure SameInStamp (y x : Nat) (n : Int) (o o' : JObs K J) : Prop where
  rest : o.rest = o'.rest
  image : AgreeIn y x n o.image o'.image
  weight : AgreeIn y x n o.weight o'.weight
  bmask : Option.Rel (AgreeIn y x n) o.bmask o'.bmask
  noise : Option.Rel (AgreeIn y x n) o.noise o'.noise

/-- SPEC: what the detection program returns for the detection image of these bands: the objects with their numbers, and
the segmentation map -/
def found (p : Pipe K J F S G Id Key) (mb : JMb K J) (bands : List Nat) :
    Except PyErr (List (Det K × Nat) × Img Nat) := do
  let obs ← bands.mapM fun b => match mb[b]? with
    | some (o :: _) => .ok o
    | _ => .error .indexError
  let im ← Detect.setDetim p.env.np p.nodet obs
  p.sep im

/-- SPEC: two runs with the same settings and external functions: only the images and what metacal makes of them differ -/
def SameSettings (p p' : Pipe K J F S G Id Key) : Prop :=
  ∃ env', p' = { p with env := env' }

/-- SPEC: object `i` found in the images `mb` and object `j` found in the images `mb'` have the same position, stamp size
and number in the segmentation map, and the planes of every band and the two segmentation maps agree in its stamp -/
def SameObject (p p' : Pipe K J F S G Id Key) (mb mb' : JMb K J) (bands bands' : List Nat) (cat cat' : List (CatEntry K))
    (i j : Nat) : Prop :=
  ∃ (objs objs' : List (Det K × Nat)) (seg seg' : Img Nat) (d d' : Det K × Nat) (e : CatEntry K) (y x : Nat),
    found p mb bands = .ok (objs, seg) ∧ found p' mb' bands' = .ok (objs', seg') ∧ cat[i]? = some e ∧ cat'[j]? = some e ∧
    objs[i]? = some d ∧ objs'[j]? = some d' ∧ d.2 = d'.2 ∧ PixelOf y (p.rd e.2.1) ∧ PixelOf x (p.rd e.1) ∧
    AgreeIn y x e.2.2 seg seg' ∧ List.Forall₂ (List.Forall₂ (SameInStamp y x e.2.2)) mb mb'

/-- SPEC: row `i` of a table and row `j` of another have the columns of a fitter, each name once, with the same values -/
def SameColumns (p : Pipe K J F S G Id Key) (c : Config.Setting K) (tab tab' : Option (Table K (Cols F))) (i j : Nat) : Prop :=
  ∃ rows rows' r r' m row, tab = some rows ∧ tab' = some rows' ∧ rows[i]? = some r ∧ rows'[j]? = some r' ∧
    p.fitter c.fitter = some m ∧ (r.base.map (·.1)).Nodup ∧ (r'.base.map (·.1)).Nodup ∧
    ∀ x ∈ columnsOf m.kind row, x ∈ r.base ∧ x ∈ r'.base

/-! ### Proofs -/

theorem pySlice_range (n : Nat) (a b : Int) (ha : 0 ≤ a) (hb : 0 ≤ b) (k : Nat) (hk : k < (Detect.pySlice n a b).2) :
    a ≤ ((Detect.pySlice n a b).1 + k : Nat) ∧ (((Detect.pySlice n a b).1 + k : Nat) : Int) < b ∧
      (Detect.pySlice n a b).1 + k < n := by
  unfold Detect.pySlice at hk ⊢
  simp only [if_neg (not_lt.2 ha), if_neg (not_lt.2 hb)] at hk ⊢
  omega

theorem clipped_range (dim : Nat) (start n : Int) (hs : 0 ≤ start) (hn : 0 ≤ n) :
    (Detect.clippedBoxes dim start n).o0 = start ∧ 0 ≤ (Detect.clippedBoxes dim start n).o1 ∧
      (Detect.clippedBoxes dim start n).o1 ≤ start + n := by
  unfold Detect.clippedBoxes
  dsimp only
  rw [if_neg (not_lt.2 hs)]
  by_cases h : (dim : Int) - (start + n) < 0
  · rw [if_pos h]; dsimp only; refine ⟨rfl, ?_, ?_⟩ <;> omega
  · rw [if_neg h]; dsimp only; refine ⟨rfl, ?_, ?_⟩ <;> omega

theorem cutout_agree {α : Type} (y x : Nat) (n : Int) (a b : Img α) (h : AgreeIn y x n a b) (dflt : α) :
    Detect.cutout a dflt (max ((y : Int) - n / 2 + 1) 0) (max ((x : Int) - n / 2 + 1) 0) n =
      Detect.cutout b dflt (max ((y : Int) - n / 2 + 1) 0) (max ((x : Int) - n / 2 + 1) 0) n := by
  obtain ⟨h1, h2, h3⟩ := h
  unfold InStamp at h3
  have hr0 : 0 ≤ max ((y : Int) - n / 2 + 1) 0 := le_max_right _ _
  have hc0 : 0 ≤ max ((x : Int) - n / 2 + 1) 0 := le_max_right _ _
  generalize max ((y : Int) - n / 2 + 1) 0 = r0 at *
  generalize max ((x : Int) - n / 2 + 1) 0 = c0 at *
  unfold Detect.cutout
  by_cases hn : n < 0
  · rw [if_pos hn, if_pos hn]
  rw [if_neg hn, if_neg hn]
  rw [← h1, ← h2]
  obtain ⟨p1, p2, p3⟩ := clipped_range a.nr r0 n hr0 (by omega)
  obtain ⟨q1, q2, q3⟩ := clipped_range a.nc c0 n hc0 (by omega)
  unfold Detect.assignBlock
  simp only
  rw [p1, q1]
  split
  · rename_i hsh
    congr 1
    congr 1
    funext r c
    split
    · rename_i hin
      have e1 := pySlice_range a.nr r0 (Detect.clippedBoxes a.nr r0 n).o1 hr0 p2
        (if (Detect.pySlice a.nr r0 (Detect.clippedBoxes a.nr r0 n).o1).2 =
          (Detect.pySlice n.toNat (Detect.clippedBoxes a.nr r0 n).b0 (Detect.clippedBoxes a.nr r0 n).b1).2 then
          r - (Detect.pySlice n.toNat (Detect.clippedBoxes a.nr r0 n).b0 (Detect.clippedBoxes a.nr r0 n).b1).1 else 0)
        (by split <;> omega)
      have e2 := pySlice_range a.nc c0 (Detect.clippedBoxes a.nc c0 n).o1 hc0 q2
        (if (Detect.pySlice a.nc c0 (Detect.clippedBoxes a.nc c0 n).o1).2 =
          (Detect.pySlice n.toNat (Detect.clippedBoxes a.nc c0 n).b0 (Detect.clippedBoxes a.nc c0 n).b1).2 then
          c - (Detect.pySlice n.toNat (Detect.clippedBoxes a.nc c0 n).b0 (Detect.clippedBoxes a.nc c0 n).b1).1 else 0)
        (by split <;> omega)
      exact h3 _ _ ⟨e1.2.2, e2.2.2⟩ ⟨e1.1, by omega, e2.1, by omega⟩
    · rfl
  · rfl

theorem getCutout_agree (rd : K → K) (y x : Nat) (e : CatEntry K) (hy : PixelOf y (rd e.2.1)) (hx : PixelOf x (rd e.1))
    (o o' : JObs K J) (ho : SameInStamp y x e.2.2 o o') (seg seg' : Img Nat) (hs : AgreeIn y x e.2.2 seg seg')
    (psf : Img K) (cat cat' : List (CatRow K)) (i j nr nc : Nat)
    (hi : cat[i]? = some (Detect.catRow rd nr nc e.1 e.2.1 e.2.2))
    (hj : cat'[j]? = some (Detect.catRow rd nr nc e.1 e.2.1 e.2.2)) :
    Detect.getCutout (medsOf o psf seg cat) i = Detect.getCutout (medsOf o' psf seg' cat') j := by
  funext type
  unfold Detect.getCutout medsOf
  simp only [hi, hj]
  have ky : Masking.truncInt (rd e.2.1) = (y : Int) :=
    Detect.trunc_pixel (le_trans (by exact_mod_cast Nat.zero_le y) hy.1) hy
  have kx : Masking.truncInt (rd e.1) = (x : Int) :=
    Detect.trunc_pixel (le_trans (by exact_mod_cast Nat.zero_le x) hx.1) hx
  simp only [Detect.catRow, ky, kx]
  rw [cutout_agree y x e.2.2 _ _ ho.image, cutout_agree y x e.2.2 _ _ ho.weight, cutout_agree y x e.2.2 _ _ hs]
  have hb : (match Masking.need o.bmask with
      | .error e => Except.error e
      | .ok b => (Detect.cutout b Detect.BMASK_EDGE (max ((y : Int) - e.2.2 / 2 + 1) 0)
          (max ((x : Int) - e.2.2 / 2 + 1) 0) e.2.2).map (Plane.int (K := K))) =
      (match Masking.need o'.bmask with
      | .error e => Except.error e
      | .ok b => (Detect.cutout b Detect.BMASK_EDGE (max ((y : Int) - e.2.2 / 2 + 1) 0)
          (max ((x : Int) - e.2.2 / 2 + 1) 0) e.2.2).map (Plane.int (K := K))) := by
    have h := ho.bmask
    generalize o.bmask = u at h
    generalize o'.bmask = v at h
    cases h with
    | none => rfl
    | some h => simp only [Masking.need, cutout_agree y x e.2.2 _ _ h]
  have hno : (match Masking.need o.noise with
      | .error e => Except.error e
      | .ok b => (Detect.cutout b 0 (max ((y : Int) - e.2.2 / 2 + 1) 0)
          (max ((x : Int) - e.2.2 / 2 + 1) 0) e.2.2).map (Plane.real (K := K))) =
      (match Masking.need o'.noise with
      | .error e => Except.error e
      | .ok b => (Detect.cutout b 0 (max ((y : Int) - e.2.2 / 2 + 1) 0)
          (max ((x : Int) - e.2.2 / 2 + 1) 0) e.2.2).map (Plane.real (K := K))) := by
    have h := ho.noise
    generalize o.noise = u at h
    generalize o'.noise = v at h
    cases h with
    | none => rfl
    | some h => simp only [Masking.need, cutout_agree y x e.2.2 _ _ h]
  split
  · rfl
  split
  · rfl
  split
  · rfl
  split
  · exact hb
  split
  · exact hno
  rfl

theorem bandStamp_agree (p : Pipe K J F S G Id Key) (y x : Nat) (e : CatEntry K) (hy : PixelOf y (p.rd e.2.1))
    (hx : PixelOf x (p.rd e.1)) (rest0 : Rest K J) (seg seg' : Img Nat) (hs : AgreeIn y x e.2.2 seg seg')
    (cat cat' : List (CatRow K)) (i j nr nc k : Nat)
    (hi : cat[i]? = some (Detect.catRow p.rd nr nc e.1 e.2.1 e.2.2))
    (hj : cat'[j]? = some (Detect.catRow p.rd nr nc e.1 e.2.1 e.2.2)) (ol ol' : List (JObs K J))
    (ho : List.Forall₂ (SameInStamp y x e.2.2) ol ol') :
    bandStamp p rest0 seg cat i k ol = bandStamp p rest0 seg' cat' j k ol' := by
  unfold bandStamp
  cases ho with
  | nil => rfl
  | cons h t =>
    simp only [← h.rest, hi, hj]
    split
    · rfl
    · rw [getCutout_agree p.rd y x e hy hx _ _ h seg seg' hs _ cat cat' i j nr nc hi hj]

theorem mapM_congr₂ {α β γ ε : Type} (f : α → Except ε γ) (g : β → Except ε γ) {l : List α} {l' : List β}
    (h : List.Forall₂ (fun a b => f a = g b) l l') : l.mapM f = l'.mapM g := by
  induction h with
  | nil => rfl
  | cons h _ ih => rw [List.mapM_cons, List.mapM_cons, h, ih]

theorem cutStamps_agree (p : Pipe K J F S G Id Key) (y x : Nat) (e : CatEntry K) (hy : PixelOf y (p.rd e.2.1))
    (hx : PixelOf x (p.rd e.1)) (seg seg' : Img Nat) (hs : AgreeIn y x e.2.2 seg seg') (mb mb' : JMb K J)
    (hmb : List.Forall₂ (List.Forall₂ (SameInStamp y x e.2.2)) mb mb') (l l' : List (CatEntry K × Nat)) (i j k : Nat)
    (hi : l[i]? = some (e, k)) (hj : l'[j]? = some (e, k)) (st st' : List (JMb K J))
    (h : cutStamps p mb l seg = .ok st) (h' : cutStamps p mb' l' seg' = .ok st') : ∃ s, st[i]? = some s ∧ st'[j]? = some s := by
  have hl := cutStamps_length p mb l seg st h
  have hl' := cutStamps_length p mb' l' seg' st' h'
  unfold cutStamps at h h'
  split at h
  · cases h
  · cases h
  · cases h
  rename_i o0 t0
  split at h
  · cases h
  split at h'
  · cases h'
  · cases h'
  · cases h'
  rename_i o0' t0'
  split at h'
  · cases h'
  cases hmb with
  | cons h0 ht =>
  cases h0 with
  | cons h0 hnil =>
  rw [mapM_forall₂, List.forall₂_iff_get] at h h'
  obtain ⟨gi, ei⟩ := List.getElem?_eq_some_iff.1 hi
  obtain ⟨gj, ej⟩ := List.getElem?_eq_some_iff.1 hj
  have a := h.2 i (by simpa using gi) (by omega)
  have b := h'.2 j (by simpa using gj) (by omega)
  simp only [List.get_eq_getElem, List.getElem_zip, List.getElem_range, ei, ej] at a b
  rw [← h0.rest, ← h0.image.1, ← h0.image.2.1] at b
  have key := mapM_congr₂
    (bandStamp p o0.rest seg (l.map fun e => Detect.catRow p.rd o0.image.nr o0.image.nc e.1.1 e.1.2.1 e.1.2.2) i k)
    (bandStamp p o0.rest seg' (l'.map fun e => Detect.catRow p.rd o0.image.nr o0.image.nc e.1.1 e.1.2.1 e.1.2.2) j k)
    (l := [o0] :: t0) (l' := [o0'] :: t0') (List.Forall₂.imp (fun ol ol' ho =>
      bandStamp_agree p y x e hy hx o0.rest seg seg' hs _ _ i j o0.image.nr o0.image.nc k
        (by rw [List.getElem?_map, hi]; rfl) (by rw [List.getElem?_map, hj]; rfl) ol ol' ho)
      (.cons (.cons h0 hnil) ht))
  rw [key, b] at a
  simp only [Except.ok.injEq] at a
  exact ⟨_, List.getElem?_eq_getElem (by omega), by rw [← a]; exact List.getElem?_eq_getElem (by omega)⟩

theorem doDetect_found (p : Pipe K J F S G Id Key) (mb : JMb K J) (bands : List Nat) (cat : List (CatEntry K))
    (stamps : List (JMb K J)) (h : doDetect p mb bands = .ok (cat, stamps)) :
    ∃ objs seg, found p mb bands = .ok (objs, seg) ∧ cutStamps p mb (cat.zip (objs.map (·.2))) seg = .ok stamps := by
  unfold doDetect at h
  simp only [bind, Except.bind] at h
  split at h
  · cases h
  rename_i det hdet
  split at h
  · cases h
  rename_i ol0 det'
  split at h
  · cases h
  split at h
  · cases h
  rename_i obs hobs
  split at h
  · cases h
  rename_i im him
  split at h
  · cases h
  rename_i os hos
  obtain ⟨objs, seg⟩ := os
  simp only at h
  split at h
  · cases h
  rename_i boxes hboxes
  split at h
  · cases h
  rename_i st hst
  simp only [Except.ok.injEq, Prod.mk.injEq] at h
  obtain ⟨rfl, rfl⟩ := h
  refine ⟨objs, seg, ?_, hst⟩
  · have hob : bands.mapM (fun b => match mb[b]? with
        | some (o :: _) => Except.ok o
        | _ => .error PyErr.indexError) = .ok obs := by
      rw [mapM_forall₂, List.forall₂_iff_get] at hdet hobs ⊢
      refine ⟨hdet.1.trans hobs.1, ?_⟩
      intro i g1 g2
      have e1 := hdet.2 i g1 (by rw [← hdet.1]; exact g1)
      have e2 := hobs.2 i (by rw [← hdet.1]; exact g1) g2
      simp only [Cache.selectBand] at e1
      split at e1
      · cases e1
      rename_i ol hol
      cases e1
      split at e2
      · cases e2
      rename_i o t ho
      cases e2
      rw [hol, ho]
    unfold found
    simp only [bind, Except.bind]
    rw [hob]
    simp only [him, hos]

/-- C121: the stamps of an object depend only on the pixels in its stamp.  Detection is run on two sets of images, on the
same or on other bands, and finds the same object.  Then the stamps of the object are the same, whatever the rest of the
images and the other detections are. -/
theorem C121_stamps (p p' : Pipe K J F S G Id Key) (hp : SameSettings p p') (mb mb' : JMb K J) (bands bands' : List Nat)
    (cat cat' : List (CatEntry K)) (stamps stamps' : List (JMb K J))
    (h : doDetect p mb bands = .ok (cat, stamps)) (h' : doDetect p' mb' bands' = .ok (cat', stamps')) (i j : Nat)
    (hs : SameObject p p' mb mb' bands bands' cat cat' i j) : ∃ s, stamps[i]? = some s ∧ stamps'[j]? = some s := by
  obtain ⟨env', rfl⟩ := hp
  obtain ⟨objs, objs', seg, seg', d, d', e, y, x, hf, hf', hi, hj, hd, hd', hk, hy, hx, hseg, hmb⟩ := hs
  obtain ⟨o1, s1, a1, a3⟩ := doDetect_found p mb bands cat stamps h
  obtain ⟨o2, s2, b1, b3⟩ := doDetect_found _ mb' bands' cat' stamps' h'
  rw [hf] at a1
  cases a1
  rw [hf'] at b1
  cases b1
  refine cutStamps_agree p y x e hy hx seg seg' hseg mb mb' hmb _ _ i j d.2 ?_ ?_ stamps stamps' a3 b3
  · rw [List.getElem?_zip_eq_some]
    exact ⟨hi, by rw [List.getElem?_map, hd]; rfl⟩
  · rw [List.getElem?_zip_eq_some]
    exact ⟨hj, by rw [List.getElem?_map, hd', hk]; rfl⟩

theorem row_columns (p : Pipe K J F S G Id Key) (toF : K → F) (ss : List (Config.Setting K)) (c : Config.Setting K)
    (hc : c ∈ ss) (hw : c.isWavg = true) (sb : List Nat) (all : List (JMb K J)) (s : JMb K J) (base : Cols F)
    (h : CombinedRow p toF sb ss all s base) :
    ∃ m row, p.fitter c.fitter = some m ∧
      Wavg.fitMbobsWavg p.fl p.mom m p.bmaskFlags (some sb) (toF c.fwhmReg) c.symm s = .ok row ∧
      (base.map (·.1)).Nodup ∧ ∀ x ∈ columnsOf m.kind row, x ∈ base := by
  obtain ⟨q, qs, g1, rfl, g3, g4⟩ := h
  obtain ⟨q', hq', hrep⟩ := Driver.forall₂_mem_left g1 c hc
  unfold Reports at hrep
  rw [if_pos hw] at hrep
  obtain ⟨m, m1, m2, m3⟩ := hrep
  refine ⟨m, q'.2, m1, m3, g3, ?_⟩
  rw [← m2]
  intro x hx
  rw [List.mem_append]
  rcases List.mem_cons.1 hq' with rfl | hq'
  · exact .inl hx
  · by_cases hn : x.1 = "shear_bands"
    · left
      have : x = ("shear_bands", .str q'.2.shearBands) := by
        have hnd : ((columnsOf q'.1 q'.2).map (·.1)).Nodup := by
          have t := tab_row ⟨q'.1, [q'.2]⟩ 0 q'.2 rfl
          rw [← t, List.map_map]
          exact (tab_wf ⟨q'.1, [q'.2]⟩).nodup
        refine List.inj_on_of_nodup_map hnd hx ?_ hn
        simp [columnsOf]
      rw [this, g4 q' hq']
      simp [columnsOf]
    · right
      exact List.mem_flatMap.2 ⟨q', hq', List.mem_filter.2 ⟨hx, by simpa using hn⟩⟩

theorem table_row (p : Pipe K J F S G Id Key) (toF : K → F) (ss : List (Config.Setting K)) (sb : List Nat)
    (cat : List (CatEntry K)) (stamps : List (JMb K J)) (tab : Option (Table K (Cols F)))
    (h : DetectionTable p toF ss sb cat stamps tab) (i : Nat) (e : CatEntry K) (s : JMb K J) (hi : cat[i]? = some e)
    (hs : stamps[i]? = some s) :
    ∃ rows r, tab = some rows ∧ rows[i]? = some r ∧ CombinedRow p toF sb ss stamps s r.base := by
  obtain ⟨h1, h2, h3⟩ := h
  obtain ⟨rows, rfl, hr⟩ := h3 (by rintro rfl; simp at hi)
  obtain ⟨gi, ei⟩ := List.getElem?_eq_some_iff.1 hi
  obtain ⟨gs, es⟩ := List.getElem?_eq_some_iff.1 hs
  have hl := hr.length_eq
  rw [List.length_zip] at hl
  have := (List.forall₂_iff_get.1 hr).2 i (by rw [List.length_zip]; omega) (by omega)
  simp only [List.get_eq_getElem, List.getElem_zip, ei, es] at this
  exact ⟨rows, _, rfl, List.getElem?_eq_getElem (by omega), this.2.2⟩

/-- C121 (tables): with the tables measured for the two detections in the same shear bands, the rows of the object have the
same values in all columns of every moments fitter. -/
theorem C121_columns (p p' : Pipe K J F S G Id Key) (hp : SameSettings p p') (toF : K → F)
    (ss : List (Config.Setting K)) (sb : List Nat) (mb mb' : JMb K J) (bands bands' : List Nat)
    (cat cat' : List (CatEntry K)) (stamps stamps' : List (JMb K J)) (tab tab' : Option (Table K (Cols F)))
    (h : doDetect p mb bands = .ok (cat, stamps)) (h' : doDetect p' mb' bands' = .ok (cat', stamps'))
    (ht : DetectionTable p toF ss sb cat stamps tab) (ht' : DetectionTable p' toF ss sb cat' stamps' tab') (i j : Nat)
    (hs : SameObject p p' mb mb' bands bands' cat cat' i j) (c : Config.Setting K) (hc : c ∈ ss) (hw : c.isWavg = true) :
    SameColumns p c tab tab' i j := by
  obtain ⟨s, s1, s2⟩ := C121_stamps p p' hp mb mb' bands bands' cat cat' stamps stamps' h h' i j hs
  obtain ⟨env', rfl⟩ := hp
  obtain ⟨objs, objs', seg, seg', d, d', e, y, x, -, -, hi, hj, -⟩ := hs
  obtain ⟨rows, r, rfl, r2, r3⟩ := table_row p toF ss sb cat stamps tab ht i e s hi s1
  obtain ⟨rows', r', rfl, r2', r3'⟩ := table_row _ toF ss sb cat' stamps' tab' ht' j e s hj s2
  obtain ⟨m, row, a1, a2, a3, a4⟩ := row_columns p toF ss c hc hw sb stamps s _ r3
  obtain ⟨m', row', b1, b2, b3, b4⟩ := row_columns _ toF ss c hc hw sb stamps' s _ r3'
  change p.fitter c.fitter = some m' at b1
  rw [a1] at b1
  cases b1
  change Wavg.fitMbobsWavg p.fl p.mom m p.bmaskFlags (some sb) (toF c.fwhmReg) c.symm s = .ok row' at b2
  rw [a2] at b2
  cases b2
  exact ⟨rows, rows', r, r', m, row, rfl, rfl, r2, r2', a1, a3, b3, fun x hx => ⟨a4 x hx, b4 x hx⟩⟩

/-- C121 (runs): two runs of `do_metadetect` with the same settings, on other images and from other random states.  When
the metacal images of a type agree in the stamp of an object that both find, then the row of this object has the same
values in all columns of the moments fitters, in the tables of both runs. -/
theorem C121_run (p p' : Pipe K J F S G Id Key) (hp : SameSettings p p') (toF : K → F)
    (hu : ∀ i, Uniform (p.env.obs i)) (hfit : FitOk p.env) (hna : NoAlias p.env) (hmc : Driver.MetacalOk p.env)
    (hu' : ∀ i, Uniform (p'.env.obs i)) (hfit' : FitOk p'.env) (hna' : NoAlias p'.env) (hmc' : Driver.MetacalOk p'.env)
    (ss : List (Config.Setting K)) (ha : Config.Aligned p.lists ss) (s s' : S)
    (hcol : p.colorKey = none ∨ p.env.dep = none) (hcol' : p.colorKey = none ∨ p'.env.dep = none)
    (r r' : PyDict String (Option (Table K (Cols F))))
    (h : doMetadetect (drv p toF) s = .ok (some r)) (h' : doMetadetect (drv p' toF) s' = .ok (some r')) :
    ∃ (sub sub' : Sub K (Rest K J)) (m m' : McalRes K (Rest K J))
      (tables tables' : List (String → Option (Table K (Cols F)))),
      freshAnswer p.env s none (List.range (p.env.obs p.env.main).length) = .ok sub ∧
      sub.mcal = some (some m) ∧
      freshAnswer p'.env s' none (List.range (p'.env.obs p'.env.main).length) = .ok sub' ∧
      sub'.mcal = some (some m') ∧
      (∀ t, Driver.IsEntry (p.types.getD ["noshear", "1p", "1m", "2p", "2m"]) t (tables.map (· t)) (r.get? t)) ∧
      (∀ t, Driver.IsEntry (p.types.getD ["noshear", "1p", "1m", "2p", "2m"]) t (tables'.map (· t)) (r'.get? t)) ∧
      tables.length = (p.shearCombs.zip p.detCombs).length ∧ tables'.length = (p.shearCombs.zip p.detCombs).length ∧
      ∀ (k : Nat) b T T', (p.shearCombs.zip p.detCombs)[k]? = some b → tables[k]? = some T → tables'[k]? = some T' →
        ∀ t mb mb', m.get? t = some mb → m'.get? t = some mb' → ∃ cat cat' stamps stamps',
          doDetect p mb b.2 = .ok (cat, stamps) ∧ doDetect p' mb' b.2 = .ok (cat', stamps') ∧
          ∀ i j, SameObject p p' mb mb' b.2 b.2 cat cat' i j → ∀ c ∈ ss, c.isWavg = true →
            SameColumns p c (T t) (T' t) i j := by
  obtain ⟨env', rfl⟩ := id hp
  obtain ⟨sub, m, tables, a1, a2, a3, a4⟩ := C84_rows p toF hu hfit hna hmc ss ha s hcol r h
  obtain ⟨sub', m', tables', b1, b2, b3, b4⟩ := C84_rows _ toF hu' hfit' hna' hmc' ss ha s' hcol' r' h'
  refine ⟨sub, sub', m, m', tables, tables', a1, a2, b1, b2, a4, b4, a3.length_eq.symm, b3.length_eq.symm, ?_⟩
  intro k b T T' hb hT hT' t mb mb' hm hm'
  obtain ⟨g, e⟩ := List.getElem?_eq_some_iff.1 hb
  obtain ⟨g1, e1⟩ := List.getElem?_eq_some_iff.1 hT
  obtain ⟨g2, e2⟩ := List.getElem?_eq_some_iff.1 hT'
  have c1 := (List.forall₂_iff_get.1 a3).2 k g g1 t
  have c2 := (List.forall₂_iff_get.1 b3).2 k g g2 t
  simp only [List.get_eq_getElem, e, e1, e2] at c1 c2
  obtain ⟨cat, stamps, d1, d2⟩ := c1.2 mb hm
  obtain ⟨cat', stamps', f1, f2⟩ := c2.2 mb' hm'
  exact ⟨cat, cat', stamps, stamps', d1, f1, fun i j hs c hc hw =>
    C121_columns p _ hp toF ss b.1 mb mb' b.2 b.2 cat cat' stamps stamps' _ _ d1 f1 d2 f2 i j hs c hc hw⟩

/-! ### Example -/

section Examples

/-- an eight by eight observation; the last pixel has the given value -/
def exBig (v : ℚ) : JObs ℚ Nat :=
  { image := ⟨8, 8, fun r c => if r = 7 ∧ c = 7 then v else 1 + r + 2 * c⟩, weight := ⟨8, 8, fun _ _ => 1⟩, noise := none,
    bmask := some ⟨8, 8, fun _ _ => 0⟩, ormask := some ⟨8, 8, fun _ _ => 0⟩, mfrac := none,
    izw := true, rest := ⟨7, some ⟨⟨1, 1, fun _ _ => 1⟩, ⟨1, 1, fun _ _ => 1⟩, 8⟩⟩ }

/-- a bright last pixel is found before the object at row 2 and column 1; stamps have side 2 -/
def exLocalPipe (v : ℚ) : Pipe ℚ Nat ℚ Nat Unit Nat Nat :=
  { exPipe exSettings none with
    env := { (exPipe exSettings none).env with
      obs := fun _ => [[exBig v], [exBig v]]
      metacal := fun _ _ s => (.ok [("noshear", [[exBig v], [exBig v]])], s + 1) }
    meds := ⟨"sigma_size", 5, 4, 2, 2, 2, 2⟩
    sep := fun im => .ok (if 50 < im.detim.px 7 7 then [(⟨7, 7, 0, 1, 0, 1, 1, 1, 2, 2⟩, 2), (⟨1, 2, 0, 1, 0, 1, 1, 1, 2, 2⟩, 1)]
      else [(⟨1, 2, 0, 1, 0, 1, 1, 1, 2, 2⟩, 1)],
      ⟨8, 8, fun r c => if r = 7 ∧ c = 7 then (if 50 < im.detim.px 7 7 then 2 else 0) else 1⟩)
    obslist := fun _ cut _ _ rest => match cut "image" with
      | .ok (.real im) => .ok [{ exObs with image := im, rest := rest }]
      | .ok _ => .error .valueError
      | .error e => .error e }

/-- the images of the two runs -/
def exBigs (v : ℚ) : JMb ℚ Nat := [[exBig v], [exBig v]]

theorem exBig_agree : SameInStamp 2 1 2 (exBig 0) (exBig 100) := by
  refine ⟨rfl, ⟨rfl, rfl, ?_⟩, ⟨rfl, rfl, fun _ _ _ _ => rfl⟩, .some ⟨rfl, rfl, fun _ _ _ _ => rfl⟩, .none⟩
  intro r c _ h
  have : ¬ (r = 7 ∧ c = 7) := by
    unfold InStamp at h
    omega
  simp only [exBig, if_neg this]

/-- the entries of a catalogue -/
def exCat (r : Except PyErr (List (CatEntry ℚ) × List (JMb ℚ Nat))) : Option (List (CatEntry ℚ)) :=
  match r with
  | .ok (cat, _) => some cat
  | .error _ => none

/-- an object is first in the one run and second in the other -/
theorem exSameObject (cat cat' : List (CatEntry ℚ)) (stamps stamps' : List (JMb ℚ Nat))
    (h : doDetect (exLocalPipe 0) (exBigs 0) [0, 1] = .ok (cat, stamps))
    (h' : doDetect (exLocalPipe 100) (exBigs 100) [0, 1] = .ok (cat', stamps')) :
    SameObject (exLocalPipe 0) (exLocalPipe 100) (exBigs 0) (exBigs 100) [0, 1] [0, 1] cat cat' 0 1 := by
  have e : exCat (doDetect (exLocalPipe 0) (exBigs 0) [0, 1]) = some [(1, 2, 2)] := by decide +kernel
  have e' : exCat (doDetect (exLocalPipe 100) (exBigs 100) [0, 1]) = some [(7, 7, 2), (1, 2, 2)] := by decide +kernel
  rw [h] at e
  rw [h'] at e'
  simp only [exCat, Option.some.injEq] at e e'
  subst e e'
  obtain ⟨objs, seg, f1, -⟩ := doDetect_found _ _ _ _ _ h
  obtain ⟨objs', seg', f1', -⟩ := doDetect_found _ _ _ _ _ h'
  have g : ∀ v, found (exLocalPipe v) (exBigs v) [0, 1] =
      (Detect.setDetim (exLocalPipe v).env.np 1 [exBig v, exBig v]).bind (exLocalPipe v).sep := fun v => rfl
  have k : (match found (exLocalPipe 0) (exBigs 0) [0, 1] with
      | .ok (o, s) => (o.map (·.2), s.nr, s.nc)
      | .error _ => ([], 0, 0)) = ([1], 8, 8) := by decide +kernel
  have k' : (match found (exLocalPipe 100) (exBigs 100) [0, 1] with
      | .ok (o, s) => (o.map (·.2), s.nr, s.nc)
      | .error _ => ([], 0, 0)) = ([2, 1], 8, 8) := by decide +kernel
  rw [f1] at k
  rw [f1'] at k'
  simp only [Prod.mk.injEq] at k k'
  have sg : ∀ v o s, found (exLocalPipe v) (exBigs v) [0, 1] = .ok (o, s) → ∀ r c, ¬ (r = 7 ∧ c = 7) → s.px r c = 1 := by
    intro v o s hf r c hn
    rw [g v] at hf
    cases hd : Detect.setDetim (exLocalPipe v).env.np 1 [exBig v, exBig v] with
    | error e => rw [hd] at hf; cases hf
    | ok im =>
      rw [hd] at hf
      simp only [Except.bind, exLocalPipe, Except.ok.injEq, Prod.mk.injEq] at hf
      rw [← hf.2]
      simp only [if_neg hn]
  obtain ⟨k1, k2, k3⟩ := k
  obtain ⟨k1', k2', k3'⟩ := k'
  have n1 : objs.length = 1 := by simpa using congrArg List.length k1
  have n2 : objs'.length = 2 := by simpa using congrArg List.length k1'
  obtain ⟨d, rfl⟩ := List.length_eq_one_iff.1 n1
  obtain ⟨d0, d', rfl⟩ := List.length_eq_two.1 n2
  simp only [List.map_cons, List.map_nil, List.cons.injEq, and_true] at k1 k1'
  refine ⟨[d], [d0, d'], seg, seg', d, d', (1, 2, 2), 2, 1, f1, f1', rfl, rfl, rfl, rfl, by rw [k1, k1'.2], ?_, ?_,
    ⟨by rw [k2, k2'], by rw [k3, k3'], ?_⟩, .cons (.cons exBig_agree .nil) (.cons (.cons exBig_agree .nil) .nil)⟩
  · simp only [PixelOf, exLocalPipe, exPipe, id]; norm_num
  · simp only [PixelOf, exLocalPipe, exPipe, id]; norm_num
  · intro r c _ hin
    have : ¬ (r = 7 ∧ c = 7) := by
      simp only [InStamp] at hin
      omega
    rw [sg 0 _ _ f1 r c this, sg 100 _ _ f1' r c this]

theorem exLocal_uniform (v : ℚ) (i : Nat) : Uniform ((exLocalPipe v).env.obs i) := by
  refine ⟨8, 8, by decide, by decide, ?_⟩
  intro ol hol
  have hol : ol ∈ [[exBig v], [exBig v]] := hol
  refine ⟨exBig v, by simpa using hol, rfl, rfl, ⟨⟨rfl, rfl⟩, ?_, ?_, ?_, ?_⟩, rfl, rfl⟩
  · intro n h; simp [exBig] at h
  · intro b h; simp only [exBig, Option.some.injEq] at h; subst h; exact ⟨rfl, rfl⟩
  · intro b h; simp only [exBig, Option.some.injEq] at h; subst h; exact ⟨rfl, rfl⟩
  · intro n h; simp [exBig] at h

theorem exLocal_metacal (v : ℚ) : Driver.MetacalOk (exLocalPipe v).env := by
  intro i p s m h
  simp only [exLocalPipe, Except.ok.injEq] at h
  subst h
  simp [PyDict.Ok, PyDict.keys]

theorem exLocal_fit (v : ℚ) : FitOk (exLocalPipe v).env := by
  intro i s p h
  simp only [exLocalPipe, exPipe, Except.ok.injEq] at h
  subst h
  intro ol _ o _
  exact ⟨_, rfl, rfl, .inl rfl⟩

/-- the rows of the object in both runs have the same columns of the moments fitter -/
example : ∃ r r', doMetadetect (drv (exLocalPipe 0) id) 0 = .ok (some r) ∧
    doMetadetect (drv (exLocalPipe 100) id) 3 = .ok (some r') ∧
    ∃ T T' : String → Option (Table ℚ (Cols ℚ)),
      SameColumns (exLocalPipe 0) ⟨.mom "wmom" 1 none, 1, 0, true, true, false⟩ (T "noshear") (T' "noshear") 0 1 := by
  have e1 : exRows (doMetadetect (drv (exLocalPipe 0) id) 0) "noshear" =
      some (some [(1, ["wmom_T", "shear_bands", "am_T"])]) := by decide +kernel
  have e2 : exRows (doMetadetect (drv (exLocalPipe 100) id) 3) "noshear" =
      some (some [(7, ["wmom_T", "shear_bands", "am_T"]), (1, ["wmom_T", "shear_bands", "am_T"])]) := by decide +kernel
  obtain ⟨r, hr⟩ := exRows_some e1
  obtain ⟨r', hr'⟩ := exRows_some e2
  obtain ⟨sub, sub', m, m', tables, tables', a1, a2, b1, b2, -, -, l1, l2, key⟩ := C121_run (exLocalPipe 0) (exLocalPipe 100)
    ⟨_, rfl⟩ id (exLocal_uniform 0) (exLocal_fit 0) (exNoAlias exSettings none true) (exLocal_metacal 0)
    (exLocal_uniform 100) (exLocal_fit 100) (exNoAlias exSettings none true) (exLocal_metacal 100)
    exSettings (exAligned exSettings none true) 0 3 (.inl rfl) (.inl rfl) r r' hr hr'
  have hm : ∀ v s (sub : Sub ℚ (Rest ℚ Nat)) m, freshAnswer (exLocalPipe v).env s none [0, 1] = .ok sub → sub.mcal = some (some m) →
      m.get? "noshear" = some (exBigs v) := by
    intro v s sub m h1 h2
    obtain ⟨m0, k1, -, k2⟩ := Driver.first_mcal _ s [0, 1] sub h1
    rw [h2] at k1
    cases k1
    obtain ⟨_, _, k3⟩ := k2 m rfl
    simp only [exLocalPipe, Except.ok.injEq] at k3
    rw [← k3]
    rfl
  match tables, tables', l1, l2 with
  | [T], [T'], _, _ =>
  obtain ⟨cat, cat', stamps, stamps', d1, d2, d3⟩ := key 0 ([0], [0, 1]) T T' rfl rfl rfl "noshear" _ _
    (hm 0 0 sub m a1 a2) (hm 100 3 sub' m' b1 b2)
  exact ⟨r, r', hr, hr', T, T', d3 0 1 (exSameObject cat cat' stamps stamps' d1 d2) _ (by simp [exSettings]) rfl⟩

end Examples

end MD.Pipeline
