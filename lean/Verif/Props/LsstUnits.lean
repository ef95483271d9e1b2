import Verif.Model.LsstRun
import Verif.Props.UnitsJoint
import Verif.Props.LsstLocal
import Mathlib.Tactic.FieldSimp
import Mathlib.Tactic.Ring

/-! C126: changing the flux units of all exposures of an LSST run changes the fluxes by that factor and nothing
else. -/

set_option linter.unusedSectionVars false

namespace MD.LsstUnits

open LsstExp LsstGeom LsstMetacal LsstMeasure LsstRun Wavg Joint

variable {B K P W F E M : Type _} [Field K] [LinearOrder K] [IsStrictOrderedRing K] [DecidableEq B]

/-! ## Specification -/

/-- SPEC: a variance in other flux units -/
def varU (c : K) : Var K → Var K
  | .fin v => .fin (c ^ 2 * v)
  | .inf => .inf
  | .nan => .nan

/-- SPEC: the same exposure in other flux units: every pixel is `c` times larger and every variance `c ^ 2` times; mask,
PSF, WCS and place are the same -/
def expU (c : K) (e : Exp K P W) : Exp K P W := { e with image := e.image.map (c * ·), var := e.var.map (varU c) }

/-- SPEC: all exposures of a multi-band exposure in other flux units -/
def mbexpU (c : K) (mb : MbExp B K P W) : MbExp B K P W := mb.map fun p => (p.1, expU c p.2)

/-- SPEC: a coadd in other flux units -/
def coaddU (c : K) (d : Coadd K W) : Coadd K W :=
  { d with image := d.image.map (Option.map (c * ·)), var := d.var.map (varU c) }

/-- SPEC: the row of a band in the table of PSF fits: the weight is an inverse variance -/
def perBandU (c : K) (p : LsstPsf.PerBand K) : LsstPsf.PerBand K := { p with wgt := p.wgt / c ^ 2 }

/-- SPEC: the PSF statistics in other flux units: only the recorded weights of the bands differ -/
def statsU (c : K) (s : LsstPsf.PsfStats K) : LsstPsf.PsfStats K := { s with perband := s.perband.map (·.map (perBandU c)) }

/-- SPEC: the columns that hold fluxes -/
def fluxCols : List String := ["gauss_band_flux", "gauss_band_flux_err", "pgauss_band_flux", "pgauss_band_flux_err"]

/-- SPEC: the value of a column in other flux units -/
def valU (scale : Int → F → F) (name : String) (v : Val K F) : Val K F :=
  if name ∈ fluxCols then
    match v with
    | .flts l => .flts (l.map (scale 1))
    | v => v
  else v

/-- SPEC: a row of the table in other flux units: the values of the flux columns differ, nothing else -/
def colsU (scale : Int → F → F) (row : Cols K F) : Cols K F := row.map fun p => (p.1, valU scale p.1 p.2)

/-- SPEC: an entry of the result in other flux units -/
def entryU (c : K) (scale : Int → F → F) : Entry K F → Entry K F
  | .table rows => .table (rows.map (·.map (colsU scale)))
  | .psf s => .psf (statsU c s)

/-- SPEC: the outcome of a run in other flux units -/
def outU (c : K) (scale : Int → F → F) (o : Out B K P W F E) : Out B K P W F E :=
  { res := o.res.map fun d => d.map fun p => (p.1, entryU c scale p.2), rng := o.rng, mbexp := mbexpU c o.mbexp }

/-- SPEC: what is expected of the code that makes stamps and fits them: stamps of exposures in other units are stamps in
other units, and fits of those differ in the fluxes only (C119 for the fits of this library) -/
structure CallsU (c : K) (scale : Int → F → F) (a b : Calls K P W F E) : Prop where
  meas : ∀ s, b.meas s = a.meas s
  stamp : ∀ s st, b.stamp s st = ((a.stamp s st).1.map (mbInUnits c), (a.stamp s st).2)
  gauss : ∀ mb sb st, b.gauss (mbInUnits c mb) sb st = ((a.gauss mb sb st).1.map (rowInUnits scale), (a.gauss mb sb st).2)
  pgauss : ∀ mb st, b.pgauss (mbInUnits c mb) st = ((a.pgauss mb st).1.map (rowInUnits scale), (a.pgauss mb st).2)

/-- SPEC: medians and the check of the weights in other flux units -/
structure ExtU (c : K) (ext : Ext K P W) : Prop where
  median : ∀ l, ext.median (l.map (varU c)) = varU c (ext.median l)
  obsCheck : ∀ w, ext.obsCheck (w.map (· / c ^ 2)) = ext.obsCheck w

/-- SPEC: drawing is linear in the image, and the target PSF does not depend on the flux units -/
structure GalU (c : K) (gal : Gal K (LsstPsf.PerBand K)) : Prop where
  px : ∀ j p s sh im r k, gal.px ⟨j, p, s.map (perBandU c)⟩ sh (im.map (c * ·)) r k = c * gal.px ⟨j, p, s⟩ sh im r k
  dilated : ∀ j p s, gal.dilated ⟨j, p, s.map (perBandU c)⟩ = gal.dilated ⟨j, p, s⟩

/-- SPEC: detection and deblending find the same sources and masks, with a threshold in units of the noise; `u` is a
deblender's model in other flux units -/
structure FinderU (c : K) (u : M → M) (f : Finder K P W E M) : Prop where
  detect : ∀ e st, f.detect (expU c e) st = f.detect e st
  deblend : ∀ objs d s st, f.deblend (fun i => expU c (objs i)) d s st =
    (((f.deblend objs d s st).1.1.map fun r => (r.1, r.2.map u), (f.deblend objs d s st).1.2), (f.deblend objs d s st).2)

/-- SPEC: what is expected of the external code of a run -/
structure TaskU (c : K) (scale : Int → F → F) (u : M → M) (t : Task B K P W F E M) : Prop where
  ext : ExtU c t.ext
  gal : GalU c t.gal
  median : ∀ l, t.median (l.map (c ^ 2 * ·)) = c ^ 2 * t.median l
  sky : ∀ mb, t.sky (mbexpU c mb) = ((t.sky mb).1, mbexpU c (t.sky mb).2)
  toExp : ∀ d, t.toExp (coaddU c d) = expU c (t.toExp d)
  finder : FinderU c u t.finder
  zero : scale 1 t.fl.zero = t.fl.zero
  nan : scale 1 t.fl.nan = t.fl.nan
  calls : ∀ mb m, CallsU c scale (t.calls mb m) (t.calls (mbexpU c mb) (m.map u))
  ids : ∀ s m, t.ids s (m.map u) = t.ids s m

/-! ## Lemmas: dictionaries -/

/-- a dictionary with other values -/
def mapV {ν ν' : Type _} (f : String → ν → ν') (d : PyDict String ν) : PyDict String ν' := d.map fun p => (p.1, f p.1 p.2)

theorem get?_mapV {ν ν' : Type _} (f : String → ν → ν') (d : PyDict String ν) (k : String) :
    PyDict.get? (mapV f d) k = (PyDict.get? d k).map (f k) := by
  induction d with
  | nil => rfl
  | cons p t ih =>
    obtain ⟨k', v⟩ := p
    simp only [mapV, List.map_cons, PyDict.get?] at ih ⊢
    by_cases h : k' = k
    · subst h; simp
    · simp only [if_neg h]; exact ih

theorem set_mapV {ν ν' : Type _} (f : String → ν → ν') (d : PyDict String ν) (k : String) (v : ν) :
    PyDict.set (mapV f d) k (f k v) = mapV f (PyDict.set d k v) := by
  induction d with
  | nil => rfl
  | cons p t ih =>
    obtain ⟨k', v'⟩ := p
    simp only [mapV, List.map_cons, PyDict.set] at ih ⊢
    by_cases h : k' = k
    · subst h; simp
    · simp only [if_neg h, List.map_cons, ih]

theorem has_mapV {ν ν' : Type _} (f : String → ν → ν') (d : PyDict String ν) (k : String) :
    PyDict.has (mapV f d) k = PyDict.has d k := by
  unfold PyDict.has
  rw [get?_mapV, Option.isSome_map]

/-! ## Lemmas: rows -/

section rows
variable {scale : Int → F → F}

theorem colsU_eq (row : Cols K F) : colsU scale row = mapV (valU scale) row := rfl

/-- a column without fluxes -/
theorem valU_other {name : String} (h : name ∉ fluxCols) (v : Val K F) : valU scale name v = v := by
  unfold valU
  rw [if_neg h]

theorem set_colsU (row : Cols K F) {name : String} (h : name ∉ fluxCols) (v : Val K F) :
    PyDict.set (colsU scale row) name v = colsU scale (PyDict.set row name v) := by
  rw [colsU_eq, colsU_eq, ← set_mapV, valU_other h]

theorem get_colsU (row : Cols K F) {name : String} (h : name ∉ fluxCols) :
    PyDict.get? (colsU scale row) name = PyDict.get? row name := by
  rw [colsU_eq, get?_mapV]
  cases PyDict.get? row name with
  | none => rfl
  | some v => simp [valU_other h]

theorem rowCols_gauss (r : Row F) : rowCols (K := K) "gauss" (rowInUnits scale r) = colsU scale (rowCols "gauss" r) := by
  rfl

theorem rowCols_pgauss (r : Row F) : rowCols (K := K) "pgauss" (rowInUnits scale r) = colsU scale (rowCols "pgauss" r) := by
  rfl

theorem addFields_colsU (row new : Cols K F) :
    addFields (colsU scale row) (colsU scale new) = (addFields row new).map (colsU scale) := by
  unfold addFields
  have h : (colsU scale new).any (fun c => PyDict.has (colsU scale row) c.1) = new.any fun c => PyDict.has row c.1 := by
    simp only [colsU, List.any_map]
    congr 1
    funext c
    exact has_mapV _ row c.1
  rw [h]
  split
  · rfl
  · simp [colsU, Except.map]

theorem zeroVal_U (fl : Flt F) (hz : scale 1 fl.zero = fl.zero) (name : String) (v : Val K F) :
    zeroVal fl (valU scale name v) = valU scale name (zeroVal fl v) := by
  unfold valU
  split
  · cases v with
    | flts l => simp [zeroVal, hz, Function.comp_def]
    | _ => rfl
  · rfl

theorem combined_U (fl : Flt F) (hz : scale 1 fl.zero = fl.zero) (g p : Cols K F) :
    combinedStruct fl (colsU scale g) (colsU scale p) = (combinedStruct fl g p).map (colsU scale) := by
  unfold combinedStruct
  have h1 : (("stamp_flags", (Val.nat 0 : Val K F)) ::
      ((colsU scale p).filter fun c => !(Columns.hasSub c.1 "psf" || decide (c.1 ∈ skip))).map
        fun c => (c.1, zeroVal fl c.2)) =
      colsU scale (("stamp_flags", (Val.nat 0 : Val K F)) ::
        (p.filter fun c => !(Columns.hasSub c.1 "psf" || decide (c.1 ∈ skip))).map fun c => (c.1, zeroVal fl c.2)) := by
    unfold colsU
    have h0 : valU scale "stamp_flags" (Val.nat 0 : Val K F) = Val.nat 0 := valU_other (by decide) _
    rw [List.map_cons, List.filter_map, List.map_map, List.map_map]
    simp only [h0]
    congr 1
    refine List.map_congr_left fun c _ => ?_
    simp only [Function.comp, zeroVal_U fl hz]
  simp only [h1, addFields_colsU]
  cases addFields g _ with
  | error e => rfl
  | ok out =>
    simp only [Except.map]
    refine congrArg Except.ok ?_
    clear h1
    induction p generalizing out with
    | nil => rfl
    | cons c p ih =>
      have e : colsU scale (c :: p) = (c.1, valU scale c.1 c.2) :: colsU scale p := rfl
      rw [e, List.foldl_cons, List.foldl_cons]
      simp only
      have hh : PyDict.has (colsU scale out) c.1 = PyDict.has out c.1 := has_mapV _ out c.1
      have hs : PyDict.set (colsU scale out) c.1 (valU scale c.1 c.2) = colsU scale (PyDict.set out c.1 c.2) :=
        set_mapV _ out c.1 c.2
      rw [hh, hs]
      by_cases hc : (PyDict.has out c.1 && decide (c.1 ≠ "shear_bands")) = true
      · rw [if_pos hc, if_pos hc]
        exact ih _
      · rw [if_neg hc, if_neg hc]
        exact ih _

theorem outputStruct_U (fl : Flt F) (n : Nat) (res : Cols K F) :
    outputStruct fl n (colsU scale res) = (outputStruct fl n res).map (colsU scale) := by
  unfold outputStruct
  rw [← addFields_colsU]
  rfl

theorem output_U (fl : Flt F) (n : Nat) (pe : PosExt K) (s : Source K) (res : Cols K F) (bm : Nat) (sz : Int) (box : Box) :
    output fl n pe s (colsU scale res) bm sz box = (output fl n pe s res bm sz box).map (colsU scale) := by
  unfold output
  rw [outputStruct_U]
  cases outputStruct fl n res with
  | error e => rfl
  | ok out =>
    simp only [Except.map]
    cases s.peaks with
    | nil => rfl
    | cons p ps =>
      simp only
      rw [set_colsU _ (by decide), set_colsU _ (by decide), set_colsU _ (by decide), set_colsU _ (by decide),
        set_colsU _ (by decide), set_colsU _ (by decide), set_colsU _ (by decide), set_colsU _ (by decide),
        set_colsU _ (by decide), set_colsU _ (by decide)]

/-- the rows of both fits of a source -/
def fitsU (scale : Int → F → F) (f : Nat × Row F × Row F) : Nat × Row F × Row F :=
  (f.1, rowInUnits scale f.2.1, rowInUnits scale f.2.2)

theorem sourceRow_U (c : K) (a : Args K P W F) (hz : scale 1 a.fl.zero = a.fl.zero) (s : Source K) (bm : Nat)
    (f : Nat × Row F × Row F) :
    sourceRow { a with detexp := expU c a.detexp } s bm (fitsU scale f) = (sourceRow a s bm f).map (colsU scale) := by
  unfold sourceRow fitsU
  simp only [rowCols_gauss (K := K) (scale := scale), rowCols_pgauss (K := K) (scale := scale), combined_U (K := K) a.fl hz]
  cases combinedStruct (K := K) a.fl (rowCols "gauss" f.2.1) (rowCols "pgauss" f.2.2) with
  | error e => rfl
  | ok res =>
    simp only [Except.map]
    rw [set_colsU _ (by decide), output_U]
    rfl

theorem freshRow_U (fl : Flt F) (hn : scale 1 fl.nan = fl.nan) (n tot : Nat) (sb : Option (List Nat)) :
    (freshRow fl n tot sb).map (rowInUnits scale) = freshRow fl n tot sb := by
  unfold freshRow
  cases sb with
  | none => simp [Except.map, rowInUnits, hn]
  | some l =>
    simp only
    split
    · simp [Except.map, rowInUnits, hn]
    · rfl

theorem failedFits_U (c : K) (a : Args K P W F) (hn : scale 1 a.fl.nan = a.fl.nan) (sb : List Nat) (f : Nat) :
    failedFits { a with detexp := expU c a.detexp } sb f = (failedFits a sb f).map (fitsU scale) := by
  unfold failedFits
  simp only
  have h1 := freshRow_U (scale := scale) a.fl hn a.noAttempt a.nband (some sb)
  have h2 := freshRow_U (scale := scale) a.fl hn a.noAttempt a.nband none
  cases hg : freshRow a.fl a.noAttempt a.nband (some sb) with
  | error e => rfl
  | ok g =>
    cases hp : freshRow a.fl a.noAttempt a.nband none with
    | error e => rfl
    | ok p =>
      rw [hg] at h1
      rw [hp] at h2
      simp only [Except.map, Except.ok.injEq] at h1 h2
      simp only [Except.map, fitsU, h1, h2]

theorem fitSource_U {c : K} (a : Args K P W F) (hn : scale 1 a.fl.nan = a.fl.nan) {x y : Calls K P W F E}
    (h : CallsU c scale x y) (sb : List Nat) (s : Source K) (st : E) :
    fitSource { a with detexp := expU c a.detexp } y sb s st =
      ((fitSource a x sb s st).1.map (fitsU scale), (fitSource a x sb s st).2) := by
  unfold fitSource
  rw [h.stamp]
  generalize x.stamp s st = r
  obtain ⟨r, st1⟩ := r
  cases r with
  | error e =>
    simp only [Except.map]
    cases e with
    | allZeroWeight => simp only [failedFits_U c a hn]; rfl
    | missingData => rfl
    | py e => cases e <;> first | rfl | (simp only [failedFits_U c a hn]; rfl)
  | ok mb =>
    simp only [Except.map]
    rw [h.gauss]
    generalize x.gauss mb sb st1 = r
    obtain ⟨r, st2⟩ := r
    cases r with
    | error e => rfl
    | ok g =>
      simp only [Except.map]
      rw [h.pgauss]
      generalize x.pgauss mb st2 = r
      obtain ⟨r, st3⟩ := r
      cases r <;> rfl

theorem getBmasks_U (c : K) (e : Exp K P W) (l : List (Source K)) : getBmasks (expU c e) l = getBmasks e l := by
  induction l with
  | nil => rfl
  | cons s t ih =>
    simp only [getBmasks, ih]
    rfl

theorem measureLoop_U {c : K} (a : Args K P W F) (hz : scale 1 a.fl.zero = a.fl.zero) (hn : scale 1 a.fl.nan = a.fl.nan)
    {x y : Calls K P W F E} (h : CallsU c scale x y) (sources : List (Source K)) (bms sb : List Nat) :
    ∀ (ids : List Nat) (i : Nat) (st : E), measureLoop { a with detexp := expU c a.detexp } y sources bms sb i ids st =
      ((measureLoop a x sources bms sb i ids st).1.map (List.map (colsU scale)),
        (measureLoop a x sources bms sb i ids st).2) := by
  intro ids
  induction ids with
  | nil => intro i st; rfl
  | cons sid t ih =>
    intro i st
    simp only [measureLoop, h.meas]
    cases find sources sid with
    | none => rfl
    | some s0 =>
      simp only
      cases bms[i]? with
      | none => rfl
      | some bm =>
        simp only
        rw [fitSource_U a hn h]
        generalize fitSource a x sb (x.meas s0) st = r
        obtain ⟨r, st1⟩ := r
        cases r with
        | error e => rfl
        | ok f =>
          simp only [Except.map]
          rw [sourceRow_U c a hz]
          cases sourceRow a (x.meas s0) bm f with
          | error e => rfl
          | ok row =>
            simp only [Except.map]
            rw [ih]
            generalize measureLoop a x sources bms sb (i + 1) t st1 = r
            obtain ⟨r, st2⟩ := r
            cases r <;> rfl

theorem measure_U {c : K} (a : Args K P W F) (hz : scale 1 a.fl.zero = a.fl.zero) (hn : scale 1 a.fl.nan = a.fl.nan)
    {x y : Calls K P W F E} (h : CallsU c scale x y) (sources : List (Source K)) (ids : List Nat) (st : E) :
    LsstMeasure.measure { a with detexp := expU c a.detexp } y sources ids st =
      ((LsstMeasure.measure a x sources ids st).1.map (Option.map (List.map (colsU scale))),
        (LsstMeasure.measure a x sources ids st).2) := by
  unfold LsstMeasure.measure
  have hl : ∀ bms sb, measureLoop { a with detexp := expU c a.detexp } y sources bms sb 0 ids st =
      ((measureLoop a x sources bms sb 0 ids st).1.map (List.map (colsU scale)),
        (measureLoop a x sources bms sb 0 ids st).2) := fun bms sb => measureLoop_U a hz hn h sources bms sb ids 0 st
  split
  · rfl
  · simp only [hl]
    cases a.shearBands with
    | error e => rfl
    | ok sb =>
      simp only [getBmasks_U]
      cases getBmasks a.detexp sources with
      | error e => rfl
      | ok bms =>
        simp only
        generalize measureLoop a x sources bms sb 0 ids st = r
        obtain ⟨r, st1⟩ := r
        cases r with
        | error e => rfl
        | ok rows => cases rows <;> rfl

end rows

/-! ## Lemmas: variances, weights and coadds -/

section coadd
variable {c : K} (hc : 0 < c)
include hc

theorem varU_pos (v : Var K) : (varU c v).pos = v.pos := by
  cases v with
  | fin v => simp [varU, Var.pos, hc]
  | inf => rfl
  | nan => rfl

theorem varU_inv (v : Var K) : (varU c v).inv = v.inv.map (· / c ^ 2) := by
  have := hc.ne'
  cases v with
  | fin v => simp only [varU, Var.inv, Option.map_some, Option.some.injEq]; rw [one_div, mul_inv, one_div, div_eq_mul_inv, mul_comm]
  | inf => simp [varU, Var.inv]
  | nan => rfl

theorem toList_map' {α β : Type _} (f : α → β) (im : Img α) : (im.map f).toList = im.toList.map f := by
  simp [Img.toList, Img.map, Img.coords]

theorem filter_pos (v : Img (Var K)) :
    (v.map (varU c)).toList.filter Var.pos = (v.toList.filter Var.pos).map (varU c) := by
  rw [toList_map' hc, List.filter_map]
  congr 2
  funext x
  exact varU_pos hc x

theorem expWeight_U {ext : Ext K P W} (hx : ExtU c ext) (e : Exp K P W) :
    expWeight ext (expU c e) = (expWeight ext e).map (· / c ^ 2) := by
  unfold expWeight expU
  simp only [filter_pos hc, hx.median, varU_inv hc]

/-- the accumulated coadd in other flux units -/
def accU (c : K) (a : Acc K) : Acc K :=
  { image := a.image.map (Option.map (· / c)), mask := a.mask, weight := a.weight.map (· / c ^ 2)
    psf := a.psf.map (Option.map (· / c ^ 2)), wsum := a.wsum.map (· / c ^ 2) }

theorem nanAdd_U (d : K) (a b : Option K) : nanAdd (a.map (· / d)) (b.map (· / d)) = (nanAdd a b).map (· / d) := by
  cases a <;> cases b <;> simp [nanAdd, add_div]

theorem coaddStep_U {ext : Ext K P W} (hx : ExtU c ext) (a : Acc K) (e : Exp K P W) (p : Img K) :
    coaddStep ext (accU c a) (expU c e) p = accU c (coaddStep ext a e p) := by
  have hne := hc.ne'
  unfold coaddStep
  simp only [expWeight_U hc hx]
  generalize expWeight ext e = tw
  have h1 : ∀ v : K, nanMul (some (c * v)) (tw.map (· / c ^ 2)) = (nanMul (some v) tw).map (· / c) := by
    intro v
    cases tw with
    | none => rfl
    | some w =>
      simp only [Option.map_some, nanMul, Option.some.injEq]
      field_simp
  have h2 : ∀ v : K, nanMul (some v) (tw.map (· / c ^ 2)) = (nanMul (some v) tw).map (· / c ^ 2) := by
    intro v
    cases tw with
    | none => rfl
    | some w =>
      simp only [Option.map_some, nanMul, Option.some.injEq]
      rw [mul_div_assoc]
  unfold accU expU
  simp only [Img.map, Acc.mk.injEq, Img.mk.injEq, true_and]
  refine ⟨?_, ?_, ?_, ?_⟩
  · funext r k
    simp only [varU_pos hc, h1, nanAdd_U hc]
    split <;> rfl
  · funext r k
    simp only [varU_pos hc, varU_inv hc]
    split
    · cases (e.var.px r k).inv with
      | none => simp
      | some v => simp [add_div]
    · rfl
  · funext r k
    simp only [h2, nanAdd_U hc]
  · exact nanAdd_U hc _ _ _

theorem expPsf_U (ext : Ext K P W) (e : Exp K P W) : expPsf ext (expU c e) = expPsf ext e := rfl

theorem coaddLoop_U {ext : Ext K P W} (hx : ExtU c ext) (l : List (Exp K P W)) : ∀ a : Acc K,
    coaddLoop ext (accU c a) (l.map (expU c)) = (coaddLoop ext a l).map (accU c) := by
  induction l with
  | nil => intro a; rfl
  | cons e t ih =>
    intro a
    simp only [List.map_cons, coaddLoop, expPsf_U hc]
    cases expPsf ext e with
    | error er => rfl
    | ok pim =>
      simp only
      have hs : (sameShape (accU c a).image (expU c e).image && sameShape (accU c a).psf pim) =
          (sameShape a.image e.image && sameShape a.psf pim) := rfl
      rw [hs]
      by_cases h : (!(sameShape a.image e.image && sameShape a.psf pim)) = true
      · rw [if_pos h, if_pos h]; rfl
      · rw [if_neg h, if_neg h, coaddStep_U hc hx, ih]

theorem nanInv_U (x : Option K) : nanInv (x.map (· / c ^ 2)) = (nanInv x).map (c ^ 2 * ·) := by
  have hne := hc.ne'
  cases x with
  | none => rfl
  | some v =>
    have : v / c ^ 2 = 0 ↔ v = 0 := by simp [hne]
    simp only [Option.map_some, nanInv, this]
    split
    · rfl
    · simp only [Option.map_some, Option.some.injEq]
      field_simp

theorem sumOpt_U (l : List (Option K)) : sumOpt (l.map (Option.map (· / c ^ 2))) = (sumOpt l).map (· / c ^ 2) := by
  unfold sumOpt
  have : ∀ a : Option K, (l.map (Option.map (· / c ^ 2))).foldl nanAdd (a.map (· / c ^ 2)) =
      (l.foldl nanAdd a).map (· / c ^ 2) := by
    induction l with
    | nil => intro a; rfl
    | cons x t ih =>
      intro a
      rw [List.map_cons, List.foldl_cons, List.foldl_cons, nanAdd_U hc, ih]
  have h0 : (some 0 : Option K) = (some 0 : Option K).map (· / c ^ 2) := by simp
  conv_lhs => rw [h0]
  exact this _

/-- the coadd when the weights allow one -/
def coaddGood (w : Option W) (x0 y0 : Int) (a : Acc K) : Coadd K W :=
  { image := a.image.map fun v => nanMul v (nanInv a.wsum), mask := a.mask
    var := a.weight.map fun w => if 0 < w then .fin (1 / w) else .inf
    psf := a.psf.map fun v => nanMul v (nanInv (sumOpt a.psf.toList)), wcs := w, x0 := x0, y0 := y0 }

omit hc in
theorem coaddFinish_eq (w : Option W) (x0 y0 : Int) (a : Acc K) : coaddFinish w x0 y0 a =
    match a.wsum with
    | some s => if s ≤ 0 then none else some (coaddGood w x0 y0 a)
    | none => some (coaddGood w x0 y0 a) := by
  unfold coaddFinish coaddGood
  cases a.wsum with
  | none => rfl
  | some s => simp only [decide_eq_true_eq]

theorem coaddFinish_U (w : Option W) (x0 y0 : Int) (a : Acc K) :
    coaddFinish w x0 y0 (accU c a) = (coaddFinish w x0 y0 a).map (coaddU c) := by
  have hne := hc.ne'
  have h2 : (0 : K) < c ^ 2 := pow_pos hc 2
  have hw : (accU c a).wsum = a.wsum.map (· / c ^ 2) := rfl
  have hb : ∀ s : K, s / c ^ 2 ≤ 0 ↔ s ≤ 0 := fun s => by rw [div_le_iff₀ h2, zero_mul]
  have hmain : coaddGood (W := W) w x0 y0 (accU c a) = coaddU c (coaddGood w x0 y0 a) := by
    unfold coaddGood
    have hf : nanInv (accU c a).wsum = (nanInv a.wsum).map (c ^ 2 * ·) := nanInv_U hc _
    have hp : nanInv (sumOpt (accU c a).psf.toList) = (nanInv (sumOpt a.psf.toList)).map (c ^ 2 * ·) := by
      have : (accU c a).psf.toList = a.psf.toList.map (Option.map (· / c ^ 2)) := toList_map' hc _ _
      rw [this, sumOpt_U hc, nanInv_U hc]
    rw [hf, hp]
    generalize nanInv a.wsum = fac
    generalize nanInv (sumOpt a.psf.toList) = pfac
    simp only [coaddU, accU, Img.map, Coadd.mk.injEq, Img.mk.injEq, true_and, and_true]
    refine ⟨?_, ?_, ?_⟩
    · funext r k
      cases a.image.px r k with
      | none => cases fac <;> rfl
      | some v =>
        cases fac with
        | none => rfl
        | some f =>
          simp only [Option.map_some, nanMul, Option.some.injEq]
          field_simp
    · funext r k
      have : (0 < a.weight.px r k / c ^ 2) ↔ 0 < a.weight.px r k := by rw [lt_div_iff₀ h2, zero_mul]
      simp only [this]
      split
      · simp only [varU, Var.fin.injEq]
        field_simp
      · rfl
    · funext r k
      cases a.psf.px r k with
      | none => cases pfac <;> rfl
      | some v =>
        cases pfac with
        | none => rfl
        | some f =>
          simp only [Option.map_some, nanMul, Option.some.injEq]
          field_simp
  rw [coaddFinish_eq, coaddFinish_eq, hmain, hw]
  cases a.wsum with
  | none => rfl
  | some s =>
    simp only [Option.map_some, hb]
    split <;> rfl

theorem coaddExposures_U {ext : Ext K P W} (hx : ExtU c ext) (es : List (Exp K P W)) :
    coaddExposures ext (es.map (expU c)) = (coaddExposures ext es).map (Option.map (coaddU c)) := by
  cases es with
  | nil => rfl
  | cons e t =>
    simp only [List.map_cons, coaddExposures, expPsf_U hc]
    cases expPsf ext e with
    | error er => rfl
    | ok pim =>
      simp only
      have hi : coaddInit (expU c e) pim = accU c (coaddInit e pim) := by
        simp [coaddInit, accU, expU, Img.map, Img.const]
      have := coaddLoop_U hc hx (e :: t) (coaddInit e pim)
      rw [List.map_cons] at this
      rw [hi, this]
      cases coaddLoop ext (coaddInit e pim) (e :: t) with
      | error er => rfl
      | ok a =>
        simp only [Except.map]
        rw [coaddFinish_U hc]
        rfl

/-! ## Lemmas: stamps -/

theorem extractWeight_U {ext : Ext K P W} (hx : ExtU c ext) (e : Exp K P W) :
    extractWeight ext (expU c e) = (extractWeight ext e).map (Option.map (· / c ^ 2)) := by
  unfold extractWeight expU
  simp only [filter_pos hc, hx.median, varU_inv hc, List.isEmpty_map]
  split
  · simp [Img.const, Img.map]
  · rfl

theorem allPx_map {α β : Type _} (f : α → β) (q : β → Bool) (im : Img α) : (im.map f).allPx q = im.allPx (q ∘ f) := by
  unfold Img.allPx
  first | rfl | (rw [toList_map' hc, List.all_map])

theorem extractObs_U {ext : Ext K P W} (hx : ExtU c ext) (e : Exp K P W) (s : Source K) :
    extractObs ext (expU c e) s = (extractObs ext e s).map (inUnits c) := by
  have h2 : (0 : K) < c ^ 2 := pow_pos hc 2
  unfold extractObs
  rw [extractWeight_U hc hx]
  simp only [allPx_map hc]
  have h1 : (nonPos ∘ Option.map (· / c ^ 2) : Option K → Bool) = nonPos := by
    funext v
    cases v with
    | none => rfl
    | some x =>
      simp only [Function.comp, Option.map_some, nonPos]
      congr 1
      simp only [eq_iff_iff]
      rw [div_le_iff₀ h2, zero_mul]
  have h3 : (Option.isSome ∘ Option.map (· / c ^ 2) : Option K → Bool) = Option.isSome := by
    funext v
    cases v <;> rfl
  rw [h1, h3]
  split
  · rfl
  · have hj : jacobianAtSource ext (expU c e) s = jacobianAtSource ext e s := rfl
    have hp : extractPsfImage ext (expU c e) s.orig = extractPsfImage ext e s.orig := rfl
    rw [hj, hp]
    cases jacobianAtSource ext e s with
    | error er => rfl
    | ok jac =>
      simp only
      cases extractPsfImage ext e s.orig with
      | error er => rfl
      | ok pim =>
        simp only
        split
        · have hw : ((extractWeight ext e).map (Option.map (· / c ^ 2))).map (·.getD 0) =
              ((extractWeight ext e).map (·.getD 0)).map (· / c ^ 2) := by
            simp only [Img.map, Img.mk.injEq, true_and]
            funext r k
            cases (extractWeight ext e).px r k <;> simp
          rw [hw, hx.obsCheck]
          cases ext.obsCheck ((extractWeight ext e).map (·.getD 0)) <;> rfl
        · rfl

theorem stampBands_U {ext : Ext K P W} (hx : ExtU c ext) (s : Source K) (b : Box) (l : List (Exp K P W)) :
    stampBands ext s b (l.map (expU c)) = (stampBands ext s b l).map (mbInUnits c) := by
  induction l with
  | nil => rfl
  | cons e t ih =>
    simp only [List.map_cons, stampBands]
    have hs : (expU c e).sub b = (e.sub b).map (expU c) := by
      unfold Exp.sub
      have : (expU c e).box = e.box := rfl
      rw [this]
      split <;> rfl
    rw [hs]
    cases e.sub b with
    | error er => rfl
    | ok sub =>
      simp only [Except.map]
      rw [extractObs_U hc hx]
      cases extractObs ext sub s with
      | error er => rfl
      | ok o =>
        simp only [Except.map]
        rw [ih]
        cases stampBands ext s b t <;> rfl

/-! ## Lemmas: detection and measurement -/

variable {scale : Int → F → F} {u : M → M}

theorem findSources_U {f : Finder K P W E M} (hf : FinderU c u f) (objs : Nat → Exp K P W) (d : Nat) (st : E) :
    findSources f (fun i => expU c (objs i)) d st =
      (((findSources f objs d st).1.1.map fun r => (r.1, r.2.map u), fun i => expU c ((findSources f objs d st).1.2 i)),
        (findSources f objs d st).2) := by
  unfold findSources
  rw [hf.detect]
  generalize f.detect (objs d) st = r
  obtain ⟨⟨r, m⟩, st1⟩ := r
  simp only
  cases r with
  | error e => rfl
  | ok r =>
    cases r with
    | none => rfl
    | some sources =>
      change (((f.deblend (fun i => expU c (setMasks objs (fun i => if i = d then m else (objs i).mask) i)) d sources
            st1).1.1,
          setMasks (fun i => expU c (setMasks objs (fun i => if i = d then m else (objs i).mask) i))
            (f.deblend (fun i => expU c (setMasks objs (fun i => if i = d then m else (objs i).mask) i)) d sources
              st1).1.2),
          (f.deblend (fun i => expU c (setMasks objs (fun i => if i = d then m else (objs i).mask) i)) d sources st1).2) = _
      rw [hf.deblend]
      rfl

/-- the result of detection in other flux units -/
def detU (c : K) (u : M → M) : DetRes K P W M → DetRes K P W M
  | .two => .two
  | .three s e m => .three s (expU c e) (m.map u)

theorem detectRun_U {ext : Ext K P W} (hx : ExtU c ext) {toExp : Coadd K W → Exp K P W}
    (ht : ∀ d, toExp (coaddU c d) = expU c (toExp d)) (isF : Bool) {f : Finder K P W E M} (hf : FinderU c u f)
    (l : List (Exp K P W)) (st : E) :
    detectRun ext toExp isF f (l.map (expU c)) st =
      (((detectRun ext toExp isF f l st).1.1.map (detU c u), (detectRun ext toExp isF f l st).1.2.map (expU c)),
        (detectRun ext toExp isF f l st).2) := by
  have hgo : ∀ (l : List (Exp K P W)) (new : Exp K P W) (d : Nat),
      (match findSources f (objects (l.map (expU c)) (expU c new)) d st with
      | ((r, objs), st) => (((r.map fun r : List (Source K) × Option M => DetRes.three r.1 (objs d) r.2,
          (List.range (l.map (expU c)).length).map objs), st) :
          (Except StampErr (DetRes K P W M) × List (Exp K P W)) × E)) =
      (((match findSources f (objects l new) d st with
      | ((r, objs), st) => (((r.map fun r : List (Source K) × Option M => DetRes.three r.1 (objs d) r.2,
          (List.range l.length).map objs), st) :
          (Except StampErr (DetRes K P W M) × List (Exp K P W)) × E)).1.1.map (detU c u),
        (match findSources f (objects l new) d st with
      | ((r, objs), st) => (((r.map fun r : List (Source K) × Option M => DetRes.three r.1 (objs d) r.2,
          (List.range l.length).map objs), st) :
          (Except StampErr (DetRes K P W M) × List (Exp K P W)) × E)).1.2.map (expU c)),
        (match findSources f (objects l new) d st with
      | ((r, objs), st) => (((r.map fun r : List (Source K) × Option M => DetRes.three r.1 (objs d) r.2,
          (List.range l.length).map objs), st) :
          (Except StampErr (DetRes K P W M) × List (Exp K P W)) × E)).2) := by
    intro l new d
    have ho : objects (l.map (expU c)) (expU c new) = fun i => expU c (objects l new i) := by
      funext i
      unfold objects
      rw [List.getElem?_map]
      cases l[i]? <;> rfl
    rw [ho, findSources_U hc hf]
    generalize findSources f (objects l new) d st = r
    obtain ⟨⟨r, objs⟩, st1⟩ := r
    simp only [List.length_map, List.map_map]
    cases r <;> rfl
  unfold detectRun
  rcases l with _ | ⟨e, _ | ⟨e2, t⟩⟩
  · rfl
  · exact hgo [e] e _
  · have := coaddExposures_U hc hx (e :: e2 :: t)
    simp only [List.map_cons] at this ⊢
    rw [this]
    cases coaddExposures ext (e :: e2 :: t) with
    | error er => rfl
    | ok r =>
      cases r with
      | none => rfl
      | some d =>
        simp only [Except.map, Option.map_some, ht]
        have := hgo (e :: e2 :: t) (toExp d) (e :: e2 :: t).length
        simpa only [List.map_cons, List.length_cons, List.length_map, Except.map] using this

variable {t : Task B K P W F E M} (h : TaskU c scale u t)
include h

theorem oneTypeAll_U (mb : MbExp B K P W) (st : E) :
    (oneType t (mbexpU c mb) st) =
      ((oneType t mb st).1.map (Option.map (List.map (colsU scale))), (oneType t mb st).2) := by
  unfold oneType oneTypeAll
  have h1 : (mbexpU c mb).map (·.2) = (mb.map (·.2)).map (expU c) := by simp [mbexpU, Function.comp_def]
  have h2 : (mbexpU c mb).map (·.1) = mb.map (·.1) := by simp [mbexpU, Function.comp_def]
  rw [h1, h2]
  generalize mb.map (·.2) = l
  generalize mb.map (·.1) = bs
  unfold detectDeblendMeasure
  rw [detectRun_U hc h.ext h.toExp t.isF h.finder]
  generalize detectRun t.ext t.toExp t.isF t.finder l st = r
  obtain ⟨⟨r, l'⟩, st1⟩ := r
  cases r with
  | error e => rfl
  | ok r =>
    cases r with
    | two => rfl
    | three sources detexp model =>
      simp only [Except.map, detU]
      have hz : bs.zip (l'.map (expU c)) = mbexpU c (bs.zip l') := by
        unfold mbexpU
        rw [List.zip_map_right]
        rfl
      have ha : t.args (mbexpU c (bs.zip l')) (expU c detexp) =
          { t.args (bs.zip l') detexp with detexp := expU c (t.args (bs.zip l') detexp).detexp } := by
        unfold Task.args mbexpU
        cases bs.zip l' with
        | nil => rfl
        | cons e r => simp [expU, Exp.box, Img.map, Function.comp_def]
      rw [hz, ha, h.ids, measure_U (t.args (bs.zip l') detexp) h.zero h.nan (h.calls _ _)]
      rfl

end coadd

/-! ## Lemmas: metacal -/

section metacal
variable {c : K} (hc : 0 < c) {ext : Ext K P W} {gal : Gal K (LsstPsf.PerBand K)} (hg : GalU c gal)
include hc hg

/-- exposures under names, in other flux units -/
def expsU (c : K) (d : PyDict String (Exp K P W)) : PyDict String (Exp K P W) := mapV (fun _ => expU c) d

theorem rot_map (k : Nat) (im : Img K) : (im.map (c * ·)).rot90k k = (im.rot90k k).map (c * ·) := by
  induction k with
  | zero => rfl
  | succ k ih => simp only [Img.rot90k, ih]; rfl

theorem metacalExp_U (e : Exp K P W) (j : Jac K) (p : Img K) (s : Option (LsstPsf.PerBand K)) (im : Img K) (ty : String)
    (rot : Bool) :
    metacalExp ext gal (expU c e) ⟨j, p, s.map (perBandU c)⟩ (im.map (c * ·)) ty rot =
      (metacalExp ext gal e ⟨j, p, s⟩ im ty rot).map (expU c) := by
  unfold metacalExp
  cases (shearOf ty : Except PyErr (Option (Shear K))) with
  | error er => rfl
  | ok sh =>
    simp only
    have hd : gal.draw ⟨j, p, s.map (perBandU c)⟩ sh (im.map (c * ·)) = (gal.draw ⟨j, p, s⟩ sh im).map (c * ·) := by
      unfold Gal.draw
      simp only [Img.map, Img.mk.injEq, true_and]
      funext r k
      exact hg.px j p s sh im r k
    rw [hd, hg.dilated]
    have hr : (if rot = true then ((gal.draw ⟨j, p, s⟩ sh im).map (c * ·)).rot90k 3
        else (gal.draw ⟨j, p, s⟩ sh im).map (c * ·)) =
        (if rot = true then (gal.draw ⟨j, p, s⟩ sh im).rot90k 3 else gal.draw ⟨j, p, s⟩ sh im).map (c * ·) := by
      split
      · exact rot_map hc hg 3 _
      · rfl
    rw [hr]
    generalize (if rot = true then (gal.draw ⟨j, p, s⟩ sh im).rot90k 3 else gal.draw ⟨j, p, s⟩ sh im) = im'
    have hs : sameShape (expU c e).image (im'.map (c * ·)) = sameShape e.image im' := rfl
    rw [hs]
    split <;> rfl

theorem expsLoop_U (make make' : String → Except PyErr (Exp K P W)) (hm : ∀ ty, make' ty = (make ty).map (expU c))
    (ts : List String) : ∀ d, expsLoop make' (expsU c d) ts = (expsLoop make d ts).map (expsU c) := by
  induction ts with
  | nil => intro d; rfl
  | cons ty ts ih =>
    intro d
    simp only [expsLoop, hm]
    cases make ty with
    | error e => rfl
    | ok x =>
      simp only [Except.map]
      have : PyDict.set (expsU c d) ty (expU c x) = expsU c (PyDict.set d ty x) := set_mapV (fun _ => expU c) d ty x
      rw [this, ih]
      rfl

theorem metacalExps_U (e : Exp K P W) (s : Option (LsstPsf.PerBand K)) (types : Option (List String)) (rot : Bool) :
    metacalExps ext gal (expU c e) (s.map (perBandU c)) types rot = (metacalExps ext gal e s types rot).map (expsU c) := by
  unfold metacalExps context
  have e1 : (expU c e).wcs = e.wcs := rfl
  have e2 : (expU c e).psf = e.psf := rfl
  have e3 : (expU c e).box = e.box := rfl
  have e4 : (expU c e).x0 = e.x0 := rfl
  have e5 : (expU c e).y0 = e.y0 := rfl
  have e6 : startImage (expU c e) rot = (startImage e rot).map (c * ·) := by
    unfold startImage
    split
    · exact rot_map hc hg 1 _
    · rfl
  simp only [e1, e2, e3, e4, e5, e6]
  cases e.wcs with
  | none => rfl
  | some w =>
    simp only
    cases e.psf with
    | none => rfl
    | some p =>
      simp only
      cases ext.kernel p _ with
      | none => rfl
      | some im =>
        simp only
        exact expsLoop_U hc hg _ _ (fun ty => metacalExp_U hc hg e _ im s _ ty rot) _ []

theorem twice_U (v : Var K) : twice (varU c v) = varU c (twice v) := by
  cases v with
  | fin v => simp only [twice, varU, Var.fin.injEq]; ring
  | inf => rfl
  | nan => rfl

theorem addNoise_U (e n : Exp K P W) : addNoise (expU c e) (expU c n) = (addNoise e n).map (expU c) := by
  unfold addNoise
  have : sameShape (expU c e).image (expU c n).image = sameShape e.image n.image := rfl
  rw [this]
  split
  · simp only [Except.map, expU, Img.map, Img.zip, Except.ok.injEq, Exp.mk.injEq, Img.mk.injEq, true_and, and_true]
    refine ⟨?_, ?_⟩
    · funext r k; rw [mul_add]
    · funext r k; exact twice_U hc hg _
  · rfl

/-- multi-band exposures under names, in other flux units -/
def mbsU (c : K) (d : PyDict String (MbExp B K P W)) : PyDict String (MbExp B K P W) := mapV (fun _ => mbexpU c) d

theorem appendBand_U (b : B) (md : PyDict String (Exp K P W)) : ∀ d : PyDict String (MbExp B K P W),
    appendBand b (expsU c md) (mbsU c d) = mbsU c (appendBand b md d) := by
  unfold appendBand
  induction md with
  | nil => intro d; rfl
  | cons p md ih =>
    intro d
    have e : expsU c (p :: md) = (p.1, expU c p.2) :: expsU c md := rfl
    rw [e, List.foldl_cons, List.foldl_cons]
    have hget : (PyDict.get? (mbsU c d) p.1).getD [] = mbexpU c ((PyDict.get? d p.1).getD []) := by
      unfold mbsU
      rw [get?_mapV]
      cases PyDict.get? d p.1 <;> rfl
    have hset : PyDict.set (mbsU c d) p.1 (mbexpU c ((PyDict.get? d p.1).getD [] ++ [(b, p.2)])) =
        mbsU c (PyDict.set d p.1 ((PyDict.get? d p.1).getD [] ++ [(b, p.2)])) := set_mapV (fun _ => mbexpU c) d p.1 _
    have happ : mbexpU c ((PyDict.get? d p.1).getD []) ++ [(b, expU c p.2)] =
        mbexpU c ((PyDict.get? d p.1).getD [] ++ [(b, p.2)]) := by simp [mbexpU]
    simp only
    rw [hget, happ, hset]
    exact ih _

theorem bandLoop_U (types : Option (List String)) (rot : Bool) (mb : MbExp B K P W) :
    ∀ (d : PyDict String (MbExp B K P W)) (s : Option (List (LsstPsf.PerBand K))),
    bandLoop (fun e s => metacalExps ext gal e s types rot) (mbsU c d) (mbexpU c mb) (s.map (·.map (perBandU c))) =
      (bandLoop (fun e s => metacalExps ext gal e s types rot) d mb s).map (mbsU c) := by
  induction mb with
  | nil => intro d s; rfl
  | cons p mb ih =>
    intro d s
    obtain ⟨b, e⟩ := p
    have e1 : mbexpU c ((b, e) :: mb) = (b, expU c e) :: mbexpU c mb := rfl
    rw [e1]
    simp only [bandLoop]
    have hh : ((s.map (·.map (perBandU c))).bind List.head?) = (s.bind List.head?).map (perBandU c) := by
      cases s with
      | none => rfl
      | some l => cases l <;> rfl
    have ht : (s.map (·.map (perBandU c))).map List.tail = (s.map List.tail).map (·.map (perBandU c)) := by
      cases s with
      | none => rfl
      | some l => cases l <;> rfl
    rw [hh, ht, metacalExps_U hc hg]
    cases metacalExps ext gal e (s.bind List.head?) types rot with
    | error er => rfl
    | ok md =>
      simp only [Except.map]
      rw [appendBand_U hc hg, ih]
      rfl

theorem metacalMbexps_U (mb : MbExp B K P W) (types : Option (List String)) (rot : Bool)
    (s : Option (List (LsstPsf.PerBand K))) :
    metacalMbexps ext gal (mbexpU c mb) types rot (s.map (·.map (perBandU c))) =
      (metacalMbexps ext gal mb types rot s).map (mbsU c) := by
  unfold metacalMbexps
  have hl : (((s.map (·.map (perBandU c))).map fun x => decide (x.length = (mbexpU c mb).length)).getD true) =
      ((s.map fun x => decide (x.length = mb.length)).getD true) := by
    cases s <;> simp [mbexpU]
  rw [hl]
  split
  · have h0 : ∀ (ts : List String) (d : PyDict String (MbExp B K P W)),
        ts.foldl (fun d t => PyDict.set d t []) (mbsU c d) = mbsU c (ts.foldl (fun d t => PyDict.set d t []) d) := by
      intro ts
      induction ts with
      | nil => intro d; rfl
      | cons ty ts ih =>
        intro d
        rw [List.foldl_cons, List.foldl_cons]
        have : PyDict.set (mbsU c d) ty [] = mbsU c (PyDict.set d ty []) := set_mapV (fun _ => mbexpU c) d ty []
        rw [this, ih]
    have h1 := h0 (types.getD DEFAULT_TYPES) []
    have h1' : (types.getD DEFAULT_TYPES).foldl (fun d t => PyDict.set d t ([] : MbExp B K P W)) [] =
      mbsU c ((types.getD DEFAULT_TYPES).foldl (fun d t => PyDict.set d t []) []) := h1
    have h2 := bandLoop_U (ext := ext) hc hg (some (types.getD DEFAULT_TYPES)) rot mb
      ((types.getD DEFAULT_TYPES).foldl (fun d t => PyDict.set d t ([] : MbExp B K P W)) []) s
    rw [← h1'] at h2
    dsimp only
    rw [h2]
    cases bandLoop (fun e s => metacalExps ext gal e s (some (types.getD DEFAULT_TYPES)) rot)
      ((types.getD DEFAULT_TYPES).foldl (fun d t => PyDict.set d t []) []) mb s with
    | error er => rfl
    | ok lists =>
      simp only [Except.map]
      refine congrArg Except.ok ?_
      have h3 : ∀ (ts : List String) (d : PyDict String (MbExp B K P W)),
          ts.foldl (fun d t => PyDict.set d t ((PyDict.get? (mbsU c lists) t).getD [])) (mbsU c d) =
          mbsU c (ts.foldl (fun d t => PyDict.set d t ((PyDict.get? lists t).getD [])) d) := by
        intro ts
        induction ts with
        | nil => intro d; rfl
        | cons ty ts ih =>
          intro d
          rw [List.foldl_cons, List.foldl_cons]
          have hget : (PyDict.get? (mbsU c lists) ty).getD [] = mbexpU c ((PyDict.get? lists ty).getD []) := by
            unfold mbsU
            rw [get?_mapV]
            cases PyDict.get? lists ty <;> rfl
          have hset : PyDict.set (mbsU c d) ty (mbexpU c ((PyDict.get? lists ty).getD [])) =
              mbsU c (PyDict.set d ty ((PyDict.get? lists ty).getD [])) := set_mapV (fun _ => mbexpU c) d ty _
          rw [hget, hset, ih]
      exact h3 _ []
  · rfl

theorem addNoises_U (mb : MbExp B K P W) : ∀ nb : MbExp B K P W,
    addNoises (mbexpU c mb) (mbexpU c nb) = (addNoises mb nb).map (mbexpU c) := by
  induction mb with
  | nil => intro nb; cases nb <;> rfl
  | cons p mb ih =>
    intro nb
    cases nb with
    | nil => rfl
    | cons q nb =>
      have e1 : mbexpU c (p :: mb) = (p.1, expU c p.2) :: mbexpU c mb := rfl
      have e2 : mbexpU c (q :: nb) = (q.1, expU c q.2) :: mbexpU c nb := rfl
      rw [e1, e2]
      simp only [addNoises, addNoise_U hc hg, ih]
      cases addNoise p.2 q.2 with
      | error er => rfl
      | ok x =>
        simp only [Except.map]
        cases addNoises mb nb <;> rfl

theorem fixLoop_U (nd d : PyDict String (MbExp B K P W)) : fixLoop (mbsU c nd) (mbsU c d) = (fixLoop nd d).map (mbsU c) := by
  induction d with
  | nil => rfl
  | cons p d ih =>
    have e1 : mbsU c (p :: d) = (p.1, mbexpU c p.2) :: mbsU c d := rfl
    rw [e1]
    simp only [fixLoop, ih]
    have : PyDict.get? (mbsU c nd) p.1 = (PyDict.get? nd p.1).map (mbexpU c) := get?_mapV _ nd p.1
    rw [this]
    cases PyDict.get? nd p.1 with
    | none => rfl
    | some nl =>
      simp only [Option.map_some, addNoises_U hc hg]
      cases addNoises p.2 nl with
      | error er => rfl
      | ok l =>
        simp only [Except.map]
        cases fixLoop nd d <;> rfl

theorem fixnoise_U (mb nb : MbExp B K P W) (types : Option (List String)) (s : Option (List (LsstPsf.PerBand K))) :
    metacalMbexpsFixnoise ext gal (mbexpU c mb) (mbexpU c nb) types (s.map (·.map (perBandU c))) =
      (metacalMbexpsFixnoise ext gal mb nb types s).map fun r => (mbsU c r.1, mbsU c r.2) := by
  unfold metacalMbexpsFixnoise
  rw [metacalMbexps_U hc hg, metacalMbexps_U hc hg]
  cases metacalMbexps ext gal mb types false s with
  | error er => rfl
  | ok d =>
    simp only [Except.map]
    cases metacalMbexps ext gal nb types true s with
    | error er => rfl
    | ok nd =>
      simp only [fixLoop_U hc hg]
      cases fixLoop nd d <;> rfl

end metacal

/-! ## Lemmas: masked fraction and PSF -/

section psf
variable {c : K} (hc : 0 < c)
include hc

theorem finPos_U (v : Var K) : LsstPsf.finPos (varU c v) = (LsstPsf.finPos v).map (c ^ 2 * ·) := by
  have h2 : (0 : K) < c ^ 2 := pow_pos hc 2
  cases v with
  | fin v =>
    simp only [varU, LsstPsf.finPos, mul_pos_iff_of_pos_left h2]
    split <;> rfl
  | inf => rfl
  | nan => rfl

theorem mfracLoop_U {median : List K → K} (hm : ∀ l, median (l.map (c ^ 2 * ·)) = c ^ 2 * median l)
    (l : List (Img (Var K) × Img K)) : ∀ (a : Option (Img K)) (ws : List K),
    LsstPsf.mfracLoop median (a.map (·.map (· / c ^ 2)), ws.map (· / c ^ 2)) (l.map fun p => (p.1.map (varU c), p.2)) =
      (LsstPsf.mfracLoop median (a, ws) l).map fun r => (r.1.map (·.map (· / c ^ 2)), r.2.map (· / c ^ 2)) := by
  have hne := hc.ne'
  induction l with
  | nil => intro a ws; rfl
  | cons p l ih =>
    intro a ws
    obtain ⟨v, m⟩ := p
    simp only [List.map_cons, LsstPsf.mfracLoop]
    have hu : (v.map (varU c)).toList.filterMap LsstPsf.finPos =
        (v.toList.filterMap LsstPsf.finPos).map (c ^ 2 * ·) := by
      rw [toList_map' hc, List.filterMap_map, List.map_filterMap]
      congr 1
      funext x
      exact finPos_U hc x
    rw [hu]
    simp only [List.isEmpty_map, hm]
    split
    · rfl
    · have hw : (1 : K) / (c ^ 2 * median (v.toList.filterMap LsstPsf.finPos)) =
          1 / median (v.toList.filterMap LsstPsf.finPos) / c ^ 2 := by
        rw [one_div, mul_inv, one_div, div_eq_mul_inv, mul_comm]
      rw [hw]
      generalize 1 / median (v.toList.filterMap LsstPsf.finPos) = w
      cases a with
      | none =>
        simp only [Option.map_none]
        have := ih (some (m.map fun x => w * x)) (ws ++ [w])
        rw [← this]
        congr 2
        · simp only [Option.map_some, Img.map, Option.some.injEq, Img.mk.injEq, true_and]
          funext r k
          ring
        · simp
      | some a =>
        simp only [Option.map_some]
        have hs : sameShape (a.map (· / c ^ 2)) m = sameShape a m := rfl
        rw [hs]
        split
        · have := ih (some (a.zip (fun x y => x + w * y) m)) (ws ++ [w])
          rw [← this]
          congr 2
          · simp only [Option.map_some, Img.map, Img.zip, Option.some.injEq, Img.mk.injEq, true_and]
            funext r k
            ring
          · simp
        · rfl

theorem mfracMbexp_U {median : List K → K} (hm : ∀ l, median (l.map (c ^ 2 * ·)) = c ^ 2 * median l)
    (vars : List (Img (Var K))) (ms : Option (List (Img K))) :
    LsstPsf.mfracMbexp median (vars.map fun v => v.map (varU c)) ms =
      (LsstPsf.mfracMbexp median vars ms).map fun r => (r.1, r.2.map (· / c ^ 2)) := by
  have hne := hc.ne'
  unfold LsstPsf.mfracMbexp
  cases ms with
  | none => rfl
  | some ms =>
    simp only
    have hz : (vars.map fun v => v.map (varU c)).zip ms = (vars.zip ms).map fun p => (p.1.map (varU c), p.2) := by
      rw [List.zip_map_left]
      rfl
    have := mfracLoop_U hc hm (vars.zip ms) none []
    rw [Option.map_none, List.map_nil] at this
    rw [hz, this]
    cases LsstPsf.mfracLoop median (none, []) (vars.zip ms) with
    | error e => rfl
    | ok r =>
      obtain ⟨a, ws⟩ := r
      cases a with
      | none => rfl
      | some a =>
        simp only [Except.map, Option.map_some, Except.ok.injEq, Prod.mk.injEq, and_true, Img.map, Img.mk.injEq, true_and]
        have hsum : (ws.map (· / c ^ 2)).sum = ws.sum / c ^ 2 := by
          simp only [div_eq_mul_inv]
          have := List.sum_map_mul_right ws id ((c ^ 2)⁻¹)
          simpa using this
        rw [hsum]
        funext r k
        by_cases h0 : ws.sum = 0
        · simp [h0]
        · field_simp

/-- the sums of the loop over the PSFs -/
def psfAccU (c : K) (a : LsstPsf.PsfAcc K) : LsstPsf.PsfAcc K :=
  ⟨a.navg, a.wsum / c ^ 2, a.e1sum / c ^ 2, a.e2sum / c ^ 2, a.Tsum / c ^ 2, a.perband.map (perBandU c)⟩

theorem psfLoop_U (idx : List Nat) (l : List (LsstPsf.PsfFit K × K)) : ∀ (i : Nat) (a : LsstPsf.PsfAcc K),
    LsstPsf.psfLoop idx i (psfAccU c a) (l.map fun p => (p.1, p.2 / c ^ 2)) =
      ((LsstPsf.psfLoop idx i a l).1, psfAccU c (LsstPsf.psfLoop idx i a l).2) := by
  induction l with
  | nil => intro i a; rfl
  | cons p l ih =>
    intro i a
    obtain ⟨f, w⟩ := p
    cases f with
    | fit e1 e2 T =>
      simp only [List.map_cons, LsstPsf.psfLoop]
      rw [← ih]
      congr 1
      split
      · simp [psfAccU, perBandU, add_div, mul_div_assoc]
      · simp [psfAccU, perBandU]
    | failed => rfl
    | raised e => rfl

theorem fitOriginalPsfs_U (e2g : K → K → Option (K × K)) (idx : List Nat) (fits : List (LsstPsf.PsfFit K)) (ws : List K) :
    LsstPsf.fitOriginalPsfs e2g idx fits (ws.map (· / c ^ 2)) =
      (LsstPsf.fitOriginalPsfs e2g idx fits ws).map (statsU c) := by
  have hne := hc.ne'
  have h2 : (0 : K) < c ^ 2 := pow_pos hc 2
  unfold LsstPsf.fitOriginalPsfs
  simp only [List.length_map]
  split
  · rfl
  · have hz : fits.zip (ws.map (· / c ^ 2)) = (fits.zip ws).map fun p => (p.1, p.2 / c ^ 2) := by
      rw [List.zip_map_right]
      rfl
    have := psfLoop_U hc idx (fits.zip ws) 0 ⟨0, 0, 0, 0, 0, []⟩
    have h0 : psfAccU c (⟨0, 0, 0, 0, 0, []⟩ : LsstPsf.PsfAcc K) = ⟨0, 0, 0, 0, 0, []⟩ := by simp [psfAccU]
    rw [h0] at this
    rw [hz, this]
    generalize LsstPsf.psfLoop idx 0 ⟨0, 0, 0, 0, 0, []⟩ (fits.zip ws) = r
    obtain ⟨stop, a⟩ := r
    have haf : LsstPsf.psfAfterFailure idx (psfAccU c a) = (LsstPsf.psfAfterFailure idx a).map (statsU c) := by
      unfold LsstPsf.psfAfterFailure
      have : (psfAccU c a).navg = a.navg := rfl
      rw [this]
      split <;> rfl
    cases stop with
    | raised e => rfl
    | caught => exact haf
    | done =>
      simp only
      have hw : (psfAccU c a).wsum ≤ 0 ↔ a.wsum ≤ 0 := by
        unfold psfAccU
        simp only
        rw [div_le_iff₀ h2, zero_mul]
      have hdiv : ∀ x y : K, x / c ^ 2 / (y / c ^ 2) = x / y := fun x y => div_div_div_cancel_right₀ (pow_ne_zero 2 hne) x y
      have d1 : (psfAccU c a).e1sum / (psfAccU c a).wsum = a.e1sum / a.wsum := hdiv _ _
      have d2 : (psfAccU c a).e2sum / (psfAccU c a).wsum = a.e2sum / a.wsum := hdiv _ _
      have d3 : (psfAccU c a).Tsum / (psfAccU c a).wsum = a.Tsum / a.wsum := hdiv _ _
      simp only [hw, d1, d2, d3]
      split
      · rfl
      · cases e2g (a.e1sum / a.wsum) (a.e2sum / a.wsum) with
        | none => exact haf
        | some g =>
          simp only
          have : (psfAccU c a).navg = a.navg := rfl
          rw [this]
          split <;> rfl

end psf

/-! ## Lemmas: the columns added at the end -/

section final
variable [FloorRing K] {c : K} (hc : 0 < c) {scale : Int → F → F} {u : M → M} {t : Task B K P W F E M}
  (h : TaskU c scale u t)
include hc h

theorem posList_U (rows : List (Cols K F)) : posList (rows.map (colsU scale)) = posList rows := by
  induction rows with
  | nil => rfl
  | cons r rows ih =>
    have : posOf (colsU scale r) = posOf r := by
      unfold posOf
      rw [get_colsU _ (by decide), get_colsU _ (by decide), get_colsU _ (by decide), get_colsU _ (by decide)]
    simp only [List.map_cons, posList, this, ih]

theorem setRows_U (s : LsstPsf.PsfStats K) (rows : List (Cols K F)) : ∀ (ms : List K) (os : List Nat),
    setRows (statsU c s) (rows.map (colsU scale)) ms os = (setRows s rows ms os).map (colsU scale) := by
  induction rows with
  | nil => intro ms os; rfl
  | cons r rows ih =>
    intro ms os
    cases ms with
    | nil => rfl
    | cons m ms =>
      cases os with
      | nil => rfl
      | cons o os =>
        simp only [List.map_cons, setRows, ih]
        congr 1
        unfold setRow setPsf
        simp only
        rw [set_colsU _ (by decide), set_colsU _ (by decide), set_colsU _ (by decide), set_colsU _ (by decide),
          set_colsU _ (by decide), set_colsU _ (by decide)]
        rfl

theorem annotate_U (mfrac : Img K) (ormask : Img Nat) (s : LsstPsf.PsfStats K) (rows : List (Cols K F)) :
    annotate t mfrac ormask (statsU c s) (rows.map (colsU scale)) =
      (annotate t mfrac ormask s rows).map (List.map (colsU scale)) := by
  unfold annotate
  rw [posList_U hc h]
  cases posList rows with
  | error e => rfl
  | ok ps =>
    simp only
    cases LsstPsf.addOrmask ormask ps with
    | error e => rfl
    | ok os =>
      simp only [Except.map, setRows_U hc h]

theorem typeLoop_U (mfrac : Img K) (ormask : Img Nat) (s : LsstPsf.PsfStats K) (d : List (String × MbExp B K P W)) :
    ∀ st, typeLoop t mfrac ormask (statsU c s) (mbsU c d) st =
      ((typeLoop t mfrac ormask s d st).1.map (mapV fun _ => Option.map (List.map (colsU scale))),
        (typeLoop t mfrac ormask s d st).2) := by
  induction d with
  | nil => intro st; rfl
  | cons p d ih =>
    intro st
    obtain ⟨name, mb⟩ := p
    have e1 : mbsU c ((name, mb) :: d) = (name, mbexpU c mb) :: mbsU c d := rfl
    rw [e1]
    simp only [typeLoop]
    rw [oneTypeAll_U hc h]
    generalize oneType t mb st = r
    obtain ⟨r, st1⟩ := r
    cases r with
    | error e => rfl
    | ok r =>
      simp only [Except.map]
      cases r with
      | none =>
        simp only [Option.map_none]
        rw [ih]
        generalize typeLoop t mfrac ormask s d st1 = q
        obtain ⟨q, st2⟩ := q
        cases q <;> rfl
      | some rows =>
        simp only [Option.map_some, annotate_U hc h]
        cases annotate t mfrac ormask s rows with
        | error e => rfl
        | ok rows' =>
          simp only [Except.map]
          rw [ih]
          generalize typeLoop t mfrac ormask s d st1 = q
          obtain ⟨q, st2⟩ := q
          cases q <;> rfl

omit h in
theorem fits_U (c : K) (t : Task B K P W F E M) (mb : MbExp B K P W) (st : E) : t.fits (mbexpU c mb) st = t.fits mb st := by
  simp only [Task.fits, mbexpU, List.map_map, Function.comp_def]
  induction mb generalizing st with
  | nil => rfl
  | cons p l ih =>
    have ho : LsstPsf.originalPsfObs t.ext (expU c p.2) = LsstPsf.originalPsfObs t.ext p.2 := rfl
    simp only [List.map_cons, LsstPsf.fitPsfs, ho]
    cases LsstPsf.originalPsfObs t.ext p.2 with
    | error er => simp
    | ok o =>
      simp only
      rcases t.psfFit o st with ⟨f, st1⟩
      cases f <;> simp [ih]

theorem runFrom_U (mb nb : MbExp B K P W) (getPsf : Bool) (ormask : Img Nat) (mfrac : Img K) (ws : List K) (st : E) :
    runFrom t (mbexpU c mb) (mbexpU c nb) getPsf ormask mfrac (ws.map (· / c ^ 2)) st =
      outU c scale (runFrom t mb nb getPsf ormask mfrac ws st) := by
  unfold runFrom
  have hb : (mbexpU c mb).map (·.1) = mb.map (·.1) := by simp [mbexpU, Function.comp_def]
  rw [hb, fits_U hc]
  generalize t.fits mb st = r
  obtain ⟨fits, st1⟩ := r
  cases LsstConfig.shearBandIndices (mb.map (·.1)) t.shearBands with
  | error e => rfl
  | ok idx =>
    simp only
    rw [fitOriginalPsfs_U hc]
    cases LsstPsf.fitOriginalPsfs t.e2g idx fits ws with
    | error e => rfl
    | ok stats =>
      simp only [Except.map]
      have hs : (if t.fitgauss = true then (statsU c stats).perband else none) =
          (if t.fitgauss = true then stats.perband else none).map (·.map (perBandU c)) := by
        split <;> rfl
      rw [hs, fixnoise_U hc h.gal]
      cases metacalMbexpsFixnoise t.ext t.gal mb nb t.types (if t.fitgauss = true then stats.perband else none) with
      | error e => rfl
      | ok d =>
        simp only [Except.map]
        rw [typeLoop_U hc h]
        generalize typeLoop t mfrac ormask stats d.1 st1 = q
        obtain ⟨q, st2⟩ := q
        cases q with
        | error e => rfl
        | ok res =>
          simp only [Except.map, outU, Out.mk.injEq, Except.ok.injEq, and_true]
          have hm : ((mapV (fun _ => Option.map (List.map (colsU scale))) res).map fun p => (p.1, Entry.table p.2)) =
              mapV (fun _ => entryU c scale) (res.map fun p => (p.1, Entry.table p.2)) := by
            simp [mapV, entryU, Function.comp_def]
          rw [hm]
          split
          · exact set_mapV (fun _ => entryU c scale) _ "psf_stats" (Entry.psf stats)
          · rfl

end final

theorem stampMbobs_U {c : K} (hc : 0 < c) {ext : Ext K P W} (hx : ExtU c ext) (l : List (Exp K P W)) (s : Source K)
    (size : Int) (clip : Bool) :
    stampMbobs ext (l.map (expU c)) s size clip = (stampMbobs ext l s size clip).map (mbInUnits c) := by
  unfold stampMbobs
  cases l with
  | nil => rfl
  | cons e t =>
    have := fun b => stampBands_U hc hx s b (e :: t)
    simp only [List.map_cons] at this ⊢
    have hb : (expU c e).box = e.box := rfl
    rw [hb]
    cases getBBox e.box s.peaks size clip with
    | error er => rfl
    | ok b => exact this b

theorem extractorStamp_U {c : K} (hc : 0 < c) {ext : Ext K P W} (hx : ExtU c ext) (l : List (Exp K P W)) (ids : List Nat)
    (size : Int) (s : Source K) (st : E) :
    extractorStamp ext (l.map (expU c)) ids size s st =
      ((extractorStamp ext l ids size s st).1.map (mbInUnits c), (extractorStamp ext l ids size s st).2) := by
  unfold extractorStamp
  split
  · rw [stampMbobs_U hc hx]
  · rfl

/-! ## C126 -/

/-- C126: a run of the LSST pipeline on exposures and noise exposures in other flux units gives the same outcome in those
units.  The same sources are found in the same order, every column of every table is the same except the band fluxes and
their errors, the PSF statistics are the same except the recorded weights, the random state is the same, the same
exception is raised if one is, and the caller's exposures are left the same up to the units. -/
theorem C126_run [FloorRing K] {c : K} (hc : 0 < c) (scale : Int → F → F) (u : M → M) (t : Task B K P W F E M)
    (h : TaskU c scale u t) (mbexp noise : MbExp B K P W) (mfracs : Option (List (Img K)))
    (ormasks : Option (List (Img Nat))) (getPsf : Bool) (rng : E) :
    run t (mbexpU c mbexp) (mbexpU c noise) mfracs ormasks getPsf rng =
      outU c scale (run t mbexp noise mfracs ormasks getPsf rng) := by
  unfold run
  have ho : ormaskOf (mbexpU c mbexp) ormasks = ormaskOf mbexp ormasks := by
    cases ormasks with
    | some l => rfl
    | none => cases mbexp <;> rfl
  have hv : (mbexpU c mbexp).map (fun p => p.2.var) = (mbexp.map fun p => p.2.var).map fun v => v.map (varU c) := by
    simp [mbexpU, expU, Function.comp_def]
  rw [ho, hv, mfracMbexp_U hc h.median]
  cases ormaskOf mbexp ormasks with
  | error e => rfl
  | ok ormask =>
    simp only
    cases LsstPsf.mfracMbexp t.median (mbexp.map fun p => p.2.var) mfracs with
    | error e => rfl
    | ok r =>
      obtain ⟨mfrac, ws⟩ := r
      simp only [Except.map]
      split
      · rw [h.sky]
        generalize t.sky mbexp = q
        obtain ⟨q, mb'⟩ := q
        cases q with
        | error e => rfl
        | ok x => exact runFrom_U hc h mb' noise getPsf ormask mfrac ws rng
      · exact runFrom_U hc h mbexp noise getPsf ormask mfrac ws rng

/-- C126 (stamps and fits): with the stamps that the pipeline cuts out of the exposures and with the Gaussian fitter and
the weighted-moments fitter of this library, what `C126_run` expects of stamps and fits holds. -/
theorem C126_calls {S R : Type _} {c : K} (hc : 0 < c) (scale : Int → F → F) (ext : Ext K P W) (hx : ExtU c ext)
    (gx : JointExt K (Jac K) F S R) (hg : JointUnits c scale gx) (runner : R) (fl : Flt F) (hl : UnitLaws fl scale)
    (mx : MomExt F) (fit : MomFitter K (Rest K (Jac K)) F) (hm : UnitExt c scale mx fit) (bits : Nat) (coadd symm : Bool)
    (reg : F) (mbexp : List (Exp K P W)) (ids : List Nat) (size : Int) (meas : Source K → Source K) :
    CallsU (P := P) (W := W) c scale (E := S)
      { meas := meas
        stamp := extractorStamp ext mbexp ids size
        gauss := fun mb sb => fitMbobsGauss gx.fl gx.noAttempt gx.coadd gx.gauss runner bits (some sb) coadd mb
        pgauss := fun mb st => (fitMbobsWavg fl mx fit bits none reg symm mb, st) }
      { meas := meas
        stamp := extractorStamp ext (mbexp.map (expU c)) ids size
        gauss := fun mb sb => fitMbobsGauss gx.fl gx.noAttempt gx.coadd gx.gauss runner bits (some sb) coadd mb
        pgauss := fun mb st => (fitMbobsWavg fl mx fit bits none reg symm mb, st) } where
  meas _ := rfl
  stamp s st := extractorStamp_U hc hx mbexp ids size s st
  gauss mb sb st := fitMbobsGauss_units hc gx hg runner bits (some sb) coadd mb st
  pgauss mb st := by simp only [fitMbobsWavg_units hc hl mx fit hm]

/-! ## Examples: the hypotheses are met -/

/-- the sum of all pixels of a stamp in all bands -/
def exFlux (mb : JMb ℚ (Jac ℚ)) : ℚ :=
  (mb.map fun l : List (JObs ℚ (Jac ℚ)) => (l.map fun o : JObs ℚ (Jac ℚ) => o.image.toList.sum).sum).sum

theorem list_sum_mul (c : ℚ) (l : List ℚ) : (l.map (c * ·)).sum = c * l.sum := by
  induction l with
  | nil => simp
  | cons a t ih => rw [List.map_cons, List.sum_cons, List.sum_cons, ih, mul_add]

theorem exFlux_U (c : ℚ) (mb : JMb ℚ (Jac ℚ)) : exFlux (mbInUnits c mb) = c * exFlux mb := by
  unfold exFlux
  rw [← list_sum_mul, List.map_map]
  simp only [mbInUnits, List.map_map]
  congr 1
  refine List.map_congr_left fun l _ => ?_
  simp only [Function.comp]
  rw [← list_sum_mul, List.map_map]
  simp only [List.map_map]
  congr 1
  refine List.map_congr_left fun o _ => ?_
  simp only [Function.comp]
  rw [← list_sum_mul, ← toList_map' (K := ℚ) one_pos]
  rfl

/-- fluxes that may be NaN -/
abbrev exFl : Flt (Option ℚ) := nanFlt id

/-- a fit that finds the flux of a stamp -/
def exFit (mb : JMb ℚ (Jac ℚ)) (sb : Option (List Nat)) : Except PyErr (Row (Option ℚ)) :=
  (freshRow exFl 1 2 sb).map fun r => { r with flags := 0, bandFlux := [some (exFlux mb), none] }

/-- the units: every flux is four times larger -/
def exScale (k : Int) : Option ℚ → Option ℚ := Option.map ((4 : ℚ) ^ k * ·)

/-- two bands; sky subtraction, detection and deblending look at pixels; the deblender's model is a flux -/
def exUnits : Task String ℚ (Img ℚ) Unit (Option ℚ) Nat ℚ where
  ext := exExt
  gal := ⟨fun _ _ im r c => 2 * im.px r c - im.px c r, fun ctx => ctx.psf⟩
  median l := l.headD 0
  subtractSky := true
  sky m := (.ok (), m.map fun p => (p.1, { p.2 with image := p.2.image.map (· - p.2.image.px 0 0) }))
  shearBands := none
  psfFit o st := (.fit o.2.x (o.1.px 0 0) (st + 3), st + 50)
  e2g a b := some (a / 2, b / 2)
  fitgauss := false
  types := some ["noshear", "1p"]
  toExp d := ⟨d.image.map (·.getD 0), d.mask, d.var, none, d.wcs, d.x0, d.y0⟩
  isF := true
  finder := ⟨fun e st => ((.ok (if 0 < e.image.px 2 2 then some LsstLocal.exIn else none), e.mask.map (· + 32)), st + 1),
    fun objs d s st => ((.ok (s, some ((objs d).image.px 2 2)), fun i => (objs i).mask), st)⟩
  fl := exFl
  noAttempt := 1
  pe _ := ⟨fun c => (c.1 / 2, c.2 / 2), fun _ => (0, 0), 32⟩
  stampSize := 3
  calls exps _ := {
    meas := id
    stamp := extractorStamp exExt (exps.map (·.2)) [1, 2] 3
    gauss := fun m sb st => (exFit m (some sb), st + 1)
    pgauss := fun m st => (exFit m none, st + 1) }
  ids s _ := childIds id s
  avg _ _ _ := 1 / 2
  rad := 3

/-- the fluxes of a type's table -/
def exFluxes (o : Out String ℚ (Img ℚ) Unit (Option ℚ) Nat) (ty : String) : Option (List (List (Option ℚ))) :=
  match o.res with
  | .ok d => match PyDict.get? d ty with
    | some (.table (some rows)) => some (rows.map fun r : Cols ℚ (Option ℚ) => match PyDict.get? r "gauss_band_flux" with
      | some (.flts l) => l
      | _ => [])
    | _ => none
  | _ => none

def exBands : MbExp String ℚ (Img ℚ) Unit := [("r", LsstLocal.exA), ("i", { LsstLocal.exA with image := ⟨5, 5, fun r c => 7 + r * c⟩ })]

def exNoises : MbExp String ℚ (Img ℚ) Unit := [("r", { LsstLocal.exA with image := ⟨5, 5, fun r _ => r⟩ }), ("i", LsstLocal.exA)]

def exUnitsRun (c : ℚ) : Out String ℚ (Img ℚ) Unit (Option ℚ) Nat :=
  run exUnits (mbexpU c exBands) (mbexpU c exNoises) (some [⟨5, 5, fun _ _ => 0⟩, ⟨5, 5, fun _ _ => 1⟩])
    (some [⟨30, 30, fun _ _ => 0⟩]) true 8

/-- one source at the edge, which has no stamp, and one in the middle -/
example : exFluxes (exUnitsRun 1) "noshear" = some [[none, none], [some 450, none]] ∧
    exFluxes (exUnitsRun 4) "noshear" = some [[none, none], [some 1800, none]] ∧
    exFluxes (exUnitsRun 4) "1p" = some [[none, none], [some 1800, none]] := by decide +kernel

theorem exExt_U : ExtU (4 : ℚ) exExt where
  median l := by cases l <;> rfl
  obsCheck _ := rfl

example : TaskU 4 exScale (4 * ·) exUnits where
  ext := exExt_U
  gal := ⟨fun _ _ _ _ im r k => by simp only [exUnits, Img.map]; ring, fun _ _ _ => rfl⟩
  median l := by cases l <;> simp [exUnits]
  sky mb := by
    simp only [exUnits, mbexpU, List.map_map, Prod.mk.injEq, true_and]
    refine List.map_congr_left fun p _ => ?_
    simp only [Function.comp, expU, Img.map, mul_sub]
  toExp d := by
    simp only [exUnits, coaddU, expU, Img.map, Exp.mk.injEq, Img.mk.injEq, true_and, and_true]
    funext r k
    cases d.image.px r k <;> simp
  finder := ⟨fun e st => by
      simp only [exUnits, expU, Img.map]
      norm_num, fun _ _ _ _ => rfl⟩
  zero := by simp [exUnits, exScale, exFl, nanFlt]
  nan := rfl
  calls mb m := {
    meas := fun _ => rfl
    stamp := fun s st => by
      have := extractorStamp_U (K := ℚ) (by norm_num) exExt_U (mb.map (·.2)) [1, 2] 3 s st
      simpa only [exUnits, mbexpU, List.map_map, Function.comp_def] using this
    gauss := fun mb sb st => by
      simp only [exUnits, exFit, exFlux_U, freshRow]
      split <;> simp [Except.map, rowInUnits, exScale, exFl, nanFlt]
    pgauss := fun mb st => by simp [exUnits, exFit, exFlux_U, freshRow, Except.map, rowInUnits, exScale, exFl, nanFlt] }
  ids _ _ := rfl

end MD.LsstUnits
