import Verif.Props.LsstBandInput
import Verif.Props.LsstUnits

/-!
# C142: a whole LSST run for bands in another order

If a run returns, then a run for the same bands in another order returns the same tables, with the per band columns in that
order and the bands for shear named by their new places.
-/

set_option linter.unusedSectionVars false

namespace MD.LsstOrder

open LsstExp LsstGeom LsstMetacal LsstMeasure LsstRun Wavg
open LsstUnits (mapV get?_mapV set_mapV has_mapV)

variable {B K P W F E M : Type _} [Field K] [LinearOrder K] [IsStrictOrderedRing K] [DecidableEq B]

/-! ## Specification -/

/-- SPEC: how the bands for shear are named in a table -/
def bandName (sb : List Nat) : String := Columns.truncate Columns.maxNumShearBands (Columns.bandString sb)

/-- SPEC: the columns with one value per band -/
def bandCols : List String := ["gauss_band_flux_flags", "gauss_band_flux", "gauss_band_flux_err",
  "pgauss_band_flux_flags", "pgauss_band_flux", "pgauss_band_flux_err"]

/-- SPEC: the value of a column for bands in another order -/
def valR (order : List Nat) (name : String) (k : String) (v : Val K F) : Val K F :=
  if k = "shear_bands" then .str name
  else if k ∈ bandCols then
    match v with
    | .nats l => .nats (reorder order l)
    | .flts l => .flts (reorder order l)
    | v => v
  else v

/-- SPEC: a row of a table for bands in another order: the columns with one value per band are in that order, `name` names the
bands for shear, and nothing else changes -/
def colsR (order : List Nat) (name : String) (row : Cols K F) : Cols K F := row.map fun p => (p.1, valR order name p.1 p.2)

/-- SPEC: an entry of the result for bands in another order -/
def entryR (order : List Nat) (name : String) : Entry K F → Entry K F
  | .table rows => .table (rows.map (·.map (colsR order name)))
  | .psf s => .psf { s with perband := s.perband.map (reorder order) }

/-- SPEC: shape, WCS and origin of an exposure, and the shape of its PSF images -/
structure Geo (W : Type _) where
  nr : Nat
  nc : Nat
  pr : Nat
  pc : Nat
  wcs : Option W
  x0 : Int
  y0 : Int

/-- SPEC: an exposure with this geometry -/
def HasGeo (ext : Ext K P W) (g : Geo W) (e : Exp K P W) : Prop :=
  (e.image.nr = g.nr ∧ e.image.nc = g.nc ∧ e.mask.nr = g.nr ∧ e.mask.nc = g.nc) ∧ e.wcs = g.wcs ∧ e.x0 = g.x0 ∧ e.y0 = g.y0 ∧
    ∃ p, e.psf = some p ∧ ∀ cen, ∃ im, ext.kernel p cen = some im ∧ im.nr = g.pr ∧ im.nc = g.pc

/-- SPEC: the same, whatever shape the mask has -/
def InFrame (ext : Ext K P W) (g : Geo W) (e : Exp K P W) : Prop :=
  e.wcs = g.wcs ∧ e.box = ⟨g.x0, g.y0, g.nc, g.nr⟩ ∧
    ∃ p, e.psf = some p ∧ ∀ cen, ∃ im, ext.kernel p cen = some im ∧ im.nr = g.pr ∧ im.nc = g.pc

/-- SPEC: what was at each place before -/
def oldPlace (order : List Nat) (i : Nat) : Nat := (order[i]?).getD i

/-- SPEC: what is expected of the code that makes stamps and fits them: the stamps are those of the bands in the new order; if
a source has no stamp because it is at the edge or has no weight, then so it is in the other order; and a fit that succeeds
succeeds for the bands in the other order, with the same outcome (C136 for the fits of this library) -/
structure CallsR (order : List Nat) (n : Nat) (a b : Calls K P W F E) : Prop where
  meas : ∀ s, b.meas s = a.meas s
  stamp : ∀ s st st' mb, a.stamp s st = (.ok mb, st') → mb.length = n ∧ b.stamp s st = (.ok (reorder order mb), st')
  edge : ∀ s st st', a.stamp s st = (.error (.py .lengthError), st') → b.stamp s st = (.error (.py .lengthError), st')
  zero : ∀ s st st', a.stamp s st = (.error .allZeroWeight, st') → b.stamp s st = (.error .allZeroWeight, st')
  gauss : ∀ mb sb sb' st r st', mb.length = n → sb.Nodup → sb'.Perm (sb.map (newPlace order)) → a.gauss mb sb st = (.ok r, st') →
    b.gauss (reorder order mb) sb' st = (.ok (rowReorder order (bandName sb') r), st')
  pgauss : ∀ mb st r st', mb.length = n → a.pgauss mb st = (.ok r, st') →
    b.pgauss (reorder order mb) st = (.ok (rowReorder order r.shearBands r), st')

/-- SPEC: what is expected of the external code of a run.  The PSF fit does not depend on the random state; sky subtraction
works band by band; a deblender gives the same sources when the exposures are numbered otherwise, with `u` its models; the
target PSFs are drawn on images of the shape of the PSF. -/
structure TaskR (order : List Nat) (n : Nat) (g : Geo W) (u : M → M) (t : Task B K P W F E M) : Prop where
  psfFit : ∃ fit : Img K × Jac K → LsstPsf.PsfFit K, ∀ o st, t.psfFit o st = (fit o, st)
  sky : ∀ mb mb', mb.length = n → t.sky mb = (.ok (), mb') → t.sky (reorder order mb) = (.ok (), reorder order mb') ∧
    mb'.map (·.1) = mb.map (·.1) ∧ ((∀ p ∈ mb, HasGeo t.ext g p.2) → ∀ p ∈ mb', HasGeo t.ext g p.2)
  deblend : ∀ objs d s st, oldPlace order d = d → t.finder.deblend (fun i => objs (oldPlace order i)) d s st =
    (((t.finder.deblend objs d s st).1.1.map fun r => (r.1, r.2.map u),
      fun i => (t.finder.deblend objs d s st).1.2 (oldPlace order i)), (t.finder.deblend objs d s st).2)
  calls : ∀ mb m, mb.length = n → (∀ p ∈ mb, InFrame t.ext g p.2) →
    CallsR order n (t.calls mb m) (t.calls (reorder order mb) (m.map u))
  ids : ∀ s m, t.ids s (m.map u) = t.ids s m
  dilated : ∀ ctx, (t.gal.dilated ctx).nr = ctx.psf.nr ∧ (t.gal.dilated ctx).nc = ctx.psf.nc
  kernelPsf : ∀ im cen, ∃ im', t.ext.kernel (t.ext.kernelPsf im) cen = some im' ∧ im'.nr = im.nr ∧ im'.nc = im.nc

/-! ## Lemmas: rows -/

section rows
variable {order : List Nat} {n : Nat} {name : String}

theorem colsR_eq (row : Cols K F) : colsR order name row = mapV (valR order name) row := rfl

theorem valR_other {k : String} (h : k ∉ "shear_bands" :: bandCols) (v : Val K F) : valR order name k v = v := by
  unfold valR
  rw [if_neg fun e => h (by simp [e]), if_neg fun e => h (by simp [e])]

theorem valR_name {k : String} (h : k ≠ "shear_bands") (name' : String) (v : Val K F) :
    valR order name' k v = valR order name k v := by
  unfold valR
  rw [if_neg h, if_neg h]

theorem set_colsR (row : Cols K F) {k : String} (h : k ∉ "shear_bands" :: bandCols) (v : Val K F) :
    PyDict.set (colsR order name row) k v = colsR order name (PyDict.set row k v) := by
  rw [colsR_eq, colsR_eq, ← set_mapV, valR_other h]

theorem get_colsR (row : Cols K F) {k : String} (h : k ∉ "shear_bands" :: bandCols) :
    PyDict.get? (colsR order name row) k = PyDict.get? row k := by
  rw [colsR_eq, get?_mapV]
  cases PyDict.get? row k with
  | none => rfl
  | some v => simp [valR_other h]

theorem rowCols_gaussR (r : Row F) :
    rowCols (K := K) "gauss" (rowReorder order name r) = colsR order name (rowCols "gauss" r) := by rfl

theorem rowCols_pgaussR (r : Row F) :
    rowCols (K := K) "pgauss" (rowReorder order name r) = colsR order name (rowCols "pgauss" r) := by rfl

theorem addFields_colsR (row new : Cols K F) :
    addFields (colsR order name row) (colsR order name new) = (addFields row new).map (colsR order name) := by
  unfold addFields
  have h : (colsR order name new).any (fun c => PyDict.has (colsR order name row) c.1) =
      new.any fun c => PyDict.has row c.1 := by
    simp only [colsR, List.any_map]
    congr 1
    funext c
    exact has_mapV _ row c.1
  rw [h]
  split
  · rfl
  · simp [colsR, Except.map]

theorem zeroVal_R (fl : Flt F) {k : String} (hk : k ≠ "shear_bands") (v : Val K F) :
    zeroVal fl (valR order name k v) = valR order name k (zeroVal fl v) := by
  unfold valR
  rw [if_neg hk, if_neg hk]
  split
  · cases v with
    | nats l => simp only [zeroVal, reorder_map]
    | flts l => simp only [zeroVal, reorder_map]
    | _ => rfl
  · rfl

theorem combined_R (fl : Flt F) (name' : String) (g p : Cols K F) :
    combinedStruct fl (colsR order name g) (colsR order name' p) = (combinedStruct fl g p).map (colsR order name) := by
  unfold combinedStruct
  have h1 : (("stamp_flags", (Val.nat 0 : Val K F)) ::
      ((colsR order name' p).filter fun c => !(Columns.hasSub c.1 "psf" || decide (c.1 ∈ skip))).map
        fun c => (c.1, zeroVal fl c.2)) =
      colsR order name (("stamp_flags", (Val.nat 0 : Val K F)) ::
        (p.filter fun c => !(Columns.hasSub c.1 "psf" || decide (c.1 ∈ skip))).map fun c => (c.1, zeroVal fl c.2)) := by
    unfold colsR
    have h0 : valR order name "stamp_flags" (Val.nat 0 : Val K F) = Val.nat 0 := valR_other (by decide) _
    rw [List.map_cons, List.filter_map, List.map_map, List.map_map]
    simp only [h0]
    congr 1
    refine List.map_congr_left fun c hc => ?_
    have hne : c.1 ≠ "shear_bands" := by
      intro e
      have := (List.mem_filter.1 hc).2
      simp [Function.comp, e, skip] at this
    simp only [Function.comp, zeroVal_R fl hne, valR_name (name := name) hne]
  simp only [h1, addFields_colsR]
  cases addFields g _ with
  | error e => rfl
  | ok out =>
    simp only [Except.map]
    refine congrArg Except.ok ?_
    clear h1
    induction p generalizing out with
    | nil => rfl
    | cons c p ih =>
      have e : colsR order name' (c :: p) = (c.1, valR order name' c.1 c.2) :: colsR order name' p := rfl
      rw [e, List.foldl_cons, List.foldl_cons]
      simp only
      have hh : PyDict.has (colsR order name out) c.1 = PyDict.has out c.1 := has_mapV _ out c.1
      rw [hh]
      by_cases hc : (PyDict.has out c.1 && decide (c.1 ≠ "shear_bands")) = true
      · rw [if_pos hc, if_pos hc]
        have hne : c.1 ≠ "shear_bands" := by
          rw [Bool.and_eq_true, decide_eq_true_iff] at hc
          exact hc.2
        have hs : PyDict.set (colsR order name out) c.1 (valR order name' c.1 c.2) =
            colsR order name (PyDict.set out c.1 c.2) := by
          rw [valR_name (name := name) hne]
          exact set_mapV _ out c.1 c.2
        rw [hs]
        exact ih _
      · rw [if_neg hc, if_neg hc]
        exact ih _

theorem outputStruct_R (fl : Flt F) (na : Nat) (res : Cols K F) :
    outputStruct fl na (colsR order name res) = (outputStruct fl na res).map (colsR order name) := by
  unfold outputStruct
  rw [← addFields_colsR]
  rfl

theorem output_R (fl : Flt F) (na : Nat) (pe : PosExt K) (s : Source K) (res : Cols K F) (bm : Nat) (sz : Int) (box : Box) :
    output fl na pe s (colsR order name res) bm sz box = (output fl na pe s res bm sz box).map (colsR order name) := by
  unfold output
  rw [outputStruct_R]
  cases outputStruct fl na res with
  | error e => rfl
  | ok out =>
    simp only [Except.map]
    cases s.peaks with
    | nil => rfl
    | cons p ps =>
      simp only
      rw [set_colsR _ (by decide), set_colsR _ (by decide), set_colsR _ (by decide), set_colsR _ (by decide),
        set_colsR _ (by decide), set_colsR _ (by decide), set_colsR _ (by decide), set_colsR _ (by decide),
        set_colsR _ (by decide), set_colsR _ (by decide)]

/-- the rows of both fits of a source -/
def fitsR (order : List Nat) (name : String) (f : Nat × Row F × Row F) : Nat × Row F × Row F :=
  (f.1, rowReorder order name f.2.1, rowReorder order f.2.2.shearBands f.2.2)

theorem sourceRow_R (a : Args K P W F) (sb' : Except PyErr (List Nat)) (s : Source K) (bm : Nat) (f : Nat × Row F × Row F) :
    sourceRow { a with shearBands := sb' } s bm (fitsR order name f) = (sourceRow a s bm f).map (colsR order name) := by
  unfold sourceRow fitsR
  simp only [rowCols_gaussR (K := K), rowCols_pgaussR (K := K), combined_R (K := K) a.fl]
  cases combinedStruct (K := K) a.fl (rowCols "gauss" f.2.1) (rowCols "pgauss" f.2.2) with
  | error e => rfl
  | ok res =>
    simp only [Except.map]
    rw [set_colsR _ (by decide), output_R]
    rfl

theorem failedFits_R (ho : order.Perm (List.range n)) (hn : 0 < n) (a : Args K P W F) (ha : a.nband = n) (sb sb' : List Nat)
    (hsb : sb'.Perm (sb.map (newPlace order))) (f : Nat) :
    failedFits { a with shearBands := .ok sb' } sb' f = (failedFits a sb f).map (fitsR order (bandName sb')) := by
  have hlen : sb.length = sb'.length := by rw [hsb.length_eq, List.length_map]
  have h1 : (if n > 1 then n else 1) = n := by split <;> omega
  unfold failedFits
  simp only [ha]
  have e1 : freshRow a.fl a.noAttempt n (some sb') = (freshRow a.fl a.noAttempt n (some sb)).map
      (rowReorder order (bandName sb')) := by
    unfold freshRow
    simp only [hlen, h1]
    split
    · simp only [Except.map, rowReorder, reorder_replicate ho]
      rfl
    · rfl
  have e2 : freshRow a.fl a.noAttempt n none = (freshRow a.fl a.noAttempt n none).map
      fun r => rowReorder order r.shearBands r := by
    unfold freshRow
    simp only [h1, Except.map, rowReorder, reorder_replicate ho]
  cases hg : freshRow a.fl a.noAttempt n (some sb) with
  | error e => rw [e1, hg]; rfl
  | ok g =>
    cases hp : freshRow a.fl a.noAttempt n none with
    | error e => rw [e1, hg]; rfl
    | ok p =>
      rw [hp] at e2
      simp only [Except.map, Except.ok.injEq] at e2
      rw [e1, hg]
      simp only [Except.map, fitsR, ← e2]

theorem fitSource_R (ho : order.Perm (List.range n)) (hn : 0 < n) (a : Args K P W F) (ha : a.nband = n)
    {x y : Calls K P W F E} (h : CallsR order n x y) (sb sb' : List Nat) (hnd : sb.Nodup) (hsb : sb'.Perm (sb.map (newPlace order)))
    (s : Source K) (st st' : E) (f : Nat × Row F × Row F) (hf : fitSource a x sb s st = (.ok f, st')) :
    fitSource { a with shearBands := .ok sb' } y sb' s st = (.ok (fitsR order (bandName sb') f), st') := by
  unfold fitSource at hf ⊢
  rcases hs : x.stamp s st with ⟨r, st1⟩
  rw [hs] at hf
  have hfail : ∀ k, (failedFits a sb k, st1) = ((.ok f, st') : Except StampErr (Nat × Row F × Row F) × E) →
      (failedFits { a with shearBands := .ok sb' } sb' k, st1) = (.ok (fitsR order (bandName sb') f), st') := by
    intro k hk
    rw [failedFits_R ho hn a ha sb sb' hsb]
    rw [Prod.mk.injEq] at hk
    rw [hk.1, hk.2]
    rfl
  cases r with
  | error e =>
    cases e with
    | allZeroWeight =>
      rw [h.zero s st st1 hs]
      exact hfail _ hf
    | missingData => cases hf
    | py e =>
      cases e <;> first
        | (rw [h.edge s st st1 hs]; exact hfail _ hf)
        | cases hf
  | ok mb =>
    obtain ⟨hl, hy⟩ := h.stamp s st st1 mb hs
    rw [hy]
    simp only at hf ⊢
    rcases hg : x.gauss mb sb st1 with ⟨r, st2⟩
    rw [hg] at hf
    cases r with
    | error e => cases hf
    | ok g =>
      rw [h.gauss mb sb sb' st1 g st2 hl hnd hsb hg]
      simp only at hf ⊢
      rcases hp : x.pgauss mb st2 with ⟨r, st3⟩
      rw [hp] at hf
      cases r with
      | error e => cases hf
      | ok p =>
        rw [h.pgauss mb st2 p st3 hl hp]
        cases hf
        rfl

theorem measureLoop_R (ho : order.Perm (List.range n)) (hn : 0 < n) (a : Args K P W F) (ha : a.nband = n)
    {x y : Calls K P W F E} (h : CallsR order n x y) (sb sb' : List Nat) (hnd : sb.Nodup) (hsb : sb'.Perm (sb.map (newPlace order)))
    (sources : List (Source K)) (bms : List Nat) :
    ∀ (ids : List Nat) (i : Nat) (st st' : E) (rows : List (Cols K F)),
      measureLoop a x sources bms sb i ids st = (.ok rows, st') →
      measureLoop { a with shearBands := .ok sb' } y sources bms sb' i ids st =
        (.ok (rows.map (colsR order (bandName sb'))), st') := by
  intro ids
  induction ids with
  | nil => intro i st st' rows hr; cases hr; rfl
  | cons sid t ih =>
    intro i st st' rows hr
    simp only [measureLoop, h.meas] at hr ⊢
    cases hfd : find sources sid with
    | none => rw [hfd] at hr; cases hr
    | some s0 =>
      simp only [hfd] at hr ⊢
      cases hb : bms[i]? with
      | none => rw [hb] at hr; cases hr
      | some bm =>
        simp only [hb] at hr ⊢
        rcases hf : fitSource a x sb (x.meas s0) st with ⟨r, st1⟩
        rw [hf] at hr
        cases r with
        | error e => cases hr
        | ok f =>
          rw [fitSource_R ho hn a ha h sb sb' hnd hsb _ st st1 f hf]
          simp only at hr ⊢
          rw [sourceRow_R]
          cases hsr : sourceRow a (x.meas s0) bm f with
          | error e => rw [hsr] at hr; cases hr
          | ok row =>
            rw [hsr] at hr
            simp only [Except.map] at hr ⊢
            rcases hm : measureLoop a x sources bms sb (i + 1) t st1 with ⟨r, st2⟩
            rw [hm] at hr
            cases r with
            | error e => cases hr
            | ok rs =>
              cases hr
              rw [ih (i + 1) st1 _ rs hm]
              rfl

theorem measure_R (ho : order.Perm (List.range n)) (hn : 0 < n) (a : Args K P W F) (ha : a.nband = n)
    {x y : Calls K P W F E} (h : CallsR order n x y) (sb sb' : List Nat) (hnd : sb.Nodup) (hsb : sb'.Perm (sb.map (newPlace order)))
    (has : a.shearBands = .ok sb) (sources : List (Source K)) (ids : List Nat) (st st' : E) (r : Option (List (Cols K F)))
    (hr : LsstMeasure.measure a x sources ids st = (.ok r, st')) :
    LsstMeasure.measure { a with shearBands := .ok sb' } y sources ids st =
      (.ok (r.map (List.map (colsR order (bandName sb')))), st') := by
  unfold LsstMeasure.measure at hr ⊢
  by_cases hs : sources.isEmpty = true
  · rw [if_pos hs] at hr ⊢
    cases hr
    rfl
  · rw [if_neg hs] at hr ⊢
    simp only [has] at hr ⊢
    cases hb : getBmasks a.detexp sources with
    | error e => rw [hb] at hr; cases hr
    | ok bms =>
      simp only [hb] at hr ⊢
      rcases hm : measureLoop a x sources bms sb 0 ids st with ⟨q, st1⟩
      rw [hm] at hr
      cases q with
      | error e => cases hr
      | ok rows =>
        rw [measureLoop_R ho hn a ha h sb sb' hnd hsb sources bms ids 0 st st1 rows hm]
        cases rows with
        | nil => cases hr; rfl
        | cons row rows => cases hr; rfl

end rows

/-! ## Lemmas: the bands for shear -/

section idx
variable {order : List Nat} {n : Nat}

theorem indices_R (ho : order.Perm (List.range n)) (bands : List B) (hb : bands.length = n) (sb : Option (List B))
    (idx : List Nat) (h : LsstConfig.shearBandIndices bands sb = .ok idx) :
    ∃ idx', LsstConfig.shearBandIndices (reorder order bands) sb = .ok idx' ∧ idx'.Perm (idx.map (newPlace order)) := by
  have hpb := reorder_perm ho bands hb
  obtain ⟨idx', hidx'⟩ : ∃ idx', LsstConfig.shearBandIndices (reorder order bands) sb = .ok idx' := by
    rw [LsstConfig.indices_eq] at h ⊢
    rw [if_neg]
    · exact ⟨_, rfl⟩
    · intro hbad
      split at h
      · cases h
      · rename_i hgood
        apply hgood
        rw [← hbad, Bool.eq_iff_iff, List.all_eq_true, List.all_eq_true]
        constructor
        · intro H x hx
          have := H x ((names_mem bands sb ho hb x).1 hx)
          simpa [hpb.mem_iff] using this
        · intro H x hx
          have := H x ((names_mem bands sb ho hb x).2 hx)
          simpa [hpb.mem_iff] using this
  refine ⟨idx', hidx', ?_⟩
  obtain ⟨hpw, hmem⟩ := LsstConfig.C60_indices bands sb idx h
  obtain ⟨hpw', hmem'⟩ := LsstConfig.C60_indices (reorder order bands) sb idx' hidx'
  have hlt : ∀ i ∈ idx, i < n := by
    intro i hi
    obtain ⟨b, h1, -⟩ := (hmem i).1 hi
    rw [← hb]; exact (List.getElem?_eq_some_iff.1 h1).1
  refine (List.perm_ext_iff_of_nodup (hpw'.imp fun h => Nat.ne_of_lt h) ?_).2 fun i => ?_
  · refine List.Nodup.map_on (fun x hx y hy e => ?_) (hpw.imp fun h => Nat.ne_of_lt h)
    have h1 := (newPlace_iff ho (hlt x hx)).1 rfl
    have h2 := (newPlace_iff ho (hlt y hy)).1 rfl
    rw [e, h2] at h1
    simpa using h1.symm
  · rw [hmem', List.mem_map]
    constructor
    · rintro ⟨b, h1, h2⟩
      rw [reorder_get ho bands hb] at h1
      cases hk : order[i]? with
      | none => rw [hk] at h1; cases h1
      | some k =>
        rw [hk] at h1
        have hk' : k < n := List.mem_range.1 (ho.mem_iff.1 (List.mem_of_getElem? hk))
        exact ⟨k, (hmem k).2 ⟨b, h1, (names_mem bands sb ho hb b).1 h2⟩, (newPlace_iff ho hk').2 hk⟩
    · rintro ⟨k, hk, rfl⟩
      obtain ⟨b, h1, h2⟩ := (hmem k).1 hk
      exact ⟨b, by rw [reorder_newPlace ho bands hb, h1], (names_mem bands sb ho hb b).2 h2⟩

end idx

/-! ## Lemmas: detection -/

section detect
variable {order : List Nat} {n : Nat} {u : M → M}

theorem oneFrame_of_geo (ext : Ext K P W) (g : Geo W) (l : List (Exp K P W)) (h : ∀ e ∈ l, HasGeo ext g e) : OneFrame ext l := by
  refine ⟨g.nr, g.nc, g.pr, g.pc, g.wcs, g.x0, g.y0, fun e he => ?_⟩
  obtain ⟨h1, h2, h3, h4, p, h5, h6⟩ := h e he
  obtain ⟨im, h7, h8, h9⟩ := h6 (((g.nc : K) - 1) / 2, ((g.nr : K) - 1) / 2)
  exact ⟨h1, h2, h3, h4, p, im, h5, h7, h8, h9⟩

theorem oldPlace_lt (ho : order.Perm (List.range n)) {i : Nat} (hi : i < n) : order[i]? = some (oldPlace order i) ∧ oldPlace order i < n := by
  have hlen : order.length = n := by rw [ho.length_eq, List.length_range]
  have h1 : order[i]? = some (order[i]'(by omega)) := List.getElem?_eq_getElem (by omega)
  have hb : order[i]'(by omega) < n := List.mem_range.1 (ho.mem_iff.1 (List.getElem_mem (by omega)))
  unfold oldPlace
  rw [h1]
  exact ⟨rfl, hb⟩

theorem oldPlace_ge (ho : order.Perm (List.range n)) {i : Nat} (hi : n ≤ i) : order[i]? = none ∧ oldPlace order i = i := by
  have hlen : order.length = n := by rw [ho.length_eq, List.length_range]
  have h1 : order[i]? = none := List.getElem?_eq_none (by omega)
  unfold oldPlace
  rw [h1]
  exact ⟨rfl, rfl⟩

theorem objects_R (ho : order.Perm (List.range n)) (l : List (Exp K P W)) (hl : l.length = n) (new : Exp K P W) :
    objects (reorder order l) new = fun i => objects l new (oldPlace order i) := by
  funext i
  unfold objects
  rw [reorder_get ho l hl]
  by_cases hi : i < n
  · rw [(oldPlace_lt ho hi).1]
    rfl
  · obtain ⟨h1, h2⟩ := oldPlace_ge ho (Nat.le_of_not_lt hi)
    rw [h1, h2, List.getElem?_eq_none (by omega)]
    rfl

theorem range_R {α : Type _} (ho : order.Perm (List.range n)) (f : Nat → α) :
    (List.range n).map (fun i => f (oldPlace order i)) = reorder order ((List.range n).map f) := by
  refine List.ext_getElem? fun i => ?_
  rw [reorder_get ho _ (by simp)]
  by_cases hi : i < n
  · obtain ⟨h1, h2⟩ := oldPlace_lt ho hi
    rw [h1]
    simp [hi, h2]
  · rw [(oldPlace_ge ho (Nat.le_of_not_lt hi)).1]
    simp [hi]

theorem findSources_R {f : Finder K P W E M}
    (hf : ∀ objs d s st, oldPlace order d = d → f.deblend (fun i => objs (oldPlace order i)) d s st =
      (((f.deblend objs d s st).1.1.map fun r => (r.1, r.2.map u), fun i => (f.deblend objs d s st).1.2 (oldPlace order i)),
        (f.deblend objs d s st).2))
    (objs : Nat → Exp K P W) (d : Nat) (hd : ∀ i, oldPlace order i = d ↔ i = d) (st : E) :
    findSources f (fun i => objs (oldPlace order i)) d st =
      (((findSources f objs d st).1.1.map fun r => (r.1, r.2.map u), fun i => (findSources f objs d st).1.2 (oldPlace order i)),
        (findSources f objs d st).2) := by
  have hdd : oldPlace order d = d := (hd d).2 rfl
  unfold findSources
  rcases hdet : f.detect (objs d) st with ⟨⟨r, m⟩, st1⟩
  have hm : (setMasks (fun i => objs (oldPlace order i)) fun i => if i = d then m else (objs (oldPlace order i)).mask) =
      fun i => setMasks objs (fun i => if i = d then m else (objs i).mask) (oldPlace order i) := by
    funext i
    unfold setMasks
    simp only [hd i]
  simp only [hdd, hdet, hm]
  cases r with
  | error e => rfl
  | ok r =>
    cases r with
    | none => rfl
    | some sources =>
      have e := hf (setMasks objs fun i => if i = d then m else (objs i).mask) d sources st1 hdd
      change (((f.deblend (fun i => setMasks objs (fun i => if i = d then m else (objs i).mask) (oldPlace order i)) d sources
            st1).1.1,
          setMasks (fun i => setMasks objs (fun i => if i = d then m else (objs i).mask) (oldPlace order i))
            (f.deblend (fun i => setMasks objs (fun i => if i = d then m else (objs i).mask) (oldPlace order i)) d sources
              st1).1.2),
          (f.deblend (fun i => setMasks objs (fun i => if i = d then m else (objs i).mask) (oldPlace order i)) d sources
            st1).2) = _
      rw [e]
      rfl

/-- the result of detection for bands in another order -/
def detR (u : M → M) : DetRes K P W M → DetRes K P W M
  | .two => .two
  | .three s e m => .three s e (m.map u)

theorem detectRun_R (ho : order.Perm (List.range n)) (ext : Ext K P W) (toExp : Coadd K W → Exp K P W) (isF : Bool)
    {f : Finder K P W E M}
    (hf : ∀ objs d s st, oldPlace order d = d → f.deblend (fun i => objs (oldPlace order i)) d s st =
      (((f.deblend objs d s st).1.1.map fun r => (r.1, r.2.map u), fun i => (f.deblend objs d s st).1.2 (oldPlace order i)),
        (f.deblend objs d s st).2))
    (l : List (Exp K P W)) (hl : l.length = n) (hfr : OneFrame ext l) (st : E) :
    detectRun ext toExp isF f (reorder order l) st =
      (((detectRun ext toExp isF f l st).1.1.map (detR u), reorder order (detectRun ext toExp isF f l st).1.2),
        (detectRun ext toExp isF f l st).2) := by
  have hlen := reorder_length ho l hl
  have hgo : ∀ (new : Exp K P W) (d : Nat), (∀ i, oldPlace order i = d ↔ i = d) →
      (match findSources f (objects (reorder order l) new) d st with
      | ((r, objs), st) => (((r.map fun r : List (Source K) × Option M => DetRes.three r.1 (objs d) r.2,
          (List.range (reorder order l).length).map objs), st) :
          (Except StampErr (DetRes K P W M) × List (Exp K P W)) × E)) =
      (((match findSources f (objects l new) d st with
      | ((r, objs), st) => (((r.map fun r : List (Source K) × Option M => DetRes.three r.1 (objs d) r.2,
          (List.range l.length).map objs), st) :
          (Except StampErr (DetRes K P W M) × List (Exp K P W)) × E)).1.1.map (detR u),
        reorder order (match findSources f (objects l new) d st with
      | ((r, objs), st) => (((r.map fun r : List (Source K) × Option M => DetRes.three r.1 (objs d) r.2,
          (List.range l.length).map objs), st) :
          (Except StampErr (DetRes K P W M) × List (Exp K P W)) × E)).1.2),
        (match findSources f (objects l new) d st with
      | ((r, objs), st) => (((r.map fun r : List (Source K) × Option M => DetRes.three r.1 (objs d) r.2,
          (List.range l.length).map objs), st) :
          (Except StampErr (DetRes K P W M) × List (Exp K P W)) × E)).2) := by
    intro new d hd
    rw [objects_R ho l hl, findSources_R hf _ d hd, hlen, hl]
    generalize findSources f (objects l new) d st = r
    obtain ⟨⟨r, objs⟩, st1⟩ := r
    simp only [range_R ho, (hd d).2 rfl]
    cases r <;> rfl
  unfold detectRun
  rcases l with _ | ⟨e, _ | ⟨e2, t⟩⟩
  · have : reorder order ([] : List (Exp K P W)) = [] := List.eq_nil_of_length_eq_zero (by rw [hlen, ← hl]; rfl)
    rw [this]
    rfl
  · have h1 : n = 1 := by rw [← hl]; rfl
    subst h1
    have h2 : order = [0] := List.perm_singleton.1 ho
    have h3 : reorder order [e] = [e] := by subst h2; rfl
    have hid : ∀ i, oldPlace order i = i := by
      intro i
      subst h2
      cases i <;> rfl
    have := hgo e (if isF then 0 else 1) fun i => by rw [hid]
    rw [h3] at this ⊢
    exact this
  · have hc : coaddExposures ext (reorder order (e :: e2 :: t)) = coaddExposures ext (e :: e2 :: t) :=
      (C142_coadd ext _ _ (reorder_perm ho (e :: e2 :: t) hl).symm hfr).symm
    have hd : ∀ i, oldPlace order i = n ↔ i = n := by
      intro i
      by_cases hi : i < n
      · have := (oldPlace_lt ho hi).2
        omega
      · rw [(oldPlace_ge ho (Nat.le_of_not_lt hi)).2]
    have hg : ∀ new, _ := fun new => hgo new n hd
    generalize hq : reorder order (e :: e2 :: t) = q at hc hg hlen ⊢
    rcases q with _ | ⟨a, _ | ⟨b, q⟩⟩
    · simp at hlen hl; omega
    · simp at hlen hl; omega
    · simp only [hc]
      cases coaddExposures ext (e :: e2 :: t) with
      | error er => simp only [Except.map, hq]
      | ok r =>
        cases r with
        | none => simp only [Except.map, hq, detR]
        | some d =>
          simp only
          have := hg (toExp d)
          rw [hlen, hl] at this ⊢
          exact this

end detect

/-! ## Lemmas: one type -/

section types
variable {order : List Nat} {n : Nat} {u : M → M} {t : Task B K P W F E M} [FloorRing K] {g : Geo W}

theorem detectRun_length (ext : Ext K P W) (toExp : Coadd K W → Exp K P W) (isF : Bool) (f : Finder K P W E M)
    (l : List (Exp K P W)) (st : E) : (detectRun ext toExp isF f l st).1.2.length = l.length := by
  unfold detectRun
  rcases l with _ | ⟨e, _ | ⟨e2, t⟩⟩
  · rfl
  · simp
  · simp only
    cases coaddExposures ext (e :: e2 :: t) with
    | error er => rfl
    | ok r => cases r <;> simp

theorem args_R (ho : order.Perm (List.range n)) (hn : 0 < n) (mb : MbExp B K P W) (hl : mb.length = n) (detexp : Exp K P W)
    (w : Option W) (box : Box) (hg : ∀ p ∈ mb, p.2.wcs = w ∧ p.2.box = box) (idx' : List Nat)
    (hidx : LsstConfig.shearBandIndices (reorder order (mb.map (·.1))) t.shearBands = .ok idx') :
    t.args (reorder order mb) detexp = { t.args mb detexp with shearBands := .ok idx' } := by
  have hp := reorder_perm ho mb hl
  have hlen := reorder_length ho mb hl
  have h1 : (reorder order mb).map (·.1) = reorder order (mb.map (·.1)) := (reorder_map _ _).symm
  have hw : ∀ p ∈ reorder order mb, p.2.wcs = w ∧ p.2.box = box := fun p hpm => hg p (hp.mem_iff.1 hpm)
  rw [← h1] at hidx
  generalize reorder order mb = q at hlen h1 hw hidx
  clear h1 hp
  match mb, q, hl, hlen with
  | [], _, hl, _ => simp at hl; omega
  | _ :: _, [], _, hlen => simp at hlen; omega
  | (b0, e0) :: r0, (b1, e1) :: r1, hl, hlen =>
    obtain ⟨a1, a2⟩ := hg (b0, e0) (by simp)
    obtain ⟨c1, c2⟩ := hw (b1, e1) (by simp)
    simp only at a1 a2 c1 c2
    unfold Task.args
    simp only [hidx, hl, hlen, List.head?_cons, Option.bind_some, a1, a2, c1, c2]

theorem oneType_R (ho : order.Perm (List.range n)) (hn : 0 < n) (h : TaskR order n g u t) (mb : MbExp B K P W)
    (hl : mb.length = n) (hg : ∀ p ∈ mb, HasGeo t.ext g p.2) (idx idx' : List Nat)
    (hidx : LsstConfig.shearBandIndices (mb.map (·.1)) t.shearBands = .ok idx)
    (hidx' : LsstConfig.shearBandIndices (reorder order (mb.map (·.1))) t.shearBands = .ok idx')
    (hperm : idx'.Perm (idx.map (newPlace order))) (st st' : E) (r : Option (List (Cols K F)))
    (hr : oneType t mb st = (.ok r, st')) :
    oneType t (reorder order mb) st = (.ok (r.map (List.map (colsR order (bandName idx')))), st') := by
  have hsame := oneTypeExps_same t mb st
  unfold oneTypeExps at hsame
  unfold oneType at hr ⊢
  unfold oneTypeAll at hr hsame ⊢
  have h1 : (reorder order mb).map (·.2) = reorder order (mb.map (·.2)) := (reorder_map _ _).symm
  have h2 : (reorder order mb).map (·.1) = reorder order (mb.map (·.1)) := (reorder_map _ _).symm
  rw [h1, h2]
  unfold detectDeblendMeasure at hr hsame ⊢
  have hll : (mb.map (·.2)).length = n := by simp [hl]
  have hfr : OneFrame t.ext (mb.map (·.2)) := oneFrame_of_geo t.ext g _ fun e he => by
    obtain ⟨p, hp, rfl⟩ := List.mem_map.1 he
    exact hg p hp
  rw [detectRun_R (u := u) ho t.ext t.toExp t.isF h.deblend _ hll hfr]
  have hlen := detectRun_length t.ext t.toExp t.isF t.finder (mb.map (·.2)) st
  rcases hd : detectRun t.ext t.toExp t.isF t.finder (mb.map (·.2)) st with ⟨⟨q, l'⟩, st1⟩
  rw [hd] at hr hsame hlen ⊢
  simp only at hlen
  cases q with
  | error e => cases hr
  | ok q =>
    cases q with
    | two => cases hr
    | three sources detexp model =>
      simp only [Except.map, detR] at hr hsame ⊢
      have hz : (reorder order (mb.map (·.1))).zip (reorder order l') = reorder order ((mb.map (·.1)).zip l') :=
        (reorder_zip ho _ _ (by simp [hl]) (by rw [hlen, hll])).symm
      have hzl : ((mb.map (·.1)).zip l').length = n := by simp [hlen, hl]
      have hz1 : ((mb.map (·.1)).zip l').map (·.1) = mb.map (·.1) := by
        rw [List.map_fst_zip]
        simp [hlen]
      have hbox : ∀ p ∈ (mb.map (·.1)).zip l', InFrame t.ext g p.2 := by
        intro p hp
        obtain ⟨q, hq, -, k1, -, k3, k4, k5, k6⟩ := LsstFrame.mem_forall₂ hsame p hp
        obtain ⟨⟨g1, g2, -, -⟩, g3, g4, g5, g6⟩ := hg q hq
        rw [← k3] at g6
        refine ⟨k4.trans g3, ?_, g6⟩
        simp only [Exp.box, k1, k5, k6, g1, g2, g4, g5]
      rw [hz]
      generalize (mb.map (·.1)).zip l' = zz at hr hzl hz1 hbox ⊢
      rw [args_R ho hn zz hzl detexp g.wcs _ (fun p hp => ⟨(hbox p hp).1, (hbox p hp).2.1⟩) idx' (by rw [hz1]; exact hidx'), h.ids]
      rw [measure_R ho hn (t.args zz detexp) hzl (h.calls zz model hzl hbox) idx idx'
        ((LsstConfig.C60_indices _ _ idx hidx).1.imp fun h => Nat.ne_of_lt h) hperm
        (by simp only [Task.args, hz1]; exact hidx) sources (t.ids sources model) st1 st' r hr]

theorem posList_R (name : String) (rows : List (Cols K F)) : posList (rows.map (colsR order name)) = posList rows := by
  induction rows with
  | nil => rfl
  | cons r rows ih =>
    have h1 : posOf (colsR order name r) = posOf r := by
      unfold posOf
      rw [get_colsR _ (by decide), get_colsR _ (by decide), get_colsR _ (by decide), get_colsR _ (by decide)]
    simp only [List.map_cons, posList, h1, ih]

theorem setRows_R (name : String) (s : LsstPsf.PsfStats K) (pb : Option (List (LsstPsf.PerBand K))) (rows : List (Cols K F)) :
    ∀ (ms : List K) (os : List Nat), setRows { s with perband := pb } (rows.map (colsR order name)) ms os =
      (setRows s rows ms os).map (colsR order name) := by
  induction rows with
  | nil => intro ms os; rfl
  | cons r rows ih =>
    intro ms os
    cases ms with
    | nil => rfl
    | cons m ms =>
      cases os with
      | nil => rfl
      | cons o os =>
        simp only [List.map_cons, setRows, ih]
        congr 1
        unfold setRow setPsf
        simp only
        rw [set_colsR _ (by decide), set_colsR _ (by decide), set_colsR _ (by decide), set_colsR _ (by decide),
          set_colsR _ (by decide), set_colsR _ (by decide)]

theorem annotate_R (name : String) (mfrac : Img K) (ormask : Img Nat) (s : LsstPsf.PsfStats K)
    (pb : Option (List (LsstPsf.PerBand K))) (rows : List (Cols K F)) :
    annotate t mfrac ormask { s with perband := pb } (rows.map (colsR order name)) =
      (annotate t mfrac ormask s rows).map (List.map (colsR order name)) := by
  unfold annotate
  rw [posList_R]
  cases posList rows with
  | error e => rfl
  | ok ps =>
    simp only
    cases LsstPsf.addOrmask ormask ps with
    | error e => rfl
    | ok os => simp only [Except.map, setRows_R]

theorem typeLoop_R (ho : order.Perm (List.range n)) (hn : 0 < n) (h : TaskR order n g u t) (bands : List B) (idx idx' : List Nat)
    (hidx : LsstConfig.shearBandIndices bands t.shearBands = .ok idx)
    (hidx' : LsstConfig.shearBandIndices (reorder order bands) t.shearBands = .ok idx')
    (hperm : idx'.Perm (idx.map (newPlace order))) (mfrac : Img K) (ormask : Img Nat) (s : LsstPsf.PsfStats K)
    (pb : Option (List (LsstPsf.PerBand K))) (d : List (String × MbExp B K P W)) :
    (∀ q ∈ d, q.2.length = n ∧ q.2.map (·.1) = bands ∧ ∀ p ∈ q.2, HasGeo t.ext g p.2) →
    ∀ st st' res, typeLoop t mfrac ormask s d st = (.ok res, st') →
      typeLoop t mfrac ormask { s with perband := pb } (d.map fun q => (q.1, reorder order q.2)) st =
        (.ok (mapV (fun _ => Option.map (List.map (colsR order (bandName idx')))) res), st') := by
  induction d with
  | nil => intro _ st st' res hr; cases hr; rfl
  | cons q d ih =>
    intro hq st st' res hr
    obtain ⟨name, mb⟩ := q
    obtain ⟨hl, hb, hg⟩ := hq (name, mb) (by simp)
    have ih := ih fun q hqm => hq q (by simp [hqm])
    simp only at hl hb hg
    simp only [List.map_cons, typeLoop] at hr ⊢
    rcases hone : oneType t mb st with ⟨r, st1⟩
    rw [hone] at hr
    cases r with
    | error e => cases hr
    | ok r =>
      rw [oneType_R ho hn h mb hl hg idx idx' (by rw [hb]; exact hidx) (by rw [hb]; exact hidx') hperm st st1 r hone]
      have hrest : ∀ (x : Option (List (Cols K F))),
          (match typeLoop t mfrac ormask s d st1 with
          | (.error e, st) => ((.error e, st) : Except StampErr (PyDict String (Option (List (Cols K F)))) × E)
          | (.ok d, st) => (.ok ((name, x) :: d), st)) = (.ok res, st') →
          (match typeLoop t mfrac ormask { s with perband := pb } (d.map fun q => (q.1, reorder order q.2)) st1 with
          | (.error e, st) => ((.error e, st) : Except StampErr (PyDict String (Option (List (Cols K F)))) × E)
          | (.ok d, st) => (.ok ((name, x.map (List.map (colsR order (bandName idx')))) :: d), st)) =
          (.ok (mapV (fun _ => Option.map (List.map (colsR order (bandName idx')))) res), st') := by
        intro x hx
        rcases htl : typeLoop t mfrac ormask s d st1 with ⟨q, st2⟩
        rw [htl] at hx
        cases q with
        | error e => cases hx
        | ok rs =>
          cases hx
          rw [ih st1 _ rs htl]
          rfl
      cases r with
      | none => exact hrest none hr
      | some rows =>
        simp only [Option.map_some, annotate_R] at hr ⊢
        cases ha : annotate t mfrac ormask s rows with
        | error e => rw [ha] at hr; cases hr
        | ok rows' =>
          rw [ha] at hr
          exact hrest (some rows') hr

/-! ## Lemmas: PSFs and sheared exposures -/

/-- the outcome of the fit for one band -/
def oneFit (ext : Ext K P W) (fit : Img K × Jac K → LsstPsf.PsfFit K) (e : Exp K P W) : LsstPsf.PsfFit K :=
  match LsstPsf.originalPsfObs ext e with
  | .error er => .raised er
  | .ok o => fit o

theorem fitPsfs_good (ext : Ext K P W) (fit : Img K × Jac K → LsstPsf.PsfFit K) (l : List (Exp K P W)) (st : E)
    (h : (∀ f ∈ (LsstPsf.fitPsfs ext (fun o st => (fit o, st)) l st).1, f.Good) ∨ ∀ e ∈ l, (oneFit ext fit e).Good) :
    LsstPsf.fitPsfs ext (fun o st => (fit o, st)) l st = (l.map (oneFit ext fit), st) ∧ ∀ e ∈ l, (oneFit ext fit e).Good := by
  induction l with
  | nil => exact ⟨rfl, by simp⟩
  | cons e t ih =>
    unfold oneFit at h ⊢
    simp only [LsstPsf.fitPsfs, List.map_cons, List.mem_cons, forall_eq_or_imp] at h ⊢
    cases ho : LsstPsf.originalPsfObs ext e with
    | error er =>
      simp only [ho] at h
      rcases h with h | h
      · exact absurd (h (.raised er) (by simp)) (by simp [LsstPsf.PsfFit.Good])
      · exact (h.1).elim
    | ok o =>
      simp only [ho] at h ⊢
      cases hf : fit o with
      | fit e1 e2 T =>
        simp only [hf, List.mem_cons, forall_eq_or_imp] at h ⊢
        obtain ⟨k1, k2⟩ := ih (h.imp (·.2) (·.2))
        unfold oneFit at k1 k2
        rw [k1]
        exact ⟨rfl, trivial, k2⟩
      | failed =>
        simp only [hf, List.mem_cons, forall_eq_or_imp] at h
        rcases h with h | h <;> exact (h.1).elim
      | raised er =>
        simp only [hf, List.mem_cons, forall_eq_or_imp] at h
        rcases h with h | h <;> exact (h.1).elim

theorem fits_good (e2g : K → K → Option (K × K)) (idx : List Nat) (fits : List (LsstPsf.PsfFit K)) (wgts : List K)
    (s : LsstPsf.PsfStats K) (h : LsstPsf.fitOriginalPsfs e2g idx fits wgts = .ok s) :
    wgts.length = fits.length ∧ ∀ f ∈ fits, f.Good := by
  unfold LsstPsf.fitOriginalPsfs at h
  split at h
  · cases h
  rename_i hwl
  have hw : wgts.length = fits.length := not_not.1 hwl
  refine ⟨hw, fun f hf => ?_⟩
  simp only at h
  have hgood : ∀ b ∈ fits.zip wgts, b.1.Good := by
    rcases hr : LsstPsf.psfLoop idx 0 ⟨0, 0, 0, 0, 0, []⟩ (fits.zip wgts) with ⟨st, a⟩
    rw [hr] at h
    cases st with
    | raised e => cases h
    | caught =>
      simp only [LsstPsf.psfAfterFailure] at h
      split at h <;> cases h
    | done => exact psfLoop_good idx _ _ _ _ hr
  obtain ⟨i, hi, rfl⟩ := List.getElem_of_mem hf
  exact hgood (fits[i], wgts[i]) (by
    rw [List.mem_iff_getElem]
    exact ⟨i, by simp [hw, hi], by simp⟩)

theorem sheared_geo (h : TaskR order n g u t) (mb noise : MbExp B K P W) (hlen : noise.length = mb.length)
    (hg : ∀ p ∈ mb, HasGeo t.ext g p.2) (stats : Option (List (LsstPsf.PerBand K))) (d nd : PyDict String (MbExp B K P W))
    (hd : metacalMbexpsFixnoise t.ext t.gal mb noise t.types stats = .ok (d, nd)) (q : String × MbExp B K P W) (hq : q ∈ d) :
    q.2.length = mb.length ∧ q.2.map (·.1) = mb.map (·.1) ∧ ∀ p ∈ q.2, HasGeo t.ext g p.2 := by
  obtain ⟨a1, a2, a3⟩ := C71_fixnoise t.ext t.gal mb noise t.types stats d nd hlen hd
  have hk : PyDict.get? d q.1 = some q.2 := PyDict.get?_of_mem a1 hq
  obtain ⟨l, b1, b2, b3⟩ := a3 q.1 ((a2 q.1).1 (by rw [PyDict.has, hk]; rfl))
  rw [hk] at b1
  cases b1
  have hx : ∀ (i : Nat) (b : B) (e : Exp K P W), mb[i]? = some (b, e) → ∃ x, q.2[i]? = some (b, x) ∧ HasGeo t.ext g x := by
    intro i b e hi
    have hlt : i < noise.length := by
      rw [hlen]
      exact (List.getElem?_eq_some_iff.1 hi).1
    obtain ⟨x, s1, s2, c1, c2, -, c4⟩ := b3 i b noise[i].1 e noise[i].2 hi (List.getElem?_eq_getElem hlt)
    refine ⟨x, c1, ?_⟩
    obtain ⟨ctx, sh, hctx, -, m1, m2, -, m4, m5, -, m7, m8, m9⟩ := c2
    obtain ⟨f1, f2, -, -, -, -, f7, f8, f9, f10, f11⟩ := c4
    obtain ⟨⟨g1, g2, g3, g4⟩, g5, g6, g7, p, g8, g9⟩ := hg (b, e) (List.mem_of_getElem? hi)
    simp only at g1 g2 g3 g4 g5 g6 g7 g8
    have hpsf : ctx.psf.nr = g.pr ∧ ctx.psf.nc = g.pc := by
      obtain ⟨w, p', -, i2, i3, -⟩ := hctx
      rw [g8, Option.some.injEq] at i2
      subst i2
      obtain ⟨im, j1, j2⟩ := g9 (centre e)
      rw [j1, Option.some.injEq] at i3
      rw [← i3]
      exact j2
    refine ⟨⟨by rw [f1, m1, g1], by rw [f2, m2, g2], by rw [f7, m5, g3], by rw [f7, m5, g4]⟩, by rw [f9, m7, g5],
      by rw [f10, m8, g6], by rw [f11, m9, g7], _, by rw [f8, m4], fun cen => ?_⟩
    obtain ⟨im', k1, k2, k3⟩ := h.kernelPsf (t.gal.dilated ctx) cen
    exact ⟨im', k1, by rw [k2, (h.dilated ctx).1, hpsf.1], by rw [k3, (h.dilated ctx).2, hpsf.2]⟩
  refine ⟨b2, ?_, ?_⟩
  · refine List.ext_getElem? fun i => ?_
    by_cases hi : i < mb.length
    · obtain ⟨x, hx1, -⟩ := hx i mb[i].1 mb[i].2 (List.getElem?_eq_getElem hi)
      simp [hx1, hi]
    · rw [List.getElem?_eq_none (by simp; omega), List.getElem?_eq_none (by simp; omega)]
  · intro p hp
    obtain ⟨i, hi, rfl⟩ := List.getElem_of_mem hp
    obtain ⟨x, hx1, hx2⟩ := hx i mb[i].1 mb[i].2 (List.getElem?_eq_getElem (by omega))
    rw [List.getElem?_eq_getElem hi, Option.some.injEq] at hx1
    rw [hx1]
    exact hx2

theorem runFrom_R (ho : order.Perm (List.range n)) (hn : 0 < n) (h : TaskR order n g u t) (mb noise : MbExp B K P W)
    (hl : mb.length = n) (hnl : noise.length = n) (hg : ∀ p ∈ mb, HasGeo t.ext g p.2) (getPsf : Bool)
    (ormask : Img Nat) (mfrac : Img K) (ws : List K) (st : E) (res : PyDict String (Entry K F))
    (hr : (runFrom t mb noise getPsf ormask mfrac ws st).res = .ok res) :
    ∃ idx', LsstConfig.shearBandIndices (reorder order (mb.map (·.1))) t.shearBands = .ok idx' ∧
      runFrom t (reorder order mb) (reorder order noise) getPsf ormask mfrac (reorder order ws) st =
        { res := .ok (res.map fun p => (p.1, entryR order (bandName idx') p.2))
          rng := (runFrom t mb noise getPsf ormask mfrac ws st).rng
          mbexp := reorder order (runFrom t mb noise getPsf ormask mfrac ws st).mbexp } := by
  have h2 : (reorder order mb).map (·.1) = reorder order (mb.map (·.1)) := (reorder_map _ _).symm
  have hbl : (mb.map (·.1)).length = n := by simp [hl]
  obtain ⟨fit, hfit⟩ := h.psfFit
  have hfun : t.psfFit = fun o st => (fit o, st) := by
    funext o st
    exact hfit o st
  unfold runFrom at hr ⊢
  rw [h2]
  cases hidx : LsstConfig.shearBandIndices (mb.map (·.1)) t.shearBands with
  | error e => rw [hidx] at hr; cases hr
  | ok idx =>
    obtain ⟨idx', hidx', hperm⟩ := indices_R ho _ hbl t.shearBands idx hidx
    refine ⟨idx', hidx', ?_⟩
    rw [hidx] at hr
    simp only [hidx'] at hr ⊢
    rcases hfs : t.fits mb st with ⟨fits, st1⟩
    rw [hfs] at hr
    simp only at hr ⊢
    cases hs : LsstPsf.fitOriginalPsfs t.e2g idx fits ws with
    | error e => rw [hs] at hr; cases hr
    | ok s =>
      rw [hs] at hr
      simp only at hr ⊢
      obtain ⟨-, hgood⟩ := fits_good _ _ _ _ _ hs
      unfold Task.fits at hfs ⊢
      rw [hfun] at hfs ⊢
      obtain ⟨e1, e2⟩ := fitPsfs_good t.ext fit (mb.map (·.2)) st (.inl (by rw [hfs]; exact hgood))
      rw [hfs, Prod.mk.injEq] at e1
      obtain ⟨rfl, rfl⟩ := e1
      have hp2 : (reorder order mb).map (·.2) = reorder order (mb.map (·.2)) := (reorder_map _ _).symm
      have hperm2 := reorder_perm ho (mb.map (·.2)) (by simp [hl])
      obtain ⟨f1, -⟩ := fitPsfs_good t.ext fit (reorder order (mb.map (·.2))) st1
        (.inr fun e he => e2 e (hperm2.mem_iff.1 he))
      rw [hp2, f1]
      simp only
      rw [← reorder_map]
      obtain ⟨idx'', hi2, hps⟩ := C142_psf t.e2g ho (mb.map (·.1)) hbl t.shearBands idx hidx
        ((mb.map (·.2)).map (oneFit t.ext fit)) ws (by simp [hl]) s hs
      rw [hidx', Except.ok.injEq] at hi2
      subst hi2
      rw [hps]
      simp only
      have hst : (if t.fitgauss = true then s.perband.map (reorder order) else none) =
          (if t.fitgauss = true then s.perband else none).map (reorder order) := by split <;> rfl
      rw [hst]
      rcases hm : metacalMbexpsFixnoise t.ext t.gal mb noise t.types (if t.fitgauss = true then s.perband else none) with er | ⟨d, nd⟩
      · rw [hm] at hr; cases hr
      · rw [hm] at hr
        rw [C142_metacal t.ext t.gal ho mb noise hl hnl t.types _ d nd hm]
        simp only at hr ⊢
        rcases htl : typeLoop t mfrac ormask s d st1 with ⟨q, st2⟩
        rw [htl] at hr
        cases q with
        | error e => cases hr
        | ok tabs =>
          simp only [Except.ok.injEq] at hr
          subst hr
          rw [typeLoop_R ho hn h (mb.map (·.1)) idx idx' hidx hidx' hperm mfrac ormask s _ d (fun q hq => by
            obtain ⟨g1, g2, g3⟩ := sheared_geo h mb noise (by omega) hg _ d nd hm q hq
            exact ⟨by omega, g2, g3⟩) st1 st2 tabs htl]
          simp only [Out.mk.injEq, Except.ok.injEq, and_true]
          have hm : ((mapV (fun _ => Option.map (List.map (colsR order (bandName idx')))) tabs).map
              fun p => (p.1, Entry.table p.2)) =
              mapV (fun _ => entryR order (bandName idx')) (tabs.map fun p => (p.1, (Entry.table p.2 : Entry K F))) := by
            simp [mapV, entryR, Function.comp_def]
          rw [hm]
          split
          · exact set_mapV (fun _ => entryR order (bandName idx')) _ "psf_stats" (Entry.psf s)
          · rfl

/-! ## C142 -/

/-- C142 (whole run): if a run of the LSST pipeline returns, then a run for the same bands in another order, with noise
exposures, masked fractions and masks in the same order, returns too.  The bands for shear are found at their new places
`idx'`; the tables have the same rows in the same order, with the same values in every column except that the columns with one
value per band are in the new order and the column `shear_bands` has the new places; the PSF statistics are the same with the
bands in the new order, the random state is the same, and the caller's exposures are the same in the new order. -/
theorem C142_run (ho : order.Perm (List.range n)) (hn : 0 < n) (h : TaskR order n g u t) (mbexp noise : MbExp B K P W)
    (hl : mbexp.length = n) (hnl : noise.length = n) (hg : ∀ p ∈ mbexp, HasGeo t.ext g p.2)
    (mfracs : Option (List (Img K))) (hmf : ∀ ms, mfracs = some ms → ms.length = n ∧ ∀ m ∈ ms, m.nr = g.nr ∧ m.nc = g.nc)
    (ormasks : Option (List (Img Nat))) (hom : ∀ l, ormasks = some l → l.length = n) (getPsf : Bool) (st : E)
    (res : PyDict String (Entry K F)) (hr : (run t mbexp noise mfracs ormasks getPsf st).res = .ok res) :
    ∃ idx', LsstConfig.shearBandIndices (reorder order (mbexp.map (·.1))) t.shearBands = .ok idx' ∧
      run t (reorder order mbexp) (reorder order noise) (mfracs.map (reorder order)) (ormasks.map (reorder order)) getPsf st =
        { res := .ok (res.map fun p => (p.1, entryR order (bandName idx') p.2))
          rng := (run t mbexp noise mfracs ormasks getPsf st).rng
          mbexp := reorder order (run t mbexp noise mfracs ormasks getPsf st).mbexp } := by
  have hor : ormaskOf (reorder order mbexp) (ormasks.map (reorder order)) = ormaskOf mbexp ormasks := by
    cases ormasks with
    | some l =>
      exact C142_ormask (0, 0) _ _ (reorder_perm ho l (hom l rfl))
    | none =>
      have hp := reorder_perm ho mbexp hl
      have hlen := reorder_length ho mbexp hl
      have hw : ∀ p ∈ reorder order mbexp, p.2.image.nr = g.nr ∧ p.2.image.nc = g.nc := fun p hpm =>
        ⟨(hg p (hp.mem_iff.1 hpm)).1.1, (hg p (hp.mem_iff.1 hpm)).1.2.1⟩
      generalize reorder order mbexp = q at hlen hw
      match mbexp, q, hl, hlen with
      | [], _, hl, _ => simp at hl; omega
      | _ :: _, [], _, hlen => simp at hlen; omega
      | (b0, e0) :: r0, (b1, e1) :: r1, _, _ =>
        have k := hw (b1, e1) (by simp)
        have k0 := (hg (b0, e0) (by simp)).1
        simp only at k k0
        simp only [ormaskOf, Option.map_none, k.1, k.2, k0.1, k0.2.1]
  unfold run at hr ⊢
  rw [hor]
  cases hO : ormaskOf mbexp ormasks with
  | error e => rw [hO] at hr; cases hr
  | ok ormask =>
    rw [hO] at hr
    simp only at hr ⊢
    cases mfracs with
    | none => cases hr
    | some ms =>
      obtain ⟨m1, m2⟩ := hmf ms rfl
      have hv : (reorder order mbexp).map (fun p => p.2.var) = reorder order (mbexp.map fun p => p.2.var) :=
        (reorder_map _ _).symm
      have hmfr := C142_mfrac t.median ho g.nr g.nc (mbexp.map fun p => p.2.var) ms (by simp [hl]) m1 m2
      simp only [Option.map_some]
      rw [hv, hmfr]
      rcases hM : LsstPsf.mfracMbexp t.median (mbexp.map fun p => p.2.var) (some ms) with er | ⟨mfrac, ws⟩
      · rw [hM] at hr; cases hr
      · simp only [hM, Except.map] at hr ⊢
        by_cases hs : t.subtractSky = true
        · simp only [hs, if_true] at hr ⊢
          rcases hsk : t.sky mbexp with ⟨q, mb'⟩
          rw [hsk] at hr
          cases q with
          | error e => cases hr
          | ok x =>
            obtain ⟨s1, s2, s3⟩ := h.sky mbexp mb' hl hsk
            rw [s1, ← s2]
            have hl' : mb'.length = n := by
              have := congrArg List.length s2
              simpa [hl] using this
            exact runFrom_R ho hn h mb' noise hl' hnl (s3 hg) getPsf ormask mfrac ws st res hr
        · simp only [Bool.not_eq_true] at hs
          simp only [hs] at hr ⊢
          exact runFrom_R ho hn h mbexp noise hl hnl hg getPsf ormask mfrac ws st res hr

end types

end MD.LsstOrder
