import Verif.Props.LsstRun
import Verif.Props.LsstStamp
import Mathlib.Tactic.Linarith

/-!
# C124: the fits of an LSST source depend only on the pixels of its stamp, not on where the stamp is
-/

namespace MD.LsstLocal

set_option linter.unusedSectionVars false

open LsstExp LsstGeom LsstMetacal LsstMeasure LsstRun Wavg Joint Flags

variable {B K P W F E M : Type} [Field K] [LinearOrder K] [IsStrictOrderedRing K] [DecidableEq B]

/-! ## Specification -/

/-- SPEC: a position moved by whole pixels -/
def moved (dx dy : Int) (q : K × K) : K × K := (q.1 + dx, q.2 + dy)

/-- SPEC: the pixel is in the square around `p` that a stamp of size `n` covers -/
def Near (p : Int × Int) (n x y : Int) : Prop :=
  p.1 - n / 2 ≤ x ∧ x ≤ p.1 + n / 2 ∧ p.2 - n / 2 ≤ y ∧ y ≤ p.2 + n / 2

/-- SPEC: the whole square is in the exposure -/
def HasStamp (p : Int × Int) (n : Int) (e : Exp K P W) : Prop :=
  e.x0 ≤ p.1 - n / 2 ∧ p.1 + n / 2 < e.x0 + e.image.nc ∧ e.y0 ≤ p.2 - n / 2 ∧ p.2 + n / 2 < e.y0 + e.image.nr

/-- SPEC: around `p` the exposure `e` looks like `e'` around `p` moved by `(dx, dy)`: both contain the
square or neither does, and image, mask, variance, PSF and the local pixel scale agree.  Nothing is said
about the rest of the exposures: they may have other sizes and corners. -/
structure SameNear (ext : Ext K P W) (dx dy : Int) (p : Int × Int) (n : Int) (e e' : Exp K P W) : Prop where
  inside : HasStamp p n e ↔ HasStamp (p.1 + dx, p.2 + dy) n e'
  image : ∀ x y, HasStamp p n e → Near p n x y → atGlobal e' e'.image (x + dx) (y + dy) = atGlobal e e.image x y
  mask : ∀ x y, HasStamp p n e → Near p n x y → atGlobal e' e'.mask (x + dx) (y + dy) = atGlobal e e.mask x y
  var : ∀ x y, HasStamp p n e → Near p n x y → atGlobal e' e'.var (x + dx) (y + dy) = atGlobal e e.var x y
  psf : ∀ q, e'.psf.map (fun f => ext.kernel f (moved dx dy q)) = e.psf.map fun f => ext.kernel f q
  wcs : ∀ q, e'.wcs.map (fun w => ext.linear w (moved dx dy q)) = e.wcs.map fun w => ext.linear w q

/-- SPEC: the same source, moved; the ids and the other sources may differ -/
structure SameSource (dx dy : Int) (s s' : Source K) : Prop where
  peaks : s'.peaks = s.peaks.map fun p => (p.1 + dx, p.2 + dy)
  cen : s'.cen = s.cen.map (moved dx dy)
  nanCen : s'.nanCen = moved dx dy s.nanCen
  coord : s'.coordPix = s.coordPix.map (moved dx dy)

/-- SPEC: two observations that no code can tell apart: same shape, same pixels -/
structure SameObs (o o' : JObs K (Jac K)) : Prop where
  image : o.image.Same o'.image
  bmask : ∃ m m', o.bmask = some m ∧ o'.bmask = some m' ∧ m.Same m'
  weight : o'.weight = o.weight
  rest : o'.rest = o.rest
  others : o'.noise = o.noise ∧ o'.ormask = o.ormask ∧ o'.mfrac = o.mfrac ∧ o'.izw = o.izw

/-- SPEC: the same stamps, or the same exception -/
def SameStamps (r r' : Except StampErr (JMb K (Jac K))) : Prop :=
  match r, r' with
  | .ok mb, .ok mb' => List.Forall₂ (List.Forall₂ SameObs) mb mb'
  | .error er, .error er' => er = er'
  | _, _ => False

/-- SPEC: both fitters look at nothing but the observations: not at what numpy would not show of the
arrays, and not at the random state -/
structure ReadsPixels (c c' : Calls K P W F E) : Prop where
  gauss : ∀ mb mb' sb st st', List.Forall₂ (List.Forall₂ SameObs) mb mb' →
    (c'.gauss mb' sb st').1 = (c.gauss mb sb st).1
  pgauss : ∀ mb mb' st st', List.Forall₂ (List.Forall₂ SameObs) mb mb' →
    (c'.pgauss mb' st').1 = (c.pgauss mb st).1

/-- SPEC: the same settings; the boxes and detection exposures may differ -/
structure SameSettings (dx dy : Int) (a a' : Args K P W F) : Prop where
  fl : a'.fl = a.fl
  noAttempt : a'.noAttempt = a.noAttempt
  nband : a'.nband = a.nband
  stampSize : a'.stampSize = a.stampSize
  shearBands : a'.shearBands = a.shearBands
  sky : ∀ q, a'.pe.sky (moved dx dy q) = a.pe.sky q

/-- SPEC: the WCS of the first band -/
def firstWcs (exps : MbExp B K P W) : Option W := exps.head?.bind (·.2.wcs)

/-- SPEC: the same bands, and a WCS that gives shifted pixels the same sky position -/
structure SameFrame (t : Task B K P W F E M) (dx dy : Int) (exps exps' : MbExp B K P W) : Prop where
  bands : exps'.map (·.1) = exps.map (·.1)
  sky : ∀ q, (t.pe (firstWcs exps')).sky (moved dx dy q) = (t.pe (firstWcs exps)).sky q

/-- SPEC: two rows with the same fits and stamp flags, the same offset from the peak and sky position, and
positions that differ by `(dx, dy)` if the centroid is known -/
def SameFits (dx dy : Int) (nan : F) (noAttempt : Nat) (centroid : Bool) (row row' : Cols K F) : Prop :=
  ∃ (f : Nat) (g q : Row F) (x x' : Place K), row = fitCols f g q ++ placeCols nan noAttempt x ∧
    row' = fitCols f g q ++ placeCols nan noAttempt x' ∧ x'.stampSize = x.stampSize ∧
    x'.rowDiff = x.rowDiff ∧ x'.colDiff = x.colDiff ∧ x'.ra = x.ra ∧ x'.dec = x.dec ∧
    (centroid = true → x'.row = x.row + dy ∧ x'.col = x.col + dx)

/-- SPEC: a task that cuts stamps of size `n` straight out of the exposures (the SDSS deblender), with fits
that look at nothing but the observations -/
structure PlainTask (t : Task B K P W F E M) (n : Int) : Prop where
  stamp : ∀ exps m, ∃ kids, (t.calls exps m).stamp = extractorStamp t.ext (exps.map (·.2)) kids n
  size : t.stampSize = n
  fits : ∀ exps m exps' m', ReadsPixels (t.calls exps m) (t.calls exps' m')

/-- SPEC: row `i` of a table belongs to the source `s` -/
structure RowOf (sources : List (Source K)) (ids : List Nat) (rows : List (Cols K F)) (s : Source K) (i : Nat)
    (row : Cols K F) : Prop where
  distinct : (sources.map (·.sid)).Nodup
  source : s ∈ sources
  id : ids[i]? = some s.sid
  row : rows[i]? = some row

/-- SPEC: the sources `s` and `s'` look the same in the exposures, up to a shift -/
structure LooksSame (t : Task B K P W F E M) (dx dy n : Int) (exps exps' : MbExp B K P W) (m m' : Option M)
    (s s' : Source K) : Prop where
  source : SameSource dx dy ((t.calls exps m).meas s) ((t.calls exps' m').meas s')
  pixels : ∃ p tl, ((t.calls exps m).meas s).peaks = p :: tl ∧
    List.Forall₂ (SameNear t.ext dx dy p n) (exps.map (·.2)) (exps'.map (·.2))

/-- SPEC: `rows` is the table of the sources found in the exposures `mb`; `exps` are these exposures as
detection and deblending leave them (with other masks) -/
structure Found (t : Task B K P W F E M) (mb : MbExp B K P W) (rows : List (Cols K F)) (exps : MbExp B K P W)
    (det : Exp K P W) (sources : List (Source K)) (model : Option M) : Prop where
  found : ∃ detexp st st1, (mb.map (·.2) = [detexp] ∨ 2 ≤ mb.length ∧
      ∃ cd, coaddExposures t.ext (mb.map (·.2)) = .ok (some cd) ∧ detexp = t.toExp cd) ∧
    Finds t.finder (mb.map (·.2)) detexp (detNumber t.isF (mb.map (·.2))) st sources model st1 ∧
    SameButMask detexp det
  same : List.Forall₂ (fun p q => q.1 = p.1 ∧ SameButMask p.2 q.2) mb exps
  rows : rows.length = (t.ids sources model).length

/-! ## Lemmas -/

theorem toList_same {α : Type _} {a b : Img α} (h : a.Same b) : a.toList = b.toList := by
  obtain ⟨h1, h2, h3⟩ := h
  unfold Img.toList
  rw [h1, h2]
  apply List.map_congr_left
  intro p hp
  apply h3
  rw [← h1, ← h2] at hp
  obtain ⟨r, c⟩ := p
  exact (Img.mem_coords _ _ _).1 hp

theorem contains_iff (e : Exp K P W) (p : Int × Int) (n : Int) (hn : 0 ≤ n) :
    e.box.contains ⟨p.1 - n / 2, p.2 - n / 2, 2 * (n / 2) + 1, 2 * (n / 2) + 1⟩ = true ↔ HasStamp p n e := by
  unfold HasStamp
  simp only [Box.contains, Box.isEmpty, Exp.box, Bool.or_eq_true, Bool.and_eq_true]
  constructor
  · rintro ((h | h) | h)
    · exact absurd (of_decide_eq_true h) (by omega)
    · exact absurd (of_decide_eq_true h) (by omega)
    · obtain ⟨⟨⟨h1, h2⟩, h3⟩, h4⟩ := h
      have h3 := of_decide_eq_true h3
      have h4 := of_decide_eq_true h4
      exact ⟨of_decide_eq_true h1, by omega, of_decide_eq_true h2, by omega⟩
  · rintro ⟨h1, h2, h3, h4⟩
    exact .inr ⟨⟨⟨decide_eq_true h1, decide_eq_true h3⟩, decide_eq_true (by omega)⟩, decide_eq_true (by omega)⟩

theorem grow_eq (p : Int × Int) (n : Int) (hn : 0 ≤ n) : Box.grow ⟨p.1, p.2, 1, 1⟩ (n / 2) =
    ⟨p.1 - n / 2, p.2 - n / 2, 2 * (n / 2) + 1, 2 * (n / 2) + 1⟩ := by
  have h1 : Box.isEmpty ⟨p.1, p.2, 1, 1⟩ = false := by simp [Box.isEmpty]
  have h2 : Box.isEmpty ⟨p.1 - n / 2, p.2 - n / 2, 1 + 2 * (n / 2), 1 + 2 * (n / 2)⟩ = false := by
    simp only [Box.isEmpty, Bool.or_eq_false_iff, decide_eq_false_iff_not]
    omega
  simp only [Box.grow, h1, Box.norm, h2, Bool.false_eq_true, if_false]
  congr 1 <;> omega

theorem cut_same {α : Type _} (e e' : Exp K P W) (im im' : Img α) (dx dy : Int) (p : Int × Int) (n : Int)
    (hin : HasStamp p n e) (hin' : HasStamp (p.1 + dx, p.2 + dy) n e')
    (h : ∀ x y, Near p n x y → atGlobal e' im' (x + dx) (y + dy) = atGlobal e im x y) :
    (cut e.x0 e.y0 ⟨p.1 - n / 2, p.2 - n / 2, 2 * (n / 2) + 1, 2 * (n / 2) + 1⟩ im).Same
      (cut e'.x0 e'.y0 ⟨p.1 + dx - n / 2, p.2 + dy - n / 2, 2 * (n / 2) + 1, 2 * (n / 2) + 1⟩ im') := by
  refine ⟨rfl, rfl, fun r c hrc => ?_⟩
  simp only [Img.In, cut] at hrc
  unfold HasStamp at hin hin'
  simp only at hin'
  have := h (p.1 - n / 2 + c) (p.2 - n / 2 + r) ⟨by omega, by omega, by omega, by omega⟩
  simp only [atGlobal] at this
  simp only [cut]
  rw [show r + (p.2 - n / 2 - e.y0).toNat = (p.2 - n / 2 + r - e.y0).toNat by omega,
    show c + (p.1 - n / 2 - e.x0).toNat = (p.1 - n / 2 + c - e.x0).toNat by omega,
    show r + (p.2 + dy - n / 2 - e'.y0).toNat = (p.2 - n / 2 + r + dy - e'.y0).toNat by omega,
    show c + (p.1 + dx - n / 2 - e'.x0).toNat = (p.1 - n / 2 + c + dx - e'.x0).toNat by omega]
  exact this.symm

theorem orig_moved {dx dy : Int} {s s' : Source K} (hs : SameSource dx dy s s') :
    s'.orig = moved dx dy s.orig := by
  unfold Source.orig
  rw [hs.cen, hs.nanCen]
  cases s.cen <;> rfl

theorem jac_moved (ext : Ext K P W) (dx dy : Int) (e e' : Exp K P W) (s s' : Source K)
    (hs : SameSource dx dy s s') (hx : e'.x0 = e.x0 + dx) (hy : e'.y0 = e.y0 + dy)
    (hw : ∀ q, e'.wcs.map (fun w => ext.linear w (moved dx dy q)) = e.wcs.map fun w => ext.linear w q) :
    jacobianAtSource ext e' s' = jacobianAtSource ext e s := by
  have hj : ∀ w w' q, ext.linear w' (moved dx dy q) = ext.linear w q →
      getJacobian ext w' e'.x0 e'.y0 (moved dx dy q) = getJacobian ext w e.x0 e.y0 q := by
    intro w w' q h
    unfold getJacobian
    rw [h, hx, hy]
    simp [moved]
  unfold jacobianAtSource
  cases h1 : e.wcs with
  | none =>
    cases h2 : e'.wcs with
    | none => rfl
    | some w' => have := hw s.orig; rw [h1, h2] at this; cases this
  | some w =>
    cases h2 : e'.wcs with
    | none => have := hw s.orig; rw [h1, h2] at this; cases this
    | some w' =>
      have hl : ∀ q, ext.linear w' (moved dx dy q) = ext.linear w q := by
        intro q
        have := hw q
        rw [h1, h2] at this
        exact Option.some.inj this
      simp only [hs.coord, hs.peaks]
      cases s.coordPix with
      | some q => simp only [Option.map_some, hj w w' q (hl q)]
      | none =>
        cases s.peaks with
        | nil => rfl
        | cons p t =>
          simp only [Option.map_none, List.map_cons]
          have := hj w w' ((p.1 : K), (p.2 : K)) (hl _)
          simp only [moved] at this
          push_cast
          rw [this]

theorem psf_moved (ext : Ext K P W) (dx dy : Int) (e e' : Exp K P W) (q : K × K)
    (hp : ∀ q, e'.psf.map (fun f => ext.kernel f (moved dx dy q)) = e.psf.map fun f => ext.kernel f q) :
    extractPsfImage ext e' (moved dx dy q) = extractPsfImage ext e q := by
  have := hp q
  unfold extractPsfImage
  cases h1 : e.psf with
  | none =>
    cases h2 : e'.psf with
    | none => rfl
    | some w' => rw [h1, h2] at this; cases this
  | some w =>
    cases h2 : e'.psf with
    | none => rw [h1, h2] at this; cases this
    | some w' =>
      rw [h1, h2] at this
      simp only [Option.map_some, Option.some.injEq] at this
      simp only [this]

theorem obs_same (ext : Ext K P W) (dx dy : Int) (e e' : Exp K P W) (s s' : Source K)
    (hs : SameSource dx dy s s') (hx : e'.x0 = e.x0 + dx) (hy : e'.y0 = e.y0 + dy)
    (him : e.image.Same e'.image) (hm : e.mask.Same e'.mask) (hv : e.var.Same e'.var)
    (hp : ∀ q, e'.psf.map (fun f => ext.kernel f (moved dx dy q)) = e.psf.map fun f => ext.kernel f q)
    (hw : ∀ q, e'.wcs.map (fun w => ext.linear w (moved dx dy q)) = e.wcs.map fun w => ext.linear w q) :
    (∃ o o', extractObs ext e s = .ok o ∧ extractObs ext e' s' = .ok o' ∧ SameObs o o') ∨
    ∃ er, extractObs ext e s = .error er ∧ extractObs ext e' s' = .error er := by
  have h1 : extractWeight ext e' = extractWeight ext e := by
    unfold extractWeight
    rw [← toList_same hv, hv.1, hv.2.1]
  have h2 := jac_moved ext dx dy e e' s s' hs hx hy hw
  have h3 := psf_moved ext dx dy e e' s.orig hp
  rw [← orig_moved hs] at h3
  unfold extractObs
  simp only [h1, h2, h3]
  split
  · exact .inr ⟨_, rfl, rfl⟩
  rcases jacobianAtSource ext e s with er | jac
  · exact .inr ⟨_, rfl, rfl⟩
  rcases extractPsfImage ext e s.orig with er | pim
  · exact .inr ⟨_, rfl, rfl⟩
  simp only
  split
  · generalize ext.obsCheck ((extractWeight ext e).map (·.getD 0)) = z
    rcases z with er | u
    · exact .inr ⟨_, rfl, rfl⟩
    · exact .inl ⟨_, _, rfl, rfl, ⟨him, ⟨e.mask, e'.mask, rfl, rfl, hm⟩, rfl, rfl, rfl, rfl, rfl, rfl⟩⟩
  · exact .inr ⟨_, rfl, rfl⟩

theorem bands_same (ext : Ext K P W) (dx dy : Int) (s s' : Source K) (hs : SameSource dx dy s s')
    (p : Int × Int) (n : Int) (hn : 0 ≤ n) (es es' : List (Exp K P W))
    (h : List.Forall₂ (SameNear ext dx dy p n) es es') :
    SameStamps (stampBands ext s ⟨p.1 - n / 2, p.2 - n / 2, 2 * (n / 2) + 1, 2 * (n / 2) + 1⟩ es)
      (stampBands ext s' ⟨p.1 + dx - n / 2, p.2 + dy - n / 2, 2 * (n / 2) + 1, 2 * (n / 2) + 1⟩ es') := by
  induction h with
  | nil => exact .nil
  | @cons e e' es es' he _ ih =>
    simp only [stampBands, Exp.sub]
    by_cases hc : HasStamp p n e
    · have hc' := he.inside.1 hc
      rw [if_pos ((contains_iff e p n hn).2 hc), if_pos ((contains_iff e' (p.1 + dx, p.2 + dy) n hn).2 hc')]
      rcases obs_same ext dx dy
        { e with
          image := cut e.x0 e.y0 ⟨p.1 - n / 2, p.2 - n / 2, 2 * (n / 2) + 1, 2 * (n / 2) + 1⟩ e.image
          mask := cut e.x0 e.y0 ⟨p.1 - n / 2, p.2 - n / 2, 2 * (n / 2) + 1, 2 * (n / 2) + 1⟩ e.mask
          var := cut e.x0 e.y0 ⟨p.1 - n / 2, p.2 - n / 2, 2 * (n / 2) + 1, 2 * (n / 2) + 1⟩ e.var
          x0 := p.1 - n / 2, y0 := p.2 - n / 2 }
        { e' with
          image := cut e'.x0 e'.y0 ⟨p.1 + dx - n / 2, p.2 + dy - n / 2, 2 * (n / 2) + 1, 2 * (n / 2) + 1⟩ e'.image
          mask := cut e'.x0 e'.y0 ⟨p.1 + dx - n / 2, p.2 + dy - n / 2, 2 * (n / 2) + 1, 2 * (n / 2) + 1⟩ e'.mask
          var := cut e'.x0 e'.y0 ⟨p.1 + dx - n / 2, p.2 + dy - n / 2, 2 * (n / 2) + 1, 2 * (n / 2) + 1⟩ e'.var
          x0 := p.1 + dx - n / 2, y0 := p.2 + dy - n / 2 } s s' hs (by simp only; omega) (by simp only; omega)
        (cut_same e e' _ _ dx dy p n hc hc' fun x y => he.image x y hc)
        (cut_same e e' _ _ dx dy p n hc hc' fun x y => he.mask x y hc)
        (cut_same e e' _ _ dx dy p n hc hc' fun x y => he.var x y hc) he.psf he.wcs with
        ⟨o, o', h1, h2, h3⟩ | ⟨er, h1, h2⟩
      · simp only [h1, h2]
        revert ih
        rcases stampBands ext s _ es with er | os <;> rcases stampBands ext s' _ es' with er' | os' <;> intro ih
        · exact ih
        · exact ih
        · exact ih
        · exact .cons (.cons h3 .nil) ih
      · simp only [h1, h2]
        exact rfl
    · have hc' := fun h => hc (he.inside.2 h)
      rw [if_neg fun h => hc ((contains_iff e p n hn).1 h),
        if_neg fun h => hc' ((contains_iff e' (p.1 + dx, p.2 + dy) n hn).1 h)]
      exact rfl

/-! ## C124 -/

/-- C124, stamps: cutting out two sources that look the same gives the same stamps or the same
exception. -/
theorem C124_stamp (ext : Ext K P W) (dx dy : Int) (s s' : Source K) (hs : SameSource dx dy s s')
    (p : Int × Int) (tl : List (Int × Int)) (hp : s.peaks = p :: tl) (n : Int) (hn : 0 ≤ n)
    (mb mb' : List (Exp K P W)) (h : List.Forall₂ (SameNear ext dx dy p n) mb mb') :
    SameStamps (stampMbobs ext mb s n false) (stampMbobs ext mb' s' n false) := by
  have hb := bands_same ext dx dy s s' hs p n hn mb mb' h
  cases h with
  | nil => exact rfl
  | @cons e e' es es' he _ =>
    unfold stampMbobs
    simp only [getBBox, hp, hs.peaks, List.map_cons, Bool.false_eq_true, if_false]
    rw [grow_eq p n hn, grow_eq (p.1 + dx, p.2 + dy) n hn]
    by_cases hc : HasStamp p n e
    · have hc' := he.inside.1 hc
      rw [(contains_iff e p n hn).2 hc, (contains_iff e' (p.1 + dx, p.2 + dy) n hn).2 hc']
      exact hb
    · have hc' := fun h => hc (he.inside.2 h)
      rw [Bool.eq_false_iff.2 fun h => hc ((contains_iff e p n hn).1 h),
        Bool.eq_false_iff.2 fun h => hc' ((contains_iff e' (p.1 + dx, p.2 + dy) n hn).1 h)]
      exact rfl

theorem fits_same (dx dy : Int) (a a' : Args K P W F) (ha : SameSettings dx dy a a') (c c' : Calls K P W F E)
    (hc : ReadsPixels c c') (sb : List Nat) (s s' : Source K) (st st' : E)
    (h : SameStamps (c.stamp s st).1 (c'.stamp s' st').1) :
    (fitSource a' c' sb s' st').1 = (fitSource a c sb s st).1 := by
  have hf : ∀ f, failedFits a' sb f = failedFits a sb f := by
    intro f
    unfold failedFits
    rw [ha.fl, ha.noAttempt, ha.nband]
  unfold fitSource
  rcases hs : c.stamp s st with ⟨r, st1⟩
  rcases hs' : c'.stamp s' st' with ⟨r', st1'⟩
  rw [hs, hs'] at h
  rcases r with er | mb <;> rcases r' with er' | mb'
  · cases (show er = er' from h)
    rcases er with _ | _ | er
    · exact hf _
    · rfl
    · cases er <;> first | exact hf _ | rfl
  · exact h.elim
  · exact h.elim
  · have h1 := hc.gauss mb mb' sb st1 st1' h
    rcases hg : c.gauss mb sb st1 with ⟨g, st2⟩
    rcases hg' : c'.gauss mb' sb st1' with ⟨g', st2'⟩
    rw [hg, hg'] at h1
    cases h1
    simp only [hg, hg']
    rcases g with er | g
    · rfl
    · have h2 := hc.pgauss mb mb' st2 st2' h
      rcases hq : c.pgauss mb st2 with ⟨q, st3⟩
      rcases hq' : c'.pgauss mb' st2' with ⟨q', st3'⟩
      rw [hq, hq'] at h2
      cases h2
      simp only [hq, hq']
      rcases q with er | q <;> rfl

/-- the fit behind a row -/
theorem loop_at (a : Args K P W F) (c : Calls K P W F E) (sources : List (Source K))
    (bmasks : List Nat) (sb : List Nat) (ids : List Nat) :
    ∀ (i : Nat) (st st' : E) (rows : List (Cols K F)),
      measureLoop a c sources bmasks sb i ids st = (.ok rows, st') →
      ∀ (j : Nat) (row : Cols K F), rows[j]? = some row → ∃ sid s bm f peak t st0 st1, ids[j]? = some sid ∧
        find sources sid = some s ∧ fitSource a c sb (c.meas s) st0 = (.ok f, st1) ∧
        (c.meas s).peaks = peak :: t ∧
        row = fitCols f.1 f.2.1 f.2.2 ++ placeCols a.fl.nan a.noAttempt
          (placeOf a.pe (c.meas s) peak bm a.stampSize a.box) := by
  induction ids with
  | nil =>
    intro i st st' rows h
    simp only [measureLoop, Prod.mk.injEq, Except.ok.injEq] at h
    obtain ⟨rfl, rfl⟩ := h
    exact fun j row hj => by simp at hj
  | cons sid ids ih =>
    intro i st st' rows h
    simp only [measureLoop] at h
    split at h
    · cases h
    rename_i s hfind
    split at h
    · cases h
    rename_i bm hbm
    split at h
    · cases h
    rename_i f st1 hfit
    split at h
    · cases h
    rename_i row hrow
    split at h
    · cases h
    rename_i rows' st2 hrest
    simp only [Prod.mk.injEq, Except.ok.injEq] at h
    obtain ⟨rfl, rfl⟩ := h
    obtain ⟨peak, t, hpk, rfl⟩ := (sourceRow_eq a _ bm f row).1 hrow
    intro j row hj
    cases j with
    | zero =>
      simp only [List.getElem?_cons_zero, Option.some.injEq] at hj
      exact ⟨sid, s, bm, f, peak, t, st, st1, rfl, hfind, hfit, hpk, hj.symm⟩
    | succ j =>
      rw [List.getElem?_cons_succ] at hj
      obtain ⟨sid', s', bm', f', pk', t', s0, s1, k1, k2, k3, k4, k5⟩ := ih (i + 1) st1 st2 rows' hrest j row hj
      exact ⟨sid', s', bm', f', pk', t', s0, s1, by simpa using k1, k2, k3, k4, k5⟩

theorem find_eq {sources : List (Source K)} (hnd : (sources.map (·.sid)).Nodup) {s s' : Source K}
    (hs : s ∈ sources) (h : find sources s.sid = some s') : s' = s := by
  obtain ⟨h1, h2⟩ := find_spec h
  exact List.inj_on_of_nodup_map hnd h1 hs h2

/-- C124, the table: two calls of `measure` with the same settings, on any exposures and any lists of
sources.  If a source of the one and a source of the other (as measured: with their centroids) look the
same, up to a common shift by whole pixels, then their rows have the same fits, errors, flags and sky
positions, and pixel positions that differ by the shift. -/
theorem C124_rows (ext : Ext K P W) (dx dy : Int) (a a' : Args K P W F) (ha : SameSettings dx dy a a')
    (hn : 0 ≤ a.stampSize) (c c' : Calls K P W F E) (hc : ReadsPixels c c')
    (mb mb' : List (Exp K P W)) (kids kids' : List Nat)
    (hst : c.stamp = extractorStamp ext mb kids a.stampSize)
    (hst' : c'.stamp = extractorStamp ext mb' kids' a'.stampSize)
    (sources sources' : List (Source K)) (hnd : (sources.map (·.sid)).Nodup)
    (hnd' : (sources'.map (·.sid)).Nodup) (ids ids' : List Nat) (st st1 st' st1' : E)
    (rows rows' : List (Cols K F)) (h : measure a c sources ids st = (.ok (some rows), st1))
    (h' : measure a' c' sources' ids' st' = (.ok (some rows'), st1'))
    (s s' : Source K) (hs : s ∈ sources) (hs' : s' ∈ sources') (i j : Nat) (hi : ids[i]? = some s.sid)
    (hj : ids'[j]? = some s'.sid) (row row' : Cols K F) (hrow : rows[i]? = some row)
    (hrow' : rows'[j]? = some row') (hss : SameSource dx dy (c.meas s) (c'.meas s'))
    (p : Int × Int) (tl : List (Int × Int)) (hp : (c.meas s).peaks = p :: tl)
    (hmb : List.Forall₂ (SameNear ext dx dy p a.stampSize) mb mb') :
    SameFits dx dy a.fl.nan a.noAttempt (c.meas s).cen.isSome row row' := by
  obtain ⟨sb, bms, hsb, -, -, hl⟩ := measure_spec a c sources ids st st1 rows h
  obtain ⟨sb', bms', hsb', -, -, hl'⟩ := measure_spec a' c' sources' ids' st' st1' rows' h'
  rw [ha.shearBands, hsb] at hsb'
  cases hsb'
  obtain ⟨sid, s2, bm, f, pk, t, st0, st2, k1, k2, k3, k4, k5⟩ :=
    loop_at a c sources bms sb ids 0 st st1 rows hl i row hrow
  obtain ⟨sid', s2', bm', f', pk', t', st0', st2', k1', k2', k3', k4', k5'⟩ :=
    loop_at a' c' sources' bms' sb ids' 0 st' st1' rows' hl' j row' hrow'
  rw [hi] at k1
  cases k1
  rw [hj] at k1'
  cases k1'
  cases find_eq hnd hs k2
  cases find_eq hnd' hs' k2'
  have hin : (c.meas s).sid ∈ kids := by
    by_contra hh
    simp only [fitSource, hst, extractorStamp, if_neg hh] at k3
    cases k3
  have hin' : (c'.meas s').sid ∈ kids' := by
    by_contra hh
    simp only [fitSource, hst', extractorStamp, if_neg hh] at k3'
    cases k3'
  have hstamps : SameStamps (c.stamp (c.meas s) st0).1 (c'.stamp (c'.meas s') st0').1 := by
    rw [hst, hst']
    simp only [extractorStamp, if_pos hin, if_pos hin', ha.stampSize]
    exact C124_stamp ext dx dy _ _ hss p tl hp a.stampSize hn mb mb' hmb
  have hfit := fits_same dx dy a a' ha c c' hc sb _ _ st0 st0' hstamps
  rw [k3, k3'] at hfit
  cases hfit
  rw [hp] at k4
  cases k4
  rw [hss.peaks, hp] at k4'
  cases k4'
  rw [ha.fl, ha.noAttempt] at k5'
  refine ⟨_, _, _, _, _, k5, k5', ha.stampSize, ?_, ?_, ?_, ?_, ?_⟩
  · simp only [placeOf, hss.cen, Option.map_map]
    congr 1
    funext q
    simp [moved]
  · simp only [placeOf, hss.cen, Option.map_map]
    congr 1
    funext q
    simp [moved]
  · simp only [placeOf, hss.cen, Option.map_map]
    congr 1
    funext q
    simp [ha.sky]
  · simp only [placeOf, hss.cen, Option.map_map]
    congr 1
    funext q
    simp [ha.sky]
  · intro hcen
    obtain ⟨q, hq⟩ := Option.isSome_iff_exists.1 hcen
    simp [placeOf, hss.cen, hq, moved]

theorem get?_app {β : Type _} (a b b' : PyDict String β) (k : String) (h : PyDict.get? b k = PyDict.get? b' k) :
    PyDict.get? (a ++ b) k = PyDict.get? (a ++ b') k := by
  induction a with
  | nil => exact h
  | cons c t ih =>
    simp only [List.cons_append, PyDict.get?]
    rw [ih]

/-- C124, columns: in such rows every column has the same value, except for those that say where the pixels
are counted from and the position and mask value there. -/
theorem C124_columns (dx dy : Int) (nan : F) (na : Nat) (cen : Bool) (row row' : Cols K F)
    (h : SameFits dx dy nan na cen row row') (k : String)
    (hk : k ∉ ["row0", "col0", "row", "col", "bmask"]) : PyDict.get? row' k = PyDict.get? row k := by
  obtain ⟨f, g, q, x, x', rfl, rfl, h1, h2, h3, h4, h5, -⟩ := h
  simp only [List.mem_cons, List.not_mem_nil, or_false, not_or] at hk
  obtain ⟨k1, k2, k3, k4, k5⟩ := hk
  apply get?_app
  simp only [placeCols, PyDict.get?, h1, h2, h3, h4, h5,
    if_neg (Ne.symm k1), if_neg (Ne.symm k2), if_neg (Ne.symm k3), if_neg (Ne.symm k4), if_neg (Ne.symm k5)]

theorem settings_same (t : Task B K P W F E M) (dx dy : Int) (exps exps' : MbExp B K P W) (det det' : Exp K P W)
    (h : SameFrame t dx dy exps exps') : SameSettings dx dy (t.args exps det) (t.args exps' det') where
  fl := rfl
  noAttempt := rfl
  nband := by simpa [Task.args] using congrArg List.length h.bands
  stampSize := rfl
  shearBands := by simp only [Task.args, h.bands]
  sky := h.sky

variable [FloorRing K]

/-- C124, a type of shear: in the tables that one task makes of any two sets of exposures, sources that look
the same in the exposures after detection have the same fits. -/
theorem C124_type (t : Task B K P W F E M) (n : Int) (hn : 0 ≤ n) (ht : PlainTask t n)
    (mb mb' : MbExp B K P W) (st st1 st' st1' : E) (rows rows' : List (Cols K F))
    (h : oneType t mb st = (.ok (some rows), st1)) (h' : oneType t mb' st' = (.ok (some rows'), st1')) :
    ∃ exps det sources model exps' det' sources' model', Found t mb rows exps det sources model ∧
      Found t mb' rows' exps' det' sources' model' ∧
      ∀ dx dy s s' i j row row', SameFrame t dx dy exps exps' →
        RowOf sources (t.ids sources model) rows s i row →
        RowOf sources' (t.ids sources' model') rows' s' j row' →
        LooksSame t dx dy n exps exps' model model' s s' →
        SameFits dx dy t.fl.nan t.noAttempt
          ((t.calls exps model).meas s).cen.isSome row row' := by
  obtain ⟨detexp, det, exps, sources, model, st0, k1, k2, k3, k4, k5⟩ := C81_type t mb st st1 _ h
  obtain ⟨detexp', det', exps', sources', model', st0', k1', k2', k3', k4', k5'⟩ := C81_type t mb' st' st1' _ h'
  refine ⟨exps, det, sources, model, exps', det', sources', model',
    ⟨⟨detexp, st, st0, k1, k2, k3⟩, k4, (C74_rows _ _ _ _ _ _ _ k5).2.1⟩,
    ⟨⟨detexp', st', st0', k1', k2', k3'⟩, k4', (C74_rows _ _ _ _ _ _ _ k5').2.1⟩, ?_⟩
  intro dx dy s s' i j row row' ha hr hr' hl
  obtain ⟨kids, hk⟩ := ht.stamp exps model
  obtain ⟨kids', hk'⟩ := ht.stamp exps' model'
  obtain ⟨p, tl, hp, hmb⟩ := hl.pixels
  have hsz : ∀ exps det, (t.args exps det).stampSize = n := fun _ _ => ht.size
  exact C124_rows t.ext dx dy _ _ (settings_same t dx dy exps exps' det det' ha) (by rw [hsz]; exact hn) _ _ (ht.fits _ _ _ _) _ _ kids kids'
    (by rw [hsz]; exact hk) (by rw [hsz]; exact hk') sources sources' hr.distinct hr'.distinct _ _ _ _ _ _
    rows rows' k5 k5' s s' hr.source hr'.source i j hr.id hr'.id row row' hr.row hr'.row hl.source p tl hp
    (by rw [hsz]; exact hmb)

/-- C124, the whole run: two runs of one task, on any exposures, and the table of one shear type of each.
For two sources that look the same in the sheared exposures of that type, all columns of the two rows that
come from the fits, and the offset from the peak and sky position, are the same, whatever else there is in
the exposures. -/
theorem C124_run (t : Task B K P W F E M) (n : Int) (hn : 0 ≤ n) (ht : PlainTask t n)
    (mbexp noise mbexp' noise' : MbExp B K P W) (mfracs mfracs' : Option (List (Img K)))
    (ormasks ormasks' : Option (List (Img Nat))) (getPsf getPsf' : Bool) (st st' : E)
    (res res' : PyDict String (Entry K F)) (h : (run t mbexp noise mfracs ormasks getPsf st).res = .ok res)
    (h' : (run t mbexp' noise' mfracs' ormasks' getPsf' st').res = .ok res') (k k' : String)
    (rows rows' : List (Cols K F)) (hk : PyDict.get? res k = some (.table (some rows)))
    (hk' : PyDict.get? res' k' = some (.table (some rows'))) :
    ∃ ormask mfrac work stats d mb ormask' mfrac' work' stats' d' mb',
      Prepared t mbexp noise mfracs ormasks st ormask mfrac work stats d ∧ PyDict.get? d k = some mb ∧
      Prepared t mbexp' noise' mfracs' ormasks' st' ormask' mfrac' work' stats' d' ∧
      PyDict.get? d' k' = some mb' ∧
    ∃ exps det sources model exps' det' sources' model', Found t mb rows exps det sources model ∧
      Found t mb' rows' exps' det' sources' model' ∧
      ∀ dx dy s s' i j row row', SameFrame t dx dy exps exps' →
        RowOf sources (t.ids sources model) rows s i row →
        RowOf sources' (t.ids sources' model') rows' s' j row' →
        LooksSame t dx dy n exps exps' model model' s s' →
        ∀ c, c ∉ ["row0", "col0", "row", "col", "bmask"] → c ∉ filledNames →
          PyDict.get? row' c = PyDict.get? row c := by
  obtain ⟨ormask, mfrac, work, stats, d, tabs, hp, htab, rfl, -⟩ := C81_run t mbexp noise mfracs ormasks getPsf st res h
  obtain ⟨ormask', mfrac', work', stats', d', tabs', hp', htab', rfl, -⟩ :=
    C81_run t mbexp' noise' mfracs' ormasks' getPsf' st' res' h'
  obtain ⟨mb, raw, s0, s1, g1, g2, g3⟩ := tables_at htab k rows (entry_at hk)
  obtain ⟨mb', raw', s0', s1', g1', g2', g3'⟩ := tables_at htab' k' rows' (entry_at hk')
  obtain ⟨exps, det, sources, model, exps', det', sources', model', f1, f2, f3⟩ :=
    C124_type t n hn ht mb mb' s0 s1 s0' s1' raw raw' g2 g2'
  refine ⟨ormask, mfrac, work, stats, d, mb, ormask', mfrac', work', stats', d', mb', hp, g1, hp', g1',
    exps, det, sources, model, exps', det', sources', model',
    ⟨f1.found, f1.same, g3.length_eq.symm.trans f1.rows⟩, ⟨f2.found, f2.same, g3'.length_eq.symm.trans f2.rows⟩, ?_⟩
  intro dx dy s s' i j row row' ha hr hr' hl c hc hcf
  have at_ : ∀ (raw rows : List (Cols K F)) (R : Cols K F → Cols K F → Prop) (i : Nat) (row : Cols K F),
      List.Forall₂ R raw rows → rows[i]? = some row → ∃ r, raw[i]? = some r ∧ R r row := by
    intro raw rows R i row hf
    induction hf generalizing i with
    | nil => intro hi; simp at hi
    | cons h1 _ ih =>
      intro hi
      cases i with
      | zero => cases hi; exact ⟨_, rfl, h1⟩
      | succ i => exact ih i (by simpa using hi)
  obtain ⟨r, hr1, p, m, o, -, -, -, hf⟩ := at_ raw rows _ i row g3 hr.row
  obtain ⟨r', hr1', p', m', o', -, -, -, hf'⟩ := at_ raw' rows' _ j row' g3' hr'.row
  rw [hf.others c hcf, hf'.others c hcf]
  exact C124_columns _ _ _ _ _ _ _ (f3 dx dy s s' i j r r' ha ⟨hr.distinct, hr.source, hr.id, hr1⟩
    ⟨hr'.distinct, hr'.source, hr'.id, hr1'⟩ hl) c hc

/-! ## Examples: the hypotheses are met -/

/-- an exposure of 5 by 5 pixels -/
def exA : Exp ℚ (Img ℚ) Unit :=
  { exExp with image := ⟨5, 5, fun r c => 10 * r + c⟩, mask := ⟨5, 5, fun r c => r + c⟩, var := ⟨5, 5, fun _ _ => .fin 4⟩ }

/-- an exposure of 4 by 6 pixels that starts elsewhere: in its lower left corner, what the first one has in
the middle, and other pixels around it -/
def exB : Exp ℚ (Img ℚ) Unit :=
  { exExp with
    image := ⟨4, 6, fun r c => if r < 3 ∧ c < 3 then 10 * (r + 1) + (c + 1) else 700⟩
    mask := ⟨4, 6, fun r c => if r < 3 ∧ c < 3 then r + 1 + (c + 1) else 8⟩
    var := ⟨4, 6, fun r c => if r < 3 ∧ c < 3 then .fin 4 else .nan⟩
    x0 := 13, y0 := 18 }

/-- the sources of the first exposure: one at the edge and one in the middle -/
def exIn : List (Source ℚ) :=
  [⟨1, [(10, 21)], some (10, 21), (0, 0), none, 0⟩, ⟨2, [(12, 22)], some (12, 22), (0, 0), none, 0⟩]

/-- the same source in the second exposure, and another one nearby -/
def exIn' : List (Source ℚ) :=
  [⟨7, [(14, 19)], some (14, 19), (2, -3), none, 0⟩, ⟨8, [(16, 20)], none, (0, 0), none, 0⟩]

/-- the fits look at the sum of the mask -/
def exSum (mb : JMb ℚ (Jac ℚ)) : Nat :=
  (mb.map fun l : List (JObs ℚ (Jac ℚ)) => (l.map fun o : JObs ℚ (Jac ℚ) => match o.bmask with
    | some m => m.toList.sum
    | none => 0).sum).sum

theorem exSum_same (mb mb' : JMb ℚ (Jac ℚ)) (h : List.Forall₂ (List.Forall₂ SameObs) mb mb') :
    exSum mb' = exSum mb := by
  unfold exSum
  induction h with
  | nil => rfl
  | cons hl _ ih =>
    rw [List.map_cons, List.map_cons, List.sum_cons, List.sum_cons, ih]
    congr 1
    induction hl with
    | nil => rfl
    | cons ho _ ih =>
      obtain ⟨m, m', h1, h2, h3⟩ := ho.bmask
      rw [List.map_cons, List.map_cons, List.sum_cons, List.sum_cons, ih, h1, h2]
      simp only [toList_same h3]

def exLocal : Task String ℚ (Img ℚ) Unit Int Nat Unit :=
  { exTask (.fit 1 2 3) false with
    finder := ⟨fun e st => ((.ok (some (if e.image.nr = 5 then exIn else exIn')), e.mask), st),
      fun objs _ s st => ((.ok (s, none), fun i => (objs i).mask), st)⟩
    stampSize := 3
    pe := fun _ => { exArgs.pe with sky := fun _ => (1, 2) }
    calls := fun exps _ => {
      meas := id
      stamp := extractorStamp exExt (exps.map (·.2)) [1, 2, 7, 8] 3
      gauss := fun m _ st => (.ok (exRow (exSum m)), st + 1)
      pgauss := fun m st => (.ok (exRow (exSum m + 1)), st + 1) } }

def exRunA : Out String ℚ (Img ℚ) Unit Int Nat :=
  run exLocal [("r", exA)] [("r", { exA with image := exA.image.map fun _ => 0 })]
    (some [exA.image.map fun _ => 0]) (some [⟨30, 30, fun _ _ => 0⟩]) true 8

def exRunB : Out String ℚ (Img ℚ) Unit Int Nat :=
  run exLocal [("r", exB)] [("r", { exB with image := exB.image.map fun _ => 0 })]
    (some [exB.image.map fun _ => 0]) (some [⟨30, 30, fun _ _ => 0⟩]) true 5

/-- the tables of the two runs: the source is in row 1 of the first and in row 0 of the second -/
example : exTable exRunA "noshear" "gauss_flags" = some [1, 36] ∧
    exTable exRunB "noshear" "gauss_flags" = some [36, 67] ∧
    exTable exRunA "noshear" "stamp_flags" = some [EDGE_HIT, 0] ∧
    exTable exRunB "noshear" "stamp_flags" = some [0, 0] := by decide +kernel

example : PlainTask exLocal 3 where
  stamp _ _ := ⟨_, rfl⟩
  size := rfl
  fits _ _ _ _ := ⟨fun mb mb' _ _ _ h => by
      change Except.ok (exRow (exSum mb')) = Except.ok (exRow (exSum mb))
      rw [exSum_same mb mb' h],
    fun mb mb' _ _ h => by
      change Except.ok (exRow (exSum mb' + 1)) = Except.ok (exRow (exSum mb + 1))
      rw [exSum_same mb mb' h]⟩

example : SameSource 2 (-3) (⟨2, [(12, 22)], some (12, 22), (0, 0), none, 0⟩ : Source ℚ)
    ⟨7, [(14, 19)], some (14, 19), (2, -3), none, 0⟩ :=
  ⟨rfl, by norm_num [moved], by norm_num [moved], rfl⟩

example : SameNear exExt 2 (-3) (12, 22) 3 exA exB where
  inside := by simp [HasStamp, exA, exB, exExp]
  image x y _ h := by
    simp only [Near] at h
    simp only [atGlobal, exA, exB, exExp]
    rw [if_pos (by omega)]
    have h1 : (y - 20).toNat = (y + -3 - 18).toNat + 1 := by omega
    have h2 : (x - 10).toNat = (x + 2 - 13).toNat + 1 := by omega
    rw [h1, h2]
    push_cast
    ring
  mask x y _ h := by
    simp only [Near] at h
    simp only [atGlobal, exA, exB, exExp]
    rw [if_pos (by omega)]
    omega
  var x y _ h := by
    simp only [Near] at h
    simp only [atGlobal, exA, exB, exExp]
    rw [if_pos (by omega)]
  psf _ := rfl
  wcs _ := rfl

example : SameFrame exLocal 2 (-3) [("r", exA)] [("r", exB)] := ⟨rfl, fun _ => rfl⟩

end MD.LsstLocal
