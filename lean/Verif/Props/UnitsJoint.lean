import Verif.Props.UnitsCoadd

/-! C119, joint fitters: changing the flux units of all images changes the fluxes and nothing else. -/

set_option linter.unusedSectionVars false

namespace MD.Joint
open Flags Wavg

variable {K J : Type} [Field K] [LinearOrder K] [IsStrictOrderedRing K] [DecidableEq J]
variable {F S R : Type} {fl : Flt F} {scale : Int → F → F}

/-- SPEC: a Gaussian fit in other units: only the band fluxes and their errors differ -/
def gaussInUnits (scale : Int → F → F) (r : GaussRes F) : GaussRes F :=
  { r with flux := r.flux.map (scale 1), fluxErr := r.fluxErr.map (scale 1) }

/-- SPEC: what is expected of ngmix: Gaussian fits of images in other units give fluxes in those units, the same
shapes and the same PSF fits, and use the same random numbers; adaptive moments do not depend on the units -/
structure JointUnits (c : K) (scale : Int → F → F) (ext : JointExt K J F S R) : Prop where
  laws : UnitLaws ext.fl scale
  median : MedianUnits c ext.coadd.median
  gaussMedian : ∀ l, ext.gauss.median (l.map (· / c ^ 2)) = scale (-2) (ext.gauss.median l)
  bootstrap : ∀ mb r s, ext.gauss.bootstrap (mbInUnits c mb) r s =
    ((ext.gauss.bootstrap mb r s).1.map fun p => (gaussInUnits scale p.1, p.2), (ext.gauss.bootstrap mb r s).2)
  am : ∀ o s, ext.am.go (inUnits c o) s = ext.am.go o s

theorem inputFlags_units {c : K} (hc : 0 < c) (bits : Nat) (mb : JMb K J) :
    inputFlags bits (mbInUnits c mb) = inputFlags bits mb := by
  unfold mbInUnits
  induction mb with
  | nil => rfl
  | cons ol t ih =>
    simp only [List.map_cons, inputFlags, ih]
    match ol with
    | [] => rfl
    | [o] =>
      simp only [List.map_cons, List.map_nil]
      have hb : (inUnits c o).bmask = o.bmask := rfl
      have hw : (inUnits c o).weight = o.weight.map (· / c ^ 2) := rfl
      rw [hb, hw, anyPos_units hc]
    | _ :: _ :: _ => rfl

theorem gaussInput_units {c : K} (hc : 0 < c) (cext : CoaddExt K) (hm : MedianUnits c cext.median) (mb : JMb K J)
    (bits : Nat) (sb : List Nat) (coadd : Bool) :
    gaussInput cext (mbInUnits c mb) bits sb coadd =
    (gaussInput cext mb bits sb coadd).map fun r => (r.1.map (mbInUnits c), r.2) := by
  have hlen : (mbInUnits c mb).length = mb.length := List.length_map _
  unfold gaussInput
  rw [inputFlags_units hc, hlen, C119_coadd hc cext hm, bandsObs_units]
  cases inputFlags bits mb with
  | error e => rfl
  | ok f0 =>
    simp only
    generalize (f0 ||| if sb.any fun s => decide (s ≥ mb.length) then INCONSISTENT_BANDS else 0) = f
    by_cases hf : f = 0
    · simp only [hf, if_true]
      cases coadd with
      | true =>
        simp only [if_true]
        cases makeCoaddObs cext mb (some sb) with
        | error e => rfl
        | ok r =>
          obtain ⟨o, g⟩ := r
          cases o with
          | none => rfl
          | some o =>
            simp only [Except.map, Option.map_some]
            split <;> rfl
      | false =>
        simp only [Bool.false_eq_true, if_false]
        cases bandsObs mb sb with
        | error e => rfl
        | ok os =>
          simp only [Except.map, Option.map_some, mbInUnits, List.map_map]
          rfl
    · simp only [hf, if_false]
      rfl

theorem posWeights_units {c : K} (hc : 0 < c) (o : JObs K J) :
    posWeights (inUnits c o) = (posWeights o).map (· / c ^ 2) := posList_units hc o.weight

/-- PSF means of the bands in the new units -/
def meanInUnits (scale : Int → F → F) (a : PsfMean F) : PsfMean F :=
  ⟨a.flags, (scale (-2) a.gSum.1, scale (-2) a.gSum.2), scale (-2) a.tSum, scale (-2) a.wSum⟩

theorem psfStep_units {c : K} (hc : 0 < c) (hl : UnitLaws fl scale) (ext : GaussExt K J F S R)
    (hm : ∀ l, ext.median (l.map (· / c ^ 2)) = scale (-2) (ext.median l)) (a : PsfMean F) (o : JObs K J) (res : PsfRes F) :
    psfStep fl ext (meanInUnits scale a) (inUnits c o) res = (psfStep fl ext a o res).map (meanInUnits scale) := by
  have hmul : ∀ x y, fl.mul x (scale (-2) y) = scale (-2) (fl.mul x y) := by
    intro x y
    conv_lhs => rw [← hl.one x]
    rw [hl.mul, zero_add]
  have hmul' : ∀ x y, fl.mul (scale (-2) y) x = scale (-2) (fl.mul y x) := by
    intro x y
    conv_lhs => rw [← hl.one x]
    rw [hl.mul, add_zero]
  unfold psfStep
  simp only [posWeights_units hc, List.isEmpty_map, hm]
  by_cases h1 : res.flags = 0
  · simp only [h1, if_true]
    by_cases h2 : (posWeights o).isEmpty = true
    · simp only [h2, if_true]
      rfl
    · simp only [h2, Bool.false_eq_true, if_false]
      cases extractG ext.e2g res with
      | error e => rfl
      | ok g => simp only [Except.map, meanInUnits, hmul, hmul', hl.add]
  · simp only [h1, if_false]
    rfl

theorem psfLoop_units {c : K} (hc : 0 < c) (hl : UnitLaws fl scale) (ext : GaussExt K J F S R)
    (hm : ∀ l, ext.median (l.map (· / c ^ 2)) = scale (-2) (ext.median l)) (l : List (JObs K J × PsfRes F)) (a : PsfMean F) :
    psfLoop fl ext (l.map fun e => (inUnits c e.1, e.2)) (meanInUnits scale a) =
    (psfLoop fl ext l a).map (meanInUnits scale) := by
  induction l generalizing a with
  | nil => rfl
  | cons e t ih =>
    simp only [List.map_cons, psfLoop, psfStep_units hc hl ext hm]
    cases psfStep fl ext a e.1 e.2 with
    | error x => rfl
    | ok b => exact ih b

theorem setBands_units (f : F → F) (n : Nat) (a : List F) (idx : List Nat) (v : List F) :
    setBands n (a.map f) idx (v.map f) = (setBands n a idx v).map (List.map f) := by
  have hset : ∀ (l : List (Nat × F)) (a : List F), (l.map fun e => (e.1, f e.2)).foldl (fun a e => a.set e.1 e.2) (a.map f) =
      (l.foldl (fun a e => a.set e.1 e.2) a).map f := by
    intro l
    induction l with
    | nil => intro a; rfl
    | cons e t ih =>
      intro a
      simp only [List.map_cons, List.foldl_cons, ← List.map_set, ih]
  have hset1 : ∀ (l : List Nat) (x : F) (a : List F), l.foldl (fun a i => a.set i (f x)) (a.map f) =
      (l.foldl (fun a i => a.set i x) a).map f := by
    intro l x
    induction l with
    | nil => intro a; rfl
    | cons e t ih =>
      intro a
      simp only [List.foldl_cons, ← List.map_set, ih]
  unfold setBands
  split
  · match v with
    | [] =>
      simp only [fancySet, List.map_nil, List.length_nil]
      split
      · simp only [List.zip_nil_right, List.foldl_nil, Except.map]
      · rfl
    | [x] =>
      simp only [fancySet, List.map_cons, List.map_nil, Except.map, hset1]
    | x :: y :: t =>
      simp only [fancySet, List.map_cons, List.length_cons, List.length_map]
      split
      · simp only [Except.map]
        rw [← hset, ← List.map_cons, ← List.map_cons, List.zip_map_right]
        rfl
      · rfl
  · match v with
    | [] => rfl
    | [x] => rfl
    | x :: y :: t => rfl

theorem gaussObj_units (scale : Int → F → F) (row : Row F) (nband : Nat) (sb : List Nat) (ores : GaussRes F) :
    gaussObj (rowInUnits scale row) nband sb (gaussInUnits scale ores) =
    (gaussObj row nband sb ores).map (rowInUnits scale) := by
  unfold gaussObj
  have h1 : (rowInUnits scale row).bandFluxFlags = row.bandFluxFlags := rfl
  have h2 : (rowInUnits scale row).bandFlux = row.bandFlux.map (scale 1) := rfl
  have h3 : (rowInUnits scale row).bandFluxErr = row.bandFluxErr.map (scale 1) := rfl
  have h4 : (gaussInUnits scale ores).flags = ores.flags := rfl
  have h5 : (gaussInUnits scale ores).flux = ores.flux.map (scale 1) := rfl
  have h6 : (gaussInUnits scale ores).fluxErr = ores.fluxErr.map (scale 1) := rfl
  rw [h1, h4]
  cases setBands nband row.bandFluxFlags sb [ores.flags] with
  | error e => rfl
  | ok bff =>
    simp only
    by_cases hf : ores.flags = 0
    · rw [if_pos hf, if_pos hf]
      simp only [h2, h3, h5, h6, setBands_units]
      cases setBands nband row.bandFlux sb ores.flux with
      | error e => rfl
      | ok a =>
        cases setBands nband row.bandFluxErr sb ores.fluxErr with
        | error e => rfl
        | ok b => rfl
    · rw [if_neg hf, if_neg hf]
      rfl

theorem gaussPsf_units {c : K} (hc : 0 < c) (hl : UnitLaws fl scale) (ext : GaussExt K J F S R)
    (hm : ∀ l, ext.median (l.map (· / c ^ 2)) = scale (-2) (ext.median l)) (row : Row F) (coadd : Bool)
    (shear : List (JObs K J)) (oflags : Nat) (pres : List (PsfRes F)) :
    gaussPsf fl ext (rowInUnits scale row) coadd (shear.map (inUnits c)) oflags pres =
    (gaussPsf fl ext row coadd shear oflags pres).map (rowInUnits scale) := by
  unfold gaussPsf
  cases coadd with
  | true =>
    simp only [if_true]
    cases pres with
    | nil => rfl
    | cons p t =>
      simp only
      by_cases hf : p.flags = 0
      · rw [if_pos hf, if_pos hf]
        cases extractG ext.e2g p with
        | error e => rfl
        | ok g => rfl
      · rw [if_neg hf, if_neg hf]
        rfl
  | false =>
    simp only [Bool.false_eq_true, if_false]
    have hz : (shear.map (inUnits c)).zip pres = (shear.zip pres).map fun e => (inUnits c e.1, e.2) := by
      rw [List.zip_map_left]
      rfl
    have h0 : (⟨0, (fl.zero, fl.zero), fl.zero, fl.zero⟩ : PsfMean F) =
        meanInUnits scale ⟨0, (fl.zero, fl.zero), fl.zero, fl.zero⟩ := by
      simp only [meanInUnits, hl.zero]
    rw [hz]
    conv_lhs => rw [h0]
    rw [psfLoop_units hc hl ext hm]
    cases psfLoop fl ext (shear.zip pres) ⟨0, (fl.zero, fl.zero), fl.zero, fl.zero⟩ with
    | error e => rfl
    | ok a =>
      simp only [Except.map, meanInUnits]
      by_cases hf : a.flags = 0
      · simp only [hf, if_true, hl.div, sub_self, hl.one]
        rfl
      · simp only [hf, if_false]
        rfl

theorem freshRow_same (hl : UnitLaws fl scale) (na tot : Nat) (sb : Option (List Nat)) (row : Row F)
    (h : freshRow fl na tot sb = .ok row) : rowInUnits scale row = row := by
  obtain ⟨h1, h2⟩ := freshRow_units hl na tot sb row h
  unfold rowInUnits
  rw [h1, h2]

theorem fitMbobsGauss_units {c : K} (hc : 0 < c) (ext : JointExt K J F S R) (hx : JointUnits c scale ext) (runner : R)
    (bits : Nat) (shearBands : Option (List Nat)) (coadd : Bool) (mb : JMb K J) (s : S) :
    fitMbobsGauss ext.fl ext.noAttempt ext.coadd ext.gauss runner bits shearBands coadd (mbInUnits c mb) s =
    let r := fitMbobsGauss ext.fl ext.noAttempt ext.coadd ext.gauss runner bits shearBands coadd mb s
    (r.1.map (rowInUnits scale), r.2) := by
  have hlen : (mbInUnits c mb).length = mb.length := List.length_map _
  unfold fitMbobsGauss
  simp only [hlen, gaussInput_units hc ext.coadd hx.median]
  generalize shearBands.getD (List.range mb.length) = sb
  cases hrow : freshRow ext.fl ext.noAttempt mb.length (some sb) with
  | error e => rfl
  | ok row =>
    have hr : rowInUnits scale row = row := freshRow_same hx.laws _ _ _ _ hrow
    have hr' : ∀ f : Nat, rowInUnits scale { row with flags := f } = { row with flags := f } := by
      intro f
      unfold rowInUnits at hr ⊢
      have h1 := congrArg Row.bandFlux hr
      have h2 := congrArg Row.bandFluxErr hr
      simp only at h1 h2 ⊢
      rw [h1, h2]
    simp only
    cases gaussInput ext.coadd mb bits sb coadd with
    | error e => rfl
    | ok p =>
      obtain ⟨o, f⟩ := p
      cases o with
      | none => simp only [Except.map, Option.map_none, hr']
      | some shear =>
        simp only [Except.map, Option.map_some, hx.bootstrap]
        refine Prod.ext ?_ rfl
        simp only
        cases (ext.gauss.bootstrap shear runner s).1 with
        | error e => simp only [hr']
        | ok q =>
          obtain ⟨ores, pres⟩ := q
          simp only
          have hg := gaussObj_units scale row mb.length sb ores
          rw [hr] at hg
          rw [hg]
          cases gaussObj row mb.length sb ores with
          | error e => rfl
          | ok row' =>
            simp only [Except.map]
            have hsh : (mbInUnits c shear).flatMap id = (shear.flatMap id).map (inUnits c) := by
              unfold mbInUnits
              simp only [List.flatMap_id, List.map_flatten]
            rw [hsh]
            have := gaussPsf_units hc hx.laws ext.gauss hx.gaussMedian row' coadd (shear.flatMap id) ores.flags pres
            have h4 : (gaussInUnits scale ores).flags = ores.flags := rfl
            rw [h4, this]
            rfl

theorem amPsf_units (row : Row F) (p : AmRes F) : amPsf (rowInUnits scale row) p = rowInUnits scale (amPsf row p) := by
  unfold amPsf
  split <;> rfl

theorem amObj_units (row : Row F) (pf : Nat) (g : AmRes F) :
    amObj fl (rowInUnits scale row) pf g = rowInUnits scale (amObj fl row pf g) := by
  unfold amObj
  by_cases h1 : g.Tflags = 0 <;> by_cases h2 : g.flags = 0 <;> simp only [h1, h2, if_true, if_false] <;> rfl

theorem fitMbobsAdmom_units {c : K} (hc : 0 < c) (ext : JointExt K J F S R) (hx : JointUnits c scale ext)
    (bits : Nat) (shearBands : Option (List Nat)) (symm : Bool) (mb : JMb K J) (s : S) :
    fitMbobsAdmom ext.fl ext.noAttempt ext.coadd ext.am bits shearBands symm (mbInUnits c mb) s =
    let r := fitMbobsAdmom ext.fl ext.noAttempt ext.coadd ext.am bits shearBands symm mb s
    (r.1.map (rowInUnits scale), r.2) := by
  have hlen : (mbInUnits c mb).length = mb.length := List.length_map _
  unfold fitMbobsAdmom
  simp only [hlen, inputFlags_units hc, C119_coadd hc ext.coadd hx.median]
  generalize shearBands.getD (List.range mb.length) = sb
  cases hrow : freshRow ext.fl ext.noAttempt mb.length (some sb) with
  | error e => rfl
  | ok row =>
    have hr : rowInUnits scale row = row := freshRow_same hx.laws _ _ _ _ hrow
    have hr' : ∀ f : Nat, rowInUnits scale { row with flags := f } = { row with flags := f } := by
      intro f
      unfold rowInUnits at hr ⊢
      have h1 := congrArg Row.bandFlux hr
      have h2 := congrArg Row.bandFluxErr hr
      simp only at h1 h2 ⊢
      rw [h1, h2]
    simp only
    cases inputFlags bits mb with
    | error e => rfl
    | ok f0 =>
      simp only
      by_cases hf : f0 ≠ 0
      · rw [if_pos hf, if_pos hf]
        simp only [Except.map, hr']
      · rw [if_neg hf, if_neg hf]
        cases makeCoaddObs ext.coadd mb (some sb) with
        | error e => rfl
        | ok p =>
          obtain ⟨o, f⟩ := p
          cases o with
          | none => simp only [Except.map, Option.map_none, hr']
          | some o =>
            have hp : (inUnits c o).rest.psf = o.rest.psf := rfl
            simp only [Except.map, Option.map_some, hp]
            cases o.rest.psf with
            | none => simp only [hr']
            | some p =>
            simp only
            generalize ext.am.goPsf p s = r
            obtain ⟨r1, r2⟩ := r
            cases r1 with
            | error e => simp only [hr']
            | ok pres =>
              simp only
              have h0 : (if symm then Masking.symmetrizeObsWeights (inUnits c o) else .ok (inUnits c o)) =
                  (if symm then Masking.symmetrizeObsWeights o else .ok o).map (inUnits c) := by
                split
                · exact symmetrize_units hc o
                · rfl
              rw [h0]
              cases (if symm then Masking.symmetrizeObsWeights o else .ok o) with
              | error e => rfl
              | ok o' =>
                simp only [Except.map, hx.am]
                have ha : rowInUnits scale (amPsf row pres) = amPsf row pres := by
                  rw [← amPsf_units, hr]
                cases (ext.am.go o' r2).1 with
                | error e =>
                  refine Prod.ext ?_ rfl
                  simp only [Except.ok.injEq]
                  have h1 := congrArg Row.bandFlux ha
                  have h2 := congrArg Row.bandFluxErr ha
                  unfold rowInUnits at h1 h2 ⊢
                  simp only at h1 h2 ⊢
                  rw [h1, h2]
                | ok g =>
                  refine Prod.ext ?_ rfl
                  simp only [Except.ok.injEq]
                  rw [← amObj_units, ha]

/-- C119 (joint fitters): Gaussian fits and adaptive moments of the stamps of all objects in other flux units give the
same table with fluxes and flux errors in the new units, draw the same random numbers, and fail exactly when they
fail in the old units. -/
theorem C119_joint {c : K} (hc : 0 < c) (ext : JointExt K J F S R) (hx : JointUnits c scale ext) (name : String)
    (bits : Nat) (shearBands : Option (List Nat)) (symm coadd : Bool) (stamps : List (JMb K J)) (s : S) :
    fitMbobsListJoint ext name bits shearBands symm coadd (stamps.map (mbInUnits c)) s =
    let r := fitMbobsListJoint ext name bits shearBands symm coadd stamps s
    (r.1.map (Option.map (List.map (rowInUnits scale))), r.2) := by
  have hloop : ∀ (f : JMb K J → S → Except PyErr (Row F) × S),
      (∀ mb s, f (mbInUnits c mb) s = ((f mb s).1.map (rowInUnits scale), (f mb s).2)) → ∀ (l : List (JMb K J)) (s : S),
      loopRows f (l.map (mbInUnits c)) s = ((loopRows f l s).1.map (List.map (rowInUnits scale)), (loopRows f l s).2) := by
    intro f hf l
    induction l with
    | nil => intro s; rfl
    | cons mb t ih =>
      intro s
      simp only [List.map_cons, loopRows, hf]
      cases (f mb s).1 with
      | error e => rfl
      | ok row =>
        simp only [Except.map, ih]
        refine Prod.ext ?_ rfl
        simp only
        cases (loopRows f t (f mb s).2).1 <;> rfl
  have hrun : listRunner ext shearBands coadd (stamps.map (mbInUnits c)) = listRunner ext shearBands coadd stamps := by
    unfold listRunner mbInUnits
    match stamps with
    | [] => rfl
    | [] :: _ => rfl
    | ([] :: _) :: _ => rfl
    | ((o :: _) :: bands) :: _ => simp only [List.map_cons, List.length_map]; rfl
  unfold fitMbobsListJoint
  rw [hrun]
  unfold jointFit
  have fin : ∀ (f : JMb K J → S → Except PyErr (Row F) × S),
      (∀ mb s, f (mbInUnits c mb) s = ((f mb s).1.map (rowInUnits scale), (f mb s).2)) →
      (match (loopRows f (stamps.map (mbInUnits c)) s).1 with
        | .error e => .error e
        | .ok rows => hstackRows (fun r : Row F => r.bandFlux.length) rows, (loopRows f (stamps.map (mbInUnits c)) s).2) =
      ((match (loopRows f stamps s).1 with
        | .error e => .error e
        | .ok rows => hstackRows (fun r : Row F => r.bandFlux.length) rows : Except PyErr (Option (List (Row F)))).map
        (Option.map (List.map (rowInUnits scale))), (loopRows f stamps s).2) := by
    intro f hf
    rw [hloop f hf]
    refine Prod.ext ?_ rfl
    simp only
    cases (loopRows f stamps s).1 with
    | error e => rfl
    | ok rows =>
      simp only [Except.map]
      cases rows with
      | nil => rfl
      | cons r t =>
        simp only [hstackRows, List.map_cons, List.all_map]
        have hw : ∀ r : Row F, (rowInUnits scale r).bandFlux.length = r.bandFlux.length := fun r => List.length_map _
        have : ((fun x : Row F => x.bandFlux.length == (rowInUnits scale r).bandFlux.length) ∘ rowInUnits scale) =
            fun x => x.bandFlux.length == r.bandFlux.length := by
          funext x
          simp only [Function.comp, hw]
        rw [this]
        split <;> rfl
  by_cases h1 : name = "am" ∨ name = "admom"
  · simp only [if_pos h1]
    exact fin _ fun mb s => fitMbobsAdmom_units hc ext hx bits shearBands symm mb s
  · simp only [if_neg h1]
    by_cases h2 : name = "gauss"
    · simp only [if_pos h2]
      exact fin _ fun mb s => fitMbobsGauss_units hc ext hx _ bits shearBands coadd mb s
    · simp only [if_neg h2]
      rfl

/-! Non-vacuity: a fitter whose flux in each band is the central pixel and whose shape is a ratio of two pixels, with one
PSF fit per observation, drawing one random number per fit. -/

noncomputable def unitJoint : JointExt ℝ Unit ℝ Nat Unit where
  fl := exactFlt Real.sqrt 0
  noAttempt := 4
  coadd := ⟨fun l => l.headD 0, Real.sqrt⟩
  gauss :=
    { bootstrap := fun mb _ s =>
        (.ok (⟨0, 5, (1 / 4, 0), ((1, 0), (0, 1)), 2, 1, mb.map (fun ol => (ol.map fun o => o.image.px 1 1).headD 0),
          mb.map (fun ol => (ol.map fun o => o.image.px 0 0).headD 0)⟩, (mb.flatMap id).map fun _ => ⟨0, 1, some (0, 0), none⟩), s + 1)
      e2g := fun e => .ok e
      median := fun l => l.headD 0 }
  am :=
    { goPsf := fun _ s => (.ok ⟨0, 0, 1, 1, 1, (0, 0), ((1, 0), (0, 1))⟩, s + 1)
      go := fun o s => (.ok ⟨0, 0, o.image.px 0 1 / o.image.px 1 1, 1, 1, (0, 0), ((1, 0), (0, 1))⟩, s + 1) }
  mkRunner := fun _ _ => ()
  ownRunner := ()

theorem unitJoint_ok (c : ℝ) (hc : 0 < c) : JointUnits c (fun k x => c ^ k * x) unitJoint := by
  have hmed : ∀ l : List ℝ, (l.map (· / c ^ 2)).headD 0 = l.headD 0 / c ^ 2 := by
    intro l
    cases l <;> simp
  refine ⟨exact_unitLaws Real.sqrt (fun c x h => ?_) c hc, hmed, fun l => ?_, fun mb r s => ?_, fun o s => ?_⟩
  · rw [Real.sqrt_mul (by positivity), Real.sqrt_sq h.le]
  · show (l.map (· / c ^ 2)).headD 0 = c ^ (-2 : Int) * l.headD 0
    rw [hmed, zpow_neg, show (2 : Int) = ((2 : Nat) : Int) by rfl, zpow_natCast]
    ring
  · have hpx : ∀ (ol : List (JObs ℝ Unit)) (i j : Nat), ((ol.map (inUnits c)).map fun o => o.image.px i j).headD 0 =
        c ^ (1 : Int) * (ol.map fun o => o.image.px i j).headD 0 := by
      intro ol i j
      cases ol with
      | nil => simp
      | cons o t => simp [inUnits, Img.map]
    simp only [unitJoint, mbInUnits, Except.map, gaussInUnits, List.map_map, Function.comp_def, List.flatMap_id,
      ← List.map_flatten]
    have hpx' : ∀ (ol : List (JObs ℝ Unit)) (i j : Nat), (ol.map fun x => (inUnits c x).image.px i j).headD 0 =
        c ^ (1 : Int) * (ol.map fun o => o.image.px i j).headD 0 := by
      intro ol i j
      rw [← hpx, List.map_map]
      rfl
    simp only [hpx']
  · simp only [unitJoint, inUnits, Img.map]
    rw [mul_div_mul_left _ _ hc.ne']

/-- images in nanojansky and in microjansky -/
example (stamps : List (JMb ℝ Unit)) (s : Nat) :
    fitMbobsListJoint unitJoint "gauss" 0 none false false (stamps.map (mbInUnits (1 / 1000))) s =
    ((fitMbobsListJoint unitJoint "gauss" 0 none false false stamps s).1.map
      (Option.map (List.map (rowInUnits fun k x => (1 / 1000) ^ k * x))),
     (fitMbobsListJoint unitJoint "gauss" 0 none false false stamps s).2) :=
  C119_joint (by norm_num) unitJoint (unitJoint_ok _ (by norm_num)) "gauss" 0 none false false stamps s

end MD.Joint
