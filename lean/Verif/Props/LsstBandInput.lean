import Verif.Props.BandInput
import Verif.Props.LsstFrame
import Verif.Props.LsstMfrac

/-!
# C142: LSST: the order of the bands in the input does not matter

The order is given by a permutation of the places of the bands (`reorder`, as in C136): the coadd for detection, the union of
the masks, the averages of the masked fraction and of the PSF, and the sheared exposures.
-/

set_option linter.unusedSectionVars false

namespace MD.LsstOrder

open LsstExp LsstGeom LsstPsf LsstMetacal Wavg

variable {B K P W S : Type _} [Field K] [LinearOrder K] [IsStrictOrderedRing K] [DecidableEq B]

/-! ## Specification -/

/-- SPEC: the exposures have one shape, one WCS and one origin, and their PSFs are drawn on images of one shape -/
def OneFrame (ext : Ext K P W) (es : List (Exp K P W)) : Prop :=
  ∃ (nr nc pr pc : Nat) (w : Option W) (x0 y0 : Int), ∀ e ∈ es,
    (e.image.nr = nr ∧ e.image.nc = nc ∧ e.mask.nr = nr ∧ e.mask.nc = nc) ∧ e.wcs = w ∧ e.x0 = x0 ∧ e.y0 = y0 ∧
    ∃ p im, e.psf = some p ∧ ext.kernel p (((nc : K) - 1) / 2, ((nr : K) - 1) / 2) = some im ∧ im.nr = pr ∧ im.nc = pc

/-! ## Lemmas: lists in another order -/

section
variable {α β γ : Type _} {order : List Nat} {n : Nat}

theorem reorder_zip (ho : order.Perm (List.range n)) (a : List α) (b : List β) (ha : a.length = n) (hb : b.length = n) :
    reorder order (a.zip b) = (reorder order a).zip (reorder order b) := by
  have hm : ∀ i ∈ order, i < n := fun i hi => List.mem_range.1 (ho.mem_iff.1 hi)
  clear ho
  unfold reorder
  induction order with
  | nil => rfl
  | cons i t ih =>
    have hi := hm i (by simp)
    have h1 : a[i]? = some (a[i]'(by omega)) := List.getElem?_eq_getElem (by omega)
    have h2 : b[i]? = some (b[i]'(by omega)) := List.getElem?_eq_getElem (by omega)
    have h3 : (a.zip b)[i]? = some (a[i]'(by omega), b[i]'(by omega)) := by
      rw [List.getElem?_eq_getElem (by simp; omega), List.getElem_zip]
    rw [List.filterMap_cons_some h1, List.filterMap_cons_some h2, List.filterMap_cons_some h3, List.zip_cons_cons,
      ih fun i hi => hm i (by simp [hi])]

theorem zipIdx_names (bands : List B) (names : List B) (idx : List Nat) (hidx : ∀ i, i ∈ idx ↔ ∃ b, bands[i]? = some b ∧ b ∈ names)
    (l : List α) (hl : l.length = bands.length) (g : α → Prop → β) :
    (l.zipIdx.map fun p => g p.1 (p.2 ∈ idx)) = (bands.zip l).map fun p => g p.2 (p.1 ∈ names) := by
  refine List.ext_getElem? fun i => ?_
  by_cases h : i < l.length
  · have h' : i < bands.length := by omega
    have hz : i < (bands.zip l).length := by simp; omega
    rw [List.getElem?_map, List.getElem?_map, List.getElem?_eq_getElem (by simpa using h), List.getElem?_eq_getElem hz]
    simp only [List.getElem_zipIdx, List.getElem_zip, Option.map_some, Option.some.injEq, Nat.zero_add]
    congr 1
    rw [hidx, eq_iff_iff, List.getElem?_eq_getElem h']
    simp
  · rw [List.getElem?_eq_none (by simp; omega), List.getElem?_eq_none (by simp; omega)]

end

/-! ## C142: the detection coadd -/

theorem or_swap (a b c : Nat) : (a ||| b) ||| c = (a ||| c) ||| b := by
  rw [Nat.or_assoc, Nat.or_assoc, Nat.or_comm b c]

theorem nanAdd_right_comm (a b c : Option K) : nanAdd (nanAdd a b) c = nanAdd (nanAdd a c) b := by
  rcases a with _ | a <;> rcases b with _ | b <;> rcases c with _ | c <;> simp [nanAdd, add_right_comm]

theorem step_comm (ext : Ext K P W) (a : Acc K) (e e' : Exp K P W) (p p' : Img K) :
    coaddStep ext (coaddStep ext a e p) e' p' = coaddStep ext (coaddStep ext a e' p') e p := by
  unfold coaddStep
  simp only [Img.zip, Acc.mk.injEq, Img.mk.injEq, true_and]
  refine ⟨?_, ?_, ?_, ?_, nanAdd_right_comm _ _ _⟩
  · funext r c
    split_ifs
    · exact nanAdd_right_comm _ _ _
    · rfl
    · rfl
    · rfl
  · funext r c
    exact or_swap _ _ _
  · funext r c
    split_ifs
    · exact add_right_comm _ _ _
    · rfl
    · rfl
    · rfl
  · funext r c
    exact nanAdd_right_comm _ _ _

theorem loop_fold (ext : Ext K P W) (nr nc pr pc : Nat) (l : List (Exp K P W)) (a : Acc K)
    (ha : a.image.nr = nr ∧ a.image.nc = nc ∧ a.psf.nr = pr ∧ a.psf.nc = pc)
    (h : ∀ e ∈ l, e.image.nr = nr ∧ e.image.nc = nc ∧ ∃ im, expPsf ext e = .ok im ∧ im.nr = pr ∧ im.nc = pc) :
    coaddLoop ext a l = .ok (l.foldl (fun a e => coaddStep ext a e (psfIm ext e)) a) := by
  induction l generalizing a with
  | nil => rfl
  | cons e t ih =>
    obtain ⟨h1, h2, im, h3, h4, h5⟩ := h e (by simp)
    have hp : psfIm ext e = im := by simp [psfIm, h3]
    simp only [coaddLoop, h3, List.foldl_cons, hp]
    rw [if_neg (by simp [sameShape, h1, h2, h4, h5, ha.1, ha.2.1, ha.2.2.1, ha.2.2.2])]
    exact ih _ ha fun e he => h e (by simp [he])

/-- C142: the detection coadd, with its mask, variance, PSF and frame, does not depend on the order of the bands; there is no
coadd in one order exactly when there is none in any. -/
theorem C142_coadd (ext : Ext K P W) (es es' : List (Exp K P W)) (hp : es.Perm es') (h : OneFrame ext es) :
    coaddExposures ext es = coaddExposures ext es' := by
  obtain ⟨nr, nc, pr, pc, w, x0, y0, h⟩ := h
  have hpsf : ∀ e ∈ es, ∃ im, expPsf ext e = .ok im ∧ im.nr = pr ∧ im.nc = pc := by
    intro e he
    obtain ⟨⟨h1, h2, -, -⟩, -, -, -, p, im, hp, hk, h5, h6⟩ := h e he
    refine ⟨im, ?_, h5, h6⟩
    simp only [expPsf, hp, arrayCen, h1, h2, hk]
  have key : ∀ l : List (Exp K P W), (∀ e ∈ l, e ∈ es) → l ≠ [] → coaddExposures ext l =
      .ok (coaddFinish w x0 y0 (l.foldl (fun a e => coaddStep ext a e (psfIm ext e))
        ⟨Img.const nr nc (some 0), Img.const nr nc 0, Img.const nr nc 0, Img.const pr pc (some 0), some 0⟩)) := by
    intro l hl hne
    match l, hne with
    | e :: t, _ =>
      obtain ⟨⟨h1, h2, h3, h4⟩, hw, hx, hy, -⟩ := h e (hl e (by simp))
      obtain ⟨im, hi, h5, h6⟩ := hpsf e (hl e (by simp))
      simp only [coaddExposures, hi]
      rw [loop_fold ext nr nc pr pc (e :: t) _ (by simp [coaddInit, Img.const, h1, h2, h5, h6]) fun x hx => by
        obtain ⟨⟨g1, g2, -, -⟩, -⟩ := h x (hl x hx)
        exact ⟨g1, g2, hpsf x (hl x hx)⟩]
      simp only [hw, hx, hy, List.foldl_cons]
      congr 3
      unfold coaddStep coaddInit
      simp only [Img.zip, Img.const, h1, h2, h3, h4, h5, h6, Nat.or_self, Nat.zero_or]
  by_cases hne : es = []
  · subst hne
    rw [List.nil_perm.1 hp]
  · rw [key es (fun _ h => h) hne, key es' (fun e he => hp.mem_iff.2 he) (fun h0 => hne (by
      subst h0; exact List.perm_nil.1 hp))]
    congr 2
    exact hp.foldl_eq' (fun x _ y _ a => step_comm ext a x y _ _) _

/-! ## C142: masks and masked fractions -/

theorem combine_swap (shape : Nat × Nat) (l l' : List (Img Nat)) (hp : l.Perm l') :
    combineOrmasks shape (some l) = combineOrmasks shape (some l') := by
  match l, l' with
  | [], [] => rfl
  | [], _ :: _ => simp at hp
  | _ :: _, [] => simp at hp
  | m :: t, m' :: t' =>
    have hs : t.all (sameShape m) = t'.all (sameShape m') := by
      have h1 : ∀ (m : Img Nat) t, (t.all (sameShape m) = true ↔ ∀ a ∈ m :: t, ∀ b ∈ m :: t, a.nr = b.nr ∧ a.nc = b.nc) := by
        intro m t
        simp only [List.all_eq_true, sameShape, Bool.and_eq_true, decide_eq_true_iff, List.mem_cons, forall_eq_or_imp]
        constructor
        · intro h
          refine ⟨⟨⟨trivial, trivial⟩, h⟩, fun a ha => ⟨⟨(h a ha).1.symm, (h a ha).2.symm⟩, fun b hb => ?_⟩⟩
          exact ⟨(h a ha).1.symm.trans (h b hb).1, (h a ha).2.symm.trans (h b hb).2⟩
        · intro h
          exact h.1.2
      rw [Bool.eq_iff_iff, h1, h1]
      constructor
      · intro h a ha b hb; exact h a (hp.mem_iff.2 ha) b (hp.mem_iff.2 hb)
      · intro h a ha b hb; exact h a (hp.mem_iff.1 ha) b (hp.mem_iff.1 hb)
    simp only [combineOrmasks]
    rw [hs]
    split
    · rename_i hall
      have hall' : t.all (sameShape m) = true := hs.trans hall
      congr 1
      have hpx : ∀ (t : List (Img Nat)) (m : Img Nat), (t.foldl (fun a b => a.zip (· ||| ·) b) m) =
          ⟨m.nr, m.nc, fun r c => (m :: t).foldl (fun v i => v ||| i.px r c) 0⟩ := by
        intro t
        induction t with
        | nil => intro m; simp [Nat.zero_or]
        | cons b t ih =>
          intro m
          rw [List.foldl_cons, ih]
          simp [Img.zip]
      rw [hpx, hpx]
      have hm : m.nr = m'.nr ∧ m.nc = m'.nc := by
        have hmem : m ∈ m' :: t' := hp.mem_iff.1 (by simp)
        rcases List.mem_cons.1 hmem with h | h
        · rw [h]; exact ⟨rfl, rfl⟩
        · have := List.all_eq_true.1 hall m h
          simp only [sameShape, Bool.and_eq_true, decide_eq_true_iff] at this
          exact ⟨this.1.symm, this.2.symm⟩
      rw [hm.1, hm.2]
      congr 1
      funext r c
      exact hp.foldl_eq' (fun x _ y _ a => or_swap _ _ _) 0
    · rfl

/-- C142: the union of the masks of the bands does not depend on their order, nor does its refusal. -/
theorem C142_ormask (shape : Nat × Nat) (l l' : List (Img Nat)) (hp : l.Perm l') :
    combineOrmasks shape (some l) = combineOrmasks shape (some l') := combine_swap shape l l' hp

variable {order : List Nat} {n : Nat}

/-- C142: the band-averaged masked fraction is the same and the weights of the bands are in the new order; an exception is
raised alike. -/
theorem C142_mfrac (median : List K → K) (ho : order.Perm (List.range n)) (nr nc : Nat) (vars : List (Img (Var K)))
    (ms : List (Img K)) (hv : vars.length = n) (hm : ms.length = n) (hs : ∀ m ∈ ms, m.nr = nr ∧ m.nc = nc) :
    mfracMbexp median (reorder order vars) (some (reorder order ms)) =
      (mfracMbexp median vars (some ms)).map fun r => (r.1, reorder order r.2) := by
  have hpv := reorder_perm ho vars hv
  have hpm := reorder_perm ho ms hm
  by_cases hne : vars = []
  · subst hne
    have h1 : reorder order ([] : List (Img (Var K))) = [] := List.perm_nil.1 hpv
    rw [h1]
    rfl
  · have hne' : reorder order vars ≠ [] := fun h => hne (by rw [h] at hpv; exact List.nil_perm.1 hpv)
    obtain ⟨a1, a2⟩ := C78_error_iff median nr nc vars ms (hv.trans hm.symm) hne hs
    obtain ⟨b1, b2⟩ := C78_error_iff median nr nc (reorder order vars) (reorder order ms)
      ((reorder_length ho vars hv).trans (reorder_length ho ms hm).symm) hne' fun m hmem => hs m (hpm.mem_iff.1 hmem)
    by_cases hbad : ∃ v ∈ vars, usable v = []
    · rw [a1.2 hbad, b1.2 (by obtain ⟨v, hv, hu⟩ := hbad; exact ⟨v, hpv.mem_iff.2 hv, hu⟩)]
      rfl
    · have hgood : ∀ v ∈ vars, usable v ≠ [] := fun v hv hu => hbad ⟨v, hv, hu⟩
      obtain ⟨⟨o, ws⟩, h1⟩ := a2 hgood
      obtain ⟨⟨o', ws'⟩, h2⟩ := b2 fun v hv => hgood v (hpv.mem_iff.1 hv)
      rw [h1, h2]
      simp only [Except.map, Except.ok.injEq, Prod.mk.injEq]
      have hz := reorder_zip ho vars ms hv hm
      have hw : ws' = reorder order ws := by
        rw [(C78_average median _ _ _ _ h1 0 0).1, (C78_average median _ _ _ _ h2 0 0).1, ← hz, reorder_map]
      have hshape : ∀ (vars : List (Img (Var K))) (ms : List (Img K)) (o : Img K) (ws : List K), vars ≠ [] →
          vars.length = ms.length → (∀ m ∈ ms, m.nr = nr ∧ m.nc = nc) → mfracMbexp median vars (some ms) = .ok (o, ws) →
          o.nr = nr ∧ o.nc = nc := by
        intro vars ms o ws hne hl hs h
        unfold mfracMbexp at h
        simp only at h
        split at h
        · cases h
        · cases h
        · rename_i a ws' hloop
          cases h
          obtain ⟨-, -, h3, -⟩ := mfracLoop_ok median _ _ _ _ _ hloop
          rcases h3 with ⟨-, -, h3⟩ | ⟨a', ha', hb, -⟩
          · cases h3
          · cases ha'
            match vars, ms, hne, hl with
            | v :: _, m :: _, _, _ =>
              have := hb (v, m) (by simp)
              have hm := hs m (by simp)
              exact ⟨this.1.symm.trans hm.1, this.2.symm.trans hm.2⟩
      refine ⟨?_, hw⟩
      obtain ⟨c1, c2⟩ := hshape vars ms o ws hne (hv.trans hm.symm) hs h1
      obtain ⟨d1, d2⟩ := hshape _ _ o' ws' hne' ((reorder_length ho vars hv).trans (reorder_length ho ms hm).symm)
        (fun m hmem => hs m (hpm.mem_iff.1 hmem)) h2
      have hpx : o'.px = o.px := by
        funext r c
        rw [(C78_average median _ _ _ _ h1 r c).2, (C78_average median _ _ _ _ h2 r c).2, ← hz]
        have hlen : ws.length = n := by
          rw [(C78_average median _ _ _ _ h1 0 0).1]; simp [hv, hm]
        rw [hw, (reorder_perm ho ws hlen).sum_eq]
        congr 1
        exact ((reorder_perm ho (vars.zip ms) (by simp [hv, hm])).map _).sum_eq
      cases o; cases o'
      simp_all

/-! ## C142: original PSFs -/

theorem names_mem (bands : List B) (sb : Option (List B)) (ho : order.Perm (List.range n)) (hb : bands.length = n) (b : B) :
    b ∈ LsstConfig.requestedBands (reorder order bands) sb ↔ b ∈ LsstConfig.requestedBands bands sb := by
  have hp := reorder_perm ho bands hb
  unfold LsstConfig.requestedBands
  match sb with
  | none => exact hp.mem_iff
  | some l =>
    simp only []
    split
    · exact hp.mem_iff
    · exact Iff.rfl

theorem psfLoop_good (idx : List Nat) (l : List (PsfFit K × K)) (i : Nat) (a a' : PsfAcc K)
    (h : psfLoop idx i a l = (.done, a')) : ∀ b ∈ l, b.1.Good := by
  induction l generalizing i a with
  | nil => intro b hb; cases hb
  | cons b t ih =>
    obtain ⟨f, w⟩ := b
    cases f with
    | fit e1 e2 T =>
      simp only [psfLoop] at h
      intro b hb
      rcases List.mem_cons.1 hb with rfl | hb
      · trivial
      · exact ih _ _ h b hb
    | failed => simp [psfLoop] at h
    | raised e => simp [psfLoop] at h

theorem shearSum_eq (idx : List Nat) (f : PsfFit K × K → K) (l : List (PsfFit K × K)) (i : Nat) :
    LsstPsf.shearSum idx f i l = ((l.zipIdx i).map fun p => if p.2 ∈ idx then f p.1 else 0).sum := by
  induction l generalizing i with
  | nil => rfl
  | cons b t ih => simp [LsstPsf.shearSum, List.zipIdx_cons, ih]

/-- C142: if the PSFs of the bands can be fitted, then for the same fits in another order of the bands the average shape, size
and number of bands are the same, and the fits of the single bands are reported in the new order. -/
theorem C142_psf (e2g : K → K → Option (K × K)) (ho : order.Perm (List.range n)) (bands : List B) (hb : bands.length = n)
    (sb : Option (List B)) (idx : List Nat) (hidx : LsstConfig.shearBandIndices bands sb = .ok idx)
    (fits : List (PsfFit K)) (wgts : List K) (hf : fits.length = n) (s : PsfStats K)
    (h : fitOriginalPsfs e2g idx fits wgts = .ok s) :
    ∃ idx', LsstConfig.shearBandIndices (reorder order bands) sb = .ok idx' ∧
      fitOriginalPsfs e2g idx' (reorder order fits) (reorder order wgts) =
        .ok { s with perband := s.perband.map (reorder order) } := by
  have hpb := reorder_perm ho bands hb
  -- the indices
  obtain ⟨idx', hidx'⟩ : ∃ idx', LsstConfig.shearBandIndices (reorder order bands) sb = .ok idx' := by
    rw [LsstConfig.indices_eq] at hidx ⊢
    rw [if_neg]
    · exact ⟨_, rfl⟩
    · intro hbad
      split at hidx
      · cases hidx
      · rename_i hgood
        apply hgood
        rw [← hbad, Bool.eq_iff_iff, List.all_eq_true, List.all_eq_true]
        constructor
        · intro H x hx
          have := H x ((names_mem bands sb ho hb x).1 hx)
          simpa [hpb.mem_iff] using this
        · intro H x hx
          have := H x ((names_mem bands sb ho hb x).2 hx)
          simpa [hpb.mem_iff] using this
  refine ⟨idx', hidx', ?_⟩
  obtain ⟨hpw, hmem⟩ := LsstConfig.C60_indices bands sb idx hidx
  obtain ⟨hpw', hmem'⟩ := LsstConfig.C60_indices (reorder order bands) sb idx' hidx'
  have hmem2 : ∀ i, i ∈ idx' ↔ ∃ b, (reorder order bands)[i]? = some b ∧ b ∈ LsstConfig.requestedBands bands sb := by
    intro i
    rw [hmem' i]
    constructor
    · rintro ⟨b, h1, h2⟩; exact ⟨b, h1, (names_mem bands sb ho hb b).1 h2⟩
    · rintro ⟨b, h1, h2⟩; exact ⟨b, h1, (names_mem bands sb ho hb b).2 h2⟩
  have hlb' := reorder_length ho bands hb
  have hlf' := reorder_length ho fits hf
  have hlt : ∀ i ∈ idx, i < n := by
    intro i hi
    obtain ⟨b, h1, -⟩ := (hmem i).1 hi
    rw [← hb]; exact (List.getElem?_eq_some_iff.1 h1).1
  have hlt' : ∀ i ∈ idx', i < n := by
    intro i hi
    obtain ⟨b, h1, -⟩ := (hmem' i).1 hi
    rw [← hlb']; exact (List.getElem?_eq_some_iff.1 h1).1
  -- the loop over the bands
  unfold fitOriginalPsfs at h
  split at h
  · cases h
  rename_i hwl
  have hw : wgts.length = n := by rw [← hf]; exact not_not.1 hwl
  have hlw' := reorder_length ho wgts hw
  have hz : reorder order (fits.zip wgts) = (reorder order fits).zip (reorder order wgts) := reorder_zip ho fits wgts hf hw
  have hlz : (fits.zip wgts).length = n := by simp [hf, hw]
  have hpz := reorder_perm ho (fits.zip wgts) hlz
  simp only at h
  have hgood : ∀ b ∈ fits.zip wgts, b.1.Good := by
    rcases hr : psfLoop idx 0 ⟨0, 0, 0, 0, 0, []⟩ (fits.zip wgts) with ⟨st, a⟩
    rw [hr] at h
    cases st with
    | raised e => cases h
    | caught =>
      simp only [psfAfterFailure] at h
      split at h <;> cases h
    | done => exact psfLoop_good idx _ _ _ _ hr
  obtain ⟨a, h1, h2, h3, h4, h5, h6, h7⟩ := psfLoop_done idx (fits.zip wgts) hgood 0 ⟨0, 0, 0, 0, 0, []⟩
  obtain ⟨a', h1', h2', h3', h4', h5', h6', h7'⟩ := psfLoop_done idx' ((reorder order fits).zip (reorder order wgts))
    (fun b hbm => hgood b (by rw [← hz] at hbm; exact hpz.mem_iff.1 hbm)) 0 ⟨0, 0, 0, 0, 0, []⟩
  have hsum : ∀ f : PsfFit K × K → K, shearSum idx' f 0 ((reorder order fits).zip (reorder order wgts)) =
      shearSum idx f 0 (fits.zip wgts) := by
    intro f
    classical
    rw [shearSum_eq, shearSum_eq]
    have e1 := zipIdx_names bands _ idx hmem (fits.zip wgts) (by rw [hlz, hb])
      fun x q => @ite _ q (Classical.propDecidable q) (f x) 0
    have e2 := zipIdx_names (reorder order bands) _ idx' hmem2 ((reorder order fits).zip (reorder order wgts))
      (by rw [← hz, hlb', reorder_length ho _ hlz]) fun x q => @ite _ q (Classical.propDecidable q) (f x) 0
    have c1 : ∀ (l : List ((PsfFit K × K) × Nat)) (idx : List Nat), (l.map fun p => if p.2 ∈ idx then f p.1 else 0) =
        l.map fun p => @ite _ (p.2 ∈ idx) (Classical.propDecidable _) (f p.1) 0 := by
      intro l idx
      refine List.map_congr_left fun p _ => ?_
      congr
    rw [c1, c1, e1, e2, ← hz, ← reorder_zip ho bands (fits.zip wgts) hb hlz]
    exact ((reorder_perm ho (bands.zip (fits.zip wgts)) (by simp [hb, hf, hw])).map _).sum_eq
  have hcount : a'.navg = a.navg ∧ idx'.length = idx.length := by
    have k1 : a.navg = idx.length := by rw [h2, hlz, shearCount_eq idx n hpw hlt]; simp
    have k2 : a'.navg = idx'.length := by
      rw [h2', ← hz, reorder_length ho _ hlz, shearCount_eq idx' n hpw' hlt']; simp
    have k3 : idx'.length = idx.length := by
      have q : ∀ (l : List B) (names : List B), (l.zipIdx.filter fun e => decide (e.1 ∈ names)).length =
          l.countP fun b => decide (b ∈ names) := by
        intro l names
        rw [← List.countP_eq_length_filter, ← List.zipIdx_map_fst 0 l, List.countP_map, List.zipIdx_map_fst]
        rfl
      rw [LsstConfig.indices_eq] at hidx hidx'
      split at hidx
      · cases hidx
      split at hidx'
      · cases hidx'
      cases hidx; cases hidx'
      rw [List.length_map, List.length_map, q, q, hpb.countP_eq]
      congr 1
      funext b
      rw [Bool.eq_iff_iff, decide_eq_true_iff, decide_eq_true_iff]
      exact names_mem bands sb ho hb b
    exact ⟨by rw [k1, k2, k3], k3⟩
  have hper : a'.perband = reorder order a.perband := by
    classical
    have e1 := zipIdx_names bands _ idx hmem (fits.zip wgts) (by rw [hlz, hb])
      fun x q => (⟨x.1.e1, x.1.e2, x.2, x.1.T, @decide q (Classical.propDecidable q)⟩ : PerBand K)
    have e2 := zipIdx_names (reorder order bands) _ idx' hmem2 ((reorder order fits).zip (reorder order wgts))
      (by rw [← hz, hlb', reorder_length ho _ hlz])
      fun x q => (⟨x.1.e1, x.1.e2, x.2, x.1.T, @decide q (Classical.propDecidable q)⟩ : PerBand K)
    have c1 : ∀ (l : List ((PsfFit K × K) × Nat)) (idx : List Nat),
        (l.map fun p => (⟨p.1.1.e1, p.1.1.e2, p.1.2, p.1.1.T, decide (p.2 ∈ idx)⟩ : PerBand K)) =
        l.map fun p => ⟨p.1.1.e1, p.1.1.e2, p.1.2, p.1.1.T, @decide (p.2 ∈ idx) (Classical.propDecidable _)⟩ := by
      intro l idx
      refine List.map_congr_left fun p _ => ?_
      congr
    rw [h7, h7', List.nil_append, List.nil_append, c1, c1, e1, e2, ← hz, ← reorder_zip ho bands (fits.zip wgts) hb hlz,
      reorder_map]
  have s3 : a'.wsum = a.wsum := by rw [h3, h3', hsum]
  have s4 : a'.e1sum = a.e1sum := by rw [h4, h4', hsum]
  have s5 : a'.e2sum = a.e2sum := by rw [h5, h5', hsum]
  have s6 : a'.Tsum = a.Tsum := by rw [h6, h6', hsum]
  unfold fitOriginalPsfs
  rw [if_neg (by omega)]
  simp only [h1] at h
  simp only [h1', s3, s4, s5, s6, hper, hcount.1, hcount.2]
  split at h
  · cases h
  rename_i hpos
  rw [if_neg hpos]
  split at h
  · simp only [psfAfterFailure] at h
    split at h <;> cases h
  · rename_i g hg
    split at h
    · cases h
    · rename_i hn
      cases h
      simp only [hg]
      rw [if_neg hn]
      rfl

/-! ## C142: sheared exposures -/

theorem get?_map {κ ν μ : Type _} [DecidableEq κ] (f : ν → μ) (d : PyDict κ ν) (k : κ) :
    PyDict.get? (d.map fun p => (p.1, f p.2)) k = (PyDict.get? d k).map f := by
  induction d with
  | nil => rfl
  | cons e t ih =>
    simp only [List.map_cons, PyDict.get?]
    by_cases h : e.1 = k
    · simp [h]
    · simp [h, ih]

theorem set_map {κ ν μ : Type _} [DecidableEq κ] (f : ν → μ) (d : PyDict κ ν) (k : κ) (v : ν) :
    PyDict.set (d.map fun p => (p.1, f p.2)) k (f v) = (PyDict.set d k v).map fun p => (p.1, f p.2) := by
  induction d with
  | nil => rfl
  | cons e t ih =>
    simp only [List.map_cons, PyDict.set]
    by_cases h : e.1 = k
    · simp [h]
    · simp [h, ih]

theorem foldl_set_map {ν μ : Type _} (f : ν → μ) (g : String → ν) (g' : String → μ) (ts : List String) (h : ∀ t ∈ ts, g' t = f (g t))
    (d : PyDict String ν) :
    ts.foldl (fun d t => PyDict.set d t (g' t)) (d.map fun p => (p.1, f p.2)) =
      (ts.foldl (fun d t => PyDict.set d t (g t)) d).map fun p => (p.1, f p.2) := by
  induction ts generalizing d with
  | nil => rfl
  | cons t ts ih =>
    rw [List.foldl_cons, List.foldl_cons, h t (by simp), set_map, ih fun t ht => h t (by simp [ht])]

theorem bandLoop_iff (make : Exp K P W → Option S → Except PyErr (PyDict String (Exp K P W))) (mb : MbExp B K P W)
    (d : PyDict String (MbExp B K P W)) (stats : Option (List S)) :
    (∃ d', bandLoop make d mb stats = .ok d') ↔
      ∀ (i : Nat) (p : B × Exp K P W), mb[i]? = some p → ∃ md, make p.2 (stats.bind (·[i]?)) = .ok md := by
  induction mb generalizing d stats with
  | nil => simp [bandLoop]
  | cons p t ih =>
    obtain ⟨b, e⟩ := p
    have h0 : (stats.bind List.head?) = stats.bind (·[0]?) := by
      cases stats with
      | none => rfl
      | some s => simp [List.head?_eq_getElem?]
    have hS : ∀ i, ((stats.map List.tail).bind (·[i]?)) = stats.bind (·[i + 1]?) := by
      intro i
      cases stats with
      | none => rfl
      | some s => simp
    simp only [bandLoop, h0]
    constructor
    · intro h i p hi
      cases hm : make e (stats.bind (·[0]?)) with
      | error er => rw [hm] at h; obtain ⟨_, h⟩ := h; cases h
      | ok md =>
        rw [hm] at h
        cases i with
        | zero => simp only [List.getElem?_cons_zero, Option.some.injEq] at hi; subst hi; exact ⟨md, hm⟩
        | succ i =>
          have := (ih _ _).1 h i p (by simpa using hi)
          rwa [hS] at this
    · intro h
      obtain ⟨md, hm⟩ := h 0 (b, e) (by simp)
      simp only [hm]
      refine (ih _ _).2 fun i p hi => ?_
      rw [hS]
      exact h (i + 1) p (by simpa using hi)

theorem stats_reorder (ho : order.Perm (List.range n)) (stats : Option (List S)) (hst : ∀ s, stats = some s → s.length = n)
    (j i : Nat) (hj : order[j]? = some i) :
    ((stats.map (reorder order)).bind (·[j]?)) = stats.bind (·[i]?) := by
  cases stats with
  | none => rfl
  | some s =>
    simp only [Option.map_some, Option.bind_some]
    rw [reorder_get ho s (hst s rfl), hj]
    rfl

theorem order_get (ho : order.Perm (List.range n)) (j : Nat) (hj : j < n) : ∃ i, order[j]? = some i ∧ i < n := by
  have hl : order.length = n := by rw [ho.length_eq, List.length_range]
  refine ⟨order[j]'(by omega), List.getElem?_eq_getElem (by omega), ?_⟩
  exact List.mem_range.1 (ho.mem_iff.1 (List.getElem_mem _))

theorem metacalMbexps_order (ext : Ext K P W) (gal : Gal K S) (ho : order.Perm (List.range n)) (mb : MbExp B K P W)
    (hl : mb.length = n) (types : Option (List String)) (rot : Bool) (stats : Option (List S))
    (d : PyDict String (MbExp B K P W)) (h : metacalMbexps ext gal mb types rot stats = .ok d) :
    metacalMbexps ext gal (reorder order mb) types rot (stats.map (reorder order)) =
      .ok (d.map fun p => (p.1, reorder order p.2)) ∧ ∀ p ∈ d, p.2.length = n := by
  have hok := metacalMbexps_ok ext gal mb types rot stats d h
  have hlen : ∀ p ∈ d, p.2.length = n := by
    intro p hp
    have hg : PyDict.get? d p.1 = some p.2 := PyDict.get?_of_mem hok.1 hp
    by_cases ht : p.1 ∈ types.getD DEFAULT_TYPES
    · obtain ⟨l, h1, h2, -⟩ := hok.2.2 p.1 ht
      rw [hg] at h1
      cases h1
      rw [h2, hl]
    · rw [hok.2.1 _ ht] at hg
      cases hg
  refine ⟨?_, hlen⟩
  unfold metacalMbexps at h ⊢
  simp only at h ⊢
  split at h
  swap
  · cases h
  rename_i hst0
  have hst : ∀ s, stats = some s → s.length = n := by
    intro s hs
    subst hs
    simpa [hl] using hst0
  have hl' := reorder_length ho mb hl
  have hst' : ((stats.map (reorder order)).map fun s => decide (s.length = (reorder order mb).length)).getD true = true := by
    cases stats with
    | none => rfl
    | some s => simp [hl', reorder_length ho s (hst s rfl)]
  rw [if_pos hst']
  split at h
  · cases h
  rename_i lists hlists
  cases h
  have hall := (bandLoop_iff _ _ _ _).1 ⟨lists, hlists⟩
  have hall' : ∀ (j : Nat) (p : B × Exp K P W), (reorder order mb)[j]? = some p → ∃ md, metacalExps ext gal p.2
      ((stats.map (reorder order)).bind (·[j]?)) (some (types.getD DEFAULT_TYPES)) rot = .ok md := by
    intro j p hj
    have hjn : j < n := by rw [← hl']; exact (List.getElem?_eq_some_iff.1 hj).1
    obtain ⟨i, hi, hin⟩ := order_get ho j hjn
    rw [reorder_get ho mb hl, hi] at hj
    rw [stats_reorder ho stats hst j i hi]
    exact hall i p hj
  obtain ⟨lists', hlists'⟩ := (bandLoop_iff
    (fun e s => metacalExps ext gal e s (some (types.getD DEFAULT_TYPES)) rot) (reorder order mb) ((types.getD DEFAULT_TYPES).foldl (fun d t => PyDict.set d t [])
    ([] : PyDict String (MbExp B K P W))) (stats.map (reorder order))).2 hall'
  rw [hlists']
  simp only [Except.ok.injEq]
  refine foldl_set_map (ν := MbExp B K P W) (reorder order) _ _ _ (fun t ht => ?_) []
  have hmk : ∀ (e : Exp K P W) s md, metacalExps ext gal e s (some (types.getD DEFAULT_TYPES)) rot = .ok md →
      md.Ok ∧ ∃ x, PyDict.get? md t = some x := by
    intro e s md hm
    obtain ⟨a, b, -⟩ := metacalExps_ok ext gal e s _ rot md hm
    obtain ⟨-, x, hx, -⟩ := b t ht
    exact ⟨a, x, hx⟩
  obtain ⟨l, a1, a2, a3⟩ := bandLoop_ok _ t hmk mb _ _ stats hlists
  obtain ⟨l', b1, b2, b3⟩ := bandLoop_ok _ t hmk (reorder order mb) _ _ _ hlists'
  rw [get?_foldl_set, if_pos ht, Option.getD_some, List.nil_append] at a1 b1
  rw [a1, b1]
  refine List.ext_getElem? fun j => ?_
  by_cases hj : j < n
  · obtain ⟨i, hi, hin⟩ := order_get ho j hj
    rw [reorder_get ho l (by rw [a2, hl]), hi]
    have hmi : mb[i]? = some (mb[i]'(by omega)) := List.getElem?_eq_getElem (by omega)
    have hmj : (reorder order mb)[j]? = some (mb[i]'(by omega)) := by rw [reorder_get ho mb hl, hi]; exact hmi
    obtain ⟨md, x, c1, c2, c3⟩ := a3 i _ _ hmi
    obtain ⟨md', x', e1, e2, e3⟩ := b3 j _ _ hmj
    rw [stats_reorder ho stats hst j i hi, c1] at e1
    cases e1
    rw [c2] at e2
    cases e2
    rw [e3]
    exact c3.symm
  · rw [List.getElem?_eq_none (by omega), List.getElem?_eq_none (by rw [reorder_length ho l (by rw [a2, hl])]; omega)]

theorem addNoises_order (ho : order.Perm (List.range n)) (l nl l' : MbExp B K P W) (hl : l.length = n) (hnl : nl.length = n)
    (h : addNoises l nl = .ok l') : addNoises (reorder order l) (reorder order nl) = .ok (reorder order l') := by
  obtain ⟨h1, h2⟩ := addNoises_ok l nl l' h (by omega)
  have hlr := reorder_length ho l hl
  have hnlr := reorder_length ho nl hnl
  have each : ∀ (j : Nat) (p q : B × Exp K P W), (reorder order l)[j]? = some p → (reorder order nl)[j]? = some q →
      ∃ x, addNoise p.2 q.2 = .ok x ∧ (reorder order l')[j]? = some (p.1, x) := by
    intro j p q hp hq
    have hj : j < n := by rw [← hlr]; exact (List.getElem?_eq_some_iff.1 hp).1
    obtain ⟨i, hi, hin⟩ := order_get ho j hj
    rw [reorder_get ho l hl, hi] at hp
    rw [reorder_get ho nl hnl, hi] at hq
    obtain ⟨x, hx, hlx⟩ := h2 i p.1 p.2 q.1 q.2 hp hq
    refine ⟨x, hx, ?_⟩
    rw [reorder_get ho l' (by omega), hi]
    exact hlx
  obtain ⟨l2, hl2⟩ := addNoises_total (reorder order l) (reorder order nl) fun j p q hp hq => by
    obtain ⟨x, hx, -⟩ := each j p q hp hq
    exact ⟨x, hx⟩
  obtain ⟨g1, g2⟩ := addNoises_ok _ _ _ hl2 (by omega)
  rw [hl2]
  congr 1
  refine List.ext_getElem? fun j => ?_
  by_cases hj : j < n
  · have ha : (reorder order l)[j]? = some ((reorder order l)[j]'(by omega)) := List.getElem?_eq_getElem (by omega)
    have hb : (reorder order nl)[j]? = some ((reorder order nl)[j]'(by omega)) := List.getElem?_eq_getElem (by omega)
    obtain ⟨x, hx, hlx⟩ := each j _ _ ha hb
    obtain ⟨y, hy, hly⟩ := g2 j _ _ _ _ ha hb
    have hxy : x = y := Except.ok.inj (hx.symm.trans hy)
    subst hxy
    rw [hlx, hly]
    rfl
  · rw [List.getElem?_eq_none (by omega), List.getElem?_eq_none (by rw [reorder_length ho l' (by omega)]; omega)]

/-- C142: the sheared exposures of every type, with their noise, are those of the same bands in the new order. -/
theorem C142_metacal (ext : Ext K P W) (gal : Gal K S) (ho : order.Perm (List.range n)) (mb noise : MbExp B K P W)
    (hl : mb.length = n) (hnl : noise.length = n) (types : Option (List String)) (stats : Option (List S))
    (d nd : PyDict String (MbExp B K P W)) (h : metacalMbexpsFixnoise ext gal mb noise types stats = .ok (d, nd)) :
    metacalMbexpsFixnoise ext gal (reorder order mb) (reorder order noise) types (stats.map (reorder order)) =
      .ok (d.map fun p => (p.1, reorder order p.2), nd.map fun p => (p.1, reorder order p.2)) := by
  unfold metacalMbexpsFixnoise at h ⊢
  split at h
  · cases h
  rename_i d0 hd0
  split at h
  · cases h
  rename_i nd0 hnd0
  split at h
  · cases h
  rename_i d1 hfix
  cases h
  obtain ⟨a1, a2⟩ := metacalMbexps_order ext gal ho mb hl types false stats d0 hd0
  obtain ⟨b1, b2⟩ := metacalMbexps_order ext gal ho noise hnl types true stats nd hnd0
  rw [a1, b1]
  simp only []
  have key : ∀ (l : List (String × MbExp B K P W)) (r : PyDict String (MbExp B K P W)), (∀ p ∈ l, p.2.length = n) →
      fixLoop nd l = .ok r → fixLoop (nd.map fun p => (p.1, reorder order p.2)) (l.map fun p => (p.1, reorder order p.2)) =
        .ok (r.map fun p => (p.1, reorder order p.2)) := by
    intro l
    induction l with
    | nil => intro r _ h; cases h; rfl
    | cons p t ih =>
      intro r hlen h
      obtain ⟨k, l⟩ := p
      simp only [fixLoop] at h
      split at h
      · cases h
      rename_i nl hnl'
      split at h
      · cases h
      rename_i l' hadd
      split at h
      · cases h
      rename_i r' hr'
      cases h
      have hnl'' : nl.length = n := b2 (k, nl) (PyDict.mem_of_get? hnl')
      simp only [List.map_cons, fixLoop]
      rw [get?_map (reorder order) nd k, hnl']
      simp only [Option.map_some, addNoises_order ho l nl l' (hlen (k, l) (by simp)) hnl'' hadd,
        ih r' (fun p hp => hlen p (by simp [hp])) hr']
  rw [key d0 d a2 hfix]

/-! Non-vacuity: three exposures with other pixels and variances; two of three bands are for shear; sheared exposures of two
bands. -/

theorem exThree : OneFrame exExt [exExp3, exExp2, exExp] := by
  refine ⟨2, 2, 3, 3, some (), 10, 20, ?_⟩
  intro e he
  simp only [List.mem_cons, List.not_mem_nil, or_false] at he
  rcases he with rfl | rfl | rfl <;> exact ⟨⟨rfl, rfl, rfl, rfl⟩, rfl, rfl, rfl, ⟨3, 3, fun _ _ => 1⟩, ⟨3, 3, fun _ _ => 1⟩, rfl, rfl, rfl, rfl⟩

example : coaddExposures exExt [exExp3, exExp2, exExp] = coaddExposures exExt [exExp2, exExp, exExp3] :=
  C142_coadd exExt _ _ ((List.Perm.swap _ _ _).trans ((List.Perm.swap _ _ _).cons _)) exThree

/-- there is a coadd -/
example : (match coaddExposures exExt [exExp3, exExp2, exExp] with
    | .ok (some d) => decide (d.image.px 1 1 ≠ none)
    | _ => false) = true := by decide +kernel

example : okAnd (combineOrmasks (2, 2) (some [⟨2, 2, fun r _ => r⟩, ⟨2, 2, fun _ c => 2 * c⟩])) (fun m => decide (m.px 1 1 = 3)) = true := by
  decide +kernel

example : [2, 0, 1].Perm (List.range 3) := by decide

example : LsstConfig.shearBandIndices ["g", "r", "i"] (some ["i", "g"]) = .ok [0, 2] ∧
    LsstConfig.shearBandIndices (reorder [2, 0, 1] ["g", "r", "i"]) (some ["i", "g"]) = .ok [0, 1] := by decide +kernel

example : okAnd (fitOriginalPsfs (K := ℚ) (fun a b => some (a, b)) [0, 2] [.fit 1 2 3, .fit 100 100 100, .fit 4 5 6] [1, 7, 3])
    (fun r => decide (r.e1 = 13 / 4) && decide ((r.perband.map (·.map (·.e1))) = some [1, 100, 4])) = true ∧
    okAnd (fitOriginalPsfs (K := ℚ) (fun a b => some (a, b)) [0, 1] [.fit 4 5 6, .fit 1 2 3, .fit 100 100 100] [3, 1, 7])
    (fun r => decide (r.e1 = 13 / 4) && decide ((r.perband.map (·.map (·.e1))) = some [4, 1, 100])) = true := by decide +kernel

example : (match metacalMbexpsFixnoise (B := String) exExt exGal [("r", exExp), ("i", exExp2)] [("r", exExp2), ("i", exExp)]
    (some ["noshear", "1p"]) none with
    | .ok (d, _) => decide (d.map (fun p => (p.1, p.2.map (·.1))) = [("noshear", ["r", "i"]), ("1p", ["r", "i"])])
    | _ => false) = true := by decide +kernel

end MD.LsstOrder
