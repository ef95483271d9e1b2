import Verif.Props.Mirror
import Verif.Props.UnitsCoadd

/-! C128, detection image, coadds and joint fitters: mirrored images give mirrored images and mirrored shapes. -/

set_option linter.unusedSectionVars false

namespace MD.Joint
open Flags Wavg Detect

/-! ## Specification -/

/-- SPEC: the mirrored PSF; `mj` gives the text of the mirrored Jacobian -/
structure PsfMirrored {K J : Type _} (mj : J → J) (a b : PsfObs K J) : Prop where
  image : Mirrored a.image b.image
  weight : Mirrored a.weight b.weight
  jac : b.jac = mj a.jac

/-- SPEC: mirrored Jacobian and PSF -/
structure RestMirrored {K J : Type _} (mj : J → J) (a b : Rest K J) : Prop where
  jac : b.jac = mj a.jac
  psf : Option.Rel (PsfMirrored mj) a.psf b.psf

/-- SPEC: `b` is the multi-band observation `a` with left and right exchanged -/
def JMirrored {K J : Type _} (mj : J → J) (a b : JMb K J) : Prop := MbMirrored (RestMirrored mj) a b

/-- SPEC: all planes of all observations have the shape of their image, as ngmix enforces -/
def AllOk {K J : Type _} (a : JMb K J) : Prop := ∀ ol ∈ a, ∀ o ∈ ol, o.Ok

/-- SPEC: the outcomes of coadding: both raise the same exception, or both are refused with the same flags, or the
coadds are mirror images of each other -/
def CoaddMirrored {K J : Type _} (mj : J → J) : Except PyErr (Option (JObs K J) × Nat) → Except PyErr (Option (JObs K J) × Nat) → Prop :=
  Both fun r r' => Option.Rel (ObsMirrored (RestMirrored mj)) r.1 r'.1 ∧ r'.2 = r.2

/-- SPEC: the median does not depend on the order of the numbers -/
def MedianPerm {K F : Type _} (median : List K → F) : Prop := ∀ l l', List.Perm l l' → median l' = median l

/-- SPEC: the mirrored detection image: the same noise level -/
structure DetimMirrored {K : Type _} (a b : Detim K) : Prop where
  detim : Mirrored a.detim b.detim
  detnoise : b.detnoise = a.detnoise
  detmask : Mirrored a.detmask b.detmask

section
variable {K J X : Type} [Field K] [LinearOrder K] [DecidableEq J] {rest : X → X → Prop} {mj : J → J}

/-! ## Detection image -/

theorem posList_mirror {a b : Img K} (h : Mirrored a b) :
    List.Perm (a.toList.filter fun w => decide (w > 0)) (b.toList.filter fun w => decide (w > 0)) :=
  (toList_mirror h).filter _

theorem addBand_mirror (nodet : Nat) {a b : Obs K X} (h : ObsMirrored rest a b) (hok : a.Ok) (w : K)
    {s s' : Img K × Img Bool} (h1 : Mirrored s.1 s'.1) (h2 : Mirrored s.2 s'.2)
    (h3 : s.2.nr = s.1.nr ∧ s.2.nc = s.1.nc) :
    Both (fun t t' => Mirrored t.1 t'.1 ∧ Mirrored t.2 t'.2 ∧ t.2.nr = t.1.nr ∧ t.2.nc = t.1.nc)
      (addBand nodet s (a, w)) (addBand nodet s' (b, w)) := by
  unfold addBand
  simp only [h.image.1, h.image.2.1, h1.1, h1.2.1]
  by_cases hs : a.image.nr ≠ s.1.nr ∨ a.image.nc ≠ s.1.nc
  · simp only [if_pos hs]
    rfl
  · simp only [if_neg hs]
    have hr : a.image.nr = s.1.nr := by tauto
    have hc : a.image.nc = s.1.nc := by tauto
    refine ⟨⟨h1.1, h1.2.1, fun r c hin => ?_⟩, ?_, ?_⟩
    · have hin : s.1.In r c := hin
      simp only [Img.zip]
      rw [h1.2.2 r c hin, h.image.2.2 r c ⟨hr ▸ hin.1, hc ▸ hin.2⟩, hc]
    · have hb := h.bmask
      cases ha : a.bmask with
      | none =>
        rw [ha] at hb
        cases hbb : b.bmask with
        | none => exact h2
        | some q => rw [hbb] at hb; cases hb
      | some p =>
        rw [ha] at hb
        cases hbb : b.bmask with
        | none => rw [hbb] at hb; cases hb
        | some q =>
          rw [hbb] at hb
          cases hb with
          | some hb =>
            have hp := hok.bmask p ha
            refine ⟨h2.1, h2.2.1, fun r c hin => ?_⟩
            have hin : s.2.In r c := hin
            simp only [Img.zip]
            rw [h2.2.2 r c hin, hb.2.2 r c ⟨?_, ?_⟩, hp.2, hc, h3.2]
            · rw [hp.1, hr, ← h3.1]; exact hin.1
            · rw [hp.2, hc, ← h3.2]; exact hin.2
    · cases a.bmask with
      | none => exact h3
      | some p => exact h3

theorem addBands_mirror (nodet : Nat) {l l' : List (Obs K X)} (h : List.Forall₂ (ObsMirrored rest) l l')
    (hok : ∀ o ∈ l, o.Ok) : ∀ (ws : List K) {s s' : Img K × Img Bool}, Mirrored s.1 s'.1 → Mirrored s.2 s'.2 →
    s.2.nr = s.1.nr ∧ s.2.nc = s.1.nc →
    Both (fun t t' => Mirrored t.1 t'.1 ∧ Mirrored t.2 t'.2 ∧ t.2.nr = t.1.nr ∧ t.2.nc = t.1.nc)
      ((l.zip ws).foldlM (addBand nodet) s) ((l'.zip ws).foldlM (addBand nodet) s') := by
  induction h with
  | nil =>
    intro ws s s' h1 h2 h3
    exact ⟨h1, h2, h3⟩
  | @cons a b t t' hab _ ih =>
    intro ws s s' h1 h2 h3
    cases ws with
    | nil => exact ⟨h1, h2, h3⟩
    | cons w ws =>
      simp only [List.zip_cons_cons, List.foldlM_cons]
      have := addBand_mirror nodet hab (hok a (List.mem_cons_self ..)) w h1 h2 h3
      generalize addBand nodet s (a, w) = x at this
      generalize addBand nodet s' (b, w) = y at this
      cases x with
      | error e =>
        cases y with
        | error e' => exact this
        | ok v => exact this.elim
      | ok u =>
        cases y with
        | error e' => exact this.elim
        | ok v =>
          obtain ⟨g1, g2, g3⟩ := this
          exact ih (fun o ho => hok o (List.mem_cons_of_mem _ ho)) ws g1 g2 g3

/-- C128 (detection): the image on which the objects are detected, made from mirrored images, is the mirrored image, with
the same noise level and the mirrored mask. -/
theorem C128_detection (ext : NpExt K) (hm : MedianPerm ext.median) (nodet : Nat) (obs obs' : List (Obs K X))
    (h : List.Forall₂ (ObsMirrored rest) obs obs') (hok : ∀ o ∈ obs, o.Ok) :
    Both DetimMirrored (setDetim ext nodet obs) (setDetim ext nodet obs') := by
  have hw : ∀ l l' : List (Obs K X), List.Forall₂ (ObsMirrored rest) l l' →
      (l'.map fun o => 1 / imageVar ext o) = l.map fun o => 1 / imageVar ext o := by
    intro l l' hll
    induction hll with
    | nil => rfl
    | cons hab _ ih =>
      simp only [List.map_cons, ih]
      unfold imageVar
      rw [hm _ _ (posList_mirror hab.weight)]
  cases h with
  | nil => rfl
  | @cons a b t t' hab ht =>
    unfold setDetim
    simp only [hw _ _ (List.Forall₂.cons hab ht)]
    have h0 : Mirrored (a.image.map fun v => v * 0) (b.image.map fun v => v * 0) :=
      ⟨hab.image.1, hab.image.2.1, fun r c hin => by simp only [Img.map]; rw [hab.image.2.2 r c hin]⟩
    have h1 : Mirrored (Img.const (a.image.map fun v => v * 0).nr (a.image.map fun v => v * 0).nc false)
        (Img.const (b.image.map fun v => v * 0).nr (b.image.map fun v => v * 0).nc false) :=
      ⟨hab.image.1, hab.image.2.1, fun r c _ => rfl⟩
    have := addBands_mirror nodet (List.Forall₂.cons hab ht) hok
      (((a :: t).map fun o => 1 / imageVar ext o).map fun w => w / ((a :: t).map fun o => 1 / imageVar ext o).sum)
      (s := (a.image.map fun v => v * 0, Img.const (a.image.map fun v => v * 0).nr (a.image.map fun v => v * 0).nc false))
      (s' := (b.image.map fun v => v * 0, Img.const (b.image.map fun v => v * 0).nr (b.image.map fun v => v * 0).nc false))
      h0 h1 ⟨rfl, rfl⟩
    revert this
    generalize List.foldlM (addBand nodet) (a.image.map fun v => v * 0, Img.const (a.image.map fun v => v * 0).nr
      (a.image.map fun v => v * 0).nc false) _ = x
    generalize List.foldlM (addBand nodet) (b.image.map fun v => v * 0, Img.const (b.image.map fun v => v * 0).nr
      (b.image.map fun v => v * 0).nc false) _ = y
    intro this
    cases x with
    | error e =>
      cases y with
      | error e' => exact this
      | ok v => exact this.elim
    | ok u =>
      cases y with
      | error e' => exact this.elim
      | ok v => exact ⟨this.1, rfl, this.2.1⟩

/-! ## Coadds -/

theorem bandObs_mirror {a b : JMb K J} (h : JMirrored mj a b) (hok : AllOk a) (i : Nat) :
    Both (fun o o' => ObsMirrored (RestMirrored mj) o o' ∧ o.Ok) (bandObs a i) (bandObs b i) := by
  unfold bandObs
  unfold JMirrored MbMirrored at h
  induction h generalizing i with
  | nil => rfl
  | @cons x y l l' h1 h2 ih =>
    cases i with
    | zero =>
      simp only [List.getElem?_cons_zero]
      cases h1 with
      | nil => rfl
      | cons g1 g2 => exact ⟨g1, hok _ (List.mem_cons_self ..) _ (List.mem_cons_self ..)⟩
    | succ i =>
      simp only [List.getElem?_cons_succ]
      exact ih (fun ol hol => hok ol (List.mem_cons_of_mem _ hol)) i

theorem bandsObs_mirror {a b : JMb K J} (h : JMirrored mj a b) (hok : AllOk a) (l : List Nat) :
    Both (List.Forall₂ fun o o' => ObsMirrored (RestMirrored mj) o o' ∧ o.Ok) (bandsObs a l) (bandsObs b l) := by
  induction l with
  | nil => exact .nil
  | cons i t ih =>
    simp only [bandsObs]
    have hi := bandObs_mirror h hok i
    generalize bandObs a i = x at hi
    generalize bandObs b i = y at hi
    generalize bandsObs a t = u at ih
    generalize bandsObs b t = v at ih
    cases x with
    | error e =>
      cases y with
      | error e' => exact hi
      | ok o' => exact hi.elim
    | ok o =>
      cases y with
      | error e' => exact hi.elim
      | ok o' =>
        cases u with
        | error e =>
          cases v with
          | error e' => exact ih
          | ok os => exact ih.elim
        | ok os =>
          cases v with
          | error e' => exact ih.elim
          | ok os' => exact .cons hi ih

theorem inconsistent_mirror (hmj : Function.Injective mj) {f f' o o' : JObs K J} (hf : ObsMirrored (RestMirrored mj) f f')
    (ho : ObsMirrored (RestMirrored mj) o o') : inconsistent f' o' = inconsistent f o := by
  unfold inconsistent
  have h1 := hf.rest.psf
  have h2 := ho.rest.psf
  have hj : (f'.rest.jac ≠ o'.rest.jac) = (f.rest.jac ≠ o.rest.jac) := by
    rw [hf.rest.jac, ho.rest.jac]
    exact propext (not_congr hmj.eq_iff)
  generalize f.rest.psf = fp at h1
  generalize f'.rest.psf = fp' at h1
  generalize o.rest.psf = op at h2
  generalize o'.rest.psf = op' at h2
  cases h1 with
  | none => rfl
  | some h1 =>
    cases h2 with
    | none => rfl
    | some h2 =>
      simp only [hj, hf.image.1, hf.image.2.1, ho.image.1, ho.image.2.1, h1.image.1, h1.image.2.1, h2.image.1,
        h2.image.2.1, h1.jac, h2.jac, ne_eq, hmj.eq_iff]

theorem posWeights_mirror {a b : JObs K J} (h : ObsMirrored (RestMirrored mj) a b) :
    List.Perm (posWeights a) (posWeights b) := posList_mirror h.weight

theorem isEmpty_perm {α : Type _} {l l' : List α} (h : List.Perm l l') : l'.isEmpty = l.isEmpty := by
  cases l with
  | nil => rw [List.nil_perm.1 h]
  | cons a t =>
    cases l' with
    | nil => exact absurd (List.perm_nil.1 h) (by simp)
    | cons b u => rfl

/-- a weighted image and its mirror image, of a given shape -/
def PairMirror {α : Type _} (nr nc : Nat) (e e' : K × Img α) : Prop :=
  e'.1 = e.1 ∧ Mirrored e.2 e'.2 ∧ e.2.nr = nr ∧ e.2.nc = nc

theorem pair_px {α : Type _} {nr nc : Nat} {e e' : K × Img α} (h : PairMirror nr nc e e') {r c : Nat} (hr : r < nr)
    (hc : c < nc) : e'.2.px r c = e.2.px r (nc - 1 - c) := by
  obtain ⟨_, h2, h3, h4⟩ := h
  rw [h2.2.2 r c ⟨h3 ▸ hr, h4 ▸ hc⟩, h4]

theorem wsumImg_mirror {nr nc : Nat} {l l' : List (K × Img K)} (h : List.Forall₂ (PairMirror nr nc) l l') :
    Mirrored (wsumImg nr nc l) (wsumImg nr nc l') := by
  refine ⟨rfl, rfl, fun r c hin => ?_⟩
  have hr : r < nr := hin.1
  have hc : c < nc := hin.2
  clear hin
  simp only [wsumImg]
  generalize (0 : K) = z
  induction h generalizing z with
  | nil => rfl
  | cons h1 _ ih =>
    simp only [List.foldl_cons, h1.1, pair_px h1 hr hc]
    exact ih _

theorem orImg_mirror {nr nc : Nat} {l l' : List (K × Img Nat)} (h : List.Forall₂ (PairMirror nr nc) l l') :
    Mirrored (orImg nr nc (l.map (·.2))) (orImg nr nc (l'.map (·.2))) := by
  refine ⟨rfl, rfl, fun r c hin => ?_⟩
  have hr : r < nr := hin.1
  have hc : c < nc := hin.2
  clear hin
  simp only [orImg]
  generalize 0 = z
  induction h generalizing z with
  | nil => rfl
  | cons h1 _ ih =>
    simp only [List.map_cons, List.foldl_cons, pair_px h1 hr hc]
    exact ih _

theorem coaddWeight_mirror {nr nc : Nat} {l l' : List (K × Img K)} (h : List.Forall₂ (PairMirror nr nc) l l') :
    Mirrored (coaddWeight nr nc l) (coaddWeight nr nc l') := by
  refine ⟨rfl, rfl, fun r c hin => ?_⟩
  have hr : r < nr := hin.1
  have hc : c < nc := hin.2
  clear hin
  simp only [coaddWeight]
  have h1 : (l'.any fun e => decide (e.2.px r c = 0)) = l.any fun e => decide (e.2.px r (nc - 1 - c) = 0) := by
    induction h with
    | nil => rfl
    | cons h1 _ ih => simp only [List.any_cons, ih, pair_px h1 hr hc]
  have h2 : ∀ z, l'.foldl (fun a e => a + e.1 ^ 2 / e.2.px r c) z = l.foldl (fun a e => a + e.1 ^ 2 / e.2.px r (nc - 1 - c)) z := by
    clear h1
    induction h with
    | nil => exact fun _ => rfl
    | cons h1 _ ih =>
      intro z
      simp only [List.foldl_cons, h1.1, pair_px h1 hr hc]
      exact ih _
  rw [h1, h2]

theorem sel_mirror {α : Type _} {R : JObs K J → JObs K J → Prop} {nr nc : Nat} (p : JObs K J → Option (Img α))
    (hp : ∀ o o', R o o' → Option.Rel (fun x y => Mirrored x y ∧ x.nr = nr ∧ x.nc = nc) (p o) (p o'))
    {all all' : List (JObs K J)} (h : List.Forall₂ R all all') (w : List K) :
    List.Forall₂ (PairMirror nr nc) ((w.zip all).filterMap fun e => (p e.2).map fun im => (e.1, im))
      ((w.zip all').filterMap fun e => (p e.2).map fun im => (e.1, im)) := by
  induction h generalizing w with
  | nil => simp only [List.zip_nil_right, List.filterMap_nil]; exact .nil
  | @cons a b t t' h1 _ ih =>
    cases w with
    | nil => simp only [List.zip_nil_left, List.filterMap_nil]; exact .nil
    | cons x w =>
      simp only [List.zip_cons_cons, List.filterMap_cons]
      have hr := hp a b h1
      generalize p a = u at hr
      generalize p b = v at hr
      cases hr with
      | none => exact ih w
      | some hr => exact .cons ⟨rfl, hr⟩ (ih w)

theorem zip_mirror {R : JObs K J → JObs K J → Prop} {nr nc : Nat} (p : JObs K J → Img K)
    (hp : ∀ o o', R o o' → Mirrored (p o) (p o') ∧ (p o).nr = nr ∧ (p o).nc = nc)
    {all all' : List (JObs K J)} (h : List.Forall₂ R all all') (w : List K) :
    List.Forall₂ (PairMirror nr nc) (w.zip (all.map p)) (w.zip (all'.map p)) := by
  induction h generalizing w with
  | nil => simp only [List.map_nil, List.zip_nil_right]; exact .nil
  | @cons a b t t' h1 _ ih =>
    cases w with
    | nil => simp only [List.zip_nil_left]; exact .nil
    | cons x w => exact .cons ⟨rfl, hp a b h1⟩ (ih w)

theorem bandWeights_mirror (ext : CoaddExt K) (hm : MedianPerm ext.median) {l l' : List (JObs K J)}
    (h : List.Forall₂ (ObsMirrored (RestMirrored mj)) l l') : bandWeights ext l' = bandWeights ext l := by
  have h1 : (l'.all fun o => !(posWeights o).isEmpty) = l.all fun o => !(posWeights o).isEmpty := by
    induction h with
    | nil => rfl
    | cons h1 _ ih => simp only [List.all_cons, ih, isEmpty_perm (posWeights_mirror h1)]
  have h2 : (l'.map fun o => ext.median (posWeights o)) = l.map fun o => ext.median (posWeights o) := by
    clear h1
    induction h with
    | nil => rfl
    | cons h1 _ ih => simp only [List.map_cons, ih, hm _ _ (posWeights_mirror h1)]
  unfold bandWeights
  rw [h1, h2]

theorem psfWeight_mirror (ext : CoaddExt K) {a b : Img K} (h : Mirrored a b) :
    Mirrored (psfWeight ext a) (psfWeight ext b) := by
  have hs : (b.toList.map fun v => v ^ 2).sum = (a.toList.map fun v => v ^ 2).sum :=
    (((toList_mirror h).map _).sum_eq).symm
  refine ⟨h.1, h.2.1, fun r c _ => ?_⟩
  simp only [psfWeight, Img.const, hs]

/-- mirrored observations that can be coadded with `f` -/
structure Fits (mj : J → J) (f o o' : JObs K J) : Prop where
  mirror : ObsMirrored (RestMirrored mj) o o'
  ok : o.Ok
  nr : o.image.nr = f.image.nr
  nc : o.image.nc = f.image.nc
  psf : ∀ p q, f.rest.psf = some p → o.rest.psf = some q → q.image.nr = p.image.nr ∧ q.image.nc = p.image.nc

theorem coaddList_mirror (ext : CoaddExt K) (hm : MedianPerm ext.median) {f f' : JObs K J} {os os' : List (JObs K J)}
    (h : List.Forall₂ (Fits mj f) (f :: os) (f' :: os')) :
    Option.Rel (ObsMirrored (RestMirrored mj)) (coaddList ext f os).1 (coaddList ext f' os').1 ∧
    (coaddList ext f' os').2 = (coaddList ext f os).2 := by
  have hw := bandWeights_mirror ext hm (h.imp fun _ _ h => h.mirror)
  have hff : Fits mj f f f' := by cases h with | cons h1 _ => exact h1
  unfold coaddList
  rw [hw]
  cases bandWeights ext (f :: os) with
  | none => exact ⟨.none, rfl⟩
  | some w =>
    simp only
    generalize hall : f :: os = all at h
    generalize hall' : f' :: os' = all' at h
    have hn : f'.image.nr = f.image.nr ∧ f'.image.nc = f.image.nc := ⟨hff.mirror.image.1, hff.mirror.image.2.1⟩
    have rel : ∀ {α : Type} (o : JObs K J) (x y : Option (Img α)), Option.Rel Mirrored x y →
        (∀ n, x = some n → o.HasShape n) → o.image.nr = f.image.nr → o.image.nc = f.image.nc →
        Option.Rel (fun x y => Mirrored x y ∧ x.nr = f.image.nr ∧ x.nc = f.image.nc) x y := by
      intro α o x y hxy hs hr hc
      cases hxy with
      | none => exact .none
      | some hxy => exact .some ⟨hxy, (hs _ rfl).1.trans hr, (hs _ rfl).2.trans hc⟩
    have himg := zip_mirror (R := Fits mj f) (nr := f.image.nr) (nc := f.image.nc) (·.image)
      (fun o o' h => ⟨h.mirror.image, h.nr, h.nc⟩) h w
    have hwgt := zip_mirror (R := Fits mj f) (nr := f.image.nr) (nc := f.image.nc) (·.weight)
      (fun o o' h => ⟨h.mirror.weight, h.ok.weight.1.trans h.nr, h.ok.weight.2.trans h.nc⟩) h w
    have hmf := sel_mirror (R := Fits mj f) (nr := f.image.nr) (nc := f.image.nc) Obs.mfrac
      (fun o o' h => rel o _ _ h.mirror.mfrac h.ok.mfrac h.nr h.nc) h w
    have hnz := sel_mirror (R := Fits mj f) (nr := f.image.nr) (nc := f.image.nc) Obs.noise
      (fun o o' h => rel o _ _ h.mirror.noise h.ok.noise h.nr h.nc) h w
    have hbm := sel_mirror (R := Fits mj f) (nr := f.image.nr) (nc := f.image.nc) Obs.bmask
      (fun o o' h => rel o _ _ h.mirror.bmask h.ok.bmask h.nr h.nc) h w
    have hom := sel_mirror (R := Fits mj f) (nr := f.image.nr) (nc := f.image.nc) Obs.ormask
      (fun o o' h => rel o _ _ h.mirror.ormask h.ok.ormask h.nr h.nc) h w
    have hcw := coaddWeight_mirror hwgt
    rw [hn.1, hn.2, allPx_mirror hcw, ← hmf.length_eq, ← hnz.length_eq, ← hbm.length_eq, ← hom.length_eq, ← h.length_eq]
    split
    · exact ⟨.none, rfl⟩
    · split
      · exact ⟨.none, rfl⟩
      · refine ⟨.some ⟨wsumImg_mirror himg, hcw, ?_, ?_, ?_, ?_, rfl, ⟨hff.mirror.rest.jac, ?_⟩⟩, rfl⟩
        · simp only
          split
          · exact .some (wsumImg_mirror hnz)
          · exact .none
        · simp only
          split
          · exact .some (orImg_mirror hbm)
          · exact .none
        · simp only
          split
          · exact .some (orImg_mirror hom)
          · exact .none
        · simp only
          split
          · exact .some (wsumImg_mirror hmf)
          · exact .none
        · have hp := hff.mirror.rest.psf
          simp only
          cases h1 : f.rest.psf with
          | none =>
            rw [h1] at hp
            cases h2 : f'.rest.psf with
            | none => exact .none
            | some q => rw [h2] at hp; cases hp
          | some p =>
            rw [h1] at hp
            cases h2 : f'.rest.psf with
            | none => rw [h2] at hp; cases hp
            | some q =>
              rw [h2] at hp
              cases hp with
              | some hp =>
                have hsel := sel_mirror (R := Fits mj f) (nr := p.image.nr) (nc := p.image.nc)
                  (fun o => o.rest.psf.map (·.image)) (fun o o' ho => by
                    have hr := ho.mirror.rest.psf
                    have hs := ho.psf p
                    generalize o.rest.psf = u at hr hs
                    generalize o'.rest.psf = v at hr
                    cases hr with
                    | none => exact .none
                    | some hr => exact .some ⟨hr.image, hs _ h1 rfl⟩) h w
                simp only [Option.map_map, Function.comp_def] at hsel
                have hi := wsumImg_mirror hsel
                simp only [Option.map_some, hp.image.1, hp.image.2.1]
                exact .some ⟨hi, psfWeight_mirror ext hi, hp.jac⟩

/-- C128 (coadd): the coadd of mirrored bands is the mirror image of the coadd in all planes and in its PSF; it is
refused in one case exactly when it is refused in the other, with the same flags. -/
theorem C128_coadd (hmj : Function.Injective mj) (ext : CoaddExt K) (hm : MedianPerm ext.median) (mb mb' : JMb K J)
    (h : JMirrored mj mb mb') (hok : AllOk mb) (sb : Option (List Nat)) :
    CoaddMirrored mj (makeCoaddObs ext mb sb) (makeCoaddObs ext mb' sb) := by
  unfold makeCoaddObs
  have hlen : mb'.length = mb.length := h.length_eq.symm
  rw [hlen]
  simp only
  generalize sb.getD (List.range mb.length) = l
  have one : ∀ i, CoaddMirrored mj
      (match bandObs mb i with | .error e => .error e | .ok o => .ok (some o, 0))
      (match bandObs mb' i with | .error e => .error e | .ok o => .ok (some o, 0)) := by
    intro i
    have := bandObs_mirror h hok i
    generalize bandObs mb i = x at this
    generalize bandObs mb' i = y at this
    cases x with
    | error e =>
      cases y with
      | error e' => exact this
      | ok o' => exact this.elim
    | ok o =>
      cases y with
      | error e' => exact this.elim
      | ok o' => exact ⟨.some this.1, rfl⟩
  split
  · cases l with
    | nil => rfl
    | cons s t =>
      simp only
      split
      · exact one 0
      · exact ⟨.none, rfl⟩
  · split
    · split
      · exact one _
      · exact ⟨.none, rfl⟩
    · split
      · exact ⟨.none, rfl⟩
      · have hb := bandsObs_mirror h hok l
        generalize bandsObs mb l = x at hb
        generalize bandsObs mb' l = y at hb
        cases x with
        | error e =>
          cases y with
          | error e' => exact hb
          | ok o' => exact hb.elim
        | ok x =>
          cases y with
          | error e' => exact hb.elim
          | ok y =>
            have hb' : List.Forall₂ _ x y := hb
            clear hb
            cases hb' with
            | nil => rfl
            | @cons f f' os os' h1 h2 =>
              have hany : os'.any (inconsistent f') = os.any (inconsistent f) := by
                clear h
                induction h2 with
                | nil => rfl
                | cons g1 _ ih => simp only [List.any_cons, ih, inconsistent_mirror hmj h1.1 g1.1]
              simp only [hany]
              split
              · exact ⟨.none, rfl⟩
              · rename_i hnot
                refine coaddList_mirror ext hm (.cons ⟨h1.1, h1.2, rfl, rfl, fun p q e1 e2 => ?_⟩ ?_)
                · rw [e1] at e2
                  cases e2
                  exact ⟨rfl, rfl⟩
                · have hcon : ∀ o ∈ os, inconsistent f o = false := by
                    intro o ho
                    by_contra hc
                    exact hnot (List.any_eq_true.2 ⟨o, ho, by simpa using hc⟩)
                  clear hany hnot
                  induction h2 with
                  | nil => exact .nil
                  | @cons o o' t t' g1 _ ih =>
                    refine .cons ?_ (ih fun o ho => hcon o (List.mem_cons_of_mem _ ho))
                    have hi := hcon o (List.mem_cons_self ..)
                    unfold inconsistent at hi
                    cases hfp : f.rest.psf with
                    | none => rw [hfp] at hi; cases hi
                    | some fp =>
                      cases hop : o.rest.psf with
                      | none => rw [hfp, hop] at hi; cases hi
                      | some op =>
                        rw [hfp, hop] at hi
                        simp only [Bool.or_eq_false_iff, decide_eq_false_iff_not, not_not, Prod.mk.injEq, ne_eq] at hi
                        refine ⟨g1.1, g1.2, hi.1.1.2.1.symm, hi.1.1.2.2.symm, fun p q e1 e2 => ?_⟩
                        rw [hfp] at e1
                        rw [hop] at e2
                        cases e1
                        cases e2
                        exact ⟨hi.2.1.symm, hi.2.2.symm⟩

end

/-! ## Joint fitters -/

section
variable {K J : Type} [Field K] [LinearOrder K] [DecidableEq J] {mj : J → J}
variable {F S R : Type} {fl : Flt F} {neg : F → F}

/-- SPEC: a Gaussian fit of mirrored images: only the second component of the shape and the covariance of the two
components change sign -/
def gaussMirror (neg : F → F) (r : GaussRes F) : GaussRes F :=
  { r with g := shapeMirror neg r.g, gCov := shapeCovMirror neg r.gCov }

/-- SPEC: the fit of a mirrored PSF -/
def psfResMirror (neg : F → F) (r : PsfRes F) : PsfRes F :=
  { r with g := r.g.map (shapeMirror neg), e := r.e.map (shapeMirror neg) }

/-- SPEC: adaptive moments of a mirrored image -/
def amMirror (neg : F → F) (r : AmRes F) : AmRes F :=
  { r with e := shapeMirror neg r.e, eCov := shapeCovMirror neg r.eCov }

/-- SPEC: what is expected of ngmix: fits of mirrored images have mirrored shapes, the same sizes, fluxes and flags and
use the same random numbers; the conversion of ellipticities to shears keeps the handedness; runners depend on the
pixel scale only, which the mirrored Jacobian shares.  This ignores that the fit starts at a random guess. -/
structure JointMirror (mj : J → J) (neg : F → F) (ext : JointExt K J F S R) : Prop where
  laws : SignLaws ext.fl neg
  inj : Function.Injective mj
  median : MedianPerm ext.coadd.median
  gaussMedian : MedianPerm ext.gauss.median
  runner : ∀ n j, ext.mkRunner n (mj j) = ext.mkRunner n j
  bootstrap : ∀ mb mb' r s, JMirrored mj mb mb' → ext.gauss.bootstrap mb' r s =
    ((ext.gauss.bootstrap mb r s).1.map fun p => (gaussMirror neg p.1, p.2.map (psfResMirror neg)),
      (ext.gauss.bootstrap mb r s).2)
  e2g : ∀ e, ext.gauss.e2g (shapeMirror neg e) = (ext.gauss.e2g e).map (shapeMirror neg)
  amPsf : ∀ p p' s, PsfMirrored mj p p' → ext.am.goPsf p' s =
    ((ext.am.goPsf p s).1.map (amMirror neg), (ext.am.goPsf p s).2)
  am : ∀ o o' s, ObsMirrored (RestMirrored mj) o o' → ext.am.go o' s =
    ((ext.am.go o s).1.map (amMirror neg), (ext.am.go o s).2)

theorem inputFlags_mirror (bits : Nat) {a b : JMb K J} (h : JMirrored mj a b) : inputFlags bits b = inputFlags bits a := by
  unfold JMirrored MbMirrored at h
  induction h with
  | nil => rfl
  | @cons x y l l' h1 h2 ih =>
    simp only [inputFlags, ih]
    cases h1 with
    | nil => rfl
    | cons g1 g2 =>
      cases g2 with
      | nil =>
        have hb := g1.bmask
        simp only [anyPx_mirror g1.weight]
        rename_i o o'
        generalize o.bmask = u at hb
        generalize o'.bmask = v at hb
        cases hb with
        | none => rfl
        | some hb => simp only [anyPx_mirror hb]
      | cons g2 g3 => rfl

theorem gaussInput_mirror (hmj : Function.Injective mj) (cext : CoaddExt K) (hm : MedianPerm cext.median) {a b : JMb K J}
    (h : JMirrored mj a b) (hok : AllOk a) (bits : Nat) (sb : List Nat) (coadd : Bool) :
    Both (fun r r' => Option.Rel (JMirrored mj) r.1 r'.1 ∧ r'.2 = r.2) (gaussInput cext a bits sb coadd)
      (gaussInput cext b bits sb coadd) := by
  have hlen : b.length = a.length := h.length_eq.symm
  unfold gaussInput
  rw [inputFlags_mirror bits h, hlen]
  cases inputFlags bits a with
  | error e => rfl
  | ok f0 =>
    simp only
    generalize (f0 ||| if sb.any fun s => decide (s ≥ a.length) then INCONSISTENT_BANDS else 0) = f
    by_cases hf : f = 0
    · simp only [hf, if_true]
      cases coadd with
      | true =>
        simp only [if_true]
        have hc := C128_coadd hmj cext hm a b h hok (some sb)
        generalize makeCoaddObs cext a (some sb) = x at hc
        generalize makeCoaddObs cext b (some sb) = y at hc
        cases x with
        | error e =>
          cases y with
          | error e' => exact hc
          | ok o' => exact hc.elim
        | ok x =>
          cases y with
          | error e' => exact hc.elim
          | ok y =>
            obtain ⟨o, g⟩ := x
            obtain ⟨o', g'⟩ := y
            obtain ⟨h1, h2⟩ := hc
            simp only at h1 h2
            subst h2
            cases h1 with
            | none => exact ⟨.none, rfl⟩
            | some h1 =>
              simp only
              split
              · exact ⟨.some (.cons (.cons h1 .nil) .nil), rfl⟩
              · exact ⟨.none, rfl⟩
      | false =>
        simp only [Bool.false_eq_true, if_false]
        have hb := bandsObs_mirror h hok sb
        generalize bandsObs a sb = x at hb
        generalize bandsObs b sb = y at hb
        cases x with
        | error e =>
          cases y with
          | error e' => exact hb
          | ok o' => exact hb.elim
        | ok x =>
          cases y with
          | error e' => exact hb.elim
          | ok y =>
            have hb' : List.Forall₂ _ x y := hb
            clear hb
            refine ⟨.some ?_, rfl⟩
            unfold JMirrored MbMirrored
            induction hb' with
            | nil => exact .nil
            | cons g1 _ ih => exact .cons (.cons g1.1 .nil) ih
    · simp only [hf, if_false]
      exact ⟨.none, rfl⟩

/-- PSF means of the mirrored bands -/
def meanMirror (neg : F → F) (a : PsfMean F) : PsfMean F := { a with gSum := shapeMirror neg a.gSum }

theorem extractG_mirror (e2g : F × F → Except PyErr (F × F)) (he : ∀ e, e2g (shapeMirror neg e) = (e2g e).map (shapeMirror neg))
    (r : PsfRes F) : extractG e2g (psfResMirror neg r) = (extractG e2g r).map (shapeMirror neg) := by
  unfold extractG psfResMirror
  simp only
  cases r.g with
  | some g => rfl
  | none =>
    cases r.e with
    | some e => exact he e
    | none => rfl

theorem psfStep_mirror (hl : SignLaws fl neg) (ext : GaussExt K J F S R) (hm : MedianPerm ext.median)
    (he : ∀ e, ext.e2g (shapeMirror neg e) = (ext.e2g e).map (shapeMirror neg)) (a : PsfMean F) {o o' : JObs K J}
    (ho : ObsMirrored (RestMirrored mj) o o') (res : PsfRes F) :
    psfStep fl ext (meanMirror neg a) o' (psfResMirror neg res) = (psfStep fl ext a o res).map (meanMirror neg) := by
  have hf : (psfResMirror neg res).flags = res.flags := rfl
  have hT : (psfResMirror neg res).T = res.T := rfl
  unfold psfStep
  simp only [isEmpty_perm (posWeights_mirror ho), hm _ _ (posWeights_mirror ho), extractG_mirror _ he, hf, hT]
  by_cases h1 : res.flags = 0
  · simp only [h1, if_true]
    by_cases h2 : (posWeights o).isEmpty = true
    · simp only [h2, if_true]
      rfl
    · simp only [h2, Bool.false_eq_true, if_false]
      cases extractG ext.e2g res with
      | error e => rfl
      | ok g => simp only [Except.map, meanMirror, shapeMirror, hl.mul', hl.add]
  · simp only [h1, if_false]
    rfl

theorem psfLoop_mirror (hl : SignLaws fl neg) (ext : GaussExt K J F S R) (hm : MedianPerm ext.median)
    (he : ∀ e, ext.e2g (shapeMirror neg e) = (ext.e2g e).map (shapeMirror neg)) {l l' : List (JObs K J)}
    (h : List.Forall₂ (ObsMirrored (RestMirrored mj)) l l') (pres : List (PsfRes F)) (a : PsfMean F) :
    psfLoop fl ext (l'.zip (pres.map (psfResMirror neg))) (meanMirror neg a) =
    (psfLoop fl ext (l.zip pres) a).map (meanMirror neg) := by
  induction h generalizing pres a with
  | nil => simp only [List.zip_nil_left]; rfl
  | cons h1 _ ih =>
    cases pres with
    | nil => simp only [List.map_nil, List.zip_nil_right]; rfl
    | cons p t =>
      simp only [List.map_cons, List.zip_cons_cons, psfLoop, psfStep_mirror hl ext hm he a h1]
      rename_i o _ _ _ _
      cases psfStep fl ext a o p with
      | error x => rfl
      | ok b => exact ih t b

theorem gaussObj_mirror (row : Row F) (nband : Nat) (sb : List Nat) (ores : GaussRes F) :
    gaussObj (rowMirror neg row) nband sb (gaussMirror neg ores) = (gaussObj row nband sb ores).map (rowMirror neg) := by
  unfold gaussObj
  have h1 : (rowMirror neg row).bandFluxFlags = row.bandFluxFlags := rfl
  have h2 : (rowMirror neg row).bandFlux = row.bandFlux := rfl
  have h3 : (rowMirror neg row).bandFluxErr = row.bandFluxErr := rfl
  have h4 : (gaussMirror neg ores).flags = ores.flags := rfl
  have h5 : (gaussMirror neg ores).flux = ores.flux := rfl
  have h6 : (gaussMirror neg ores).fluxErr = ores.fluxErr := rfl
  rw [h1, h4]
  cases setBands nband row.bandFluxFlags sb [ores.flags] with
  | error e => rfl
  | ok bff =>
    simp only
    by_cases hf : ores.flags = 0
    · rw [if_pos hf, if_pos hf]
      simp only [h2, h3, h5, h6]
      cases setBands nband row.bandFlux sb ores.flux with
      | error e => rfl
      | ok a =>
        cases setBands nband row.bandFluxErr sb ores.fluxErr with
        | error e => rfl
        | ok b => rfl
    · rw [if_neg hf, if_neg hf]
      rfl

theorem gaussPsf_mirror (hl : SignLaws fl neg) (ext : GaussExt K J F S R) (hm : MedianPerm ext.median)
    (he : ∀ e, ext.e2g (shapeMirror neg e) = (ext.e2g e).map (shapeMirror neg)) (row : Row F) (coadd : Bool)
    {l l' : List (JObs K J)} (h : List.Forall₂ (ObsMirrored (RestMirrored mj)) l l') (oflags : Nat) (pres : List (PsfRes F)) :
    gaussPsf fl ext (rowMirror neg row) coadd l' oflags (pres.map (psfResMirror neg)) =
    (gaussPsf fl ext row coadd l oflags pres).map (rowMirror neg) := by
  unfold gaussPsf
  cases coadd with
  | true =>
    simp only [if_true]
    cases pres with
    | nil => rfl
    | cons p t =>
      simp only [List.map_cons, extractG_mirror _ he]
      have hf' : (psfResMirror neg p).flags = p.flags := rfl
      rw [hf']
      by_cases hf : p.flags = 0
      · rw [if_pos hf, if_pos hf]
        cases extractG ext.e2g p with
        | error e => rfl
        | ok g => rfl
      · rw [if_neg hf, if_neg hf]
        rfl
  | false =>
    simp only [Bool.false_eq_true, if_false]
    have h0 : (⟨0, (fl.zero, fl.zero), fl.zero, fl.zero⟩ : PsfMean F) =
        meanMirror neg ⟨0, (fl.zero, fl.zero), fl.zero, fl.zero⟩ := by
      simp only [meanMirror, shapeMirror, hl.zero]
    conv_lhs => rw [h0]
    rw [psfLoop_mirror hl ext hm he h]
    cases psfLoop fl ext (l.zip pres) ⟨0, (fl.zero, fl.zero), fl.zero, fl.zero⟩ with
    | error e => rfl
    | ok a =>
      simp only [Except.map, meanMirror]
      by_cases hf : a.flags = 0
      · simp only [hf, if_true, shapeMirror, hl.div]
        rfl
      · simp only [hf, if_false]
        rfl

theorem rowMirror_flags {row : Row F} (hr : rowMirror neg row = row) (f : Nat) :
    rowMirror neg { row with flags := f } = { row with flags := f } := by
  have g1 : shapeMirror neg row.g = row.g := congrArg Row.g hr
  have g2 : shapeCovMirror neg row.gCov = row.gCov := congrArg Row.gCov hr
  have g3 : shapeMirror neg row.psfG = row.psfG := congrArg Row.psfG hr
  simp only [rowMirror, g1, g2, g3]

theorem flat_mirror {a b : JMb K J} (h : JMirrored mj a b) :
    List.Forall₂ (ObsMirrored (RestMirrored mj)) (a.flatMap id) (b.flatMap id) := by
  unfold JMirrored MbMirrored at h
  induction h with
  | nil => exact .nil
  | cons h1 _ ih =>
    simp only [List.flatMap_cons, id]
    exact List.rel_append h1 ih

theorem fitMbobsGauss_mirror (ext : JointExt K J F S R) (hx : JointMirror mj neg ext) (runner : R)
    (bits : Nat) (shearBands : Option (List Nat)) (coadd : Bool) {mb mb' : JMb K J} (h : JMirrored mj mb mb')
    (hok : AllOk mb) (s : S) :
    fitMbobsGauss ext.fl ext.noAttempt ext.coadd ext.gauss runner bits shearBands coadd mb' s =
    let r := fitMbobsGauss ext.fl ext.noAttempt ext.coadd ext.gauss runner bits shearBands coadd mb s
    (r.1.map (rowMirror neg), r.2) := by
  have hlen : mb'.length = mb.length := h.length_eq.symm
  unfold fitMbobsGauss
  simp only [hlen]
  generalize shearBands.getD (List.range mb.length) = sb
  cases hrow : freshRow ext.fl ext.noAttempt mb.length (some sb) with
  | error e => rfl
  | ok row =>
    have hr : rowMirror neg row = row := freshRow_mirror hx.laws _ _ _ _ hrow
    have hr' := rowMirror_flags hr
    simp only
    have hg := gaussInput_mirror hx.inj ext.coadd hx.median h hok bits sb coadd
    generalize gaussInput ext.coadd mb bits sb coadd = x at hg
    generalize gaussInput ext.coadd mb' bits sb coadd = y at hg
    cases x with
    | error e =>
      cases y with
      | error e' =>
        have : e = e' := hg
        rw [this]
        rfl
      | ok o' => exact hg.elim
    | ok x =>
      cases y with
      | error e' => exact hg.elim
      | ok y =>
        obtain ⟨o, f⟩ := x
        obtain ⟨o', f'⟩ := y
        obtain ⟨h1, h2⟩ := hg
        simp only at h1 h2
        subst h2
        cases h1 with
        | none => simp only [Except.map, hr']
        | some h1 =>
          rename_i shear shear'
          simp only [hx.bootstrap _ _ _ _ h1]
          refine Prod.ext ?_ rfl
          simp only
          cases (ext.gauss.bootstrap shear runner s).1 with
          | error e => simp only [Except.map, hr']
          | ok q =>
            obtain ⟨ores, pres⟩ := q
            simp only [Except.map]
            have hg := gaussObj_mirror (neg := neg) row mb.length sb ores
            rw [hr] at hg
            rw [hg]
            cases gaussObj row mb.length sb ores with
            | error e => rfl
            | ok row' =>
              simp only [Except.map]
              exact gaussPsf_mirror hx.laws ext.gauss hx.gaussMedian hx.e2g row' coadd (flat_mirror h1) ores.flags pres

theorem amPsf_mirror (row : Row F) (p : AmRes F) :
    amPsf (rowMirror neg row) (amMirror neg p) = rowMirror neg (amPsf row p) := by
  have hf : (amMirror neg p).flags = p.flags := rfl
  unfold amPsf
  rw [hf]
  split <;> rfl

theorem amObj_mirror (row : Row F) (pf : Nat) (g : AmRes F) :
    amObj fl (rowMirror neg row) pf (amMirror neg g) = rowMirror neg (amObj fl row pf g) := by
  have hf : (amMirror neg g).flags = g.flags := rfl
  have hT : (amMirror neg g).Tflags = g.Tflags := rfl
  unfold amObj
  rw [hf, hT]
  by_cases h1 : g.Tflags = 0 <;> by_cases h2 : g.flags = 0 <;> simp only [h1, h2, if_true, if_false] <;> rfl

theorem fitMbobsAdmom_mirror (ext : JointExt K J F S R) (hx : JointMirror mj neg ext) (bits : Nat)
    (shearBands : Option (List Nat)) (symm : Bool) {mb mb' : JMb K J} (h : JMirrored mj mb mb') (hok : AllOk mb) (s : S) :
    fitMbobsAdmom ext.fl ext.noAttempt ext.coadd ext.am bits shearBands symm mb' s =
    let r := fitMbobsAdmom ext.fl ext.noAttempt ext.coadd ext.am bits shearBands symm mb s
    (r.1.map (rowMirror neg), r.2) := by
  have hlen : mb'.length = mb.length := h.length_eq.symm
  unfold fitMbobsAdmom
  simp only [hlen, inputFlags_mirror bits h]
  generalize shearBands.getD (List.range mb.length) = sb
  cases hrow : freshRow ext.fl ext.noAttempt mb.length (some sb) with
  | error e => rfl
  | ok row =>
    have hr : rowMirror neg row = row := freshRow_mirror hx.laws _ _ _ _ hrow
    have hr' := rowMirror_flags hr
    simp only
    cases inputFlags bits mb with
    | error e => rfl
    | ok f0 =>
      simp only
      by_cases hf : f0 ≠ 0
      · rw [if_pos hf, if_pos hf]
        simp only [Except.map, hr']
      · rw [if_neg hf, if_neg hf]
        have hc := C128_coadd hx.inj ext.coadd hx.median mb mb' h hok (some sb)
        generalize makeCoaddObs ext.coadd mb (some sb) = x at hc
        generalize makeCoaddObs ext.coadd mb' (some sb) = y at hc
        cases x with
        | error e =>
          cases y with
          | error e' =>
            have : e = e' := hc
            rw [this]
            rfl
          | ok o' => exact hc.elim
        | ok x =>
          cases y with
          | error e' => exact hc.elim
          | ok y =>
            obtain ⟨o, g⟩ := x
            obtain ⟨o', g'⟩ := y
            obtain ⟨h1, h2⟩ := hc
            simp only at h1 h2
            subst h2
            cases h1 with
            | none => simp only [Except.map, hr']
            | some ho =>
              rename_i o o'
              simp only
              have hp := ho.rest.psf
              generalize o.rest.psf = u at hp
              generalize o'.rest.psf = v at hp
              cases hp with
              | none => simp only [Except.map, hr']
              | some hp =>
                rename_i p p'
                simp only [hx.amPsf _ _ _ hp]
                generalize ext.am.goPsf p s = r
                obtain ⟨r1, r2⟩ := r
                cases r1 with
                | error e => simp only [Except.map, hr']
                | ok pres =>
                  simp only [Except.map]
                  have h0 : Both (ObsMirrored (RestMirrored mj)) (if symm then Masking.symmetrizeObsWeights o else .ok o)
                      (if symm then Masking.symmetrizeObsWeights o' else .ok o') := by
                    split
                    · exact symmetrize_mirror ho
                    · exact ho
                  generalize (if symm then Masking.symmetrizeObsWeights o else .ok o) = x at h0
                  generalize (if symm then Masking.symmetrizeObsWeights o' else .ok o') = y at h0
                  cases x with
                  | error e =>
                    cases y with
                    | error e' =>
                      have : e = e' := h0
                      rw [this]
                    | ok q => exact h0.elim
                  | ok x =>
                    cases y with
                    | error e' => exact h0.elim
                    | ok y =>
                      have ha : amPsf row (amMirror neg pres) = rowMirror neg (amPsf row pres) := by
                        rw [← amPsf_mirror, hr]
                      simp only [hx.am _ _ _ h0, ha]
                      cases (ext.am.go x r2).1 with
                      | error e => rfl
                      | ok g =>
                        refine Prod.ext ?_ rfl
                        simp only [Except.map, Except.ok.injEq]
                        exact amObj_mirror _ _ _

/-- C128 (joint fitters): Gaussian fits and adaptive moments of mirrored stamps give the table with mirrored shapes:
the second component of the shapes of objects and PSFs and the covariance of the components of the shapes change
sign, nothing else changes, the same random numbers are drawn, and it fails exactly when it fails for the stamps as
they were. -/
theorem C128_joint (ext : JointExt K J F S R) (hx : JointMirror mj neg ext) (name : String)
    (bits : Nat) (shearBands : Option (List Nat)) (symm coadd : Bool) (stamps mirrored : List (JMb K J))
    (h : List.Forall₂ (JMirrored mj) stamps mirrored) (hok : ∀ mb ∈ stamps, AllOk mb) (s : S) :
    fitMbobsListJoint ext name bits shearBands symm coadd mirrored s =
    let r := fitMbobsListJoint ext name bits shearBands symm coadd stamps s
    (r.1.map (Option.map (List.map (rowMirror neg))), r.2) := by
  have hloop : ∀ (f : JMb K J → S → Except PyErr (Row F) × S),
      (∀ mb mb' s, JMirrored mj mb mb' → AllOk mb → f mb' s = ((f mb s).1.map (rowMirror neg), (f mb s).2)) →
      ∀ (l l' : List (JMb K J)), List.Forall₂ (JMirrored mj) l l' → (∀ mb ∈ l, AllOk mb) → ∀ s,
      loopRows f l' s = ((loopRows f l s).1.map (List.map (rowMirror neg)), (loopRows f l s).2) := by
    intro f hf l l' hll
    induction hll with
    | nil => intro _ s; rfl
    | @cons mb mb' t t' h1 _ ih =>
      intro ho s
      simp only [loopRows, hf mb mb' s h1 (ho mb (List.mem_cons_self ..))]
      cases (f mb s).1 with
      | error e => rfl
      | ok row =>
        simp only [Except.map, ih (fun m hm => ho m (List.mem_cons_of_mem _ hm))]
        refine Prod.ext ?_ rfl
        simp only
        cases (loopRows f t (f mb s).2).1 <;> rfl
  have hrun : listRunner ext shearBands coadd mirrored = listRunner ext shearBands coadd stamps := by
    unfold listRunner
    cases h with
    | nil => rfl
    | cons h1 _ =>
      unfold JMirrored MbMirrored at h1
      cases h1 with
      | nil => rfl
      | cons h2 h3 =>
        cases h2 with
        | nil => rfl
        | cons h4 _ => simp only [h3.length_eq, h4.rest.jac, hx.runner]
  unfold fitMbobsListJoint
  rw [hrun]
  unfold jointFit
  have fin : ∀ (f : JMb K J → S → Except PyErr (Row F) × S),
      (∀ mb mb' s, JMirrored mj mb mb' → AllOk mb → f mb' s = ((f mb s).1.map (rowMirror neg), (f mb s).2)) →
      (match (loopRows f mirrored s).1 with
        | .error e => .error e
        | .ok rows => hstackRows (fun r : Row F => r.bandFlux.length) rows, (loopRows f mirrored s).2) =
      ((match (loopRows f stamps s).1 with
        | .error e => .error e
        | .ok rows => hstackRows (fun r : Row F => r.bandFlux.length) rows : Except PyErr (Option (List (Row F)))).map
        (Option.map (List.map (rowMirror neg))), (loopRows f stamps s).2) := by
    intro f hf
    rw [hloop f hf stamps mirrored h hok]
    refine Prod.ext ?_ rfl
    simp only
    cases (loopRows f stamps s).1 with
    | error e => rfl
    | ok rows =>
      simp only [Except.map]
      cases rows with
      | nil => rfl
      | cons r t =>
        simp only [hstackRows, List.map_cons, List.all_map]
        have : ((fun x : Row F => x.bandFlux.length == (rowMirror neg r).bandFlux.length) ∘ rowMirror neg) =
            fun x => x.bandFlux.length == r.bandFlux.length := rfl
        rw [this]
        split <;> rfl
  by_cases h1 : name = "am" ∨ name = "admom"
  · simp only [if_pos h1]
    exact fin _ fun mb mb' s hm ho => fitMbobsAdmom_mirror ext hx bits shearBands symm hm ho s
  · simp only [if_neg h1]
    by_cases h2 : name = "gauss"
    · simp only [if_pos h2]
      exact fin _ fun mb mb' s hm ho => fitMbobsGauss_mirror ext hx _ bits shearBands coadd hm ho s
    · simp only [if_neg h2]
      rfl

end
/-! ### Non-vacuity: shapes from moments over the pixels; the text of a Jacobian is its handedness -/

section example_

/-- the sums of `u² - v²` and `2uv` times the pixels -/
def pixShape (im : Img ℚ) : ℚ × ℚ :=
  (pixSum (fun v u x => momPoly 2 v u * x) im, pixSum (fun v u x => momPoly 3 v u * x) im)

theorem pixShape_mirror {a b : Img ℚ} (h : Mirrored a b) : pixShape b = shapeMirror (fun x => -x) (pixShape a) := by
  have hk : ∀ k, pixSum (fun v u x => momPoly k v u * x) b =
      sgn (fun x => -x) (odd k) (pixSum (fun v u x => momPoly k v u * x) a) := by
    intro k
    rw [pixSum_mirror _ h, ← pixSum_sgn]
    congr 1
    funext v u x
    rw [momPoly_mirror]
    unfold sgn
    split <;> ring
  unfold pixShape shapeMirror
  rw [hk 2, hk 3]
  rfl

/-- fits that read moments off the pixels -/
def mirJoint : JointExt ℚ Int ℚ Nat Nat where
  fl := exactFlt id 0
  noAttempt := 4
  coadd := ⟨fun l => l.sum, id⟩
  gauss :=
    { bootstrap := fun mb _ s =>
        (.ok (⟨0, 5, match mb.flatMap id with | o :: _ => pixShape o.image | [] => (0, 0), ((1, 0), (0, 1)), 2, 1,
          mb.map (fun ol => (ol.map fun o => pixSum (fun _ _ x => x) o.image).sum), mb.map (fun _ => 1)⟩,
          (mb.flatMap id).map fun o => ⟨0, 1, none, some (match o.rest.psf with | some p => pixShape p.image | none => (0, 0))⟩), s + 1)
      e2g := fun e => .ok (e.1 / 2, e.2 / 2)
      median := fun l => l.sum }
  am :=
    { goPsf := fun p s => (.ok ⟨0, 0, 1, 1, 1, pixShape p.image, ((1, 0), (0, 1))⟩, s + 1)
      go := fun o s => (.ok ⟨0, 0, 1, 1, 1, pixShape o.image, ((1, 0), (0, 1))⟩, s + 1) }
  mkRunner := fun n _ => n
  ownRunner := 0

theorem mirJoint_ok : JointMirror (fun j : Int => -j) (fun x : ℚ => -x) mirJoint := by
  have hcov : shapeCovMirror (fun x : ℚ => -x) ((1, 0), (0, 1)) = ((1, 0), (0, 1)) := by
    simp only [shapeCovMirror, neg_zero]
  refine ⟨exact_signLaws id, neg_injective, fun l l' h => h.sum_eq.symm, fun l l' h => h.sum_eq.symm, fun n j => rfl,
    fun mb mb' r s h => ?_, fun e => ?_, fun p p' s h => ?_, fun o o' s h => ?_⟩
  · have hf := flat_mirror h
    have h1 : mb'.map (fun ol => (ol.map fun o => pixSum (fun _ _ x => x) o.image).sum) =
        mb.map (fun ol => (ol.map fun o => pixSum (fun _ _ x => x) o.image).sum) := by
      unfold JMirrored MbMirrored at h
      clear hf
      induction h with
      | nil => rfl
      | cons h1 _ ih =>
        simp only [List.map_cons, ih]
        congr 2
        clear ih
        induction h1 with
        | nil => rfl
        | cons g1 _ ih => simp only [List.map_cons, ih, pixSum_mirror _ g1.image]
    have h2 : mb'.map (fun _ => (1 : ℚ)) = mb.map fun _ => 1 := by
      rw [List.map_const', List.map_const', h.length_eq]
    simp only [mirJoint, h1, h2, Except.map, gaussMirror, hcov, Prod.mk.injEq, Except.ok.injEq, and_true]
    generalize mb.flatMap id = l at hf
    generalize mb'.flatMap id = l' at hf
    clear h1 h2 h
    constructor
    · cases hf with
      | nil => simp only [shapeMirror, neg_zero]
      | cons g1 _ => simp only [pixShape_mirror g1.image]
    · induction hf with
      | nil => rfl
      | cons g1 _ ih =>
        simp only [List.map_cons, ih]
        congr 1
        have hp := g1.rest.psf
        rename_i o o' _ _ _
        generalize o.rest.psf = u at hp
        generalize o'.rest.psf = v at hp
        cases hp with
        | none => simp only [psfResMirror, Option.map_none, Option.map_some, shapeMirror, neg_zero]
        | some hp => simp only [psfResMirror, Option.map_none, Option.map_some, pixShape_mirror hp.image]
  · simp only [mirJoint, shapeMirror, Except.map, neg_div]
  · simp only [mirJoint, Except.map, amMirror, hcov, pixShape_mirror h.image]
  · simp only [mirJoint, Except.map, amMirror, hcov, pixShape_mirror h.image]

/-- a stamp of two by two pixels with its PSF -/
def exJStamp (x : ℚ) : JObs ℚ Int where
  image := ⟨2, 2, fun r c => if r = 0 then (c : ℚ) + 1 else x * c⟩
  weight := ⟨2, 2, fun _ _ => 4⟩
  noise := none
  bmask := some (Img.const 2 2 0)
  ormask := none
  mfrac := none
  izw := false
  rest := ⟨1, some ⟨⟨2, 2, fun r c => if r = 0 then 1 else (c : ℚ)⟩, ⟨2, 2, fun _ _ => 1⟩, 1⟩⟩

/-- mirrored -/
def exJFlip (x : ℚ) : JObs ℚ Int :=
  { exJStamp x with
    image := flip (exJStamp x).image
    weight := flip (exJStamp x).weight
    bmask := (exJStamp x).bmask.map flip
    rest := ⟨-1, (exJStamp x).rest.psf.map fun p => ⟨flip p.image, flip p.weight, -1⟩⟩ }

theorem exJ_mirrored : List.Forall₂ (JMirrored fun j : Int => -j) [[[exJStamp 5], [exJStamp 7]]]
    [[[exJFlip 5], [exJFlip 7]]] := by
  have h : ∀ x, ObsMirrored (RestMirrored fun j : Int => -j) (exJStamp x) (exJFlip x) := fun x =>
    ⟨flip_mirrored _, flip_mirrored _, .none, .some (flip_mirrored _), .none, .none, rfl,
      ⟨rfl, .some ⟨flip_mirrored _, flip_mirrored _, rfl⟩⟩⟩
  exact .cons (.cons (.cons (h 5) .nil) (.cons (.cons (h 7) .nil) .nil)) .nil

theorem exJ_ok : ∀ mb ∈ [[[exJStamp 5], [exJStamp 7]]], AllOk mb := by
  have h : ∀ x, (exJStamp x).Ok := fun x =>
    ⟨⟨rfl, rfl⟩, nofun, fun b hb => by cases hb; exact ⟨rfl, rfl⟩, nofun, nofun⟩
  intro mb hmb ol hol o ho
  simp only [List.mem_singleton] at hmb
  subst hmb
  simp only [List.mem_cons, List.not_mem_nil, or_false] at hol
  rcases hol with rfl | rfl <;> · rw [List.mem_singleton.1 ho]; exact h _

/-- fitting the mirrored bands, or their coadd -/
example (coadd : Bool) : fitMbobsListJoint mirJoint "gauss" 0 none false coadd [[[exJFlip 5], [exJFlip 7]]] 0 =
    ((fitMbobsListJoint mirJoint "gauss" 0 none false coadd [[[exJStamp 5], [exJStamp 7]]] 0).1.map
      (Option.map (List.map (rowMirror fun x => -x))),
     (fitMbobsListJoint mirJoint "gauss" 0 none false coadd [[[exJStamp 5], [exJStamp 7]]] 0).2) :=
  C128_joint mirJoint mirJoint_ok "gauss" 0 none false coadd _ _ exJ_mirrored exJ_ok 0

/-- shapes of object and PSF of the coadd have a second component -/
example : (match (fitMbobsListJoint mirJoint "gauss" 0 none false true [[[exJStamp 5], [exJStamp 7]]] 0).1 with
  | .ok (some l) => l.map fun r : Row ℚ => (r.flags, r.g, r.psfG)
  | _ => []) = [(0, (-15 / 4, 6), (-1 / 8, 1 / 2))] := by decide +kernel

end example_
end MD.Joint
