import Verif.Props.Turn
import Verif.Props.MirrorJoint

/-! C131, detection image, coadds and joint fitters: turned images give turned images and shapes of opposite sign. -/

set_option linter.unusedSectionVars false

namespace MD.Joint
open Flags Wavg Detect

/-! ## Specification -/

/-- SPEC: the turned PSF; `mj` gives the text of the turned Jacobian -/
structure PsfTurned {K J : Type _} (mj : J → J) (a b : PsfObs K J) : Prop where
  image : Turned a.image b.image
  weight : Turned a.weight b.weight
  jac : b.jac = mj a.jac

/-- SPEC: turned Jacobian and PSF -/
structure RestTurned {K J : Type _} (mj : J → J) (a b : Rest K J) : Prop where
  jac : b.jac = mj a.jac
  psf : Option.Rel (PsfTurned mj) a.psf b.psf

/-- SPEC: `b` is the multi-band observation `a` turned by a quarter turn -/
def JTurned {K J : Type _} (mj : J → J) (a b : JMb K J) : Prop := MbTurned (RestTurned mj) a b

/-- SPEC: the outcomes of coadding: both raise the same exception, or both are refused with the same flags, or the
second coadd is the first one turned -/
def CoaddTurned {K J : Type _} (mj : J → J) : Except PyErr (Option (JObs K J) × Nat) → Except PyErr (Option (JObs K J) × Nat) → Prop :=
  Both fun r r' => Option.Rel (ObsTurned (RestTurned mj)) r.1 r'.1 ∧ r'.2 = r.2

/-- SPEC: the turned detection image: the same noise level -/
structure DetimTurned {K : Type _} (a b : Detim K) : Prop where
  detim : Turned a.detim b.detim
  detnoise : b.detnoise = a.detnoise
  detmask : Turned a.detmask b.detmask

section
variable {K J X : Type} [Field K] [LinearOrder K] [DecidableEq J] {rest : X → X → Prop} {mj : J → J}

/-! ## Detection image -/

theorem posList_turn {a b : Img K} (h : Turned a b) :
    List.Perm (a.toList.filter fun w => decide (w > 0)) (b.toList.filter fun w => decide (w > 0)) :=
  (toList_turn h).filter _

theorem addBand_turn (nodet : Nat) {a b : Obs K X} (h : ObsTurned rest a b) (hok : a.Ok) (w : K)
    {s s' : Img K × Img Bool} (h1 : Turned s.1 s'.1) (h2 : Turned s.2 s'.2)
    (h3 : s.2.nr = s.1.nr ∧ s.2.nc = s.1.nc) :
    Both (fun t t' => Turned t.1 t'.1 ∧ Turned t.2 t'.2 ∧ t.2.nr = t.1.nr ∧ t.2.nc = t.1.nc)
      (addBand nodet s (a, w)) (addBand nodet s' (b, w)) := by
  unfold addBand
  simp only [h.image.1, h.image.2.1, h1.1, h1.2.1]
  simp only [or_comm (a := a.image.nc ≠ s.1.nc)]
  by_cases hs : a.image.nr ≠ s.1.nr ∨ a.image.nc ≠ s.1.nc
  · simp only [if_pos hs]
    rfl
  · simp only [if_neg hs]
    have hr : a.image.nr = s.1.nr := by tauto
    have hc : a.image.nc = s.1.nc := by tauto
    refine ⟨⟨h1.1, h1.2.1, fun r c hr' hc' => ?_⟩, ?_, ?_⟩
    · replace hr' : r < s.1.nc := hr'
      replace hc' : c < s.1.nr := hc'
      simp only [Img.zip]
      rw [h1.2.2 r c hr' hc', h.image.2.2 r c (hc ▸ hr') (hr ▸ hc'), hc]
    · have hb := h.bmask
      cases ha : a.bmask with
      | none =>
        rw [ha] at hb
        cases hbb : b.bmask with
        | none => exact h2
        | some q => rw [hbb] at hb; cases hb
      | some p =>
        rw [ha] at hb
        cases hbb : b.bmask with
        | none => rw [hbb] at hb; cases hb
        | some q =>
          rw [hbb] at hb
          cases hb with
          | some hb =>
            have hp := hok.bmask p ha
            refine ⟨h2.1, h2.2.1, fun r c hr' hc' => ?_⟩
            replace hr' : r < s.2.nc := hr'
            replace hc' : c < s.2.nr := hc'
            simp only [Img.zip]
            rw [h2.2.2 r c hr' hc', hb.2.2 r c ?_ ?_, hp.2, hc, h3.2]
            · rw [hp.2, hc, ← h3.2]; exact hr'
            · rw [hp.1, hr, ← h3.1]; exact hc'
    · cases a.bmask with
      | none => exact h3
      | some p => exact h3

theorem addBands_turn (nodet : Nat) {l l' : List (Obs K X)} (h : List.Forall₂ (ObsTurned rest) l l')
    (hok : ∀ o ∈ l, o.Ok) : ∀ (ws : List K) {s s' : Img K × Img Bool}, Turned s.1 s'.1 → Turned s.2 s'.2 →
    s.2.nr = s.1.nr ∧ s.2.nc = s.1.nc →
    Both (fun t t' => Turned t.1 t'.1 ∧ Turned t.2 t'.2 ∧ t.2.nr = t.1.nr ∧ t.2.nc = t.1.nc)
      ((l.zip ws).foldlM (addBand nodet) s) ((l'.zip ws).foldlM (addBand nodet) s') := by
  induction h with
  | nil =>
    intro ws s s' h1 h2 h3
    exact ⟨h1, h2, h3⟩
  | @cons a b t t' hab _ ih =>
    intro ws s s' h1 h2 h3
    cases ws with
    | nil => exact ⟨h1, h2, h3⟩
    | cons w ws =>
      simp only [List.zip_cons_cons, List.foldlM_cons]
      have := addBand_turn nodet hab (hok a (List.mem_cons_self ..)) w h1 h2 h3
      generalize addBand nodet s (a, w) = x at this
      generalize addBand nodet s' (b, w) = y at this
      cases x with
      | error e =>
        cases y with
        | error e' => exact this
        | ok v => exact this.elim
      | ok u =>
        cases y with
        | error e' => exact this.elim
        | ok v =>
          obtain ⟨g1, g2, g3⟩ := this
          exact ih (fun o ho => hok o (List.mem_cons_of_mem _ ho)) ws g1 g2 g3

/-- C131 (detection): the image on which the objects are detected, made from turned images, is turned, with
the same noise level and the turned mask. -/
theorem C131_detection (ext : NpExt K) (hm : MedianPerm ext.median) (nodet : Nat) (obs obs' : List (Obs K X))
    (h : List.Forall₂ (ObsTurned rest) obs obs') (hok : ∀ o ∈ obs, o.Ok) :
    Both DetimTurned (setDetim ext nodet obs) (setDetim ext nodet obs') := by
  have hw : ∀ l l' : List (Obs K X), List.Forall₂ (ObsTurned rest) l l' →
      (l'.map fun o => 1 / imageVar ext o) = l.map fun o => 1 / imageVar ext o := by
    intro l l' hll
    induction hll with
    | nil => rfl
    | cons hab _ ih =>
      simp only [List.map_cons, ih]
      unfold imageVar
      rw [hm _ _ (posList_turn hab.weight)]
  cases h with
  | nil => rfl
  | @cons a b t t' hab ht =>
    unfold setDetim
    simp only [hw _ _ (List.Forall₂.cons hab ht)]
    have h0 : Turned (a.image.map fun v => v * 0) (b.image.map fun v => v * 0) :=
      ⟨hab.image.1, hab.image.2.1, fun r c h1 h2 => by simp only [Img.map]; rw [hab.image.2.2 r c h1 h2]⟩
    have h1 : Turned (Img.const (a.image.map fun v => v * 0).nr (a.image.map fun v => v * 0).nc false)
        (Img.const (b.image.map fun v => v * 0).nr (b.image.map fun v => v * 0).nc false) :=
      ⟨hab.image.1, hab.image.2.1, fun r c _ _ => rfl⟩
    have := addBands_turn nodet (List.Forall₂.cons hab ht) hok
      (((a :: t).map fun o => 1 / imageVar ext o).map fun w => w / ((a :: t).map fun o => 1 / imageVar ext o).sum)
      (s := (a.image.map fun v => v * 0, Img.const (a.image.map fun v => v * 0).nr (a.image.map fun v => v * 0).nc false))
      (s' := (b.image.map fun v => v * 0, Img.const (b.image.map fun v => v * 0).nr (b.image.map fun v => v * 0).nc false))
      h0 h1 ⟨rfl, rfl⟩
    revert this
    generalize List.foldlM (addBand nodet) (a.image.map fun v => v * 0, Img.const (a.image.map fun v => v * 0).nr
      (a.image.map fun v => v * 0).nc false) _ = x
    generalize List.foldlM (addBand nodet) (b.image.map fun v => v * 0, Img.const (b.image.map fun v => v * 0).nr
      (b.image.map fun v => v * 0).nc false) _ = y
    intro this
    cases x with
    | error e =>
      cases y with
      | error e' => exact this
      | ok v => exact this.elim
    | ok u =>
      cases y with
      | error e' => exact this.elim
      | ok v => exact ⟨this.1, rfl, this.2.1⟩

/-! ## Coadds -/

theorem bandObs_turn {a b : JMb K J} (h : JTurned mj a b) (hok : AllOk a) (i : Nat) :
    Both (fun o o' => ObsTurned (RestTurned mj) o o' ∧ o.Ok) (bandObs a i) (bandObs b i) := by
  unfold bandObs
  unfold JTurned MbTurned at h
  induction h generalizing i with
  | nil => rfl
  | @cons x y l l' h1 h2 ih =>
    cases i with
    | zero =>
      simp only [List.getElem?_cons_zero]
      cases h1 with
      | nil => rfl
      | cons g1 g2 => exact ⟨g1, hok _ (List.mem_cons_self ..) _ (List.mem_cons_self ..)⟩
    | succ i =>
      simp only [List.getElem?_cons_succ]
      exact ih (fun ol hol => hok ol (List.mem_cons_of_mem _ hol)) i

theorem bandsObs_turn {a b : JMb K J} (h : JTurned mj a b) (hok : AllOk a) (l : List Nat) :
    Both (List.Forall₂ fun o o' => ObsTurned (RestTurned mj) o o' ∧ o.Ok) (bandsObs a l) (bandsObs b l) := by
  induction l with
  | nil => exact .nil
  | cons i t ih =>
    simp only [bandsObs]
    have hi := bandObs_turn h hok i
    generalize bandObs a i = x at hi
    generalize bandObs b i = y at hi
    generalize bandsObs a t = u at ih
    generalize bandsObs b t = v at ih
    cases x with
    | error e =>
      cases y with
      | error e' => exact hi
      | ok o' => exact hi.elim
    | ok o =>
      cases y with
      | error e' => exact hi.elim
      | ok o' =>
        cases u with
        | error e =>
          cases v with
          | error e' => exact ih
          | ok os => exact ih.elim
        | ok os =>
          cases v with
          | error e' => exact ih.elim
          | ok os' => exact .cons hi ih

theorem inconsistent_turn (hmj : Function.Injective mj) {f f' o o' : JObs K J} (hf : ObsTurned (RestTurned mj) f f')
    (ho : ObsTurned (RestTurned mj) o o') : inconsistent f' o' = inconsistent f o := by
  unfold inconsistent
  have h1 := hf.rest.psf
  have h2 := ho.rest.psf
  have hj : (f'.rest.jac ≠ o'.rest.jac) = (f.rest.jac ≠ o.rest.jac) := by
    rw [hf.rest.jac, ho.rest.jac]
    exact propext (not_congr hmj.eq_iff)
  generalize f.rest.psf = fp at h1
  generalize f'.rest.psf = fp' at h1
  generalize o.rest.psf = op at h2
  generalize o'.rest.psf = op' at h2
  cases h1 with
  | none => rfl
  | some h1 =>
    cases h2 with
    | none => rfl
    | some h2 =>
      have hsw : ∀ x y z w : Nat, ((x, y) = (z, w)) = ((y, x) = (w, z)) := fun x y z w => by
        simp only [Prod.mk.injEq, and_comm]
      simp only [hj, hf.image.1, hf.image.2.1, ho.image.1, ho.image.2.1, h1.image.1, h1.image.2.1, h2.image.1,
        h2.image.2.1, h1.jac, h2.jac, ne_eq, hmj.eq_iff]
      rw [decide_eq_decide.2 (not_congr (iff_of_eq (hsw f.image.nc f.image.nr _ _)))]
      congr 1
      exact decide_eq_decide.2 (not_congr (iff_of_eq (hsw _ _ _ _)))

theorem posWeights_turn {a b : JObs K J} (h : ObsTurned (RestTurned mj) a b) :
    List.Perm (posWeights a) (posWeights b) := posList_turn h.weight

/-- a weighted image and the turned one, of a given shape -/
def PairTurn {α : Type _} (nr nc : Nat) (e e' : K × Img α) : Prop :=
  e'.1 = e.1 ∧ Turned e.2 e'.2 ∧ e.2.nr = nr ∧ e.2.nc = nc

theorem pairTurn_px {α : Type _} {nr nc : Nat} {e e' : K × Img α} (h : PairTurn nr nc e e') {r c : Nat} (hr : r < nc)
    (hc : c < nr) : e'.2.px r c = e.2.px c (nc - 1 - r) := by
  obtain ⟨_, h2, h3, h4⟩ := h
  rw [h2.2.2 r c (h4 ▸ hr) (h3 ▸ hc), h4]

theorem wsumImg_turn {nr nc : Nat} {l l' : List (K × Img K)} (h : List.Forall₂ (PairTurn nr nc) l l') :
    Turned (wsumImg nr nc l) (wsumImg nc nr l') := by
  refine ⟨rfl, rfl, fun r c hr hc => ?_⟩
  replace hr : r < nc := hr
  replace hc : c < nr := hc
  simp only [wsumImg]
  generalize (0 : K) = z
  induction h generalizing z with
  | nil => rfl
  | cons h1 _ ih =>
    simp only [List.foldl_cons, h1.1, pairTurn_px h1 hr hc]
    exact ih _

theorem orImg_turn {nr nc : Nat} {l l' : List (K × Img Nat)} (h : List.Forall₂ (PairTurn nr nc) l l') :
    Turned (orImg nr nc (l.map (·.2))) (orImg nc nr (l'.map (·.2))) := by
  refine ⟨rfl, rfl, fun r c hr hc => ?_⟩
  replace hr : r < nc := hr
  replace hc : c < nr := hc
  simp only [orImg]
  generalize 0 = z
  induction h generalizing z with
  | nil => rfl
  | cons h1 _ ih =>
    simp only [List.map_cons, List.foldl_cons, pairTurn_px h1 hr hc]
    exact ih _

theorem coaddWeight_turn {nr nc : Nat} {l l' : List (K × Img K)} (h : List.Forall₂ (PairTurn nr nc) l l') :
    Turned (coaddWeight nr nc l) (coaddWeight nc nr l') := by
  refine ⟨rfl, rfl, fun r c hr hc => ?_⟩
  replace hr : r < nc := hr
  replace hc : c < nr := hc
  simp only [coaddWeight]
  have h1 : (l'.any fun e => decide (e.2.px r c = 0)) = l.any fun e => decide (e.2.px c (nc - 1 - r) = 0) := by
    induction h with
    | nil => rfl
    | cons h1 _ ih => simp only [List.any_cons, ih, pairTurn_px h1 hr hc]
  have h2 : ∀ z, l'.foldl (fun a e => a + e.1 ^ 2 / e.2.px r c) z = l.foldl (fun a e => a + e.1 ^ 2 / e.2.px c (nc - 1 - r)) z := by
    clear h1
    induction h with
    | nil => exact fun _ => rfl
    | cons h1 _ ih =>
      intro z
      simp only [List.foldl_cons, h1.1, pairTurn_px h1 hr hc]
      exact ih _
  rw [h1, h2]

theorem sel_turn {α : Type _} {R : JObs K J → JObs K J → Prop} {nr nc : Nat} (p : JObs K J → Option (Img α))
    (hp : ∀ o o', R o o' → Option.Rel (fun x y => Turned x y ∧ x.nr = nr ∧ x.nc = nc) (p o) (p o'))
    {all all' : List (JObs K J)} (h : List.Forall₂ R all all') (w : List K) :
    List.Forall₂ (PairTurn nr nc) ((w.zip all).filterMap fun e => (p e.2).map fun im => (e.1, im))
      ((w.zip all').filterMap fun e => (p e.2).map fun im => (e.1, im)) := by
  induction h generalizing w with
  | nil => simp only [List.zip_nil_right, List.filterMap_nil]; exact .nil
  | @cons a b t t' h1 _ ih =>
    cases w with
    | nil => simp only [List.zip_nil_left, List.filterMap_nil]; exact .nil
    | cons x w =>
      simp only [List.zip_cons_cons, List.filterMap_cons]
      have hr := hp a b h1
      generalize p a = u at hr
      generalize p b = v at hr
      cases hr with
      | none => exact ih w
      | some hr => exact .cons ⟨rfl, hr⟩ (ih w)

theorem zip_turn {R : JObs K J → JObs K J → Prop} {nr nc : Nat} (p : JObs K J → Img K)
    (hp : ∀ o o', R o o' → Turned (p o) (p o') ∧ (p o).nr = nr ∧ (p o).nc = nc)
    {all all' : List (JObs K J)} (h : List.Forall₂ R all all') (w : List K) :
    List.Forall₂ (PairTurn nr nc) (w.zip (all.map p)) (w.zip (all'.map p)) := by
  induction h generalizing w with
  | nil => simp only [List.map_nil, List.zip_nil_right]; exact .nil
  | @cons a b t t' h1 _ ih =>
    cases w with
    | nil => simp only [List.zip_nil_left]; exact .nil
    | cons x w => exact .cons ⟨rfl, hp a b h1⟩ (ih w)

theorem bandWeights_turn (ext : CoaddExt K) (hm : MedianPerm ext.median) {l l' : List (JObs K J)}
    (h : List.Forall₂ (ObsTurned (RestTurned mj)) l l') : bandWeights ext l' = bandWeights ext l := by
  have h1 : (l'.all fun o => !(posWeights o).isEmpty) = l.all fun o => !(posWeights o).isEmpty := by
    induction h with
    | nil => rfl
    | cons h1 _ ih => simp only [List.all_cons, ih, isEmpty_perm (posWeights_turn h1)]
  have h2 : (l'.map fun o => ext.median (posWeights o)) = l.map fun o => ext.median (posWeights o) := by
    clear h1
    induction h with
    | nil => rfl
    | cons h1 _ ih => simp only [List.map_cons, ih, hm _ _ (posWeights_turn h1)]
  unfold bandWeights
  rw [h1, h2]

theorem psfWeight_turn (ext : CoaddExt K) {a b : Img K} (h : Turned a b) :
    Turned (psfWeight ext a) (psfWeight ext b) := by
  have hs : (b.toList.map fun v => v ^ 2).sum = (a.toList.map fun v => v ^ 2).sum :=
    (((toList_turn h).map _).sum_eq).symm
  refine ⟨h.1, h.2.1, fun r c _ _ => ?_⟩
  simp only [psfWeight, Img.const, hs]

/-- turned observations that can be coadded with `f` -/
structure FitsTurn (mj : J → J) (f o o' : JObs K J) : Prop where
  turn : ObsTurned (RestTurned mj) o o'
  ok : o.Ok
  nr : o.image.nr = f.image.nr
  nc : o.image.nc = f.image.nc
  psf : ∀ p q, f.rest.psf = some p → o.rest.psf = some q → q.image.nr = p.image.nr ∧ q.image.nc = p.image.nc

theorem coaddList_turn (ext : CoaddExt K) (hm : MedianPerm ext.median) {f f' : JObs K J} {os os' : List (JObs K J)}
    (h : List.Forall₂ (FitsTurn mj f) (f :: os) (f' :: os')) :
    Option.Rel (ObsTurned (RestTurned mj)) (coaddList ext f os).1 (coaddList ext f' os').1 ∧
    (coaddList ext f' os').2 = (coaddList ext f os).2 := by
  have hw := bandWeights_turn ext hm (h.imp fun _ _ h => h.turn)
  have hff : FitsTurn mj f f f' := by cases h with | cons h1 _ => exact h1
  unfold coaddList
  rw [hw]
  cases bandWeights ext (f :: os) with
  | none => exact ⟨.none, rfl⟩
  | some w =>
    simp only
    generalize hall : f :: os = all at h
    generalize hall' : f' :: os' = all' at h
    have hn : f'.image.nr = f.image.nc ∧ f'.image.nc = f.image.nr := ⟨hff.turn.image.1, hff.turn.image.2.1⟩
    have rel : ∀ {α : Type} (o : JObs K J) (x y : Option (Img α)), Option.Rel Turned x y →
        (∀ n, x = some n → o.HasShape n) → o.image.nr = f.image.nr → o.image.nc = f.image.nc →
        Option.Rel (fun x y => Turned x y ∧ x.nr = f.image.nr ∧ x.nc = f.image.nc) x y := by
      intro α o x y hxy hs hr hc
      cases hxy with
      | none => exact .none
      | some hxy => exact .some ⟨hxy, (hs _ rfl).1.trans hr, (hs _ rfl).2.trans hc⟩
    have himg := zip_turn (R := FitsTurn mj f) (nr := f.image.nr) (nc := f.image.nc) (·.image)
      (fun o o' h => ⟨h.turn.image, h.nr, h.nc⟩) h w
    have hwgt := zip_turn (R := FitsTurn mj f) (nr := f.image.nr) (nc := f.image.nc) (·.weight)
      (fun o o' h => ⟨h.turn.weight, h.ok.weight.1.trans h.nr, h.ok.weight.2.trans h.nc⟩) h w
    have hmf := sel_turn (R := FitsTurn mj f) (nr := f.image.nr) (nc := f.image.nc) Obs.mfrac
      (fun o o' h => rel o _ _ h.turn.mfrac h.ok.mfrac h.nr h.nc) h w
    have hnz := sel_turn (R := FitsTurn mj f) (nr := f.image.nr) (nc := f.image.nc) Obs.noise
      (fun o o' h => rel o _ _ h.turn.noise h.ok.noise h.nr h.nc) h w
    have hbm := sel_turn (R := FitsTurn mj f) (nr := f.image.nr) (nc := f.image.nc) Obs.bmask
      (fun o o' h => rel o _ _ h.turn.bmask h.ok.bmask h.nr h.nc) h w
    have hom := sel_turn (R := FitsTurn mj f) (nr := f.image.nr) (nc := f.image.nc) Obs.ormask
      (fun o o' h => rel o _ _ h.turn.ormask h.ok.ormask h.nr h.nc) h w
    have hcw := coaddWeight_turn hwgt
    rw [hn.1, hn.2, allPx_turn hcw, ← hmf.length_eq, ← hnz.length_eq, ← hbm.length_eq, ← hom.length_eq, ← h.length_eq]
    split
    · exact ⟨.none, rfl⟩
    · split
      · exact ⟨.none, rfl⟩
      · refine ⟨.some ⟨wsumImg_turn himg, hcw, ?_, ?_, ?_, ?_, rfl, ⟨hff.turn.rest.jac, ?_⟩⟩, rfl⟩
        · simp only
          split
          · exact .some (wsumImg_turn hnz)
          · exact .none
        · simp only
          split
          · exact .some (orImg_turn hbm)
          · exact .none
        · simp only
          split
          · exact .some (orImg_turn hom)
          · exact .none
        · simp only
          split
          · exact .some (wsumImg_turn hmf)
          · exact .none
        · have hp := hff.turn.rest.psf
          simp only
          cases h1 : f.rest.psf with
          | none =>
            rw [h1] at hp
            cases h2 : f'.rest.psf with
            | none => exact .none
            | some q => rw [h2] at hp; cases hp
          | some p =>
            rw [h1] at hp
            cases h2 : f'.rest.psf with
            | none => rw [h2] at hp; cases hp
            | some q =>
              rw [h2] at hp
              cases hp with
              | some hp =>
                have hsel := sel_turn (R := FitsTurn mj f) (nr := p.image.nr) (nc := p.image.nc)
                  (fun o => o.rest.psf.map (·.image)) (fun o o' ho => by
                    have hr := ho.turn.rest.psf
                    have hs := ho.psf p
                    generalize o.rest.psf = u at hr hs
                    generalize o'.rest.psf = v at hr
                    cases hr with
                    | none => exact .none
                    | some hr => exact .some ⟨hr.image, hs _ h1 rfl⟩) h w
                simp only [Option.map_map, Function.comp_def] at hsel
                have hi := wsumImg_turn hsel
                simp only [Option.map_some, hp.image.1, hp.image.2.1]
                exact .some ⟨hi, psfWeight_turn ext hi, hp.jac⟩

/-- C131 (coadd): the coadd of turned bands is the turned coadd in all planes and in its PSF; it is
refused in one case exactly when it is refused in the other, with the same flags. -/
theorem C131_coadd (hmj : Function.Injective mj) (ext : CoaddExt K) (hm : MedianPerm ext.median) (mb mb' : JMb K J)
    (h : JTurned mj mb mb') (hok : AllOk mb) (sb : Option (List Nat)) :
    CoaddTurned mj (makeCoaddObs ext mb sb) (makeCoaddObs ext mb' sb) := by
  unfold makeCoaddObs
  have hlen : mb'.length = mb.length := h.length_eq.symm
  rw [hlen]
  simp only
  generalize sb.getD (List.range mb.length) = l
  have one : ∀ i, CoaddTurned mj
      (match bandObs mb i with | .error e => .error e | .ok o => .ok (some o, 0))
      (match bandObs mb' i with | .error e => .error e | .ok o => .ok (some o, 0)) := by
    intro i
    have := bandObs_turn h hok i
    generalize bandObs mb i = x at this
    generalize bandObs mb' i = y at this
    cases x with
    | error e =>
      cases y with
      | error e' => exact this
      | ok o' => exact this.elim
    | ok o =>
      cases y with
      | error e' => exact this.elim
      | ok o' => exact ⟨.some this.1, rfl⟩
  split
  · cases l with
    | nil => rfl
    | cons s t =>
      simp only
      split
      · exact one 0
      · exact ⟨.none, rfl⟩
  · split
    · split
      · exact one _
      · exact ⟨.none, rfl⟩
    · split
      · exact ⟨.none, rfl⟩
      · have hb := bandsObs_turn h hok l
        generalize bandsObs mb l = x at hb
        generalize bandsObs mb' l = y at hb
        cases x with
        | error e =>
          cases y with
          | error e' => exact hb
          | ok o' => exact hb.elim
        | ok x =>
          cases y with
          | error e' => exact hb.elim
          | ok y =>
            have hb' : List.Forall₂ _ x y := hb
            clear hb
            cases hb' with
            | nil => rfl
            | @cons f f' os os' h1 h2 =>
              have hany : os'.any (inconsistent f') = os.any (inconsistent f) := by
                clear h
                induction h2 with
                | nil => rfl
                | cons g1 _ ih => simp only [List.any_cons, ih, inconsistent_turn hmj h1.1 g1.1]
              simp only [hany]
              split
              · exact ⟨.none, rfl⟩
              · rename_i hnot
                refine coaddList_turn ext hm (.cons ⟨h1.1, h1.2, rfl, rfl, fun p q e1 e2 => ?_⟩ ?_)
                · rw [e1] at e2
                  cases e2
                  exact ⟨rfl, rfl⟩
                · have hcon : ∀ o ∈ os, inconsistent f o = false := by
                    intro o ho
                    by_contra hc
                    exact hnot (List.any_eq_true.2 ⟨o, ho, by simpa using hc⟩)
                  clear hany hnot
                  induction h2 with
                  | nil => exact .nil
                  | @cons o o' t t' g1 _ ih =>
                    refine .cons ?_ (ih fun o ho => hcon o (List.mem_cons_of_mem _ ho))
                    have hi := hcon o (List.mem_cons_self ..)
                    unfold inconsistent at hi
                    cases hfp : f.rest.psf with
                    | none => rw [hfp] at hi; cases hi
                    | some fp =>
                      cases hop : o.rest.psf with
                      | none => rw [hfp, hop] at hi; cases hi
                      | some op =>
                        rw [hfp, hop] at hi
                        simp only [Bool.or_eq_false_iff, decide_eq_false_iff_not, not_not, Prod.mk.injEq, ne_eq] at hi
                        refine ⟨g1.1, g1.2, hi.1.1.2.1.symm, hi.1.1.2.2.symm, fun p q e1 e2 => ?_⟩
                        rw [hfp] at e1
                        rw [hop] at e2
                        cases e1
                        cases e2
                        exact ⟨hi.2.1.symm, hi.2.2.symm⟩

end

/-! ## Joint fitters -/

section
variable {K J : Type} [Field K] [LinearOrder K] [DecidableEq J] {mj : J → J}
variable {F S R : Type} {fl : Flt F} {neg : F → F}

/-- SPEC: a Gaussian fit of turned images: only the shape changes sign -/
def gaussTurn (neg : F → F) (r : GaussRes F) : GaussRes F :=
  { r with g := shapeTurn neg r.g }

/-- SPEC: the fit of a turned PSF -/
def psfResTurn (neg : F → F) (r : PsfRes F) : PsfRes F :=
  { r with g := r.g.map (shapeTurn neg), e := r.e.map (shapeTurn neg) }

/-- SPEC: adaptive moments of a turned image -/
def amTurn (neg : F → F) (r : AmRes F) : AmRes F :=
  { r with e := shapeTurn neg r.e }

/-- SPEC: what is expected of ngmix: fits of turned images have shapes of opposite sign, the same sizes, fluxes, errors
and flags and use the same random numbers; the conversion of ellipticities to shears keeps the direction; runners depend on the
pixel scale only, which the turned Jacobian shares.  This ignores that the fit starts at a random guess. -/
structure JointTurn (mj : J → J) (neg : F → F) (ext : JointExt K J F S R) : Prop where
  laws : TurnLaws ext.fl neg
  inj : Function.Injective mj
  median : MedianPerm ext.coadd.median
  gaussMedian : MedianPerm ext.gauss.median
  runner : ∀ n j, ext.mkRunner n (mj j) = ext.mkRunner n j
  bootstrap : ∀ mb mb' r s, JTurned mj mb mb' → ext.gauss.bootstrap mb' r s =
    ((ext.gauss.bootstrap mb r s).1.map fun p => (gaussTurn neg p.1, p.2.map (psfResTurn neg)),
      (ext.gauss.bootstrap mb r s).2)
  e2g : ∀ e, ext.gauss.e2g (shapeTurn neg e) = (ext.gauss.e2g e).map (shapeTurn neg)
  amPsf : ∀ p p' s, PsfTurned mj p p' → ext.am.goPsf p' s =
    ((ext.am.goPsf p s).1.map (amTurn neg), (ext.am.goPsf p s).2)
  am : ∀ o o' s, ObsTurned (RestTurned mj) o o' → ext.am.go o' s =
    ((ext.am.go o s).1.map (amTurn neg), (ext.am.go o s).2)

theorem inputFlags_turn (bits : Nat) {a b : JMb K J} (h : JTurned mj a b) : inputFlags bits b = inputFlags bits a := by
  unfold JTurned MbTurned at h
  induction h with
  | nil => rfl
  | @cons x y l l' h1 h2 ih =>
    simp only [inputFlags, ih]
    cases h1 with
    | nil => rfl
    | cons g1 g2 =>
      cases g2 with
      | nil =>
        have hb := g1.bmask
        simp only [anyPx_turn g1.weight]
        rename_i o o'
        generalize o.bmask = u at hb
        generalize o'.bmask = v at hb
        cases hb with
        | none => rfl
        | some hb => simp only [anyPx_turn hb]
      | cons g2 g3 => rfl

theorem gaussInput_turn (hmj : Function.Injective mj) (cext : CoaddExt K) (hm : MedianPerm cext.median) {a b : JMb K J}
    (h : JTurned mj a b) (hok : AllOk a) (bits : Nat) (sb : List Nat) (coadd : Bool) :
    Both (fun r r' => Option.Rel (JTurned mj) r.1 r'.1 ∧ r'.2 = r.2) (gaussInput cext a bits sb coadd)
      (gaussInput cext b bits sb coadd) := by
  have hlen : b.length = a.length := h.length_eq.symm
  unfold gaussInput
  rw [inputFlags_turn bits h, hlen]
  cases inputFlags bits a with
  | error e => rfl
  | ok f0 =>
    simp only
    generalize (f0 ||| if sb.any fun s => decide (s ≥ a.length) then INCONSISTENT_BANDS else 0) = f
    by_cases hf : f = 0
    · simp only [hf, if_true]
      cases coadd with
      | true =>
        simp only [if_true]
        have hc := C131_coadd hmj cext hm a b h hok (some sb)
        generalize makeCoaddObs cext a (some sb) = x at hc
        generalize makeCoaddObs cext b (some sb) = y at hc
        cases x with
        | error e =>
          cases y with
          | error e' => exact hc
          | ok o' => exact hc.elim
        | ok x =>
          cases y with
          | error e' => exact hc.elim
          | ok y =>
            obtain ⟨o, g⟩ := x
            obtain ⟨o', g'⟩ := y
            obtain ⟨h1, h2⟩ := hc
            simp only at h1 h2
            subst h2
            cases h1 with
            | none => exact ⟨.none, rfl⟩
            | some h1 =>
              simp only
              split
              · exact ⟨.some (.cons (.cons h1 .nil) .nil), rfl⟩
              · exact ⟨.none, rfl⟩
      | false =>
        simp only [Bool.false_eq_true, if_false]
        have hb := bandsObs_turn h hok sb
        generalize bandsObs a sb = x at hb
        generalize bandsObs b sb = y at hb
        cases x with
        | error e =>
          cases y with
          | error e' => exact hb
          | ok o' => exact hb.elim
        | ok x =>
          cases y with
          | error e' => exact hb.elim
          | ok y =>
            have hb' : List.Forall₂ _ x y := hb
            clear hb
            refine ⟨.some ?_, rfl⟩
            unfold JTurned MbTurned
            induction hb' with
            | nil => exact .nil
            | cons g1 _ ih => exact .cons (.cons g1.1 .nil) ih
    · simp only [hf, if_false]
      exact ⟨.none, rfl⟩

/-- PSF means of the turned bands -/
def meanTurn (neg : F → F) (a : PsfMean F) : PsfMean F := { a with gSum := shapeTurn neg a.gSum }

theorem extractG_turn (e2g : F × F → Except PyErr (F × F)) (he : ∀ e, e2g (shapeTurn neg e) = (e2g e).map (shapeTurn neg))
    (r : PsfRes F) : extractG e2g (psfResTurn neg r) = (extractG e2g r).map (shapeTurn neg) := by
  unfold extractG psfResTurn
  simp only
  cases r.g with
  | some g => rfl
  | none =>
    cases r.e with
    | some e => exact he e
    | none => rfl

theorem psfStep_turn (hl : SignLaws fl neg) (ext : GaussExt K J F S R) (hm : MedianPerm ext.median)
    (he : ∀ e, ext.e2g (shapeTurn neg e) = (ext.e2g e).map (shapeTurn neg)) (a : PsfMean F) {o o' : JObs K J}
    (ho : ObsTurned (RestTurned mj) o o') (res : PsfRes F) :
    psfStep fl ext (meanTurn neg a) o' (psfResTurn neg res) = (psfStep fl ext a o res).map (meanTurn neg) := by
  have hf : (psfResTurn neg res).flags = res.flags := rfl
  have hT : (psfResTurn neg res).T = res.T := rfl
  unfold psfStep
  simp only [isEmpty_perm (posWeights_turn ho), hm _ _ (posWeights_turn ho), extractG_turn _ he, hf, hT]
  by_cases h1 : res.flags = 0
  · simp only [h1, if_true]
    by_cases h2 : (posWeights o).isEmpty = true
    · simp only [h2, if_true]
      rfl
    · simp only [h2, Bool.false_eq_true, if_false]
      cases extractG ext.e2g res with
      | error e => rfl
      | ok g => simp only [Except.map, meanTurn, shapeTurn, hl.mul', hl.add]
  · simp only [h1, if_false]
    rfl

theorem psfLoop_turn (hl : SignLaws fl neg) (ext : GaussExt K J F S R) (hm : MedianPerm ext.median)
    (he : ∀ e, ext.e2g (shapeTurn neg e) = (ext.e2g e).map (shapeTurn neg)) {l l' : List (JObs K J)}
    (h : List.Forall₂ (ObsTurned (RestTurned mj)) l l') (pres : List (PsfRes F)) (a : PsfMean F) :
    psfLoop fl ext (l'.zip (pres.map (psfResTurn neg))) (meanTurn neg a) =
    (psfLoop fl ext (l.zip pres) a).map (meanTurn neg) := by
  induction h generalizing pres a with
  | nil => simp only [List.zip_nil_left]; rfl
  | cons h1 _ ih =>
    cases pres with
    | nil => simp only [List.map_nil, List.zip_nil_right]; rfl
    | cons p t =>
      simp only [List.map_cons, List.zip_cons_cons, psfLoop, psfStep_turn hl ext hm he a h1]
      rename_i o _ _ _ _
      cases psfStep fl ext a o p with
      | error x => rfl
      | ok b => exact ih t b

theorem gaussObj_turn (row : Row F) (nband : Nat) (sb : List Nat) (ores : GaussRes F) :
    gaussObj (rowTurn neg row) nband sb (gaussTurn neg ores) = (gaussObj row nband sb ores).map (rowTurn neg) := by
  unfold gaussObj
  have h1 : (rowTurn neg row).bandFluxFlags = row.bandFluxFlags := rfl
  have h2 : (rowTurn neg row).bandFlux = row.bandFlux := rfl
  have h3 : (rowTurn neg row).bandFluxErr = row.bandFluxErr := rfl
  have h4 : (gaussTurn neg ores).flags = ores.flags := rfl
  have h5 : (gaussTurn neg ores).flux = ores.flux := rfl
  have h6 : (gaussTurn neg ores).fluxErr = ores.fluxErr := rfl
  rw [h1, h4]
  cases setBands nband row.bandFluxFlags sb [ores.flags] with
  | error e => rfl
  | ok bff =>
    simp only
    by_cases hf : ores.flags = 0
    · rw [if_pos hf, if_pos hf]
      simp only [h2, h3, h5, h6]
      cases setBands nband row.bandFlux sb ores.flux with
      | error e => rfl
      | ok a =>
        cases setBands nband row.bandFluxErr sb ores.fluxErr with
        | error e => rfl
        | ok b => rfl
    · rw [if_neg hf, if_neg hf]
      rfl

theorem gaussPsf_turn (hl : SignLaws fl neg) (ext : GaussExt K J F S R) (hm : MedianPerm ext.median)
    (he : ∀ e, ext.e2g (shapeTurn neg e) = (ext.e2g e).map (shapeTurn neg)) (row : Row F) (coadd : Bool)
    {l l' : List (JObs K J)} (h : List.Forall₂ (ObsTurned (RestTurned mj)) l l') (oflags : Nat) (pres : List (PsfRes F)) :
    gaussPsf fl ext (rowTurn neg row) coadd l' oflags (pres.map (psfResTurn neg)) =
    (gaussPsf fl ext row coadd l oflags pres).map (rowTurn neg) := by
  unfold gaussPsf
  cases coadd with
  | true =>
    simp only [if_true]
    cases pres with
    | nil => rfl
    | cons p t =>
      simp only [List.map_cons, extractG_turn _ he]
      have hf' : (psfResTurn neg p).flags = p.flags := rfl
      rw [hf']
      by_cases hf : p.flags = 0
      · rw [if_pos hf, if_pos hf]
        cases extractG ext.e2g p with
        | error e => rfl
        | ok g => rfl
      · rw [if_neg hf, if_neg hf]
        rfl
  | false =>
    simp only [Bool.false_eq_true, if_false]
    have h0 : (⟨0, (fl.zero, fl.zero), fl.zero, fl.zero⟩ : PsfMean F) =
        meanTurn neg ⟨0, (fl.zero, fl.zero), fl.zero, fl.zero⟩ := by
      simp only [meanTurn, shapeTurn, hl.zero]
    conv_lhs => rw [h0]
    rw [psfLoop_turn hl ext hm he h]
    cases psfLoop fl ext (l.zip pres) ⟨0, (fl.zero, fl.zero), fl.zero, fl.zero⟩ with
    | error e => rfl
    | ok a =>
      simp only [Except.map, meanTurn]
      by_cases hf : a.flags = 0
      · simp only [hf, if_true, shapeTurn, hl.div]
        rfl
      · simp only [hf, if_false]
        rfl

theorem rowTurn_flags {row : Row F} (hr : rowTurn neg row = row) (f : Nat) :
    rowTurn neg { row with flags := f } = { row with flags := f } := by
  have g1 : shapeTurn neg row.g = row.g := congrArg Row.g hr
  have g3 : shapeTurn neg row.psfG = row.psfG := congrArg Row.psfG hr
  simp only [rowTurn, g1, g3]

theorem flat_turn {a b : JMb K J} (h : JTurned mj a b) :
    List.Forall₂ (ObsTurned (RestTurned mj)) (a.flatMap id) (b.flatMap id) := by
  unfold JTurned MbTurned at h
  induction h with
  | nil => exact .nil
  | cons h1 _ ih =>
    simp only [List.flatMap_cons, id]
    exact List.rel_append h1 ih

theorem fitMbobsGauss_turn (ext : JointExt K J F S R) (hx : JointTurn mj neg ext) (runner : R)
    (bits : Nat) (shearBands : Option (List Nat)) (coadd : Bool) {mb mb' : JMb K J} (h : JTurned mj mb mb')
    (hok : AllOk mb) (s : S) :
    fitMbobsGauss ext.fl ext.noAttempt ext.coadd ext.gauss runner bits shearBands coadd mb' s =
    let r := fitMbobsGauss ext.fl ext.noAttempt ext.coadd ext.gauss runner bits shearBands coadd mb s
    (r.1.map (rowTurn neg), r.2) := by
  have hlen : mb'.length = mb.length := h.length_eq.symm
  unfold fitMbobsGauss
  simp only [hlen]
  generalize shearBands.getD (List.range mb.length) = sb
  cases hrow : freshRow ext.fl ext.noAttempt mb.length (some sb) with
  | error e => rfl
  | ok row =>
    have hr : rowTurn neg row = row := freshRow_turn hx.laws _ _ _ _ hrow
    have hr' := rowTurn_flags hr
    simp only
    have hg := gaussInput_turn hx.inj ext.coadd hx.median h hok bits sb coadd
    generalize gaussInput ext.coadd mb bits sb coadd = x at hg
    generalize gaussInput ext.coadd mb' bits sb coadd = y at hg
    cases x with
    | error e =>
      cases y with
      | error e' =>
        have : e = e' := hg
        rw [this]
        rfl
      | ok o' => exact hg.elim
    | ok x =>
      cases y with
      | error e' => exact hg.elim
      | ok y =>
        obtain ⟨o, f⟩ := x
        obtain ⟨o', f'⟩ := y
        obtain ⟨h1, h2⟩ := hg
        simp only at h1 h2
        subst h2
        cases h1 with
        | none => simp only [Except.map, hr']
        | some h1 =>
          rename_i shear shear'
          simp only [hx.bootstrap _ _ _ _ h1]
          refine Prod.ext ?_ rfl
          simp only
          cases (ext.gauss.bootstrap shear runner s).1 with
          | error e => simp only [Except.map, hr']
          | ok q =>
            obtain ⟨ores, pres⟩ := q
            simp only [Except.map]
            have hg := gaussObj_turn (neg := neg) row mb.length sb ores
            rw [hr] at hg
            rw [hg]
            cases gaussObj row mb.length sb ores with
            | error e => rfl
            | ok row' =>
              simp only [Except.map]
              exact gaussPsf_turn hx.laws.sign ext.gauss hx.gaussMedian hx.e2g row' coadd (flat_turn h1) ores.flags pres

theorem amPsf_turn (row : Row F) (p : AmRes F) :
    amPsf (rowTurn neg row) (amTurn neg p) = rowTurn neg (amPsf row p) := by
  have hf : (amTurn neg p).flags = p.flags := rfl
  unfold amPsf
  rw [hf]
  split <;> rfl

theorem amObj_turn (row : Row F) (pf : Nat) (g : AmRes F) :
    amObj fl (rowTurn neg row) pf (amTurn neg g) = rowTurn neg (amObj fl row pf g) := by
  have hf : (amTurn neg g).flags = g.flags := rfl
  have hT : (amTurn neg g).Tflags = g.Tflags := rfl
  unfold amObj
  rw [hf, hT]
  by_cases h1 : g.Tflags = 0 <;> by_cases h2 : g.flags = 0 <;> simp only [h1, h2, if_true, if_false] <;> rfl

theorem fitMbobsAdmom_turn (ext : JointExt K J F S R) (hx : JointTurn mj neg ext) (bits : Nat)
    (shearBands : Option (List Nat)) (symm : Bool) {mb mb' : JMb K J} (h : JTurned mj mb mb') (hok : AllOk mb) (s : S) :
    fitMbobsAdmom ext.fl ext.noAttempt ext.coadd ext.am bits shearBands symm mb' s =
    let r := fitMbobsAdmom ext.fl ext.noAttempt ext.coadd ext.am bits shearBands symm mb s
    (r.1.map (rowTurn neg), r.2) := by
  have hlen : mb'.length = mb.length := h.length_eq.symm
  unfold fitMbobsAdmom
  simp only [hlen, inputFlags_turn bits h]
  generalize shearBands.getD (List.range mb.length) = sb
  cases hrow : freshRow ext.fl ext.noAttempt mb.length (some sb) with
  | error e => rfl
  | ok row =>
    have hr : rowTurn neg row = row := freshRow_turn hx.laws _ _ _ _ hrow
    have hr' := rowTurn_flags hr
    simp only
    cases inputFlags bits mb with
    | error e => rfl
    | ok f0 =>
      simp only
      by_cases hf : f0 ≠ 0
      · rw [if_pos hf, if_pos hf]
        simp only [Except.map, hr']
      · rw [if_neg hf, if_neg hf]
        have hc := C131_coadd hx.inj ext.coadd hx.median mb mb' h hok (some sb)
        generalize makeCoaddObs ext.coadd mb (some sb) = x at hc
        generalize makeCoaddObs ext.coadd mb' (some sb) = y at hc
        cases x with
        | error e =>
          cases y with
          | error e' =>
            have : e = e' := hc
            rw [this]
            rfl
          | ok o' => exact hc.elim
        | ok x =>
          cases y with
          | error e' => exact hc.elim
          | ok y =>
            obtain ⟨o, g⟩ := x
            obtain ⟨o', g'⟩ := y
            obtain ⟨h1, h2⟩ := hc
            simp only at h1 h2
            subst h2
            cases h1 with
            | none => simp only [Except.map, hr']
            | some ho =>
              rename_i o o'
              simp only
              have hp := ho.rest.psf
              generalize o.rest.psf = u at hp
              generalize o'.rest.psf = v at hp
              cases hp with
              | none => simp only [Except.map, hr']
              | some hp =>
                rename_i p p'
                simp only [hx.amPsf _ _ _ hp]
                generalize ext.am.goPsf p s = r
                obtain ⟨r1, r2⟩ := r
                cases r1 with
                | error e => simp only [Except.map, hr']
                | ok pres =>
                  simp only [Except.map]
                  have h0 : Both (ObsTurned (RestTurned mj)) (if symm then Masking.symmetrizeObsWeights o else .ok o)
                      (if symm then Masking.symmetrizeObsWeights o' else .ok o') := by
                    split
                    · exact symmetrize_turn ho
                    · exact ho
                  generalize (if symm then Masking.symmetrizeObsWeights o else .ok o) = x at h0
                  generalize (if symm then Masking.symmetrizeObsWeights o' else .ok o') = y at h0
                  cases x with
                  | error e =>
                    cases y with
                    | error e' =>
                      have : e = e' := h0
                      rw [this]
                    | ok q => exact h0.elim
                  | ok x =>
                    cases y with
                    | error e' => exact h0.elim
                    | ok y =>
                      have ha : amPsf row (amTurn neg pres) = rowTurn neg (amPsf row pres) := by
                        rw [← amPsf_turn, hr]
                      simp only [hx.am _ _ _ h0, ha]
                      cases (ext.am.go x r2).1 with
                      | error e => rfl
                      | ok g =>
                        refine Prod.ext ?_ rfl
                        simp only [Except.map, Except.ok.injEq]
                        exact amObj_turn _ _ _

/-- C131 (joint fitters): Gaussian fits and adaptive moments of stamps turned by a quarter turn give the table with the
shapes of objects and PSFs of opposite sign; nothing else changes, the same random numbers are drawn, and it fails
exactly when it fails for the stamps as they were. -/
theorem C131_joint (ext : JointExt K J F S R) (hx : JointTurn mj neg ext) (name : String)
    (bits : Nat) (shearBands : Option (List Nat)) (symm coadd : Bool) (stamps turned : List (JMb K J))
    (h : List.Forall₂ (JTurned mj) stamps turned) (hok : ∀ mb ∈ stamps, AllOk mb) (s : S) :
    fitMbobsListJoint ext name bits shearBands symm coadd turned s =
    let r := fitMbobsListJoint ext name bits shearBands symm coadd stamps s
    (r.1.map (Option.map (List.map (rowTurn neg))), r.2) := by
  have hloop : ∀ (f : JMb K J → S → Except PyErr (Row F) × S),
      (∀ mb mb' s, JTurned mj mb mb' → AllOk mb → f mb' s = ((f mb s).1.map (rowTurn neg), (f mb s).2)) →
      ∀ (l l' : List (JMb K J)), List.Forall₂ (JTurned mj) l l' → (∀ mb ∈ l, AllOk mb) → ∀ s,
      loopRows f l' s = ((loopRows f l s).1.map (List.map (rowTurn neg)), (loopRows f l s).2) := by
    intro f hf l l' hll
    induction hll with
    | nil => intro _ s; rfl
    | @cons mb mb' t t' h1 _ ih =>
      intro ho s
      simp only [loopRows, hf mb mb' s h1 (ho mb (List.mem_cons_self ..))]
      cases (f mb s).1 with
      | error e => rfl
      | ok row =>
        simp only [Except.map, ih (fun m hm => ho m (List.mem_cons_of_mem _ hm))]
        refine Prod.ext ?_ rfl
        simp only
        cases (loopRows f t (f mb s).2).1 <;> rfl
  have hrun : listRunner ext shearBands coadd turned = listRunner ext shearBands coadd stamps := by
    unfold listRunner
    cases h with
    | nil => rfl
    | cons h1 _ =>
      unfold JTurned MbTurned at h1
      cases h1 with
      | nil => rfl
      | cons h2 h3 =>
        cases h2 with
        | nil => rfl
        | cons h4 _ => simp only [h3.length_eq, h4.rest.jac, hx.runner]
  unfold fitMbobsListJoint
  rw [hrun]
  unfold jointFit
  have fin : ∀ (f : JMb K J → S → Except PyErr (Row F) × S),
      (∀ mb mb' s, JTurned mj mb mb' → AllOk mb → f mb' s = ((f mb s).1.map (rowTurn neg), (f mb s).2)) →
      (match (loopRows f turned s).1 with
        | .error e => .error e
        | .ok rows => hstackRows (fun r : Row F => r.bandFlux.length) rows, (loopRows f turned s).2) =
      ((match (loopRows f stamps s).1 with
        | .error e => .error e
        | .ok rows => hstackRows (fun r : Row F => r.bandFlux.length) rows : Except PyErr (Option (List (Row F)))).map
        (Option.map (List.map (rowTurn neg))), (loopRows f stamps s).2) := by
    intro f hf
    rw [hloop f hf stamps turned h hok]
    refine Prod.ext ?_ rfl
    simp only
    cases (loopRows f stamps s).1 with
    | error e => rfl
    | ok rows =>
      simp only [Except.map]
      cases rows with
      | nil => rfl
      | cons r t =>
        simp only [hstackRows, List.map_cons, List.all_map]
        have : ((fun x : Row F => x.bandFlux.length == (rowTurn neg r).bandFlux.length) ∘ rowTurn neg) =
            fun x => x.bandFlux.length == r.bandFlux.length := rfl
        rw [this]
        split <;> rfl
  by_cases h1 : name = "am" ∨ name = "admom"
  · simp only [if_pos h1]
    exact fin _ fun mb mb' s hm ho => fitMbobsAdmom_turn ext hx bits shearBands symm hm ho s
  · simp only [if_neg h1]
    by_cases h2 : name = "gauss"
    · simp only [if_pos h2]
      exact fin _ fun mb mb' s hm ho => fitMbobsGauss_turn ext hx _ bits shearBands coadd hm ho s
    · simp only [if_neg h2]
      rfl

end
/-! ### Non-vacuity: shapes from moments over the pixels; the text of a Jacobian is a number of quarter turns -/

section example_

/-- the sums of `u² - v²` and `2uv` times the pixels -/
def cenShape (im : Img ℚ) : ℚ × ℚ :=
  (cenSum (fun v u x => momPoly 2 v u * x) im, cenSum (fun v u x => momPoly 3 v u * x) im)

theorem cenShape_turn {a b : Img ℚ} (h : Turned a b) : cenShape b = shapeTurn (fun x => -x) (cenShape a) := by
  have hk : ∀ k, cenSum (fun v u x => momPoly k v u * x) b =
      sgn (fun x => -x) (turnOdd k) (cenSum (fun v u x => momPoly (turnIdx k) v u * x) a) := by
    intro k
    rw [cenSum_turn _ h, ← cenSum_sgn]
    congr 1
    funext v u x
    rw [momPoly_turn]
    unfold sgn
    split <;> ring
  unfold cenShape shapeTurn
  rw [hk 2, hk 3]
  rfl

/-- fits that read moments off the pixels -/
def turnJoint : JointExt ℚ Int ℚ Nat Nat where
  fl := exactFlt id 0
  noAttempt := 4
  coadd := ⟨fun l => l.sum, id⟩
  gauss :=
    { bootstrap := fun mb _ s =>
        (.ok (⟨0, 5, match mb.flatMap id with | o :: _ => cenShape o.image | [] => (0, 0), ((1, 0), (0, 1)), 2, 1,
          mb.map (fun ol => (ol.map fun o => cenSum (fun _ _ x => x) o.image).sum), mb.map (fun _ => 1)⟩,
          (mb.flatMap id).map fun o => ⟨0, 1, none, some (match o.rest.psf with | some p => cenShape p.image | none => (0, 0))⟩), s + 1)
      e2g := fun e => .ok (e.1 / 2, e.2 / 2)
      median := fun l => l.sum }
  am :=
    { goPsf := fun p s => (.ok ⟨0, 0, 1, 1, 1, cenShape p.image, ((1, 0), (0, 1))⟩, s + 1)
      go := fun o s => (.ok ⟨0, 0, 1, 1, 1, cenShape o.image, ((1, 0), (0, 1))⟩, s + 1) }
  mkRunner := fun n _ => n
  ownRunner := 0

theorem turnJoint_ok : JointTurn (fun j : Int => j + 1) (fun x : ℚ => -x) turnJoint := by
  refine ⟨exact_turnLaws id, fun a b h => by simpa using h, fun l l' h => h.sum_eq.symm, fun l l' h => h.sum_eq.symm, fun n j => rfl,
    fun mb mb' r s h => ?_, fun e => ?_, fun p p' s h => ?_, fun o o' s h => ?_⟩
  · have hf := flat_turn h
    have h1 : mb'.map (fun ol => (ol.map fun o => cenSum (fun _ _ x => x) o.image).sum) =
        mb.map (fun ol => (ol.map fun o => cenSum (fun _ _ x => x) o.image).sum) := by
      unfold JTurned MbTurned at h
      clear hf
      induction h with
      | nil => rfl
      | cons h1 _ ih =>
        simp only [List.map_cons, ih]
        congr 2
        clear ih
        induction h1 with
        | nil => rfl
        | cons g1 _ ih => simp only [List.map_cons, ih, cenSum_turn _ g1.image]
    have h2 : mb'.map (fun _ => (1 : ℚ)) = mb.map fun _ => 1 := by
      rw [List.map_const', List.map_const', h.length_eq]
    simp only [turnJoint, h1, h2, Except.map, gaussTurn, Prod.mk.injEq, Except.ok.injEq, and_true]
    generalize mb.flatMap id = l at hf
    generalize mb'.flatMap id = l' at hf
    clear h1 h2 h
    constructor
    · cases hf with
      | nil => simp only [shapeTurn, neg_zero]
      | cons g1 _ => simp only [cenShape_turn g1.image]
    · induction hf with
      | nil => rfl
      | cons g1 _ ih =>
        simp only [List.map_cons, ih]
        congr 1
        have hp := g1.rest.psf
        rename_i o o' _ _ _
        generalize o.rest.psf = u at hp
        generalize o'.rest.psf = v at hp
        cases hp with
        | none => simp only [psfResTurn, Option.map_none, Option.map_some, shapeTurn, neg_zero]
        | some hp => simp only [psfResTurn, Option.map_none, Option.map_some, cenShape_turn hp.image]
  · simp only [turnJoint, shapeTurn, Except.map, neg_div]
  · simp only [turnJoint, Except.map, amTurn, cenShape_turn h.image]
  · simp only [turnJoint, Except.map, amTurn, cenShape_turn h.image]

/-- turned -/
def exJTurn (x : ℚ) : JObs ℚ Int :=
  { exJStamp x with
    image := Img.rot90 (exJStamp x).image
    weight := Img.rot90 (exJStamp x).weight
    bmask := (exJStamp x).bmask.map Img.rot90
    rest := ⟨2, (exJStamp x).rest.psf.map fun p => ⟨p.image.rot90, p.weight.rot90, 2⟩⟩ }

theorem exJ_turned : List.Forall₂ (JTurned fun j : Int => j + 1) [[[exJStamp 5], [exJStamp 7]]]
    [[[exJTurn 5], [exJTurn 7]]] := by
  have h : ∀ x, ObsTurned (RestTurned fun j : Int => j + 1) (exJStamp x) (exJTurn x) := fun x =>
    ⟨rot90_turned _, rot90_turned _, .none, .some (rot90_turned _), .none, .none, rfl,
      ⟨rfl, .some ⟨rot90_turned _, rot90_turned _, rfl⟩⟩⟩
  exact .cons (.cons (.cons (h 5) .nil) (.cons (.cons (h 7) .nil) .nil)) .nil

/-- fitting the turned bands, or their coadd -/
example (coadd : Bool) : fitMbobsListJoint turnJoint "gauss" 0 none false coadd [[[exJTurn 5], [exJTurn 7]]] 0 =
    ((fitMbobsListJoint turnJoint "gauss" 0 none false coadd [[[exJStamp 5], [exJStamp 7]]] 0).1.map
      (Option.map (List.map (rowTurn fun x => -x))),
     (fitMbobsListJoint turnJoint "gauss" 0 none false coadd [[[exJStamp 5], [exJStamp 7]]] 0).2) :=
  C131_joint turnJoint turnJoint_ok "gauss" 0 none false coadd _ _ exJ_turned exJ_ok 0

/-- the shapes of object and PSF of the coadd are not zero -/
example : (match (fitMbobsListJoint turnJoint "gauss" 0 none false true [[[exJStamp 5], [exJStamp 7]]] 0).1 with
  | .ok (some l) => l.map fun r : Row ℚ => (r.flags, r.g, r.psfG)
  | _ => []) = [(0, (0, 5 / 2), (0, 1 / 4))] := by decide +kernel

end example_
end MD.Joint
