import Verif.Props.BandInputRun

/-! C143: a run returns in one order of the bands of its input if and only if it returns in another -/

set_option linter.unusedSectionVars false

namespace MD.BandRun
open Driver (doMetadetect Result)
open Wavg (reorder newPlace reorder_length reorder_perm reorder_get newPlace_lt newPlace_iff newPlaces_perm reorder_newPlace)
open Joint (Rest JObs JMb)
open Cache (Env Uniform)
open Pipeline (Pipe Cols drv mapVal)

variable {K : Type} [Field K] [LinearOrder K] [IsStrictOrderedRing K] [FloorRing K]
variable {J S G Id Key : Type} [DecidableEq J] [DecidableEq Id] [DecidableEq Key]
variable {mf : Prop} {order : List Nat} {n : Nat}

/-! ## Lemmas -/

/-- the order that undoes `order` -/
def back (order : List Nat) (n : Nat) : List Nat := (List.range n).map (newPlace order)

theorem back_get (b : Nat) (hb : b < n) : (back order n)[b]? = some (newPlace order b) := by
  simp [back, hb]

theorem back_perm (ho : order.Perm (List.range n)) : (back order n).Perm (List.range n) := newPlaces_perm ho

theorem newPlace_back (ho : order.Perm (List.range n)) (b : Nat) (hb : b < n) : newPlace (back order n) (newPlace order b) = b :=
  (newPlace_iff (back_perm ho) ((newPlace_lt ho b).2 hb)).2 (back_get b hb)

theorem reorder_back {α : Type} (ho : order.Perm (List.range n)) (l : List α) (hl : l.length = n) :
    reorder (back order n) (reorder order l) = l := by
  refine List.ext_getElem? fun j => ?_
  rw [reorder_get (back_perm ho) _ (reorder_length ho l hl)]
  by_cases hj : j < n
  · rw [back_get j hj, Option.bind_some, reorder_newPlace ho l hl]
  · have h1 : (back order n).length = n := by simp [back]
    rw [List.getElem?_eq_none (by omega), List.getElem?_eq_none (by omega)]
    rfl

theorem back_reorder {α : Type} (ho : order.Perm (List.range n)) (l : List α) (hl : l.length = n) :
    reorder order (reorder (back order n) l) = l := by
  refine List.ext_getElem? fun j => ?_
  rw [reorder_get ho _ (reorder_length (back_perm ho) l hl)]
  have hlen : order.length = n := by rw [ho.length_eq, List.length_range]
  by_cases hj : j < n
  · obtain ⟨b, hb⟩ : ∃ b, order[j]? = some b := ⟨_, List.getElem?_eq_getElem (by omega)⟩
    have hbn : b < n := List.mem_range.1 (ho.mem_iff.1 (List.mem_of_getElem? hb))
    rw [hb, Option.bind_some, reorder_get (back_perm ho) l hl, back_get b hbn, Option.bind_some, (newPlace_iff ho hbn).2 hb]
  · rw [List.getElem?_eq_none (by omega), List.getElem?_eq_none (by omega)]
    rfl

theorem oneFrame_reorder (ho : order.Perm (List.range n)) (p : Pipe K J K S G Id Key) (mb : JMb K J) (h : OneFrame n p.obslist mb) :
    OneFrame n p.obslist (reorder order mb) := by
  obtain ⟨h1, nr, nc, h2⟩ := h
  refine ⟨reorder_length ho mb h1, nr, nc, fun ol hol => ?_⟩
  obtain ⟨o, e, a, b, c, d⟩ := h2 ol (reorder_mem mb ol hol)
  exact ⟨o, e, a, b, c, fun ol' hol' => d ol' (reorder_mem mb ol' hol')⟩

theorem places_back (ho : order.Perm (List.range n)) (l : List (List Nat)) (h : ∀ sb ∈ l, ∀ b ∈ sb, b < n) :
    (l.map (·.map (newPlace order))).map (·.map (newPlace (back order n))) = l := by
  rw [List.map_map]
  refine (List.map_congr_left fun sb hsb => ?_).trans (List.map_id l)
  simp only [Function.comp, List.map_map, id]
  exact (List.map_congr_left fun b hb => newPlace_back ho b (h sb hsb b hb)).trans (List.map_id sb)

theorem envR_symm (ho : order.Perm (List.range n)) (p : Pipe K J K S G Id Key) (env' : Env K (Rest K J) Id Key S)
    (h : EnvR order n (OneFrame n p.obslist) p.env env') : EnvR (back order n) n (OneFrame n p.obslist) env' p.env where
  main := h.main.symm
  dep := h.dep.symm
  np := h.np.symm
  obs := fun i => by rw [h.obs, reorder_back ho _ (h.len i)]
  len := fun i => by rw [h.obs]; exact reorder_length ho _ (h.len i)
  uniform := fun i => by
    obtain ⟨nr, nc, a, b, hu⟩ := h.uniform i
    exact ⟨nr, nc, a, b, fun ol hol => hu ol (reorder_mem _ ol (h.obs i ▸ hol))⟩
  fit := fun i s => (h.fit i s).symm
  metacal := fun i psf s => by
    rw [h.metacal]
    have hi := h.images i psf s
    revert hi
    cases p.env.metacal i psf s with
    | mk q s' =>
      intro hi
      cases q with
      | error e => rfl
      | ok m =>
        simp only [Except.map, Prod.mk.injEq, Except.ok.injEq, and_true]
        unfold mapVal
        rw [List.map_map]
        refine ((List.map_congr_left fun e he => ?_).trans (List.map_id m)).symm
        simp only [Function.comp, id]
        rw [reorder_back ho _ (hi m rfl e he).1]
  images := fun i psf s m hm e he => by
    rw [h.metacal] at hm
    have hi := h.images i psf s
    revert hi hm
    cases (p.env.metacal i psf s).1 with
    | error e => intro hm; cases hm
    | ok q =>
      intro hm hi
      cases hm
      obtain ⟨x, hx, rfl⟩ := List.mem_map.1 he
      exact oneFrame_reorder ho p _ (hi q rfl x hx)

theorem runR_symm {sq : K → K} {nan : K} (p p' : Pipe K J K S G Id Key) (h : RunR mf order n sq nan p p')
    (hd : ∀ db ∈ p.detCombs, ∀ b ∈ db, b < n) : RunR mf (back order n) n sq nan p' p := by
  have hsame := h.same
  have henv := h.env
  have hcol := h.colour
  generalize he : p'.env = env' at hsame henv
  generalize hc : p'.colorKey = ck' at hsame hcol
  subst hsame
  have hobs : ∀ i ol, ol ∈ env'.obs i → ol ∈ p.env.obs i := fun i ol hol => reorder_mem _ ol (henv.obs i ▸ hol)
  have hmain := henv.main
  refine ⟨back_perm h.perm, h.pos, ?_, envR_symm h.perm p env' henv, ?_, h.exact, h.runner, ?_, ?_, ?_⟩
  · simp only [places_back h.perm _ h.shear, places_back h.perm _ hd]
  · intro sb hsb b hb
    obtain ⟨sb', h1, rfl⟩ := List.mem_map.1 hsb
    obtain ⟨b', h2, rfl⟩ := List.mem_map.1 hb
    exact (newPlace_lt h.perm b').2 (h.shear sb' h1 b' h2)
  · intro ol hol o ho ol' hol' o' ho'
    simp only at hol hol'
    rw [hmain] at hol hol'
    exact h.jac ol (hobs _ _ hol) o ho ol' (hobs _ _ hol') o' ho'
  · intro hm ol hol o ho ol' hol' o' ho'
    simp only at hol hol'
    rw [hmain] at hol hol'
    exact h.holes hm ol (hobs _ _ hol) o ho ol' (hobs _ _ hol') o' ho'
  · simp only
    revert hcol
    generalize p.colorKey = ck
    intro hcol
    cases hcol with
    | none => exact .none
    | some hq =>
      refine .some fun l hl => ?_
      rw [← hq _ (reorder_length (back_perm h.perm) l hl), back_reorder h.perm l hl]

/-! ## Property -/

/-- C143 (which runs return): a run returns a result if and only if it does so with the bands in another order.  The two results
are then related as `C143_run` says. -/
theorem C143_returns {sq : K → K} {nan : K} (p p' : Pipe K J K S G Id Key) (h : RunR False order n sq nan p p')
    (hd : ∀ db ∈ p.detCombs, ∀ b ∈ db, b < n) (toF : K → K) (s : S) :
    (∃ r, doMetadetect (drv p toF) s = .ok r) ↔ ∃ r', doMetadetect (drv p' toF) s = .ok r' := by
  constructor
  · rintro ⟨r, hr⟩
    obtain ⟨r', h1, -⟩ := C143_run p p' h toF s r hr
    exact ⟨r', h1⟩
  · rintro ⟨r', hr⟩
    obtain ⟨r, h1, -⟩ := C143_run p' p (runR_symm p p' h hd) toF s r' hr
    exact ⟨r, h1⟩

/-! ### Example -/

/-- three bands in two orders, with two combinations of bands -/
example : (∃ r, doMetadetect (drv exThree id) 0 = .ok r) ↔ ∃ r', doMetadetect (drv exThree' id) 0 = .ok r' :=
  C143_returns exThree exThree' ⟨exThree_ok.perm, exThree_ok.pos, exThree_ok.same, exThree_ok.env, exThree_ok.shear,
    exThree_ok.exact, exThree_ok.runner, exThree_ok.jac, False.elim, exThree_ok.colour⟩
    (by simp [exThree, exBandPipe]) id 0

/-- the run in the second order returns, so the one in the first order does -/
example : ∃ r, doMetadetect (drv exThree id) 0 = .ok r := by
  refine (C143_returns exThree exThree' ⟨exThree_ok.perm, exThree_ok.pos, exThree_ok.same, exThree_ok.env, exThree_ok.shear,
    exThree_ok.exact, exThree_ok.runner, exThree_ok.jac, False.elim, exThree_ok.colour⟩ (by simp [exThree, exBandPipe]) id 0).2 ?_
  cases hr : doMetadetect (drv exThree' id) 0 with
  | error e => have := exThree_run.2; rw [hr] at this; cases this
  | ok r => exact ⟨r, rfl⟩

end MD.BandRun
