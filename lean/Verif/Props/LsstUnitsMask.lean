import Verif.Props.LsstUnits
import Verif.Props.LsstMasking

/-! C126: masking LSST exposures commutes with a change of the flux units. -/

set_option linter.unusedSectionVars false

namespace MD.LsstUnits

open LsstExp LsstMasking Masking

variable {B K P W : Type _} [Field K] [LinearOrder K] [IsStrictOrderedRing K] [DecidableEq B]

/-! ## Specification -/

/-- SPEC: exposures and noise exposures in other flux units; fractions and masks have no units -/
def maskInputsU (c : K) (st : St B K P W) : St B K P W :=
  { st with exps := mbexpU c st.exps, noise := st.noise.map (mbexpU c) }

/-! ## Lemmas -/

/-- the code does the same on exposures in other units, and leaves its result in these units -/
def Same (c : K) {α : Type _} (m : PyM (St B K P W) α) : Prop := ∀ st, m (maskInputsU c st) = ((m st).1, maskInputsU c (m st).2)

theorem same_bind {c : K} {α β : Type _} {m : PyM (St B K P W) α} {f : α → PyM (St B K P W) β} (h : Same c m)
    (hf : ∀ a, Same c (f a)) : Same c (PyM.bind m f) := by
  intro st
  unfold PyM.bind
  rw [h st]
  rcases m st with ⟨_ | a, st'⟩
  · rfl
  · exact hf a st'

theorem same_pure (c : K) {α : Type _} (a : α) : Same c (PyM.pure a : PyM (St B K P W) α) := fun _ => rfl

theorem same_lift (c : K) {α : Type _} (r : Except PyErr α) : Same c (PyM.lift r : PyM (St B K P W) α) := fun _ => rfl

theorem get?_U (c : K) (d : PyDict B (Exp K P W)) (b : B) : PyDict.get? (mbexpU c d) b = (PyDict.get? d b).map (expU c) := by
  induction d with
  | nil => rfl
  | cons e t ih =>
    have ih' : PyDict.get? (List.map (fun p => (p.1, expU c p.2)) t) b = (PyDict.get? t b).map (expU c) := ih
    simp only [mbexpU, List.map_cons, PyDict.get?]
    by_cases h : e.1 = b
    · simp [h]
    · simp [h, ih']

theorem set_U (c : K) (d : PyDict B (Exp K P W)) (b : B) (e : Exp K P W) :
    PyDict.set (mbexpU c d) b (expU c e) = mbexpU c (PyDict.set d b e) := by
  induction d with
  | nil => rfl
  | cons p t ih =>
    have ih' : PyDict.set (List.map (fun p => (p.1, expU c p.2)) t) b (expU c e) =
      List.map (fun p => (p.1, expU c p.2)) (PyDict.set t b e) := ih
    simp only [mbexpU, List.map_cons, PyDict.set]
    by_cases h : p.1 = b
    · simp [h]
    · simp [h, ih']

theorem item_U (c : K) (d : PyDict B (Exp K P W)) (b : B) : item (mbexpU c d) b = (item d b).map (expU c) := by
  unfold item
  rw [get?_U]
  cases PyDict.get? d b <;> rfl

theorem keys_U (c : K) (d : PyDict B (Exp K P W)) : PyDict.keys (mbexpU c d) = PyDict.keys d := by
  simp only [PyDict.keys, mbexpU, List.map_map]; rfl

theorem orStep_same (c : K) (fo : Img Nat → Except PyErr (Img Nat)) : Same c (orStep fo : PyM (St B K P W) Unit) := by
  rintro ⟨ex, no, mf, _ | l⟩
  · rfl
  · simp only [orStep, maskInputsU]
    rcases orLoop fo l with ⟨l', _ | e⟩ <;> rfl

theorem mfracStep_same (c : K) (fm : Exp K P W → Except PyErr (Exp K P W)) (b : B) :
    Same c (mfracStep fm b : PyM (St B K P W) Unit) := by
  rintro ⟨ex, no, _ | d, om⟩
  · rfl
  · simp only [mfracStep, maskInputsU]
    rcases item d b with e | m
    · rfl
    · simp only []
      rcases fm m with e | m' <;> rfl

theorem noise_U (c : K) (fe : Exp K P W → Except PyErr (Exp K P W)) (hfe : ∀ e, fe (expU c e) = (fe e).map (expU c)) (b : B)
    (n : Option (Exp K P W)) (st : St B K P W) :
    noiseStep fe b (n.map (expU c)) (maskInputsU c st) =
      ((noiseStep fe b n st).1, maskInputsU c (noiseStep fe b n st).2) := by
  unfold noiseStep
  rcases n with _ | e
  · rfl
  · simp only [Option.map_some, PyM.bind, PyM.lift, PyM.modify, hfe]
    rcases fe e with x | e'
    · rfl
    · simp only [Except.map, maskInputsU, Option.map_map]
      congr 3
      funext d
      exact set_U c d b e'

theorem bandStep_same (c : K) (fe : Exp K P W → Except PyErr (Exp K P W)) (hfe : ∀ e, fe (expU c e) = (fe e).map (expU c))
    (fo : Img Nat → Except PyErr (Img Nat)) (fm : Option (Exp K P W → Except PyErr (Exp K P W))) (b : B) :
    Same c (bandStep fe fo fm b : PyM (St B K P W) Unit) := by
  have htail : Same c (PyM.bind (orStep fo) fun _ => match fm with
      | none => PyM.pure ()
      | some fm => mfracStep fm b : PyM (St B K P W) Unit) := by
    refine same_bind (orStep_same c fo) fun _ => ?_
    cases fm with
    | none => exact same_pure c ()
    | some fm => exact mfracStep_same c fm b
  have hni : ∀ st : St B K P W, noiseItem (maskInputsU c st) b = (noiseItem st b).map (Option.map (expU c)) := by
    rintro ⟨ex, _ | d, mf, om⟩
    · rfl
    · simp only [noiseItem, maskInputsU, Option.map_some, item_U]
      cases item d b <;> rfl
  intro st
  simp only [bandStep, PyM.bind, PyM.get, PyM.lift, PyM.modify, hni]
  have hit : item (maskInputsU c st).exps b = (item st.exps b).map (expU c) := item_U c st.exps b
  rw [hit]
  rcases item st.exps b with x | e
  · rfl
  simp only [Except.map]
  rcases noiseItem st b with x | n
  · rfl
  simp only [hfe]
  rcases fe e with x | e'
  · rfl
  simp only [Except.map]
  have hst : ({ maskInputsU c st with exps := PyDict.set (maskInputsU c st).exps b (expU c e') } : St B K P W) =
      maskInputsU c { st with exps := PyDict.set st.exps b e' } := by
    simp only [maskInputsU, set_U]
  rw [hst, noise_U c fe hfe]
  rcases noiseStep fe b n { st with exps := PyDict.set st.exps b e' } with ⟨_ | _, st2⟩
  · rfl
  · have := htail st2
    simp only [PyM.bind] at this
    exact this

theorem bandLoop_same (c : K) (fe : Exp K P W → Except PyErr (Exp K P W)) (hfe : ∀ e, fe (expU c e) = (fe e).map (expU c))
    (fo : Img Nat → Except PyErr (Img Nat)) (fm : Option (Exp K P W → Except PyErr (Exp K P W))) (l : List B) :
    Same c (bandLoop fe fo fm l : PyM (St B K P W) Unit) := by
  induction l with
  | nil => exact same_pure c ()
  | cons b t ih => exact same_bind (bandStep_same c fe hfe fo fm b) fun _ => ih

theorem maskExp_U (c : K) (ap : Img K) (bit : Nat) (e : Exp K P W) :
    maskExp ap bit (expU c e) = (maskExp ap bit e).map (expU c) := by
  unfold maskExp
  have hf : fits ap (expU c e).image = fits ap e.image := rfl
  rw [hf]
  cases fits ap e.image
  · rfl
  · simp only [if_true, Except.map, Except.ok.injEq]
    unfold expU updWhere setWhere Img.map
    simp only []
    congr 2
    · funext r k
      by_cases h : hits ap r k = true
      · simp only [h, if_true]; ring
      · simp [h]
    · funext r k
      by_cases h : hits ap r k = true
      · simp only [h, if_true]; rfl
      · simp [h]

theorem expandExp_U (c : K) (m : Img Nat) (e : Exp K P W) : expandExp m (expU c e) = (expandExp m e).map (expU c) := by
  unfold expandExp
  have hf : sameShape (expU c e).mask m = sameShape e.mask m := rfl
  rw [hf]
  cases sameShape e.mask m <;> rfl

theorem first_U (c : K) (st : St B K P W) : first (maskInputsU c st) = (first st).map (expU c) := by
  unfold first maskInputsU mbexpU
  cases st.exps <;> rfl

theorem applyMask_same (c : K) (ap : Img K) (bit : Nat) : Same c (applyMask ap bit : PyM (St B K P W) Unit) := by
  intro st
  unfold applyMask
  have hk : PyDict.keys (maskInputsU c st).exps = PyDict.keys st.exps := keys_U c st.exps
  rw [hk]
  split
  · exact bandLoop_same c _ (maskExp_U c ap bit) _ _ _ st
  · rfl

/-! ## C126 -/

/-- C126: masking the edges of exposures in other flux units leaves the masked exposures in these units, with the same masks and
fractions, and raises exactly when it raises on the original exposures, at the same point. -/
theorem C126_mask_edges [FloorRing K] (c : K) (bit : Nat) (st : St B K P W) :
    applyEdge bit (maskInputsU c st) = ((applyEdge bit st).1, maskInputsU c (applyEdge bit st).2) := by
  simp only [applyEdge, PyM.bind, PyM.get, PyM.lift, first_U]
  rcases first st with x | e
  · rfl
  · simp only [Except.map]
    exact applyMask_same c _ bit st

/-- C126: the same for masking bright stars. -/
theorem C126_mask_bright {S : Type _} (c : K) (sq : K → K) (toPix : W → S → K × K) (bright expanded : Nat)
    (stars : List (Star S K)) (st : St B K P W) :
    applyBright sq toPix bright expanded stars (maskInputsU c st) =
      ((applyBright sq toPix bright expanded stars st).1, maskInputsU c (applyBright sq toPix bright expanded stars st).2) := by
  simp only [applyBright]
  have hexp : ∀ hs nr nc, Same c (applyExpanded hs nr nc expanded : PyM (St B K P W) Unit) := by
    intro hs nr nc
    unfold applyExpanded
    refine same_bind (same_lift c _) fun m => ?_
    intro st
    have hk : PyDict.keys (maskInputsU c st).exps = PyDict.keys st.exps := keys_U c st.exps
    simp only [hk]
    split
    · exact bandLoop_same c _ (expandExp_U c m) _ _ _ st
    · rfl
  have h1 : PyM.bind PyM.get (fun st => PyM.bind (PyM.lift (first st)) fun e =>
      match e.wcs with
      | none => PyM.throw .attributeError
      | some w => PyM.bind (PyM.lift (makeForegroundApMask sq (holes toPix w e.x0 e.y0 stars) e.image.nr e.image.nc false AP_RAD))
          fun ap => PyM.bind (applyMask ap bright) fun _ =>
            applyExpanded (holes toPix w e.x0 e.y0 stars) e.image.nr e.image.nc expanded) (maskInputsU c st) =
      match first st with
      | .error x => (.error x, maskInputsU c st)
      | .ok e => (match e.wcs with
        | none => PyM.throw .attributeError
        | some w => PyM.bind (PyM.lift (makeForegroundApMask sq (holes toPix w e.x0 e.y0 stars) e.image.nr e.image.nc false AP_RAD))
            fun ap => PyM.bind (applyMask ap bright) fun _ =>
              applyExpanded (holes toPix w e.x0 e.y0 stars) e.image.nr e.image.nc expanded : PyM (St B K P W) Unit)
            (maskInputsU c st) := by
    unfold PyM.bind PyM.get PyM.lift
    simp only [first_U]
    rcases first st with x | e <;> rfl
  refine h1.trans ?_
  unfold PyM.bind PyM.get PyM.lift
  simp only []
  rcases first st with x | e
  · rfl
  · simp only []
    rcases e.wcs with _ | w
    · rfl
    · exact same_bind (same_lift c _) (fun ap => same_bind (applyMask_same c ap bright) fun _ => hexp _ _ _) st

/-! ## Example -/

/-- the exposures of C72, whose masking succeeds, in nanojansky and in microjansky -/
example : ∃ st', applyEdge 8 (exSt : St String ℚ Unit Unit) = (.ok (), st') ∧
    applyEdge 8 (maskInputsU (1 / 1000) (exSt : St String ℚ Unit Unit)) = (.ok (), maskInputsU (1 / 1000) st') := by
  obtain ⟨st', h, -⟩ := C72_edge 8 30 40 (exSt : St String ℚ Unit Unit) exSt_ready
  refine ⟨st', h, ?_⟩
  rw [C126_mask_edges, h]

/-- the exposures differ -/
example : ∃ e, PyDict.get? (maskInputsU (1 / 1000) (exSt : St String ℚ Unit Unit)).exps "r" = some e ∧ e.image.px 1 1 = 3 / 1000 :=
  ⟨_, rfl, by norm_num [expU, exE, Img.map, Img.const]⟩

end MD.LsstUnits
