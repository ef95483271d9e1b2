import Verif.Model.LsstSubStamp
import Verif.Props.LsstSubtract
import Verif.Props.LsstStamp

/-!
# C86: stamps of a `ModelSubtractor`
-/

set_option linter.unusedSectionVars false

namespace MD.LsstSubtract

open LsstGeom LsstExp Joint

section images
variable {B K : Type _} [DecidableEq B] [AddCommGroup K]

/-- SPEC: what a pixel of a stamp must show while the contexts of the sources `open_` are open: the
data as given, or the data minus the models of all the other sources -/
def shown (find : Nat → Option Box) (srcs : List (BlendSource B K)) (data : Sky B K) (open_ : List Nat)
    (orig : Bool) (b : B) (x y : Int) : K :=
  if orig then data b x y
  else data b x y -
    ((srcs.filter fun src => decide (src.sid ∉ open_)).map fun src => model find src b x y).sum

/-- the two kinds of stamps of the images -/
def kindOf (orig : Bool) : Kind := if orig then .original else .deblended

theorem build_fixed (expBox : Box) (bands mbands : List B) (data : Sky B K) (find : Nat → Option Box)
    (srcs : List (BlendSource B K)) (hmb : mbands.Nodup)
    (hnd : (srcs.map (·.sid)).Nodup) (s : Sub B K) (st : St B K)
    (h : build expBox bands mbands data find srcs = .ok (s, st)) :
    s.expBox = expBox ∧ s.bands = bands ∧ s.mbands = mbands ∧
    s.heavies = srcs.map (fun src => (src.sid, src.heavy)) ∧
    (∀ src ∈ srcs, ∀ b ∈ mbands, ∃ bbox, access expBox bands mbands b bbox = .ok ()) := by
  obtain ⟨a1, a2, a3, a4, -, a6, -, -⟩ :=
    buildLoop_inv find srcs ⟨expBox, bands, mbands, [], []⟩ s ⟨data, data⟩ st hmb
      (fun src _ => ⟨by simp [PyDict.keys], by simp [PyDict.keys]⟩) hnd h
  refine ⟨a1, a2, a3, by simpa using a4, fun src hs b hb => ?_⟩
  obtain ⟨bbox, -, h⟩ := a6 src hs
  exact ⟨bbox, h b hb⟩

theorem heavy_of (expBox : Box) (bands mbands : List B) (data : Sky B K) (find : Nat → Option Box)
    (srcs : List (BlendSource B K)) (hmb : mbands.Nodup)
    (hnd : (srcs.map (·.sid)).Nodup) (s : Sub B K) (st : St B K)
    (h : build expBox bands mbands data find srcs = .ok (s, st)) (sid : Nat) (hv : Heavy B K) :
    PyDict.get? s.heavies sid = some hv ↔ ∃ src ∈ srcs, src.sid = sid ∧ src.heavy = hv := by
  rw [(build_fixed expBox bands mbands data find srcs hmb hnd s st h).2.2.2.1, get?_map srcs _ hnd]

theorem stamp_images (s : Sub B K) (st : St B K) (boxOf : Heavy B K → Box)
    (peaks : Nat → List (Int × Int)) (sid : Nat) (size : Option Int) (clip orig : Bool) :
    getStamp s st boxOf peaks sid size clip (kindOf orig) =
      match boxOfStamp s peaks sid size clip with
      | .error e => .error e
      | .ok b =>
        if !s.expBox.contains b then .error .lengthError
        else .ok { box := b, bands := s.bands, px := imagesOf st (kindOf orig) } := by
  cases orig <;> rfl

/-- C86: at any point of any history of contexts, a stamp of kind `original` holds the data and one of
kind `deblended` the data minus the models of the sources whose contexts are not open, in all bands and
in the box that was asked for.  (Missing from the full claim: models that lack a band, repeated ids, and
kind `model`, see `C86_model_partial`.) -/
theorem C86_images_partial (expBox : Box) (bands mbands : List B) (data : Sky B K)
    (find : Nat → Option Box) (srcs : List (BlendSource B K)) (hb : bands.Nodup) (hmb : mbands.Nodup)
    (hcov : ∀ b ∈ bands, b ∈ mbands) (hnd : (srcs.map (·.sid)).Nodup) (s : Sub B K) (st : St B K)
    (h : build expBox bands mbands data find srcs = .ok (s, st)) (p : Prog) (open_ : List Nat)
    (now : St B K) (he : (open_, now) ∈ (run s p [] (st, [])).2.2) (ho : open_.Nodup)
    (boxOf : Heavy B K → Box) (peaks : Nat → List (Int × Int)) (sid : Nat) (n : Int) (clip orig : Bool)
    (stp : Stamp B K)
    (hst : getStamp s now boxOf peaks sid (some n) clip (kindOf orig) = .ok stp) :
    (∃ src ∈ srcs, src.sid = sid) ∧ getBBox expBox (peaks sid) n clip = .ok stp.box ∧
    stp.bands = bands ∧
    ∀ b ∈ bands, ∀ x y, stp.px b x y = shown find srcs data open_ orig b x y := by
  obtain ⟨h1, h2, h3, -, -⟩ := build_fixed expBox bands mbands data find srcs hmb hnd s st h
  obtain ⟨g1, log, g2, g3⟩ := C68_history_partial expBox bands mbands data find srcs hb hmb hcov hnd s st h p
  rw [g2] at he
  obtain ⟨k1, k2⟩ := g3 _ he
  rw [stamp_images] at hst
  unfold boxOfStamp at hst
  cases hg : PyDict.get? s.heavies sid with
  | none => rw [hg] at hst; cases hst
  | some hv =>
    rw [hg] at hst
    simp only [Option.map_some, subtractorBBox] at hst
    obtain ⟨src, hs1, hs2, -⟩ := (heavy_of expBox bands mbands data find srcs hmb hnd s st h sid hv).1 hg
    match hbx : getBBox s.expBox (peaks sid) n clip, hst with
    | .ok b, hst =>
      simp only at hst
      split at hst
      · cases hst
      cases hst
      refine ⟨⟨src, hs1, hs2⟩, by rw [← h1]; exact hbx, h2, fun b' hb' x y => ?_⟩
      cases orig with
      | true => exact congrFun (congrFun (congrFun k1 b') x) y
      | false =>
        have := k2 ho b' hb' x y
        simpa [imagesOf, kindOf, shown] using this

theorem contains_clip (b o : Box) : o.contains (b.clip o) = true := by
  unfold Box.clip
  split
  · rename_i h; simp [Box.contains, h]
  split
  · simp [Box.contains, Box.empty, Box.isEmpty]
  simp only [Box.norm]
  split
  · simp [Box.contains, Box.empty, Box.isEmpty]
  · simp only [Box.contains, Bool.or_eq_true, Bool.and_eq_true, decide_eq_true_eq]
    right
    omega

/-- C86: which stamps can be had.  A stamp of the images is made exactly when the source has a model and
its box can be made (it fits into the exposure, or clipping was asked for and the source has a peak);
unknown sources are a `ValueError`, unknown kinds an `AssertionError`. -/
theorem C86_succeeds (expBox : Box) (bands mbands : List B) (data : Sky B K)
    (find : Nat → Option Box) (srcs : List (BlendSource B K)) (hmb : mbands.Nodup)
    (hnd : (srcs.map (·.sid)).Nodup) (s : Sub B K) (st : St B K)
    (h : build expBox bands mbands data find srcs = .ok (s, st)) (now : St B K)
    (boxOf : Heavy B K → Box) (peaks : Nat → List (Int × Int)) (sid : Nat) (n : Int) (clip orig : Bool) :
    ((∃ stp, getStamp s now boxOf peaks sid (some n) clip (kindOf orig) = .ok stp) ↔
      (∃ src ∈ srcs, src.sid = sid) ∧ ∃ b, getBBox expBox (peaks sid) n clip = .ok b) ∧
    ((¬ ∃ src ∈ srcs, src.sid = sid) → ∀ size,
      getStamp s now boxOf peaks sid size clip (kindOf orig) = .error .valueError ∧
      getStamp s now boxOf peaks sid size clip .model = .error .valueError) ∧
    ∀ size, getStamp s now boxOf peaks sid size clip .other = .error .assertionError := by
  obtain ⟨h1, -⟩ := build_fixed expBox bands mbands data find srcs hmb hnd s st h
  have hk := heavy_of expBox bands mbands data find srcs hmb hnd s st h sid
  have hnone : (¬ ∃ src ∈ srcs, src.sid = sid) → PyDict.get? s.heavies sid = none := by
    intro hno
    cases hg : PyDict.get? s.heavies sid with
    | none => rfl
    | some hv => exact absurd (((hk hv).1 hg).imp fun _ q => ⟨q.1, q.2.1⟩) hno
  refine ⟨⟨?_, ?_⟩, ?_, fun size => by simp [getStamp]⟩
  · rintro ⟨stp, hst⟩
    rw [stamp_images] at hst
    unfold boxOfStamp at hst
    by_cases hex : ∃ src ∈ srcs, src.sid = sid
    · obtain ⟨src, hs1, hs2⟩ := hex
      rw [(hk src.heavy).2 ⟨src, hs1, hs2, rfl⟩, h1] at hst
      simp only [Option.map_some, subtractorBBox] at hst
      match hbx : getBBox expBox (peaks sid) n clip, hst with
      | .ok b, _ => exact ⟨⟨src, hs1, hs2⟩, b, rfl⟩
    · rw [hnone hex] at hst; cases hst
  · rintro ⟨⟨src, hs1, hs2⟩, b, hb⟩
    rw [stamp_images]
    unfold boxOfStamp
    rw [(hk src.heavy).2 ⟨src, hs1, hs2, rfl⟩, h1]
    simp only [Option.map_some, subtractorBBox, hb]
    have hc : expBox.contains b = true := by
      unfold getBBox at hb
      split at hb
      · cases hb
      · simp only at hb
        split at hb
        · cases hb; exact contains_clip _ _
        · split at hb
          · cases hb
          · rename_i hc; cases hb; simpa using hc
    rw [if_neg (by simp [hc])]
    exact ⟨_, rfl⟩
  · intro hno size
    have hn := hnone hno
    refine ⟨?_, ?_⟩
    · rw [stamp_images]
      unfold boxOfStamp
      rw [hn]; rfl
    · simp [getStamp, getModel, hn]

/-- C86: a stamp of kind `model` holds the model of the source in all bands and nothing else.  (Missing:
the size; the stamp always has the box of the footprint, see `C86_model_size_counterexample`.) -/
theorem C86_model_partial (expBox : Box) (bands mbands : List B) (data : Sky B K)
    (find : Nat → Option Box) (srcs : List (BlendSource B K)) (hmb : mbands.Nodup)
    (hcov : ∀ b ∈ bands, b ∈ mbands)
    (hnd : (srcs.map (·.sid)).Nodup) (s : Sub B K) (st : St B K)
    (h : build expBox bands mbands data find srcs = .ok (s, st)) (hne : bands ≠ []) (now : St B K)
    (boxOf : Heavy B K → Box) (peaks : Nat → List (Int × Int)) (src : BlendSource B K) (hs : src ∈ srcs)
    (size : Option Int) (clip : Bool) :
    ∃ stp, getStamp s now boxOf peaks src.sid size clip .model = .ok stp ∧ stp.bands = bands ∧
      stp.box = boxOf src.heavy ∧
      ∀ b ∈ bands, ∀ x y, stp.px b x y = if src.heavy.span x y = true then src.heavy.px b x y else 0 := by
  obtain ⟨h1, h2, h3, h4, h5⟩ := build_fixed expBox bands mbands data find srcs hmb hnd s st h
  have hk := (heavy_of expBox bands mbands data find srcs hmb hnd s st h src.sid src.heavy).2 ⟨src, hs, rfl, rfl⟩
  refine ⟨modelStamp boxOf bands src.heavy, ?_, rfl, rfl, fun b _ x y => rfl⟩
  obtain ⟨b0, hb0⟩ := List.exists_mem_of_ne_nil _ hne
  obtain ⟨bbox, hacc⟩ := h5 src hs b0 (hcov b0 hb0)
  have hlen := ((access_ok_iff _ _ _ _ _).1 hacc).1
  simp only [getStamp, getModel, hk, h2, h3, hlen, if_false, if_true, reduceCtorEq]
  rw [if_neg]
  simp only [List.any_eq_true, decide_eq_true_eq, not_exists, not_and, not_not]
  exact hcov

/-- C86: the children are the sources of the blends, in the order of the blends, each once, as entries of
the catalogue. -/
theorem C86_children_partial {σ : Type _} (expBox : Box) (bands mbands : List B) (data : Sky B K)
    (find : Nat → Option Box) (srcs : List (BlendSource B K)) (hmb : mbands.Nodup)
    (hnd : (srcs.map (·.sid)).Nodup) (s : Sub B K) (st : St B K)
    (h : build expBox bands mbands data find srcs = .ok (s, st)) (entry : Nat → Option σ) :
    childIds s = srcs.map (·.sid) ∧ children s entry = srcs.map fun src => entry src.sid := by
  obtain ⟨-, -, -, h4, -⟩ := build_fixed expBox bands mbands data find srcs hmb hnd s st h
  simp only [children, childIds, h4, List.map_map]
  exact ⟨rfl, rfl⟩

/-- C86 is false for kind `model`: the requested size has no effect. -/
theorem C86_model_size_counterexample :
    ∃ (s : Sub String Int) (st : St String Int) (stp : Stamp String Int),
      build exBox ["r", "i"] ["i", "r"] exData exFind exSrcs = .ok (s, st) ∧
      getStamp s st (fun _ => ⟨2, 2, 3, 3⟩) (fun _ => [(4, 4)]) 1 (some 7) false .model = .ok stp ∧
      getBBox exBox [(4, 4)] 7 false = .ok ⟨1, 1, 7, 7⟩ ∧ stp.box.w = 3 := by
  have hb : ∃ r, build exBox ["r", "i"] ["i", "r"] exData exFind exSrcs = .ok r := by
    apply C68_build
    · decide
    · decide
    · intro src hs
      simp only [exSrcs, List.mem_cons, List.not_mem_nil, or_false] at hs
      rcases hs with rfl | rfl
      · exact ⟨⟨2, 2, 3, 3⟩, by decide +kernel, by decide +kernel⟩
      · exact ⟨⟨3, 3, 3, 3⟩, by decide +kernel, by decide +kernel⟩
  obtain ⟨⟨s, st⟩, hb⟩ := hb
  obtain ⟨stp, h1, -, h2, -⟩ := C86_model_partial exBox ["r", "i"] ["i", "r"] exData exFind exSrcs
    (by decide) (by decide) (by decide) s st hb (by decide) st (fun _ => ⟨2, 2, 3, 3⟩)
    (fun _ => [(4, 4)]) ⟨1, ⟨fun _ _ => true, fun b _ _ => if b = "r" then 7 else 5⟩⟩ (by simp [exSrcs])
    (some 7) false
  exact ⟨s, st, stp, hb, h1, rfl, by rw [h2]⟩

/-- the hypotheses of `C86_children_partial`: two children -/
example : ∃ s st, build exBox ["r", "i"] ["i", "r"] exData exFind exSrcs = .ok (s, st) ∧ childIds s = [1, 2] := by
  obtain ⟨s, st, -, h, -⟩ := C86_model_size_counterexample
  exact ⟨s, st, h, (C86_children_partial (σ := Nat) exBox ["r", "i"] ["i", "r"] exData exFind exSrcs (by decide)
    (by decide) s st h some).1⟩

/-- what the stamps taken during a history show at one pixel -/
def seenStamps (r : Except PyErr (Sub String Int × St String Int)) (p : Prog) (sid : Nat) (n : Int)
    (kind : Kind) (b : String) (x y : Int) : Option (List (List Nat × Option (Box × Int))) :=
  match r with
  | .error _ => none
  | .ok (s, st) =>
    some ((run s p [] (st, [])).2.2.map fun e => (e.1,
      match getStamp s e.2 (fun _ => ⟨0, 0, 1, 1⟩) (fun _ => [(4, 4)]) sid (some n) false kind with
      | .ok stp => some (stp.box, stp.px b x y)
      | .error _ => none))

/-- stamps in a history with nested contexts and an exception -/
example :
    seenStamps (build exBox ["r", "i"] ["i", "r"] exData exFind exSrcs) exProg 1 4 .deblended "r" 4 4 =
      some [([], some (⟨2, 2, 5, 5⟩, 133)), ([1], some (⟨2, 2, 5, 5⟩, 140)),
        ([2, 1], some (⟨2, 2, 5, 5⟩, 144)), ([2], some (⟨2, 2, 5, 5⟩, 137)),
        ([], some (⟨2, 2, 5, 5⟩, 133))] := by decide +kernel

example :
    seenStamps (build exBox ["r", "i"] ["i", "r"] exData exFind exSrcs) exProg 1 4 .original "r" 4 4 =
      some [([], some (⟨2, 2, 5, 5⟩, 144)), ([1], some (⟨2, 2, 5, 5⟩, 144)),
        ([2, 1], some (⟨2, 2, 5, 5⟩, 144)), ([2], some (⟨2, 2, 5, 5⟩, 144)),
        ([], some (⟨2, 2, 5, 5⟩, 144))] := by decide +kernel

/-- a stamp that does not fit -/
example :
    seenStamps (build exBox ["r", "i"] ["i", "r"] exData exFind exSrcs) exProg 1 40 .original "r" 4 4 =
      some [([], none), ([1], none), ([2, 1], none), ([2], none), ([], none)] := by decide +kernel

end images

section observations
variable {B K : Type _} [DecidableEq B] [Field K] [LinearOrder K] [IsStrictOrderedRing K] {P W : Type _}

/-- SPEC: the exposure with the given picture of the sky, whose pixels have coordinates `(x, y)`: the pixel
in row `r` and column `c` is at `x = x0 + c`, `y = y0 + r` -/
def showing (e : Exp K P W) (sky : Int → Int → K) : Exp K P W :=
  { e with image := ⟨e.image.nr, e.image.nc, fun r c => sky (e.x0 + (c : Int)) (e.y0 + (r : Int))⟩ }

/-- C86: the observations made at any point of any history: one per band, in band order, with the pixels
that a stamp of that kind shows. -/
theorem C86_observations_partial (expBox : Box) (bands mbands : List B) (data : Sky B K)
    (find : Nat → Option Box) (srcs : List (BlendSource B K)) (hb : bands.Nodup) (hmb : mbands.Nodup)
    (hcov : ∀ b ∈ bands, b ∈ mbands) (hnd : (srcs.map (·.sid)).Nodup) (s : Sub B K) (st : St B K)
    (h : build expBox bands mbands data find srcs = .ok (s, st)) (p : Prog) (open_ : List Nat)
    (now : St B K) (he : (open_, now) ∈ (run s p [] (st, [])).2.2) (ho : open_.Nodup)
    (ext : LsstExp.Ext K P W) (frame : B → Exp K P W) (boxOf : Heavy B K → Box) (src : Source K)
    (pk : Int × Int) (t : List (Int × Int)) (hp : src.peaks = pk :: t) (n : Int) (hn : 0 ≤ n)
    (orig : Bool) (r : MbResult B K)
    (hst : getMbobs ext s now frame boxOf src (some n) false (kindOf orig) = .ok r) :
    ∃ mb, r = .obs mb ∧ mb.length = bands.length ∧ ∀ (i : Nat) (b : B), bands[i]? = some b →
      ∃ o, mb[i]? = some [o] ∧
        IsStamp ext (showing (frame b) (shown find srcs data open_ orig b)) src
          (pk.1 - n / 2) (pk.2 - n / 2) (2 * (n / 2) + 1).toNat o := by
  obtain ⟨h1, h2, h3, -, -⟩ := build_fixed expBox bands mbands data find srcs hmb hnd s st h
  obtain ⟨g1, log, g2, g3⟩ := C68_history_partial expBox bands mbands data find srcs hb hmb hcov hnd s st h p
  rw [g2] at he
  obtain ⟨k1, k2⟩ := g3 _ he
  have hst' : (match boxOfStamp s (fun _ => src.peaks) src.sid (some n) false with
    | .error e => .error (.py e)
    | .ok b =>
      match stampBands ext src b (s.bands.map fun bd =>
          withPixels (frame bd) (imagesOf now (kindOf orig) bd)) with
      | .error e => .error e
      | .ok mb => .ok (.obs mb)) = Except.ok r := by
    rw [← hst]; cases orig <;> rfl
  unfold boxOfStamp at hst'
  cases hg : PyDict.get? s.heavies src.sid with
  | none => rw [hg] at hst'; cases hst'
  | some hv =>
    rw [hg] at hst'
    simp only [Option.map_some, subtractorBBox] at hst'
    match hbx : getBBox s.expBox src.peaks n false, hst' with
    | .ok b, hst' =>
      simp only at hst'
      match hmbo : stampBands ext src b (s.bands.map fun bd =>
          withPixels (frame bd) (imagesOf now (kindOf orig) bd)), hst' with
      | .ok mb, hst' =>
        simp only [Except.ok.injEq] at hst'
        rw [hp] at hbx
        have hbe := getBBox_ok_box s.expBox pk t n b hn hbx
        obtain ⟨hl, hi⟩ := stampBands_ok ext src b _ mb hmbo
        refine ⟨mb, hst'.symm, by rw [hl, List.length_map, h2], fun i bd hbd => ?_⟩
        obtain ⟨sub, o, q1, q2, q3⟩ := hi i _ (by
          rw [List.getElem?_map, h2, hbd]; rfl)
        rw [hbe] at q1
        simp only at q1
        refine ⟨o, q3, ?_⟩
        have hpx : imagesOf now (kindOf orig) bd = shown find srcs data open_ orig bd := by
          funext x y
          cases orig with
          | true => exact congrFun (congrFun (congrFun k1 bd) x) y
          | false =>
            have := k2 ho bd (List.mem_of_getElem? hbd) x y
            simpa [imagesOf, kindOf, shown] using this
        rw [hpx] at q1
        exact stamp_of_sub ext _ sub src o _ _ _ (by omega) q1 (by omega) q2

/-- the hypotheses of `C86_observations_partial` are met: the observation of a source in its context, with a
neighbour of brightness 2 removed -/
example : (match build exExp3.box ["r", "i"] ["r", "i"] (fun _ _ _ => (10 : ℚ))
      (fun _ => some ⟨10, 20, 2, 2⟩) [⟨7, ⟨fun _ _ => true, fun _ _ _ => 3⟩⟩, ⟨8, ⟨fun _ _ => true, fun _ _ _ => 2⟩⟩] with
    | .error _ => false
    | .ok (s, st) => ((run s (.withSource 7 .observe) [] (st, [])).2.2.map fun e =>
      match getMbobs exExt s e.2 (fun _ => exExp3) (fun _ => ⟨10, 20, 2, 2⟩) exSource (some 1) false .deblended with
      | .ok (.obs [[o], [o']]) => decide (o.image.px 0 0 = 8) && decide (o'.image.px 0 0 = 8) && e.1 == [7]
      | _ => false) == [true]) = true := by decide +kernel

/-- C86 is false for the observations of kind `model`: what comes back are exposures, for every known
source with models in all (two or more) bands. -/
theorem C86_model_observations_counterexample (ext : LsstExp.Ext K P W) (s : Sub B K) (now : St B K)
    (frame : B → Exp K P W) (boxOf : Heavy B K → Box) (src : Source K) (size : Option Int) (clip : Bool)
    (r : MbResult B K) (h : getMbobs ext s now frame boxOf src size clip .model = .ok r) :
    ∃ stp, r = .exposures stp := by
  simp only [getMbobs, reduceCtorEq, if_false, if_true] at h
  split at h
  · cases h
  · cases h; exact ⟨_, rfl⟩

end observations

end MD.LsstSubtract
