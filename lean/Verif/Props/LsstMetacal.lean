import Verif.Lemmas.LsstMetacal
import Verif.Props.LsstExp

/-!
# C71: fixed-noise metacal
-/

namespace MD.LsstMetacal

open LsstGeom LsstExp PyDict

set_option linter.unusedSectionVars false

variable {K P W S B : Type _} [Field K] [LinearOrder K]

/-- SPEC: the shear that belongs to a metacal type (`none`: not sheared); the step is 0.01 -/
inductive IsShear : String → Option (Shear K) → Prop
  | noshear : IsShear "noshear" none
  | p1 : IsShear "1p" (some ⟨1 / 100, 0⟩)
  | m1 : IsShear "1m" (some ⟨-(1 / 100), 0⟩)
  | p2 : IsShear "2p" (some ⟨0, 1 / 100⟩)
  | m2 : IsShear "2m" (some ⟨0, -(1 / 100)⟩)

/-- SPEC: the known types -/
def known : List String := ["noshear", "1p", "1m", "2p", "2m"]

/-- SPEC: `ctx` holds Jacobian and PSF of the exposure at its integer centre -/
def IsCtx (ext : Ext K P W) (e : Exp K P W) (stats : Option S) (ctx : Ctx K S) : Prop :=
  ∃ w p, e.wcs = some w ∧ e.psf = some p ∧
    ext.kernel p (centre e) = some ctx.psf ∧
    ctx.jac = getJacobian ext w e.x0 e.y0 (centre e) ∧
    JacobianOf ext w (centre e) e.x0 e.y0 ctx.jac ∧
    ctx.stats = stats

/-- SPEC: the sheared value at pixel `(r, c)` of a data image -/
def dataValue (gal : Gal K S) (ctx : Ctx K S) (sh : Option (Shear K)) (im : Img K) (r c : Nat) : K :=
  gal.px ctx sh im r c

/-- SPEC: the sheared value at pixel `(r, c)` of a noise image: the image is turned by 90 degrees
(`np.rot90`), sheared, and the pixel to which `(r, c)` was turned is read. -/
def noiseValue (gal : Gal K S) (ctx : Ctx K S) (sh : Option (Shear K)) (im : Img K) (r c : Nat) : K :=
  gal.px ctx sh ⟨im.nc, im.nr, fun i j => im.px j (im.nc - 1 - i)⟩ (im.nc - 1 - c) r

/-- the pixel read for the noise holds, before shearing, the noise at `(r, c)` itself -/
example (im : Img ℚ) (r c : Nat) (hc : c < im.nc) :
    (⟨im.nc, im.nr, fun i j => im.px j (im.nc - 1 - i)⟩ : Img ℚ).px (im.nc - 1 - c) r = im.px r c := by
  show im.px r (im.nc - 1 - (im.nc - 1 - c)) = _
  congr 1
  omega

theorem shearOf_spec (t : String) :
    (∃ sh : Option (Shear K), shearOf t = .ok sh ∧ IsShear t sh ∧ t ∈ known) ∨
    ((shearOf t : Except PyErr (Option (Shear K))) = .error .valueError ∧ t ∉ known) := by
  unfold shearOf shearFromType
  by_cases h0 : t = "noshear"
  · subst h0; exact Or.inl ⟨none, rfl, .noshear, by decide⟩
  by_cases h1 : t = "1p"
  · subst h1; exact Or.inl ⟨some ⟨STEP, 0⟩, rfl, .p1, by decide⟩
  by_cases h2 : t = "1m"
  · subst h2; exact Or.inl ⟨some ⟨-STEP, 0⟩, rfl, .m1, by decide⟩
  by_cases h3 : t = "2p"
  · subst h3; exact Or.inl ⟨some ⟨0, STEP⟩, rfl, .p2, by decide⟩
  by_cases h4 : t = "2m"
  · subst h4; exact Or.inl ⟨some ⟨0, -STEP⟩, rfl, .m2, by decide⟩
  right
  refine ⟨by rw [if_neg h0, if_neg h1, if_neg h2, if_neg h3, if_neg h4], ?_⟩
  simp [known, h0, h1, h2, h3, h4]

/-- SPEC: `x` is the metacal exposure of `e` for type `t`, not rotated (data) or rotated (noise): new
image and PSF, everything else as it was. -/
def IsMetacal (ext : Ext K P W) (gal : Gal K S) (e : Exp K P W) (stats : Option S) (t : String)
    (rot : Bool) (x : Exp K P W) : Prop :=
  ∃ ctx sh, IsCtx ext e stats ctx ∧ IsShear t sh ∧ x.image.nr = e.image.nr ∧ x.image.nc = e.image.nc ∧
    (∀ r c, e.image.In r c → x.image.px r c =
      if rot then noiseValue gal ctx sh e.image r c else dataValue gal ctx sh e.image r c) ∧
    x.psf = some (ext.kernelPsf (gal.dilated ctx)) ∧ x.mask = e.mask ∧ x.var = e.var ∧ x.wcs = e.wcs ∧
    x.x0 = e.x0 ∧ x.y0 = e.y0

theorem context_ok (ext : Ext K P W) (e : Exp K P W) (stats : Option S) (ctx : Ctx K S)
    (h : context ext e stats = .ok ctx) : IsCtx ext e stats ctx := by
  unfold context at h
  split at h
  · cases h
  · rename_i w hw
    simp only at h
    split at h
    · cases h
    · rename_i p hp
      split at h
      · cases h
      · rename_i im him
        cases h
        rw [centre_eq] at him ⊢
        exact ⟨w, p, hw, hp, him, rfl, getJacobian_spec ext w _ _ _, rfl⟩

theorem metacalExps_ok (ext : Ext K P W) (gal : Gal K S) (e : Exp K P W) (stats : Option S)
    (ts : List String) (rot : Bool) (d : PyDict String (Exp K P W))
    (h : metacalExps ext gal e stats (some ts) rot = .ok d) :
    d.Ok ∧ (∀ t ∈ ts, t ∈ known ∧ ∃ x, get? d t = some x ∧ IsMetacal ext gal e stats t rot x) ∧
    ∀ t, t ∉ ts → get? d t = none := by
  unfold metacalExps at h
  simp only [Option.getD_some] at h
  split at h
  · cases h
  · rename_i ctx hctx
    obtain ⟨h1, h2, h3⟩ := expsLoop_ok _ _ _ _ h
    refine ⟨h1 List.nodup_nil, ?_, fun t ht => by rw [h3 t ht]; rfl⟩
    intro t ht
    obtain ⟨x, hx, hget⟩ := h2 t ht
    rw [metacalExp_eq] at hx
    rcases shearOf_spec (K := K) t with ⟨sh, hs, hsh, hk⟩ | ⟨hs, hk⟩
    · rw [hs] at hx
      cases hx
      refine ⟨hk, _, hget, ctx, sh, context_ok ext e stats ctx hctx, hsh, ?_, ?_, ?_, rfl, rfl, rfl, rfl, rfl, rfl⟩
      · cases rot <;> rfl
      · cases rot <;> rfl
      · intro r c hin
        cases rot
        · rfl
        · simp only [if_true, Img.rot90k, Img.rot90, Gal.draw, noiseValue]
          congr 1 <;> (have := hin.1; have := hin.2; omega)
    · rw [hs] at hx; cases hx

/-- SPEC: `x` is the data exposure with the noise added once: pixel by pixel the sum, the variance
doubled, mask, PSF, WCS and origin those of the data. -/
def IsSum (s n x : Exp K P W) : Prop :=
  x.image.nr = s.image.nr ∧ x.image.nc = s.image.nc ∧
  (∀ r c, s.image.In r c → x.image.px r c = s.image.px r c + n.image.px r c) ∧
  x.var.nr = s.var.nr ∧ x.var.nc = s.var.nc ∧
  (∀ r c, s.var.In r c → (∀ v, s.var.px r c = .fin v → x.var.px r c = .fin (2 * v)) ∧
    (s.var.px r c = .inf → x.var.px r c = .inf) ∧ (s.var.px r c = .nan → x.var.px r c = .nan)) ∧
  x.mask = s.mask ∧ x.psf = s.psf ∧ x.wcs = s.wcs ∧ x.x0 = s.x0 ∧ x.y0 = s.y0

theorem addNoise_ok (s n x : Exp K P W) (h : addNoise s n = .ok x) : IsSum s n x := by
  unfold addNoise at h
  split at h
  · cases h
    refine ⟨rfl, rfl, fun r c _ => rfl, rfl, rfl, fun r c _ => ⟨?_, ?_, ?_⟩, rfl, rfl, rfl, rfl, rfl⟩
    all_goals intros; simp only [Img.map]; rename_i hv; rw [hv]; rfl
  · cases h

theorem metacalMbexps_ok (ext : Ext K P W) (gal : Gal K S) (mb : MbExp B K P W)
    (types : Option (List String)) (rot : Bool) (stats : Option (List S))
    (d : PyDict String (MbExp B K P W)) (h : metacalMbexps ext gal mb types rot stats = .ok d) :
    d.Ok ∧ (∀ t, t ∉ types.getD DEFAULT_TYPES → get? d t = none) ∧
    ∀ t ∈ types.getD DEFAULT_TYPES, ∃ l, get? d t = some l ∧ l.length = mb.length ∧
      ∀ (i : Nat) (b : B) (e : Exp K P W), mb[i]? = some (b, e) →
        ∃ x, l[i]? = some (b, x) ∧ t ∈ known ∧ IsMetacal ext gal e (stats.bind (·[i]?)) t rot x := by
  unfold metacalMbexps at h
  simp only at h
  split at h
  · split at h
    · cases h
    · rename_i lists hl
      cases h
      refine ⟨ok_foldl_set _ _ _ List.nodup_nil, ?_, ?_⟩
      · intro t ht
        rw [get?_foldl_set, if_neg ht]; rfl
      · intro t ht
        rw [get?_foldl_set, if_pos ht]
        obtain ⟨l, h1, h2, h3⟩ := bandLoop_ok _ t (fun e s md hm => by
          obtain ⟨a, b, -⟩ := metacalExps_ok ext gal e s _ rot md hm
          obtain ⟨-, x, hx, -⟩ := b t ht
          exact ⟨a, x, hx⟩) mb _ _ stats hl
        rw [get?_foldl_set, if_pos ht, Option.getD_some, List.nil_append] at h1
        refine ⟨l, by rw [h1], h2, ?_⟩
        intro i b e hi
        obtain ⟨md, x, hm, hx, hli⟩ := h3 i b e hi
        obtain ⟨-, hb, -⟩ := metacalExps_ok ext gal e _ _ rot md hm
        obtain ⟨hk, x', hx', hmc⟩ := hb t ht
        rw [hx] at hx'; cases hx'
        exact ⟨x, hli, hk, hmc⟩
  · cases h

/-- C71: the results have exactly the requested types (the default ones when none are given); for each
of them every band, in order, holds the sheared data plus the equally sheared, rotated noise of that
band, added once, with the variance doubled once. -/
theorem C71_fixnoise (ext : Ext K P W) (gal : Gal K S) (mb noise : MbExp B K P W)
    (types : Option (List String)) (stats : Option (List S)) (d nd : PyDict String (MbExp B K P W))
    (hlen : noise.length = mb.length)
    (h : metacalMbexpsFixnoise ext gal mb noise types stats = .ok (d, nd)) :
    d.Ok ∧ (∀ t, PyDict.has d t = true ↔ t ∈ types.getD ["noshear", "1p", "1m"]) ∧
    ∀ t ∈ types.getD ["noshear", "1p", "1m"], ∃ l, get? d t = some l ∧ l.length = mb.length ∧
      ∀ (i : Nat) (b b' : B) (e n : Exp K P W), mb[i]? = some (b, e) → noise[i]? = some (b', n) →
        ∃ x s sn, l[i]? = some (b, x) ∧ IsMetacal ext gal e (stats.bind (·[i]?)) t false s ∧
          IsMetacal ext gal n (stats.bind (·[i]?)) t true sn ∧ IsSum s sn x := by
  unfold metacalMbexpsFixnoise at h
  split at h
  · cases h
  rename_i d0 hd0
  split at h
  · cases h
  rename_i nd0 hnd0
  split at h
  · cases h
  rename_i d1 hd1
  cases h
  obtain ⟨a1, a2, a3⟩ := metacalMbexps_ok ext gal mb types false stats d0 hd0
  obtain ⟨b1, b2, b3⟩ := metacalMbexps_ok ext gal noise types true stats nd hnd0
  obtain ⟨c1, c2⟩ := fixLoop_ok nd d0 d hd1
  have hhas : ∀ t ∈ types.getD ["noshear", "1p", "1m"], ∃ l, get? d t = some l ∧ l.length = mb.length ∧
      ∀ (i : Nat) (b b' : B) (e n : Exp K P W), mb[i]? = some (b, e) → noise[i]? = some (b', n) →
        ∃ x s sn, l[i]? = some (b, x) ∧ IsMetacal ext gal e (stats.bind (·[i]?)) t false s ∧
          IsMetacal ext gal n (stats.bind (·[i]?)) t true sn ∧ IsSum s sn x := by
    intro t ht
    obtain ⟨l0, e1, e2, e3⟩ := a3 t ht
    obtain ⟨nl0, f1, f2, f3⟩ := b3 t ht
    obtain ⟨nl, l', g1, g2, g3⟩ := c2 t l0 e1
    rw [f1] at g1; cases g1
    obtain ⟨k1, k2⟩ := addNoises_ok l0 nl0 l' g2 (by omega)
    refine ⟨l', g3, by omega, ?_⟩
    intro i b b' e n hi hn
    obtain ⟨s, hs, -, hms⟩ := e3 i b e hi
    obtain ⟨sn, hsn, -, hmsn⟩ := f3 i b' n hn
    obtain ⟨x, hx, hlx⟩ := k2 i b s b' sn hs hsn
    exact ⟨x, s, sn, hlx, hms, hmsn, addNoise_ok s sn x hx⟩
  refine ⟨by unfold PyDict.Ok at a1 ⊢; rw [c1]; exact a1, ?_, hhas⟩
  intro t
  constructor
  · intro hh
    by_contra hn
    have : get? d t = none := by
      rw [get?_eq_none_iff, c1, ← get?_eq_none_iff]
      exact a2 t hn
    rw [PyDict.has, this] at hh
    cases hh
  · intro ht
    obtain ⟨l, hl, -⟩ := hhas t ht
    rw [PyDict.has, hl]; rfl

/-- SPEC: an exposure whose Jacobian and PSF can be evaluated at the centre -/
def Ready (ext : Ext K P W) (e : Exp K P W) : Prop :=
  ∃ w p im, e.wcs = some w ∧ e.psf = some p ∧
    ext.kernel p (centre e) = some im

theorem context_total (ext : Ext K P W) (e : Exp K P W) (stats : Option S) (h : Ready ext e) :
    ∃ ctx, context ext e stats = .ok ctx := by
  obtain ⟨w, p, im, h1, h2, h3⟩ := h
  rw [← centre_eq] at h3
  unfold context
  simp only [h1, h2, h3]
  exact ⟨_, rfl⟩

theorem metacalExps_total (ext : Ext K P W) (gal : Gal K S) (e : Exp K P W) (stats : Option S)
    (ts : List String) (rot : Bool) (h : Ready ext e) :
    ((∀ t ∈ ts, t ∈ known) → ∃ d, metacalExps ext gal e stats (some ts) rot = .ok d) ∧
    ((∃ t ∈ ts, t ∉ known) → metacalExps ext gal e stats (some ts) rot = .error .valueError) := by
  obtain ⟨ctx, hctx⟩ := context_total ext e stats h
  unfold metacalExps
  simp only [hctx, Option.getD_some]
  have hm : ∀ t, (t ∈ known ∧ ∃ x, metacalExp ext gal e ctx (startImage e rot) t rot = .ok x) ∨
      (t ∉ known ∧ metacalExp ext gal e ctx (startImage e rot) t rot = .error .valueError) := by
    intro t
    rw [metacalExp_eq]
    rcases shearOf_spec (K := K) t with ⟨sh, hs, -, hk⟩ | ⟨hs, hk⟩
    · rw [hs]; exact Or.inl ⟨hk, _, rfl⟩
    · rw [hs]; exact Or.inr ⟨hk, rfl⟩
  constructor
  · intro hk
    apply expsLoop_total
    intro t ht
    rcases hm t with ⟨-, hx⟩ | ⟨hn, -⟩
    · exact hx
    · exact absurd (hk t ht) hn
  · rintro ⟨t, ht, hn⟩
    apply expsLoop_error
    · intro t _
      rcases hm t with ⟨-, hx⟩ | ⟨-, hx⟩
      · exact Or.inl hx
      · exact Or.inr hx
    · refine ⟨t, ht, ?_⟩
      rcases hm t with ⟨hk, -⟩ | ⟨-, hx⟩
      · exact absurd hk hn
      · exact hx

theorem metacalMbexps_total (ext : Ext K P W) (gal : Gal K S) (mb : MbExp B K P W)
    (types : Option (List String)) (rot : Bool) (stats : Option (List S))
    (hst : ∀ s, stats = some s → s.length = mb.length) (h : ∀ p ∈ mb, Ready ext p.2) :
    ((∀ t ∈ types.getD DEFAULT_TYPES, t ∈ known) → ∃ d, metacalMbexps ext gal mb types rot stats = .ok d) ∧
    ((∃ t ∈ types.getD DEFAULT_TYPES, t ∉ known) → mb ≠ [] →
      metacalMbexps ext gal mb types rot stats = .error .valueError) := by
  unfold metacalMbexps
  have hc : (stats.map fun s => decide (s.length = mb.length)).getD true = true := by
    cases stats with
    | none => rfl
    | some s => simpa using hst s rfl
  simp only [hc, if_true]
  constructor
  · intro hk
    obtain ⟨d', hd'⟩ := bandLoop_total (fun e s => metacalExps ext gal e s (some (types.getD DEFAULT_TYPES)) rot) mb
      ((types.getD DEFAULT_TYPES).foldl (fun d t => PyDict.set d t []) []) stats
      fun p hp s => (metacalExps_total ext gal p.2 s _ rot (h p hp)).1 hk
    rw [hd']
    exact ⟨_, rfl⟩
  · intro hb hne
    match mb, hne, h with
    | (b, e) :: t, _, h =>
      simp only [bandLoop]
      rw [(metacalExps_total ext gal e _ _ rot (h _ List.mem_cons_self)).2 hb]

/-- C71: for exposures that can be processed, of equal shapes for data and noise, the call succeeds
when all requested types are known, and raises `ValueError` otherwise. -/
theorem C71_outcome (ext : Ext K P W) (gal : Gal K S) (mb noise : MbExp B K P W)
    (types : Option (List String)) (stats : Option (List S))
    (hst : ∀ s, stats = some s → s.length = mb.length) (hlen : noise.length = mb.length) (hne : mb ≠ [])
    (hr : ∀ p ∈ mb, Ready ext p.2) (hrn : ∀ p ∈ noise, Ready ext p.2)
    (hs : ∀ (i : Nat) (p q : B × Exp K P W), mb[i]? = some p → noise[i]? = some q →
      p.2.image.nr = q.2.image.nr ∧ p.2.image.nc = q.2.image.nc) :
    ((∀ t ∈ types.getD ["noshear", "1p", "1m"], t ∈ ["noshear", "1p", "1m", "2p", "2m"]) →
      ∃ r, metacalMbexpsFixnoise ext gal mb noise types stats = .ok r) ∧
    ((∃ t ∈ types.getD ["noshear", "1p", "1m"], t ∉ ["noshear", "1p", "1m", "2p", "2m"]) →
      metacalMbexpsFixnoise ext gal mb noise types stats = .error .valueError) := by
  obtain ⟨a1, a2⟩ := metacalMbexps_total ext gal mb types false stats hst hr
  obtain ⟨b1, b2⟩ := metacalMbexps_total ext gal noise types true stats
    (fun s h => by rw [hlen]; exact hst s h) hrn
  constructor
  · intro hk
    obtain ⟨d, hd⟩ := a1 hk
    obtain ⟨nd, hnd⟩ := b1 hk
    obtain ⟨d1, d2, d3⟩ := metacalMbexps_ok ext gal mb types false stats d hd
    obtain ⟨n1, n2, n3⟩ := metacalMbexps_ok ext gal noise types true stats nd hnd
    obtain ⟨d', hd'⟩ := fixLoop_total nd d (by
      intro p hp
      have hg : get? d p.1 = some p.2 := get?_of_mem d1 hp
      have ht : p.1 ∈ types.getD DEFAULT_TYPES := by
        by_contra hn
        rw [d2 p.1 hn] at hg; cases hg
      obtain ⟨l, hl, hll, hlx⟩ := d3 p.1 ht
      rw [hl] at hg; cases hg
      obtain ⟨nl, hnl, hnll, hnlx⟩ := n3 p.1 ht
      obtain ⟨l', hl'⟩ := addNoises_total p.2 nl (by
        intro i x y hx hy
        have hi : i < mb.length := by rw [← hll]; exact (List.getElem?_eq_some_iff.1 hx).1
        obtain ⟨x1, e1, -, c1⟩ := hlx i mb[i].1 mb[i].2 (by simp [hi])
        obtain ⟨y1, e2, -, c2⟩ := hnlx i (noise[i]'(by omega)).1 (noise[i]'(by omega)).2
          (by simp [hlen, hi])
        rw [hx] at e1; cases e1
        rw [hy] at e2; cases e2
        obtain ⟨_, _, -, -, s1, s2, -⟩ := c1
        obtain ⟨_, _, -, -, s3, s4, -⟩ := c2
        obtain ⟨s5, s6⟩ := hs i mb[i] (noise[i]'(by omega)) (by simp [hi]) (by simp [hlen, hi])
        unfold addNoise
        rw [if_pos]
        · exact ⟨_, rfl⟩
        · simp only [sameShape, s1, s2, s3, s4, s5, s6, decide_true, Bool.and_self])
      exact ⟨nl, l', hnl, hl'⟩)
    unfold metacalMbexpsFixnoise
    simp only [hd, hnd, hd']
    exact ⟨_, rfl⟩
  · intro hb
    unfold metacalMbexpsFixnoise
    rw [a2 hb hne]

theorem noiseLoop_ok (nd : PyDict String (Exp K P W)) (ts : List String) (hts : ts.Nodup)
    (d d' : PyDict String (Exp K P W)) (h : noiseLoop nd d ts = .ok d') :
    (∀ t, t ∉ ts → get? d' t = get? d t) ∧
    ∀ t ∈ ts, ∃ e n x, get? d t = some e ∧ get? nd t = some n ∧ addNoise e n = .ok x ∧ get? d' t = some x := by
  induction ts generalizing d with
  | nil => cases h; exact ⟨fun _ _ => rfl, (fun t ht => nomatch ht)⟩
  | cons t0 ts ih =>
    rw [List.nodup_cons] at hts
    simp only [noiseLoop] at h
    split at h
    · rename_i e n he hn
      split at h
      · cases h
      · rename_i x hx
        obtain ⟨h1, h2⟩ := ih hts.2 _ h
        constructor
        · intro t ht
          rw [h1 t (fun hh => ht (List.mem_cons_of_mem _ hh)), get?_set, if_neg]
          rintro rfl
          exact ht List.mem_cons_self
        · intro t ht
          rcases List.mem_cons.1 ht with rfl | ht'
          · exact ⟨e, n, x, he, hn, hx, by rw [h1 _ hts.1, get?_set, if_pos rfl]⟩
          · obtain ⟨e', n', x', g1, g2, g3, g4⟩ := h2 t ht'
            rw [get?_set, if_neg (by rintro rfl; exact hts.1 ht')] at g1
            exact ⟨e', n', x', g1, g2, g3, g4⟩
    · cases h

/-- C71 (single exposures, no type requested twice): as for several bands. -/
theorem C71_single_partial (ext : Ext K P W) (gal : Gal K S) (e n : Exp K P W) (stats : Option S)
    (types : Option (List String)) (hnd : (types.getD ["noshear", "1p", "1m"]).Nodup)
    (d nd : PyDict String (Exp K P W))
    (h : metacalExpsFixnoise ext gal e n stats types = .ok (d, nd)) :
    (∀ t, t ∉ types.getD ["noshear", "1p", "1m"] → get? d t = none) ∧
    ∀ t ∈ types.getD ["noshear", "1p", "1m"], ∃ x s sn, get? d t = some x ∧
      IsMetacal ext gal e stats t false s ∧ IsMetacal ext gal n stats t true sn ∧ IsSum s sn x := by
  unfold metacalExpsFixnoise at h
  simp only at h
  split at h
  · cases h
  rename_i d0 hd0
  split at h
  · cases h
  rename_i nd0 hnd0
  split at h
  · cases h
  rename_i d1 hd1
  cases h
  obtain ⟨-, a2, a3⟩ := metacalExps_ok ext gal e stats _ false d0 hd0
  obtain ⟨-, b2, b3⟩ := metacalExps_ok ext gal n stats _ true nd hnd0
  obtain ⟨c1, c2⟩ := noiseLoop_ok nd _ hnd d0 d hd1
  refine ⟨fun t ht => by rw [c1 t ht, a3 t ht], ?_⟩
  intro t ht
  obtain ⟨s, sn, x, g1, g2, g3, g4⟩ := c2 t ht
  obtain ⟨-, s', e1, e2⟩ := a2 t ht
  obtain ⟨-, sn', f1, f2⟩ := b2 t ht
  rw [g1] at e1; cases e1
  rw [g2] at f1; cases f1
  exact ⟨x, s, sn, g4, e2, f2, addNoise_ok s sn x g3⟩

/-- C71 is false for single exposures with a repeated type: the noise is added twice and the variance
is multiplied by four. -/
theorem C71_repeated_counterexample (ext : Ext K P W) (gal : Gal K S) (e n : Exp K P W) (stats : Option S)
    (t : String) (d nd : PyDict String (Exp K P W))
    (h : metacalExpsFixnoise ext gal e n stats (some [t, t]) = .ok (d, nd)) :
    ∃ x s sn, get? d t = some x ∧ IsMetacal ext gal e stats t false s ∧ IsMetacal ext gal n stats t true sn ∧
      (∀ r c, x.image.px r c = s.image.px r c + sn.image.px r c + sn.image.px r c) ∧
      ∀ r c v, e.var.px r c = .fin v → x.var.px r c = .fin (4 * v) := by
  unfold metacalExpsFixnoise at h
  simp only [Option.getD_some] at h
  split at h
  · cases h
  rename_i d0 hd0
  split at h
  · cases h
  rename_i nd0 hnd0
  split at h
  · cases h
  rename_i d1 hd1
  cases h
  obtain ⟨-, a2, -⟩ := metacalExps_ok ext gal e stats _ false d0 hd0
  obtain ⟨-, b2, -⟩ := metacalExps_ok ext gal n stats _ true nd hnd0
  obtain ⟨-, s, e1, e2⟩ := a2 t (by simp)
  obtain ⟨-, sn, f1, f2⟩ := b2 t (by simp)
  simp only [noiseLoop, e1, f1, get?_set, if_true] at hd1
  split at hd1
  · cases hd1
  rename_i x1 hx1
  split at hd1
  · cases hd1
  rename_i x2 hx2
  cases hd1
  refine ⟨x2, s, sn, by rw [get?_set, if_pos rfl], e2, f2, ?_, ?_⟩
  · unfold addNoise at hx1 hx2
    split at hx1
    · cases hx1
      split at hx2
      · cases hx2
        intro r c
        rfl
      · cases hx2
    · cases hx1
  · intro r c v hv
    obtain ⟨_, _, -, -, -, -, -, -, -, hvar, -⟩ := e2
    rw [← hvar] at hv
    unfold addNoise at hx1 hx2
    split at hx1
    · cases hx1
      split at hx2
      · cases hx2
        simp only [Img.map, hv, twice]
        congr 1
        ring
      · cases hx2
    · cases hx1

/-- a drawing that adds the shear to every pixel -/
def exGal : Gal ℚ Unit := ⟨fun _ sh im r c => im.px r c + (match sh with | none => 0 | some s => s.g1 + 2 * s.g2),
  fun ctx => ctx.psf⟩

example : Ready exExt exExp := ⟨(), _, _, rfl, rfl, rfl⟩
/-- the hypotheses are met by two bands and two types; the noise comes back unrotated -/
example : (match metacalMbexpsFixnoise (B := String) exExt exGal [("r", exExp), ("i", exExp2)]
      [("r", exExp2), ("i", exExp)] (some ["2m", "noshear", "2m"]) none with
    | .ok (d, _) => (PyDict.get? d "2m").any fun l => decide (l.map (fun p => (p.1, p.2.image.px 0 1, p.2.var.px 1 1))
        = [("r", exExp.image.px 0 1 + exExp2.image.px 0 1 - 1 / 25, .fin 8),
           ("i", exExp.image.px 0 1 + exExp2.image.px 0 1 - 1 / 25, twice (exExp2.var.px 1 1))])
    | .error _ => false) = true := by decide +kernel
example : ∃ r, metacalExpsFixnoise exExt exGal exExp exExp2 none (some ["1p", "1p"]) = .ok r := ⟨_, rfl⟩
example : ∃ r, metacalExpsFixnoise exExt exGal exExp exExp2 none none = .ok r := ⟨_, rfl⟩

end MD.LsstMetacal
