import Verif.Props.PipelineRows
import Verif.Props.CoaddOrder
import Verif.Props.DriverSeparate

/-! # C117: the order in which the bands of a combination are listed does not matter -/

set_option linter.unusedSectionVars false

namespace MD.Driver

open Cache (Env St Sub McalRes Inv resolve FitOk NoAlias Uniform getMbobsData)

variable {K : Type _} [Field K] [LinearOrder K] [IsStrictOrderedRing K] [FloorRing K]
variable {X Id Key S T W C R α β : Type _} [DecidableEq Id] [DecidableEq Key]

/-! ## Specification -/

/-- SPEC: the images of a metacal type, as made by metacal -/
def IsImage (env : Env K X Id Key S) (mb : MbObs K X) : Prop :=
  ∃ i p s m t, (env.metacal i p s).1 = .ok m ∧ (t, mb) ∈ m

/-- SPEC: the stamps given to the fitters: those of a detection, or those of a colour -/
def IsStamps (d : Drv K X Id Key S T W C R) (stamps : List T) : Prop :=
  ∃ mb, IsImage d.env mb ∧ ((∃ db cat, d.detect mb db = .ok (cat, stamps)) ∨ ∃ cat, d.stamps mb cat = .ok stamps)

/-! ## Lemmas -/

/-- two programs that do the same in states of kind `J`, and stay there -/
def EqIn {σ : Type _} (J : σ → Prop) (m m' : PyM σ α) : Prop :=
  ∀ st, J st → m st = m' st ∧ ∀ v, (m st).1 = .ok v → J (m st).2

theorem EqIn.lift {σ : Type _} (J : σ → Prop) {r r' : Except PyErr α} (h : r = r') :
    EqIn J (PyM.lift r) (PyM.lift r') := by
  subst h
  exact fun st hst => ⟨rfl, fun _ _ => hst⟩

theorem EqIn.pure {σ : Type _} (J : σ → Prop) (a : α) : EqIn J (PyM.pure a) (PyM.pure a) :=
  fun _ hst => ⟨rfl, fun _ _ => hst⟩

theorem EqIn.throw {σ : Type _} (J : σ → Prop) (e : PyErr) : EqIn (α := α) J (PyM.throw e) (PyM.throw e) :=
  fun _ hst => ⟨rfl, fun _ _ => hst⟩

/-- with a fact about the values of the first program -/
theorem EqIn.bind' {σ : Type _} {J : σ → Prop} {m m' : PyM σ α} {f f' : α → PyM σ β} (h : EqIn J m m')
    (P : α → Prop) (hP : ∀ st a, J st → (m st).1 = .ok a → P a)
    (h' : ∀ a, P a → EqIn J (f a) (f' a)) : EqIn J (PyM.bind m f) (PyM.bind m' f') := by
  intro st hst
  obtain ⟨h1, h2⟩ := h st hst
  have h3 := hP st
  unfold PyM.bind
  rw [← h1]
  generalize m st = x at h1 h2 h3
  obtain ⟨_ | a, st'⟩ := x
  · exact ⟨rfl, fun v hv => by cases hv⟩
  · exact h' a (h3 a hst rfl) st' (h2 a rfl)

theorem EqIn.bind {σ : Type _} {J : σ → Prop} {m m' : PyM σ α} {f f' : α → PyM σ β} (h : EqIn J m m')
    (h' : ∀ a, EqIn J (f a) (f' a)) : EqIn J (PyM.bind m f) (PyM.bind m' f') :=
  h.bind' (fun _ => True) (fun _ _ _ _ => trivial) fun a _ => h' a

theorem EqIn.forEach {σ : Type _} {J : σ → Prop} {f f' : α → PyM σ β} (l : List α)
    (h : ∀ a ∈ l, EqIn J (f a) (f' a)) : EqIn J (PyM.forEach f l) (PyM.forEach f' l) := by
  induction l with
  | nil => exact EqIn.pure J []
  | cons a t ih =>
    exact (h a (by simp)).bind fun b => (ih fun x hx => h x (by simp [hx])).bind fun bs => EqIn.pure J _

theorem EqIn.forEach₂ {σ : Type _} {J : σ → Prop} {f : α → PyM σ β} {l l' : List α}
    (h : List.Forall₂ (fun a a' => EqIn J (f a) (f a')) l l') :
    EqIn J (PyM.forEach f l) (PyM.forEach f l') := by
  induction h with
  | nil => exact EqIn.pure J []
  | cons h _ ih => exact h.bind fun b => ih.bind fun bs => EqIn.pure J _

/-- the caches are right -/
def Good (env : Env K X Id Key S) (st : St K X Id Key S) : Prop := ∃ σ, Inv env σ st

theorem ensureBands_perm (env : Env K X Id Key S) (key : Option Key) (i : Id) (hu : Uniform (env.obs i))
    (l m : List Nat) (h : l.Perm m) (st : St K X Id Key S)
    (hst : ∀ e, st.cache.get? key = some e → ∃ fl, e.flags = some fl ∧
      (fl = 0 → ∃ p, st.psf i = some p ∧ Cache.FitsAll p (env.obs i))) :
    Cache.ensureBands env key i l st = Cache.ensureBands env key i m st := by
  unfold Cache.ensureBands
  rw [Columns.sorted_eq_of_perm h]
  simp only [PyM.bind, PyM.get]
  cases hc : st.cache.get? key with
  | none => rfl
  | some e =>
    obtain ⟨fl, hfl, hp⟩ := hst e hc
    simp only [hfl, Cache.bandData_perm env i hu l m h (st.psf i) fl hp]

theorem data_perm (env : Env K X Id Key S) (hu : ∀ i, Uniform (env.obs i)) (hfit : FitOk env)
    (hna : NoAlias env) (key : Option Key) (l m : List Nat) (h : l.Perm m) :
    EqIn (Good env) (getMbobsData env key l) (getMbobsData env key m) := by
  rintro st ⟨σ, hI⟩
  cases hres : resolve env key with
  | error e =>
    unfold getMbobsData
    simp only [PyM.bind, PyM.lift, hres]
    exact ⟨trivial, fun v hv => by cases hv⟩
  | ok ki =>
    obtain ⟨k, i⟩ := ki
    refine ⟨?_, fun v hv => ?_⟩
    · unfold getMbobsData
      simp only [PyM.bind, PyM.lift, hres]
      cases hc : st.cache.get? k with
      | some e =>
        rw [Cache.ensureKey_old env k i st (Cache.has_iff.2 ⟨e, hc⟩)]
        simp only
        refine ensureBands_perm env k i (hu i) l m h st fun e' he' => ?_
        obtain ⟨i', fl, mc, p, h1, h2, h3, -, h5, -⟩ := hI.ent k e' he'
        have := Cache.resolve_idem env hres
        rw [h1] at this
        cases this
        refine ⟨fl, h3, fun h0 => ?_⟩
        rw [h5]
        exact Cache.keyRun_fits env hfit _ i fl mc p h2 h0
      | none =>
        have hN := Cache.ensureKey_new env k i st hc (hI.new k i (Cache.resolve_idem env hres) hc)
        cases hr : Cache.keyRun env st.rng i with
        | error e =>
          rw [hr] at hN
          simp only at hN
          generalize Cache.ensureKey env k i st = x at hN
          obtain ⟨x1, x2⟩ := x
          simp only at hN
          subst hN
          rfl
        | ok v =>
          obtain ⟨fl, mc, p⟩ := v
          rw [hr] at hN
          simp only at hN
          generalize Cache.ensureKey env k i st = x at hN
          obtain ⟨x1, x2⟩ := x
          simp only at hN
          obtain ⟨rfl, hcg, hps⟩ := hN
          simp only
          refine ensureBands_perm env k i (hu i) l m h x2 fun e' he' => ?_
          rw [hcg k, if_pos rfl] at he'
          cases he'
          refine ⟨fl, rfl, fun h0 => ?_⟩
          rw [hps i, if_pos rfl]
          exact Cache.keyRun_fits env hfit _ i fl mc p hr h0
    · obtain ⟨σ', -, -, -, h4⟩ := Cache.step env hu hfit hna σ st hI key k i hres l
      exact ⟨σ', (h4 v hv).1⟩

/-- the images of an answer come from metacal -/
theorem data_images (env : Env K X Id Key S) (hu : ∀ i, Uniform (env.obs i)) (hfit : FitOk env)
    (hna : NoAlias env) (key : Option Key) (l : List Nat) (st : St K X Id Key S) (hst : Good env st)
    (sub : Sub K X) (h : (getMbobsData env key l st).1 = .ok sub) (m : McalRes K X)
    (hm : sub.mcal = some (some m)) : ∃ i p s, (env.metacal i p s).1 = .ok m := by
  obtain ⟨σ, hI⟩ := hst
  cases hres : resolve env key with
  | error e =>
    unfold getMbobsData at h
    simp [PyM.bind, PyM.lift, hres] at h
  | ok ki =>
    obtain ⟨k, i⟩ := ki
    obtain ⟨σ', -, -, h3, -⟩ := Cache.step env hu hfit hna σ st hI key k i hres l
    rw [h3] at h
    obtain ⟨fl, mcal, d, psfs, sel, -, g2, -, g4, -⟩ := Cache.C33_fresh_answer env hu hfit (σ' i) key i
      ((Cache.resolve_iff env key i).2 ⟨k, hres⟩) l sub
      ((Cache.fresh_eq env hu hfit (σ' i) key k i hres l).trans h)
    rw [hm] at g2
    cases g2
    rcases g4 with ⟨-, -, ⟨-, h⟩ | ⟨m', h, h'⟩⟩ | ⟨-, -, ⟨-, h⟩ | ⟨m', h, h'⟩⟩
    · cases h
    · cases h'; exact ⟨_, _, _, h⟩
    · cases h
    · cases h'; exact ⟨_, _, _, h⟩

/-- what the outside code has to satisfy: detection and fits do not care for the order of the bands -/
structure OrderFree (d : Drv K X Id Key S T W C R) (ss : List (Config.Setting K)) : Prop where
  detect : ∀ mb, IsImage d.env mb → ∀ db db' : List Nat, db.Perm db' → d.detect mb db = d.detect mb db'
  wavg : ∀ f reg sy stamps (sb sb' : List Nat), sb.Perm sb' →
    d.fitWavg f reg sy stamps sb = d.fitWavg f reg sy stamps sb'
  joint : ∀ c ∈ ss, c.isWavg = false → ∀ stamps, IsStamps d stamps → ∀ sb ∈ d.shearCombs, ∀ sb', sb.Perm sb' →
    ∀ s, d.fitJoint c.fitter c.symm c.coadd stamps sb s = d.fitJoint c.fitter c.symm c.coadd stamps sb' s

theorem good_closed (env : Env K X Id Key S) (st : St K X Id Key S) (s : S) (h : Good env st) :
    Good env { st with rng := s } := by
  obtain ⟨σ, hI⟩ := h
  exact ⟨σ, ⟨hI.ent, hI.new⟩⟩

theorem addPositions_perm (d : Drv K X Id Key S T W C R) (obs : Obs K X) (cat : List (CatEntry K))
    (res : List R) (t : String) (mfrac : Img K) (bmask ormask : Img Nat) (psf : Measure.PsfStats K)
    (db db' : List Nat) (h : db.Perm db') :
    Measure.addPositionsAndPsf d.posExt d.posCfg d.lists.fwhms obs cat res t mfrac bmask ormask psf db =
    Measure.addPositionsAndPsf d.posExt d.posCfg d.lists.fwhms obs cat res t mfrac bmask ormask psf db' := by
  unfold Measure.addPositionsAndPsf
  have : Columns.bandString db = Columns.bandString db' := by
    unfold Columns.bandString
    rw [Columns.sorted_eq_of_perm h]
  rw [h.length_eq, this]

section
variable (d : Drv K X Id Key S T W C R) (hu : ∀ i, Uniform (d.env.obs i)) (hfit : FitOk d.env)
  (hna : NoAlias d.env) (ss : List (Config.Setting K)) (ha : Config.Aligned d.lists ss)
  (ho : OrderFree d ss) (sb sb' db db' : List Nat) (hsb : sb.Perm sb') (hdb : db.Perm db')
  (hmem : sb ∈ d.shearCombs)
include ha ho hsb hdb hmem

theorem measure_perm (stamps : List T) (hst : IsStamps d stamps) (cat : List (CatEntry K)) (t : String)
    (bd : Cache.BandData K) :
    EqIn (Good d.env) (measure d stamps sb db cat t bd) (measure d stamps sb' db' cat t bd) := by
  unfold measure
  rw [zipLists_aligned d.lists ss ha]
  refine (EqIn.forEach _ fun f hf => ?_).bind fun all => ?_
  · obtain ⟨c, hc, rfl⟩ := List.mem_map.1 hf
    unfold runFitter
    cases hw : c.isWavg with
    | true =>
      simp only [if_true]
      exact EqIn.lift _ (ho.wavg _ _ _ _ _ _ hsb)
    | false =>
      simp only [Bool.false_eq_true, if_false]
      intro st hg
      simp only [ho.joint c hc hw stamps hst sb hmem sb' hsb]
      exact ⟨trivial, fun _ _ => good_closed _ _ _ hg⟩
  · refine (EqIn.lift _ rfl).bind fun res => ?_
    cases res with
    | none => exact EqIn.pure _ _
    | some res =>
      refine (EqIn.lift _ rfl).bind fun obs => ?_
      refine (EqIn.lift _ (addPositions_perm d _ _ _ _ _ _ _ _ _ _ hdb)).bind fun t => ?_
      exact EqIn.pure _ _

include hu hfit hna

theorem goComb_perm (m : McalRes K X) (hm : ∃ i p s, (d.env.metacal i p s).1 = .ok m) :
    EqIn (Good d.env) (goComb d m (sb, db)) (goComb d m (sb', db')) := by
  have himg : ∀ e ∈ m, IsImage d.env e.2 := by
    intro e he
    obtain ⟨i, p, s, h⟩ := hm
    exact ⟨i, p, s, m, e.1, h, he⟩
  have plain : EqIn (Good d.env) (goBands d sb m db) (goBands d sb' m db') := by
    unfold goBands
    refine (data_perm d.env hu hfit hna none sb sb' hsb).bind fun kdata => EqIn.forEach m fun e he => ?_
    unfold goType
    refine EqIn.bind' (EqIn.lift _ (ho.detect e.2 (himg e he) _ _ hdb)) (fun cm => IsStamps d cm.2)
      (fun st cm _ hcm => ⟨e.2, himg e he, .inl ⟨db, cm.1, hcm⟩⟩) fun cm hcm => ?_
    refine (EqIn.lift _ rfl).bind fun bd => ?_
    exact (measure_perm d ss ha ho sb sb' db db' hsb hdb hmem _ hcm _ _ _).bind fun t => EqIn.pure _ _
  unfold goComb
  cases hck : d.colorKey with
  | none => exact plain
  | some ck =>
    cases hdep : d.env.dep with
    | none => exact plain
    | some dep =>
      simp only
      unfold goBandsColor
      refine EqIn.forEach m fun e he => ?_
      unfold goColorType
      cases d.lists.isWavg with
      | nil => exact EqIn.throw _ _
      | cons w ws =>
        cases w with
        | false => exact EqIn.throw _ _
        | true =>
          simp only
          refine (EqIn.lift _ (ho.detect e.2 (himg e he) _ _ hdb)).bind fun cm => ?_
          cases d.lists.fitters with
          | nil => exact EqIn.throw _ _
          | cons f0 fs =>
            simp only
            refine (EqIn.lift _ (ho.wavg _ _ _ _ _ _ hsb)).bind fun nc => ?_
            cases nc with
            | none => exact EqIn.pure _ _
            | some w =>
              simp only
              refine (EqIn.forEach _ fun ik _ => ?_).bind fun l => EqIn.pure _ _
              unfold goColorObj
              refine (data_perm d.env hu hfit hna ik.2 sb sb' hsb).bind'
                (fun kdata => ∀ m, kdata.mcal = some (some m) → ∃ i p s, (d.env.metacal i p s).1 = .ok m)
                (fun st kdata hst h m hm => data_images d.env hu hfit hna _ _ st hst kdata h m hm)
                fun kdata hk => ?_
              refine (EqIn.lift _ rfl).bind' (fun mcal => kdata.mcal = some mcal) (fun st mcal _ h => ?_)
                fun mcal hmc => ?_
              · cases hq : kdata.mcal with
                | none => rw [hq] at h; cases h
                | some q => rw [hq] at h; cases h; rfl
              · cases mcal with
                | none => exact EqIn.pure _ _
                | some m' =>
                  simp only
                  refine (EqIn.lift _ rfl).bind' (fun mb => IsImage d.env mb) (fun st mb _ h => ?_) fun mb hmb => ?_
                  · obtain ⟨i, p, s, hh⟩ := hk m' hmc
                    cases hq : m'.get? e.1 with
                    | none => rw [hq] at h; cases h
                    | some q =>
                      rw [hq] at h
                      cases h
                      exact ⟨i, p, s, m', e.1, hh, PyDict.mem_of_get? hq⟩
                  · refine (EqIn.lift _ rfl).bind' (fun stamps => IsStamps d stamps)
                      (fun st stamps _ h => ⟨mb, hmb, .inr ⟨_, h⟩⟩) fun stamps hst => ?_
                    refine (EqIn.lift _ rfl).bind fun bd => ?_
                    exact measure_perm d ss ha ho sb sb' db db' hsb hdb hmem _ hst _ _ _

end

/-- a run with the bands of each combination in another order -/
theorem order_free (d : Drv K X Id Key S T W C R) (hu : ∀ i, Uniform (d.env.obs i)) (hfit : FitOk d.env)
    (hna : NoAlias d.env) (ss : List (Config.Setting K)) (ha : Config.Aligned d.lists ss)
    (ho : OrderFree d ss) (a' b' : List (List Nat)) (hsb : List.Forall₂ List.Perm d.shearCombs a')
    (hdb : List.Forall₂ List.Perm d.detCombs b') (s : S) :
    doMetadetect { d with shearCombs := a', detCombs := b' } s = doMetadetect d s := by
  rw [doMetadetect_fst, doMetadetect_fst]
  have key : ∀ m, goComb { d with shearCombs := a', detCombs := b' } m = goComb d m := fun _ => rfl
  have hz : List.Forall₂ (fun x y : List Nat × List Nat => x.1 ∈ d.shearCombs ∧ x.1.Perm y.1 ∧ x.2.Perm y.2)
      (d.shearCombs.zip d.detCombs) (a'.zip b') := by
    rw [List.forall₂_iff_get]
    obtain ⟨l1, h1⟩ := List.forall₂_iff_get.1 hsb
    obtain ⟨l2, h2⟩ := List.forall₂_iff_get.1 hdb
    refine ⟨by simp [l1, l2], fun i hi hi' => ?_⟩
    simp only [List.length_zip, lt_min_iff] at hi hi'
    simp only [List.get_eq_getElem, List.getElem_zip]
    exact ⟨List.getElem_mem _, h1 i hi.1 hi'.1, h2 i hi.2 hi'.2⟩
  have hE : EqIn (Good d.env) (go d) (go { d with shearCombs := a', detCombs := b' }) := by
    unfold go
    simp only [key]
    refine (EqIn.lift _ rfl).bind fun mfrac => (EqIn.lift _ rfl).bind fun bad => ?_
    split
    · exact EqIn.pure _ _
    · refine (data_perm d.env hu hfit hna none _ _ (List.Perm.refl _)).bind'
        (fun kdata => ∀ m, kdata.mcal = some (some m) → ∃ i p s, (d.env.metacal i p s).1 = .ok m)
        (fun st kdata hst h m hm => data_images d.env hu hfit hna _ _ st hst kdata h m hm) fun kdata hk => ?_
      refine (EqIn.lift _ rfl).bind' (fun mcal => kdata.mcal = some mcal) (fun st mcal _ h => ?_)
        fun mcal hmc => ?_
      · cases hq : kdata.mcal with
        | none => rw [hq] at h; cases h
        | some q => rw [hq] at h; cases h; rfl
      · cases mcal with
        | none => exact EqIn.pure _ _
        | some m =>
          refine (EqIn.forEach₂ (hz.imp fun x y hxy => ?_)).bind fun ress => EqIn.pure _ _
          exact goComb_perm d hu hfit hna ss ha ho x.1 y.1 x.2 y.2 hxy.2.1 hxy.2.2 hxy.1 m (hk m hmc)
  rw [(hE (St.init s) ⟨fun _ => s, Cache.inv_init d.env _ s⟩).1]

end MD.Driver

namespace MD.Pipeline
open Wavg (Row MomExt MomFitter Flt)
open Cache (FitOk NoAlias Uniform)
open Joint (Rest JObs JMb JointExt)
open Driver (Drv CatEntry OrderFree IsImage IsStamps doMetadetect)
open Detect (NpExt Detim)

variable {K : Type} [Field K] [LinearOrder K] [IsStrictOrderedRing K] [FloorRing K]
variable {J F S G Id Key : Type} [DecidableEq J] [DecidableEq Id] [DecidableEq Key] [DecidableEq F]

/-! ## Moments fits -/

theorem fitMbobsWavg_perm {X : Type} (fl : Flt F) (ext : MomExt F) (fit : MomFitter K X F) (bmaskFlags : Nat)
    (sb sb' : List Nat) (h : sb.Perm sb') (reg : F) (sy : Bool) (mb : MbObs K X) :
    Wavg.fitMbobsWavg fl ext fit bmaskFlags (some sb) reg sy mb =
    Wavg.fitMbobsWavg fl ext fit bmaskFlags (some sb') reg sy mb := by
  unfold Wavg.fitMbobsWavg
  simp only [Option.getD_some, h.mem_iff]
  unfold Wavg.combine
  simp only [Joint.freshRow_perm (F := F) _ _ _ sb sb' h]

theorem fitWavg_perm (p : Pipe K J F S G Id Key) (f : Config.Fitter K) (reg : F) (sy : Bool)
    (stamps : List (JMb K J)) (sb sb' : List Nat) (h : sb.Perm sb') :
    fitWavg p f reg sy stamps sb = fitWavg p f reg sy stamps sb' := by
  unfold fitWavg Wavg.fitMbobsListWavg
  have : ∀ m : MomFitter K (Rest K J) F, Wavg.fitMbobsWavg p.fl p.mom m p.bmaskFlags (some sb) reg sy =
      Wavg.fitMbobsWavg p.fl p.mom m p.bmaskFlags (some sb') reg sy := fun m =>
    funext fun mb => fitMbobsWavg_perm _ _ _ _ _ _ h _ _ _
  simp only [this]

/-! ## Detection -/

/-- the images all have a given shape -/
def Shape {X : Type} (l : List (Obs K X)) (nr nc : Nat) : Prop := ∀ o ∈ l, o.image.nr = nr ∧ o.image.nc = nc

/-- the mask of the detection image -/
def masked {X : Type} (nodet : Nat) (l : List (Obs K X)) (r c : Nat) : Bool :=
  l.any fun o => match o.bmask with
    | some b => decide (b.px r c &&& nodet ≠ 0)
    | none => false

theorem addBand_ok {X : Type} (nodet : Nat) (s : Img K × Img Bool) (o : Obs K X) (w : K)
    (he : o.image.nr = s.1.nr ∧ o.image.nc = s.1.nc) :
    Detect.addBand nodet s (o, w) = .ok (⟨s.1.nr, s.1.nc, fun r c => s.1.px r c + o.image.px r c * w⟩,
      ⟨s.2.nr, s.2.nc, fun r c => s.2.px r c || masked nodet [o] r c⟩) := by
  unfold Detect.addBand
  simp only
  rw [if_neg (by push Not; exact he)]
  cases hb : o.bmask with
  | none => simp [masked, hb, Img.zip]
  | some b => simp [masked, hb, Img.zip]

theorem addBands_ok {X : Type} (nodet : Nat) (l : List (Obs K X × K)) (s : Img K × Img Bool)
    (h : Shape (l.map (·.1)) s.1.nr s.1.nc) :
    l.foldlM (Detect.addBand nodet) s =
      .ok (⟨s.1.nr, s.1.nc, fun r c => s.1.px r c + (l.map fun e => e.1.image.px r c * e.2).sum⟩,
        ⟨s.2.nr, s.2.nc, fun r c => s.2.px r c || masked nodet (l.map (·.1)) r c⟩) := by
  induction l generalizing s with
  | nil => simp [masked]; rfl
  | cons e t ih =>
    obtain ⟨o, w⟩ := e
    rw [List.foldlM_cons, addBand_ok nodet s o w (h o (by simp))]
    simp only [bind, Except.bind]
    rw [ih]
    · simp only [List.map_cons, List.sum_cons, masked, List.any_cons, List.any_nil, Bool.or_false, add_assoc,
        Bool.or_assoc]
    · exact fun o ho => h o (by simp only [List.map_cons, List.mem_cons]; exact .inr ho)

theorem addBands_err {X : Type} (nodet : Nat) (l : List (Obs K X × K)) (s : Img K × Img Bool)
    (h : ¬ Shape (l.map (·.1)) s.1.nr s.1.nc) :
    l.foldlM (Detect.addBand nodet) s = .error .valueError := by
  induction l generalizing s with
  | nil => exact absurd (fun o ho => by simp at ho) h
  | cons e t ih =>
    obtain ⟨o, w⟩ := e
    rw [List.foldlM_cons]
    by_cases he : o.image.nr = s.1.nr ∧ o.image.nc = s.1.nc
    · rw [addBand_ok nodet s o w he]
      simp only [bind, Except.bind]
      refine ih _ fun ht => h fun o' ho' => ?_
      rcases List.mem_cons.1 ho' with rfl | ho'
      · exact he
      · exact ht o' ho'
    · have : Detect.addBand nodet s (o, w) = .error .valueError := by
        unfold Detect.addBand
        simp only
        rw [if_pos (by by_contra hc; push Not at hc; exact he hc)]
      rw [this]
      rfl

theorem zip_map_self {α β : Type _} (f : α → β) (l : List α) : l.zip (l.map f) = l.map fun a => (a, f a) := by
  induction l with
  | nil => rfl
  | cons a t ih => simp [ih]

theorem setDetim_ok {X : Type} (ext : NpExt K) (nodet : Nat) (o0 : Obs K X) (t : List (Obs K X))
    (h : Shape (o0 :: t) o0.image.nr o0.image.nc) :
    Detect.setDetim ext nodet (o0 :: t) =
      .ok ⟨⟨o0.image.nr, o0.image.nc, fun r c => ((o0 :: t).map fun o => o.image.px r c *
          (1 / Detect.imageVar ext o / ((o0 :: t).map fun o => 1 / Detect.imageVar ext o).sum)).sum⟩,
        ext.sq (1 / ((o0 :: t).map fun o => 1 / Detect.imageVar ext o).sum),
        ⟨o0.image.nr, o0.image.nc, masked nodet (o0 :: t)⟩⟩ := by
  unfold Detect.setDetim
  simp only
  rw [List.map_map, zip_map_self, addBands_ok]
  · simp only [List.map_map, Function.comp_def, Img.map, Img.const, mul_zero, zero_add, Bool.false_or, List.map_id']
  · simpa only [List.map_map, Function.comp_def, List.map_id', Img.map] using h

theorem setDetim_err {X : Type} (ext : NpExt K) (nodet : Nat) (o0 : Obs K X) (t : List (Obs K X))
    (h : ¬ Shape (o0 :: t) o0.image.nr o0.image.nc) :
    Detect.setDetim ext nodet (o0 :: t) = .error .valueError := by
  unfold Detect.setDetim
  simp only
  rw [List.map_map, zip_map_self, addBands_err]
  simpa only [List.map_map, Function.comp_def, List.map_id', Img.map] using h

theorem setDetim_perm {X : Type} (ext : NpExt K) (nodet : Nat) (l m : List (Obs K X)) (h : l.Perm m) :
    Detect.setDetim ext nodet l = Detect.setDetim ext nodet m := by
  cases l with
  | nil => rw [List.nil_perm.1 h]
  | cons a t =>
    cases m with
    | nil => exact absurd h.length_eq (by simp)
    | cons b u =>
      have hw : ((a :: t).map fun o => 1 / Detect.imageVar ext o).sum =
          ((b :: u).map fun o => 1 / Detect.imageVar ext o).sum := (h.map _).sum_eq
      by_cases hs : Shape (a :: t) a.image.nr a.image.nc
      · have hb := hs b (h.mem_iff.2 (by simp))
        have hs' : Shape (b :: u) b.image.nr b.image.nc := by
          intro o ho
          rw [hb.1, hb.2]
          exact hs o (h.mem_iff.2 ho)
        rw [setDetim_ok _ _ _ _ hs, setDetim_ok _ _ _ _ hs', hw, hb.1, hb.2]
        have e1 : masked nodet (a :: t) = masked nodet (b :: u) := by
          funext r c
          exact h.any_eq
        have e2 : ∀ f : Obs K X → K, ((a :: t).map f).sum = ((b :: u).map f).sum := fun f => (h.map _).sum_eq
        simp only [e1, e2]
      · rw [setDetim_err _ _ _ _ hs, setDetim_err]
        intro hs'
        refine hs fun o ho => ?_
        have ha := hs' a (h.mem_iff.1 (by simp))
        have := hs' o (h.mem_iff.1 ho)
        rw [ha.1, ha.2]
        exact this

/-- SPEC: one epoch per band -/
def OneEpoch (mb : JMb K J) : Prop := ∀ ol ∈ mb, ol.length = 1

theorem doDetect_perm (p : Pipe K J F S G Id Key) (mb : JMb K J) (h1 : OneEpoch mb) (db db' : List Nat)
    (h : db.Perm db') : doDetect p mb db = doDetect p mb db' := by
  unfold doDetect
  rw [Cache.select_eq, Cache.select_eq]
  by_cases hl : ∀ b ∈ db, b < mb.length
  · rw [if_pos hl, if_pos fun b hb => hl b (h.mem_iff.2 hb)]
    simp only [bind, Except.bind]
    have hmem : ∀ ol ∈ db.map (fun b => mb.getD b []), ol.length = 1 := by
      intro ol hol
      obtain ⟨b, hb, rfl⟩ := List.mem_map.1 hol
      have := hl b hb
      rw [List.getD, List.getElem?_eq_getElem this]
      exact h1 _ (List.getElem_mem this)
    have hP : (db.map fun b => mb.getD b []).Perm (db'.map fun b => mb.getD b []) := h.map _
    generalize db.map (fun b => mb.getD b []) = l at hmem hP
    generalize db'.map (fun b => mb.getD b []) = m at hP
    have hmem' : ∀ ol ∈ m, ol.length = 1 := fun ol hol => hmem ol (hP.mem_iff.2 hol)
    have first : ∀ g : List (JObs K J) → Except PyErr (JObs K J), (∀ o, g [o] = .ok o) →
        ∀ l : List (List (JObs K J)), (∀ ol ∈ l, ol.length = 1) → l.mapM g = .ok l.flatten := by
      intro g hg l hl
      induction l with
      | nil => rfl
      | cons ol t ih =>
        rw [List.mapM_cons, ih fun x hx => hl x (by simp [hx])]
        obtain ⟨o, rfl⟩ := List.length_eq_one_iff.1 (hl ol (by simp))
        rw [hg]
        rfl
    cases l with
    | nil => rw [List.nil_perm.1 hP]
    | cons a t =>
      cases m with
      | nil => exact absurd hP.length_eq (by simp)
      | cons b u =>
        simp only
        rw [if_neg (not_not.2 (hmem a (by simp))), if_neg (not_not.2 (hmem' b (by simp))),
          first _ (fun _ => rfl) _ hmem, first _ (fun _ => rfl) _ hmem']
        simp only
        rw [setDetim_perm p.env.np p.nodet _ _ hP.flatten]
  · rw [if_neg hl, if_neg fun hm => hl fun b hb => hm b (h.mem_iff.1 hb)]

/-! ## The result -/

theorem cutStamps_bands (p : Pipe K J F S G Id Key) (mb : JMb K J) (entries : List (CatEntry K × Nat))
    (seg : Img Nat) (stamps : List (JMb K J)) (h : cutStamps p mb entries seg = .ok stamps) :
    ∀ st ∈ stamps, st.length = mb.length := by
  unfold cutStamps at h
  split at h
  · cases h
  · cases h
  · cases h
  · split at h
    · cases h
    · rw [mapM_forall₂] at h
      intro st hst
      obtain ⟨k, hk, rfl⟩ := List.getElem_of_mem hst
      have := (List.forall₂_iff_get.1 h).2 k (by rw [h.length_eq]; exact hk) hk
      rw [mapM_forall₂] at this
      exact this.length_eq.symm

theorem stamps_bands (p : Pipe K J F S G Id Key) (toF : K → F) (stamps : List (JMb K J))
    (h : Driver.IsStamps (drv p toF) stamps) :
    ∃ mb, Driver.IsImage p.env mb ∧ ∀ st ∈ stamps, st.length = mb.length := by
  obtain ⟨mb, hmb, h⟩ := h
  refine ⟨mb, hmb, ?_⟩
  rcases h with ⟨db, cat, h⟩ | ⟨cat, h⟩
  · have h : doDetect p mb db = .ok (cat, stamps) := h
    unfold doDetect at h
    simp only [bind, Except.bind] at h
    repeat' split at h
    all_goals first | cases h | skip
    exact cutStamps_bands _ _ _ _ _ ‹_›
  · exact cutStamps_bands _ _ _ _ _ h

/-- C117: the whole result of a run does not depend on the order in which the bands of each combination of
shear bands and of detection bands are listed.  `a'` and `b'` are the combinations with their bands listed
in another order.  Assumed: every band of the metacal images has one observation; a joint fitter coadds the
bands first; and every shear band exists when there is a joint fitter. -/
theorem C117_order (p : Pipe K J F S G Id Key) (toF : K → F) (hu : ∀ i, Uniform (p.env.obs i)) (hfit : FitOk p.env)
    (hna : NoAlias p.env) (ss : List (Config.Setting K)) (ha : Config.Aligned p.lists ss)
    (hone : ∀ mb, Driver.IsImage p.env mb → OneEpoch mb)
    (hjoint : ∀ c ∈ ss, c.isWavg = false → (∀ n, c.fitter = .name n → Joint.Coadded p.joint n c.coadd) ∧
      ∀ mb, Driver.IsImage p.env mb → ∀ sb ∈ p.shearCombs, ∀ b ∈ sb, b < mb.length)
    (a' b' : List (List Nat)) (hsb : List.Forall₂ List.Perm p.shearCombs a')
    (hdb : List.Forall₂ List.Perm p.detCombs b') (s : S) :
    doMetadetect (drv { p with shearCombs := a', detCombs := b' } toF) s = doMetadetect (drv p toF) s := by
  refine Driver.order_free (drv p toF) hu hfit hna ss ha ⟨?_, ?_, ?_⟩ a' b' hsb hdb s
  · intro mb hmb db db' h
    exact doDetect_perm p mb (hone mb hmb) db db' h
  · intro f reg sy stamps sb sb' h
    exact fitWavg_perm p f _ sy stamps sb sb' h
  · intro c hc hw stamps hst sb hsb sb' h s
    obtain ⟨mb, hmb, hl⟩ := stamps_bands p toF stamps hst
    obtain ⟨h1, h2⟩ := hjoint c hc hw
    show fitJoint p c.fitter c.symm c.coadd stamps sb s = fitJoint p c.fitter c.symm c.coadd stamps sb' s
    unfold fitJoint
    split
    · rfl
    · rename_i n hn
      rw [Joint.fitList_perm p.joint n p.bmaskFlags sb sb' h c.symm c.coadd (h1 n hn) stamps
        (fun st hst b hb => by rw [hl st hst]; exact h2 mb hmb sb hsb b hb) s]

section Examples

/-- the hypotheses of C117 are met by a run with a moments fitter and adaptive moments on the coadd of two
bands, which finds two objects; it does the same with all bands listed in reverse -/
example : ∃ r, doMetadetect (drv { exPipe exSettings none with shearCombs := [[0, 1]] } id) 0 = .ok (some r) ∧
    doMetadetect (drv { exPipe exSettings none with shearCombs := [[1, 0]], detCombs := [[1, 0]] } id) 0 = .ok (some r) := by
  have e : exRows (doMetadetect (drv { exPipe exSettings none with shearCombs := [[0, 1]] } id) 0) "noshear" =
      some (some [(0, ["wmom_T", "shear_bands", "am_T"]), (1, ["wmom_T", "shear_bands", "am_T"])]) := by
    decide +kernel
  obtain ⟨r, hr⟩ := exRows_some e
  refine ⟨r, hr, ?_⟩
  rw [← hr]
  have him : ∀ mb, Driver.IsImage (exPipe exSettings none).env mb → mb = [[exObs], [exObs]] := by
    rintro mb ⟨i, q, s, m, t, h1, h2⟩
    simp only [exPipe, Except.ok.injEq] at h1
    subst h1
    simp only [List.mem_cons, List.not_mem_nil, or_false, Prod.mk.injEq] at h2
    exact h2.2
  refine C117_order { exPipe exSettings none with shearCombs := [[0, 1]] } id (exUniform exSettings none true)
    (exFitOk exSettings none true) (exNoAlias exSettings none true) exSettings (exAligned exSettings none true)
    ?_ ?_ [[1, 0]] [[1, 0]] (.cons (.swap _ _ _) .nil) (.cons (.swap _ _ _) .nil) 0
  · intro mb hmb
    rw [him mb hmb]
    intro ol hol
    simp only [List.mem_cons, List.not_mem_nil, or_false, or_self] at hol
    rw [hol]
    rfl
  · intro c hc hw
    refine ⟨?_, ?_⟩
    · intro n hn hg
      simp only [exSettings, List.mem_cons, List.not_mem_nil, or_false] at hc
      rcases hc with rfl | rfl
      · cases hw
      · cases hn
        exact absurd hg (by decide)
    · intro mb hmb sb hsb b hb
      rw [him mb hmb]
      have hsb : sb ∈ [[0, 1]] := hsb
      simp only [List.mem_cons, List.not_mem_nil, or_false] at hsb
      subst hsb
      simp only [List.mem_cons, List.not_mem_nil, or_false] at hb
      simp only [List.length_cons, List.length_nil]
      omega

end Examples

end MD.Pipeline
