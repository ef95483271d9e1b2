import Verif.Model.MaskMemory
import Verif.Props.Memory

/-!
# C104: masking observations that share arrays

The masking corrections change the arrays of the observations in place.  Observations may share bit masks,
weights and masked fractions: the result is the same as if they did not.  Images and noise images may be
shared when they are interpolated, but not when they are multiplied by a window.  No other array changes.
-/

set_option linter.unusedSectionVars false

namespace MD.MaskMemory

open Memory Masking

variable {K X S : Type _} [Field K] [LinearOrder K]

/-! ## Specification -/

/-- SPEC: the image and the noise image of an observation -/
def imgs (o : MObs X) : List Nat := o.image :: o.noise.toList

/-- SPEC: the arrays of the observations of all bands exist, and no array is used for two different purposes: an
image or noise image is not a weight map or masked fraction, a weight map is not a masked fraction, and a bmask is
not an ormask.  Two observations may share a weight map, bmask, ormask, masked fraction, image or noise image. -/
structure Usable (h : Heap K) (mbobs : List (List (MObs X))) : Prop where
  ex : ∀ o ∈ mbobs.flatten, Exists h o
  img : ∀ o ∈ mbobs.flatten, ∀ p ∈ mbobs.flatten, ∀ i ∈ imgs o, i ≠ p.weight ∧ p.mfrac ≠ some i
  wgt : ∀ o ∈ mbobs.flatten, ∀ p ∈ mbobs.flatten, p.mfrac ≠ some o.weight
  msk : ∀ o ∈ mbobs.flatten, ∀ p ∈ mbobs.flatten, ∀ i, o.bmask = some i → p.ormask ≠ some i

/-- SPEC: no image or noise image is shared -/
def OwnImages (mbobs : List (List (MObs X))) : Prop := (mbobs.flatten.flatMap imgs).Nodup

/-- SPEC: `i` is one of the float arrays that may be changed: a weight map or masked fraction of one of the
observations or, if `windowed`, one of the images or noise images -/
def Target (windowed : Bool) (l : List (MObs X)) (i : Nat) : Prop :=
  ∃ o ∈ l, i = o.weight ∨ o.mfrac = some i ∨ (windowed = true ∧ i ∈ imgs o)

/-- SPEC: only targets and the bmasks of the observations have changed -/
structure OnlyTargets (windowed : Bool) (l : List (MObs X)) (h h' : Heap K) : Prop where
  flt : h.flt.next ≤ h'.flt.next ∧ ∀ i, i < h.flt.next → ¬ Target windowed l i → h'.flt.arr i = h.flt.arr i
  int : h.int.next ≤ h'.int.next ∧
    ∀ i, i < h.int.next → (∀ o ∈ l, o.bmask ≠ some i) → h'.int.arr i = h.int.arr i
  bool : Kept h.bool h'.bool
  vec : Kept h.vec h'.vec

/-- SPEC: the observations by value -/
def derefs (h : Heap K) (m : List (List (MObs X))) : MbObs K X := m.map fun l => l.map (deref h)

/-- SPEC: the outcome of a call that changes arrays is that of the call by value: the same exception, or the
observations have the same values and the generator is in the same state -/
def SameOutcome (out : Except PyErr (List (List (MObs X)) × S) × Heap K) (v : Run K X S) : Prop :=
  match out.1, v.err with
  | .ok r, none => derefs out.2 r.1 = v.mbobs ∧ r.2 = v.rng
  | .error e, some e' => e = e'
  | _, _ => False

/-! ## Lemmas: a loop over observations that share arrays -/

/-- what a loop body does to the arrays that may be shared -/
structure Eff (K : Type _) where
  wf : Img K → Img K
  bf : Img Nat → Img Nat
  mf : Img K → Img K

/-- a body by value -/
structure Val (e : Eff K) (fv : Obs K X → S → Except PyErr (Obs K X × S)) : Prop where
  inv : ∀ o r w b m, (w = o.weight ∨ w = e.wf o.weight) → (b = o.bmask ∨ b = o.bmask.map e.bf) →
    (m = o.mfrac ∨ m = o.mfrac.map e.mf) → fv { o with weight := w, bmask := b, mfrac := m } r = fv o r
  res : ∀ o r v r', fv o r = .ok (v, r') → v.weight = e.wf o.weight ∧ v.bmask = o.bmask.map e.bf ∧
    v.mfrac = o.mfrac.map e.mf ∧ v.ormask = o.ormask

/-- an observation after the body -/
structure Upd (s s' : Heap K) (o o' : MObs X) : Prop where
  weight : o'.weight = o.weight
  bmask : o'.bmask = o.bmask
  ormask : o'.ormask = o.ormask
  mfrac : o'.mfrac = o.mfrac
  image : o'.image = o.image ∨ New s.flt s'.flt o'.image
  noise : o'.noise = o.noise ∨ ∃ i, o'.noise = some i ∧ New s.flt s'.flt i

/-- one observation whose image and noise image may be the same -/
def AloneShared (o : MObs X) : Prop :=
  (∀ i ∈ imgs o, i ≠ o.weight ∧ o.mfrac ≠ some i) ∧ o.mfrac ≠ some o.weight ∧
    ∀ i, o.bmask = some i → o.ormask ≠ some i

/-- a body that changes arrays -/
def Body (win : Bool) (P : Heap K → Prop) (body : MObs X → S → PyM (Heap K) (MObs X × S))
    (fv : Obs K X → S → Except PyErr (Obs K X × S)) : Prop :=
  ∀ s o r, P s → Exists s o → AloneShared o → (win = true → (imgs o).Nodup) →
    Agree (fun x v s' => deref s' x.1 = v.1 ∧ x.2 = v.2 ∧ Upd s s' o x.1 ∧ OnlyTargets win [o] s s' ∧ P s')
      (OnlyTargets win [o] s) (body o r s) (fv (deref s o) r)

theorem OnlyTargets.refl (win : Bool) (l : List (MObs X)) (h : Heap K) : OnlyTargets win l h h :=
  ⟨⟨le_refl _, fun _ _ _ => rfl⟩, ⟨le_refl _, fun _ _ _ => rfl⟩, .refl _, .refl _⟩

theorem Target.mono {win : Bool} {l l' : List (MObs X)} {i : Nat} (h : Target win l i) (hl : ∀ o ∈ l, o ∈ l') :
    Target win l' i := by
  obtain ⟨o, ho, h⟩ := h
  exact ⟨o, hl o ho, h⟩

theorem OnlyTargets.trans {win : Bool} {l l' L : List (MObs X)} {a b c : Heap K} (h : OnlyTargets win l a b)
    (h' : OnlyTargets win l' b c) (hl : ∀ o ∈ l, o ∈ L) (hl' : ∀ o ∈ l', o ∈ L) : OnlyTargets win L a c := by
  refine ⟨⟨h.flt.1.trans h'.flt.1, fun i hi hn => ?_⟩, ⟨h.int.1.trans h'.int.1, fun i hi hn => ?_⟩,
    h.bool.trans h'.bool, h.vec.trans h'.vec⟩
  · rw [h'.flt.2 i (lt_of_lt_of_le hi h.flt.1) fun t => hn (t.mono hl'), h.flt.2 i hi fun t => hn (t.mono hl)]
  · rw [h'.int.2 i (lt_of_lt_of_le hi h.int.1) fun o ho => hn o (hl' o ho), h.int.2 i hi fun o ho => hn o (hl o ho)]

/-- an observation that has been processed: `p` before, `q` after, `v` its value -/
structure Done (e : Eff K) (h s : Heap K) (p q : MObs X) (v : Obs K X) : Prop where
  weight : q.weight = p.weight ∧ v.weight = e.wf (h.flt.arr p.weight)
  bmask : q.bmask = p.bmask ∧ v.bmask = p.bmask.map fun i => e.bf (h.int.arr i)
  mfrac : q.mfrac = p.mfrac ∧ v.mfrac = p.mfrac.map fun i => e.mf (h.flt.arr i)
  ormask : q.ormask = p.ormask ∧ v.ormask = p.ormask.map h.int.arr
  image : (q.image = p.image ∨ New h.flt s.flt q.image) ∧ s.flt.arr q.image = v.image
  noise : (q.noise = p.noise ∨ ∃ i, q.noise = some i ∧ New h.flt s.flt i) ∧ q.noise.map s.flt.arr = v.noise
  izw : q.izw = v.izw
  rest : q.rest = v.rest

/-- the state after some observations have been processed -/
structure Inv (win : Bool) (P : Heap K → Prop) (e : Eff K) (h : Heap K) (done : List (MObs X))
    (outs : List (MObs X × MObs X × Obs K X)) (s : Heap K) : Prop where
  frame : OnlyTargets win done h s
  wgt : ∀ o ∈ done, s.flt.arr o.weight = e.wf (h.flt.arr o.weight)
  mfr : ∀ o ∈ done, ∀ i, o.mfrac = some i → s.flt.arr i = e.mf (h.flt.arr i)
  bmk : ∀ o ∈ done, ∀ i, o.bmask = some i → s.int.arr i = e.bf (h.int.arr i)
  outs : ∀ t ∈ outs, t.1 ∈ done ∧ Done e h s t.1 t.2.1 t.2.2
  P : P s

section loop
variable {win : Bool} {P : Heap K → Prop} {e : Eff K} {h : Heap K}
variable {body : MObs X → S → PyM (Heap K) (MObs X × S)} {fv : Obs K X → S → Except PyErr (Obs K X × S)}
variable {all : List (MObs X)}

/-- what is known of all observations -/
structure Sep (h : Heap K) (all : List (MObs X)) : Prop where
  ex : ∀ o ∈ all, Exists h o
  img : ∀ o ∈ all, ∀ p ∈ all, ∀ i ∈ imgs o, i ≠ p.weight ∧ p.mfrac ≠ some i
  wgt : ∀ o ∈ all, ∀ p ∈ all, p.mfrac ≠ some o.weight
  msk : ∀ o ∈ all, ∀ p ∈ all, ∀ i, o.bmask = some i → p.ormask ≠ some i

theorem exists_imgs {h : Heap K} {o : MObs X} (ho : Exists h o) : ∀ i ∈ imgs o, i < h.flt.next := by
  intro i hi
  rcases List.mem_cons.1 hi with rfl | hi
  · exact ho.1
  · exact ho.2.2.1 i (by simpa using hi)

/-- the value of an observation that is not yet processed -/
theorem now (hs : Sep h all) {done : List (MObs X)} {outs} {s : Heap K} (I : Inv win P e h done outs s)
    (hd : ∀ o ∈ done, o ∈ all) {o : MObs X} (ho : o ∈ all)
    (hn : win = true → ∀ p ∈ done, ∀ i ∈ imgs o, i ∉ imgs p) :
    ∃ w b m, (w = (deref h o).weight ∨ w = e.wf (deref h o).weight) ∧
      (b = (deref h o).bmask ∨ b = (deref h o).bmask.map e.bf) ∧
      (m = (deref h o).mfrac ∨ m = (deref h o).mfrac.map e.mf) ∧
      deref s o = { deref h o with weight := w, bmask := b, mfrac := m } := by
  have hex := hs.ex o ho
  have himg : ∀ i ∈ imgs o, s.flt.arr i = h.flt.arr i := by
    intro i hi
    refine I.frame.flt.2 i (exists_imgs hex i hi) ?_
    rintro ⟨p, hp, h1 | h1 | ⟨h1, h2⟩⟩
    · exact (hs.img o ho p (hd p hp) i hi).1 h1
    · exact (hs.img o ho p (hd p hp) i hi).2 h1
    · exact hn h1 p hp i hi h2
  have hor : o.ormask.map s.int.arr = o.ormask.map h.int.arr := by
    cases hom : o.ormask with
    | none => rfl
    | some i =>
      refine congrArg some (I.frame.int.2 i (hex.2.2.2.2.1 i hom) ?_)
      exact fun p hp hb => hs.msk p (hd p hp) o ho i hb hom
  have hno : o.noise.map s.flt.arr = o.noise.map h.flt.arr := by
    cases hno : o.noise with
    | none => rfl
    | some i => exact congrArg some (himg i (by simp [imgs, hno]))
  refine ⟨s.flt.arr o.weight, o.bmask.map s.int.arr, o.mfrac.map s.flt.arr, ?_, ?_, ?_, ?_⟩
  · by_cases hw : ∃ p ∈ done, p.weight = o.weight
    · obtain ⟨p, hp, hw⟩ := hw
      exact .inr (by rw [← hw, I.wgt p hp, hw]; rfl)
    · refine .inl (I.frame.flt.2 _ hex.2.1 ?_)
      rintro ⟨p, hp, h1 | h1 | ⟨h1, h2⟩⟩
      · exact hw ⟨p, hp, h1.symm⟩
      · exact hs.wgt o ho p (hd p hp) h1
      · exact (hs.img p (hd p hp) o ho _ h2).1 rfl
  · cases hb : o.bmask with
    | none => left; simp [deref, hb]
    | some i =>
      by_cases hw : ∃ p ∈ done, p.bmask = some i
      · obtain ⟨p, hp, hw⟩ := hw
        right
        simp [deref, hb, I.bmk p hp i hw]
      · left
        have := I.frame.int.2 i (hex.2.2.2.1 i hb) fun p hp h1 => hw ⟨p, hp, h1⟩
        simp [deref, hb, this]
  · cases hm : o.mfrac with
    | none => left; simp [deref, hm]
    | some i =>
      by_cases hw : ∃ p ∈ done, p.mfrac = some i
      · obtain ⟨p, hp, hw⟩ := hw
        right
        simp [deref, hm, I.mfr p hp i hw]
      · left
        have := I.frame.flt.2 i (hex.2.2.2.2.2 i hm) (by
          rintro ⟨p, hp, h1 | h1 | ⟨h1, h2⟩⟩
          · exact hs.wgt p (hd p hp) o ho (h1 ▸ hm)
          · exact hw ⟨p, hp, h1⟩
          · exact (hs.img p (hd p hp) o ho i h2).2 hm)
        simp [deref, hm, this]
  · simp only [deref, himg o.image (by simp [imgs]), hor, hno]

theorem exists_mono {h s : Heap K} (h1 : h.flt.next ≤ s.flt.next) (h2 : h.int.next ≤ s.int.next) {o : MObs X}
    (ho : Exists h o) : Exists s o :=
  ⟨lt_of_lt_of_le ho.1 h1, lt_of_lt_of_le ho.2.1 h1, fun i hi => lt_of_lt_of_le (ho.2.2.1 i hi) h1,
    fun i hi => lt_of_lt_of_le (ho.2.2.2.1 i hi) h2, fun i hi => lt_of_lt_of_le (ho.2.2.2.2.1 i hi) h2,
    fun i hi => lt_of_lt_of_le (ho.2.2.2.2.2 i hi) h1⟩

/-- one observation -/
theorem step (hs : Sep h all) (hbody : Body win P body fv) (hval : Val e fv) {done : List (MObs X)} {outs}
    {s : Heap K} (I : Inv win P e h done outs s) (hd : ∀ o ∈ done, o ∈ all) {o : MObs X} (ho : o ∈ all)
    (hnod : win = true → (imgs o).Nodup)
    (hn : win = true → ∀ p ∈ done, ∀ i ∈ imgs o, i ∉ imgs p) (r : S) :
    Agree (fun x v s' => x.2 = v.2 ∧ Inv win P e h (done ++ [o]) (outs ++ [(o, x.1, v.1)]) s')
      (OnlyTargets win all h) (body o r s) (fv (deref h o) r) := by
  obtain ⟨w, b, m, hw, hb, hm, hdef⟩ := now hs I hd ho hn
  have hex := hs.ex o ho
  have key := hbody s o r I.P (exists_mono I.frame.flt.1 I.frame.int.1 hex)
    ⟨hs.img o ho o ho, hs.wgt o ho o ho, hs.msk o ho o ho⟩ hnod
  have hfv : fv (deref s o) r = fv (deref h o) r := by
    rw [hdef]
    exact hval.inv _ r w b m hw hb hm
  rw [hfv] at key
  rcases hx : body o r s with ⟨er | x, s'⟩
  · rw [hx] at key
    cases hv : fv (deref h o) r with
    | error er' =>
      rw [hv] at key
      exact ⟨key.1, I.frame.trans key.2 hd (by simpa using ho)⟩
    | ok v => rw [hv] at key; exact key.elim
  · rw [hx] at key
    cases hv : fv (deref h o) r with
    | error er' => rw [hv] at key; exact key.elim
    | ok v =>
      rw [hv] at key
      obtain ⟨k1, k2, k3, k4, k5⟩ := key
      simp only at k1 k2 k3 k4 k5
      obtain ⟨v1, v2, v3, v4⟩ := hval.res _ _ _ _ (by rw [hv])
      have hframe := I.frame.trans k4 (L := done ++ [o]) (fun o ho => by simp [ho]) (fun o ho => by simpa using .inr (by simpa using ho))
      have cw : s'.flt.arr o.weight = e.wf (h.flt.arr o.weight) := by
        have := congrArg Obs.weight k1
        rw [v1] at this
        simpa [deref, k3.weight] using this
      have cm : ∀ i, o.mfrac = some i → s'.flt.arr i = e.mf (h.flt.arr i) := by
        intro i hi
        have := congrArg Obs.mfrac k1
        rw [v3] at this
        simpa [deref, k3.mfrac, hi] using this
      have cb : ∀ i, o.bmask = some i → s'.int.arr i = e.bf (h.int.arr i) := by
        intro i hi
        have := congrArg Obs.bmask k1
        rw [v2] at this
        simpa [deref, k3.bmask, hi] using this
      refine ⟨k2, ⟨hframe, ?_, ?_, ?_, ?_, k5⟩⟩
      · intro p hp
        rcases List.mem_append.1 hp with hpd | hpd
        · by_cases hpw : p.weight = o.weight
          · rw [hpw]; exact cw
          · rw [k4.flt.2 _ (lt_of_lt_of_le (hs.ex p (hd p hpd)).2.1 I.frame.flt.1) ?_, I.wgt p hpd]
            rintro ⟨q, hq, h1⟩
            obtain rfl : q = o := by simpa using hq
            rcases h1 with h1 | h1 | ⟨-, h1⟩
            · exact hpw h1
            · exact hs.wgt p (hd p hpd) q ho h1
            · exact (hs.img q ho p (hd p hpd) _ h1).1 rfl
        · obtain rfl : p = o := by simpa using hpd
          exact cw
      · intro p hp i hi
        rcases List.mem_append.1 hp with hpd | hpd
        · by_cases hpw : o.mfrac = some i
          · exact cm i hpw
          · rw [k4.flt.2 _ (lt_of_lt_of_le ((hs.ex p (hd p hpd)).2.2.2.2.2 i hi) I.frame.flt.1) ?_, I.mfr p hpd i hi]
            rintro ⟨q, hq, h1⟩
            obtain rfl : q = o := by simpa using hq
            rcases h1 with h1 | h1 | ⟨-, h1⟩
            · exact hs.wgt q ho p (hd p hpd) (h1 ▸ hi)
            · exact hpw h1
            · exact (hs.img q ho p (hd p hpd) _ h1).2 hi
        · obtain rfl : p = o := by simpa using hpd
          exact cm i hi
      · intro p hp i hi
        rcases List.mem_append.1 hp with hpd | hpd
        · by_cases hpw : o.bmask = some i
          · exact cb i hpw
          · rw [k4.int.2 _ (lt_of_lt_of_le ((hs.ex p (hd p hpd)).2.2.2.1 i hi) I.frame.int.1) ?_, I.bmk p hpd i hi]
            intro q hq
            obtain rfl : q = o := by simpa using hq
            exact hpw
        · obtain rfl : p = o := by simpa using hpd
          exact cb i hi
      · intro t ht
        rcases List.mem_append.1 ht with ht | ht
        · obtain ⟨t1, t2⟩ := I.outs t ht
          have hta := hd t.1 t1
          refine ⟨List.mem_append_left _ t1, t2.weight, t2.bmask, t2.mfrac, t2.ormask, ?_, ?_, t2.izw, t2.rest⟩
          · have hlt : t.2.1.image < s.flt.next := by
              rcases t2.image.1 with h1 | h1
              · rw [h1]; exact lt_of_lt_of_le (hs.ex _ hta).1 I.frame.flt.1
              · exact h1.2
            refine ⟨t2.image.1.imp_right fun h1 => ⟨h1.1, lt_of_lt_of_le h1.2 k4.flt.1⟩, ?_⟩
            rw [k4.flt.2 _ hlt ?_, t2.image.2]
            rintro ⟨q, hq, h1⟩
            obtain rfl : q = o := by simpa using hq
            rcases t2.image.1 with h2 | h2
            · have him : t.2.1.image ∈ imgs t.1 := by rw [h2]; simp [imgs]
              rcases h1 with h1 | h1 | ⟨hw, h1⟩
              · exact (hs.img _ hta q ho _ him).1 h1
              · exact (hs.img _ hta q ho _ him).2 h1
              · exact hn hw _ t1 _ h1 him
            · have hge := h2.1
              rcases h1 with h1 | h1 | ⟨-, h1⟩
              · have := hex.2.1; omega
              · have := hex.2.2.2.2.2 _ h1; omega
              · have := exists_imgs hex _ h1; omega
          · refine ⟨t2.noise.1.imp_right fun ⟨i, h1, h2⟩ => ⟨i, h1, h2.1, lt_of_lt_of_le h2.2 k4.flt.1⟩, ?_⟩
            rw [← t2.noise.2]
            cases hno : t.2.1.noise with
            | none => rfl
            | some j =>
              refine congrArg some ?_
              have hcase : t.1.noise = some j ∨ New h.flt s.flt j := by
                rcases t2.noise.1 with h1 | ⟨i, h1, h2⟩
                · exact .inl (h1 ▸ hno)
                · rw [hno] at h1; cases h1; exact .inr h2
              refine k4.flt.2 j ?_ ?_
              · rcases hcase with h1 | h1
                · exact lt_of_lt_of_le ((hs.ex _ hta).2.2.1 j h1) I.frame.flt.1
                · exact h1.2
              rintro ⟨q, hq, h1⟩
              obtain rfl : q = o := by simpa using hq
              rcases hcase with h2 | h2
              · have him : j ∈ imgs t.1 := by simp [imgs, h2]
                rcases h1 with h1 | h1 | ⟨hw, h1⟩
                · exact (hs.img _ hta q ho _ him).1 h1
                · exact (hs.img _ hta q ho _ him).2 h1
                · exact hn hw _ t1 _ h1 him
              · have hge := h2.1
                rcases h1 with h1 | h1 | ⟨-, h1⟩
                · have := hex.2.1; omega
                · have := hex.2.2.2.2.2 _ h1; omega
                · have := exists_imgs hex _ h1; omega
        · obtain rfl : t = (o, x.1, v.1) := by simpa using ht
          refine ⟨by simp, ⟨k3.weight, v1⟩, ⟨k3.bmask, ?_⟩, ⟨k3.mfrac, ?_⟩, ⟨k3.ormask, v4⟩, ⟨?_, ?_⟩, ⟨?_, ?_⟩, ?_, ?_⟩
          · rw [v2]; simp [deref, Function.comp_def]
          · rw [v3]; simp [deref, Function.comp_def]
          · exact k3.image.imp_right fun h1 => ⟨I.frame.flt.1.trans h1.1, h1.2⟩
          · exact congrArg Obs.image k1
          · exact k3.noise.imp_right fun ⟨i, h1, h2⟩ => ⟨i, h1, I.frame.flt.1.trans h2.1, h2.2⟩
          · exact congrArg Obs.noise k1
          · exact congrArg Obs.izw k1
          · exact congrArg Obs.rest k1

theorem Inv.value {done : List (MObs X)} {outs} {s : Heap K} (I : Inv win P e h done outs s)
    (hs : Sep h all) (hd : ∀ o ∈ done, o ∈ all) :
    ∀ t ∈ outs, deref s t.2.1 = t.2.2 := by
  intro t ht
  obtain ⟨t1, t2⟩ := I.outs t ht
  have hw : s.flt.arr t.2.1.weight = t.2.2.weight := by rw [t2.weight.1, t2.weight.2]; exact I.wgt _ t1
  have hb : t.2.1.bmask.map s.int.arr = t.2.2.bmask := by
    rw [t2.bmask.1, t2.bmask.2]
    cases hb : t.1.bmask with
    | none => rfl
    | some i => exact congrArg some (I.bmk _ t1 i hb)
  have hm : t.2.1.mfrac.map s.flt.arr = t.2.2.mfrac := by
    rw [t2.mfrac.1, t2.mfrac.2]
    cases hb : t.1.mfrac with
    | none => rfl
    | some i => exact congrArg some (I.mfr _ t1 i hb)
  have ho : t.2.1.ormask.map s.int.arr = t.2.2.ormask := by
    rw [t2.ormask.1, t2.ormask.2]
    cases hb : t.1.ormask with
    | none => rfl
    | some i =>
      refine congrArg some (I.frame.int.2 i ((hs.ex _ (hd _ t1)).2.2.2.2.1 i hb) ?_)
      exact fun p hp h1 => hs.msk p (hd p hp) _ (hd _ t1) i h1 hb
  simp only [deref, hw, hb, hm, ho, t2.image.2, t2.noise.2, t2.izw, t2.rest]

/-- outcome of a loop in memory and of the loop by value -/
def Res {β : Type _} (I : β → Heap K → Prop) (J : Heap K → Prop) (x : Except PyErr β × Heap K) (err : Option PyErr) :
    Prop :=
  match x.1, err with
  | .ok b, none => I b x.2
  | .error e, some e' => e = e' ∧ J x.2
  | _, _ => False

theorem runList_res (hs : Sep h all) (hbody : Body win P body fv) (hval : Val e fv) (l : List (MObs X)) :
    ∀ done outs s r, Inv win P e h done outs s → (∀ o ∈ done ++ l, o ∈ all) →
      (win = true → ((done ++ l).flatMap imgs).Nodup) →
      Res (fun x s' => x.2 = (Masking.runList fv (l.map (deref h)) r).2.1 ∧
          ∃ news, Inv win P e h (done ++ l) (outs ++ news) s' ∧
            (∀ s'', (∀ t ∈ news, deref s'' t.2.1 = t.2.2) →
              x.1.map (deref s'') = (Masking.runList fv (l.map (deref h)) r).1) ∧
            ∀ q ∈ x.1, ∃ t ∈ news, t.2.1 = q)
        (OnlyTargets win all h) (runList body l r s) (Masking.runList fv (l.map (deref h)) r).2.2 := by
  induction l with
  | nil =>
    intro done outs s r I hall hn
    refine ⟨rfl, [], ?_, fun _ _ => rfl, fun q hq => (nomatch hq)⟩
    simpa [runList, PyM.pure] using I
  | cons o t ih =>
    intro done outs s r I hall hn
    have hn1 : win = true → (imgs o).Nodup ∧ ∀ p ∈ done, ∀ i ∈ imgs o, i ∉ imgs p := by
      intro hw
      have := hn hw
      rw [List.flatMap_append, List.flatMap_cons, List.nodup_append] at this
      refine ⟨(List.nodup_append.1 this.2.1).1, fun p hp i hi hi' => ?_⟩
      exact this.2.2 i (List.mem_flatMap.2 ⟨p, hp, hi'⟩) i (List.mem_append_left _ hi) rfl
    have hst := step hs hbody hval I (fun o ho => hall o (by simp [ho])) (hall o (by simp)) (fun hw => (hn1 hw).1)
      (fun hw => (hn1 hw).2) r
    rcases hx : body o r s with ⟨er | x, s1⟩
    · rw [hx] at hst
      cases hv : fv (deref h o) r with
      | ok v => rw [hv] at hst; exact hst.elim
      | error er' =>
        rw [hv] at hst
        simp only [runList, PyM.bind, hx, List.map_cons, Masking.runList, hv, Res]
        exact hst
    · rw [hx] at hst
      cases hv : fv (deref h o) r with
      | error er' => rw [hv] at hst; exact hst.elim
      | ok v =>
        rw [hv] at hst
        obtain ⟨e2, I1⟩ := hst
        have := ih (done ++ [o]) (outs ++ [(o, x.1, v.1)]) s1 x.2 I1 (by simpa using hall) (by simpa using hn)
        obtain ⟨v1, v2⟩ := v
        simp only at e2
        rw [e2] at this
        simp only [runList, PyM.bind, hx, List.map_cons, Masking.runList, hv, e2]
        rcases hy : runList body t v2 s1 with ⟨er | y, s2⟩
        · rw [hy] at this
          simp only [Res] at this ⊢
          revert this
          generalize Masking.runList fv (t.map (deref h)) v2 = z
          obtain ⟨z1, z2, z3⟩ := z
          cases z3 <;> exact id
        · rw [hy] at this
          simp only [Res, PyM.pure] at this ⊢
          revert this
          generalize Masking.runList fv (t.map (deref h)) v2 = z
          obtain ⟨z1, z2, z3⟩ := z
          cases z3 with
          | some _ => exact id
          | none =>
            rintro ⟨a1, news, a2, a3, a4⟩
            refine ⟨a1, (o, x.1, v1) :: news, by simpa using a2, fun s'' hs'' => ?_, fun q hq => ?_⟩
            · rw [List.map_cons, a3 s'' fun t ht => hs'' t (by simp [ht])]
              exact congrArg (· :: z1) (hs'' (o, x.1, v1) (by simp))
            · rcases List.mem_cons.1 hq with rfl | hq
              · exact ⟨_, List.mem_cons_self, rfl⟩
              · obtain ⟨t, ht, h1⟩ := a4 q hq
                exact ⟨t, List.mem_cons_of_mem _ ht, h1⟩

theorem runBands_res (hs : Sep h all) (hbody : Body win P body fv) (hval : Val e fv) (m : List (List (MObs X))) :
    ∀ done outs s r, Inv win P e h done outs s → (∀ o ∈ done ++ m.flatten, o ∈ all) →
      (win = true → ((done ++ m.flatten).flatMap imgs).Nodup) →
      Res (fun x s' => x.2 = (Masking.runBands fv (derefs h m) r).rng ∧
          ∃ news, Inv win P e h (done ++ m.flatten) (outs ++ news) s' ∧
            (∀ s'', (∀ t ∈ news, deref s'' t.2.1 = t.2.2) →
              derefs s'' x.1 = (Masking.runBands fv (derefs h m) r).mbobs) ∧
            ∀ q ∈ x.1.flatten, ∃ t ∈ news, t.2.1 = q)
        (OnlyTargets win all h) (runBands body m r s) (Masking.runBands fv (derefs h m) r).err := by
  induction m with
  | nil =>
    intro done outs s r I hall hn
    refine ⟨rfl, [], ?_, fun _ _ => rfl, fun q hq => (nomatch hq)⟩
    simpa [runBands, PyM.pure] using I
  | cons l t ih =>
    intro done outs s r I hall hn
    have hst := runList_res hs hbody hval l done outs s r I (fun o ho => hall o (by
        rw [List.flatten_cons]
        rcases List.mem_append.1 ho with ho | ho <;> simp [ho]))
      (fun hw => by
        have := hn hw
        rw [List.flatten_cons, ← List.append_assoc, List.flatMap_append, List.nodup_append] at this
        exact this.1)
    have ed : derefs h (l :: t) = l.map (deref h) :: derefs h t := rfl
    rw [ed]
    simp only [runBands, PyM.bind, Masking.runBands]
    revert hst
    generalize Masking.runList fv (l.map (deref h)) r = z
    obtain ⟨z1, z2, z3⟩ := z
    rcases hx : runList body l r s with ⟨er | x, s1⟩
    · cases z3 with
      | none => exact False.elim
      | some er => exact id
    · cases z3 with
      | some er => exact False.elim
      | none =>
        rintro ⟨a1, news, a2, a3, a4⟩
        simp only at a1 a2 a3 a4
        subst a1
        have := ih (done ++ l) (outs ++ news) s1 x.2 a2 (by simpa using hall) (by simpa using hn)
        rcases hy : runBands body t x.2 s1 with ⟨er | y, s2⟩
        · rw [hy] at this
          simp only [Res, hy] at this ⊢
          revert this
          generalize Masking.runBands fv (derefs h t) x.2 = z
          obtain ⟨z1, z2, z3⟩ := z
          cases z3 <;> exact id
        · rw [hy] at this
          simp only [Res, hy, PyM.pure] at this ⊢
          revert this
          generalize Masking.runBands fv (derefs h t) x.2 = z
          obtain ⟨z1, z2, z3⟩ := z
          cases z3 with
          | some _ => exact id
          | none =>
            rintro ⟨b1, news', b2, b3, b4⟩
            refine ⟨b1, news ++ news', by simpa using b2, fun s'' hs'' => ?_, fun q hq => ?_⟩
            · have e1 := a3 s'' fun t ht => hs'' t (by simp [ht])
              have e2 := b3 s'' fun t ht => hs'' t (by simp [ht])
              simp only [derefs, List.map_cons] at e2 ⊢
              rw [e1, e2]
            · rw [List.flatten_cons] at hq
              rcases List.mem_append.1 hq with hq | hq
              · obtain ⟨t, ht, h1⟩ := a4 q hq
                exact ⟨t, List.mem_append_left _ ht, h1⟩
              · obtain ⟨t, ht, h1⟩ := b4 q hq
                exact ⟨t, List.mem_append_right _ ht, h1⟩

end loop

/-! ## Lemmas: the loop bodies -/

theorem setWhere_idem {α : Type _} (p : Nat → Nat → Bool) (v : α) (a : Img α) :
    setWhere p v (setWhere p v a) = setWhere p v a := by
  simp only [setWhere, Img.mk.injEq, true_and]
  funext r c
  split <;> rfl

theorem orWhere_idem (p : Nat → Nat → Bool) (bit : Nat) (a : Img Nat) :
    updWhere p (fun _ _ v => v ||| bit) (updWhere p (fun _ _ v => v ||| bit) a) =
      updWhere p (fun _ _ v => v ||| bit) a := by
  simp only [updWhere, Img.mk.injEq, true_and]
  funext r c
  split
  · rw [Nat.or_assoc, Nat.or_self]
  · rfl

/-- where the window is below one -/
def hitA (apMask : Img K) : Nat → Nat → Bool := fun r c => decide (apMask.In r c) && decide (apMask.px r c < 1)

/-- what apodization does to the shared arrays -/
def effA (hit : Nat → Nat → Bool) (bit : Nat) : Eff K :=
  ⟨setWhere hit 0, updWhere hit fun _ _ v => v ||| bit, setWhere hit 1⟩

theorem apodize_val (apMask : Img K) (bit : Nat) :
    Val (effA (hitA apMask) bit) (fun (o : Obs K X) (r : S) => (Masking.apodizeObs apMask bit o).map (·, r)) := by
  constructor
  · intro o r w b m hw hb hm
    have h1 : setWhere (hitA apMask) 0 w = setWhere (hitA apMask) 0 o.weight := by
      rcases hw with rfl | rfl
      · rfl
      · exact setWhere_idem _ _ _
    have h2 : b.map (updWhere (hitA apMask) fun _ _ v => v ||| bit) =
        o.bmask.map (updWhere (hitA apMask) fun _ _ v => v ||| bit) := by
      rcases hb with rfl | rfl
      · rfl
      · cases o.bmask with
        | none => rfl
        | some b => exact congrArg some (orWhere_idem _ _ _)
    have h3 : m.map (setWhere (hitA apMask) 1) = o.mfrac.map (setWhere (hitA apMask) 1) := by
      rcases hm with rfl | rfl
      · rfl
      · cases o.mfrac with
        | none => rfl
        | some b => exact congrArg some (setWhere_idem _ _ _)
    unfold hitA at h1 h2 h3
    unfold Masking.apodizeObs
    simp only [h1, h3]
    cases hb1 : b with
    | none =>
      cases hb2 : o.bmask with
      | none => rfl
      | some _ => rw [hb1, hb2] at h2; cases h2
    | some x =>
      cases hb2 : o.bmask with
      | none => rw [hb1, hb2] at h2; cases h2
      | some y =>
        rw [hb1, hb2] at h2
        have h2 := Option.some.inj h2
        cases o.noise <;> simp only [need, h2]
  · intro o r v r' hv
    unfold Masking.apodizeObs at hv
    simp only at hv
    split at hv
    · cases hv
    · cases hn : o.noise with
      | none => simp [hn, need, Except.map] at hv
      | some n =>
        cases hb : o.bmask with
        | none => simp [hn, hb, need, Except.map] at hv
        | some b =>
          simp only [hn, hb, need, Except.map, Except.ok.injEq, Prod.mk.injEq] at hv
          obtain ⟨rfl, -⟩ := hv
          exact ⟨rfl, rfl, rfl, rfl⟩

/-- the part that the two bodies with a window have in common -/
def winBody (F : Img K → Img K) (hit : Nat → Nat → Bool) (bit : Nat) (iz : Img K → Bool) (o : MObs X) (r : S) :
    PyM (Heap K) (MObs X × S) :=
  PyM.bind (updFlt o.image F) (fun _ =>
  PyM.bind (PyM.lift (need o.noise)) fun n =>
  PyM.bind (updFlt n F) fun _ =>
  PyM.bind (PyM.lift (need o.bmask)) fun b =>
  PyM.bind (updInt b (updWhere hit fun _ _ v => v ||| bit)) fun _ =>
  PyM.bind (updOpt o.mfrac (setWhere hit 1)) fun _ => fun h =>
  let izw := if iz (h.flt.arr o.image) then false else o.izw
  PyM.bind (updFlt o.weight (setWhere hit 0)) (fun _ => fun h =>
    let izw := if (h.flt.arr o.weight).allPx (fun w => decide (w = 0)) then false else izw
    (.ok ({ o with izw := izw }, r), h)) h)

/-- and what it does by value -/
def winVal (F : Img K → Img K) (hit : Nat → Nat → Bool) (bit : Nat) (iz : Img K → Bool) (o : Obs K X) (n : Img K)
    (b : Img Nat) : Obs K X :=
  { o with
    image := F o.image, noise := some (F n), bmask := some (updWhere hit (fun _ _ v => v ||| bit) b)
    mfrac := o.mfrac.map (setWhere hit 1), weight := setWhere hit 0 o.weight
    izw := if (setWhere hit 0 o.weight).allPx (fun w => decide (w = 0)) then false
      else if iz (F o.image) then false else o.izw }

theorem win_spec (F : Img K → Img K) (hit : Nat → Nat → Bool) (bit : Nat) (iz : Img K → Bool) (s : Heap K) (o : MObs X)
    (r : S) (hal : AloneShared o) (hnod : (imgs o).Nodup) :
    ∃ out s', winBody F hit bit iz o r s = (out, s') ∧ OnlyTargets true [o] s s' ∧
      ((∃ n b o', o.noise = some n ∧ o.bmask = some b ∧ out = .ok (o', r) ∧ Upd s s' o o' ∧
        deref s' o' = winVal F hit bit iz (deref s o) (s.flt.arr n) (s.int.arr b)) ∨
      ((o.noise = none ∨ o.bmask = none) ∧ out = .error .attributeError)) := by
  obtain ⟨a1, a2, a3⟩ := hal
  have hiw := (a1 o.image (by simp [imgs])).1
  have him := (a1 o.image (by simp [imgs])).2
  have frame : ∀ (s' : Heap K), s'.flt.next = s.flt.next → s'.int.next = s.int.next → s'.bool = s.bool →
      s'.vec = s.vec → (∀ i, i ∉ imgs o → i ≠ o.weight → o.mfrac ≠ some i → s'.flt.arr i = s.flt.arr i) →
      (∀ i, o.bmask ≠ some i → s'.int.arr i = s.int.arr i) → OnlyTargets true [o] s s' := by
    intro s' f1 f2 f3 f4 f5 f6
    refine ⟨⟨f1 ▸ le_refl _, fun i _ hn => f5 i ?_ ?_ ?_⟩, ⟨f2 ▸ le_refl _, fun i _ hn => f6 i (hn o (by simp))⟩,
      f3 ▸ .refl _, f4 ▸ .refl _⟩
    · exact fun h1 => hn ⟨o, by simp, .inr (.inr ⟨rfl, h1⟩)⟩
    · exact fun h1 => hn ⟨o, by simp, .inl h1⟩
    · exact fun h1 => hn ⟨o, by simp, .inr (.inl h1)⟩
  unfold winBody
  cases hn : o.noise with
  | none =>
    simp only [need, PyM.bind, PyM.lift, updFlt]
    refine ⟨_, _, rfl, ?_, .inr ⟨.inl trivial, rfl⟩⟩
    refine frame _ rfl rfl rfl rfl (fun i h1 h2 h3 => write_ne _ _ ?_) fun i h1 => rfl
    rintro rfl
    exact h1 (by simp [imgs])
  | some n =>
    have hnw := (a1 n (by simp [imgs, hn])).1
    have hnm := (a1 n (by simp [imgs, hn])).2
    have hni : n ≠ o.image := by
      simp only [imgs, hn, Option.toList_some, List.nodup_cons, List.mem_singleton] at hnod
      exact fun h => hnod.1 h.symm
    have gi : ∀ i, i ∉ imgs o → i ≠ o.image ∧ i ≠ n := by
      intro i h1
      exact ⟨by rintro rfl; exact h1 (by simp [imgs]), by rintro rfl; exact h1 (by simp [imgs, hn])⟩
    cases hb : o.bmask with
    | none =>
      simp only [need, PyM.bind, PyM.lift, updFlt]
      refine ⟨_, _, rfl, ?_, .inr ⟨.inr trivial, rfl⟩⟩
      refine frame _ rfl rfl rfl rfl (fun i h1 h2 h3 => ?_) fun i h1 => rfl
      simp [write_ne, gi i h1]
    | some b =>
      have hbo : ∀ i, o.ormask = some i → i ≠ b := by rintro i h1 rfl; exact a3 i hb h1
      have hor : ∀ x, o.ormask.map (s.int.write b x).arr = o.ormask.map s.int.arr := by
        intro x
        cases hom : o.ormask with
        | none => rfl
        | some i => exact congrArg some (write_ne _ _ (hbo i hom))
      cases hm : o.mfrac with
      | none =>
        simp only [need, PyM.bind, PyM.lift, PyM.pure, updFlt, updInt, updOpt]
        refine ⟨_, _, rfl, ?_, .inl ⟨n, b, _, rfl, rfl, rfl, ⟨rfl, by simp [hb], rfl, by simp [hm], .inl rfl, .inl (by simp [hn])⟩, ?_⟩⟩
        · refine frame _ rfl rfl rfl rfl (fun i h1 h2 h3 => ?_) fun i h1 => write_ne _ _ ?_
          · simp [write_ne, gi i h1, h2]
          · rintro rfl
            exact h1 hb
        · simp [deref, winVal, hn, hb, hm, hor, write_ne, hiw, hnw, hni, Ne.symm hni, Ne.symm hiw, Ne.symm hnw]
      | some m =>
        rw [hm] at him hnm a2
        have g1 : o.image ≠ m := fun h => him (by rw [h])
        have g2 : n ≠ m := fun h => hnm (by rw [h])
        have g3 : o.weight ≠ m := fun h => a2 (by rw [h])
        simp only [need, PyM.bind, PyM.lift, PyM.pure, updFlt, updInt, updOpt]
        refine ⟨_, _, rfl, ?_, .inl ⟨n, b, _, rfl, rfl, rfl, ⟨rfl, by simp [hb], rfl, by simp [hm], .inl rfl, .inl (by simp [hn])⟩, ?_⟩⟩
        · refine frame _ rfl rfl rfl rfl (fun i h1 h2 h3 => ?_) fun i h1 => write_ne _ _ ?_
          · have : i ≠ m := fun h => h3 (by rw [h, hm])
            simp [write_ne, gi i h1, h2, this]
          · rintro rfl
            exact h1 hb
        · simp [deref, winVal, hn, hb, hm, hor, write_ne, hiw, hnw, hni, Ne.symm hni, Ne.symm hiw, Ne.symm hnw, g1, g2, g3,
            Ne.symm g1, Ne.symm g2, Ne.symm g3]

theorem apodize_body (apMask : Img K) (bit : Nat) :
    Body true (fun _ => True) (apodizeObs apMask bit)
      (fun (o : Obs K X) (r : S) => (Masking.apodizeObs apMask bit o).map (·, r)) := by
  intro s o r _ hex hal hnod
  unfold apodizeObs Masking.apodizeObs
  simp only
  have e0 : (deref s o).image = s.flt.arr o.image := rfl
  rw [e0]
  split
  · exact ⟨rfl, .refl _ _ _⟩
  · obtain ⟨out, s', h1, h2, h3⟩ := win_spec (updWhere (hitA apMask) fun r c v => v * apMask.px r c) (hitA apMask) bit
      (fun im => decide ((apMask.toList.filter fun v => decide (v < 1)).length = im.size)) s o r hal (hnod rfl)
    have h1' := h1
    unfold winBody hitA at h1'
    simp only [decide_eq_true_eq] at h1'
    rw [h1']
    rcases h3 with ⟨n, b, o', hn, hb, rfl, hu, hd⟩ | ⟨hnb, rfl⟩
    · simp only [deref, hn, hb, need, Option.map_some, Except.map, Agree]
      refine ⟨?_, trivial, hu, h2, trivial⟩
      refine hd.trans ?_
      simp [winVal, deref, hn, hb]
      exact ⟨rfl, rfl, rfl, rfl, rfl, rfl⟩
    · have : (deref s o).noise = none ∨ (deref s o).noise ≠ none ∧ (deref s o).bmask = none := by
        cases hn : o.noise with
        | none => left; simp [deref, hn]
        | some n => right; rcases hnb with h | h <;> simp_all [deref]
      rcases this with h | ⟨h, h'⟩
      · simp only [h, need, Except.map, Agree]
        exact ⟨trivial, h2⟩
      · cases hn : (deref s o).noise with
        | none => exact (h hn).elim
        | some n =>
          simp only [h', need, Except.map, Agree]
          exact ⟨trivial, h2⟩

/-- where the window of the holes is below one -/
def hitM (apMask : Img K) : Nat → Nat → Bool := fun r c => decide (apMask.px r c < 1)

theorem maskApodize_val (apMask : Img K) (bit : Nat) :
    Val (effA (hitM apMask) bit) (fun (o : Obs K X) (r : S) => (Masking.maskApodizeObs apMask bit o).map (·, r)) := by
  constructor
  · intro o r w b m hw hb hm
    have h1 : setWhere (hitM apMask) 0 w = setWhere (hitM apMask) 0 o.weight := by
      rcases hw with rfl | rfl
      · rfl
      · exact setWhere_idem _ _ _
    have h2 : b.map (updWhere (hitM apMask) fun _ _ v => v ||| bit) =
        o.bmask.map (updWhere (hitM apMask) fun _ _ v => v ||| bit) := by
      rcases hb with rfl | rfl
      · rfl
      · cases o.bmask with
        | none => rfl
        | some b => exact congrArg some (orWhere_idem _ _ _)
    have h3 : m.map (setWhere (hitM apMask) 1) = o.mfrac.map (setWhere (hitM apMask) 1) := by
      rcases hm with rfl | rfl
      · rfl
      · cases o.mfrac with
        | none => rfl
        | some b => exact congrArg some (setWhere_idem _ _ _)
    unfold hitM at h1 h2 h3
    unfold Masking.maskApodizeObs
    simp only [h1, h3]
    cases hb1 : b with
    | none =>
      cases hb2 : o.bmask with
      | none => rfl
      | some _ => rw [hb1, hb2] at h2; cases h2
    | some x =>
      cases hb2 : o.bmask with
      | none => rw [hb1, hb2] at h2; cases h2
      | some y =>
        rw [hb1, hb2] at h2
        have h2 := Option.some.inj h2
        cases o.noise <;> simp only [need, h2]
  · intro o r v r' hv
    unfold Masking.maskApodizeObs at hv
    simp only at hv
    split at hv
    · cases hv
    · cases hn : o.noise with
      | none => simp [hn, need, Except.map] at hv
      | some n =>
        cases hb : o.bmask with
        | none => simp [hn, hb, need, Except.map] at hv
        | some b =>
          simp only [hn, hb, need, Except.map, Except.ok.injEq, Prod.mk.injEq] at hv
          obtain ⟨rfl, -⟩ := hv
          exact ⟨rfl, rfl, rfl, rfl⟩

theorem maskApodize_body (apMask : Img K) (bit : Nat) :
    Body true (fun _ => True) (maskApodizeObs apMask bit)
      (fun (o : Obs K X) (r : S) => (Masking.maskApodizeObs apMask bit o).map (·, r)) := by
  intro s o r _ hex hal hnod
  unfold maskApodizeObs Masking.maskApodizeObs
  simp only
  have e0 : (deref s o).image = s.flt.arr o.image := rfl
  rw [e0]
  split
  · exact ⟨rfl, .refl _ _ _⟩
  · obtain ⟨out, s', h1, h2, h3⟩ := win_spec (fun a => Img.zip (· * ·) a apMask) (hitM apMask) bit
      (fun _ => apMask.allPx fun v => decide (v < 1)) s o r hal (hnod rfl)
    have h1' := h1
    unfold winBody hitM at h1'
    rw [show _ = _ from h1']
    rcases h3 with ⟨n, b, o', hn, hb, rfl, hu, hd⟩ | ⟨hnb, rfl⟩
    · simp only [deref, hn, hb, need, Option.map_some, Except.map, Agree]
      refine ⟨?_, trivial, hu, h2, trivial⟩
      refine hd.trans ?_
      simp only [winVal, deref]
      rfl
    · have : (deref s o).noise = none ∨ (deref s o).noise ≠ none ∧ (deref s o).bmask = none := by
        cases hn : o.noise with
        | none => left; simp [deref, hn]
        | some n => right; rcases hnb with h | h <;> simp_all [deref]
      rcases this with h | ⟨h, h'⟩
      · simp only [h, need, Except.map, Agree]
        exact ⟨trivial, h2⟩
      · cases hn : (deref s o).noise with
        | none => exact (h hn).elim
        | some n =>
          simp only [h', need, Except.map, Agree]
          exact ⟨trivial, h2⟩

/-- what the expansion does to the shared arrays -/
def effE (exp : Img Nat) : Eff K := ⟨id, fun b => Img.zip (· ||| ·) b exp, id⟩

theorem zipOr_idem (b fg : Img Nat) :
    Img.zip (· ||| ·) (Img.zip (· ||| ·) b fg) fg = Img.zip (· ||| ·) b fg := by
  simp only [Img.zip, Img.mk.injEq, true_and]
  funext r c
  rw [Nat.or_assoc, Nat.or_self]

theorem expand_val (exp : Img Nat) :
    Val (effE exp) (fun (o : Obs K X) (r : S) => (Masking.expandObs exp o).map (·, r)) := by
  constructor
  · intro o r w b m hw hb hm
    obtain rfl : w = o.weight := by simpa [effE] using hw
    obtain rfl : m = o.mfrac := by simpa [effE] using hm
    rcases hb with rfl | rfl
    · rfl
    · cases hb : o.bmask with
      | none => simp [Masking.expandObs, hb, need, Except.map]
      | some x =>
        simp only [Masking.expandObs, hb, need, effE, Option.map_some, Img.zip]
        split
        · rfl
        · simp only [Except.map, Nat.or_assoc, Nat.or_self]
  · intro o r v r' hv
    unfold Masking.expandObs at hv
    cases hb : o.bmask with
    | none => simp [hb, need, Except.map] at hv
    | some b =>
      simp only [hb, need] at hv
      split at hv
      · cases hv
      · simp only [Except.map, Except.ok.injEq, Prod.mk.injEq] at hv
        obtain ⟨rfl, -⟩ := hv
        exact ⟨rfl, rfl, by simp [effE], rfl⟩

theorem expand_body (exp : Img Nat) :
    Body false (fun _ => True) (expandObs exp)
      (fun (o : Obs K X) (r : S) => (Masking.expandObs exp o).map (·, r)) := by
  intro s o r _ hex hal _
  obtain ⟨a1, a2, a3⟩ := hal
  cases hb : o.bmask with
  | none =>
    simp only [expandObs, Masking.expandObs, deref, hb, need, PyM.bind, PyM.lift, Option.map_none, Except.map, Agree]
    exact ⟨trivial, .refl _ _ _⟩
  | some b =>
    have hor : ∀ x, o.ormask.map (s.int.write b x).arr = o.ormask.map s.int.arr := by
      intro x
      cases hom : o.ormask with
      | none => rfl
      | some i => exact congrArg some (write_ne _ _ (by rintro rfl; exact a3 i hb hom))
    simp only [expandObs, Masking.expandObs, deref, hb, need, PyM.bind, PyM.lift, Option.map_some]
    split
    · exact ⟨rfl, .refl _ _ _⟩
    · simp only [PyM.bind, updInt, PyM.pure, Except.map, Agree]
      refine ⟨?_, trivial, ⟨rfl, rfl, rfl, rfl, .inl rfl, .inl rfl⟩, ?_, trivial⟩
      · simp [hb, hor]
      · refine ⟨⟨le_refl _, fun _ _ _ => rfl⟩, ⟨le_refl _, fun i _ hn => write_ne _ _ ?_⟩, .refl _, .refl _⟩
        rintro rfl
        exact hn o (by simp) hb

/-! ### interpolation -/

/-- the interpolation of image and noise image by value -/
def chain (ext : MExt K S) (bad : Img Bool) (fill : Bool) (isoBuff : Nat) (image : Img K) (noise : Option (Img K))
    (wgt : K) (rng : Option S) : Except PyErr (Option (Img K) × Option (Img K) × Option S) :=
  match Interp.interpolateImageAtMask ext.interp image bad 1 4 fill (some wgt) rng isoBuff with
  | .error e => .error e
  | .ok (im, rng) =>
    match need noise with
    | .error e => .error e
    | .ok noise =>
      match Interp.interpolateImageAtMask ext.interp noise bad 1 4 fill (some wgt) rng isoBuff with
      | .error e => .error e
      | .ok (ns, rng) => .ok (im, ns, rng)

/-- whether pixels are interpolated -/
def Some (K : Type _) [Field K] [LinearOrder K] (bad : Img Bool) : Prop :=
  (((bad.toList.filter id).length : Nat) : K) / ((bad.size : Nat) : K) ≤ 1 ∧ (bad.toList.filter id).length < bad.size

theorem interp_some {T : Type _} (ext : Interp.Ext K T) (image : Img K) (bad : Img Bool) (buff : Nat) (fill : Bool)
    (w : Option K) (rng : Option T) (iso : Nat) {x r}
    (hx : Interp.interpolateImageAtMask ext image bad 1 buff fill w rng iso = .ok (x, r)) :
    x.isSome = true ↔ Some K bad := by
  unfold Interp.interpolateImageAtMask at hx
  simp only at hx
  split at hx
  · cases hx
  split at hx
  · rename_i hs
    refine ⟨fun _ => hs, fun _ => ?_⟩
    repeat' split at hx
    all_goals first | cases hx; done | skip
    cases hx
    rfl
  · rename_i hs
    cases hx
    exact ⟨fun h => (Bool.false_ne_true h).elim, fun h => (hs h).elim⟩

theorem interp_none {T : Type _} (ext : Interp.Ext K T) (image : Img K) (bad : Img Bool) (buff : Nat) (fill : Bool)
    (w w' : Option K) (rng : Option T) (iso : Nat) (hs : ¬ Some K bad) :
    Interp.interpolateImageAtMask ext image bad 1 buff fill w rng iso =
      Interp.interpolateImageAtMask ext image bad 1 buff fill w' rng iso := by
  unfold Interp.interpolateImageAtMask
  simp only
  split
  · rfl
  · exact (if_neg hs).trans (if_neg hs).symm

theorem chain_some (ext : MExt K S) (bad : Img Bool) (fill : Bool) (iso : Nat) (image : Img K) (noise : Option (Img K))
    (wgt : K) (rng : Option S) {x y r} (h : chain ext bad fill iso image noise wgt rng = .ok (x, y, r)) :
    (x.isSome = true ↔ Some K bad) ∧ (y.isSome = true ↔ Some K bad) := by
  unfold chain at h
  cases h1 : Interp.interpolateImageAtMask ext.interp image bad 1 4 fill (some wgt) rng iso with
  | error e => rw [h1] at h; cases h
  | ok t =>
    obtain ⟨x', r1⟩ := t
    rw [h1] at h
    simp only at h
    cases noise with
    | none => cases h
    | some n =>
      simp only [need] at h
      cases h2 : Interp.interpolateImageAtMask ext.interp n bad 1 4 fill (some wgt) r1 iso with
      | error e => rw [h2] at h; cases h
      | ok t =>
        rw [h2] at h
        cases h
        exact ⟨interp_some _ _ _ _ _ _ _ _ h1, interp_some _ _ _ _ _ _ _ _ h2⟩

theorem chain_wgt (ext : MExt K S) (bad : Img Bool) (fill : Bool) (iso : Nat) (image : Img K) (noise : Option (Img K))
    (w w' : K) (rng : Option S) (hs : ¬ Some K bad) :
    chain ext bad fill iso image noise w rng = chain ext bad fill iso image noise w' rng := by
  unfold chain
  simp only [interp_none ext.interp _ bad 4 fill (some w) (some w') _ iso hs]

/-- the pixels in a hole -/
def badOf (fg : Img Nat) : Img Bool := fg.map fun v => decide (v ≠ 0)

/-- the body by value -/
theorem maskInterp_eq (ext : MExt K S) (fg : Img Nat) (bit interpBit : Nat) (fill : Bool) (iso : Nat) (o : Obs K X)
    (rng : Option S) :
    Masking.maskInterpObs ext fg bit interpBit fill iso o rng =
      let bad : Img Bool := badOf fg
      if o.image.nr ≠ fg.nr ∨ o.image.nc ≠ fg.nc then .error .valueError
      else match need o.bmask with
      | .error e => .error e
      | .ok b =>
        match (if bad.allPx id then .ok (none, none, rng) else chain ext bad fill iso o.image o.noise
          (ext.median ((setWhere (fun r c => bad.px r c) 0 o.weight).toList.filter fun w => decide (w > 0))) rng) with
        | .error e => .error e
        | .ok (some im, some ns, rng) =>
          .ok ({ o with image := im, noise := some ns,
                        bmask := some (updWhere (fun r c => bad.px r c) (fun _ _ v => v ||| interpBit)
                          (Img.zip (· ||| ·) b fg)),
                        mfrac := o.mfrac.map (setWhere (fun r c => bad.px r c) 1),
                        izw := if (setWhere (fun r c => bad.px r c) 0 o.weight).allPx (fun w => decide (w = 0)) then
                          false else if bad.allPx id then false else o.izw,
                        weight := setWhere (fun r c => bad.px r c) 0 o.weight }, rng)
        | .ok (_, _, rng) =>
          .ok ({ o with bmask := some ((Img.zip (· ||| ·) b fg).map (· ||| bit)),
                        mfrac := (o.mfrac.map (setWhere (fun r c => bad.px r c) 1)).map fun m => m.map fun _ => 1,
                        izw := false,
                        weight := (setWhere (fun r c => bad.px r c) 0 o.weight).map fun _ => 0 }, rng) := rfl

/-- what interpolation does to the shared arrays -/
def effI (fg : Img Nat) (bit interpBit : Nat) (full : Bool) : Eff K :=
  let hit : Nat → Nat → Bool := fun r c => (badOf fg).px r c
  if full then
    ⟨fun w => (setWhere hit 0 w).map fun _ => 0, fun b => (Img.zip (· ||| ·) b fg).map (· ||| bit),
      fun m => (setWhere hit 1 m).map fun _ => 1⟩
  else ⟨setWhere hit 0, fun b => updWhere hit (fun _ _ v => v ||| interpBit) (Img.zip (· ||| ·) b fg), setWhere hit 1⟩

theorem setWhere_map {α : Type _} (p : Nat → Nat → Bool) (v c : α) (a : Img α) :
    (setWhere p v a).map (fun _ => c) = a.map fun _ => c := rfl

theorem map_const_idem {α : Type _} (c : α) (a : Img α) :
    (a.map fun _ => c).map (fun _ => c) = a.map fun _ => c := rfl

theorem fullOr_idem (b fg : Img Nat) (bit : Nat) :
    (Img.zip (· ||| ·) ((Img.zip (· ||| ·) b fg).map (· ||| bit)) fg).map (· ||| bit) =
      (Img.zip (· ||| ·) b fg).map (· ||| bit) := by
  simp only [Img.zip, Img.map, Img.mk.injEq, true_and]
  funext r c
  apply Nat.eq_of_testBit_eq
  intro i
  simp only [Nat.testBit_or]
  cases (b.px r c).testBit i <;> cases (fg.px r c).testBit i <;> cases bit.testBit i <;> rfl

theorem partOr_idem (p : Nat → Nat → Bool) (b fg : Img Nat) (bit : Nat) :
    updWhere p (fun _ _ v => v ||| bit) (Img.zip (· ||| ·) (updWhere p (fun _ _ v => v ||| bit)
      (Img.zip (· ||| ·) b fg)) fg) = updWhere p (fun _ _ v => v ||| bit) (Img.zip (· ||| ·) b fg) := by
  simp only [Img.zip, updWhere, Img.mk.injEq, true_and]
  funext r c
  apply Nat.eq_of_testBit_eq
  intro i
  split <;> simp only [Nat.testBit_or] <;>
  cases (b.px r c).testBit i <;> cases (fg.px r c).testBit i <;> cases bit.testBit i <;> rfl

open Classical in
/-- whether all pixels are treated as bad -/
noncomputable def full (K : Type _) [Field K] [LinearOrder K] (fg : Img Nat) : Bool :=
  (badOf fg).allPx id || decide (¬ Some K (badOf fg))

theorem maskInterp_val (ext : MExt K S) (fg : Img Nat) (bit interpBit : Nat) (fill : Bool) (iso : Nat) :
    Val (effI fg bit interpBit (full K fg)) (fun (o : Obs K X) (r : Option S) =>
      Masking.maskInterpObs ext fg bit interpBit fill iso o r) := by
  constructor
  · intro o r w b m hw hb hm
    simp only [maskInterp_eq]
    split
    · rfl
    by_cases hf : full K fg = true
    · simp only [effI, hf, if_true] at hw hb hm
      have e1 : ∀ c : K, (setWhere (fun r c => (badOf fg).px r c) 0 w).map (fun _ => c) =
          (setWhere (fun r c => (badOf fg).px r c) 0 o.weight).map fun _ => c := by
        rcases hw with rfl | rfl <;> intro c <;> rfl
      have e3 : (m.map (setWhere (fun r c => (badOf fg).px r c) 1)).map
            (fun m => m.map fun _ => (1 : K)) =
          (o.mfrac.map (setWhere (fun r c => (badOf fg).px r c) 1)).map
            fun m => m.map fun _ => 1 := by
        rcases hm with rfl | rfl
        · rfl
        · cases o.mfrac <;> rfl
      have e2 : b.map (fun b => (Img.zip (· ||| ·) b fg).map (· ||| bit)) =
          o.bmask.map fun b => (Img.zip (· ||| ·) b fg).map (· ||| bit) := by
        rcases hb with rfl | rfl
        · rfl
        · cases o.bmask with
          | none => rfl
          | some b => exact congrArg some (fullOr_idem _ _ _)
      have hc : ∀ W W' : K, (if (badOf fg).allPx id then Except.ok (none, none, r) else
          chain ext (badOf fg) fill iso o.image o.noise W r) =
          if (badOf fg).allPx id then Except.ok (none, none, r) else
          chain ext (badOf fg) fill iso o.image o.noise W' r := by
        intro W W'
        split
        · rfl
        · rename_i hn
          refine chain_wgt _ _ _ _ _ _ _ _ _ ?_
          simpa [full, hn] using hf
      have hx : ∀ W x y r', (if (badOf fg).allPx id then Except.ok (none, none, r) else
          chain ext (badOf fg) fill iso o.image o.noise W r) = .ok (x, y, r') →
          x = none ∧ y = none := by
        intro W x y r' h
        split at h
        · cases h
          exact ⟨rfl, rfl⟩
        · rename_i hn
          have hs : ¬ Some K (badOf fg) := by simpa [full, hn] using hf
          have := chain_some _ _ _ _ _ _ _ _ h
          cases x <;> cases y <;> simp_all
      cases hb1 : b with
      | none =>
        cases hb2 : o.bmask with
        | none => rfl
        | some _ => rw [hb1, hb2] at e2; cases e2
      | some b1 =>
        cases hb2 : o.bmask with
        | none => rw [hb1, hb2] at e2; cases e2
        | some b2 =>
          rw [hb1, hb2] at e2
          have e2 := Option.some.inj e2
          simp only [need]
          rw [hc _ (ext.median ((setWhere (fun r c => (badOf fg).px r c) 0 o.weight).toList.filter
            fun w => decide (w > 0)))]
          generalize hz : (if (badOf fg).allPx id then Except.ok (none, none, r) else
            chain ext (badOf fg) fill iso o.image o.noise _ r) = z
          rcases z with er | ⟨x, y, r'⟩
          · rfl
          · obtain ⟨rfl, rfl⟩ := hx _ _ _ _ hz
            simp only [e1, e3, e2]
    · have hf' : full K fg = false := by simpa using hf
      simp only [effI, hf', Bool.false_eq_true, if_false] at hw hb hm
      have e1 : setWhere (fun r c => (badOf fg).px r c) 0 w =
          setWhere (fun r c => (badOf fg).px r c) 0 o.weight := by
        rcases hw with rfl | rfl
        · rfl
        · exact setWhere_idem _ _ _
      have e3 : m.map (setWhere (fun r c => (badOf fg).px r c) 1) =
          o.mfrac.map (setWhere (fun r c => (badOf fg).px r c) 1) := by
        rcases hm with rfl | rfl
        · rfl
        · cases o.mfrac with
          | none => rfl
          | some b => exact congrArg some (setWhere_idem _ _ _)
      have e2 : b.map (fun b => updWhere (fun r c => (badOf fg).px r c)
            (fun _ _ v => v ||| interpBit) (Img.zip (· ||| ·) b fg)) =
          o.bmask.map fun b => updWhere (fun r c => (badOf fg).px r c)
            (fun _ _ v => v ||| interpBit) (Img.zip (· ||| ·) b fg) := by
        rcases hb with rfl | rfl
        · rfl
        · cases o.bmask with
          | none => rfl
          | some b => exact congrArg some (partOr_idem _ _ _ _)
      have hs : (badOf fg).allPx id = false ∧ Some K (badOf fg) := by
        simpa [full] using hf'
      cases hb1 : b with
      | none =>
        cases hb2 : o.bmask with
        | none => rfl
        | some _ => rw [hb1, hb2] at e2; cases e2
      | some b1 =>
        cases hb2 : o.bmask with
        | none => rw [hb1, hb2] at e2; cases e2
        | some b2 =>
          rw [hb1, hb2] at e2
          have e2 := Option.some.inj e2
          simp only [need, e1, e3, hs.1, Bool.false_eq_true, if_false]
          generalize hz : chain ext (badOf fg) fill iso o.image o.noise _ r = z
          rcases z with er | ⟨x, y, r'⟩
          · rfl
          · have := chain_some _ _ _ _ _ _ _ _ hz
            cases x with
            | none => simp [hs.2] at this
            | some x =>
              cases y with
              | none => simp [hs.2] at this
              | some y => simp only [e2]
  · intro o r v r' hv
    simp only [maskInterp_eq] at hv
    split at hv
    · cases hv
    cases hb : o.bmask with
    | none => simp [hb, need] at hv
    | some b =>
      simp only [hb, need] at hv
      generalize hz : (if (badOf fg).allPx id then Except.ok (none, none, r) else
            chain ext (badOf fg) fill iso o.image o.noise _ r) = z at hv
      rcases z with er | ⟨x, y, r1⟩
      · cases hv
      · by_cases hf : full K fg = true
        · have : x = none := by
            split at hz
            · cases hz; rfl
            · rename_i hn
              have hs : ¬ Some K (badOf fg) := by simpa [full, hn] using hf
              have := chain_some _ _ _ _ _ _ _ _ hz
              cases x <;> simp_all
          subst this
          simp only [Except.ok.injEq, Prod.mk.injEq] at hv
          obtain ⟨rfl, -⟩ := hv
          simp only [effI, hf, if_true]
          refine ⟨trivial, rfl, ?_, trivial⟩
          cases o.mfrac <;> rfl
        · have hf' : full K fg = false := by simpa using hf
          have hs : (badOf fg).allPx id = false ∧ Some K (badOf fg) := by
            simpa [full] using hf'
          rw [hs.1] at hz
          have := chain_some _ _ _ _ _ _ _ _ hz
          cases x with
          | none => simp [hs.2] at this
          | some x =>
            cases y with
            | none => simp [hs.2] at this
            | some y =>
              simp only [Except.ok.injEq, Prod.mk.injEq] at hv
              obtain ⟨rfl, -⟩ := hv
              simp only [effI, hf', Bool.false_eq_true, if_false]
              exact ⟨trivial, rfl, trivial, trivial⟩

theorem interpBoth_spec (ext : MExt K S) (bad : Nat) (allBad fill : Bool) (iso : Nat) (o : MObs X) (r : Option S)
    (s : Heap K) (hbad : bad < s.bool.next) (hex : Exists s o) :
    Agree (fun x v s' => x.2.2 = v.2.2 ∧ x.1.map s'.flt.arr = v.1 ∧ x.2.1.map s'.flt.arr = v.2.1 ∧ Untouched s s' ∧
        (∀ i, x.1 = some i → New s.flt s'.flt i) ∧ ∀ i, x.2.1 = some i → New s.flt s'.flt i)
      (Untouched s) (interpBoth ext bad allBad fill iso o r s)
      (if allBad then .ok (none, none, r) else chain ext (s.bool.arr bad) fill iso (s.flt.arr o.image)
        (o.noise.map s.flt.arr)
        (ext.median ((s.flt.arr o.weight).toList.filter fun w => decide (w > 0))) r) := by
  unfold interpBoth
  cases allBad with
  | true =>
    refine ⟨rfl, rfl, rfl, ⟨.refl _, .refl _, .refl _, .refl _⟩, ?_, ?_⟩ <;> intro i hi <;> cases hi
  | false =>
    simp only [Bool.false_eq_true, if_false]
    generalize ext.median ((s.flt.arr o.weight).toList.filter fun w => decide (w > 0)) = wgt
    obtain ⟨u1, n1, v1⟩ := C102_interpolate ext.interp s o.image bad ⟨hex.1, hbad⟩ 1 4 fill (some wgt) r iso
    unfold chain
    rw [← v1]
    rcases h1 : interpolateImageAtMask ext.interp o.image bad 1 4 fill (some wgt) r iso s with ⟨e1 | ⟨im, r1⟩, s1⟩
    · rw [h1] at u1
      simp only [PyM.bind, h1, Except.map, Agree]
      exact ⟨trivial, u1⟩
    · rw [h1] at u1 n1
      simp only [PyM.bind, h1, Except.map]
      cases hn : o.noise with
      | none =>
        simp only [need, PyM.lift, Option.map_none, Agree]
        exact ⟨trivial, u1⟩
      | some n =>
        simp only [need, PyM.lift, Option.map_some]
        have hlt := hex.2.2.1 n hn
        obtain ⟨u2, n2, v2⟩ := C102_interpolate ext.interp s1 n bad
          ⟨lt_of_lt_of_le hlt u1.1.1, lt_of_lt_of_le hbad u1.2.2.1.1⟩ 1 4 fill (some wgt) r1 iso
        rw [u1.1.2 n hlt, u1.2.2.1.2 bad hbad] at v2
        rw [← v2]
        have u12 : Untouched s (interpolateImageAtMask ext.interp n bad 1 4 fill (some wgt) r1 iso s1).2 :=
          ⟨u1.1.trans u2.1, u1.2.1.trans u2.2.1, u1.2.2.1.trans u2.2.2.1, u1.2.2.2.trans u2.2.2.2⟩
        rcases h2 : interpolateImageAtMask ext.interp n bad 1 4 fill (some wgt) r1 iso s1 with ⟨e2 | ⟨ns, r2⟩, s2⟩
        · rw [h2] at u12
          exact ⟨rfl, u12⟩
        · rw [h2] at u12 u2 n2
          refine ⟨rfl, ?_, rfl, u12, ?_, ?_⟩
          · cases im with
            | none => rfl
            | some i => exact congrArg some (u2.1.2 i (n1 _ i rfl rfl).2)
          · intro i hi
            have := n1 _ i rfl hi
            exact ⟨this.1, lt_of_lt_of_le this.2 u2.1.1⟩
          · intro i hi
            have := n2 _ i rfl hi
            exact ⟨u1.1.1.trans this.1, this.2⟩

/-- the memory after bmask, masked fraction and weight were changed -/
def post (s : Heap K) (o : MObs X) (b : Nat) (f : Img Nat → Img Nat) (g w : Img K → Img K) : Heap K :=
  { s with
    int := s.int.write b (f (s.int.arr b))
    flt := (match o.mfrac with
      | none => s.flt
      | some m => s.flt.write m (g (s.flt.arr m))).write o.weight (w (s.flt.arr o.weight)) }

theorem bind_post {β : Type _} (s : Heap K) (o : MObs X) (b : Nat) (f : Img Nat → Img Nat) (g w : Img K → Img K)
    (k : Unit → PyM (Heap K) β) (hal : AloneShared o) :
    PyM.bind (updInt b f) (fun _ => PyM.bind (updOpt o.mfrac g) fun _ => PyM.bind (updFlt o.weight w) k) s =
      k () (post s o b f g w) := by
  have h := hal.2.1
  simp only [PyM.bind, updInt, updOpt, updFlt, post]
  cases hm : o.mfrac with
  | none => rfl
  | some m =>
    have : o.weight ≠ m := fun e => h (by rw [hm, e])
    simp only [updFlt]
    rw [write_ne _ _ this]

theorem lift_ok {α β : Type _} (s : Heap K) (a : α) (k : α → PyM (Heap K) β) :
    PyM.bind (PyM.lift (.ok a)) k s = k a s := rfl

theorem bind_ok {α β : Type _} {s s' : Heap K} {m : PyM (Heap K) α} {a : α} {k : α → PyM (Heap K) β}
    (h : m s = (.ok a, s')) : PyM.bind m k s = k a s' := by simp only [PyM.bind, h]

theorem post_facts (s : Heap K) (o : MObs X) (b : Nat) (f : Img Nat → Img Nat) (g w : Img K → Img K)
    (hal : AloneShared o) :
    (post s o b f g w).flt.next = s.flt.next ∧ (post s o b f g w).int.next = s.int.next ∧
    (post s o b f g w).bool = s.bool ∧ (post s o b f g w).vec = s.vec ∧
    (post s o b f g w).flt.arr o.weight = w (s.flt.arr o.weight) ∧
    o.mfrac.map (post s o b f g w).flt.arr = (o.mfrac.map s.flt.arr).map g ∧
    (post s o b f g w).int.arr b = f (s.int.arr b) ∧
    (∀ i, i ≠ o.weight → o.mfrac ≠ some i → (post s o b f g w).flt.arr i = s.flt.arr i) ∧
    ∀ i, i ≠ b → (post s o b f g w).int.arr i = s.int.arr i := by
  have h := hal.2.1
  unfold post
  cases hm : o.mfrac with
  | none =>
    refine ⟨rfl, rfl, rfl, rfl, write_self _ _ _, rfl, write_self _ _ _, fun i h1 _ => write_ne _ _ h1,
      fun i h1 => write_ne _ _ h1⟩
  | some m =>
    have hne : m ≠ o.weight := fun e => h (by rw [hm, e])
    refine ⟨rfl, rfl, rfl, rfl, write_self _ _ _, ?_, write_self _ _ _, fun i h1 h2 => ?_,
      fun i h1 => write_ne _ _ h1⟩
    · simp [write_ne, hne]
    · rw [write_ne _ _ h1, write_ne]
      rintro rfl
      exact h2 rfl

theorem post_only (s : Heap K) (o : MObs X) (b : Nat) (f : Img Nat → Img Nat) (g w : Img K → Img K)
    (hal : AloneShared o) (hb : o.bmask = some b) (win : Bool) : OnlyTargets win [o] s (post s o b f g w) := by
  obtain ⟨f1, f2, f3, f4, -, -, -, f5, f6⟩ := post_facts s o b f g w hal
  refine ⟨⟨f1 ▸ le_refl _, fun i _ hn => f5 i ?_ ?_⟩, ⟨f2 ▸ le_refl _, fun i _ hn => f6 i ?_⟩,
      f3 ▸ .refl _, f4 ▸ .refl _⟩
  · exact fun h1 => hn ⟨o, by simp, .inl h1⟩
  · exact fun h1 => hn ⟨o, by simp, .inr (.inl h1)⟩
  · rintro rfl
    exact hn o (by simp) hb

theorem untouched_only {s s' : Heap K} (u : Untouched s s') (win : Bool) (l : List (MObs X)) : OnlyTargets win l s s' :=
  ⟨⟨u.1.1, fun i hi _ => u.1.2 i hi⟩, ⟨u.2.1.1, fun i hi _ => u.2.1.2 i hi⟩, u.2.2.1, u.2.2.2⟩

theorem maskInterp_body (ext : MExt K S) (fg : Img Nat) (bad : Nat) (bit interpBit : Nat) (fill : Bool) (iso : Nat) :
    Body false (fun s => bad < s.bool.next ∧ s.bool.arr bad = badOf fg)
      (maskInterpObs ext fg bad bit interpBit fill iso)
      (fun (o : Obs K X) (r : Option S) => Masking.maskInterpObs ext fg bit interpBit fill iso o r) := by
  intro s o r hP hex hal _
  have keep : ∀ {s' : Heap K}, OnlyTargets false [o] s s' → bad < s'.bool.next ∧ s'.bool.arr bad = badOf fg :=
    fun h => ⟨lt_of_lt_of_le hP.1 h.bool.1, (h.bool.2 bad hP.1).trans hP.2⟩
  simp only [maskInterp_eq]
  unfold maskInterpObs
  simp only [hP.2]
  have e0 : (deref s o).image = s.flt.arr o.image := rfl
  rw [e0]
  split
  · exact ⟨rfl, .refl _ _ _⟩
  cases hb : o.bmask with
  | none =>
    simp only [deref, hb, need, PyM.bind, PyM.lift, Option.map_none, Agree]
    exact ⟨trivial, .refl _ _ _⟩
  | some b =>
    have hw : (deref s o).weight = s.flt.arr o.weight := rfl
    have hbm : (deref s o).bmask = some (s.int.arr b) := by simp [deref, hb]
    simp only [hbm, need, hw]
    rw [lift_ok, bind_post _ _ _ _ _ _ _ hal]
    obtain ⟨f1, f2, f3, f4, f5, f6, f7, f8, f9⟩ := post_facts s o b (fun x => Img.zip (· ||| ·) x fg)
      (setWhere (fun r c => (badOf fg).px r c) 1) (setWhere (fun r c => (badOf fg).px r c) 0) hal
    have p1 := post_only s o b (fun x => Img.zip (· ||| ·) x fg)
      (setWhere (fun r c => (badOf fg).px r c) 1) (setWhere (fun r c => (badOf fg).px r c) 0) hal hb false
    generalize post s o b (fun x => Img.zip (· ||| ·) x fg)
      (setWhere (fun r c => (badOf fg).px r c) 1) (setWhere (fun r c => (badOf fg).px r c) 0) = s1 at *
    have hex1 : Exists s1 o := exists_mono (le_of_eq f1.symm) (le_of_eq f2.symm) hex
    have key := interpBoth_spec ext bad ((badOf fg).allPx id) fill iso o r s1 (keep p1).1 hex1
    have himg : s1.flt.arr o.image = s.flt.arr o.image :=
      f8 _ (hal.1 _ (by simp [imgs])).1 (hal.1 _ (by simp [imgs])).2
    have hno : o.noise.map s1.flt.arr = o.noise.map s.flt.arr := by
      cases hn : o.noise with
      | none => rfl
      | some n => exact congrArg some (f8 _ (hal.1 n (by simp [imgs, hn])).1 (hal.1 n (by simp [imgs, hn])).2)
    have hor : o.ormask.map s1.int.arr = o.ormask.map s.int.arr := by
      cases hom : o.ormask with
      | none => rfl
      | some i => exact congrArg some (f9 i (by rintro rfl; exact hal.2.2 i hb hom))
    rw [(keep p1).2, himg, hno, f5] at key
    rw [f5]
    have e1 : (deref s o).noise = o.noise.map s.flt.arr := rfl
    rw [e1]
    generalize (if (badOf fg).allPx id = true then Except.ok (none, none, r)
        else chain ext (badOf fg) fill iso (s.flt.arr o.image) (o.noise.map s.flt.arr)
          (ext.median ((setWhere (fun r c => (badOf fg).px r c) 0 (s.flt.arr o.weight)).toList.filter
            fun w => decide (w > 0))) r) = v at key ⊢
    rcases hx : interpBoth ext bad ((badOf fg).allPx id) fill iso o r s1 with ⟨er | ⟨x, y, r1⟩, s2⟩
    · rw [hx] at key
      rcases v with er' | v
      · obtain ⟨rfl, k2⟩ := key
        simp only [PyM.bind, hx, Agree]
        exact ⟨trivial, p1.trans (untouched_only k2 _ _) (fun _ h => h) fun _ h => h⟩
      · exact key.elim
    · rw [hx] at key
      rcases v with er' | ⟨vx, vy, vr⟩
      · exact key.elim
      · obtain ⟨k1, k2, k3, u, n1, n2⟩ := key
        simp only at k1 k2 k3 u n1 n2
        subst k1 k2 k3
        rw [bind_ok hx]
        have p2 := p1.trans (L := [o]) (untouched_only u false [o]) (fun _ h => h) fun _ h => h
        have g1 : s2.flt.arr o.weight = setWhere (fun r c => (badOf fg).px r c) 0 (s.flt.arr o.weight) :=
          (u.1.2 _ hex1.2.1).trans f5
        have g2 : o.mfrac.map s2.flt.arr = (o.mfrac.map s.flt.arr).map (setWhere (fun r c => (badOf fg).px r c) 1) := by
          rw [← f6]
          cases hm : o.mfrac with
          | none => rfl
          | some m => exact congrArg some (u.1.2 m (hex1.2.2.2.2.2 m hm))
        have g3 : s2.int.arr b = Img.zip (· ||| ·) (s.int.arr b) fg :=
          (u.2.1.2 b (hex1.2.2.2.1 b hb)).trans f7
        have g4 : o.ormask.map s2.int.arr = o.ormask.map s.int.arr := by
          rw [← hor]
          cases hom : o.ormask with
          | none => rfl
          | some m => exact congrArg some (u.2.1.2 m (hex1.2.2.2.2.1 m hom))
        have g5 : s2.flt.arr o.image = s.flt.arr o.image := (u.1.2 _ hex1.1).trans himg
        have g6 : o.noise.map s2.flt.arr = o.noise.map s.flt.arr := by
          rw [← hno]
          cases hom : o.noise with
          | none => rfl
          | some m => exact congrArg some (u.1.2 m (hex1.2.2.1 m hom))
        have hbad2 : ∀ (f : Img Nat → Img Nat) (g w : Img K → Img K),
            Agree (fun x (v : Obs K X × Option S) s' => deref s' x.1 = v.1 ∧ x.2 = v.2 ∧ Upd s s' o x.1 ∧
                OnlyTargets false [o] s s' ∧ (bad < s'.bool.next ∧ s'.bool.arr bad = badOf fg))
              (OnlyTargets false [o] s)
              (PyM.bind (updInt b f) (fun _ => PyM.bind (updOpt o.mfrac g) fun _ => PyM.bind (updFlt o.weight w)
                fun _ => PyM.pure ({ o with bmask := some b, izw := false }, r1)) s2)
              (.ok ({ deref s o with
                bmask := some (f (Img.zip (· ||| ·) (s.int.arr b) fg))
                mfrac := ((o.mfrac.map s.flt.arr).map (setWhere (fun r c => (badOf fg).px r c) 1)).map g
                izw := false
                weight := w (setWhere (fun r c => (badOf fg).px r c) 0 (s.flt.arr o.weight)) }, r1)) := by
          intro f g w
          rw [bind_post _ _ _ _ _ _ _ hal]
          have p3 := p2.trans (L := [o]) (post_only s2 o b f g w hal hb false) (fun _ h => h) fun _ h => h
          obtain ⟨q1, q2, q3, q4, q5, q6, q7, q8, q9⟩ := post_facts s2 o b f g w hal
          refine ⟨?_, rfl, ⟨rfl, hb.symm, rfl, rfl, .inl rfl, .inl rfl⟩, p3, keep p3⟩
          generalize post s2 o b f g w = s3 at *
          have r1 : s3.flt.arr o.image = s.flt.arr o.image :=
            (q8 _ (hal.1 _ (by simp [imgs])).1 (hal.1 _ (by simp [imgs])).2).trans g5
          have r2 : o.noise.map s3.flt.arr = o.noise.map s.flt.arr := by
            rw [← g6]
            cases hn : o.noise with
            | none => rfl
            | some n => exact congrArg some (q8 _ (hal.1 n (by simp [imgs, hn])).1 (hal.1 n (by simp [imgs, hn])).2)
          have r3 : o.ormask.map s3.int.arr = o.ormask.map s.int.arr := by
            rw [← g4]
            cases hom : o.ormask with
            | none => rfl
            | some i => exact congrArg some (q9 i (by rintro rfl; exact hal.2.2 i hb hom))
          simp only [PyM.pure, deref, r1, r2, r3, q5, q6, Option.map_some, q7, g1, g2, g3]
        cases x with
        | none => exact hbad2 (fun x => x.map (· ||| bit)) (fun m => m.map fun _ => 1) fun w => w.map fun _ => 0
        | some x =>
          cases y with
          | none => exact hbad2 (fun x => x.map (· ||| bit)) (fun m => m.map fun _ => 1) fun w => w.map fun _ => 0
          | some y =>
            have nx := n1 x rfl
            have ny := n2 y rfl
            simp only [Option.map_some, PyM.bind, updInt, PyM.pure]
            have p3 : OnlyTargets false [o] s { s2 with int := s2.int.write b (updWhere (fun r c => (badOf fg).px r c)
                (fun _ _ v => v ||| interpBit) (s2.int.arr b)) } := by
              refine ⟨p2.flt, ⟨p2.int.1, fun i hi hn => ?_⟩, p2.bool, p2.vec⟩
              exact (write_ne _ _ (by rintro rfl; exact hn o (by simp) hb)).trans (p2.int.2 i hi hn)
            refine ⟨?_, rfl, ⟨rfl, hb.symm, rfl, rfl, .inr ?_, .inr ⟨y, rfl, ?_⟩⟩, p3, keep p3⟩
            · have r3 : ∀ a, o.ormask.map (s2.int.write b a).arr = o.ormask.map s.int.arr := by
                intro a
                rw [← g4]
                cases hom : o.ormask with
                | none => rfl
                | some i => exact congrArg some (write_ne _ _ (by rintro rfl; exact hal.2.2 i hb hom))
              simp only [deref, hb, Option.map_some, g1, g2, g3, r3, write_self]
            · exact ⟨f1 ▸ nx.1, nx.2⟩
            · exact ⟨f1 ▸ ny.1, ny.2⟩

/-! ### the loops -/

/-- outcome of a call, and what the observations hold after it -/
def Outcome (win : Bool) (m : List (List (MObs X))) (h : Heap K)
    (out : Except PyErr (List (List (MObs X)) × S) × Heap K) (v : Run K X S) : Prop :=
  SameOutcome out v ∧ OnlyTargets win m.flatten h out.2 ∧
    ∀ r, out.1 = .ok r → ∀ q ∈ r.1.flatten, ∃ p ∈ m.flatten, Upd h out.2 p q

theorem loop_outcome {win : Bool} {P : Heap K → Prop} {e : Eff K}
    {body : MObs X → S → PyM (Heap K) (MObs X × S)} {fv : Obs K X → S → Except PyErr (Obs K X × S)}
    (h : Heap K) (m : List (List (MObs X))) (r : S) (hs : Sep h m.flatten) (hP : P h) (hbody : Body win P body fv)
    (hval : Val e fv) (hn : win = true → (m.flatten.flatMap imgs).Nodup) :
    Outcome win m h (runBands body m r h) (Masking.runBands fv (derefs h m) r) := by
  have key := runBands_res hs hbody hval m [] [] h r
    ⟨.refl _ _ _, by simp, by simp, by simp, by simp, hP⟩
    (fun o ho => by simpa using ho) (by simpa using hn)
  unfold Outcome SameOutcome
  rcases hx : runBands body m r h with ⟨er | x, s⟩
  · rw [hx] at key
    simp only [Res] at key ⊢
    cases hv : (Masking.runBands fv (derefs h m) r).err with
    | none => rw [hv] at key; exact key.elim
    | some e' =>
      rw [hv] at key
      exact ⟨key.1, key.2, fun r hr => nomatch hr⟩
  · rw [hx] at key
    simp only [Res] at key ⊢
    cases hv : (Masking.runBands fv (derefs h m) r).err with
    | some e' => rw [hv] at key; exact key.elim
    | none =>
      rw [hv] at key
      obtain ⟨k1, news, k2, k3, k4⟩ := key
      simp only [List.nil_append] at k2
      refine ⟨⟨k3 s (k2.value hs fun o ho => ho), k1⟩, k2.frame, ?_⟩
      intro r hr q hq
      cases hr
      obtain ⟨t, ht, rfl⟩ := k4 q hq
      obtain ⟨t1, t2⟩ := k2.outs t ht
      exact ⟨t.1, t1, t2.weight.1, t2.bmask.1, t2.ormask.1, t2.mfrac.1, t2.image.1, t2.noise.1⟩

theorem Upd.refl (h : Heap K) (o : MObs X) : Upd h h o o := ⟨rfl, rfl, rfl, rfl, .inl rfl, .inl rfl⟩

theorem outcome_pure (win : Bool) (m : List (List (MObs X))) (h : Heap K) (r : S) :
    Outcome win m h (PyM.pure (m, r) h) ⟨derefs h m, r, none⟩ := by
  refine ⟨⟨rfl, rfl⟩, .refl _ _ _, ?_⟩
  intro x hx q hq
  cases hx
  exact ⟨q, hq, .refl _ _⟩

theorem outcome_error (win : Bool) (m : List (List (MObs X))) (h : Heap K) (v : MbObs K X) (r : S) (e : PyErr) :
    Outcome win m h (.error e, h) ⟨v, r, some e⟩ :=
  ⟨rfl, .refl _ _ _, fun _ hx => nomatch hx⟩

theorem Usable.sep {h : Heap K} {m : List (List (MObs X))} (hu : Usable h m) : Sep h m.flatten :=
  ⟨hu.ex, hu.img, hu.wgt, hu.msk⟩

theorem first_derefs (h : Heap K) (m : List (List (MObs X))) :
    (firstShape m h = (.error .indexError, h) ∧ (derefs h m).first = .error .indexError) ∨
    ∃ o0 : Obs K X, firstShape m h = (.ok (o0.image.nr, o0.image.nc), h) ∧ (derefs h m).first = .ok o0 := by
  rcases m with _ | ⟨_ | ⟨o, l⟩, t⟩
  · exact .inl ⟨rfl, rfl⟩
  · exact .inl ⟨rfl, rfl⟩
  · exact .inr ⟨deref h o, rfl, rfl⟩

theorem bind_error {α β : Type _} {s s' : Heap K} {m : PyM (Heap K) α} {e : PyErr} {k : α → PyM (Heap K) β}
    (h : m s = (.error e, s')) : PyM.bind m k s = (.error e, s') := by simp only [PyM.bind, h]

theorem maskApodize_outcome (sq : K → K) (m : List (List (MObs X))) (holes : List (Hole K)) (symmetrize : Bool)
    (apRad : K) (bit : Nat) (rng : S) (h : Heap K) (hu : Usable h m) (ho : OwnImages m) :
    Outcome true m h (applyMaskApodize sq m holes symmetrize apRad bit rng h)
      (Masking.applyMaskApodize sq (derefs h m) holes symmetrize apRad bit rng) := by
  unfold applyMaskApodize Masking.applyMaskApodize
  rcases first_derefs h m with ⟨h1, h2⟩ | ⟨o0, h1, h2⟩
  · rw [h2, bind_error h1]
    exact outcome_error _ _ _ _ _ _
  · rw [h2, bind_ok h1]
    simp only
    cases hm : makeForegroundApMask sq holes o0.image.nr o0.image.nc symmetrize apRad with
    | error e => exact outcome_error _ _ _ _ _ _
    | ok apMask =>
      rw [lift_ok]
      simp only
      split
      · exact loop_outcome h m rng hu.sep trivial (maskApodize_body apMask bit) (maskApodize_val apMask bit) fun _ => ho
      · exact outcome_pure _ _ _ _

theorem maskInterp_outcome (ext : MExt K S) (m : List (List (MObs X))) (holes : List (Hole K)) (symmetrize : Bool)
    (bit interpBit : Nat) (fill : Bool) (iso : Nat) (rng : Option S) (h : Heap K) (hu : Usable h m) :
    Outcome false m h (applyMaskInterp ext m holes symmetrize bit interpBit fill iso rng h)
      (Masking.applyMaskInterp ext (derefs h m) holes symmetrize bit interpBit fill iso rng) := by
  unfold applyMaskInterp Masking.applyMaskInterp
  rcases first_derefs h m with ⟨h1, h2⟩ | ⟨o0, h1, h2⟩
  · rw [h2, bind_error h1]
    exact outcome_error _ _ _ _ _ _
  · rw [h2, bind_ok h1]
    simp only
    cases hm : makeForegroundBmask holes o0.image.nr o0.image.nc symmetrize bit with
    | error e => exact outcome_error _ _ _ _ _ _
    | ok fg =>
      rw [lift_ok, bind_ok (show newBool (fg.map fun v => decide (v ≠ 0)) h = (.ok h.bool.next, _) from rfl)]
      simp only
      have hu0 : Untouched h { h with bool := h.bool.push (fg.map fun v => decide (v ≠ 0)) } :=
        ⟨.refl _, .refl _, ⟨Nat.le_succ _, fun i hi => push_lt _ _ hi⟩, .refl _⟩
      have hlt : h.bool.next < ({ h with bool := h.bool.push (fg.map fun v => decide (v ≠ 0)) } : Heap K).bool.next :=
        Nat.lt_succ_self _
      have hval : ({ h with bool := h.bool.push (fg.map fun v => decide (v ≠ 0)) } : Heap K).bool.arr h.bool.next =
        badOf fg := push_self _ _
      have hd : derefs h m = derefs { h with bool := h.bool.push (fg.map fun v => decide (v ≠ 0)) } m := rfl
      have hsep : Sep { h with bool := h.bool.push (fg.map fun v => decide (v ≠ 0)) } m.flatten :=
        ⟨hu.ex, hu.img, hu.wgt, hu.msk⟩
      have hout : ∀ x v, Outcome false m ({ h with bool := h.bool.push (fg.map fun v => decide (v ≠ 0)) } : Heap K) x v →
          Outcome false m h x (v : Run K X (Option S)) := by
        intro x v hx
        refine ⟨hx.1, (untouched_only hu0 false m.flatten).trans hx.2.1 (fun _ h => h) fun _ h => h, fun r hr q hq => ?_⟩
        obtain ⟨p, hp, hpu⟩ := hx.2.2 r hr q hq
        exact ⟨p, hp, hpu.weight, hpu.bmask, hpu.ormask, hpu.mfrac, hpu.image, hpu.noise⟩
      refine hout _ _ ?_
      rw [hd]
      split
      · exact loop_outcome _ m rng hsep ⟨hlt, hval⟩ (maskInterp_body ext fg h.bool.next bit interpBit fill iso)
          (maskInterp_val ext fg bit interpBit fill iso) fun h => nomatch h
      · exact outcome_pure _ _ _ _

/-- the observations after a call can be used for the next one -/
theorem sep_next {win : Bool} {m m' : List (List (MObs X))} {h s : Heap K} (hu : Usable h m)
    (ht : OnlyTargets win m.flatten h s) (hq : ∀ q ∈ m'.flatten, ∃ p ∈ m.flatten, Upd h s p q) : Sep s m'.flatten := by
  have himgs : ∀ q ∈ m'.flatten, ∀ i ∈ imgs q, (∃ p ∈ m.flatten, i ∈ imgs p) ∨ New h.flt s.flt i := by
    intro q hqm i hi
    obtain ⟨p, hp, hpu⟩ := hq q hqm
    rcases List.mem_cons.1 hi with rfl | hi
    · exact hpu.image.imp_left fun e => ⟨p, hp, by simp [imgs, e]⟩
    · have hi : q.noise = some i := by simpa using hi
      rcases hpu.noise with e | ⟨j, e, hj⟩
      · exact .inl ⟨p, hp, by simp [imgs, ← e, hi]⟩
      · rw [hi] at e
        cases e
        exact .inr hj
  refine ⟨fun q hqm => ?_, fun q hqm q' hqm' i hi => ?_, fun q hqm q' hqm' => ?_, fun q hqm q' hqm' i hi => ?_⟩
  · obtain ⟨p, hp, hpu⟩ := hq q hqm
    have hlt : ∀ i ∈ imgs q, i < s.flt.next := by
      intro i hi
      rcases himgs q hqm i hi with ⟨p', hp', hi'⟩ | hn
      · exact lt_of_lt_of_le (exists_imgs (hu.ex p' hp') i hi') ht.flt.1
      · exact hn.2
    have hex := exists_mono ht.flt.1 ht.int.1 (hu.ex p hp)
    exact ⟨hlt _ (by simp [imgs]), hpu.weight ▸ hex.2.1, fun i hi => hlt i (by simp [imgs, hi]),
      hpu.bmask ▸ hex.2.2.2.1, hpu.ormask ▸ hex.2.2.2.2.1, hpu.mfrac ▸ hex.2.2.2.2.2⟩
  · obtain ⟨p', hp', hpu'⟩ := hq q' hqm'
    rw [hpu'.weight, hpu'.mfrac]
    rcases himgs q hqm i hi with ⟨p, hp, hi'⟩ | hn
    · exact hu.img p hp p' hp' i hi'
    · have h1 := (hu.ex p' hp').2.1
      refine ⟨fun e => ?_, fun e => ?_⟩
      · have := hn.1
        omega
      · have h2 := (hu.ex p' hp').2.2.2.2.2 i e
        have := hn.1
        omega
  · obtain ⟨p, hp, hpu⟩ := hq q hqm
    obtain ⟨p', hp', hpu'⟩ := hq q' hqm'
    rw [hpu'.mfrac, hpu.weight]
    exact hu.wgt p hp p' hp'
  · obtain ⟨p, hp, hpu⟩ := hq q hqm
    obtain ⟨p', hp', hpu'⟩ := hq q' hqm'
    rw [hpu'.ormask]
    exact hu.msk p hp p' hp' i (hpu.bmask ▸ hi)

theorem only_next {win : Bool} {m m' : List (List (MObs X))} {h s s' : Heap K} (hu : Usable h m)
    (ht : OnlyTargets win m.flatten h s) (hq : ∀ q ∈ m'.flatten, ∃ p ∈ m.flatten, Upd h s p q)
    (ht' : OnlyTargets false m'.flatten s s') : OnlyTargets win m.flatten h s' := by
  refine ⟨⟨ht.flt.1.trans ht'.flt.1, fun i hi hn => ?_⟩, ⟨ht.int.1.trans ht'.int.1, fun i hi hn => ?_⟩,
    ht.bool.trans ht'.bool, ht.vec.trans ht'.vec⟩
  · refine (ht'.flt.2 i (lt_of_lt_of_le hi ht.flt.1) ?_).trans (ht.flt.2 i hi hn)
    rintro ⟨q, hqm, hc⟩
    obtain ⟨p, hp, hpu⟩ := hq q hqm
    rcases hc with hc | hc | ⟨hc, -⟩
    · exact hn ⟨p, hp, .inl (hpu.weight ▸ hc)⟩
    · exact hn ⟨p, hp, .inr (.inl (hpu.mfrac ▸ hc))⟩
    · cases hc
  · refine (ht'.int.2 i (lt_of_lt_of_le hi ht.int.1) fun q hqm => ?_).trans (ht.int.2 i hi hn)
    obtain ⟨p, hp, hpu⟩ := hq q hqm
    rw [hpu.bmask]
    exact hn p hp

/-! ## Theorems -/

/-- C104: apodization of observations that share bmasks, weights, ormasks or masked fractions gives the same as if
they did not, and changes nothing else in memory. -/
theorem C104_apodize [FloorRing K] (mbobs : List (List (MObs X))) (apRad : K) (bit : Nat) (h : Heap K)
    (hu : Usable h mbobs) (ho : OwnImages mbobs) :
    let out := applyApodization mbobs apRad bit h
    SameOutcome out (Masking.applyApodization (derefs h mbobs) apRad bit) ∧ OnlyTargets true mbobs.flatten h out.2 := by
  intro out
  suffices hs : Outcome true mbobs h out (Masking.applyApodization (derefs h mbobs) apRad bit) from ⟨hs.1, hs.2.1⟩
  simp only [out]
  unfold applyApodization Masking.applyApodization
  rcases first_derefs h mbobs with ⟨h1, h2⟩ | ⟨o0, h1, h2⟩
  · rw [h2, bind_error h1]
    exact outcome_error _ _ _ _ _ _
  · rw [h2, bind_ok h1]
    simp only
    split
    · exact outcome_error _ _ _ _ _ _
    split
    · exact loop_outcome h mbobs () hu.sep trivial (apodize_body _ bit) (apodize_val _ bit) fun _ => ho
    · exact outcome_pure _ _ _ _

/-- C104: masking of foreground holes in observations that share bmasks, weights, ormasks or masked fractions - and
images and noise images, unless they are apodized - gives the same as if they did not.  The images and noise images
are changed only if they are apodized, and nothing else in memory is changed. -/
theorem C104_foreground (ext : MExt K S) (mbobs : List (List (MObs X))) (a : FgArgs K) (rng : Option S) (h : Heap K)
    (hu : Usable h mbobs) (ho : a.method = "apodize" → OwnImages mbobs) :
    let out := applyForeground ext mbobs a rng h
    SameOutcome out (Masking.applyForeground ext (derefs h mbobs) a rng) ∧
      OnlyTargets (decide (a.method = "apodize")) mbobs.flatten h out.2 := by
  intro out
  have h1 : Outcome (decide (a.method = "apodize")) mbobs h ((
    if a.method = "interp" then
      applyMaskInterp ext mbobs a.holes a.symmetrize a.bit a.interpBit false a.isoBuff rng
    else if a.method = "interp-noise" then
      applyMaskInterp ext mbobs a.holes a.symmetrize a.bit a.interpBit true a.isoBuff rng
    else if a.method = "apodize" then
      applyMaskApodize ext.interp.sq mbobs a.holes a.symmetrize a.apRad a.bit rng
    else PyM.throw .runtimeError) h) (
    if a.method = "interp" then
      Masking.applyMaskInterp ext (derefs h mbobs) a.holes a.symmetrize a.bit a.interpBit false a.isoBuff rng
    else if a.method = "interp-noise" then
      Masking.applyMaskInterp ext (derefs h mbobs) a.holes a.symmetrize a.bit a.interpBit true a.isoBuff rng
    else if a.method = "apodize" then
      Masking.applyMaskApodize ext.interp.sq (derefs h mbobs) a.holes a.symmetrize a.apRad a.bit rng
    else ⟨derefs h mbobs, rng, some .runtimeError⟩) := by
    by_cases m1 : a.method = "interp"
    · rw [if_pos m1, if_pos m1, show decide (a.method = "apodize") = false by rw [m1]; decide]
      exact maskInterp_outcome _ _ _ _ _ _ _ _ _ _ hu
    rw [if_neg m1, if_neg m1]
    by_cases m2 : a.method = "interp-noise"
    · rw [if_pos m2, if_pos m2, show decide (a.method = "apodize") = false by rw [m2]; decide]
      exact maskInterp_outcome _ _ _ _ _ _ _ _ _ _ hu
    rw [if_neg m2, if_neg m2]
    by_cases m3 : a.method = "apodize"
    · rw [if_pos m3, if_pos m3, show decide (a.method = "apodize") = true by rw [m3]; decide]
      exact maskApodize_outcome _ _ _ _ _ _ _ _ hu (ho m3)
    · rw [if_neg m3, if_neg m3]
      exact outcome_error _ _ _ _ _ _
  simp only [out]
  unfold applyForeground Masking.applyForeground
  revert h1
  generalize (if a.method = "interp" then
      applyMaskInterp ext mbobs a.holes a.symmetrize a.bit a.interpBit false a.isoBuff rng
    else if a.method = "interp-noise" then
      applyMaskInterp ext mbobs a.holes a.symmetrize a.bit a.interpBit true a.isoBuff rng
    else if a.method = "apodize" then
      applyMaskApodize ext.interp.sq mbobs a.holes a.symmetrize a.apRad a.bit rng
    else PyM.throw .runtimeError) = act
  generalize (if a.method = "interp" then
      Masking.applyMaskInterp ext (derefs h mbobs) a.holes a.symmetrize a.bit a.interpBit false a.isoBuff rng
    else if a.method = "interp-noise" then
      Masking.applyMaskInterp ext (derefs h mbobs) a.holes a.symmetrize a.bit a.interpBit true a.isoBuff rng
    else if a.method = "apodize" then
      Masking.applyMaskApodize ext.interp.sq (derefs h mbobs) a.holes a.symmetrize a.apRad a.bit rng
    else ⟨derefs h mbobs, rng, some .runtimeError⟩) = v
  intro h1
  simp only
  rcases hx : act h with ⟨er | x, s⟩
  · rw [hx] at h1
    rw [bind_error hx]
    cases hv : v.err with
    | none => have := h1.1; simp [SameOutcome, hv] at this
    | some e' =>
      simp only [Option.isSome_some, if_true]
      exact ⟨h1.1, h1.2.1⟩
  · rw [hx] at h1
    rw [bind_ok hx]
    obtain ⟨o1, o2, o3⟩ := h1
    have o3 := o3 x rfl
    simp only at o2 o3
    cases hv : v.err with
    | some e' => simp [SameOutcome, hv] at o1
    | none =>
      have o1' := o1
      simp only [SameOutcome, hv] at o1'
      simp only [Option.isSome_none, Bool.false_eq_true, if_false]
      split
      · rcases first_derefs s x.1 with ⟨h1, h2⟩ | ⟨o0, h1, h2⟩
        · rw [bind_error h1, ← o1'.1, h2]
          exact ⟨rfl, o2⟩
        · rw [bind_ok h1, ← o1'.1, h2]
          simp only
          cases hm : makeForegroundBmask (a.holes.map fun h => { h with rad := h.rad + a.expandRad })
              o0.image.nr o0.image.nc a.symmetrize a.expandBit with
          | error e => exact ⟨rfl, o2⟩
          | ok exp =>
            rw [lift_ok]
            simp only
            have := loop_outcome (P := fun _ => True) (win := false) s x.1 x.2 (sep_next hu o2 o3) trivial
              (expand_body exp) (expand_val exp) fun h => nomatch h
            rw [← o1'.2]
            exact ⟨this.1, only_next hu o2 o3 this.2.1⟩
      · exact ⟨o1, o2⟩

/-! ## Examples -/

/-- six float images and two masks, with values that tell them apart -/
def exHeap : Heap ℚ where
  flt := ⟨6, fun i => ⟨3, 3, fun r c => i + 1 + r + 2 * c⟩⟩
  int := ⟨2, fun i => ⟨3, 3, fun r c => if r = c then 8 * i + 8 else 0⟩⟩
  bool := ⟨0, fun _ => ⟨0, 0, fun _ _ => false⟩⟩
  vec := ⟨0, fun _ => []⟩

/-- two observations with the same weight, bmask, ormask and masked fraction -/
def exA : MObs Unit := ⟨0, 1, some 2, some 0, some 1, some 3, true, ()⟩
def exB : MObs Unit := ⟨4, 1, some 5, some 0, some 1, some 3, true, ()⟩
/-- an observation that also shares the noise image with the first -/
def exC : MObs Unit := ⟨4, 1, some 2, some 0, some 1, some 3, true, ()⟩

theorem ex_usable (o : MObs Unit) (ho : o = exB ∨ o = exC) : Usable exHeap [[exA], [o]] := by
  rcases ho with rfl | rfl <;> constructor <;>
    simp [exHeap, exA, exB, exC, imgs, Memory.Exists]

theorem ex_own : OwnImages [[exA], [exB]] := by
  simp [OwnImages, imgs, exA, exB]

example := C104_apodize [[exA], [exB]] (1 / 3) 1 exHeap (ex_usable _ (.inl rfl)) ex_own

/-- an interpolator that gives 9 everywhere -/
def exExt : MExt ℚ Nat :=
  ⟨⟨fun _ _ => .ok fun _ => 9, fun s n _ => (List.replicate n 5, s), fun x => x * x⟩, fun l => l.headD 1⟩

def exFg (method : String) : FgArgs ℚ := ⟨[⟨0, 0, 1 / 2⟩], method, 1, 1, 2, 4, false, 1 / 3, 1⟩

/-- images may be shared if they are interpolated -/
example := C104_foreground exExt [[exA], [exC]] (exFg "interp") none exHeap (ex_usable _ (.inr rfl))
  (fun h => absurd h (by decide))
example := C104_foreground exExt [[exA], [exB]] (exFg "apodize") none exHeap (ex_usable _ (.inl rfl))
  (fun _ => ex_own)

/-- the pixel in the hole is interpolated in new images, the masks and weights are changed in place, and the holes
made larger are flagged -/
example : (match applyForeground exExt [[exA], [exC]] (exFg "interp") none exHeap with
    | (.ok ([[a], [b]], _), s) => decide (6 ≤ a.image ∧ 6 ≤ b.image) && decide (a.weight = 1 ∧ b.weight = 1) &&
      decide ((s.flt.arr a.image).px 0 0 = 9) && decide ((s.flt.arr 0).px 0 0 = 1) &&
      decide ((s.flt.arr 1).px 0 0 = 0) && decide ((s.flt.arr 1).px 0 1 = 4) && decide ((s.flt.arr 3).px 0 0 = 1) &&
      decide ((s.int.arr 0).px 0 0 = 15) && decide ((s.int.arr 0).px 0 1 = 2) && decide ((s.int.arr 0).px 2 2 = 8)
    | _ => false) = true := by decide +kernel

/-- the noise in the centre of the first observation -/
def exNoise (m : MbObs ℚ Unit) : Option ℚ :=
  match m with
  | (o :: _) :: _ => o.noise.map fun n => n.px 1 1
  | _ => none

/-- C104: the noise images must not be shared by observations that are apodized: a shared one is multiplied by the
window twice. -/
theorem C104_own_images_needed : Usable exHeap [[exA], [exC]] ∧
    ¬ SameOutcome (applyApodization [[exA], [exC]] (1 / 3) 1 exHeap)
      (Masking.applyApodization (derefs exHeap [[exA], [exC]]) (1 / 3) 1) := by
  refine ⟨ex_usable _ (.inr rfl), fun hs => ?_⟩
  have k1 : (match applyApodization [[exA], [exC]] (1 / 3) 1 exHeap with
    | (.ok r, s) => decide (exNoise (derefs s r.1) = some (6 / 256))
    | _ => false) = true := by decide +kernel
  have k2 : exNoise (Masking.applyApodization (derefs exHeap [[exA], [exC]]) (1 / 3) 1).mbobs = some (6 / 16) := by
    decide +kernel
  revert hs k1 k2
  generalize applyApodization [[exA], [exC]] (1 / 3) 1 exHeap = out
  generalize Masking.applyApodization (derefs exHeap [[exA], [exC]]) (1 / 3) 1 = v
  intro hs k1 k2
  unfold SameOutcome at hs
  rcases out with ⟨er | r, s⟩
  · cases k1
  · cases hv : v.err with
    | some e => rw [hv] at hs; exact hs
    | none =>
      rw [hv] at hs
      have k1 := of_decide_eq_true k1
      rw [hs.1, k2] at k1
      exact absurd k1 (by decide +kernel)

end MD.MaskMemory
