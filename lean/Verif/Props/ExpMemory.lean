import Mathlib.Data.List.Nodup
import Verif.Model.ExpMemory
import Verif.Props.Memory
import Verif.Props.LsstMetacal
import Verif.Lemmas.PyDict

/-!
# C103: the exposures of the metacal types are separate objects

The exposures that are passed in are not changed; every exposure in the two dictionaries is a new one and none
occurs twice; what they contain is what `Verif.Model.LsstMetacal` says.
-/

set_option linter.unusedSectionVars false

namespace MD.ExpMemory

open LsstExp LsstMetacal Memory

variable {K P W S B : Type _} [Field K] [LinearOrder K]

/-! ## Specification -/

/-- SPEC: the exposures of a dictionary -/
def names (d : PyDict String Nat) : List Nat := d.map fun p => p.2

/-- SPEC: what the exposures of a dictionary contain -/
def contents (h : Exps K P W) (d : PyDict String Nat) : PyDict String (Exp K P W) :=
  d.map fun p => (p.1, h.arr p.2)

/-- SPEC: what the exposures of a multiband exposure contain -/
def mbContents (h : Exps K P W) (l : MbNames B) : MbExp B K P W := l.map fun q => (q.1, h.arr q.2)

/-- SPEC: the exposures of all types and bands -/
def mbNames (d : PyDict String (MbNames B)) : List Nat := d.flatMap fun p => p.2.map fun q => q.2

/-- SPEC: what they contain -/
def mbDict (h : Exps K P W) (d : PyDict String (MbNames B)) : PyDict String (MbExp B K P W) :=
  d.map fun p => (p.1, mbContents h p.2)

/-! ## Lemmas: dictionaries -/

section dict
variable {ν μ : Type _} (f : ν → μ)

theorem map_set (d : PyDict String ν) (k : String) (v : ν) :
    (PyDict.set d k v).map (fun p => (p.1, f p.2)) = PyDict.set (d.map fun p => (p.1, f p.2)) k (f v) := by
  induction d with
  | nil => rfl
  | cons p t ih =>
    obtain ⟨k', v'⟩ := p
    by_cases h : k' = k <;> simp [PyDict.set, h, ih]

theorem map_get? (d : PyDict String ν) (k : String) :
    PyDict.get? (d.map fun p => (p.1, f p.2)) k = (PyDict.get? d k).map f := by
  induction d with
  | nil => rfl
  | cons p t ih =>
    obtain ⟨k', v'⟩ := p
    by_cases h : k' = k <;> simp [PyDict.get?, h, ih]

end dict

theorem mem_names_set (d : PyDict String Nat) (k : String) (n x : Nat) (h : x ∈ names (PyDict.set d k n)) :
    x = n ∨ x ∈ names d := by
  induction d with
  | nil => simpa [names, PyDict.set] using h
  | cons p t ih =>
    obtain ⟨k', v'⟩ := p
    by_cases hk : k' = k
    · simp only [names, PyDict.set, hk, if_true, List.map_cons, List.mem_cons] at h ⊢
      tauto
    · simp only [names, PyDict.set, hk, if_false, List.map_cons, List.mem_cons] at h ⊢
      rcases h with h | h
      · tauto
      · have := ih h
        simp only [names] at this
        tauto

theorem nodup_names_set (d : PyDict String Nat) (k : String) (n : Nat) (hd : (names d).Nodup)
    (hn : n ∉ names d) : (names (PyDict.set d k n)).Nodup := by
  induction d with
  | nil => simp [names, PyDict.set]
  | cons p t ih =>
    obtain ⟨k', v'⟩ := p
    simp only [names, List.map_cons, List.nodup_cons, List.mem_cons, not_or] at hd hn
    by_cases hk : k' = k
    · simp only [names, PyDict.set, hk, if_true, List.map_cons, List.nodup_cons]
      exact ⟨hn.2, hd.2⟩
    · simp only [names, PyDict.set, hk, if_false, List.map_cons, List.nodup_cons]
      refine ⟨fun h => ?_, ih hd.2 hn.2⟩
      rcases mem_names_set t k n v' h with h | h
      · exact hn.1 h.symm
      · exact hd.1 h

theorem names_of_get? {d : PyDict String Nat} {k : String} {n : Nat} (h : PyDict.get? d k = some n) :
    n ∈ names d := List.mem_map.2 ⟨(k, n), PyDict.mem_of_get? h, rfl⟩

theorem contents_kept {s s' : Exps K P W} (d : PyDict String Nat) (h : ∀ x ∈ names d, s'.arr x = s.arr x) :
    contents s' d = contents s d := by
  refine List.map_congr_left fun p hp => ?_
  rw [h p.2 (List.mem_map.2 ⟨p, hp, rfl⟩)]

/-- an exposure of a dictionary changed in place -/
theorem contents_write (s : Exps K P W) (d : PyDict String Nat) (hd : (names d).Nodup) (k : String) (n : Nat)
    (h : PyDict.get? d k = some n) (x : Exp K P W) :
    contents (s.write n x) d = PyDict.set (contents s d) k x := by
  induction d with
  | nil => cases h
  | cons p t ih =>
    obtain ⟨k', v'⟩ := p
    simp only [names, List.map_cons, List.nodup_cons] at hd
    by_cases hk : k' = k
    · simp only [PyDict.get?, hk, if_true, Option.some.injEq] at h
      subst h
      have := contents_kept (s := s) (s' := s.write v' x) t fun y hy =>
        write_ne _ _ (by rintro rfl; exact hd.1 hy)
      simp only [contents] at this ⊢
      simp [PyDict.set, hk, this]
    · simp only [PyDict.get?, hk, if_false] at h
      have := ih hd.2 h
      simp only [contents] at this ⊢
      simp only [List.map_cons, PyDict.set, hk, if_false, this, List.cons.injEq, Prod.mk.injEq, true_and, and_true]
      exact write_ne _ _ (by rintro rfl; exact hd.1 (names_of_get? h))

/-! ## Lemmas: one exposure -/

theorem metacalExp_agree (ext : Ext K P W) (gal : Gal K S) (h s : Exps K P W) (hk : Kept h s) (exp : Nat)
    (hin : exp < h.next) (ctx : Ctx K S) (image : Img K) (t : String) (rot : Bool) :
    Agree (fun n e s' => Kept s s' ∧ New s s' n ∧ s'.arr n = e) (Kept h)
      (metacalExp ext gal exp ctx image t rot s)
      (LsstMetacal.metacalExp ext gal (h.arr exp) ctx image t rot) := by
  have he := hk.2 exp hin
  have hk1 : Kept h (s.push (h.arr exp)) := hk.trans (kept_push _ _)
  unfold LsstMetacal.metacalExp
  simp only [metacalExp, PyM.bind, copyExp, PyM.lift, push_self, he]
  cases shearOf (K := K) t with
  | error e => exact ⟨rfl, hk1⟩
  | ok sh =>
    simp only [push_self]
    generalize (if rot = true then Img.rot90k 3 (gal.draw ctx sh image) else gal.draw ctx sh image) = sim
    by_cases hs : sameShape (h.arr exp).image sim = true
    · rw [if_pos hs, if_pos hs]
      simp only [upd, PyM.pure]
      refine ⟨((kept_push _ _).write (le_refl _) _).write (le_refl _) _, ⟨le_refl _, Nat.lt_succ_self _⟩, ?_⟩
      simp only [write_self, push_self]
    · rw [if_neg hs, if_neg hs]
      exact ⟨rfl, hk1⟩

theorem expsLoop_fold (make : String → Except PyErr (Exp K P W)) (ts : List String)
    (d : PyDict String (Exp K P W)) :
    expsLoop make d ts = ts.foldlM (fun d t => (make t).bind fun x => .ok (PyDict.set d t x)) d := by
  induction ts generalizing d with
  | nil => rfl
  | cons t ts ih =>
    rw [List.foldlM_cons, expsLoop]
    cases make t with
    | error e => rfl
    | ok x => exact ih _

theorem metacalExps_agree (ext : Ext K P W) (gal : Gal K S) (h s : Exps K P W) (hk : Kept h s) (exp : Nat)
    (hin : exp < h.next) (stats : Option S) (types : Option (List String)) (rot : Bool) :
    Agree (fun d D s' => Kept s s' ∧ (∀ x ∈ names d, New s s' x) ∧ (names d).Nodup ∧ contents s' d = D) (Kept h)
      (metacalExps ext gal exp stats types rot s)
      (LsstMetacal.metacalExps ext gal (h.arr exp) stats types rot) := by
  have he := hk.2 exp hin
  unfold LsstMetacal.metacalExps metacalExps
  rw [he]
  simp only
  cases context ext (h.arr exp) stats with
  | error e => exact ⟨rfl, hk⟩
  | ok ctx =>
    simp only [expsLoop_fold]
    have := loop_agree (fun d D s' => Kept s s' ∧ (∀ x ∈ names d, New s s' x) ∧ (names d).Nodup ∧
        contents s' d = D) (Kept h)
      (fun d t => PyM.bind (metacalExp ext gal exp ctx (startImage (h.arr exp) rot) t rot)
        fun x => PyM.pure (PyDict.set d t x))
      (fun d t => (LsstMetacal.metacalExp ext gal (h.arr exp) ctx (startImage (h.arr exp) rot) t rot).bind
        fun x => .ok (PyDict.set d t x)) id (types.getD DEFAULT_TYPES) (by
        rintro d D s1 t - ⟨i1, i2, i3, i4⟩
        refine (metacalExp_agree ext gal h s1 (hk.trans i1) exp hin ctx _ t rot).bind ?_
        rintro n e s2 ⟨j1, ⟨j2, j3⟩, j4⟩
        have hlt : ∀ x ∈ names d, x < s1.next := fun x hx => (i2 x hx).2
        refine ⟨i1.trans j1, ?_, ?_, ?_⟩
        · intro x hx
          rcases mem_names_set d t n x hx with rfl | hx
          · exact ⟨i1.1.trans j2, j3⟩
          · exact ⟨(i2 x hx).1, lt_of_lt_of_le (i2 x hx).2 j1.1⟩
        · refine nodup_names_set d t n i3 fun hn => ?_
          have := hlt n hn
          omega
        · have := map_set s2.arr d t n
          simp only [contents] at i4 ⊢
          simp only [PyM.pure]
          rw [this, j4]
          have := contents_kept (s := s1) (s' := s2) d fun x hx => j1.2 x (hlt x hx)
          simp only [contents] at this
          rw [this, i4]
          rfl) [] [] s ⟨.refl _, by simp [names], by simp [names], rfl⟩
    rw [List.map_id] at this
    exact this

theorem noiseLoop_fold (nd : PyDict String (Exp K P W)) (ts : List String) (d : PyDict String (Exp K P W)) :
    noiseLoop nd d ts = ts.foldlM (fun d t =>
      match PyDict.get? d t, PyDict.get? nd t with
      | some e, some n => (LsstMetacal.addNoise e n).bind fun x => .ok (PyDict.set d t x)
      | _, _ => .error .keyError) d := by
  induction ts generalizing d with
  | nil => rfl
  | cons t ts ih =>
    rw [List.foldlM_cons, noiseLoop]
    cases PyDict.get? d t with
    | none => rfl
    | some e =>
      cases PyDict.get? nd t with
      | none => rfl
      | some n =>
        simp only
        cases LsstMetacal.addNoise e n with
        | error e => rfl
        | ok x => exact ih _

theorem addNoise_agree (h s : Exps K P W) (hk : Kept h s) (e n : Nat) (he : h.next ≤ e) :
    Agree (fun _ x s' => s' = ⟨s.next, (s.write e x).arr⟩ ∧ Kept h s') (Kept h) (addNoise e n s)
      (LsstMetacal.addNoise (s.arr e) (s.arr n)) := by
  unfold addNoise LsstMetacal.addNoise
  by_cases hs : sameShape (s.arr e).image (s.arr n).image = true
  · rw [if_pos hs, if_pos hs]
    refine ⟨?_, (hk.write he _).write he _⟩
    simp only [PyM.bind, upd, write_self, Mem.write, Mem.mk.injEq, true_and]
    funext j
    by_cases hj : j = e <;> simp [hj]
  · rw [if_neg hs, if_neg hs]
    exact ⟨rfl, hk⟩

/-! ## C103 -/

/-- C103: `get_metacal_exps_fixnoise` leaves the exposures it is given alone, and returns new exposures, each a
separate one. -/
theorem C103_exps (ext : Ext K P W) (gal : Gal K S) (h : Exps K P W) (exp noise : Nat)
    (hin : exp < h.next ∧ noise < h.next) (stats : Option S) (types : Option (List String)) :
    let out := metacalExpsFixnoise ext gal exp noise stats types h
    Kept h out.2 ∧
    (∀ r, out.1 = .ok r → (∀ n ∈ names r.1 ++ names r.2, New h out.2 n) ∧ (names r.1 ++ names r.2).Nodup) ∧
    out.1.map (fun r => (contents out.2 r.1, contents out.2 r.2)) =
      LsstMetacal.metacalExpsFixnoise ext gal (h.arr exp) (h.arr noise) stats types := by
  intro out
  let ts := types.getD DEFAULT_TYPES
  have hall : Agree (fun r R s => Kept h s ∧ ((∀ n ∈ names r.1 ++ names r.2, New h s n) ∧
      (names r.1 ++ names r.2).Nodup) ∧ (contents s r.1, contents s r.2) = R) (Kept h) out
      (LsstMetacal.metacalExpsFixnoise ext gal (h.arr exp) (h.arr noise) stats types) := by
    have e : LsstMetacal.metacalExpsFixnoise ext gal (h.arr exp) (h.arr noise) stats types =
        (LsstMetacal.metacalExps ext gal (h.arr exp) stats (some ts) false).bind fun d =>
        (LsstMetacal.metacalExps ext gal (h.arr noise) stats (some ts) true).bind fun nd =>
        (noiseLoop nd d ts).bind fun d' => .ok (d', nd) := by
      unfold LsstMetacal.metacalExpsFixnoise
      simp only
      generalize LsstMetacal.metacalExps ext gal (h.arr exp) stats _ false = z1
      cases z1 with
      | error e => rfl
      | ok d =>
        simp only [Except.bind]
        generalize LsstMetacal.metacalExps ext gal (h.arr noise) stats _ true = z2
        cases z2 with
        | error e => rfl
        | ok nd =>
          simp only
          generalize noiseLoop nd d _ = z3
          cases z3 <;> rfl
    rw [e]
    refine (metacalExps_agree ext gal h h (.refl _) exp hin.1 stats (some ts) false).bind ?_
    rintro d D s1 ⟨d1, d2, d3, d4⟩
    refine (metacalExps_agree ext gal h s1 d1 noise hin.2 stats (some ts) true).bind ?_
    rintro nd ND s2 ⟨n1, n2, n3, n4⟩
    have hdis : ∀ x ∈ names d, x ∉ names nd := fun x hx hx' => by
      have := (d2 x hx).2
      have := (n2 x hx').1
      omega
    have hD : contents s2 d = D := by
      rw [← d4]
      exact contents_kept d fun x hx => n1.2 x (d2 x hx).2
    have := loop_agree (fun (_ : Unit) D s => Kept h s ∧ s.next = s2.next ∧ contents s d = D ∧ contents s nd = ND)
      (Kept h)
      (fun _ t =>
        match PyDict.get? d t, PyDict.get? nd t with
        | some e, some n => addNoise e n
        | _, _ => PyM.throw .keyError)
      (fun D t =>
        match PyDict.get? D t, PyDict.get? ND t with
        | some e, some n => (LsstMetacal.addNoise e n).bind fun x => .ok (PyDict.set D t x)
        | _, _ => .error .keyError) id ts (by
        rintro - D s t - ⟨i1, i2, i3, i4⟩
        have g1 : PyDict.get? D t = (PyDict.get? d t).map s.arr := by rw [← i3]; exact map_get? _ _ _
        have g2 : PyDict.get? ND t = (PyDict.get? nd t).map s.arr := by rw [← i4]; exact map_get? _ _ _
        simp only [id, g1, g2]
        cases q1 : PyDict.get? d t with
        | none => exact ⟨rfl, i1⟩
        | some e =>
          cases q2 : PyDict.get? nd t with
          | none => exact ⟨rfl, i1⟩
          | some n =>
            simp only [Option.map_some]
            have he := names_of_get? q1
            have ha := addNoise_agree h s i1 e n (d2 e he).1
            have : Agree _ (Kept h) (PyM.bind (addNoise e n) (fun _ => PyM.pure ()) s)
                ((LsstMetacal.addNoise (s.arr e) (s.arr n)).bind fun x => .ok (PyDict.set D t x)) :=
              ha.bind (I' := fun (_ : Unit) D s => Kept h s ∧ s.next = s2.next ∧ contents s d = D ∧
                contents s nd = ND) (by
                rintro u x s' ⟨rfl, hk'⟩
                refine ⟨hk', i2, ?_, ?_⟩
                · rw [← i3]
                  exact contents_write s d d3 t e q1 x
                · rw [← i4]
                  exact contents_kept nd fun y hy => write_ne _ _ (by rintro rfl; exact hdis _ he hy))
            have e' : PyM.bind (addNoise e n) (fun _ => PyM.pure ()) s = addNoise e n s := by
              unfold PyM.bind
              rcases addNoise e n s with ⟨e | _, s'⟩ <;> rfl
            rw [e'] at this
            exact this) () D s2 ⟨d1.trans n1, rfl, hD, n4⟩
    rw [List.map_id, ← noiseLoop_fold] at this
    refine this.bind ?_
    rintro - D' s3 ⟨k1, k2, k3, k4⟩
    refine ⟨k1, ⟨?_, ?_⟩, by simp only [PyM.pure, k3, k4]⟩
    · intro x hx
      rcases List.mem_append.1 hx with hx | hx
      · refine ⟨(d2 x hx).1, ?_⟩
        have := (d2 x hx).2
        have := n1.1
        simp only [PyM.pure]
        omega
      · refine ⟨d1.1.trans (n2 x hx).1, ?_⟩
        have := (n2 x hx).2
        simp only [PyM.pure]
        omega
    · exact List.nodup_append.2 ⟨d3, n3, fun x hx y hy e => hdis x hx (e ▸ hy)⟩
  exact hall.out (fun r s => (contents s r.1, contents s r.2)) (fun r s => (∀ n ∈ names r.1 ++ names r.2, New h s n) ∧
    (names r.1 ++ names r.2).Nodup) fun b c s hI => ⟨hI.2.2, hI.2.1, hI.1⟩

/-! ## Lemmas: several bands -/

theorem mbContents_kept {s s' : Exps K P W} (l : MbNames B) (h : ∀ q ∈ l, s'.arr q.2 = s.arr q.2) :
    mbContents s' l = mbContents s l := List.map_congr_left fun q hq => by rw [h q hq]

theorem mbDict_kept {s s' : Exps K P W} (d : PyDict String (MbNames B))
    (h : ∀ x ∈ mbNames d, s'.arr x = s.arr x) : mbDict s' d = mbDict s d := by
  refine List.map_congr_left fun p hp => ?_
  rw [mbContents_kept p.2 fun q hq => h q.2 (List.mem_flatMap.2 ⟨p, hp, List.mem_map.2 ⟨q, hq, rfl⟩⟩)]

theorem mbNames_append (d : PyDict String (MbNames B)) (k : String) (b : B) (n : Nat) :
    (mbNames (PyDict.set d k ((PyDict.get? d k).getD [] ++ [(b, n)]))).Perm (n :: mbNames d) := by
  induction d with
  | nil => simp [mbNames, PyDict.set, PyDict.get?]
  | cons p t ih =>
    obtain ⟨k', v'⟩ := p
    by_cases hk : k' = k
    · simp only [mbNames, PyDict.set, PyDict.get?, hk, if_true, Option.getD_some, List.flatMap_cons, List.map_append,
        List.map_cons, List.map_nil, List.append_assoc]
      exact List.perm_middle
    · simp only [mbNames, PyDict.set, PyDict.get?, hk, if_false, List.flatMap_cons] at ih ⊢
      exact (List.Perm.append_left _ ih).trans List.perm_middle

theorem appendBand_names (b : B) (md : PyDict String Nat) (d : PyDict String (MbNames B)) :
    (mbNames (appendBand b md d)).Perm (names md ++ mbNames d) := by
  induction md generalizing d with
  | nil => exact .refl _
  | cons p t ih =>
    refine (ih _).trans ?_
    refine (List.Perm.append_left _ (mbNames_append d p.1 b p.2)).trans ?_
    exact List.perm_middle

theorem appendBand_contents (s : Exps K P W) (b : B) (md : PyDict String Nat) (d : PyDict String (MbNames B)) :
    mbDict s (appendBand b md d) = LsstMetacal.appendBand b (contents s md) (mbDict s d) := by
  induction md generalizing d with
  | nil => rfl
  | cons p t ih =>
    refine (ih _).trans ?_
    simp only [LsstMetacal.appendBand, contents, List.map_cons, List.foldl_cons]
    congr 1
    have e1 := map_set (mbContents s) d p.1 ((PyDict.get? d p.1).getD [] ++ [(b, p.2)])
    have e2 := map_get? (mbContents s) d p.1
    simp only [mbDict] at e1 e2 ⊢
    rw [e1, e2]
    congr 1
    cases PyDict.get? d p.1 <;> simp [mbContents]

theorem bandLoop_agree (h : Exps K P W) (make : Nat → Option S → PyM (Exps K P W) (PyDict String Nat))
    (vmake : Exp K P W → Option S → Except PyErr (PyDict String (Exp K P W)))
    (hmake : ∀ s e st, Kept h s → e < h.next →
      Agree (fun d D s' => Kept s s' ∧ (∀ x ∈ names d, New s s' x) ∧ (names d).Nodup ∧ contents s' d = D) (Kept h)
        (make e st s) (vmake (h.arr e) st))
    (s0 : Exps K P W) (l : MbNames B) (hl : ∀ q ∈ l, q.2 < h.next) :
    ∀ (d : PyDict String (MbNames B)) (stats : Option (List S)) (s : Exps K P W), Kept h s0 → Kept s0 s →
      (∀ x ∈ mbNames d, New s0 s x) → (mbNames d).Nodup →
      Agree (fun d D s' => Kept s0 s' ∧ (∀ x ∈ mbNames d, New s0 s' x) ∧ (mbNames d).Nodup ∧ mbDict s' d = D)
        (Kept h) (bandLoop make d l stats s)
        (LsstMetacal.bandLoop vmake (mbDict s d) (mbContents h l) stats) := by
  induction l with
  | nil => exact fun d stats s hk hks h1 h2 => ⟨hks, h1, h2, rfl⟩
  | cons q t ih =>
    obtain ⟨b, e⟩ := q
    intro d stats s hk hks h1 h2
    have e1 : LsstMetacal.bandLoop vmake (mbDict s d) (mbContents h ((b, e) :: t)) stats =
        (vmake (h.arr e) (stats.bind List.head?)).bind fun md =>
          LsstMetacal.bandLoop vmake (LsstMetacal.appendBand b md (mbDict s d)) (mbContents h t)
            (stats.map List.tail) := by
      simp only [mbContents, List.map_cons, LsstMetacal.bandLoop]
      cases vmake (h.arr e) (stats.bind List.head?) <;> rfl
    rw [e1]
    refine (hmake s e _ (hk.trans hks) (hl (b, e) (by simp))).bind ?_
    rintro md D s1 ⟨m1, m2, m3, m4⟩
    have hperm := appendBand_names b md d
    have hd : mbDict s1 d = mbDict s d := mbDict_kept d fun x hx => m1.2 x (h1 x hx).2
    have := ih (fun q hq => hl q (by simp [hq])) (appendBand b md d) (stats.map List.tail) s1 hk (hks.trans m1)
      (by
        intro x hx
        rcases List.mem_append.1 (hperm.mem_iff.1 hx) with hx | hx
        · exact ⟨hks.1.trans (m2 x hx).1, (m2 x hx).2⟩
        · exact ⟨(h1 x hx).1, lt_of_lt_of_le (h1 x hx).2 m1.1⟩)
      (hperm.nodup_iff.2 (List.nodup_append.2 ⟨m3, h2, fun x hx y hy e => by
        have := (m2 x hx).1
        have := (h1 y hy).2
        omega⟩))
    rw [appendBand_contents, m4, hd] at this
    exact this

/-- the dictionary of the multiband exposures: the lists of the types, in the order of the types -/
theorem collect (lists : PyDict String (MbNames B)) (hl : (mbNames lists).Nodup) (ts : List String)
    (r : PyDict String (MbNames B)) (hk : r.Ok) (h1 : ∀ p ∈ r, p.2 = (PyDict.get? lists p.1).getD []) :
    let r' := ts.foldl (fun d t => PyDict.set d t ((PyDict.get? lists t).getD [])) r
    r'.Ok ∧ ∀ p ∈ r', p.2 = (PyDict.get? lists p.1).getD [] := by
  induction ts generalizing r with
  | nil => exact ⟨hk, h1⟩
  | cons t ts ih =>
    refine ih _ (hk.set _ _) ?_
    intro p hp
    have := PyDict.get?_of_mem (hk.set t _) hp
    rw [PyDict.get?_set] at this
    split at this
    · rename_i e
      have := Option.some.inj this
      rw [← this, e]
    · exact h1 p (PyDict.mem_of_get? this)

theorem mbNames_disjoint {d : PyDict String (MbNames B)} (hd : (mbNames d).Nodup) {k k' : String}
    (hne : k ≠ k') {l l' : MbNames B} (h : PyDict.get? d k = some l) (h' : PyDict.get? d k' = some l') :
    ∀ x ∈ l.map (·.2), x ∉ l'.map (·.2) := by
  induction d with
  | nil => cases h
  | cons p t ih =>
    obtain ⟨k0, v0⟩ := p
    simp only [mbNames, List.flatMap_cons] at hd
    rw [List.nodup_append] at hd
    obtain ⟨_, hd2, hd3⟩ := hd
    have key : ∀ {k l}, PyDict.get? t k = some l → ∀ x ∈ l.map (·.2), x ∈ t.flatMap fun p => p.2.map (·.2) :=
      fun h x hx => List.mem_flatMap.2 ⟨_, PyDict.mem_of_get? h, hx⟩
    simp only [PyDict.get?] at h h'
    intro x hx hx'
    split at h
    · split at h'
      · rename_i a b
        exact hne (a.symm.trans b)
      · cases h
        exact hd3 x hx x (key h' x hx') rfl
    · split at h'
      · cases h'
        exact hd3 x hx' x (key h x hx) rfl
      · exact ih hd2 h h' x hx hx'

theorem nodup_part {d : PyDict String (MbNames B)} (hd : (mbNames d).Nodup) {k : String} {l : MbNames B}
    (h : PyDict.get? d k = some l) : (l.map (·.2)).Nodup := by
  have hm := PyDict.mem_of_get? h
  simp only [mbNames] at hd
  rw [List.nodup_flatMap] at hd
  exact hd.1 _ hm

theorem collect_names (lists : PyDict String (MbNames B)) (hl : (mbNames lists).Nodup) (r : PyDict String (MbNames B))
    (hk : r.Ok) (h1 : ∀ p ∈ r, p.2 = (PyDict.get? lists p.1).getD []) :
    (mbNames r).Nodup ∧ ∀ x ∈ mbNames r, x ∈ mbNames lists := by
  have hsub : ∀ p ∈ r, ∀ x ∈ p.2.map (·.2), ∃ l, PyDict.get? lists p.1 = some l ∧ x ∈ l.map (·.2) := by
    intro p hp x hx
    rw [h1 p hp] at hx
    cases hg : PyDict.get? lists p.1 with
    | none => simp [hg] at hx
    | some l => rw [hg] at hx; exact ⟨l, rfl, hx⟩
  constructor
  · simp only [mbNames]
    rw [List.nodup_flatMap]
    constructor
    · intro p hp
      rw [h1 p hp]
      cases hg : PyDict.get? lists p.1 with
      | none => simp
      | some l => exact nodup_part hl hg
    · have : r.Pairwise fun p q => p.1 ≠ q.1 := by
        have := hk
        simp only [PyDict.Ok, PyDict.keys] at this
        exact List.pairwise_map.1 this
      refine this.imp_of_mem ?_
      intro p q hp hq hne x hx hx'
      obtain ⟨l, g, a⟩ := hsub p hp x hx
      obtain ⟨l', g', a'⟩ := hsub q hq x hx'
      exact mbNames_disjoint hl hne g g' x a a'
  · intro x hx
    obtain ⟨p, hp, hx⟩ := List.mem_flatMap.1 hx
    obtain ⟨l, g, a⟩ := hsub p hp x hx
    exact List.mem_flatMap.2 ⟨_, PyDict.mem_of_get? g, a⟩

theorem foldl_dict (s : Exps K P W) (g : String → MbNames B) (ts : List String) (r : PyDict String (MbNames B)) :
    mbDict s (ts.foldl (fun d t => PyDict.set d t (g t)) r) =
      ts.foldl (fun d t => PyDict.set d t (mbContents s (g t))) (mbDict s r) := by
  induction ts generalizing r with
  | nil => rfl
  | cons t ts ih =>
    refine (ih _).trans ?_
    rw [List.foldl_cons]
    congr 1
    exact map_set _ _ _ _

theorem emptyLists (ts : List String) (d : PyDict String (MbNames B)) (hd : mbNames d = []) :
    mbNames (ts.foldl (fun d t => PyDict.set d t []) d) = [] := by
  induction ts generalizing d with
  | nil => exact hd
  | cons t ts ih =>
    refine ih _ ?_
    simp only [mbNames, List.flatMap_eq_nil_iff] at hd ⊢
    intro p hp
    clear ih
    induction d with
    | nil => simp only [PyDict.set, List.mem_cons, List.not_mem_nil, or_false] at hp; rw [hp]; rfl
    | cons q r ihd =>
      simp only [PyDict.set] at hp
      split at hp
      · rcases List.mem_cons.1 hp with rfl | hp
        · rfl
        · exact hd p (by simp [hp])
      · rcases List.mem_cons.1 hp with rfl | hp
        · exact hd _ (by simp)
        · exact ihd (fun x hx => hd x (by simp [hx])) hp

theorem metacalMbexps_agree (ext : Ext K P W) (gal : Gal K S) (h s : Exps K P W) (hk : Kept h s)
    (mbexp : MbNames B) (hin : ∀ q ∈ mbexp, q.2 < h.next) (types : Option (List String)) (rot : Bool)
    (stats : Option (List S)) :
    Agree (fun d D s' => Kept s s' ∧ (∀ x ∈ mbNames d, New s s' x) ∧ (mbNames d).Nodup ∧ mbDict s' d = D) (Kept h)
      (metacalMbexps ext gal mbexp types rot stats s)
      (LsstMetacal.metacalMbexps ext gal (mbContents h mbexp) types rot stats) := by
  unfold metacalMbexps LsstMetacal.metacalMbexps
  have hlen : (mbContents h mbexp).length = mbexp.length := by simp [mbContents]
  rw [hlen]
  simp only
  by_cases hs : (stats.map fun s => decide (s.length = mbexp.length)).getD true = true
  · rw [if_pos hs, if_pos hs]
    generalize types.getD DEFAULT_TYPES = ts
    have h0 := emptyLists (B := B) ts [] rfl
    have hb := bandLoop_agree h (fun e s => metacalExps ext gal e s (some ts) rot)
      (fun e s => LsstMetacal.metacalExps ext gal e s (some ts) rot)
      (fun s e st hs he => metacalExps_agree ext gal h s hs e he st (some ts) rot) s mbexp hin
      (ts.foldl (fun d t => PyDict.set d t []) []) stats s hk (.refl _) (by rw [h0]; simp) (by rw [h0]; simp)
    have e0 : mbDict s (ts.foldl (fun d t => PyDict.set d t ([] : MbNames B)) []) =
        ts.foldl (fun d t => PyDict.set d t []) [] := foldl_dict s (fun _ => []) ts []
    rw [e0] at hb
    have hc := hb.bind (f := fun lists => PyM.pure
        (ts.foldl (fun d t => PyDict.set d t ((PyDict.get? lists t).getD [])) []))
      (g := fun lists => .ok (ts.foldl (fun d t => PyDict.set d t ((PyDict.get? lists t).getD [])) []))
      (I' := fun d D s' => Kept s s' ∧ (∀ x ∈ mbNames d, New s s' x) ∧ (mbNames d).Nodup ∧ mbDict s' d = D) ?_
    · revert hc
      generalize LsstMetacal.bandLoop _ _ _ _ = z
      cases z <;> exact id
    rintro lists L s1 ⟨b1, b2, b3, b4⟩
    obtain ⟨c1, c2⟩ := collect lists b3 ts [] (by simp [PyDict.Ok, PyDict.keys]) (by simp)
    obtain ⟨c3, c4⟩ := collect_names lists b3 _ c1 c2
    refine ⟨b1, fun x hx => b2 x (c4 x hx), c3, ?_⟩
    rw [← b4]
    refine (foldl_dict s1 (fun t => (PyDict.get? lists t).getD []) ts []).trans ?_
    have : ∀ t, mbContents s1 ((PyDict.get? lists t).getD []) = (PyDict.get? (mbDict s1 lists) t).getD [] := by
      intro t
      have := map_get? (mbContents s1) lists t
      simp only [mbDict]
      rw [this]
      cases PyDict.get? lists t <;> rfl
    simp only [this]
    rfl
  · rw [if_neg hs, if_neg hs]
    exact ⟨rfl, hk⟩

/-- adding the noise of one type -/
theorem addNoises_agree (h : Exps K P W) (l : MbNames B) :
    ∀ (nl : MbNames B) (s : Exps K P W), Kept h s → (∀ q ∈ l, h.next ≤ q.2) → (l.map (·.2)).Nodup →
      (∀ x ∈ l.map (·.2), x ∉ nl.map (·.2)) →
      Agree (fun (_ : Unit) R s' => Kept h s' ∧ s'.next = s.next ∧ (∀ x, x ∉ l.map (·.2) → s'.arr x = s.arr x) ∧
          mbContents s' l = R) (Kept h) (loop (fun _ q => addNoise q.1.2 q.2.2) () (l.zip nl) s)
        (addNoises (mbContents s l) (mbContents s nl)) := by
  induction l with
  | nil => exact fun nl s hk _ _ _ => ⟨hk, rfl, fun _ _ => rfl, rfl⟩
  | cons q t ih =>
    intro nl s hk h1 h2 h3
    cases nl with
    | nil => exact ⟨hk, rfl, fun _ _ => rfl, rfl⟩
    | cons n nt =>
      obtain ⟨b, e⟩ := q
      obtain ⟨b', n⟩ := n
      simp only [List.map_cons, List.nodup_cons] at h2
      have hen : ∀ x, x ∈ nt.map (·.2) → x ≠ e := by
        rintro x hx rfl
        exact h3 x (by simp) (by simp only [List.map_cons, List.mem_cons]; exact .inr hx)
      have e1 : addNoises (mbContents s ((b, e) :: t)) (mbContents s ((b', n) :: nt)) =
          (LsstMetacal.addNoise (s.arr e) (s.arr n)).bind fun x =>
            (addNoises (mbContents s t) (mbContents s nt)).bind fun r => .ok ((b, x) :: r) := by
        simp only [mbContents, List.map_cons, addNoises]
        generalize LsstMetacal.addNoise (s.arr e) (s.arr n) = z1
        cases z1 with
        | error er => rfl
        | ok x =>
          simp only [Except.bind]
          generalize addNoises (t.map fun q => (q.1, s.arr q.2)) _ = z2
          cases z2 <;> rfl
      rw [e1, List.zip_cons_cons, loop]
      refine (addNoise_agree h s hk e n (h1 (b, e) (by simp))).bind ?_
      rintro - x s1 ⟨rfl, k1⟩
      have c1 : ∀ (l : MbNames B), (∀ x ∈ l.map (·.2), x ≠ e) →
          mbContents (⟨s.next, (s.write e x).arr⟩ : Exps K P W) l = mbContents s l := fun l hl =>
        mbContents_kept l fun q hq => write_ne _ _ (hl q.2 (List.mem_map.2 ⟨q, hq, rfl⟩))
      have := ih nt ⟨s.next, (s.write e x).arr⟩ k1 (fun q hq => h1 q (by simp [hq])) h2.2
        (fun y hy hy' => h3 y (by simp only [List.map_cons, List.mem_cons]; exact .inr hy)
          (by simp only [List.map_cons, List.mem_cons]; exact .inr hy'))
      rw [c1 t (by rintro y hy rfl; exact h2.1 hy), c1 nt hen] at this
      have hb := Agree.bind (f := fun _ => PyM.pure ()) (g := fun r => .ok ((b, x) :: r))
        (I' := fun (_ : Unit) R s' => Kept h s' ∧ s'.next = s.next ∧
          (∀ y, y ∉ ((b, e) :: t).map (·.2) → s'.arr y = s.arr y) ∧ mbContents s' ((b, e) :: t) = R) this (by
        rintro - r s2 ⟨i1, i2, i3, i4⟩
        refine ⟨i1, i2, ?_, ?_⟩
        · intro y hy
          simp only [List.map_cons, List.mem_cons, not_or] at hy
          simp only [PyM.pure]
          rw [i3 y hy.2]
          exact write_ne _ _ hy.1
        · simp only [PyM.pure, mbContents, List.map_cons] at i4 ⊢
          rw [i4, i3 e h2.1]
          simp)
      have e' : ∀ (m : PyM (Exps K P W) Unit) s, PyM.bind m (fun _ => PyM.pure ()) s = m s := by
        intro m s
        unfold PyM.bind
        rcases m s with ⟨e | _, s'⟩ <;> rfl
      rw [e'] at hb
      exact hb

theorem fixLoop_agree (h : Exps K P W) (nd : PyDict String (MbNames B)) (E : List (String × MbNames B)) :
    ∀ s : Exps K P W, Kept h s → (∀ x ∈ mbNames E, h.next ≤ x) → (mbNames E).Nodup →
      (∀ x ∈ mbNames E, x ∉ mbNames nd) →
      Agree (fun (_ : Unit) R s' => Kept h s' ∧ s'.next = s.next ∧ (∀ x, x ∉ mbNames E → s'.arr x = s.arr x) ∧
          mbDict s' E = R) (Kept h) (fixLoop nd E s) (LsstMetacal.fixLoop (mbDict s nd) (mbDict s E)) := by
  induction E with
  | nil => exact fun s hk _ _ _ => ⟨hk, rfl, fun _ _ => rfl, rfl⟩
  | cons p rest ih =>
    obtain ⟨ty, l⟩ := p
    intro s hk h1 h2 h3
    have hsplit : mbNames ((ty, l) :: rest) = l.map (·.2) ++ mbNames rest := rfl
    rw [hsplit] at h1 h2 h3
    rw [List.nodup_append] at h2
    obtain ⟨n1, n2, n3⟩ := h2
    have eg : PyDict.get? (mbDict s nd) ty = (PyDict.get? nd ty).map (mbContents s) := map_get? _ _ _
    have e1 : LsstMetacal.fixLoop (mbDict s nd) (mbDict s ((ty, l) :: rest)) =
        match (PyDict.get? nd ty).map (mbContents s) with
        | none => .error .keyError
        | some nl => (addNoises (mbContents s l) nl).bind fun l' =>
            (LsstMetacal.fixLoop (mbDict s nd) (mbDict s rest)).bind fun r => .ok ((ty, l') :: r) := by
      have : mbDict s ((ty, l) :: rest) = (ty, mbContents s l) :: mbDict s rest := rfl
      rw [this, LsstMetacal.fixLoop, eg]
      cases (PyDict.get? nd ty).map (mbContents s) with
      | none => rfl
      | some nl =>
        simp only
        generalize addNoises (mbContents s l) nl = z1
        cases z1 with
        | error er => rfl
        | ok l' =>
          simp only [Except.bind]
          generalize LsstMetacal.fixLoop (mbDict s nd) (mbDict s rest) = z2
          cases z2 <;> rfl
    rw [e1]
    unfold fixLoop
    rw [loop]
    cases hg : PyDict.get? nd ty with
    | none => 
      simp only [hg, Option.map_none, PyM.bind, PyM.throw]
      exact ⟨rfl, hk⟩
    | some nl =>
      simp only [hg, Option.map_some]
      have hnl : ∀ x ∈ nl.map (·.2), x ∈ mbNames nd := fun x hx =>
        List.mem_flatMap.2 ⟨_, PyDict.mem_of_get? hg, hx⟩
      refine (addNoises_agree h l nl s hk
        (fun q hq => h1 q.2 (List.mem_append_left _ (List.mem_map.2 ⟨q, hq, rfl⟩))) n1
        (fun x hx hx' => h3 x (List.mem_append_left _ hx) (hnl x hx'))).bind ?_
      rintro - l' s1 ⟨k1, k2, k3, k4⟩
      have hr : mbDict s1 rest = mbDict s rest := mbDict_kept rest fun x hx => k3 x fun hx' => n3 x hx' x hx rfl
      have hn : mbDict s1 nd = mbDict s nd := mbDict_kept nd fun x hx => k3 x fun hx' =>
        h3 x (List.mem_append_left _ hx') hx
      have := ih s1 k1 (fun x hx => h1 x (List.mem_append_right _ hx)) n2
        (fun x hx => h3 x (List.mem_append_right _ hx))
      rw [hr, hn] at this
      have hb := Agree.bind (f := fun _ => PyM.pure ()) (g := fun r => .ok ((ty, l') :: r))
        (I' := fun (_ : Unit) R s' => Kept h s' ∧ s'.next = s.next ∧
          (∀ y, y ∉ mbNames ((ty, l) :: rest) → s'.arr y = s.arr y) ∧ mbDict s' ((ty, l) :: rest) = R) this (by
        rintro - r s2 ⟨i1, i2, i3, i4⟩
        refine ⟨i1, i2.trans k2, ?_, ?_⟩
        · intro y hy
          rw [hsplit, List.mem_append, not_or] at hy
          exact (i3 y hy.2).trans (k3 y hy.1)
        · have hl : mbContents s2 l = l' := by
            rw [← k4]
            refine mbContents_kept l fun q hq => i3 q.2 fun hx => n3 q.2 (List.mem_map.2 ⟨q, hq, rfl⟩) q.2 hx rfl
          simp only [PyM.pure]
          change (ty, mbContents s2 l) :: mbDict s2 rest = _
          rw [hl, i4])
      have e' : ∀ (m : PyM (Exps K P W) Unit) s, PyM.bind m (fun _ => PyM.pure ()) s = m s := by
        intro m s
        unfold PyM.bind
        rcases m s with ⟨e | _, s'⟩ <;> rfl
      rw [e'] at hb
      exact hb

/-- C103: the same for the exposures of several bands. -/
theorem C103_mbexps (ext : Ext K P W) (gal : Gal K S) (h : Exps K P W) (mbexp noise : MbNames B)
    (hin : ∀ q ∈ mbexp ++ noise, q.2 < h.next) (types : Option (List String)) (stats : Option (List S)) :
    let out := metacalMbexpsFixnoise ext gal mbexp noise types stats h
    Kept h out.2 ∧
    (∀ r, out.1 = .ok r → (∀ n ∈ mbNames r.1 ++ mbNames r.2, New h out.2 n) ∧
      (mbNames r.1 ++ mbNames r.2).Nodup) ∧
    out.1.map (fun r => (mbDict out.2 r.1, mbDict out.2 r.2)) =
      LsstMetacal.metacalMbexpsFixnoise ext gal (mbContents h mbexp) (mbContents h noise) types stats := by
  intro out
  have hall : Agree (fun r R s => Kept h s ∧ ((∀ n ∈ mbNames r.1 ++ mbNames r.2, New h s n) ∧
      (mbNames r.1 ++ mbNames r.2).Nodup) ∧ (mbDict s r.1, mbDict s r.2) = R) (Kept h) out
      (LsstMetacal.metacalMbexpsFixnoise ext gal (mbContents h mbexp) (mbContents h noise) types stats) := by
    have e : LsstMetacal.metacalMbexpsFixnoise ext gal (mbContents h mbexp) (mbContents h noise) types stats =
        (LsstMetacal.metacalMbexps ext gal (mbContents h mbexp) types false stats).bind fun d =>
        (LsstMetacal.metacalMbexps ext gal (mbContents h noise) types true stats).bind fun nd =>
        (LsstMetacal.fixLoop nd d).bind fun d' => .ok (d', nd) := by
      unfold LsstMetacal.metacalMbexpsFixnoise
      generalize LsstMetacal.metacalMbexps ext gal (mbContents h mbexp) types false stats = z1
      cases z1 with
      | error e => rfl
      | ok d =>
        simp only [Except.bind]
        generalize LsstMetacal.metacalMbexps ext gal (mbContents h noise) types true stats = z2
        cases z2 with
        | error e => rfl
        | ok nd =>
          simp only
          generalize LsstMetacal.fixLoop nd d = z3
          cases z3 <;> rfl
    rw [e]
    refine (metacalMbexps_agree ext gal h h (.refl _) mbexp (fun q hq => hin q (by simp [hq])) types false
      stats).bind ?_
    rintro d D s1 ⟨d1, d2, d3, d4⟩
    refine (metacalMbexps_agree ext gal h s1 d1 noise (fun q hq => hin q (by simp [hq])) types true stats).bind ?_
    rintro nd ND s2 ⟨n1, n2, n3, n4⟩
    have hdis : ∀ x ∈ mbNames d, x ∉ mbNames nd := fun x hx hx' => by
      have := (d2 x hx).2
      have := (n2 x hx').1
      omega
    have hD : mbDict s2 d = D := by
      rw [← d4]
      exact mbDict_kept d fun x hx => n1.2 x (d2 x hx).2
    have := fixLoop_agree h nd d s2 (d1.trans n1) (fun x hx => (d2 x hx).1) d3 hdis
    rw [hD, n4] at this
    refine this.bind ?_
    rintro - D' s3 ⟨k1, k2, k3, k4⟩
    refine ⟨k1, ⟨?_, ?_⟩, ?_⟩
    · intro x hx
      rcases List.mem_append.1 hx with hx | hx
      · refine ⟨(d2 x hx).1, ?_⟩
        have := (d2 x hx).2
        have := n1.1
        simp only [PyM.pure]
        omega
      · refine ⟨d1.1.trans (n2 x hx).1, ?_⟩
        have := (n2 x hx).2
        simp only [PyM.pure]
        omega
    · exact List.nodup_append.2 ⟨d3, n3, fun x hx y hy e => hdis x hx (e ▸ hy)⟩
    · simp only [PyM.pure, k4]
      rw [← n4]
      congr 1
      exact mbDict_kept nd fun x hx => k3 x fun hx' => hdis x hx' hx
  exact hall.out (fun r s => (mbDict s r.1, mbDict s r.2)) (fun r s =>
    (∀ n ∈ mbNames r.1 ++ mbNames r.2, New h s n) ∧ (mbNames r.1 ++ mbNames r.2).Nodup)
    fun b c s hI => ⟨hI.2.2, hI.2.1, hI.1⟩

/-! ## The hypotheses can be met -/

/-- two exposures -/
def exHeap : Exps ℚ (Img ℚ) Unit := ⟨2, fun n => if n = 0 then exExp else exExp2⟩

/-- two bands, a type given twice, the noise of the second band is its own exposure: a run that succeeds, with the
exposures 2 ... 13 made, of which 2, 5, 8 and 11 were replaced by those of the repeated type -/
example : (∀ q ∈ ([("r", 0), ("i", 1)] ++ [("r", 1), ("i", 1)] : MbNames String), q.2 < exHeap.next) ∧
    (match (metacalMbexpsFixnoise (B := String) exExt exGal [("r", 0), ("i", 1)] [("r", 1), ("i", 1)]
        (some ["2m", "noshear", "2m"]) none exHeap) with
      | (.ok r, s) => decide (mbNames r.1 ++ mbNames r.2 = [4, 7, 3, 6, 10, 13, 9, 12] ∧ s.next = 14)
      | _ => false) = true := by
  constructor
  · decide
  · decide +kernel

/-- the exposure is its own noise, the default types -/
example : (0 < exHeap.next ∧ 0 < exHeap.next) ∧
    (match (metacalExpsFixnoise exExt exGal 0 0 none none exHeap) with
      | (.ok r, s) => decide (names r.1 ++ names r.2 = [2, 3, 4, 5, 6, 7] ∧ s.next = 8)
      | _ => false) = true := by
  constructor
  · decide
  · decide +kernel

end MD.ExpMemory
