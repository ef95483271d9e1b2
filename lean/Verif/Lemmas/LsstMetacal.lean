import Verif.Model.LsstMetacal
import Verif.Lemmas.PyDict
import Verif.Lemmas.Img

/-! # Lemmas about the loops of metacal_exposures.py -/

namespace MD.LsstMetacal

open LsstGeom LsstExp PyDict

set_option linter.unusedSectionVars false

variable {K P W S B : Type _} [Field K] [LinearOrder K]

theorem expsLoop_ok (make : String → Except PyErr (Exp K P W)) (ts : List String)
    (d d' : PyDict String (Exp K P W)) (h : expsLoop make d ts = .ok d') :
    (d.Ok → d'.Ok) ∧ (∀ t ∈ ts, ∃ x, make t = .ok x ∧ get? d' t = some x) ∧
    ∀ t, t ∉ ts → get? d' t = get? d t := by
  induction ts generalizing d with
  | nil => cases h; exact ⟨id, (fun t ht => nomatch ht), fun t _ => rfl⟩
  | cons t0 ts ih =>
    simp only [expsLoop] at h
    split at h
    · cases h
    · rename_i x hx
      obtain ⟨h1, h2, h3⟩ := ih _ h
      refine ⟨fun hd => h1 (Ok.set hd _ _), ?_, ?_⟩
      · intro t ht
        by_cases hts : t ∈ ts
        · exact h2 t hts
        · rcases List.mem_cons.1 ht with rfl | ht
          · exact ⟨x, hx, by rw [h3 _ hts, get?_set, if_pos rfl]⟩
          · exact absurd ht hts
      · intro t ht
        rw [h3 t (fun h => ht (List.mem_cons_of_mem _ h)), get?_set, if_neg]
        rintro rfl
        exact ht List.mem_cons_self

theorem expsLoop_total (make : String → Except PyErr (Exp K P W)) (ts : List String)
    (d : PyDict String (Exp K P W)) (h : ∀ t ∈ ts, ∃ x, make t = .ok x) :
    ∃ d', expsLoop make d ts = .ok d' := by
  induction ts generalizing d with
  | nil => exact ⟨_, rfl⟩
  | cons t0 ts ih =>
    obtain ⟨x, hx⟩ := h t0 List.mem_cons_self
    simp only [expsLoop, hx]
    exact ih _ fun t ht => h t (List.mem_cons_of_mem _ ht)

theorem expsLoop_error (make : String → Except PyErr (Exp K P W)) (ts : List String)
    (d : PyDict String (Exp K P W)) (h : ∀ t ∈ ts, (∃ x, make t = .ok x) ∨ make t = .error .valueError)
    (hb : ∃ t ∈ ts, make t = .error .valueError) : expsLoop make d ts = .error .valueError := by
  induction ts generalizing d with
  | nil => obtain ⟨t, ht, -⟩ := hb; cases ht
  | cons t0 ts ih =>
    rcases h t0 List.mem_cons_self with ⟨x, hx⟩ | hx
    · simp only [expsLoop, hx]
      apply ih _ fun t ht => h t (List.mem_cons_of_mem _ ht)
      obtain ⟨t, ht, he⟩ := hb
      rcases List.mem_cons.1 ht with rfl | ht
      · rw [hx] at he; cases he
      · exact ⟨t, ht, he⟩
    · simp only [expsLoop, hx]

theorem get?_appendBand (b : B) (md : PyDict String (Exp K P W)) (hmd : md.Ok)
    (d : PyDict String (MbExp B K P W)) (t : String) (x : Exp K P W) (hx : get? md t = some x) :
    get? (appendBand b md d) t = some ((get? d t).getD [] ++ [(b, x)]) := by
  unfold appendBand
  induction md generalizing d with
  | nil => cases hx
  | cons p rest ih =>
    obtain ⟨t0, x0⟩ := p
    simp only [PyDict.Ok, PyDict.keys, List.map_cons, List.nodup_cons] at hmd
    rw [get?_cons] at hx
    simp only [List.foldl_cons]
    by_cases ht : t0 = t
    · subst ht
      rw [if_pos rfl] at hx
      cases hx
      have : ∀ (rest : PyDict String (Exp K P W)) (d : PyDict String (MbExp B K P W)),
          t0 ∉ rest.map (·.1) → get? (rest.foldl (fun acc p =>
            PyDict.set acc p.1 ((PyDict.get? acc p.1).getD [] ++ [(b, p.2)])) d) t0 = get? d t0 := by
        intro rest
        induction rest with
        | nil => intro d _; rfl
        | cons q qs ihq =>
          intro d hd
          simp only [List.map_cons, List.mem_cons, not_or] at hd
          rw [List.foldl_cons, ihq _ hd.2, get?_set, if_neg hd.1]
      rw [this rest _ hmd.1, get?_set, if_pos rfl]
    · rw [if_neg ht] at hx
      rw [ih hmd.2 _ hx, get?_set, if_neg (Ne.symm ht)]

theorem bandLoop_ok (make : Exp K P W → Option S → Except PyErr (PyDict String (Exp K P W)))
    (t : String) (hmk : ∀ e s md, make e s = .ok md → md.Ok ∧ ∃ x, get? md t = some x)
    (mb : MbExp B K P W) (d d' : PyDict String (MbExp B K P W)) (stats : Option (List S))
    (h : bandLoop make d mb stats = .ok d') :
    ∃ l, (get? d' t).getD [] = (get? d t).getD [] ++ l ∧ l.length = mb.length ∧
      ∀ (i : Nat) (b : B) (e : Exp K P W), mb[i]? = some (b, e) →
        ∃ md x, make e (stats.bind (·[i]?)) = .ok md ∧ get? md t = some x ∧ l[i]? = some (b, x) := by
  induction mb generalizing d stats with
  | nil => cases h; exact ⟨[], by simp, rfl, fun i b e hi => by simp at hi⟩
  | cons p mb ih =>
    obtain ⟨b, e⟩ := p
    simp only [bandLoop] at h
    split at h
    · cases h
    · rename_i md hm
      obtain ⟨l, h1, h2, h3⟩ := ih _ _ h
      obtain ⟨hok, x, hx⟩ := hmk _ _ _ hm
      refine ⟨(b, x) :: l, ?_, by simp [h2], ?_⟩
      · rw [h1, get?_appendBand b md hok d t x hx]
        simp
      · intro i b' e' hi
        cases i with
        | zero =>
          simp only [List.getElem?_cons_zero, Option.some.injEq, Prod.mk.injEq] at hi
          obtain ⟨rfl, rfl⟩ := hi
          refine ⟨md, x, ?_, hx, by simp⟩
          rw [← hm]
          congr 1
          cases stats with
          | none => rfl
          | some s => simp [List.head?_eq_getElem?]
        | succ i =>
          simp only [List.getElem?_cons_succ] at hi
          obtain ⟨md', x', g1, g2, g3⟩ := h3 i b' e' hi
          refine ⟨md', x', ?_, g2, by simpa using g3⟩
          rw [← g1]
          congr 1
          cases stats with
          | none => rfl
          | some s => simp

theorem bandLoop_total (make : Exp K P W → Option S → Except PyErr (PyDict String (Exp K P W)))
    (mb : MbExp B K P W) (d : PyDict String (MbExp B K P W)) (stats : Option (List S))
    (h : ∀ p ∈ mb, ∀ s, ∃ md, make p.2 s = .ok md) : ∃ d', bandLoop make d mb stats = .ok d' := by
  induction mb generalizing d stats with
  | nil => exact ⟨_, rfl⟩
  | cons p mb ih =>
    obtain ⟨b, e⟩ := p
    obtain ⟨md, hm⟩ := h (b, e) List.mem_cons_self (stats.bind List.head?)
    simp only [bandLoop, hm]
    exact ih _ _ fun p hp => h p (List.mem_cons_of_mem _ hp)

theorem get?_foldl_set {ν : Type _} (f : String → ν) (ts : List String) (d : PyDict String ν) (t : String) :
    get? (ts.foldl (fun d t => PyDict.set d t (f t)) d) t = if t ∈ ts then some (f t) else get? d t := by
  induction ts generalizing d with
  | nil => simp
  | cons t0 ts ih =>
    rw [List.foldl_cons, ih]
    by_cases h : t ∈ ts
    · rw [if_pos h, if_pos (List.mem_cons_of_mem _ h)]
    · rw [if_neg h, get?_set]
      by_cases h0 : t = t0
      · subst h0; simp
      · rw [if_neg h0, if_neg (by simp [h, h0])]

theorem ok_foldl_set {ν : Type _} (f : String → ν) (ts : List String) (d : PyDict String ν) (hd : d.Ok) :
    (ts.foldl (fun d t => PyDict.set d t (f t)) d).Ok := by
  induction ts generalizing d with
  | nil => exact hd
  | cons t0 ts ih => exact ih _ (Ok.set hd _ _)

theorem addNoises_ok (l nl l' : MbExp B K P W) (h : addNoises l nl = .ok l') (hlen : nl.length = l.length) :
    l'.length = l.length ∧ ∀ (i : Nat) (b : B) (e : Exp K P W) (b' : B) (n : Exp K P W),
      l[i]? = some (b, e) → nl[i]? = some (b', n) → ∃ x, addNoise e n = .ok x ∧ l'[i]? = some (b, x) := by
  induction l generalizing nl l' with
  | nil => cases nl <;> cases h <;> exact ⟨rfl, fun i b e b' n hi => by simp at hi⟩
  | cons p l ih =>
    obtain ⟨b, e⟩ := p
    cases nl with
    | nil => simp at hlen
    | cons q nl =>
      obtain ⟨b1, n1⟩ := q
      simp only [addNoises] at h
      split at h
      · cases h
      · rename_i x hx
        split at h
        · cases h
        · rename_i r hr
          cases h
          obtain ⟨h1, h2⟩ := ih nl r hr (by simpa using hlen)
          refine ⟨by simp [h1], ?_⟩
          intro i b' e' b'' n' hi hn
          cases i with
          | zero =>
            simp only [List.getElem?_cons_zero, Option.some.injEq, Prod.mk.injEq] at hi hn
            obtain ⟨rfl, rfl⟩ := hi
            obtain ⟨rfl, rfl⟩ := hn
            exact ⟨x, hx, by simp⟩
          | succ i =>
            simp only [List.getElem?_cons_succ] at hi hn ⊢
            exact h2 i b' e' b'' n' hi hn

theorem addNoises_total (l nl : MbExp B K P W)
    (h : ∀ (i : Nat) (p q : B × Exp K P W), l[i]? = some p → nl[i]? = some q → ∃ x, addNoise p.2 q.2 = .ok x) :
    ∃ l', addNoises l nl = .ok l' := by
  induction l generalizing nl with
  | nil => cases nl <;> exact ⟨_, rfl⟩
  | cons p l ih =>
    cases nl with
    | nil => exact ⟨_, rfl⟩
    | cons q nl =>
      obtain ⟨x, hx⟩ := h 0 p q rfl rfl
      obtain ⟨r, hr⟩ := ih nl fun i p q hp hq => h (i + 1) p q hp hq
      obtain ⟨b, e⟩ := p
      obtain ⟨b', n⟩ := q
      simp only [addNoises, hx, hr]
      exact ⟨_, rfl⟩

theorem fixLoop_ok (nd d d' : PyDict String (MbExp B K P W)) (h : fixLoop nd d = .ok d') :
    d'.keys = d.keys ∧ ∀ t l, get? d t = some l →
      ∃ nl l', get? nd t = some nl ∧ addNoises l nl = .ok l' ∧ get? d' t = some l' := by
  induction d generalizing d' with
  | nil => cases h; exact ⟨rfl, fun t l hl => by cases hl⟩
  | cons p d ih =>
    obtain ⟨t0, l0⟩ := p
    simp only [fixLoop] at h
    split at h
    · cases h
    · rename_i nl hnl
      split at h
      · cases h
      · rename_i l0' hl0
        split at h
        · cases h
        · rename_i r hr
          cases h
          obtain ⟨h1, h2⟩ := ih r hr
          refine ⟨by simp only [PyDict.keys, List.map_cons] at h1 ⊢; rw [h1], ?_⟩
          intro t l hl
          rw [get?_cons] at hl ⊢
          split at hl
          · rename_i ht
            cases hl; subst ht
            exact ⟨nl, l0', hnl, hl0, by rw [if_pos rfl]⟩
          · rename_i ht
            obtain ⟨nl', l', a, b, c⟩ := h2 t l hl
            exact ⟨nl', l', a, b, by rw [if_neg ht, c]⟩

theorem fixLoop_total (nd d : PyDict String (MbExp B K P W))
    (h : ∀ p ∈ d, ∃ nl l', get? nd p.1 = some nl ∧ addNoises p.2 nl = .ok l') :
    ∃ d', fixLoop nd d = .ok d' := by
  induction d with
  | nil => exact ⟨_, rfl⟩
  | cons p d ih =>
    obtain ⟨nl, l', h1, h2⟩ := h p List.mem_cons_self
    obtain ⟨r, hr⟩ := ih fun q hq => h q (List.mem_cons_of_mem _ hq)
    obtain ⟨t, l⟩ := p
    simp only at h1 h2
    simp only [fixLoop, h1, h2, hr]
    exact ⟨_, rfl⟩

/-- the shapes always agree: rotating by a quarter turn and back -/
theorem metacalExp_eq (ext : Ext K P W) (gal : Gal K S) (exp : Exp K P W) (ctx : Ctx K S)
    (t : String) (rot : Bool) :
    metacalExp ext gal exp ctx (startImage exp rot) t rot =
      match (shearOf t : Except PyErr (Option (Shear K))) with
      | .error e => .error e
      | .ok sh => .ok { exp with
          image := if rot then (gal.draw ctx sh exp.image.rot90).rot90k 3 else gal.draw ctx sh exp.image
          psf := some (ext.kernelPsf (gal.dilated ctx)) } := by
  unfold metacalExp startImage
  cases (shearOf t : Except PyErr (Option (Shear K))) with
  | error e => rfl
  | ok sh =>
    cases rot <;> simp [sameShape, Gal.draw, Img.rot90k, Img.rot90]

end MD.LsstMetacal
