import Verif.Model.LsstFootprints
import Verif.Lemmas.PyDict

/-!
# C99: what the noise replacers are made with
-/

namespace MD.LsstFootprints

variable {X F H N C S : Type _}

/-! ## Specification -/

/-- SPEC: the footprints given to a replacer are those of the sources: each id once, with the parent and
what became of the footprint of a source with that id, the last one in the catalogue -/
def Footprints {G : Type _} (made : F → Except PyErr G) (sources : List (Src F)) (d : PyDict Nat (Nat × G)) :
    Prop :=
  d.Ok ∧ (∀ i, PyDict.has d i = true ↔ ∃ s ∈ sources, s.id = i) ∧
  ∀ pre s post, sources = pre ++ s :: post → (∀ s' ∈ post, s'.id ≠ s.id) →
    ∃ g, made s.fp = .ok g ∧ PyDict.get? d s.id = some (s.parent, g)

/-- SPEC: ids identify sources -/
def Distinct (sources : List (Src F)) : Prop := (sources.map (·.id)).Nodup

/-! ## Lemmas -/

theorem footLoop_spec (ext : Ext X F H N C S) (exp : X) (sources : List (Src F)) :
    ∀ d d' : PyDict Nat (Nat × H), d.Ok → footLoop ext exp sources d = .ok d' →
      d'.Ok ∧ (∀ i, (∀ s ∈ sources, s.id ≠ i) → PyDict.get? d' i = PyDict.get? d i) ∧
      (∀ s ∈ sources, PyDict.has d' s.id = true) ∧
      ∀ pre s post, sources = pre ++ s :: post → (∀ s' ∈ post, s'.id ≠ s.id) →
        ∃ g, ext.heavy s.fp exp = .ok g ∧ PyDict.get? d' s.id = some (s.parent, g) := by
  induction sources with
  | nil =>
    intro d d' hd h
    cases h
    exact ⟨hd, fun _ _ => rfl, (by simp), (by intro pre s post hp; simp at hp)⟩
  | cons s t ih =>
    intro d d' hd h
    unfold footLoop at h
    split at h
    · cases h
    rename_i g hg
    obtain ⟨h1, h2, h3, h4⟩ := ih _ d' (hd.set _ _) h
    refine ⟨h1, ?_, ?_, ?_⟩
    · intro i hi
      rw [h2 i fun s' hs' => hi s' (by simp [hs']), PyDict.get?_set, if_neg]
      exact fun h' => hi s (by simp) h'.symm
    · intro s' hs'
      rcases List.mem_cons.1 hs' with rfl | hs'
      · by_cases hex : ∃ u ∈ t, u.id = s'.id
        · obtain ⟨u, hu, hue⟩ := hex
          rw [← hue]
          exact h3 u hu
        · have hex : ∀ u ∈ t, u.id ≠ s'.id := fun u hu hue => hex ⟨u, hu, hue⟩
          unfold PyDict.has
          rw [h2 _ hex, PyDict.get?_set, if_pos rfl]
          rfl
      · exact h3 s' hs'
    · intro pre u post hp hpost
      rcases pre with _ | ⟨p, pre⟩
      · simp only [List.nil_append, List.cons.injEq] at hp
        obtain ⟨rfl, rfl⟩ := hp
        exact ⟨g, hg, by rw [h2 _ hpost, PyDict.get?_set, if_pos rfl]⟩
      · simp only [List.cons_append, List.cons.injEq] at hp
        exact h4 pre u post hp.2 hpost

theorem footLoop_footprints (ext : Ext X F H N C S) (exp : X) (sources : List (Src F))
    (d : PyDict Nat (Nat × H)) (h : footLoop ext exp sources [] = .ok d) :
    Footprints (fun f => ext.heavy f exp) sources d := by
  obtain ⟨h1, h2, h3, h4⟩ := footLoop_spec ext exp sources [] d (by simp [PyDict.Ok, PyDict.keys]) h
  refine ⟨h1, ?_, h4⟩
  intro i
  constructor
  · intro hi
    refine Classical.byContradiction fun hne => ?_
    have : ∀ s ∈ sources, s.id ≠ i := fun s hs hsi => hne ⟨s, hs, hsi⟩
    unfold PyDict.has at hi
    rw [h2 i this] at hi
    simp at hi
  · rintro ⟨s, hs, rfl⟩
    exact h3 s hs

theorem distinct_split {sources : List (Src F)} (hd : Distinct sources) {s : Src F} (hs : s ∈ sources) :
    ∃ pre post, sources = pre ++ s :: post ∧ ∀ s' ∈ post, s'.id ≠ s.id := by
  obtain ⟨pre, post, rfl⟩ := List.append_of_mem hs
  refine ⟨pre, post, rfl, ?_⟩
  unfold Distinct at hd
  rw [List.map_append, List.map_cons, List.nodup_append] at hd
  intro s' hs' he
  have := (List.nodup_cons.1 hd.2.1).1
  exact this (he ▸ List.mem_map_of_mem hs')

/-! ## C99 -/

/-- C99: the replacer of an exposure gets every source with its parent and its footprint, filled from this
exposure; the given noise image, or else one made from this exposure; the given configuration, or else one
with a random seed.  A random number is drawn for the seed only without configuration. -/
theorem C99_single (ext : Ext X F H N C S) (exp : X) (sources : List (Src F)) (config : Option C)
    (noise : Option N) (s s' : S) (a : Args H N C) (h : single ext exp sources config noise s = (.ok a, s')) :
    Footprints (fun f => ext.heavy f exp) sources a.footprints ∧
    ∃ s1, (∀ c, config = some c → a.config = c ∧ s1 = s) ∧
      (config = none → a.config = ext.seeded (ext.randint s).1 ∧ s1 = (ext.randint s).2) ∧
      (∀ n, noise = some n → a.noise = n ∧ s' = s1) ∧
      (noise = none → ext.noise exp s1 = (.ok a.noise, s')) := by
  unfold single at h
  cases config with
  | some c =>
    cases noise with
    | some n =>
      simp only at h
      split at h
      · cases h
      rename_i d hd
      cases h
      exact ⟨footLoop_footprints ext exp sources d hd, s, by simp, by simp, by simp, by simp⟩
    | none =>
      rcases hn : ext.noise exp s with ⟨e | im, s2⟩
      · simp only [hn] at h
        cases h
      · simp only [hn] at h
        split at h
        · cases h
        rename_i d hd
        cases h
        exact ⟨footLoop_footprints ext exp sources d hd, s, by simp, by simp, by simp, by simp [hn]⟩
  | none =>
    cases noise with
    | some n =>
      simp only at h
      split at h
      · cases h
      rename_i d hd
      cases h
      exact ⟨footLoop_footprints ext exp sources d hd, _, by simp, fun _ => ⟨rfl, rfl⟩, by simp, by simp⟩
    | none =>
      rcases hn : ext.noise exp (ext.randint s).2 with ⟨e | im, s2⟩
      · simp only [hn] at h
        cases h
      · simp only [hn] at h
        split at h
        · cases h
        rename_i d hd
        cases h
        exact ⟨footLoop_footprints ext exp sources d hd, _, by simp, fun _ => ⟨rfl, rfl⟩, by simp, by simp [hn]⟩

/-- C99: when ids identify the sources, every source is handed over. -/
theorem C99_every_source (ext : Ext X F H N C S) (exp : X) (sources : List (Src F)) (config : Option C)
    (noise : Option N) (s s' : S) (a : Args H N C) (hd : Distinct sources)
    (h : single ext exp sources config noise s = (.ok a, s')) :
    ∀ src ∈ sources, ∃ g, ext.heavy src.fp exp = .ok g ∧ PyDict.get? a.footprints src.id = some (src.parent, g) := by
  intro src hs
  obtain ⟨⟨-, -, h3⟩, -⟩ := C99_single ext exp sources config noise s s' a h
  obtain ⟨pre, post, e1, e2⟩ := distinct_split hd hs
  exact h3 pre src post e1 e2

/-- SPEC: the replacers of the bands: each from its own exposure and its own random numbers, which follow
those of the band before -/
inductive Chain (ext : Ext X F H N C S) (sources : List (Src F)) : List X → S → List (Args H N C) → S → Prop
  | nil {s} : Chain ext sources [] s [] s
  | cons {x xs s1 s2 s3 a as} : Footprints (fun f => ext.heavy f x) sources a.footprints →
      a.config = ext.seeded (ext.randint s1).1 → ext.noise x (ext.randint s1).2 = (.ok a.noise, s2) →
      Chain ext sources xs s2 as s3 → Chain ext sources (x :: xs) s1 (a :: as) s3

/-- C99: the bands of a multiband exposure. -/
theorem C99_bands (ext : Ext X F H N C S) (sources : List (Src F)) (exps : List X) :
    ∀ (s s' : S) (as : List (Args H N C)), bands ext sources exps s = (.ok as, s') →
      Chain ext sources exps s as s' := by
  induction exps with
  | nil =>
    intro s s' as h
    cases h
    exact .nil
  | cons x t ih =>
    intro s s' as h
    simp only [bands, PyM.bind] at h
    rcases h1 : single ext x sources none none s with ⟨e | a, s1⟩
    · rw [h1] at h; cases h
    rw [h1] at h
    simp only at h
    rcases h2 : bands ext sources t s1 with ⟨e | as', s2⟩
    · rw [h2] at h; cases h
    rw [h2] at h
    cases h
    obtain ⟨hf, s3, -, hc, -, hn⟩ := C99_single ext x sources none none s s1 a h1
    obtain ⟨hc1, hc2⟩ := hc rfl
    have hn := hn rfl
    rw [hc2] at hn
    exact .cons hf hc1 hn (ih s1 _ as' h2)

/-- C99: the same for the replacer made by `get_noise_replacer`, which gets the footprints themselves. -/
theorem C99_plain (ext : Ext X F H N C S) (sources : List (Src F)) (noise : Option N) :
    Footprints Except.ok sources (plainReplacer ext sources noise).footprints ∧
    (plainReplacer ext sources noise).noise = noise ∧ (plainReplacer ext sources noise).config = ext.plain := by
  refine ⟨?_, rfl, rfl⟩
  let ext' : Ext Unit F F Unit Unit Unit := ⟨fun _ => (), (), fun _ => (0, ()), fun _ _ => (.ok (), ()), fun f _ => .ok f⟩
  have : ∀ (l : List (Src F)) d, footLoop ext' () l d =
      .ok (l.foldl (fun d s => PyDict.set d s.id (s.parent, s.fp)) d) := by
    intro l
    induction l with
    | nil => exact fun d => rfl
    | cons s t ih => exact fun d => ih _
  exact footLoop_footprints ext' () sources _ (this sources [])

/-- C99: a source whose id occurs again later in the catalogue is not handed over. -/
theorem C99_repeated_counterexample (ext : Ext X F F N C S) (f g : F) (n : N) (x : X) (c : C) (s : S)
    (hh : ∀ f, ext.heavy f x = .ok f) :
    ∃ a, single ext x [⟨1, 0, f⟩, ⟨1, 5, g⟩] (some c) (some n) s = (.ok a, s) ∧
      a.footprints = [(1, (5, g))] := by
  simp [single, footLoop, hh, PyDict.set]

/-! ## Examples: the hypotheses are met -/

/-- exposures, footprints and noise are numbers -/
def exExt : Ext Nat Nat Nat Nat Nat Nat where
  seeded n := n
  plain := 0
  randint s := (s % 16, s + 1)
  noise x s := (.ok (1000 * x + s), s + 10)
  heavy f x := .ok (10 * f + x)

example : Distinct ([⟨4, 0, 7⟩, ⟨2, 4, 8⟩] : List (Src Nat)) ∧
    (match bands exExt [⟨4, 0, 7⟩, ⟨2, 4, 8⟩] [1, 2] 30 with
      | (.ok [a, b], s) => decide (a.config = 14 ∧ a.footprints = [(4, (0, 71)), (2, (4, 81))] ∧ a.noise = 1031 ∧
          b.config = 9 ∧ b.footprints = [(4, (0, 72)), (2, (4, 82))] ∧ b.noise = 2042 ∧ s = 52)
      | _ => false) = true := by
  unfold Distinct
  decide +kernel

end MD.LsstFootprints
