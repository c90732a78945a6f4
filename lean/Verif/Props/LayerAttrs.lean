import Verif.Spec.LayerAttrs

/-! # C178: attributes of physics packages -/
namespace Hexrd.LayerAttrs

variable {V : Type}

theorem diameter_ne : diameterKey ≠ radiusKey := by decide

theorem setPlain_get (c : Cls V) (p : Pkg V) (k q : Key) (v : V) : getPlain c (setPlain c p k v) q = if q = k then some v else getPlain c p q := by
  unfold getPlain setPlain setLayer
  by_cases h : q = k
  · simp [h]
  · by_cases hk : k.1 ∈ c.layers <;> simp [h, hk]

theorem setLayer_getPlain (c : Cls V) (p : Pkg V) (k q : Key) (v : V) (h : q ≠ k) : getPlain c (setLayer c p k v) q = getPlain c p q := by
  unfold getPlain setLayer
  by_cases hk : k.1 ∈ c.layers <;> simp [h, hk]

/-- **C178** an attribute that is set has that value; the radius of the pinhole and its diameter are set together, and every other
attribute stays. -/
theorem set_get (c : Cls V) (hc : Spec.Proper c) (p : Pkg V) (k : Key) (v : V) :
    get c (set c p k v) k = some v ∧
    (c.radius = true → k = radiusKey → get c (set c p k v) diameterKey = some (c.double v)) ∧
    (c.radius = true → k = diameterKey → get c (set c p k v) radiusKey = some (c.half v)) ∧
    ∀ q, q ≠ k → (c.radius = true → ¬ (k = radiusKey ∧ q = diameterKey) ∧ ¬ (k = diameterKey ∧ q = radiusKey)) →
      get c (set c p k v) q = get c p q := by
  by_cases hr : c.radius = true
  · by_cases hk : k = radiusKey
    · subst hk
      refine ⟨?_, fun _ _ => ?_, fun _ h => absurd h.symm diameter_ne, fun q hq h => ?_⟩
      · simp [get, set, hr, setPlain_get, hc.half]
      · simp [get, set, hr, setPlain_get, diameter_ne]
      · have h1 : q ≠ diameterKey := fun e => (h hr).1 ⟨rfl, e⟩
        simp [get, set, hr, hq, setPlain_get, h1, setLayer_getPlain c p radiusKey q v hq]
    · refine ⟨?_, fun _ h => absurd h hk, fun _ h => ?_, fun q hq h => ?_⟩
      · simp [get, set, hr, hk, setPlain_get]
      · subst h; simp [get, set, hr, hk, setPlain_get]
      · by_cases hq' : q = radiusKey
        · subst hq'
          have h1 : diameterKey ≠ k := fun e => (h hr).2 ⟨e.symm, rfl⟩
          simp [get, set, hr, hk, setPlain_get, h1]
        · simp [get, set, hr, hk, hq', setPlain_get, hq]
  · refine ⟨?_, fun h => absurd h hr, fun h => absurd h hr, fun q hq _ => ?_⟩
    · simp [get, set, hr, setPlain_get]
    · simp [get, set, hr, setPlain_get, hq]

/-- What is in the dictionary of a package is also in its layer. -/
def Synced (c : Cls V) (p : Pkg V) : Prop :=
  (∀ k v, k.1 ∈ c.layers → p.dict k = some v → p.val k = some v) ∧ ∀ k, Spec.Field c k → (p.val k).isSome = true

theorem synced_setLayer (c : Cls V) (p : Pkg V) (k : Key) (v : V) (hs : Synced c p) (hk : p.dict k = none) : Synced c (setLayer c p k v) := by
  unfold setLayer
  split
  · refine ⟨fun q w hq hd => ?_, fun q hq => ?_⟩
    · simp only at hd ⊢
      split
      · rename_i e; subst e; rw [hk] at hd; simp at hd
      · exact hs.1 q w hq hd
    · simp only
      split
      · rfl
      · exact hs.2 q hq
  · exact hs

theorem synced_setPlain (c : Cls V) (p : Pkg V) (k : Key) (v : V) (hs : Synced c p) : Synced c (setPlain c p k v) := by
  unfold setPlain setLayer
  refine ⟨fun q w hq hd => ?_, fun q hq => ?_⟩
  · by_cases hqk : q = k
    · subst hqk
      simp only [if_true] at hd
      simpa [hq] using hd
    · by_cases hk : k.1 ∈ c.layers
      · simp only [hk, if_true, hqk, if_false] at hd ⊢
        exact hs.1 q w hq hd
      · simp only [hk, hqk, if_false] at hd ⊢
        exact hs.1 q w hq hd
  · by_cases hk : k.1 ∈ c.layers
    · simp only [hk, if_true]
      split
      · rfl
      · exact hs.2 q hq
    · simp only [hk, if_false]
      exact hs.2 q hq

theorem synced_set (c : Cls V) (p : Pkg V) (k : Key) (v : V) (hs : Synced c p) (hd : c.radius = true → p.dict radiusKey = none) :
    Synced c (set c p k v) ∧ (c.radius = true → (set c p k v).dict radiusKey = none) := by
  unfold set
  split
  · rename_i h
    obtain ⟨hr, rfl⟩ := h
    refine ⟨synced_setPlain c _ _ _ (synced_setLayer c p _ v hs (hd hr)), fun _ => ?_⟩
    have : (setLayer c p radiusKey v).dict = p.dict := by unfold setLayer; split <;> rfl
    have h2 : ∀ p : Pkg V, (setPlain c p diameterKey (c.double v)).dict radiusKey = p.dict radiusKey := by
      intro p
      unfold setPlain setLayer
      split <;> simp [Ne.symm diameter_ne]
    rw [h2, this, hd hr]
  · rename_i h
    refine ⟨synced_setPlain c p k v hs, fun hr => ?_⟩
    have hk : radiusKey ≠ k := fun e => h ⟨hr, e.symm⟩
    unfold setPlain setLayer
    split <;> simp [hk, hd hr]

theorem synced_deserialize (c : Cls V) (l : List (Key × V)) : ∀ p : Pkg V, Synced c p → (c.radius = true → p.dict radiusKey = none) →
    Synced c (deserialize c p l) ∧ (c.radius = true → (deserialize c p l).dict radiusKey = none) := by
  induction l with
  | nil => intro p h1 h2; exact ⟨h1, h2⟩
  | cons kv l ih =>
    intro p h1 h2
    obtain ⟨a, b⟩ := synced_set c p kv.1 kv.2 h1 h2
    exact ih _ a b

theorem synced_fresh (c : Cls V) : Synced c (fresh c) := by
  refine ⟨fun k v _ h => by simp [fresh] at h, fun k h => ?_⟩
  have h : k.1 ∈ c.layers ∧ k.2 ∈ c.fields k.1 := h
  simp [fresh, h]

theorem synced_after (c : Cls V) (h : List (Key × V)) : Synced c (Spec.after c h) :=
  (synced_deserialize c h (fresh c) (synced_fresh c) fun _ => rfl).1

theorem get_layer (c : Cls V) (hc : Spec.Proper c) (p : Pkg V) (hs : Synced c p) (k : Key) (hk : Spec.Field c k) :
    get c p k = layerValue p k ∧ (get c p k).isSome = true := by
  have hn : ¬ (c.radius = true ∧ k = radiusKey) := fun h => hc.noField h.1 (h.2 ▸ hk)
  have e : get c p k = p.val k := by
    unfold get getPlain
    rw [if_neg hn]
    cases h : p.dict k with
    | none => simp [hk.1]
    | some v => rw [hs.1 k v hk.1 h]
  exact ⟨e, by rw [e]; exact hs.2 k hk⟩

/-- **C178** after any history an attribute of the package and the field of the layer are the same. -/
theorem after_layer (c : Cls V) (hc : Spec.Proper c) (h : List (Key × V)) (k : Key) (hk : Spec.Field c k) :
    get c (Spec.after c h) k = layerValue (Spec.after c h) k ∧ (get c (Spec.after c h) k).isSome = true :=
  get_layer c hc _ (synced_after c h) k hk

theorem mem_names (c : Cls V) (k : Key) : k ∈ names c ↔ Spec.Field c k := by
  unfold names Spec.Field
  simp only [List.mem_flatMap, List.mem_map]
  constructor
  · rintro ⟨n, hn, a, ha, rfl⟩; exact ⟨hn, ha⟩
  · rintro ⟨h1, h2⟩; exact ⟨k.1, h1, k.2, h2, rfl⟩

open Classical in
theorem deserialize_get (c : Cls V) (g : Key → Option V) (l : List (Key × V)) (hl : ∀ kv ∈ l, g kv.1 = some kv.2 ∧ ¬ (c.radius = true ∧ kv.1 = radiusKey)) :
    ∀ (p : Pkg V) (k : Key), getPlain c (deserialize c p l) k = if ∃ v, (k, v) ∈ l then g k else getPlain c p k := by
  induction l with
  | nil => intro p k; simp [deserialize]
  | cons kv l ih =>
    intro p k
    obtain ⟨h1, h2⟩ := hl kv (by simp)
    have ih := ih (fun x hx => hl x (List.mem_cons_of_mem _ hx)) (set c p kv.1 kv.2) k
    have e : deserialize c p (kv :: l) = deserialize c (set c p kv.1 kv.2) l := rfl
    rw [e, ih, set, if_neg h2, setPlain_get]
    by_cases hm : ∃ v, (k, v) ∈ l
    · have : ∃ v, (k, v) ∈ kv :: l := hm.imp fun v h => List.mem_cons_of_mem _ h
      rw [if_pos hm, if_pos this]
    · rw [if_neg hm]
      by_cases hk : k = kv.1
      · have : ∃ v, (k, v) ∈ kv :: l := ⟨kv.2, by rw [hk]; simp⟩
        rw [if_pos hk, if_pos this, hk, h1]
      · have : ¬ ∃ v, (k, v) ∈ kv :: l := by
          rintro ⟨v, hv⟩
          rcases List.mem_cons.1 hv with e | hv
          · exact hk (by rw [← e])
          · exact hm ⟨v, hv⟩
        rw [if_neg hk, if_neg this]

/-- **C178** a package that is written and read into another has the same fields in all of its layers, whatever the histories of both. -/
theorem serialize_deserialize (c : Cls V) (hc : Spec.Proper c) (h h' : List (Key × V)) (k : Key) (hk : Spec.Field c k) :
    get c (deserialize c (Spec.after c h') (serialize c (Spec.after c h))) k = get c (Spec.after c h) k ∧
    layerValue (deserialize c (Spec.after c h') (serialize c (Spec.after c h))) k = layerValue (Spec.after c h) k := by
  have hs := synced_after c h
  have hn : ∀ q, Spec.Field c q → ¬ (c.radius = true ∧ q = radiusKey) := fun q hq e => hc.noField e.1 (e.2 ▸ hq)
  have hl : ∀ kv ∈ serialize c (Spec.after c h), get c (Spec.after c h) kv.1 = some kv.2 ∧ ¬ (c.radius = true ∧ kv.1 = radiusKey) := by
    intro kv hkv
    obtain ⟨q, hq, e⟩ := List.mem_filterMap.1 hkv
    rw [mem_names] at hq
    cases hg : get c (Spec.after c h) q with
    | none => simp [hg] at e
    | some v =>
      simp only [hg, Option.map_some, Option.some.injEq] at e
      subst e
      exact ⟨hg, hn q hq⟩
  have e1 : get c (deserialize c (Spec.after c h') (serialize c (Spec.after c h))) k = get c (Spec.after c h) k := by
    conv_lhs => rw [get, if_neg (hn k hk), deserialize_get c (get c (Spec.after c h)) _ hl]
    obtain ⟨v, hv⟩ := Option.isSome_iff_exists.1 (get_layer c hc _ hs k hk).2
    rw [if_pos ⟨v, List.mem_filterMap.2 ⟨k, (mem_names c k).2 hk, by simp [hv]⟩⟩]
  have hs' := (synced_deserialize c (serialize c (Spec.after c h)) (Spec.after c h') (synced_after c h')
    (synced_deserialize c h' (fresh c) (synced_fresh c) fun _ => rfl).2).1
  exact ⟨e1, by rw [← (get_layer c hc _ hs' k hk).1, e1, (get_layer c hc _ hs k hk).1]⟩

/-- **C178 is false** for misspelt names: every name is accepted, and the fields keep their values. -/
theorem misspelt_fails (c : Cls V) (hc : Spec.Proper c) (h : List (Key × V)) (k : Key) (v : V) (hk : ¬ Spec.Field c k)
    (hr : c.radius = true → k ≠ radiusKey) (q : Key) (hq : Spec.Field c q) :
    get c (set c (Spec.after c h) k v) k = some v ∧ get c (set c (Spec.after c h) k v) q = get c (Spec.after c h) q := by
  obtain ⟨h1, -, -, h4⟩ := set_get c hc (Spec.after c h) k v
  exact ⟨h1, h4 q (fun e => hk (e ▸ hq)) fun hrad => ⟨fun e => hr hrad e.1, fun e => hc.noField hrad (e.2 ▸ hq)⟩⟩

/-- The package of high energy density experiments, with two of its layers and numbers for values. -/
def hed : Cls ℕ where
  layers := ["sample", "pinhole"]
  fields n := if n = "pinhole" then ["thickness", "diameter"] else ["thickness"]
  default _ _ := 0
  radius := true
  half v := v / 2
  double v := 2 * v

example : Spec.Proper hed where
  noField _ := by simp [Spec.Field, hed, radiusKey]
  pinhole _ := by simp [hed]
  half v := by simp [hed]

example : get hed (Spec.after hed [(("sample", "thickness"), 5), (("pinhole", "radius"), 3)]) ("pinhole", "diameter") = some 6 ∧
    layerValue (Spec.after hed [(("sample", "thickness"), 5), (("pinhole", "radius"), 3)]) ("sample", "thickness") = some 5 := by decide

end Hexrd.LayerAttrs
