import Verif.Model.GridDataset
import Verif.Props.PointDef
import Verif.Props.GridDef

/-!
# C114: layout of the gridded output dataset
-/

namespace Verif.GridDataset

open Verif.OutputDef Verif.Freq

/-! ## Lemmas -/

theorem underscore_timeVar (fs : List GField) (f : GField) : '_' ∉ timeVar fs f := by
  have hs : ∀ n, '_' ∉ showNat n := by
    intro n h
    exact absurd (showNat_mem n _ h) (by decide)
  simp only [timeVar, timeName]
  split_ifs
  · decide
  · rw [List.mem_append, not_or]
    exact ⟨by decide, hs _⟩

theorem timeVar_head (fs : List GField) (f : GField) : ∃ l, timeVar fs f = 't' :: l := by
  simp only [timeVar, timeName]
  split_ifs
  · exact ⟨_, rfl⟩
  · exact ⟨_, rfl⟩

theorem layerName_underscore (c : Name) : '_' ∈ layerName c := by
  simp [layerName]

theorem spatial_key (layout : Layout) (p : Name × ℕ) (h : p ∈ spatial layout) :
    '_' ∉ p.1 ∧ ∀ l, p.1 ≠ 't' :: l := by
  cases layout with
  | grid r c =>
    simp only [spatial, List.mem_cons, List.not_mem_nil, or_false] at h
    rcases h with rfl | rfl <;> exact ⟨by simp, by simp⟩
  | roiPixel n =>
    simp only [spatial, List.mem_cons, List.not_mem_nil, or_false] at h
    subst h
    exact ⟨by simp, by simp⟩

theorem lookup_none {β : Type*} (l : List (Name × β)) (k : Name) (h : ∀ p ∈ l, p.1 ≠ k) :
    l.lookup k = none := by
  rw [List.lookup_eq_none_iff]
  intro p hp
  simpa using fun e => h p hp e.symm

theorem lookup_append {β : Type*} (a b : List (Name × β)) (k : Name) :
    (a ++ b).lookup k = (a.lookup k).or (b.lookup k) := List.lookup_append

theorem lookup_spatial (layout : Layout) (p : Name × ℕ) (h : p ∈ spatial layout) :
    (spatial layout).lookup p.1 = some p.2 := by
  cases layout with
  | grid r c =>
    simp only [spatial, List.mem_cons, List.not_mem_nil, or_false] at h
    rcases h with rfl | rfl <;> simp [spatial, List.lookup]
  | roiPixel n =>
    simp only [spatial, List.mem_cons, List.not_mem_nil, or_false] at h
    subst h
    simp [spatial, List.lookup]

theorem lookup_times (fs gs : List GField) (hsub : ∀ g ∈ gs, g ∈ fs) (f : GField) (hf : f ∈ fs) (hfg : f ∈ gs) :
    (gs.map fun g => (timeVar fs g, g.write.length)).lookup (timeVar fs f) = some f.write.length := by
  induction gs with
  | nil => simp at hfg
  | cons g gs ih =>
    simp only [List.map_cons, List.lookup_cons]
    by_cases h : timeVar fs f = timeVar fs g
    · have hb : (timeVar fs f == timeVar fs g) = true := by simpa using h
      rw [hb]
      have := (C94_shared (fs.map GField.toOutField) f.toOutField g.toOutField
        (List.mem_map.2 ⟨f, hf, rfl⟩) (List.mem_map.2 ⟨g, hsub g List.mem_cons_self, rfl⟩)).1 h
      rw [this.1]
    · have hb : (timeVar fs f == timeVar fs g) = false := by simpa using h
      rw [hb]
      rcases List.mem_cons.1 hfg with rfl | hm
      · exact absurd rfl h
      · exact ih (fun k hk => hsub k (List.mem_cons_of_mem _ hk)) hm

/-! ## Layout -/

/-- Specification: names of the coordinates of the dataset. -/
def Reserved (layout : Layout) (fs : List GField) (n : Name) : Prop :=
  n = "crs".toList ∨
  (match layout with
    | .grid _ _ => n = "x".toList ∨ n = "y".toList
    | .roiPixel _ => n = "pixel".toList) ∨
  (∃ f ∈ fs, n = timeVar fs f) ∨ (∃ f ∈ fs, f.agg = true ∧ n = timeVar fs f ++ "_bounds".toList) ∨
  ∃ f ∈ fs, f.dim3 ≠ 0 ∧ n = f.cat ++ "_layer".toList

/-- **C114.** If the dataset can be created, its data variables are the output fields, in this order. The first dimension of
each is a time coordinate with the length of its list of dates, the others are the layers (if there are layers) and the spatial
dimensions of the layout; each has the length of the coordinate of this name. -/
theorem C114_shapes (layout : Layout) (fs : List GField) (ds : Dataset) (h : create layout fs = some ds) :
    ds.vars.map Prod.fst = fs.map (fun f => f.out) ∧
    ∀ f ∈ fs, ∃ dm, (f.out, dm) ∈ ds.vars ∧
      dm.map Prod.snd = f.write.length :: ((if f.dim3 = 0 then [] else [f.dim3]) ++
        match layout with
        | .grid rows cols => [rows, cols]
        | .roiPixel n => [n]) ∧
      ∀ p ∈ dm, ds.sizes.lookup p.1 = some p.2 := by
  simp only [create] at h
  cases hl : layerCoords (fs.map GField.asVar) [] with
  | none => rw [hl] at h; simp at h
  | some d =>
    rw [hl] at h
    simp only at h
    split_ifs at h with h1 h2
    cases h
    push Not at h2
    refine ⟨by simp [List.map_map, Function.comp], fun f hf => ⟨dims layout fs f, ?_, ?_, fun p hp => h2 f hf p hp⟩⟩
    · exact List.mem_map.2 ⟨f, hf, rfl⟩
    · simp only [dims, List.map_cons, List.map_append]
      congr 2
      · split_ifs <;> rfl
      · cases layout <;> rfl

/-- **C114.** The dataset can be created exactly if no output name is that of a coordinate and all three-dimensional variables
of a category have the same number of layers. (The names of categories do not end with `_layer`.) -/
theorem C114_created (layout : Layout) (fs : List GField) (hcat : ∀ f ∈ fs, ¬ ∃ c, f.cat = c ++ "_layer".toList) :
    (create layout fs).isSome = true ↔
      (∀ f ∈ fs, ¬ Reserved layout fs f.out) ∧
      ∀ f ∈ fs, ∀ g ∈ fs, f.dim3 ≠ 0 → g.dim3 ≠ 0 → f.cat = g.cat → f.dim3 = g.dim3 := by
  classical
  constructor
  · intro h
    simp only [create] at h
    cases hl : layerCoords (fs.map GField.asVar) [] with
    | none => rw [hl] at h; simp at h
    | some d =>
      rw [hl] at h
      simp only at h
      split_ifs at h with h1 h2
      · simp at h
      · simp at h
      push Not at h1 h2
      have hsz : ∀ f ∈ fs, f.dim3 ≠ 0 → (fs.map (fun f => (timeVar fs f, f.write.length)) ++ spatial layout ++ d).lookup
          (layerName f.cat) = some f.dim3 := by
        intro f hf h0
        refine h2 f hf (layerName f.cat, f.dim3) ?_
        simp [dims, h0]
      refine ⟨?_, ?_⟩
      · intro f hf hr
        have hn := h1 f hf
        simp only [List.map_append, List.mem_append, List.map_map, not_or] at hn
        obtain ⟨⟨⟨⟨n1, n2⟩, n3⟩, n4⟩, n5⟩ := hn
        rcases hr with hr | hr | ⟨g, hg, hr⟩ | ⟨g, hg, ha, hr⟩ | ⟨g, hg, h0, hr⟩
        · exact n5 (by rw [hr]; decide)
        · apply n2
          cases layout with
          | grid r c =>
            simp only at hr
            rcases hr with hr | hr <;> (rw [hr]; simp [spatial])
          | roiPixel n =>
            simp only at hr
            rw [hr]
            simp [spatial]
        · exact n1 (by rw [hr]; exact List.mem_map.2 ⟨g, hg, rfl⟩)
        · exact n4 (by rw [hr]; exact List.mem_map.2 ⟨g, List.mem_filter.2 ⟨hg, ha⟩, rfl⟩)
        · have hs := hsz g hg h0
          have : ∃ p ∈ (fs.map (fun f => (timeVar fs f, f.write.length)) ++ spatial layout ++ d), p.1 = layerName g.cat := by
            by_contra hc
            push Not at hc
            rw [lookup_none _ _ hc] at hs
            cases hs
          obtain ⟨p, hp, e⟩ := this
          refine h1 f hf ?_
          rw [List.mem_append, List.mem_append]
          refine Or.inl (Or.inl (List.mem_map.2 ⟨p, hp, ?_⟩))
          rw [e, hr]
          rfl
      · intro f hf g hg f0 g0 e
        have h1 := hsz f hf f0
        rw [e, hsz g hg g0] at h1
        simpa using h1.symm
  · rintro ⟨hres, hdim⟩
    obtain ⟨vs, hvs⟩ : ∃ vs, fs.map GField.asVar = vs := ⟨_, rfl⟩
    have hdim' : ∀ v ∈ vs, ∀ w ∈ vs, v.dim3 ≠ 0 → w.dim3 ≠ 0 → v.cat = w.cat → v.dim3 = w.dim3 := by
      rw [← hvs]
      intro v hv w hw
      obtain ⟨f, hf, rfl⟩ := List.mem_map.1 hv
      obtain ⟨g, hg, rfl⟩ := List.mem_map.1 hw
      exact hdim f hf g hg
    let q : Name → ℕ := fun c =>
      if h : ∃ v ∈ vs, v.dim3 ≠ 0 ∧ v.cat = c then (Classical.choose h).dim3 else 0
    have hq : ∀ v ∈ vs, v.dim3 ≠ 0 → v.dim3 = q v.cat := by
      intro v hv h0
      have hex : ∃ w ∈ vs, w.dim3 ≠ 0 ∧ w.cat = v.cat := ⟨v, hv, h0, rfl⟩
      simp only [q]
      rw [dif_pos hex]
      obtain ⟨a, b, c⟩ := Classical.choose_spec hex
      exact hdim' v hv _ a h0 b c.symm
    have hc' : ∀ v ∈ vs, ¬ ∃ c, v.cat = layerName c := by
      rw [← hvs]
      intro v hv
      obtain ⟨f, hf, rfl⟩ := List.mem_map.1 hv
      exact hcat f hf
    obtain ⟨d, e1, e2, e3, -⟩ := layerCoords_spec vs q [] hq (by simp) hc'
    have hkey : ∀ p ∈ d, ∃ f ∈ fs, f.dim3 ≠ 0 ∧ p.1 = layerName f.cat := by
      intro p hp
      rcases e2 p.1 (List.mem_map.2 ⟨p, hp, rfl⟩) with h | ⟨v, hv, h0, e⟩
      · simp at h
      · rw [← hvs] at hv
        obtain ⟨f, hf, rfl⟩ := List.mem_map.1 hv
        exact ⟨f, hf, h0, e⟩
    simp only [create]
    rw [hvs, e1]
    simp only
    rw [if_neg, if_neg]
    · rfl
    · rintro ⟨f, hf, p, hp, hne⟩
      apply hne
      rw [lookup_append, lookup_append]
      simp only [dims, List.mem_cons, List.mem_append] at hp
      rcases hp with rfl | hp | hp
      · rw [lookup_times fs fs (fun _ h => h) f hf hf]
        rfl
      · split_ifs at hp with h0
        · simp at hp
        · rw [List.mem_singleton] at hp
          subst hp
          have ht : (fs.map fun g => (timeVar fs g, g.write.length)).lookup (layerName f.cat) = none := by
            apply lookup_none
            intro p hp e
            obtain ⟨g, hg, rfl⟩ := List.mem_map.1 hp
            have e' : timeVar fs g = layerName f.cat := e
            exact underscore_timeVar fs g (by rw [e']; exact layerName_underscore _)
          have hs : (spatial layout).lookup (layerName f.cat) = none := by
            apply lookup_none
            intro p hp e
            exact (spatial_key layout p hp).1 (by rw [e]; exact layerName_underscore _)
          have hv : f.asVar ∈ vs := by rw [← hvs]; exact List.mem_map.2 ⟨f, hf, rfl⟩
          rw [ht, hs, e3 f.cat ⟨f.asVar, hv, h0, rfl⟩]
          have := hq f.asVar hv h0
          simp only [GField.asVar] at this
          simp [← this]
      · have ht : (fs.map fun g => (timeVar fs g, g.write.length)).lookup p.1 = none := by
          apply lookup_none
          intro r hr e
          obtain ⟨g, hg, rfl⟩ := List.mem_map.1 hr
          obtain ⟨l, hl⟩ := timeVar_head fs g
          exact (spatial_key layout p hp).2 l (by rw [← e, hl])
        rw [ht, lookup_spatial layout p hp]
        rfl
    · rintro ⟨f, hf, hm⟩
      apply hres f hf
      simp only [List.map_append, List.mem_append, List.map_map] at hm
      rcases hm with (((hm | hm) | hm) | hm) | hm
      · obtain ⟨g, hg, e⟩ := List.mem_map.1 hm
        exact Or.inr (Or.inr (Or.inl ⟨g, hg, e.symm⟩))
      · refine Or.inr (Or.inl ?_)
        cases layout with
        | grid r c =>
          simp only [spatial, List.map_cons, List.map_nil, List.mem_cons, List.not_mem_nil, or_false] at hm
          rcases hm with e | e
          · exact Or.inr e
          · exact Or.inl e
        | roiPixel n =>
          simp only [spatial, List.map_cons, List.map_nil, List.mem_cons, List.not_mem_nil, or_false] at hm
          exact hm
      · obtain ⟨p, hp, e⟩ := List.mem_map.1 hm
        obtain ⟨g, hg, h0, e'⟩ := hkey p hp
        exact Or.inr (Or.inr (Or.inr (Or.inr ⟨g, hg, h0, by rw [← e, e']; rfl⟩)))
      · obtain ⟨g, hg, e⟩ := List.mem_map.1 hm
        obtain ⟨hg1, hg2⟩ := List.mem_filter.1 hg
        exact Or.inr (Or.inr (Or.inr (Or.inl ⟨g, hg1, hg2, e.symm⟩)))
      · simp only [List.mem_cons, List.not_mem_nil, or_false] at hm
        exact Or.inl hm

/-- **C114.** Every value written during a run finds its place: the index of a date of a field is less than the length of its
time coordinate, and dates have different indices. -/
theorem C114_place (layout : Layout) (fs : List GField) (ds : Dataset) (h : create layout fs = some ds)
    (f : GField) (hf : f ∈ fs) :
    ∃ len, ds.sizes.lookup (timeVar fs f) = some len ∧
      (∀ t ∈ f.write, f.write.idxOf t < len) ∧
      ∀ t ∈ f.write, ∀ t' ∈ f.write, f.write.idxOf t = f.write.idxOf t' → t = t' := by
  simp only [create] at h
  cases hl : layerCoords (fs.map GField.asVar) [] with
  | none => rw [hl] at h; simp at h
  | some d =>
    rw [hl] at h
    simp only at h
    split_ifs at h with h1 h2
    cases h
    push Not at h2
    refine ⟨f.write.length, h2 f hf (timeVar fs f, f.write.length) (by simp [dims]), ?_, ?_⟩
    · intro t ht
      exact List.idxOf_lt_length_iff.2 ht
    · intro t ht t' _ e
      exact (List.idxOf_inj ht).1 e

/-- **C114.** The check for inconsistent numbers of layers never fires: for categories whose names do not end with
`_layer` the loop never raises an exception. It is xarray that rejects such fields. -/
theorem C114_check_dead (fs : List GField) (hcat : ∀ f ∈ fs, ¬ ∃ c, f.cat = c ++ "_layer".toList) :
    (layerCoords (fs.map GField.asVar) []).isSome = true := by
  have key : ∀ (vs : List Var) (d0 : List (Name × ℕ)), (∀ v ∈ vs, ¬ ∃ c, v.cat = layerName c) →
      (∀ k ∈ d0.map Prod.fst, ∃ c, k = layerName c) → (layerCoords vs d0).isSome = true := by
    intro vs
    induction vs with
    | nil => intro d0 _ _; rfl
    | cons v vs ih =>
      intro d0 hv hd
      have hv' : ∀ w ∈ vs, ¬ ∃ c, w.cat = layerName c := fun w hw => hv w (List.mem_cons_of_mem _ hw)
      unfold layerCoords
      split_ifs with h0 h1
      · exact ih d0 hv' hd
      · exact absurd (hd _ h1) (hv v List.mem_cons_self)
      · refine ih _ hv' ?_
        have hkeys : ∀ (l : List (Name × ℕ)) (k' : Name),
            k' ∈ (OutputDef.insert (layerName v.cat) v.dim3 l).map Prod.fst → k' = layerName v.cat ∨ k' ∈ l.map Prod.fst := by
          intro l k'
          induction l with
          | nil => simp [OutputDef.insert]
          | cons a l ihl =>
            obtain ⟨a, b⟩ := a
            unfold OutputDef.insert
            split_ifs with h
            · subst h; simp
            · simp only [List.map_cons, List.mem_cons]
              rintro (h | h)
              · exact Or.inr (Or.inl h)
              · rcases ihl h with h | h
                · exact Or.inl h
                · exact Or.inr (Or.inr h)
        intro k hk
        rcases hkeys d0 k hk with rfl | h
        · exact ⟨_, rfl⟩
        · exact hd k h
  refine key _ [] ?_ (by simp)
  intro v hv
  obtain ⟨f, hf, rfl⟩ := List.mem_map.1 hv
  exact hcat f hf

/-! ## Integer variables -/

/-- Specification: integers that are stored as such. -/
def InRange (z : ℤ) : Prop := -2147483648 < z ∧ z < 2147483648

theorem wrap_range (z : ℤ) : -2147483648 ≤ wrap z ∧ wrap z < 2147483648 := by
  unfold wrap; omega

theorem wrap_eq (z : ℤ) : (∃ k, wrap z = z + k * 4294967296) := by
  unfold wrap
  exact ⟨-((z + 2147483648) / 4294967296), by omega⟩

theorem wrap_id (z : ℤ) (h1 : -2147483648 ≤ z) (h2 : z < 2147483648) : wrap z = z := by
  unfold wrap; omega

theorem wrap_congr (a b : ℤ) (h : ∃ k, a = b + k * 4294967296) : wrap a = wrap b := by
  obtain ⟨k, rfl⟩ := h
  unfold wrap; omega

theorem sum32_wrap (vals : List ℤ) : sum32 vals = wrap vals.sum := by
  have key : ∀ (l : List ℤ) (a : ℤ), l.foldl (fun acc v => wrap (acc + wrap v)) (wrap a) = wrap (a + l.sum) := by
    intro l
    induction l with
    | nil => intro a; simp
    | cons v l ih =>
      intro a
      rw [List.foldl_cons, List.sum_cons, ← add_assoc, ← ih]
      congr 1
      apply wrap_congr
      obtain ⟨k1, h1⟩ := wrap_eq a
      obtain ⟨k2, h2⟩ := wrap_eq v
      exact ⟨k1 + k2, by rw [h1, h2]; ring⟩
  have h0 := key vals 0
  rw [wrap_id 0 (by norm_num) (by norm_num), zero_add] at h0
  exact h0

theorem readBack_wrap (z : ℤ) : readBack (wrap z) = some z ↔ InRange z := by
  have hr := wrap_range z
  have hF : FILL = -2147483648 := rfl
  unfold readBack InRange
  constructor
  · intro h
    split_ifs at h with h1
    simp only [Option.some.injEq] at h
    omega
  · intro h
    have hw := wrap_id z (by omega) h.2
    rw [if_neg (by omega), hw]

/-- **C114.** The written sum of an integer variable is the exact sum exactly if the sum is in the range of 32-bit integers
(without the fill value); intermediate sums may be out of range. -/
theorem C114_sum (vals : List ℤ) : stored true vals = some vals.sum ↔ InRange vals.sum := by
  simp only [stored, if_true, sum32_wrap]
  exact readBack_wrap _

/-- **C114.** The same for instantaneous values. -/
theorem C114_instantaneous (vals : List ℤ) (v : ℤ) : stored false (vals ++ [v]) = some v ↔ InRange v := by
  simp only [stored, Bool.false_eq_true, if_false, List.getLast?_concat]
  exact readBack_wrap _

/-- **C114.** It is not true that sums of integer variables are always exact. -/
theorem C114_sum_false : ¬ ∀ vals : List ℤ, (∀ v ∈ vals, InRange v) → stored true vals = some vals.sum := by
  intro h
  have h1 := h [2147483647, 1] (by intro v hv; simp at hv; rcases hv with rfl | rfl <;> (constructor <;> norm_num))
  rw [C114_sum] at h1
  exact absurd h1.2 (by norm_num)

/-- Two fields with layers of the same category and one without, written daily and monthly. -/
example : ((create (.roiPixel 5)
    [⟨⟨"a".toList, false, 3, [1, 2]⟩, "snow".toList⟩, ⟨⟨"b".toList, true, 3, [2]⟩, "snow".toList⟩,
      ⟨⟨"c".toList, true, 0, [2]⟩, "meteo".toList⟩]).map fun ds =>
    (ds.sizes.lookup "snow_layer".toList, ds.sizes.lookup "time2".toList)) = some (some 3, some 1) := by
  decide +kernel

end Verif.GridDataset
