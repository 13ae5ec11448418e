import Verif.Model.LandCover
import Mathlib.Tactic

/-!
# C100: land cover class pixels
-/

set_option linter.unusedSectionVars false

namespace Verif.LandCover

variable {C : Type*}

theorem mem_occurring (cells : List C) (roi : C → Bool) (lc : C → ℤ) (l : ℤ) :
    l ∈ occurring cells roi lc ↔ (∃ c ∈ cells, roi c = true ∧ lc c = l) ∧ 0 < l := by
  simp only [occurring, List.mem_filter, List.mem_insertionSort, List.mem_dedup, List.mem_map, decide_eq_true_eq]
  constructor
  · rintro ⟨⟨c, ⟨h1, h2⟩, h3⟩, h4⟩
    exact ⟨⟨c, h1, h2, h3⟩, h4⟩
  · rintro ⟨⟨c, h1, h2, h3⟩, h4⟩
    exact ⟨⟨c, ⟨h1, h2⟩, h3⟩, h4⟩

theorem occurring_nodup (cells : List C) (roi : C → Bool) (lc : C → ℤ) : (occurring cells roi lc).Nodup := by
  unfold occurring
  apply List.Nodup.filter
  exact (List.perm_insertionSort (· ≤ ·) _).nodup_iff.mpr (List.nodup_dedup _)

theorem addClasses_eq (cfg : ℤ → Option Params) (roi : C → Bool) (lc : C → ℤ) (ls : List ℤ) (s : Classes C) :
    addClasses cfg roi lc ls s =
      { pixels := s.pixels ++ (ls.filter fun l => (cfg l).isSome).map fun l => (l, fun c => decide (lc c = l) && roi c)
        forest := s.forest ++ ls.filter fun l => ((cfg l).map Params.forest).getD false
        lai := s.lai ++ ls.filter fun l => decide ((cfg l).bind Params.lai = some (true, true)) } := by
  induction ls generalizing s with
  | nil => simp [addClasses]
  | cons l ls ih =>
    unfold addClasses
    cases h : cfg l with
    | none => simp [ih, h]
    | some p =>
      simp only [ih]
      obtain ⟨f, lai⟩ := p
      cases f <;> rcases lai with _ | ⟨a, b⟩ <;> [skip; cases a <;> cases b; skip; cases a <;> cases b] <;>
        simp [h]

theorem initClasses_eq (cells : List C) (cfg : ℤ → Option Params) (roi : C → Bool) (lc : C → ℤ) :
    initClasses cells cfg roi lc =
      { pixels := ((occurring cells roi lc).filter fun l => (cfg l).isSome).map
          fun l => (l, fun c => decide (lc c = l) && roi c)
        forest := (occurring cells roi lc).filter fun l => ((cfg l).map Params.forest).getD false
        lai := (occurring cells roi lc).filter fun l => decide ((cfg l).bind Params.lai = some (true, true)) } := by
  rw [initClasses, addClasses_eq]; simp

/-- Specification: the cell belongs to the class: it is in the domain, the class is positive and configured. -/
def Belongs (cfg : ℤ → Option Params) (roi : C → Bool) (lc : C → ℤ) (c : C) (l : ℤ) : Prop :=
  roi c = true ∧ lc c = l ∧ 0 < l ∧ ∃ p, cfg l = some p

theorem masks_eq (sel : ℤ → Bool) (roi : C → Bool) (lc : C → ℤ) (cells : List C) (c : C) (hc : c ∈ cells) :
    ((((occurring cells roi lc).filter sel).map fun l => (l, fun c => decide (lc c = l) && roi c)).filter
      fun m : ℤ × (C → Bool) => m.2 c).map Prod.fst =
      if roi c = true ∧ 0 < lc c ∧ sel (lc c) = true then [lc c] else [] := by
  rw [List.filter_map, List.map_map]
  have hid : (Prod.fst ∘ fun l : ℤ => (l, fun c => decide (lc c = l) && roi c)) = id := rfl
  rw [hid, List.map_id, List.filter_filter]
  have hnd := occurring_nodup cells roi lc
  have hmem := mem_occurring cells roi lc
  obtain ⟨o, ho⟩ : ∃ o, occurring cells roi lc = o := ⟨_, rfl⟩
  rw [ho] at hnd hmem ⊢
  by_cases h : roi c = true ∧ 0 < lc c ∧ sel (lc c) = true
  · rw [if_pos h]
    obtain ⟨h1, h2, h3⟩ := h
    have hin : lc c ∈ o := (hmem _).mpr ⟨⟨c, hc, h1, rfl⟩, h2⟩
    have hcong : (o.filter fun l => ((fun m : ℤ × (C → Bool) => m.2 c) ∘ fun l : ℤ =>
        (l, fun c => decide (lc c = l) && roi c)) l && sel l) = o.filter fun l => decide (l = lc c) := by
      apply List.filter_congr
      intro l _
      by_cases hl : l = lc c
      · subst hl; simp [h1, h3]
      · have : ¬ lc c = l := fun h => hl h.symm
        simp [hl, this]
    rw [hcong]
    clear hcong hmem ho
    induction o with
    | nil => simp at hin
    | cons a o ih =>
      rw [List.nodup_cons] at hnd
      by_cases ha : a = lc c
      · rw [List.filter_cons_of_pos (by simp [ha]), List.filter_eq_nil_iff.mpr, ha]
        intro b hb
        simp only [decide_eq_true_eq]
        rintro rfl
        exact hnd.1 (ha ▸ hb)
      · rw [List.filter_cons_of_neg (by simp [ha])]
        rcases List.mem_cons.mp hin with h | h
        · exact absurd h.symm ha
        · exact ih hnd.2 h
  · rw [if_neg h, List.filter_eq_nil_iff]
    intro l hl hcon
    simp only [Function.comp, Bool.and_eq_true, decide_eq_true_eq] at hcon
    obtain ⟨⟨h1, h2⟩, h3⟩ := hcon
    subst h1
    exact h ⟨h2, ((hmem _).mp hl).2, h3⟩

/-- **C100.** A pixel of the domain with a configured (positive) class is in exactly one mask, the one of its class; any
other pixel is in none. -/
theorem C100_mask (cells : List C) (cfg : ℤ → Option Params) (roi : C → Bool) (lc : C → ℤ) (c : C) (hc : c ∈ cells) :
    (∀ l, Belongs cfg roi lc c l →
      (((initClasses cells cfg roi lc).pixels.filter fun m => m.2 c).map Prod.fst) = [l]) ∧
    ((¬ ∃ l, Belongs cfg roi lc c l) → ∀ m ∈ (initClasses cells cfg roi lc).pixels, m.2 c = false) := by
  have key := masks_eq (fun l => (cfg l).isSome) roi lc cells c hc
  rw [initClasses_eq]
  constructor
  · rintro l ⟨h1, h2, h3, p, hp⟩
    subst h2
    simp only
    rw [key, if_pos ⟨h1, h3, by simp [hp]⟩]
  · intro h m hm
    by_contra hne
    have hm2 : m.2 c = true := by simpa using hne
    have : m.1 ∈ ((((occurring cells roi lc).filter fun l => (cfg l).isSome).map
        fun l => (l, fun c => decide (lc c = l) && roi c)).filter
          fun m : ℤ × (C → Bool) => m.2 c).map Prod.fst :=
      List.mem_map.mpr ⟨m, List.mem_filter.mpr ⟨hm, hm2⟩, rfl⟩
    rw [key] at this
    split_ifs at this with h'
    · obtain ⟨a, b, c'⟩ := h'
      exact h ⟨lc c, a, rfl, b, Option.isSome_iff_exists.mp c'⟩
    · simp at this

/-- **C100.** Forest classes and classes with a leaf area index are those that occur in the domain and are configured so,
each of them once; all of them have a mask. -/
theorem C100_classes (cells : List C) (cfg : ℤ → Option Params) (roi : C → Bool) (lc : C → ℤ) (l : ℤ) :
    (l ∈ (initClasses cells cfg roi lc).forest ↔
      (∃ c ∈ cells, Belongs cfg roi lc c l) ∧ ∃ p, cfg l = some p ∧ p.forest = true) ∧
    (l ∈ (initClasses cells cfg roi lc).lai ↔
      (∃ c ∈ cells, Belongs cfg roi lc c l) ∧ ∃ p, cfg l = some p ∧ p.lai = some (true, true)) ∧
    (initClasses cells cfg roi lc).forest.Nodup ∧ (initClasses cells cfg roi lc).lai.Nodup ∧
    ((initClasses cells cfg roi lc).pixels.map Prod.fst).Nodup := by
  rw [initClasses_eq]
  have hb : ∀ p, cfg l = some p → ((∃ c ∈ cells, Belongs cfg roi lc c l) ↔ l ∈ occurring cells roi lc) := by
    intro p hp
    rw [mem_occurring]
    constructor
    · rintro ⟨c, hc, h1, h2, h3, -⟩
      exact ⟨⟨c, hc, h1, h2⟩, h3⟩
    · rintro ⟨⟨c, hc, h1, h2⟩, h3⟩
      exact ⟨c, hc, h1, h2, h3, p, hp⟩
  refine ⟨?_, ?_, (occurring_nodup _ _ _).filter _, (occurring_nodup _ _ _).filter _, ?_⟩
  · simp only [List.mem_filter]
    cases h : cfg l with
    | none => simp
    | some p => simp [hb p h]
  · simp only [List.mem_filter, decide_eq_true_eq]
    cases h : cfg l with
    | none => simp
    | some p => simp [hb p h]
  · simp only [List.map_map]
    have : (Prod.fst ∘ fun l : ℤ => (l, fun c => decide (lc c = l) && roi c)) = id := rfl
    rw [this, List.map_id]
    exact (occurring_nodup _ _ _).filter _

/-- **C100.** The evapotranspiration model works on the same masks. -/
theorem C100_evapotranspiration (cells : List C) (cfg : ℤ → Option Params) (keys : List ℤ)
    (hk : ∀ l, l ∈ keys ↔ ∃ p, cfg l = some p) (roi : C → Bool) (lc : C → ℤ) :
    etPixels cells keys roi lc = (initClasses cells cfg roi lc).pixels := by
  rw [initClasses_eq, etPixels]
  congr 1
  apply List.filter_congr
  intro l _
  rw [Bool.eq_iff_iff, decide_eq_true_eq, hk, Option.isSome_iff_exists]

theorem lookup_mask (ls : List ℤ) (f : ℤ → C → Bool) (l : ℤ) (h : l ∈ ls) :
    (ls.map fun l => (l, f l)).lookup l = some (f l) := by
  induction ls with
  | nil => simp at h
  | cons a ls ih =>
    by_cases ha : l = a
    · subst ha; simp
    · rcases List.mem_cons.mp h with h | h
      · exact absurd h ha
      · have hb : (l == a) = false := by simpa using ha
        simp only [List.map_cons, List.lookup, hb]
        exact ih h

/-- **C100.** The forest of the canopy model consists of the pixels with a forest class. -/
theorem C100_forest (cells : List C) (cfg : ℤ → Option Params) (roi : C → Bool) (lc : C → ℤ) (c : C) (hc : c ∈ cells) :
    forestPos (initClasses cells cfg roi lc) c = true ↔
      ∃ l p, Belongs cfg roi lc c l ∧ cfg l = some p ∧ p.forest = true := by
  unfold forestPos
  rw [List.any_eq_true]
  have hcl := fun l => (C100_classes cells cfg roi lc l).1
  constructor
  · rintro ⟨l, hl, hm⟩
    obtain ⟨⟨c', hc', hb⟩, p, hp, hf⟩ := (hcl l).mp hl
    obtain ⟨-, -, hpos, -⟩ := hb
    rw [initClasses_eq] at hl hm
    simp only at hl hm
    rw [lookup_mask _ (fun l c => decide (lc c = l) && roi c) l (List.mem_filter.mpr
      ⟨(List.mem_filter.mp hl).1, by simp [hp]⟩)] at hm
    simp only [Option.getD_some, Bool.and_eq_true, decide_eq_true_eq] at hm
    exact ⟨l, p, ⟨hm.2, hm.1, hpos, p, hp⟩, hp, hf⟩
  · rintro ⟨l, p, hb, hp, hf⟩
    have hl := (hcl l).mpr ⟨⟨c, hc, hb⟩, p, hp, hf⟩
    refine ⟨l, hl, ?_⟩
    rw [initClasses_eq] at hl ⊢
    simp only at hl ⊢
    rw [lookup_mask _ (fun l c => decide (lc c = l) && roi c) l (List.mem_filter.mpr
      ⟨(List.mem_filter.mp hl).1, by simp [hp]⟩)]
    simp [hb.1, hb.2.1]

/-- **C100.** The leaf area index is set in the pixels of the classes that have one, with the value of the class, and
nowhere else. -/
theorem C100_lai {V : Type*} (cells : List C) (cfg : ℤ → Option Params) (roi : C → Bool) (lc : C → ℤ) (value : ℤ → V)
    (old : C → Option V) (c : C) (hc : c ∈ cells) :
    (∀ l p, Belongs cfg roi lc c l → cfg l = some p → p.lai = some (true, true) →
      laiEff (initClasses cells cfg roi lc) value old c = some (value l)) ∧
    ((¬ ∃ l p, Belongs cfg roi lc c l ∧ cfg l = some p ∧ p.lai = some (true, true)) →
      laiEff (initClasses cells cfg roi lc) value old c = old c) := by
  have hmask : ∀ l ∈ (initClasses cells cfg roi lc).lai,
      (((initClasses cells cfg roi lc).pixels.lookup l).getD fun _ => false) c = (decide (lc c = l) && roi c) := by
    intro l hl
    obtain ⟨-, p, hp, -⟩ := (C100_classes cells cfg roi lc l).2.1.mp hl
    rw [initClasses_eq] at hl ⊢
    simp only at hl ⊢
    rw [lookup_mask _ (fun l c => decide (lc c = l) && roi c) l (List.mem_filter.mpr
      ⟨(List.mem_filter.mp hl).1, by simp [hp]⟩)]
    rfl
  have hfold : ∀ (ls : List ℤ) (acc : Option V), (∀ l ∈ ls, l ∈ (initClasses cells cfg roi lc).lai) →
      ls.foldl (fun acc l => if (((initClasses cells cfg roi lc).pixels.lookup l).getD fun _ => false) c = true
        then some (value l) else acc) acc =
        if roi c = true ∧ lc c ∈ ls then some (value (lc c)) else acc := by
    intro ls
    induction ls with
    | nil => intro acc _; simp
    | cons a ls ih =>
      intro acc h
      rw [List.foldl_cons, ih _ fun l hl => h l (List.mem_cons_of_mem _ hl), hmask a (h a (by simp))]
      by_cases hr : roi c = true
      · by_cases ha : lc c = a
        · subst ha; simp [hr]
        · simp [hr, ha]
      · simp [hr]
  unfold laiEff
  rw [hfold _ _ fun l hl => hl]
  constructor
  · intro l p hb hp hl
    have := (C100_classes cells cfg roi lc l).2.1.mpr ⟨⟨c, hc, hb⟩, p, hp, hl⟩
    obtain ⟨h1, h2, -⟩ := hb
    subst h2
    rw [if_pos ⟨h1, this⟩]
  · intro h
    rw [if_neg]
    rintro ⟨h1, h2⟩
    obtain ⟨⟨c', -, hb⟩, p, hp, hl⟩ := (C100_classes cells cfg roi lc _).2.1.mp h2
    exact h ⟨lc c, p, ⟨h1, rfl, hb.2.2.1, p, hp⟩, hp, hl⟩

/-- **C100.** Forest without leaf area index: a class that is configured as forest but without (complete) leaf area
index is used by the canopy model with a missing leaf area index. -/
theorem C100_forest_lai_witness {V : Type*} (value : ℤ → V) :
    ∃ (cells : List Unit) (cfg : ℤ → Option Params) (roi : Unit → Bool) (lc : Unit → ℤ),
      forestPos (initClasses cells cfg roi lc) () = true ∧
      laiEff (initClasses cells cfg roi lc) value (fun _ => none) () = none := by
  refine ⟨[()], fun _ => some ⟨true, none⟩, fun _ => true, fun _ => 1, ?_, ?_⟩
  · rw [C100_forest _ _ _ _ _ (by simp)]
    exact ⟨1, ⟨true, none⟩, ⟨rfl, rfl, by norm_num, _, rfl⟩, rfl, rfl⟩
  · rw [(C100_lai _ _ _ _ _ _ _ (by simp)).2]
    rintro ⟨l, p, -, hp, hl⟩
    rw [← Option.some.inj hp] at hl
    simp at hl

-- C100_mask: two configured classes, one unknown class, one pixel outside of the domain.
example : let cfg : ℤ → Option Params := fun l => if l = 1 then some ⟨true, none⟩ else if l = 2 then some ⟨false, none⟩ else none
    let lc : Fin 4 → ℤ := ![1, 2, 3, 1]
    Belongs cfg (fun c => decide (c ≠ 3)) lc 0 1 ∧ Belongs cfg (fun c => decide (c ≠ 3)) lc 1 2 ∧
    (¬ ∃ l, Belongs cfg (fun c => decide (c ≠ 3)) lc 2 l) ∧ ¬ ∃ l, Belongs cfg (fun c => decide (c ≠ 3)) lc 3 l := by
  simp [Belongs]

end Verif.LandCover
