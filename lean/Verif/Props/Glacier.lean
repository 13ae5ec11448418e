import Verif.Model.Glacier
import Mathlib.Tactic.Linarith
import Mathlib.Tactic.Positivity
import Mathlib.Tactic.FieldSimp
import Mathlib.Tactic.Ring
import Mathlib.Tactic.NormNum
import Mathlib.Algebra.BigOperators.Ring.List
import Mathlib.Algebra.Order.BigOperators.Group.List

/-!
# C43: glacier mass change
-/

set_option linter.unusedSectionVars false

namespace Verif.Glacier

variable {K : Type*} [Field K] [LinearOrder K] [IsStrictOrderedRing K]

/-! ## Lemmas -/

theorem foldl_min_le (xs : List K) (x : K) :
    xs.foldl min x ≤ x ∧ (∀ y ∈ xs, xs.foldl min x ≤ y) ∧ (xs.foldl min x = x ∨ xs.foldl min x ∈ xs) := by
  induction xs generalizing x with
  | nil => simp
  | cons a xs ih =>
    obtain ⟨h1, h2, h3⟩ := ih (min x a)
    simp only [List.foldl_cons]
    refine ⟨h1.trans (min_le_left _ _), ?_, ?_⟩
    · intro y hy
      rcases List.mem_cons.mp hy with rfl | h
      · exact h1.trans (min_le_right _ _)
      · exact h2 y h
    · rcases h3 with h | h
      · rcases min_choice x a with e | e
        · rw [e] at h ⊢; exact Or.inl h
        · rw [e] at h ⊢; right; rw [h]; exact List.mem_cons_self
      · exact Or.inr (List.mem_cons_of_mem _ h)

theorem foldl_max_ge (xs : List K) (x : K) :
    x ≤ xs.foldl max x ∧ (∀ y ∈ xs, y ≤ xs.foldl max x) ∧ (xs.foldl max x = x ∨ xs.foldl max x ∈ xs) := by
  induction xs generalizing x with
  | nil => simp
  | cons a xs ih =>
    obtain ⟨h1, h2, h3⟩ := ih (max x a)
    simp only [List.foldl_cons]
    refine ⟨(le_max_left _ _).trans h1, ?_, ?_⟩
    · intro y hy
      rcases List.mem_cons.mp hy with rfl | h
      · exact (le_max_right _ _).trans h1
      · exact h2 y h
    · rcases h3 with h | h
      · rcases max_choice x a with e | e
        · rw [e] at h ⊢; exact Or.inl h
        · rw [e] at h ⊢; right; rw [h]; exact List.mem_cons_self
      · exact Or.inr (List.mem_cons_of_mem _ h)

theorem lmin_spec (l : List K) (h : l ≠ []) : lmin l ∈ l ∧ ∀ x ∈ l, lmin l ≤ x := by
  cases l with
  | nil => exact absurd rfl h
  | cons a l =>
    obtain ⟨h1, h2, h3⟩ := foldl_min_le l a
    refine ⟨?_, ?_⟩
    · rcases h3 with e | e
      · simp only [lmin, e]; exact List.mem_cons_self
      · exact List.mem_cons_of_mem _ e
    · intro x hx
      rcases List.mem_cons.mp hx with rfl | h
      · exact h1
      · exact h2 x h

theorem lmax_spec (l : List K) (h : l ≠ []) : lmax l ∈ l ∧ ∀ x ∈ l, x ≤ lmax l := by
  cases l with
  | nil => exact absurd rfl h
  | cons a l =>
    obtain ⟨h1, h2, h3⟩ := foldl_max_ge l a
    refine ⟨?_, ?_⟩
    · rcases h3 with e | e
      · simp only [lmax, e]; exact List.mem_cons_self
      · exact List.mem_cons_of_mem _ e
    · intro x hx
      rcases List.mem_cons.mp hx with rfl | h
      · exact h1
      · exact h2 x h

/-- Specification: the elevations are not all equal. -/
def Varied (l : List K) : Prop := ∃ a ∈ l, ∃ b ∈ l, a ≠ b

theorem varied_iff (l : List K) (h : l ≠ []) : Varied l ↔ lmin l < lmax l := by
  obtain ⟨m1, m2⟩ := lmin_spec l h
  obtain ⟨x1, x2⟩ := lmax_spec l h
  constructor
  · rintro ⟨a, ha, b, hb, hab⟩
    rcases lt_or_gt_of_ne hab with c | c
    · exact (m2 a ha).trans_lt (c.trans_le (x2 b hb))
    · exact (m2 b hb).trans_lt (c.trans_le (x2 a ha))
  · intro hlt
    exact ⟨_, m1, _, x1, hlt.ne⟩

theorem varied_ne_nil {l : List K} (h : Varied l) : l ≠ [] := by
  obtain ⟨a, ha, -⟩ := h
  exact List.ne_nil_of_mem ha

/-! ## C43 -/

/-- **C43.** The normalised thickness change is in [-1, 0]; it is -1 at the terminus for every
glacier size and 0 at the highest pixel for small and for large glaciers. -/
theorem C43_delta_h (area h : K) :
    (-1 ≤ deltaH area h ∧ deltaH area h ≤ 0) ∧ deltaH area 1 = -1 ∧
    (area < 5000000 → deltaH area 0 = 0) ∧ (20000000 ≤ area → deltaH area 0 = 0) := by
  refine ⟨⟨le_min (le_max_right _ _) (by norm_num), min_le_right _ _⟩, ?_, ?_, ?_⟩
  · unfold deltaH
    split_ifs
    · norm_num
    · norm_num
    · norm_num
  · intro ha
    have : ¬ (20000000 : K) ≤ area := by intro h'; linarith
    simp only [deltaH, this, if_false, not_le.mpr ha]
    norm_num
  · intro ha
    simp only [deltaH, ha, if_true]
    norm_num

theorem pow4_mono {x y : K} (hxy : x ≤ y) (hx : -(5 / 100) ≤ x) :
    x ^ 4 + 19 / 100 * x ≤ y ^ 4 + 19 / 100 * y := by
  have key : 0 ≤ (y - x) * (y ^ 3 + y ^ 2 * x + y * x ^ 2 + x ^ 3 + 19 / 100) := by
    apply mul_nonneg (by linarith)
    have e : y ^ 3 + y ^ 2 * x + y * x ^ 2 + x ^ 3 = (y + x) * (y ^ 2 + x ^ 2) := by ring
    rw [e]
    rcases le_or_gt 0 (y + x) with h | h
    · positivity
    · -- both are small in absolute value
      have hx2 : x ^ 2 ≤ 1 / 100 := by
        have : x ≤ 5 / 100 := by linarith
        nlinarith
      have hy2 : y ^ 2 ≤ 1 / 100 := by
        have h1 : -(5 / 100) ≤ y := by linarith
        have h2 : y ≤ 5 / 100 := by linarith
        nlinarith
      have h3 : -(1 / 10) ≤ y + x := by linarith
      have h4 : 0 ≤ y ^ 2 + x ^ 2 := by positivity
      nlinarith
  nlinarith

theorem pow6_mono {x y : K} (hxy : x ≤ y) (hx : -(2 / 100) ≤ x) :
    x ^ 6 + 12 / 100 * x ≤ y ^ 6 + 12 / 100 * y := by
  have key : 0 ≤ (y - x) * ((y + x) * (y ^ 4 + y ^ 2 * x ^ 2 + x ^ 4) + 12 / 100) := by
    apply mul_nonneg (by linarith)
    rcases le_or_gt 0 (y + x) with h | h
    · positivity
    · have hx2 : x ^ 2 ≤ 1 / 100 := by
        have : x ≤ 2 / 100 := by linarith
        nlinarith
      have hy2 : y ^ 2 ≤ 1 / 100 := by
        have h1 : -(2 / 100) ≤ y := by linarith
        have h2 : y ≤ 2 / 100 := by linarith
        nlinarith
      have hx0 : 0 ≤ x ^ 2 := sq_nonneg x
      have hy0 : 0 ≤ y ^ 2 := sq_nonneg y
      have h3 : -(1 / 10) ≤ y + x := by linarith
      have a : y ^ 4 ≤ 1 / 100 := by nlinarith
      have b : x ^ 4 ≤ 1 / 100 := by nlinarith
      have c : y ^ 2 * x ^ 2 ≤ 1 / 100 := by nlinarith
      have h4 : 0 ≤ y ^ 4 + y ^ 2 * x ^ 2 + x ^ 4 := by positivity
      nlinarith
  nlinarith

/-- **C43.** Lower pixels are lowered at least as much as higher ones (before the restriction). -/
theorem C43_delta_h_antitone (area h h' : K) (h0 : 0 ≤ h) (hh : h ≤ h') :
    deltaH area h' ≤ deltaH area h := by
  unfold deltaH
  apply min_le_min _ le_rfl
  apply max_le_max _ le_rfl
  split_ifs
  · have := pow6_mono (x := h - 2 / 100) (y := h' - 2 / 100) (by linarith) (by linarith)
    linarith
  · have := pow4_mono (x := h - 5 / 100) (y := h' - 5 / 100) (by linarith) (by linarith)
    linarith
  · nlinarith

theorem map_mul_sum (a : K) (l : List K) : (l.map (a * ·)).sum = a * l.sum := by
  induction l with
  | nil => simp
  | cons x l ih => simp only [List.map_cons, List.sum_cons, ih]; ring

theorem list_sum_nonpos (l : List K) (h : ∀ x ∈ l, x ≤ 0) : l.sum ≤ 0 := by
  induction l with
  | nil => simp
  | cons a l ih =>
    rw [List.sum_cons]
    have := h a List.mem_cons_self
    have := ih fun x hx => h x (List.mem_cons_of_mem _ hx)
    linarith

theorem sum_le_of_mem_nonpos (l : List K) (h : ∀ x ∈ l, x ≤ 0) (y : K) (hy : y ∈ l) : l.sum ≤ y := by
  induction l with
  | nil => simp at hy
  | cons a l ih =>
    rw [List.sum_cons]
    have hs : l.sum ≤ 0 := list_sum_nonpos l fun x hx => h x (List.mem_cons_of_mem _ hx)
    rcases List.mem_cons.mp hy with rfl | h'
    · linarith
    · have := ih (fun x hx => h x (List.mem_cons_of_mem _ hx)) h'
      have := h a List.mem_cons_self
      linarith

theorem unrestricted_spec (elevs : List K) (total area : K) (hv : Varied elevs) :
    ∃ mc, unrestricted elevs total area = some mc ∧ mc.sum = total ∧ mc.length = elevs.length ∧
      (total < 0 → ∀ m ∈ mc, m ≤ 0) := by
  have hlt := (varied_iff elevs (varied_ne_nil hv)).mp hv
  obtain ⟨m1, m2⟩ := lmin_spec elevs (varied_ne_nil hv)
  simp only [unrestricted]
  rw [if_neg hlt.ne']
  obtain ⟨dh, hdh⟩ : ∃ dh, (elevs.map fun e => deltaH area ((lmax elevs - e) / (lmax elevs - lmin elevs)))
    = dh := ⟨_, rfl⟩
  have hnp : ∀ x ∈ dh, x ≤ 0 := by
    rw [← hdh]
    intro x hx
    obtain ⟨e, -, rfl⟩ := List.mem_map.mp hx
    exact (C43_delta_h area _).1.2
  have hm1 : (-1 : K) ∈ dh := by
    rw [← hdh, List.mem_map]
    refine ⟨lmin elevs, m1, ?_⟩
    rw [div_self (sub_pos.mpr hlt).ne', (C43_delta_h area 0).2.1]
  have hs : dh.sum < 0 := lt_of_le_of_lt (sum_le_of_mem_nonpos dh hnp _ hm1) (by norm_num)
  rw [hdh]
  refine ⟨_, rfl, ?_, ?_, ?_⟩
  · rw [map_mul_sum, div_mul_cancel₀ _ hs.ne]
  · rw [List.length_map, ← hdh, List.length_map]
  · intro ht m hm
    obtain ⟨x, hx, rfl⟩ := List.mem_map.mp hm
    exact mul_nonpos_of_nonneg_of_nonpos (div_nonneg_of_nonpos ht.le hs.le) (hnp x hx)

theorem scale_sum (x mn mx : K) (l : List K) :
    (l.map (scale x mn mx)).sum = x * (l.map (scale 1 mn mx)).sum := by
  induction l with
  | nil => simp
  | cons a l ih =>
    simp only [List.map_cons, List.sum_cons, ih]
    unfold scale
    ring

theorem surplus_spec (loss : K) (elevs : List K) (hl : loss ≠ 0) (hv : Varied elevs) :
    ∃ f, surplus loss elevs = some f ∧ (elevs.map f).sum = loss := by
  have hne := varied_ne_nil hv
  have hlt := (varied_iff elevs hne).mp hv
  obtain ⟨m1, m2⟩ := lmin_spec elevs hne
  obtain ⟨x1, x2⟩ := lmax_spec elevs hne
  have hd : 0 < lmax elevs - lmin elevs := sub_pos.mpr hlt
  have hlen : (0 : K) < elevs.length := by
    exact_mod_cast List.length_pos_iff.mpr hne
  simp only [surplus]
  rw [if_neg hlt.ne']
  have hx1 : loss / elevs.length * (15 / 10) ≠ 0 :=
    mul_ne_zero (div_ne_zero hl hlen.ne') (by norm_num)
  rw [if_neg hx1]
  obtain ⟨S, hS⟩ : ∃ S, (elevs.map (scale 1 (lmin elevs) (lmax elevs))).sum = S := ⟨_, rfl⟩
  have hSpos : 0 < S := by
    have hnn : ∀ x ∈ elevs.map (scale 1 (lmin elevs) (lmax elevs)), 0 ≤ x := by
      intro x hx
      obtain ⟨e, he, rfl⟩ := List.mem_map.mp hx
      have := m2 e he
      unfold scale
      have : 0 ≤ (1 - 0) * (e - lmin elevs) / (lmax elevs - lmin elevs) :=
        div_nonneg (by nlinarith) hd.le
      linarith
    have hone : (1 : K) ∈ elevs.map (scale 1 (lmin elevs) (lmax elevs)) := by
      rw [List.mem_map]
      refine ⟨_, x1, ?_⟩
      unfold scale
      rw [sub_zero, one_mul, div_self hd.ne', add_zero]
    have := List.single_le_sum hnn _ hone
    rw [hS] at this
    linarith
  rw [scale_sum _ _ _ elevs, scale_sum 0 _ _ elevs, hS]
  obtain ⟨x, hx⟩ : ∃ x, loss / elevs.length * (15 / 10) = x := ⟨_, rfl⟩
  rw [hx] at hx1 ⊢
  have hk : (x * S - 0 * S) / (x - 0) = S := by
    rw [zero_mul, sub_zero, sub_zero]; field_simp
  rw [hk, if_neg hSpos.ne']
  refine ⟨_, rfl, ?_⟩
  rw [scale_sum, hS]
  field_simp
  ring

theorem restrict_sum (lim : K) (px : List (K × K)) (f : K → K) :
    (px.map fun p => if p.2 < lim then lim else p.2 + f p.1).sum =
      (px.map fun p => if p.2 < lim then lim else p.2).sum +
      (((px.filter fun p => decide (¬ p.2 < lim)).map Prod.fst).map f).sum := by
  induction px with
  | nil => simp
  | cons p px ih =>
    simp only [List.map_cons, List.sum_cons, ih]
    by_cases h : p.2 < lim
    · simp only [h, if_true, not_true, decide_false, List.filter_cons_of_neg, Bool.false_eq_true,
        not_false_eq_true]
      ring
    · simp only [h, if_false, not_false_eq_true, decide_true, List.filter_cons_of_pos, List.map_cons,
        List.sum_cons]
      ring

theorem restrict_lt (lim : K) (px : List (K × K))
    (h : (px.filter fun p => decide (p.2 < lim)) ≠ []) :
    (px.map Prod.snd).sum < (px.map fun p => if p.2 < lim then lim else p.2).sum := by
  have le : ∀ px : List (K × K),
      (px.map Prod.snd).sum ≤ (px.map fun p => if p.2 < lim then lim else p.2).sum := by
    intro px
    induction px with
    | nil => simp
    | cons p px ih =>
      simp only [List.map_cons, List.sum_cons]
      split_ifs <;> linarith
  induction px with
  | nil => exact absurd rfl h
  | cons p px ih =>
    simp only [List.map_cons, List.sum_cons]
    by_cases hp : p.2 < lim
    · have := le px
      simp only [hp, if_true]
      linarith
    · simp only [hp, if_false]
      have := ih (by simpa [List.filter_cons, hp] using h)
      linarith

/-- The elevations that the restriction redistributes to. -/
def Unclipped (elevs mc : List K) (lim : K) : List K :=
  ((elevs.zip mc).filter fun p => decide (¬ p.2 < lim)).map Prod.fst

theorem map_snd_zip (a b : List K) (h : b.length = a.length) : (a.zip b).map Prod.snd = b := by
  rw [List.map_snd_zip]
  omega

/-- **C43.** The distributed mass changes add up to the total mass balance: for a positive balance
always; for a negative one if the elevations differ, and — should the restriction of the lowering
apply — if those of the pixels receiving the remainder differ. -/
theorem C43_total (elevs : List K) (total area lim : K) (hne : elevs ≠ [])
    (hv : total < 0 → Varied elevs)
    (hu : total < 0 → ∀ mc, unrestricted elevs total area = some mc →
      lim < 0 → (∃ m ∈ mc, m < lim) → 1 < (Unclipped elevs mc lim).length →
        Varied (Unclipped elevs mc lim)) :
    ∃ r, iceMassChange elevs total area lim = some r ∧ r.length = elevs.length ∧ r.sum = total := by
  unfold iceMassChange
  by_cases ht : total < 0
  · rw [if_pos ht]
    obtain ⟨mc, h1, h2, h3, -⟩ := unrestricted_spec elevs total area (hv ht)
    rw [h1]
    simp only [restrict]
    have hz : ((elevs.zip mc).map Prod.snd).sum = total := by
      rw [map_snd_zip _ _ h3, h2]
    by_cases hc : lim < 0 ∧ ((elevs.zip mc).filter fun p => decide (p.2 < lim)) ≠ [] ∧
        1 < ((elevs.zip mc).filter fun p => decide (¬ p.2 < lim)).length
    · rw [if_pos hc]
      obtain ⟨c1, c2, c3⟩ := hc
      have hm : ∃ m ∈ mc, m < lim := by
        obtain ⟨p, hp⟩ := List.exists_mem_of_ne_nil _ c2
        obtain ⟨q1, q2⟩ := List.mem_filter.mp hp
        exact ⟨p.2, (List.of_mem_zip (a := p.1) (b := p.2) q1).2, by simpa using q2⟩
      have hvar := hu ht mc h1 c1 hm (by simpa [Unclipped] using c3)
      have hloss := restrict_lt lim (elevs.zip mc) c2
      obtain ⟨f, f1, f2⟩ := surplus_spec
        (((elevs.zip mc).map Prod.snd).sum -
          ((elevs.zip mc).map fun p => if p.2 < lim then lim else p.2).sum)
        _ (by linarith) hvar
      unfold Unclipped at f1 f2
      rw [f1]
      refine ⟨_, rfl, ?_, ?_⟩
      · rw [List.length_map, List.length_zip, h3, min_self]
      · rw [restrict_sum, f2, hz]; ring
    · rw [if_neg hc]
      refine ⟨_, rfl, ?_, hz⟩
      rw [List.length_map, List.length_zip, h3, min_self]
  · rw [if_neg ht]
    refine ⟨_, rfl, by simp, ?_⟩
    rw [List.map_const', List.sum_replicate, nsmul_eq_mul, mul_div_cancel₀]
    exact_mod_cast (List.length_pos_iff.mpr hne).ne'

/-- **C43.** With equal elevations a negative balance cannot be distributed. -/
theorem C43_equal_elevations_false (elevs : List K) (total area lim : K) (ht : total < 0)
    (hne : elevs ≠ []) (h : ¬ Varied elevs) : iceMassChange elevs total area lim = none := by
  have hle : lmin elevs ≤ lmax elevs := (lmin_spec elevs hne).2 _ (lmax_spec elevs hne).1
  have : lmax elevs = lmin elevs := by
    rw [varied_iff elevs hne, not_lt] at h
    exact le_antisymm h hle
  simp [iceMassChange, ht, unrestricted, this]

/-- **C43.** Without restriction no pixel gains mass in a negative year, and the loss of a pixel is
at least that of every higher pixel. -/
theorem C43_unrestricted_order (elevs : List K) (total area : K) (ht : total < 0)
    (hv : Varied elevs) (mc : List K) (h : unrestricted elevs total area = some mc)
    (i j : ℕ) (ei ej mi mj : K) (hei : elevs[i]? = some ei) (hej : elevs[j]? = some ej)
    (hmi : mc[i]? = some mi) (hmj : mc[j]? = some mj) (hle : ei ≤ ej) : mi ≤ mj ∧ mj ≤ 0 := by
  obtain ⟨mc', h', -, -, hnp⟩ := unrestricted_spec elevs total area hv
  rw [h] at h'
  cases h'
  refine ⟨?_, hnp ht mj (List.mem_of_getElem? hmj)⟩
  have hlt := (varied_iff elevs (varied_ne_nil hv)).mp hv
  obtain ⟨m1, m2⟩ := lmin_spec elevs (varied_ne_nil hv)
  obtain ⟨x1, x2⟩ := lmax_spec elevs (varied_ne_nil hv)
  have hd : 0 < lmax elevs - lmin elevs := sub_pos.mpr hlt
  simp only [unrestricted] at h
  rw [if_neg hlt.ne', Option.some.injEq] at h
  obtain ⟨dh, hdh⟩ : ∃ dh, (elevs.map fun e => deltaH area ((lmax elevs - e) / (lmax elevs - lmin elevs)))
    = dh := ⟨_, rfl⟩
  have hnp' : ∀ x ∈ dh, x ≤ 0 := by
    rw [← hdh]
    intro x hx
    obtain ⟨e, -, rfl⟩ := List.mem_map.mp hx
    exact (C43_delta_h area _).1.2
  rw [hdh] at h
  have hs : dh.sum ≤ 0 := list_sum_nonpos dh hnp'
  have hfs : 0 ≤ total / dh.sum := div_nonneg_of_nonpos ht.le hs
  rw [← h, List.getElem?_map, ← hdh, List.getElem?_map, hei] at hmi
  rw [← h, List.getElem?_map, ← hdh, List.getElem?_map, hej] at hmj
  simp only [Option.map_some, Option.some.injEq] at hmi hmj
  rw [← hmi, ← hmj, hdh]
  apply mul_le_mul_of_nonneg_left _ hfs
  apply C43_delta_h_antitone
  · exact div_nonneg (sub_nonneg.mpr (x2 ej (List.mem_of_getElem? hej))) hd.le
  · exact div_le_div_of_nonneg_right (by linarith) hd.le

/-- **C43.** The restriction of the lowering is not kept: the remainder is given to the highest
pixels without checking the limit again. Here the limit is -3, the topmost pixel gets -7. -/
theorem C43_restriction_false :
    iceMassChange [0, 5, 10] (-125 / 10 : ℚ) 1000 (-3) = some [-3, -25 / 10, -7] := by
  norm_num [iceMassChange, unrestricted, restrict, surplus, lmin, lmax, deltaH, scale, List.filter]

/-- The hypotheses of `C43_total` hold in the case with restriction. -/
example : (∃ r, iceMassChange [0, 5, 10] (-125 / 10 : ℚ) 1000 (-3) = some r ∧ r.length = 3 ∧
    r.sum = -125 / 10) := by
  apply C43_total
  · simp
  · exact fun _ => ⟨0, by simp, 5, by simp, by norm_num⟩
  · intro _ mc hmc _ _ _
    have e : unrestricted [0, 5, 10] (-125 / 10 : ℚ) 1000 = some [-10, -25 / 10, 0] := by
      norm_num [unrestricted, lmin, lmax, deltaH]
    rw [e] at hmc
    cases hmc
    exact ⟨5, by norm_num [Unclipped, List.filter], 10, by norm_num [Unclipped, List.filter],
      by norm_num⟩

/-! ### Geometry update -/

theorem writeBack_sum (sel : Pix K → Bool) (px : List (Pix K)) (mc : List K)
    (h : mc.length = (px.filter sel).length) :
    (((writeBack sel px mc).filter sel).map fun p => p.thickness * iceDensity) =
      List.zipWith (fun p m => newThickness p m * iceDensity) (px.filter sel) mc ∨
    ¬ ∀ p t, sel { p with thickness := t } = sel p := by
  by_cases hsel : ∀ p t, sel { p with thickness := t } = sel p
  · left
    induction px generalizing mc with
    | nil => simp [writeBack]
    | cons p px ih =>
      cases hp : sel p with
      | true =>
        cases mc with
        | nil => simp [hp] at h
        | cons m ms =>
          simp only [writeBack, hp, if_true]
          rw [List.filter_cons_of_pos (by rw [hsel]; exact hp), List.filter_cons_of_pos hp]
          simp only [List.map_cons, List.zipWith_cons_cons]
          rw [ih ms (by simpa [hp] using h)]
      | false =>
        simp only [writeBack, hp, Bool.false_eq_true, if_false]
        rw [List.filter_cons_of_neg (by simp [hp]), List.filter_cons_of_neg (by simp [hp])]
        exact ih mc (by simpa [hp] using h)
  · exact Or.inr hsel

/-- Specification: the pixels of a glacier with at least 10 m of ice (9170 kg m-2) at the start of the
mass balance year. -/
def Thick (gid : ℕ) (p : Pix K) : Bool := decide (p.gid = gid ∧ 9170 ≤ p.iceStart)

theorem toUpdate_eq (gid : ℕ) : (toUpdate gid : Pix K → Bool) = Thick gid := by
  funext p
  have e : (10 ≤ p.old) ↔ 9170 ≤ p.iceStart := by
    unfold Pix.old iceDensity
    rw [le_div_iff₀ (by norm_num)]
    norm_num
  unfold toUpdate inGlacier Thick
  rw [← Bool.decide_and, decide_eq_decide, ← e]
  constructor
  · rintro ⟨⟨a, -⟩, c⟩; exact ⟨a, c⟩
  · rintro ⟨a, c⟩; exact ⟨⟨a, by linarith⟩, c⟩

/-- **C43.** After the geometry update of a glacier the ice water equivalent of its thick pixels
adds up to what it was before (ice plus liquid water at the end of the mass balance year), unless
thicknesses are cut off at zero, in which case ice is created. The hypotheses are those of
`C43_total`. -/
theorem C43_geometry (gid : ℕ) (res lim : K) (px px' : List (Pix K)) (elevs : List K)
    (total area : K)
    (helevs : elevs = (px.filter (Thick gid)).map Pix.elev)
    (htotal : total = ((px.filter (Thick gid)).map fun p =>
      (p.iceEnd + p.firnEnd) - (p.iceStart + p.firnStart)).sum)
    (harea : area = ((px.filter (inGlacier gid)).length : K) * res ^ 2)
    (h2 : 2 ≤ elevs.length)
    (hv : total < 0 → Varied elevs)
    (hu : total < 0 → ∀ mc, unrestricted elevs total area = some mc →
      lim < 0 → (∃ m ∈ mc, m < lim) → 1 < (Unclipped elevs mc lim).length →
        Varied (Unclipped elevs mc lim))
    (h : updateGlacier gid res lim px = some px') :
    ((px.filter (Thick gid)).map Pix.iceEnd).sum ≤
      ((px'.filter (Thick gid)).map fun p => p.thickness * 917).sum ∧
    ((∀ p ∈ px', 0 < p.thickness) →
      ((px'.filter (Thick gid)).map fun p => p.thickness * 917).sum =
        ((px.filter (Thick gid)).map Pix.iceEnd).sum) := by
  have htot : ((px.filter (toUpdate gid)).map Pix.mb).sum = total := by
    rw [htotal, toUpdate_eq]
    congr 1
    apply List.map_congr_left
    intro p _
    unfold Pix.mb
    ring
  obtain ⟨mc, hmc, hlen, hsum⟩ := C43_total elevs total area lim
    (by intro e; rw [e] at h2; simp at h2) hv hu
  rw [helevs, ← toUpdate_eq, ← htot, harea] at hmc
  rw [← htot] at hsum
  rw [helevs, List.length_map, ← toUpdate_eq] at hlen h2
  rw [← toUpdate_eq]
  change _ ≤ ((px'.filter (toUpdate gid)).map fun p => p.thickness * iceDensity).sum ∧ (_ → 
    ((px'.filter (toUpdate gid)).map fun p => p.thickness * iceDensity).sum = _)
  simp only [updateGlacier] at h
  rw [if_neg (by omega), hmc, Option.some.injEq] at h
  have hwb : (((writeBack (toUpdate gid) px mc).filter (toUpdate gid)).map fun p =>
      p.thickness * iceDensity) = List.zipWith (fun p m => newThickness p m * iceDensity)
        (px.filter (toUpdate gid)) mc := by
    rcases writeBack_sum (toUpdate gid) px mc hlen with e | e
    · exact e
    · exact absurd (fun p t => rfl) e
  rw [← h, hwb]
  have hd : (0 : K) < iceDensity := by norm_num [iceDensity]
  have upd : ∀ (l : List (Pix K)) (mc : List K), mc.length = l.length →
      (l.map Pix.iceEnd).sum + (mc.sum - (l.map Pix.mb).sum) ≤
        (List.zipWith (fun p m => newThickness p m * iceDensity) l mc).sum ∧
      ((∀ x ∈ List.zipWith (fun p m => newThickness p m * iceDensity) l mc, 0 < x) →
        (List.zipWith (fun p m => newThickness p m * iceDensity) l mc).sum =
          (l.map Pix.iceEnd).sum + (mc.sum - (l.map Pix.mb).sum)) := by
    intro l
    induction l with
    | nil =>
      intro mc hl
      have : mc = [] := List.length_eq_zero_iff.mp (by simpa using hl)
      subst this
      simp
    | cons p l ih =>
      intro mc hl
      cases mc with
      | nil => simp at hl
      | cons m ms =>
        obtain ⟨i1, i2⟩ := ih ms (by simpa using hl)
        simp only [List.map_cons, List.sum_cons, List.zipWith_cons_cons]
        have e : (p.old + (m - (p.firnEnd - p.firnStart)) / iceDensity) * iceDensity =
            p.iceEnd + (m - p.mb) := by
          unfold Pix.old Pix.mb
          field_simp
          ring
        have hge : p.iceEnd + (m - p.mb) ≤ newThickness p m * iceDensity := by
          rw [← e]
          exact mul_le_mul_of_nonneg_right (le_max_left _ _) hd.le
        refine ⟨by linarith, fun hall => ?_⟩
        have hp := hall _ List.mem_cons_self
        have hpos : 0 < newThickness p m := (mul_pos_iff_of_pos_right hd).mp hp
        have heq : newThickness p m * iceDensity = p.iceEnd + (m - p.mb) := by
          rw [← e]
          unfold newThickness at hpos ⊢
          rcases max_choice (p.old + (m - (p.firnEnd - p.firnStart)) / iceDensity) 0 with q | q
          · rw [q]
          · rw [q] at hpos; exact absurd hpos (lt_irrefl _)
        rw [heq, i2 fun x hx => hall x (List.mem_cons_of_mem _ hx)]
        ring
  obtain ⟨u1, u2⟩ := upd _ mc hlen
  rw [hsum, sub_self, add_zero] at u1 u2
  refine ⟨u1, fun hall => u2 fun x hx => ?_⟩
  rw [← hwb] at hx
  obtain ⟨p, hp, rfl⟩ := List.mem_map.mp hx
  exact mul_pos (hall p (List.mem_filter.mp hp).1) hd

theorem writeBack_length (sel : Pix K → Bool) (px : List (Pix K)) (mc : List K) :
    (writeBack sel px mc).length = px.length := by
  induction px generalizing mc with
  | nil => rfl
  | cons p px ih =>
    simp only [writeBack]
    split
    · cases mc <;> simp [ih]
    · simp [ih]

theorem writeBack_other (sel : Pix K → Bool) (px : List (Pix K)) (mc : List K) (i : ℕ) (p : Pix K)
    (hp : px[i]? = some p) (hns : sel p = false) : (writeBack sel px mc)[i]? = some p := by
  induction px generalizing mc i with
  | nil => simp at hp
  | cons q px ih =>
    simp only [writeBack]
    cases i with
    | zero =>
      simp only [List.getElem?_cons_zero, Option.some.injEq] at hp
      subst hp
      simp [hns]
    | succ i =>
      simp only [List.getElem?_cons_succ] at hp
      split
      · cases mc with
        | nil => simpa using ih _ i hp
        | cons m ms => simpa using ih _ i hp
      · simpa using ih _ i hp

/-- **C43.** Pixels of other glaciers and thin pixels keep their thickness; a glacier with fewer than
two thick pixels is not updated at all. -/
theorem C43_others (gid : ℕ) (res lim : K) (px px' : List (Pix K))
    (h : updateGlacier gid res lim px = some px') :
    px'.length = px.length ∧
    (∀ (i : ℕ) (p : Pix K), px[i]? = some p →
      (p.gid ≠ gid ∨ p.iceStart < 9170) → px'[i]? = some p) ∧
    ((px.filter (Thick gid)).length < 2 → px' = px) := by
  simp only [updateGlacier, toUpdate_eq] at h
  split_ifs at h with hlt
  · simp only [Option.some.injEq] at h
    subst h
    exact ⟨rfl, fun i p hp _ => hp, fun _ => rfl⟩
  · split at h
    · cases h
    · rename_i mc _
      simp only [Option.some.injEq] at h
      subst h
      refine ⟨writeBack_length _ _ _, ?_, fun h => absurd h hlt⟩
      intro i p hp hor
      apply writeBack_other _ _ _ _ _ hp
      unfold Thick
      rcases hor with e | e
      · simp [e]
      · simp [not_le.mpr e]

/-- **C06.** Consequence of the reset of the glacier ID field (declared without `retain`,
`glaciermodel.py:31`): with all IDs zero no glacier changes its thickness. -/
theorem C06_glacier_ids_lost_witness (gid : ℕ) (hg : 0 < gid) (res lim : K) (px : List (Pix K))
    (h : ∀ p ∈ px, p.gid = 0) : updateGlacier gid res lim px = some px := by
  have : px.filter (toUpdate gid) = [] := by
    rw [List.filter_eq_nil_iff]
    intro p hp
    have := h p hp
    simp [toUpdate, inGlacier, this, hg.ne]
  simp [updateGlacier, this]

/-- Two pixels of a small glacier losing mass. -/
example : updateGlacier 1 100 (-100000) [⟨1, 2000, 91700, 0, 90000, 0, 90000/917⟩,
    ⟨1, 3000, 91700, 500, 91500, 400, 91500/917⟩] =
    some [⟨1, 2000, 91700, 0, 90000, 0, (89700 : ℚ)/917⟩,
      ⟨1, 3000, 91700, 500, 91500, 400, 91800/917⟩] := by
  norm_num [updateGlacier, toUpdate, inGlacier, Pix.old, Pix.mb, iceDensity, iceMassChange,
    unrestricted, restrict, lmin, lmax, deltaH, writeBack, newThickness, List.filter]

end Verif.Glacier
