import Verif.Model.OutputDef
import Verif.Props.Stations
import Verif.Props.Freq
import Mathlib.Tactic

/-!
# C93: definition of point outputs
-/

namespace Verif.OutputDef

open Verif.Stations Verif.Freq

section points

variable {K : Type*} [Field K] [LinearOrder K] [IsStrictOrderedRing K] [FloorRing K]

/-- Specification: position and number of the configured points. -/
def Numbered (num : ℕ) (cfg : List (PointCfg K)) : List (ℕ × PointCfg K) :=
  (List.range' num cfg.length).zip cfg

theorem numbered_cons (num : ℕ) (p : PointCfg K) (rest : List (PointCfg K)) :
    Numbered num (p :: rest) = (num, p) :: Numbered (num + 1) rest := by
  simp [Numbered, List.range'_succ]

theorem outside_iff (g : Geom K) (x y : K) :
    ((rowcol g x y).1 < 0 ∨ (g.rows : ℤ) ≤ (rowcol g x y).1 ∨ (rowcol g x y).2 < 0 ∨
      (g.cols : ℤ) ≤ (rowcol g x y).2) ↔ ¬ withinExtent g x y = true := by
  simp only [withinExtent, Bool.and_eq_true, decide_eq_true_eq]
  omega

/-- **C93.** A list of points is accepted exactly if every configured point lies in the grid and all names are
different; the points are those of the stations followed by the configured ones. -/
theorem C93_points (g : Geom K) (num : ℕ) (cfg : List (PointCfg K)) (stations : List (Point K))
    (hst : (stations.map Point.name).Nodup) :
    (∃ points, addPoints g num cfg stations = some points) ↔
      (∀ p ∈ cfg, withinExtent g p.x p.y = true) ∧
      (stations.map Point.name ++ (Numbered num cfg).map fun q => pointName q.1 q.2).Nodup := by
  induction cfg generalizing num stations with
  | nil => simp [addPoints, Numbered, hst]
  | cons p rest ih =>
    simp only [addPoints]
    by_cases hn : pointName num p ∈ stations.map Point.name
    · rw [if_pos hn]
      simp only [reduceCtorEq, exists_false, false_iff, not_and]
      intro _ hnd
      rw [numbered_cons, List.map_cons, List.nodup_append] at hnd
      exact hnd.2.2 _ hn _ (by simp) rfl
    · rw [if_neg hn]
      by_cases ho : ¬ withinExtent g p.x p.y = true
      · rw [if_pos ((outside_iff g p.x p.y).mpr ho)]
        simp only [reduceCtorEq, exists_false, false_iff, not_and]
        intro h
        exact absurd (h p (by simp)) ho
      · rw [if_neg fun h => ho ((outside_iff g p.x p.y).mp h)]
        have hnd : ((stations ++ [(⟨pointName num p, p.x, p.y, (rowcol g p.x p.y).1.toNat,
            (rowcol g p.x p.y).2.toNat⟩ : Point K)]).map Point.name).Nodup := by
          rw [List.map_append, List.map_singleton, List.nodup_append]
          refine ⟨hst, by simp, ?_⟩
          intro a ha b hb
          rw [List.mem_singleton] at hb
          subst hb
          rintro rfl
          exact hn ha
        rw [ih (num + 1) _ hnd, numbered_cons]
        push Not at ho
        simp only [List.map_append, List.map_cons, List.map_nil, List.append_assoc,
          List.cons_append, List.nil_append, List.mem_cons, forall_eq_or_imp, ho, true_and]

/-- **C93.** Names of the output points are unique. -/
theorem C93_unique (g : Geom K) (num : ℕ) (cfg : List (PointCfg K)) (stations points : List (Point K))
    (hst : (stations.map Point.name).Nodup) (h : addPoints g num cfg stations = some points) :
    (points.map Point.name).Nodup := by
  induction cfg generalizing num stations with
  | nil =>
    simp only [addPoints, Option.some.injEq] at h
    exact h ▸ hst
  | cons p rest ih =>
    simp only [addPoints] at h
    split_ifs at h with h1 h2
    refine ih (num + 1) _ ?_ h
    rw [List.map_append, List.map_singleton, List.nodup_append]
    refine ⟨hst, by simp, ?_⟩
    intro a ha b hb
    rw [List.mem_singleton] at hb
    subst hb
    rintro rfl
    exact h1 ha

/-- **C93.** Every configured point is taken from the cell of the grid that contains its coordinates, the points
of the stations are kept. -/
theorem C93_cells (g : Geom K) (hres : 0 < g.res) (num : ℕ) (cfg : List (PointCfg K))
    (stations points : List (Point K)) (h : addPoints g num cfg stations = some points) :
    ∃ new, points = stations ++ new ∧
      List.Forall₂ (fun q (p : Point K) => p.name = pointName q.1 q.2 ∧ p.x = q.2.x ∧ p.y = q.2.y ∧
        p.row < g.rows ∧ p.col < g.cols ∧ InCell g p.row p.col p.x p.y) (Numbered num cfg) new := by
  induction cfg generalizing num stations with
  | nil =>
    simp only [addPoints, Option.some.injEq] at h
    exact ⟨[], by simp [h], by simp [Numbered]⟩
  | cons p rest ih =>
    simp only [addPoints] at h
    split_ifs at h with h1 h2
    obtain ⟨new, hnew, hall⟩ := ih (num + 1) _ h
    have hin : withinExtent g p.x p.y = true := by
      by_contra hc
      exact h2 ((outside_iff g p.x p.y).mpr hc)
    refine ⟨⟨pointName num p, p.x, p.y, (rowcol g p.x p.y).1.toNat, (rowcol g p.x p.y).2.toNat⟩ :: new,
      by rw [hnew]; simp, ?_⟩
    rw [numbered_cons]
    refine List.Forall₂.cons ⟨rfl, rfl, rfl, ?_, ?_, ?_⟩ hall
    · simp only; omega
    · simp only; omega
    · exact (inCell_iff g hres p.x p.y _ _ hin).mpr ⟨rfl, rfl⟩

/-- **C93.** The k-th configured point (counted from 1) is called as configured, or `point` followed by its number. -/
theorem C93_names (g : Geom K) (cfg : List (PointCfg K)) (stations points : List (Point K))
    (h : addPoints g 0 cfg stations = some points) (k : ℕ) (p : PointCfg K) (hk : cfg[k]? = some p) :
    ∃ q, points[stations.length + k]? = some q ∧
      (∀ n, p.name = some n → q.name = n) ∧ (p.name = none → q.name = "point".toList ++ showNat (k + 1)) := by
  have key : ∀ (cfg : List (PointCfg K)) (num : ℕ) (st : List (Point K)), addPoints g num cfg st = some points →
      (∀ j, j < st.length → points[j]? = st[j]?) ∧
      ∀ k p, cfg[k]? = some p → ∃ q, points[st.length + k]? = some q ∧
        (∀ n, p.name = some n → q.name = n) ∧
        (p.name = none → q.name = "point".toList ++ showNat (num + k + 1)) := by
    intro cfg
    induction cfg with
    | nil =>
      intro num st h
      simp only [addPoints, Option.some.injEq] at h
      subst h
      exact ⟨fun j _ => rfl, fun k p hk => by simp at hk⟩
    | cons a rest ih =>
      intro num st h
      simp only [addPoints] at h
      split_ifs at h
      obtain ⟨h1, h2⟩ := ih _ _ h
      refine ⟨fun j hj => ?_, fun k p hk => ?_⟩
      · rw [h1 j (by simp; omega), List.getElem?_append_left hj]
      · cases k with
        | zero =>
          simp only [List.getElem?_cons_zero, Option.some.injEq] at hk
          subst hk
          rw [Nat.add_zero, h1 st.length (by simp), List.getElem?_append_right le_rfl]
          refine ⟨_, by simp; rfl, ?_, ?_⟩
          · intro n hn; simp [pointName, hn]
          · intro hn; simp [pointName, hn]
        | succ k =>
          obtain ⟨q, hq, h3, h4⟩ := h2 k p (by simpa using hk)
          refine ⟨q, ?_, h3, fun hn => ?_⟩
          · rw [← hq]; congr 1; simp; omega
          · rw [h4 hn]; congr 2; omega
  obtain ⟨q, h1, h2, h3⟩ := (key cfg 0 stations h).2 k p hk
  exact ⟨q, h1, h2, by simpa using h3⟩

end points

/-! ### Variables -/

/-- **C93.** A list of variables is accepted exactly if no two of them are written under the same name: the configured
output name or else the name of the variable. -/
theorem C93_variable_names (vs : List Var) : acceptVars vs = true ↔
    ∀ (i j : ℕ) (v w : Var), vs[i]? = some v → vs[j]? = some w → i ≠ j →
      (match v.out with | some n => n | none => v.name) ≠ (match w.out with | some n => n | none => w.name) := by
  have ho : ∀ v : Var, v.outName = match v.out with | some n => n | none => v.name := by
    intro v; unfold Var.outName; cases v.out <;> rfl
  unfold acceptVars
  rw [decide_eq_true_eq]
  constructor
  · intro h i j v w hi hj hij
    rw [← ho, ← ho]
    intro he
    apply hij
    have hi' : (vs.map Var.outName)[i]? = some v.outName := by simp [hi]
    have hj' : (vs.map Var.outName)[j]? = some v.outName := by simp [hj, he]
    have hlen : i < (vs.map Var.outName).length := (List.getElem?_eq_some_iff.1 hi').1
    exact (List.getElem?_inj hlen h).1 (hi'.trans hj'.symm)
  · intro h
    rw [List.nodup_iff_getElem?_ne_getElem?]
    intro i j hij hj he
    have hj2 : j < vs.length := by simpa using hj
    have hi2 : i < vs.length := by omega
    have := h i j vs[i] vs[j] (by simp) (by simp) (by omega)
    rw [← ho, ← ho] at this
    apply this
    simpa [hi2, hj2] using he

theorem lookup_insert (k k' : Name) (n : ℕ) (d : List (Name × ℕ)) :
    (insert k n d).lookup k' = if k' = k then some n else d.lookup k' := by
  induction d with
  | nil =>
    by_cases h : k' = k
    · simp [insert, h]
    · have : (k' == k) = false := by simpa using h
      simp [insert, List.lookup, this, h]
  | cons a d ih =>
    obtain ⟨a, b⟩ := a
    unfold insert
    by_cases h1 : a = k
    · subst h1
      rw [if_pos rfl]
      by_cases h : k' = a
      · simp [h]
      · have : (k' == a) = false := by simpa using h
        simp [List.lookup, this, h]
    · rw [if_neg h1]
      by_cases h : k' = a
      · subst h
        simp [List.lookup, h1]
      · have : (k' == a) = false := by simpa using h
        simp only [List.lookup, this, ih]

/-- **C93.** A dataset that has been created has the configured variables, and all variables of a category have the
same number of layers. -/
theorem C93_layers (vs : List Var) (ds : List (Name × ℕ)) (h : createDataset vs = some ds) :
    ds = vs.map (fun v => (v.outName, v.dim3)) ∧
    ∀ v ∈ vs, ∀ w ∈ vs, v.dim3 ≠ 0 → w.dim3 ≠ 0 → v.cat = w.cat → v.dim3 = w.dim3 := by
  unfold createDataset at h
  cases hl : layerCoords vs [] with
  | none => rw [hl] at h; cases h
  | some d =>
    rw [hl] at h
    simp only at h
    split_ifs at h with h1 h2
    refine ⟨(Option.some.inj h).symm, ?_⟩
    intro v hv w hw hv0 hw0 hc
    push Not at h2
    have a := h2 v hv hv0
    have b := h2 w hw hw0
    rw [hc, b] at a
    exact (Option.some.inj a).symm

theorem layerCoords_spec (vs : List Var) (f : Name → ℕ) (d0 : List (Name × ℕ))
    (hf : ∀ v ∈ vs, v.dim3 ≠ 0 → v.dim3 = f v.cat)
    (hd0 : ∀ k ∈ d0.map Prod.fst, ∃ c, k = layerName c)
    (hcat : ∀ v ∈ vs, ¬ ∃ c, v.cat = layerName c) :
    ∃ d, layerCoords vs d0 = some d ∧
      (∀ k ∈ d.map Prod.fst, k ∈ d0.map Prod.fst ∨ ∃ v ∈ vs, v.dim3 ≠ 0 ∧ k = layerName v.cat) ∧
      (∀ c, (∃ v ∈ vs, v.dim3 ≠ 0 ∧ v.cat = c) → d.lookup (layerName c) = some (f c)) ∧
      ∀ c, (¬ ∃ v ∈ vs, v.dim3 ≠ 0 ∧ v.cat = c) → d.lookup (layerName c) = d0.lookup (layerName c) := by
  induction vs generalizing d0 with
  | nil => exact ⟨d0, rfl, fun k hk => Or.inl hk, by simp, fun _ _ => rfl⟩
  | cons v rest ih =>
    have hf' : ∀ w ∈ rest, w.dim3 ≠ 0 → w.dim3 = f w.cat := fun w hw => hf w (List.mem_cons_of_mem _ hw)
    have hc' : ∀ w ∈ rest, ¬ ∃ c, w.cat = layerName c := fun w hw => hcat w (List.mem_cons_of_mem _ hw)
    unfold layerCoords
    by_cases h0 : v.dim3 = 0
    · rw [if_pos h0]
      obtain ⟨d, e1, e2, e3, e4⟩ := ih d0 hf' hd0 hc'
      refine ⟨d, e1, ?_, ?_, ?_⟩
      · intro k hk
        rcases e2 k hk with h | ⟨w, hw, h⟩
        · exact Or.inl h
        · exact Or.inr ⟨w, List.mem_cons_of_mem _ hw, h⟩
      · rintro c ⟨w, hw, hw0, hwc⟩
        rcases List.mem_cons.mp hw with rfl | hw
        · exact absurd h0 hw0
        · exact e3 c ⟨w, hw, hw0, hwc⟩
      · intro c hc
        exact e4 c fun ⟨w, hw, h⟩ => hc ⟨w, List.mem_cons_of_mem _ hw, h⟩
    · rw [if_neg h0]
      have hnk : v.cat ∉ d0.map Prod.fst := by
        intro hk
        exact hcat v (by simp) (hd0 _ hk)
      rw [if_neg hnk]
      have hkeys : ∀ (k : Name) (n : ℕ) (l : List (Name × ℕ)) (k' : Name),
          k' ∈ (insert k n l).map Prod.fst ↔ k' = k ∨ k' ∈ l.map Prod.fst := by
        intro k n l k'
        induction l with
        | nil => simp [insert]
        | cons a l ihl =>
          obtain ⟨a, b⟩ := a
          unfold insert
          split_ifs with h
          · subst h; simp
          · simp only [List.map_cons, List.mem_cons, ihl]; tauto
      obtain ⟨d, e1, e2, e3, e4⟩ := ih (insert (layerName v.cat) v.dim3 d0) hf'
        (by
          intro k hk
          rcases (hkeys _ _ _ _).mp hk with rfl | hk
          · exact ⟨_, rfl⟩
          · exact hd0 k hk) hc'
      refine ⟨d, e1, ?_, ?_, ?_⟩
      · intro k hk
        rcases e2 k hk with h | ⟨w, hw, h⟩
        · rcases (hkeys _ _ _ _).mp h with rfl | h
          · exact Or.inr ⟨v, by simp, h0, rfl⟩
          · exact Or.inl h
        · exact Or.inr ⟨w, List.mem_cons_of_mem _ hw, h⟩
      · rintro c ⟨w, hw, hw0, hwc⟩
        by_cases hr : ∃ w ∈ rest, w.dim3 ≠ 0 ∧ w.cat = c
        · exact e3 c hr
        · rcases List.mem_cons.mp hw with rfl | hw
          · rw [e4 c hr, lookup_insert, hwc, if_pos rfl, ← hwc, hf w (by simp) hw0]
          · exact absurd ⟨w, hw, hw0, hwc⟩ hr
      · intro c hc
        rw [e4 c fun ⟨w, hw, h⟩ => hc ⟨w, List.mem_cons_of_mem _ hw, h⟩, lookup_insert, if_neg]
        intro he
        have hcc : c = v.cat := List.append_cancel_right he
        exact hc ⟨v, by simp, h0, hcc.symm⟩

/-- **C93, partial.** Creating the dataset succeeds for accepted variables if no output name is the name of a
coordinate and the variables of each category have the same number of layers. Full statement: for all accepted
variables. -/
theorem C93_dataset_partial (vs : List Var)
    (hres : ∀ v ∈ vs, v.outName ∉ pointCoords)
    (hlayer : ∀ v ∈ vs, ∀ w ∈ vs, w.dim3 ≠ 0 → v.outName ≠ layerName w.cat)
    (hcat : ∀ v ∈ vs, ¬ ∃ c, v.cat = layerName c)
    (hdim : ∀ v ∈ vs, ∀ w ∈ vs, v.dim3 ≠ 0 → w.dim3 ≠ 0 → v.cat = w.cat → v.dim3 = w.dim3) :
    createDataset vs = some (vs.map fun v => (v.outName, v.dim3)) := by
  classical
  let f : Name → ℕ := fun c =>
    if h : ∃ v ∈ vs, v.dim3 ≠ 0 ∧ v.cat = c then (Classical.choose h).dim3 else 0
  have hf : ∀ v ∈ vs, v.dim3 ≠ 0 → v.dim3 = f v.cat := by
    intro v hv h0
    have hex : ∃ w ∈ vs, w.dim3 ≠ 0 ∧ w.cat = v.cat := ⟨v, hv, h0, rfl⟩
    simp only [f]
    rw [dif_pos hex]
    obtain ⟨a, b, c⟩ := Classical.choose_spec hex
    exact hdim v hv _ a h0 b c.symm
  obtain ⟨d, e1, e2, e3, -⟩ := layerCoords_spec vs f [] hf (by simp) hcat
  unfold createDataset
  rw [e1]
  simp only
  rw [if_neg, if_neg]
  · rintro ⟨v, hv, h0, hne⟩
    apply hne
    rw [e3 v.cat ⟨v, hv, h0, rfl⟩, ← hf v hv h0]
  · rintro ⟨v, hv, hmem⟩
    rcases List.mem_append.mp hmem with h | h
    · exact hres v hv h
    · rcases e2 _ h with h | ⟨w, hw, hw0, h⟩
      · simp at h
      · exact hlayer v hv w hw hw0 h

/-- **C93.** An accepted configuration can fail when the dataset is created, in the first time step: the name of a
variable may be that of a coordinate. -/
theorem C93_reserved_false : ¬ ∀ vs : List Var, acceptVars vs = true → (createDataset vs).isSome = true := by
  intro h
  have := h [⟨"base".toList, "dem".toList, some "alt".toList, 0⟩] (by decide)
  revert this
  decide

/-- **C93.** The check for different numbers of layers never raises: it is `xarray` that rejects the dataset. -/
theorem C93_check_witness (cat : Name) (hcat : ¬ ∃ c, cat = layerName c) (a b : Name) (m n : ℕ)
    (hm : m ≠ 0) (hn : n ≠ 0) :
    (layerCoords [⟨cat, a, none, m⟩, ⟨cat, b, none, n⟩] []).isSome = true ∧
    (m ≠ n → createDataset [⟨cat, a, none, m⟩, ⟨cat, b, none, n⟩] = none) := by
  constructor
  · have hne : cat ≠ layerName cat := fun h => hcat ⟨_, h⟩
    simp [layerCoords, hm, hn, insert, hne]
  · intro hmn
    cases hc : createDataset [⟨cat, a, none, m⟩, ⟨cat, b, none, n⟩] with
    | none => rfl
    | some ds =>
      have := (C93_layers _ ds hc).2 ⟨cat, a, none, m⟩ (by simp) ⟨cat, b, none, n⟩ (by simp) hm hn rfl
      exact absurd this hmn

-- C93_points: two points in a grid of two by two cells, one of them on the left edge.
example : ∃ ps, addPoints (⟨0, 2, 1, 2, 2⟩ : Geom ℚ) 0 [⟨none, 0, 1⟩, ⟨none, 3 / 2, 1 / 2⟩] [] = some ps := by
  rw [C93_points _ _ _ _ (by simp)]
  constructor
  · intro p hp
    simp only [List.mem_cons, List.not_mem_nil, or_false] at hp
    rcases hp with rfl | rfl <;>
    · rw [C51_extent _ (by norm_num)]
      norm_num
  · simp [Numbered, pointName, List.range'_succ, showNat, digitChars]

end Verif.OutputDef
