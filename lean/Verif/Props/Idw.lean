import Verif.Model.Idw
import Mathlib.Tactic.Linarith
import Mathlib.Tactic.Positivity
import Mathlib.Tactic.FieldSimp
import Mathlib.Tactic.Ring
import Mathlib.Tactic.NormNum
import Mathlib.Algebra.BigOperators.Group.List.Lemmas
import Mathlib.Data.List.Perm.Basic
import Mathlib.Data.List.Forall2

/-!
# C12: inverse distance weighting
-/

namespace Verif.Idw

/-! ## Specification -/

/-- Specification: the stations that have coordinates and a value, in input order. -/
def usable (x y z : List (Option ℝ)) : List Pt :=
  (x.zip (y.zip z)).filterMap fun s =>
    match s with
    | (some a, some b, some c) => some ⟨a, b, c⟩
    | _ => none

/-- Specification: the weighted mean with the inverse distance weights. -/
noncomputable def weight (power smoothing x y : ℝ) (p : Pt) : ℝ :=
  1 / (Real.sqrt ((x - p.x) ^ 2 + (y - p.y) ^ 2 + smoothing ^ 2)) ^ power

/-! ## Lemmas -/

theorem dist_eq_zero (s : ℝ) (p : Pt) (x y : ℝ) :
    dist s p x y = 0 ↔ p.x = x ∧ p.y = y ∧ s = 0 := by
  unfold dist
  rw [Real.sqrt_eq_zero (by positivity)]
  constructor
  · intro h
    have h1 := sq_nonneg (x - p.x)
    have h2 := sq_nonneg (y - p.y)
    have h3 := sq_nonneg s
    have e1 : (x - p.x) ^ 2 = 0 := by linarith
    have e2 : (y - p.y) ^ 2 = 0 := by linarith
    have e3 : s ^ 2 = 0 := by linarith
    rw [sq_eq_zero_iff] at e1 e2 e3
    exact ⟨by linarith, by linarith, e3⟩
  · rintro ⟨rfl, rfl, rfl⟩
    ring

theorem dist_nonneg (s : ℝ) (p : Pt) (x y : ℝ) : 0 ≤ dist s p x y := Real.sqrt_nonneg _

theorem weight_pos {power s x y : ℝ} {p : Pt} (h : dist s p x y ≠ 0) :
    0 < weight power s x y p := by
  have : 0 < dist s p x y := lt_of_le_of_ne (dist_nonneg s p x y) (Ne.symm h)
  exact one_div_pos.mpr (Real.rpow_pos_of_pos this _)

theorem loop_of_all_pos (power s x y : ℝ) (ps : List Pt) (w t : ℝ)
    (h : ∀ p ∈ ps, dist s p x y ≠ 0) :
    loop power s x y ps w t =
      (t + (ps.map fun p => weight power s x y p * p.z).sum) /
        (w + (ps.map (weight power s x y)).sum) := by
  induction ps generalizing w t with
  | nil => simp [loop]
  | cons p ps ih =>
    have hp := h p List.mem_cons_self
    simp only [loop, if_neg hp]
    rw [ih _ _ fun q hq => h q (List.mem_cons_of_mem _ hq)]
    simp only [List.map_cons, List.sum_cons]
    congr 1
    · rw [← add_assoc]; congr 2
      simp only [weight, dist]; ring
    · rw [← add_assoc]; rfl

theorem sum_weight_pos (power s x y : ℝ) (ps : List Pt) (hne : ps ≠ [])
    (h : ∀ p ∈ ps, dist s p x y ≠ 0) : 0 < (ps.map (weight power s x y)).sum := by
  cases ps with
  | nil => exact absurd rfl hne
  | cons p ps =>
    rw [List.map_cons, List.sum_cons]
    have h1 := weight_pos (power := power) (h p List.mem_cons_self)
    have h2 : 0 ≤ (ps.map (weight power s x y)).sum := by
      apply List.sum_nonneg
      intro a ha
      obtain ⟨q, hq, rfl⟩ := List.mem_map.mp ha
      exact (weight_pos (h q (List.mem_cons_of_mem _ hq))).le
    linarith

/-- The first station at distance zero decides. -/
theorem loop_of_hit (power s x y : ℝ) (pre post : List Pt) (p : Pt) (w t : ℝ)
    (hpre : ∀ q ∈ pre, dist s q x y ≠ 0) (hp : dist s p x y = 0) :
    loop power s x y (pre ++ p :: post) w t = p.z := by
  induction pre generalizing w t with
  | nil => simp [loop, hp]
  | cons q qs ih =>
    have hq := hpre q List.mem_cons_self
    simp only [List.cons_append, loop, if_neg hq]
    exact ih _ _ fun r hr => hpre r (List.mem_cons_of_mem _ hr)

/-- Either no station is at distance zero, or there is a first one. -/
theorem hit_or_not (s x y : ℝ) (ps : List Pt) :
    (∀ p ∈ ps, dist s p x y ≠ 0) ∨
    ∃ pre p post, ps = pre ++ p :: post ∧ (∀ q ∈ pre, dist s q x y ≠ 0) ∧ dist s p x y = 0 := by
  induction ps with
  | nil => left; simp
  | cons p ps ih =>
    by_cases hp : dist s p x y = 0
    · exact Or.inr ⟨[], p, ps, rfl, by simp, hp⟩
    · rcases ih with h | ⟨pre, q, post, rfl, h1, h2⟩
      · left
        intro q hq
        rcases List.mem_cons.mp hq with rfl | h'
        · exact hp
        · exact h q h'
      · refine Or.inr ⟨p :: pre, q, post, rfl, ?_, h2⟩
        intro r hr
        rcases List.mem_cons.mp hr with rfl | h'
        · exact hp
        · exact h1 r h'

/-- What the code hands to the kernel are the usable stations. -/
theorem points_eq_usable (x y z : List (Option ℝ)) (h : x.length = y.length ∧ y.length = z.length) :
    let pos := land (land (finite x) (finite y)) (finite z)
    points (compress x pos) (compress y pos) (compress z pos) = usable x y z ∧
      (compress x pos).length = (usable x y z).length := by
  induction x generalizing y z with
  | nil =>
    obtain ⟨h1, h2⟩ := h
    have hy : y = [] := List.length_eq_zero_iff.mp h1.symm
    subst hy
    have hz : z = [] := List.length_eq_zero_iff.mp h2.symm
    subst hz
    simp [finite, land, compress, points, usable]
  | cons a x ih =>
    obtain ⟨h1, h2⟩ := h
    cases y with
    | nil => simp at h1
    | cons b y =>
      cases z with
      | nil => simp at h2
      | cons c z =>
        have := ih y z ⟨by simpa using h1, by simpa using h2⟩
        obtain ⟨i1, i2⟩ := this
        cases a <;> cases b <;> cases c
        case some.some.some a b c =>
          exact ⟨congrArg (List.cons (⟨a, b, c⟩ : Pt)) i1, congrArg Nat.succ i2⟩
        all_goals exact ⟨i1, i2⟩

/-- Characterisation of `idw` by the usable stations. -/
theorem idw_eq (power s : ℝ) (x y z : List (Option ℝ)) (ts : List (ℝ × ℝ))
    (h : x.length = y.length ∧ y.length = z.length) :
    idw power s x y z ts = some (ts.map fun t =>
      if usable x y z = [] then none else some (loop power s t.1 t.2 (usable x y z) 0 0)) := by
  obtain ⟨h1, h2⟩ := points_eq_usable x y z h
  simp only [idw]
  rw [if_neg (by simpa using h), h1, h2]
  by_cases hu : usable x y z = []
  · rw [if_pos (by simp [hu])]
    simp [hu]
  · rw [if_neg (by simpa [List.length_eq_zero_iff] using hu)]
    simp [hu]

/-! ## Theorems -/

/-- **C12.** Arrays of unequal lengths are rejected, all others give one value per target. -/
theorem C12_lengths (power s : ℝ) (x y z : List (Option ℝ)) (ts : List (ℝ × ℝ)) :
    (idw power s x y z ts = none ↔ ¬ (x.length = y.length ∧ y.length = z.length)) ∧
    ∀ r, idw power s x y z ts = some r → r.length = ts.length := by
  by_cases h : x.length = y.length ∧ y.length = z.length
  · rw [idw_eq power s x y z ts h]
    refine ⟨by simp [h], fun r hr => ?_⟩
    rw [Option.some.injEq] at hr
    rw [← hr, List.length_map]
  · have : idw power s x y z ts = none := by simp only [idw]; rw [if_pos h]
    rw [this]
    simp [h]

/-- **C12.** A target value is missing exactly if no station is usable. -/
theorem C12_missing_iff (power s : ℝ) (x y z : List (Option ℝ)) (ts : List (ℝ × ℝ))
    (r : List (Option ℝ)) (hr : idw power s x y z ts = some r) (i : ℕ) (v : Option ℝ)
    (hv : r[i]? = some v) : v = none ↔ usable x y z = [] := by
  have h : x.length = y.length ∧ y.length = z.length := by
    by_contra h
    rw [((C12_lengths power s x y z ts).1).mpr h] at hr
    cases hr
  rw [idw_eq power s x y z ts h, Option.some.injEq] at hr
  rw [← hr, List.getElem?_map] at hv
  cases ht : ts[i]? with
  | none => rw [ht] at hv; simp at hv
  | some t =>
    rw [ht] at hv
    simp only [Option.map_some, Option.some.injEq] at hv
    rw [← hv]
    by_cases hu : usable x y z = [] <;> simp [hu]

/-- A result value at a target, as used in the statements below. -/
def ValueAt (power s : ℝ) (x y z : List (Option ℝ)) (ts : List (ℝ × ℝ)) (i : ℕ) (t : ℝ × ℝ)
    (v : ℝ) : Prop :=
  ∃ r, idw power s x y z ts = some r ∧ ts[i]? = some t ∧ r[i]? = some (some v)

theorem valueAt_iff (power s : ℝ) (x y z : List (Option ℝ)) (ts : List (ℝ × ℝ)) (i : ℕ)
    (t : ℝ × ℝ) (v : ℝ) :
    ValueAt power s x y z ts i t v ↔ (x.length = y.length ∧ y.length = z.length) ∧
      ts[i]? = some t ∧ usable x y z ≠ [] ∧ v = loop power s t.1 t.2 (usable x y z) 0 0 := by
  constructor
  · rintro ⟨r, hr, ht, hv⟩
    have h : x.length = y.length ∧ y.length = z.length := by
      by_contra h
      rw [((C12_lengths power s x y z ts).1).mpr h] at hr
      cases hr
    have hu := (C12_missing_iff power s x y z ts r hr i _ hv).not.mp (by simp)
    rw [idw_eq power s x y z ts h, Option.some.injEq] at hr
    rw [← hr, List.getElem?_map, ht] at hv
    simp only [Option.map_some, hu, if_false, Option.some.injEq] at hv
    exact ⟨h, ht, hu, hv.symm⟩
  · rintro ⟨h, ht, hu, hv⟩
    refine ⟨_, idw_eq power s x y z ts h, ht, ?_⟩
    rw [List.getElem?_map, ht]
    simp [hu, hv]

/-- **C12.** The interpolated value is the weighted mean of the usable stations with weights
1/distance^power, if no station is at the target. -/
theorem C12_weighted_mean (power s : ℝ) (x y z : List (Option ℝ)) (ts : List (ℝ × ℝ)) (i : ℕ)
    (t : ℝ × ℝ) (v : ℝ) (h : ValueAt power s x y z ts i t v)
    (hd : s ≠ 0 ∨ ∀ p ∈ usable x y z, (p.x, p.y) ≠ t) :
    0 < ((usable x y z).map (weight power s t.1 t.2)).sum ∧
    v * ((usable x y z).map (weight power s t.1 t.2)).sum =
      ((usable x y z).map fun p => weight power s t.1 t.2 p * p.z).sum := by
  obtain ⟨-, -, hu, rfl⟩ := (valueAt_iff ..).mp h
  have hpos : ∀ p ∈ usable x y z, dist s p t.1 t.2 ≠ 0 := by
    intro p hp h0
    obtain ⟨a, b, c⟩ := (dist_eq_zero s p t.1 t.2).mp h0
    rcases hd with hd | hd
    · exact hd c
    · exact hd p hp (Prod.ext a b)
  have := sum_weight_pos power s t.1 t.2 _ hu hpos
  refine ⟨this, ?_⟩
  rw [loop_of_all_pos power s t.1 t.2 _ 0 0 hpos, zero_add, zero_add, div_mul_cancel₀ _ this.ne']

theorem loop_bounds (power s x y lo hi : ℝ) (ps : List Pt) (hne : ps ≠ [])
    (hb : ∀ p ∈ ps, lo ≤ p.z ∧ p.z ≤ hi) :
    lo ≤ loop power s x y ps 0 0 ∧ loop power s x y ps 0 0 ≤ hi := by
  rcases hit_or_not s x y ps with h | ⟨pre, p, post, rfl, h1, h2⟩
  · rw [loop_of_all_pos power s x y ps 0 0 h, zero_add, zero_add]
    have hW := sum_weight_pos power s x y ps hne h
    have key : ∀ ps : List Pt, (∀ p ∈ ps, dist s p x y ≠ 0) → (∀ p ∈ ps, lo ≤ p.z ∧ p.z ≤ hi) →
        lo * (ps.map (weight power s x y)).sum ≤ (ps.map fun p => weight power s x y p * p.z).sum ∧
        (ps.map fun p => weight power s x y p * p.z).sum ≤
          hi * (ps.map (weight power s x y)).sum := by
      intro ps
      induction ps with
      | nil => intro _ _; simp
      | cons q qs ih =>
        intro h hb
        obtain ⟨i1, i2⟩ := ih (fun r hr => h r (List.mem_cons_of_mem _ hr))
          (fun r hr => hb r (List.mem_cons_of_mem _ hr))
        have hw := weight_pos (power := power) (h q List.mem_cons_self)
        obtain ⟨b1, b2⟩ := hb q List.mem_cons_self
        simp only [List.map_cons, List.sum_cons]
        constructor
        · nlinarith [mul_le_mul_of_nonneg_left b1 hw.le]
        · nlinarith [mul_le_mul_of_nonneg_left b2 hw.le]
    obtain ⟨k1, k2⟩ := key ps h hb
    exact ⟨by rw [le_div_iff₀ hW]; exact k1, by rw [div_le_iff₀ hW]; exact k2⟩
  · rw [loop_of_hit power s x y pre post p 0 0 h1 h2]
    exact hb p (by simp)

/-- **C12.** The interpolated value lies between the smallest and largest usable station value. -/
theorem C12_bounds (power s : ℝ) (x y z : List (Option ℝ)) (ts : List (ℝ × ℝ)) (i : ℕ)
    (t : ℝ × ℝ) (v : ℝ) (h : ValueAt power s x y z ts i t v) (lo hi : ℝ)
    (hb : ∀ p ∈ usable x y z, lo ≤ p.z ∧ p.z ≤ hi) : lo ≤ v ∧ v ≤ hi := by
  obtain ⟨-, -, hu, rfl⟩ := (valueAt_iff ..).mp h
  exact loop_bounds power s t.1 t.2 lo hi _ hu hb

/-- **C12.** A constant field is reproduced. -/
theorem C12_constant (power s : ℝ) (x y z : List (Option ℝ)) (ts : List (ℝ × ℝ)) (i : ℕ)
    (t : ℝ × ℝ) (v : ℝ) (h : ValueAt power s x y z ts i t v) (c : ℝ)
    (hc : ∀ p ∈ usable x y z, p.z = c) : v = c := by
  have := C12_bounds power s x y z ts i t v h c c fun p hp => by rw [hc p hp]; exact ⟨le_rfl, le_rfl⟩
  linarith [this.1, this.2]

/-- **C12.** Without smoothing, a target at a station gets the station's value (all stations at the
same place having the same value). -/
theorem C12_exact (power : ℝ) (x y z : List (Option ℝ)) (ts : List (ℝ × ℝ)) (i : ℕ)
    (t : ℝ × ℝ) (v : ℝ) (h : ValueAt power 0 x y z ts i t v) (p : Pt) (hp : p ∈ usable x y z)
    (hpt : (p.x, p.y) = t) (huniq : ∀ q ∈ usable x y z, (q.x, q.y) = t → q.z = p.z) : v = p.z := by
  obtain ⟨-, -, hu, rfl⟩ := (valueAt_iff ..).mp h
  have hp0 : dist 0 p t.1 t.2 = 0 := by
    rw [dist_eq_zero, ← hpt]; exact ⟨rfl, rfl, rfl⟩
  rcases hit_or_not 0 t.1 t.2 (usable x y z) with h' | ⟨pre, q, post, he, h1, h2⟩
  · exact absurd hp0 (h' p hp)
  · obtain ⟨a, b, -⟩ := (dist_eq_zero 0 q t.1 t.2).mp h2
    rw [he, loop_of_hit power 0 t.1 t.2 pre post q 0 0 h1 h2]
    exact huniq q (by rw [he]; simp) (Prod.ext a b)

/-- **C12.** Collocated stations: the first usable one in the list decides. -/
theorem C12_collocated_first (power : ℝ) (x y z : List (Option ℝ)) (ts : List (ℝ × ℝ)) (i : ℕ)
    (t : ℝ × ℝ) (v : ℝ) (h : ValueAt power 0 x y z ts i t v) (pre post : List Pt) (p : Pt)
    (he : usable x y z = pre ++ p :: post) (hp : (p.x, p.y) = t)
    (hpre : ∀ q ∈ pre, (q.x, q.y) ≠ t) : v = p.z := by
  obtain ⟨-, -, -, rfl⟩ := (valueAt_iff ..).mp h
  rw [he]
  apply loop_of_hit
  · intro q hq h0
    obtain ⟨a, b, -⟩ := (dist_eq_zero 0 q t.1 t.2).mp h0
    exact hpre q hq (Prod.ext a b)
  · rw [dist_eq_zero, ← hp]; exact ⟨rfl, rfl, rfl⟩

/-- **C12.** Missing stations are ignored, and the order of stations does not matter if their
positions differ: equal (up to order) usable stations give equal results. -/
theorem C12_order_and_missing (power s : ℝ) (x y z x' y' z' : List (Option ℝ))
    (ts : List (ℝ × ℝ)) (i : ℕ) (t : ℝ × ℝ) (v v' : ℝ) (h : ValueAt power s x y z ts i t v)
    (h' : ValueAt power s x' y' z' ts i t v') (hperm : (usable x y z).Perm (usable x' y' z'))
    (hd : s ≠ 0 ∨ usable x y z = usable x' y' z' ∨
      ∀ p ∈ usable x y z, ∀ q ∈ usable x y z, p.x = q.x → p.y = q.y → p = q) : v = v' := by
  obtain ⟨-, -, hu, rfl⟩ := (valueAt_iff ..).mp h
  obtain ⟨-, -, hu', rfl⟩ := (valueAt_iff ..).mp h'
  rcases hit_or_not s t.1 t.2 (usable x y z) with a | ⟨pre, p, post, he, h1, h2⟩
  · rw [loop_of_all_pos power s t.1 t.2 _ 0 0 a,
      loop_of_all_pos power s t.1 t.2 _ 0 0 fun p hp => a p (hperm.mem_iff.mpr hp)]
    rw [(hperm.map _).sum_eq, (hperm.map (weight power s t.1 t.2)).sum_eq]
  · obtain ⟨a, b, c⟩ := (dist_eq_zero s p t.1 t.2).mp h2
    rcases hd with hd | hd | hd
    · exact absurd c hd
    · rw [hd]
    · rcases hit_or_not s t.1 t.2 (usable x' y' z') with a' | ⟨pre', p', post', he', h1', h2'⟩
      · exact absurd h2 (a' p (hperm.mem_iff.mp (by rw [he]; simp)))
      · obtain ⟨a', b', -⟩ := (dist_eq_zero s p' t.1 t.2).mp h2'
        have : p = p' := hd p (by rw [he]; simp) p' (hperm.mem_iff.mpr (by rw [he']; simp))
          (a.trans a'.symm) (b.trans b'.symm)
        rw [he, he', loop_of_hit power s t.1 t.2 pre post p 0 0 h1 h2,
          loop_of_hit power s t.1 t.2 pre' post' p' 0 0 h1' h2', this]

theorem usable_map (f : ℝ → ℝ) (x y z : List (Option ℝ)) :
    usable x y (z.map (Option.map f)) = (usable x y z).map fun p => { p with z := f p.z } := by
  unfold usable
  induction x generalizing y z with
  | nil => simp
  | cons a x ih =>
    cases y with
    | nil => simp
    | cons b y =>
      cases z with
      | nil => simp
      | cons c z =>
        have := ih y z
        cases a <;> cases b <;> cases c <;> simp_all

/-- **C12.** Affine changes of the station values (e.g. of units) commute with interpolation. -/
theorem C12_affine (power s a b : ℝ) (x y z : List (Option ℝ)) (ts : List (ℝ × ℝ)) (i : ℕ)
    (t : ℝ × ℝ) (v : ℝ) (h : ValueAt power s x y z ts i t v) :
    ValueAt power s x y (z.map (Option.map fun u => a * u + b)) ts i t (a * v + b) := by
  obtain ⟨hl, ht, hu, rfl⟩ := (valueAt_iff ..).mp h
  rw [valueAt_iff]
  refine ⟨by simpa using hl, ht, ?_, ?_⟩
  · rw [usable_map]; simpa using hu
  · rw [usable_map]
    obtain ⟨ps, hps⟩ : ∃ ps, usable x y z = ps := ⟨_, rfl⟩
    rw [hps] at hu ⊢
    rcases hit_or_not s t.1 t.2 ps with h' | ⟨pre, p, post, rfl, h1, h2⟩
    · have h'' : ∀ q ∈ ps.map (fun p : Pt => { p with z := a * p.z + b }), dist s q t.1 t.2 ≠ 0 := by
        intro q hq
        obtain ⟨p, hp, rfl⟩ := List.mem_map.mp hq
        exact h' p hp
      rw [loop_of_all_pos power s t.1 t.2 ps 0 0 h', loop_of_all_pos power s t.1 t.2 _ 0 0 h'']
      have hW := sum_weight_pos power s t.1 t.2 ps hu h'
      have e1 : ((ps.map fun p : Pt => { p with z := a * p.z + b }).map (weight power s t.1 t.2)).sum =
          (ps.map (weight power s t.1 t.2)).sum := by
        rw [List.map_map]; rfl
      have e2 : ((ps.map fun p : Pt => { p with z := a * p.z + b }).map fun p =>
          weight power s t.1 t.2 p * p.z).sum =
          a * (ps.map fun p => weight power s t.1 t.2 p * p.z).sum +
            b * (ps.map (weight power s t.1 t.2)).sum := by
        rw [List.map_map]
        clear h' h'' hu hW e1 hps
        induction ps with
        | nil => simp
        | cons p ps ih =>
          simp only [List.map_cons, List.sum_cons, Function.comp_apply] at ih ⊢
          rw [ih]
          simp only [weight]
          ring
      rw [e1, e2, zero_add, zero_add, zero_add]
      field_simp
    · rw [loop_of_hit power s t.1 t.2 pre post p 0 0 h1 h2, List.map_append, List.map_cons,
        loop_of_hit power s t.1 t.2 _ _ (⟨p.x, p.y, a * p.z + b⟩ : Pt) 0 0 ?_ h2]
      intro q hq
      obtain ⟨r, hr, rfl⟩ := List.mem_map.mp hq
      exact h1 r hr

/-- Two stations with a value and one without: at the midpoint the mean of the two. -/
example : ValueAt 2 0 [some 0, some 2, some 7] [some 0, some 0, some 1] [some 10, some 20, none]
    [(1, 0), (0, 0)] 0 (1, 0) 15 := by
  rw [valueAt_iff]
  refine ⟨by simp, rfl, by simp [usable], ?_⟩
  have : usable [some 0, some 2, some 7] [some 0, some 0, some 1] [some 10, some 20, none] =
      [⟨0, 0, 10⟩, ⟨2, 0, 20⟩] := by simp [usable]
  rw [this, loop_of_all_pos]
  · norm_num [weight]
  · intro p hp
    simp only [List.mem_cons, List.not_mem_nil, or_false] at hp
    rcases hp with rfl | rfl <;> norm_num [dist_eq_zero]

end Verif.Idw
