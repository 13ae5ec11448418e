import Verif.Model.GlacierMass
import Verif.Props.Glacier
import Verif.Props.CryoMass
import Mathlib.Algebra.Order.Floor.Ring
import Mathlib.Data.Rat.Floor
import Mathlib.Algebra.Order.Archimedean.Basic

/-!
# C131: mass of the glacier geometry update
-/

set_option linter.unusedSectionVars false

namespace Verif.GlacierMass

open Verif.Glacier
open Verif.Cryo

variable {K : Type*} [Field K] [LinearOrder K] [IsStrictOrderedRing K]

/-! ## The geometry update of one glacier -/

/-- If the mass change of a glacier is defined, it adds up to the mass balance. -/
theorem change_sum {elevs mc : List K} {total area lim : K} (hne : elevs ≠ [])
    (h : iceMassChange elevs total area lim = some mc) : mc.length = elevs.length ∧ mc.sum = total := by
  have hv : total < 0 → Varied elevs := by
    intro ht
    by_contra hc
    rw [C43_equal_elevations_false elevs total area lim ht hne hc] at h
    cases h
  obtain ⟨r, hr, h1, h2⟩ := C43_total elevs total area lim hne hv (by
    intro ht mc' hmc' hl hex hlen
    by_contra hc
    have hkne : Unclipped elevs mc' lim ≠ [] := by
      intro e; rw [e] at hlen; simp at hlen
    rw [varied_iff _ hkne, not_lt] at hc
    have heq : lmax (Unclipped elevs mc' lim) = lmin (Unclipped elevs mc' lim) :=
      le_antisymm hc ((lmin_spec _ hkne).2 _ (lmax_spec _ hkne).1)
    obtain ⟨mc'', e, -, hl'', -⟩ := unrestricted_spec elevs total area (hv ht)
    rw [hmc'] at e
    cases e
    simp only [iceMassChange, if_pos ht, hmc', restrict] at h
    have hclip : (elevs.zip mc').filter (fun p => decide (p.2 < lim)) ≠ [] := by
      obtain ⟨m, hm, hml⟩ := hex
      intro e
      rw [List.filter_eq_nil_iff] at e
      rw [← map_snd_zip elevs mc' hl''] at hm
      obtain ⟨q, hq, rfl⟩ := List.mem_map.mp hm
      exact e q hq (by simpa using hml)
    rw [if_pos ⟨hl, hclip, by simpa [Unclipped] using hlen⟩] at h
    have hs : ∀ x, surplus x ((((elevs.zip mc').filter fun p => decide (¬ p.2 < lim))).map Prod.fst) = none := by
      intro x
      unfold Unclipped at heq
      simp only [surplus]
      rw [if_pos heq]
    rw [hs] at h
    cases h)
  rw [hr] at h
  cases h
  exact ⟨h1, h2⟩

/-- Ice of all pixels after writing back, without cutting off. -/
theorem writeBack_total (sel : Pix K → Bool) (px : List (Pix K)) (mc : List K)
    (hlen : mc.length = (px.filter sel).length)
    (hsel : ∀ p t, sel { p with thickness := t } = sel p)
    (hice : ∀ p ∈ px, sel p = true → p.thickness * 917 = p.iceEnd) :
    (px.map fun p => p.thickness * 917).sum + (mc.sum - ((px.filter sel).map Pix.mb).sum) ≤
      ((writeBack sel px mc).map fun p => p.thickness * 917).sum ∧
    ((∀ p ∈ writeBack sel px mc, sel p = true → 0 < p.thickness) →
      ((writeBack sel px mc).map fun p => p.thickness * 917).sum =
        (px.map fun p => p.thickness * 917).sum + (mc.sum - ((px.filter sel).map Pix.mb).sum)) := by
  induction px generalizing mc with
  | nil =>
    have : mc = [] := List.length_eq_zero_iff.mp (by simpa using hlen)
    subst this
    simp [writeBack]
  | cons p px ih =>
    cases hp : sel p with
    | true =>
      cases mc with
      | nil => simp [hp] at hlen
      | cons m ms =>
        obtain ⟨i1, i2⟩ := ih ms (by simpa [hp] using hlen) (fun q hq => hice q (List.mem_cons_of_mem _ hq))
        simp only [writeBack, hp, if_true, List.filter_cons_of_pos, List.map_cons, List.sum_cons]
        have e : (p.old + (m - (p.firnEnd - p.firnStart)) / Glacier.iceDensity) * 917 = p.thickness * 917 + (m - p.mb) := by
          rw [hice p List.mem_cons_self hp]
          unfold Pix.old Pix.mb Glacier.iceDensity
          field_simp
          ring
        have hge : p.thickness * 917 + (m - p.mb) ≤ newThickness p m * 917 := by
          rw [← e]
          exact mul_le_mul_of_nonneg_right (le_max_left _ _) (by norm_num)
        refine ⟨by linarith, fun hall => ?_⟩
        have hpos := hall _ List.mem_cons_self (by rw [hsel]; exact hp)
        simp only at hpos
        have heq : newThickness p m * 917 = p.thickness * 917 + (m - p.mb) := by
          rw [← e]
          unfold newThickness at hpos ⊢
          rcases max_choice (p.old + (m - (p.firnEnd - p.firnStart)) / Glacier.iceDensity) 0 with q | q
          · rw [q]
          · rw [q] at hpos; exact absurd hpos (lt_irrefl _)
        rw [heq, i2 fun x hx => hall x (List.mem_cons_of_mem _ hx)]
        ring
    | false =>
      obtain ⟨i1, i2⟩ := ih mc (by simpa [hp] using hlen) (fun q hq => hice q (List.mem_cons_of_mem _ hq))
      simp only [writeBack, hp, Bool.false_eq_true, if_false, List.filter_cons_of_neg, not_false_eq_true, List.map_cons,
        List.sum_cons]
      refine ⟨by linarith, fun hall => ?_⟩
      rw [i2 fun x hx => hall x (List.mem_cons_of_mem _ hx)]
      ring

/-- Only the thickness of a pixel changes. -/
theorem writeBack_rest (sel : Pix K → Bool) (px : List (Pix K)) (mc : List K) (i : ℕ) (p' : Pix K)
    (h : (writeBack sel px mc)[i]? = some p') : ∃ p, px[i]? = some p ∧ p' = { p with thickness := p'.thickness } := by
  induction px generalizing mc i with
  | nil => simp [writeBack] at h
  | cons q px ih =>
    simp only [writeBack] at h
    cases i with
    | zero =>
      refine ⟨q, rfl, ?_⟩
      split at h
      · cases mc <;> (simp at h; subst h; rfl)
      · simp at h; subst h; rfl
    | succ i =>
      simp only [List.getElem?_cons_succ]
      split at h
      · cases mc <;> (simp at h; exact ih _ i h)
      · simp at h; exact ih _ i h

/-- One glacier: what changes, and the ice of all pixels. -/
theorem update_total (g : ℕ) (res lim : K) (px px' : List (Pix K)) (h : updateGlacier g res lim px = some px')
    (hice : ∀ p ∈ px, p.gid = g → 9170 ≤ p.iceStart → p.thickness * 917 = p.iceEnd) :
    px'.length = px.length ∧
    (∀ (i : ℕ) (p' : Pix K), px'[i]? = some p' →
      ∃ p, px[i]? = some p ∧ p' = { p with thickness := p'.thickness } ∧
        ((p.gid ≠ g ∨ p.iceStart < 9170) → p' = p)) ∧
    (px.map fun p => p.thickness * 917).sum ≤ (px'.map fun p => p.thickness * 917).sum ∧
    ((∀ p ∈ px', p.gid = g → 9170 ≤ p.iceStart → 0 < p.thickness) →
      (px'.map fun p => p.thickness * 917).sum = (px.map fun p => p.thickness * 917).sum) := by
  obtain ⟨hl, hoth, hfew⟩ := C43_others g res lim px px' h
  have hrest : ∀ (i : ℕ) (p' : Pix K), px'[i]? = some p' →
      ∃ p, px[i]? = some p ∧ p' = { p with thickness := p'.thickness } := by
    by_cases h2 : (px.filter (Thick g)).length < 2
    · rw [hfew h2]
      exact fun i p' hp' => ⟨p', hp', rfl⟩
    · simp only [updateGlacier, toUpdate_eq] at h
      rw [if_neg h2] at h
      split at h
      · cases h
      · simp only [Option.some.injEq] at h
        subst h
        exact fun i p' hp' => writeBack_rest _ _ _ i p' hp'
  refine ⟨hl, ?_, ?_⟩
  · intro i p' hp'
    obtain ⟨p, hp, e⟩ := hrest i p' hp'
    refine ⟨p, hp, e, fun ho => ?_⟩
    have := hoth i p hp ho
    rw [hp'] at this
    exact Option.some.inj this
  · by_cases h2 : (px.filter (Thick g)).length < 2
    · rw [hfew h2]
      exact ⟨le_rfl, fun _ => rfl⟩
    · have h' := h
      simp only [updateGlacier, toUpdate_eq] at h
      rw [if_neg h2] at h
      split at h
      · cases h
      · rename_i mc hmc
        simp only [Option.some.injEq] at h
        subst h
        obtain ⟨hlen, hsum⟩ := change_sum (by
          intro e
          rw [List.map_eq_nil_iff] at e
          rw [e] at h2
          simp at h2) hmc
        rw [List.length_map] at hlen
        obtain ⟨w1, w2⟩ := writeBack_total (Thick g) px mc hlen (fun p t => rfl) (by
          intro p hp ht
          simp only [Thick, decide_eq_true_eq] at ht
          exact hice p hp ht.1 ht.2)
        rw [hsum, sub_self, add_zero] at w1 w2
        refine ⟨w1, fun hpos => w2 fun p hp ht => ?_⟩
        simp only [Thick, decide_eq_true_eq] at ht
        exact hpos p hp ht.1 ht.2

/-! ## All glaciers -/

variable [FloorRing K]

/-- Effect of the loop over the glaciers on thicknesses, given that ice thickness and mass fit the density of ice. -/
theorem glaciers_total (res : K) (ids : List ℕ) (hn : ids.Nodup) (px qx : List (Pix K)) (h : glaciers res ids px = some qx)
    (hice : ∀ p ∈ px, p.gid ∈ ids → 9170 ≤ p.iceStart → p.thickness * 917 = p.iceEnd) :
    (px.map fun p => p.thickness * 917).sum ≤ (qx.map fun p => p.thickness * 917).sum ∧
    ((∀ p ∈ qx, p.gid ∈ ids → 9170 ≤ p.iceStart → 0 < p.thickness) →
      (qx.map fun p => p.thickness * 917).sum = (px.map fun p => p.thickness * 917).sum) ∧
    qx.length = px.length ∧
    (∀ (i : ℕ) (q : Pix K), qx[i]? = some q → ∃ p, px[i]? = some p ∧ q = { p with thickness := q.thickness } ∧
        ((p.gid ∉ ids ∨ p.iceStart < 9170) → q = p)) := by
  induction ids generalizing px with
  | nil =>
    simp only [glaciers, Option.some.injEq] at h
    subst h
    exact ⟨le_rfl, fun _ => rfl, rfl, fun i q hq => ⟨q, hq, rfl, fun _ => rfl⟩⟩
  | cons g gs ih =>
    simp only [glaciers] at h
    split at h
    · cases h
    · rename_i px' hpx'
      simp only [updateLimited] at hpx'
      obtain ⟨u1, u2, u3, u4⟩ := update_total g res _ px px' hpx' (fun p hp hg => hice p hp (by simp [hg]))
      obtain ⟨hg, hgs⟩ := List.nodup_cons.mp hn
      obtain ⟨i1, i2, i3, i4⟩ := ih hgs px' h (by
        intro p' hp' hgid hst
        obtain ⟨i, hi⟩ := List.mem_iff_getElem?.mp hp'
        obtain ⟨p, hp, e, ho⟩ := u2 i p' hi
        have hpg : p.gid = p'.gid := by rw [e]
        have : p' = p := ho (Or.inl (by rw [hpg]; rintro rfl; exact hg hgid))
        subst this
        exact hice p' (List.mem_of_getElem? hp) (by simp [hgid]) hst)
      refine ⟨u3.trans i1, ?_, i3.trans u1, ?_⟩
      · intro hpos
        rw [i2 fun p hp hgid => hpos p hp (by simp [hgid]), u4]
        intro p' hp' hgid hst
        -- the pixel keeps its thickness in the rest of the loop
        obtain ⟨i, hi⟩ := List.mem_iff_getElem?.mp hp'
        have hilt : i < qx.length := by
          rw [i3]; exact (List.getElem?_eq_some_iff.mp hi).1
        obtain ⟨p'', hp'', e'', ho''⟩ := i4 i qx[i] (List.getElem?_eq_getElem hilt)
        rw [hi] at hp''
        simp only [Option.some.injEq] at hp''
        subst hp''
        have e3 := ho'' (Or.inl (by rw [hgid]; exact hg))
        have := hpos qx[i] (List.getElem_mem hilt) (by rw [e3]; simp [hgid]) (by rw [e3]; exact hst)
        rw [e3] at this
        exact this
      · intro i q hq
        obtain ⟨p', hp', e', ho'⟩ := i4 i q hq
        obtain ⟨p, hp, e, ho⟩ := u2 i p' hp'
        have hpg : p'.gid = p.gid := by rw [e]
        have hps : p'.iceStart = p.iceStart := by rw [e]
        refine ⟨p, hp, ?_, ?_⟩
        · rw [e', e]
        · intro hor
          rw [ho' (by rw [hpg, hps]; rcases hor with a | a; exact Or.inl fun b => a (by simp [b]); exact Or.inr a)]
          exact ho (by rcases hor with a | a; exact Or.inl fun b => a (by simp [b]); exact Or.inr a)

/-- A pixel that no glacier updates keeps its thickness, whatever its layers. -/
theorem glaciers_kept (res : K) (ids : List ℕ) (px qx : List (Pix K)) (h : glaciers res ids px = some qx) :
    qx.length = px.length ∧ (∀ (i : ℕ) (q : Pix K), qx[i]? = some q →
      ∃ p, px[i]? = some p ∧ q = { p with thickness := q.thickness }) ∧
    ∀ (i : ℕ) (p : Pix K), px[i]? = some p →
    (p.gid ∉ ids ∨ p.iceStart < 9170 ∨ (px.filter fun q => decide (q.gid = p.gid ∧ 9170 ≤ q.iceStart)).length < 2) →
    qx[i]? = some p := by
  induction ids generalizing px with
  | nil =>
    simp only [glaciers, Option.some.injEq] at h
    subst h
    exact ⟨rfl, fun i q hq => ⟨q, hq, rfl⟩, fun i p hp _ => hp⟩
  | cons g gs ih =>
    simp only [glaciers] at h
    split at h
    · cases h
    · rename_i px' hpx'
      simp only [updateLimited] at hpx'
      obtain ⟨hl, hoth, hfew⟩ := C43_others g res _ px px' hpx'
      have hrest : ∀ (i : ℕ) (p' : Pix K), px'[i]? = some p' →
          ∃ p, px[i]? = some p ∧ p' = { p with thickness := p'.thickness } := by
        by_cases h2 : (px.filter (Thick g)).length < 2
        · rw [hfew h2]
          exact fun i p' hp' => ⟨p', hp', rfl⟩
        · simp only [updateGlacier, toUpdate_eq] at hpx'
          rw [if_neg h2] at hpx'
          split at hpx'
          · cases hpx'
          · simp only [Option.some.injEq] at hpx'
            subst hpx'
            exact fun i p' hp' => writeBack_rest _ _ _ i p' hp'
      obtain ⟨k1, k2, k3⟩ := ih px' h
      have hcount : ∀ n, (px'.filter fun q => decide (q.gid = n ∧ 9170 ≤ q.iceStart)).length =
          (px.filter fun q => decide (q.gid = n ∧ 9170 ≤ q.iceStart)).length := by
        intro n
        have : ∀ (a b : List (Pix K)), a.length = b.length →
            (∀ (i : ℕ) (p' : Pix K), a[i]? = some p' →
              ∃ p, b[i]? = some p ∧ p' = { p with thickness := p'.thickness }) →
            (a.filter fun q => decide (q.gid = n ∧ 9170 ≤ q.iceStart)).length =
              (b.filter fun q => decide (q.gid = n ∧ 9170 ≤ q.iceStart)).length := by
          intro a
          induction a with
          | nil =>
            intro b hb _
            have : b = [] := List.length_eq_zero_iff.mp (by simpa using hb.symm)
            subst this
            rfl
          | cons x a iha =>
            intro b hb hab
            cases b with
            | nil => simp at hb
            | cons y b =>
              obtain ⟨p, hp, e⟩ := hab 0 x rfl
              simp only [List.getElem?_cons_zero, Option.some.injEq] at hp
              subst hp
              have hh := iha b (by simpa using hb) (fun i p' hp' => by simpa using hab (i + 1) p' (by simpa using hp'))
              have e1 : x.gid = y.gid := by rw [e]
              have e2 : x.iceStart = y.iceStart := by rw [e]
              simp only [List.filter_cons, e1, e2]
              split <;> simp only [List.length_cons, hh]
        exact this px' px hl hrest
      refine ⟨k1.trans hl, ?_, ?_⟩
      · intro i q hq
        obtain ⟨p', hp', e'⟩ := k2 i q hq
        obtain ⟨p, hp, e⟩ := hrest i p' hp'
        exact ⟨p, hp, by rw [e', e]⟩
      · intro i p hp hor
        apply k3 i p
        · rcases hor with a | a | a
          · exact hoth i p hp (Or.inl fun b => a (by simp [b]))
          · exact hoth i p hp (Or.inr a)
          · by_cases hg : p.gid = g
            · have e : px' = px := hfew (by
                have : (px.filter (Thick g)) = px.filter fun q => decide (q.gid = p.gid ∧ 9170 ≤ q.iceStart) := by
                  rw [hg]; rfl
                rw [this]
                exact a)
              rw [e]; exact hp
            · exact hoth i p hp (Or.inl hg)
        · rcases hor with a | a | a
          · exact Or.inl fun b => a (by simp [b])
          · exact Or.inr (Or.inl a)
          · exact Or.inr (Or.inr (by rw [hcount]; exact a))

/-! ## Specification -/

/-- Water equivalent of all layers of a pixel. -/
def water (p : GPixel K) : K :=
  (p.layers.new.ice + p.layers.new.lwc) + (p.layers.old.ice + p.layers.old.lwc) +
    (p.layers.firn.ice + p.layers.firn.lwc) + (p.layers.ice.ice + p.layers.ice.lwc)

/-- Layers as a time step leaves them: contents not negative, density positive where there is mass, and the thickness of the
ice layer derived from its mass and its density `ρ` (`transition.ice`); an empty ice layer has no density. -/
structure Layered (ρ : K) (p : GPixel K) : Prop where
  new : p.layers.new.Updatable
  old : p.layers.old.Updatable
  firn : p.layers.firn.Updatable
  ice : p.layers.ice.Updatable
  thick : 0 ≤ p.layers.ice.thick
  dens : 0 < p.layers.ice.thick → p.layers.ice.dens = some ρ
  empty : p.layers.ice.thick = 0 → p.layers.ice.dens = none
  mass : ρ * p.layers.ice.thick = p.layers.ice.ice + p.layers.ice.lwc

/-- No pixel that takes part in the update would lose more ice than it has. -/
def NoneVanishes (res : K) (ids : List ℕ) (ps : List (GPixel K)) : Prop :=
  ∀ qs, glaciers res ids (ps.map GPixel.pix) = some qs → ∀ q ∈ qs, q.gid ∈ ids → 9170 ≤ q.iceStart → 0 < q.thickness

/-! ## Theorems -/

theorem write_water {ρ : K} (hρ : 0 < ρ) (p : GPixel K) (hp : Layered ρ p) (q : Pix K) (hq : 0 ≤ q.thickness)
    (od id : K) (fd : Bool) (l : CPixel K) (hl : updateLayers od id fd (p.write q).layers = some l) :
    water { p.write q with layers := l } = water p + (q.thickness * 917 - p.layers.ice.ice) := by
  have hmass := hp.mass
  have hice : (p.write q).layers.ice.Updatable := by
    obtain ⟨h1, h2, h3, h4⟩ := hp.ice
    refine ⟨mul_nonneg hq (by norm_num [Glacier.iceDensity]), h2, h3, ?_⟩
    intro hpos
    rcases hp.thick.eq_or_lt with h0 | h0
    · exfalso
      have hd := hp.empty h0.symm
      have hr : refresh (p.write q).layers.ice = none := by
        unfold refresh
        rw [if_neg (by simpa [CLayer.we] using hpos)]
        simp only [GPixel.write, hd]
      simp only [updateLayers, hr, Option.bind_eq_bind, Option.bind_none, Option.bind_eq_some_iff] at hl
      obtain ⟨_, _, _, _, _, _, hl⟩ := hl
      cases hl
    · exact ⟨ρ, hp.dens h0, hρ⟩
  obtain ⟨l', hl', -, -, hs, -⟩ := C29_update_layers od id fd (p.write q).layers hp.new hp.old hp.firn hice
  rw [hl] at hl'
  cases hl'
  have : water { p.write q with layers := l } = l.swe := rfl
  rw [this, hs]
  simp only [CPixel.swe, CLayer.we, GPixel.write, water, Glacier.iceDensity]
  ring

theorem newThick_nonneg (sel : Pix K → Bool) (px : List (Pix K)) (mc : List K) (h : ∀ p ∈ px, 0 ≤ p.thickness) :
    ∀ p ∈ writeBack sel px mc, 0 ≤ p.thickness := by
  induction px generalizing mc with
  | nil => simp [writeBack]
  | cons q px ih =>
    have hq := h q List.mem_cons_self
    have ih' := fun mc => ih mc (fun p hp => h p (List.mem_cons_of_mem _ hp))
    simp only [writeBack]
    split
    · cases mc with
      | nil =>
        intro p hp
        rcases List.mem_cons.mp hp with rfl | hp
        · exact hq
        · exact ih' _ p hp
      | cons m ms =>
        intro p hp
        rcases List.mem_cons.mp hp with rfl | hp
        · exact le_max_right _ _
        · exact ih' _ p hp
    · intro p hp
      rcases List.mem_cons.mp hp with rfl | hp
      · exact hq
      · exact ih' _ p hp

theorem glaciers_nonneg (res : K) (ids : List ℕ) (px qx : List (Pix K)) (h : glaciers res ids px = some qx)
    (h0 : ∀ p ∈ px, 0 ≤ p.thickness) : ∀ q ∈ qx, 0 ≤ q.thickness := by
  induction ids generalizing px with
  | nil => simp only [glaciers, Option.some.injEq] at h; subst h; exact h0
  | cons g gs ih =>
    simp only [glaciers] at h
    split at h
    · cases h
    · rename_i px' hpx'
      refine ih px' h ?_
      simp only [updateLimited, updateGlacier] at hpx'
      split at hpx'
      · simp only [Option.some.injEq] at hpx'; subst hpx'; exact h0
      · split at hpx'
        · cases hpx'
        · simp only [Option.some.injEq] at hpx'; subst hpx'
          exact newThick_nonneg _ _ _ h0

theorem mapM_get {α β : Type*} (f : α → Option β) : ∀ (l : List α) (r : List β), l.mapM f = some r →
    r.length = l.length ∧ ∀ (i : ℕ) (a : α), l[i]? = some a → ∃ b, r[i]? = some b ∧ f a = some b
  | [], r, h => by
    simp at h
    subst h
    simp
  | a :: l, r, h => by
    simp only [List.mapM_cons, Option.bind_eq_bind, Option.bind_eq_some_iff, Option.pure_def, Option.some.injEq] at h
    obtain ⟨b, hb, r', hr', rfl⟩ := h
    obtain ⟨h1, h2⟩ := mapM_get f l r' hr'
    refine ⟨by simp [h1], fun i x hx => ?_⟩
    cases i with
    | zero =>
      simp at hx
      subst hx
      exact ⟨b, rfl, hb⟩
    | succ i => simpa using h2 i x (by simpa using hx)

theorem total_water {ρ : K} (hρ : 0 < ρ) (od id : K) (fd : Bool) (ps : List (GPixel K)) (qs : List (Pix K))
    (hlen : qs.length = ps.length) (hps : ∀ p ∈ ps, Layered ρ p) (hqs : ∀ q ∈ qs, 0 ≤ q.thickness) (ps' : List (GPixel K))
    (h : (List.zipWith GPixel.write ps qs).mapM (fun p =>
      (updateLayers od id fd p.layers).map fun l => { p with layers := l }) = some ps') :
    (ps'.map water).sum = (ps.map water).sum + (qs.map fun q => q.thickness * 917).sum -
      (ps.map fun p => p.layers.ice.ice).sum := by
  induction ps generalizing qs ps' with
  | nil =>
    have : qs = [] := List.length_eq_zero_iff.mp (by simpa using hlen)
    subst this
    simp at h
    subst h
    simp
  | cons p ps ih =>
    cases qs with
    | nil => simp at hlen
    | cons q qs =>
      simp only [List.zipWith_cons_cons, List.mapM_cons, Option.bind_eq_bind, Option.bind_eq_some_iff, Option.pure_def,
        Option.some.injEq, Option.map_eq_some_iff] at h
      obtain ⟨p', ⟨l, hl, rfl⟩, r, hr, rfl⟩ := h
      have e := ih qs (by simpa using hlen) (fun p hp => hps p (List.mem_cons_of_mem _ hp))
        (fun q hq => hqs q (List.mem_cons_of_mem _ hq)) r hr
      have w := write_water hρ p (hps p List.mem_cons_self) q (hqs q List.mem_cons_self) od id fd l hl
      simp only [List.map_cons, List.sum_cons, e, w]
      ring

/-- **C131.** A pixel that takes no part in the update of a glacier (no glacier, less than 10 m of ice, or a glacier with less
than two thicker pixels) does not keep its mass: with density `ρ` of the ice layer, ice and liquid water of the layer are
multiplied by `917 / ρ`, and the liquid water is counted a second time. -/
theorem C131_untouched (res od id ρ : K) (hρ : 0 < ρ) (fd : Bool) (ids : List ℕ) (ps ps' : List (GPixel K))
    (h : updateGeometry res od id fd ids ps = some ps') (hps : ∀ p ∈ ps, Layered ρ p) (i : ℕ) (p : GPixel K)
    (hp : ps[i]? = some p)
    (hnot : p.gid ∉ ids ∨ p.iceStart < 9170 ∨
      (ps.filter fun q => decide (q.gid = p.gid ∧ 9170 ≤ q.iceStart)).length < 2) :
    ∃ p', ps'[i]? = some p' ∧ water p' = water p +
      (917 / ρ - 1) * (p.layers.ice.ice + p.layers.ice.lwc) + p.layers.ice.lwc := by
  unfold updateGeometry at h
  split at h
  · cases h
  · rename_i qs hqs
    obtain ⟨k1, k2, k3⟩ := glaciers_kept res ids _ qs hqs
    have hq := k3 i p.pix (by simp [hp]) (by
      rcases hnot with a | a | a
      · exact Or.inl a
      · exact Or.inr (Or.inl a)
      · refine Or.inr (Or.inr ?_)
        rw [List.filter_map, List.length_map]
        exact a)
    obtain ⟨-, g⟩ := mapM_get _ _ _ h
    obtain ⟨p', hp', e⟩ := g i (p.write p.pix) (by simp [List.getElem?_zipWith, hp, hq])
    simp only [Option.map_eq_some_iff] at e
    obtain ⟨l, hl, rfl⟩ := e
    have hL := hps p (List.mem_of_getElem? hp)
    refine ⟨_, hp', ?_⟩
    rw [write_water hρ p hL p.pix hL.thick od id fd l hl]
    have hm := hL.mass
    have : p.pix.thickness = (p.layers.ice.ice + p.layers.ice.lwc) / ρ := by
      rw [eq_div_iff hρ.ne', ← hm]
      simp only [GPixel.pix]
      ring
    rw [this]
    field_simp
    ring

/-- **C131.** With the density of ice as transition density the update keeps the mass of all pixels together except for
the liquid water of the ice layers, which is counted twice, if no pixel would lose more ice than it has; otherwise ice is
created in addition. -/
theorem C131_total (res od id : K) (fd : Bool) (ids : List ℕ) (hn : ids.Nodup) (ps ps' : List (GPixel K))
    (h : updateGeometry res od id fd ids ps = some ps') (hps : ∀ p ∈ ps, Layered 917 p) :
    (ps.map water).sum + (ps.map fun p => p.layers.ice.lwc).sum ≤ (ps'.map water).sum ∧
    (NoneVanishes res ids ps →
      (ps'.map water).sum = (ps.map water).sum + (ps.map fun p => p.layers.ice.lwc).sum) := by
  unfold updateGeometry at h
  split at h
  · cases h
  · rename_i qs hqs
    have hmass : ∀ p ∈ ps, p.pix.thickness * 917 = p.layers.ice.ice + p.layers.ice.lwc := by
      intro p hp
      rw [← (hps p hp).mass]
      simp only [GPixel.pix]
      ring
    obtain ⟨t1, t2, t3, -⟩ := glaciers_total res ids hn _ qs hqs (by
      intro p hp _ _
      obtain ⟨p, hp', rfl⟩ := List.mem_map.mp hp
      exact hmass p hp')
    have hnn := glaciers_nonneg res ids _ qs hqs (by
      intro p hp
      obtain ⟨p, hp', rfl⟩ := List.mem_map.mp hp
      exact (hps p hp').thick)
    have e := total_water (by norm_num) od id fd ps qs (by simpa using t3) hps hnn ps' h
    have e2 : ((ps.map GPixel.pix).map fun p => p.thickness * 917).sum =
        (ps.map fun p => p.layers.ice.ice).sum + (ps.map fun p => p.layers.ice.lwc).sum := by
      rw [List.map_map, ← List.sum_map_add]
      congr 1
      exact List.map_congr_left fun p hp => hmass p hp
    rw [e2] at t1 t2
    refine ⟨by rw [e]; linarith, fun hv => ?_⟩
    rw [e, t2 fun q hq hg hs => hv qs hqs q hq hg hs]
    ring

/-- **C131.** Mass is kept if in addition the ice layers hold no liquid water. Not so with the default transition density
of 900 (`C131_untouched`, `C131_growth_false`). -/
theorem C131_kept_partial (res od id : K) (fd : Bool) (ids : List ℕ) (hn : ids.Nodup) (ps ps' : List (GPixel K))
    (h : updateGeometry res od id fd ids ps = some ps') (hps : ∀ p ∈ ps, Layered 917 p)
    (hdry : ∀ p ∈ ps, p.layers.ice.lwc = 0) (hv : NoneVanishes res ids ps) :
    (ps'.map water).sum = (ps.map water).sum := by
  rw [(C131_total res od id fd ids hn ps ps' h hps).2 hv]
  have : (ps.map fun p => p.layers.ice.lwc).sum = 0 := by
    rw [List.map_congr_left (g := fun _ => (0 : K)) hdry]
    simp
  rw [this, add_zero]

/-! ## Years without loss -/

theorem writeBack_const (sel : Pix K → Bool) (c : K) : ∀ px : List (Pix K),
    Glacier.writeBack sel px ((px.filter sel).map fun _ => c) =
      px.map fun p => if sel p then { p with thickness := Glacier.newThickness p c } else p := by
  intro px
  induction px with
  | nil => rfl
  | cons p px ih =>
    by_cases h : sel p
    · simp only [List.filter_cons, h, if_true, List.map_cons, Glacier.writeBack, ih]
    · simp only [List.filter_cons, h, Bool.false_eq_true, if_false, List.map_cons]
      rw [← ih]
      cases hr : (px.filter sel).map fun _ => c <;> simp [Glacier.writeBack, h]

/-- A year in which the thick pixels of glacier `g` together do not lose mass: each gets the same share. -/
theorem updateLimited_gain (g : ℕ) (res : K) (px : List (Pix K)) (h2 : 2 ≤ (px.filter (toUpdate g)).length)
    (ht : 0 ≤ ((px.filter (toUpdate g)).map Pix.mb).sum) :
    updateLimited g res px = some (px.map fun p => if toUpdate g p then
      { p with thickness := Glacier.newThickness p (((px.filter (toUpdate g)).map Pix.mb).sum /
          (px.filter (toUpdate g)).length) } else p) := by
  simp only [updateLimited, updateGlacier]
  rw [if_neg (by omega)]
  simp only [iceMassChange, not_lt.mpr ht, if_false, List.map_map, List.length_map, Function.comp_def]
  rw [writeBack_const]

/-- **C131.** In a year without loss every pixel of a glacier (with at least 10 m of ice at the start) ends with the ice and
firn of the start plus the mean change of these pixels, as far as its ice can provide for it; ice is added or removed
accordingly. -/
theorem C131_gain (res od id : K) (fd : Bool) (g : ℕ) (ps ps' : List (GPixel K))
    (h : updateGeometry res od id fd [g] ps = some ps') (hps : ∀ p ∈ ps, Layered 917 p) (S : List (GPixel K))
    (hS : S = ps.filter fun q => decide (q.gid = g ∧ 9170 ≤ q.iceStart)) (h2 : 2 ≤ S.length) (total : K)
    (htotal : total = (S.map fun q => (q.layers.ice.we + q.layers.firn.we) - (q.iceStart + q.firnStart)).sum)
    (h0 : 0 ≤ total) (i : ℕ) (p : GPixel K) (hp : ps[i]? = some p) (hg : p.gid = g) (hthick : 9170 ≤ p.iceStart) :
    ∃ p', ps'[i]? = some p' ∧ water p' = water p - p.layers.ice.ice +
      max (p.iceStart + p.firnStart + total / S.length - p.layers.firn.we) 0 := by
  have hsel : ∀ q : GPixel K, toUpdate g q.pix = decide (q.gid = g ∧ 9170 ≤ q.iceStart) := by
    intro q
    have := congrFun (toUpdate_eq (K := K) g) q.pix
    rw [this]
    rfl
  have hfil : (ps.map GPixel.pix).filter (toUpdate g) = S.map GPixel.pix := by
    rw [List.filter_map, hS]
    congr 1
    apply List.filter_congr
    intro q _
    exact hsel q
  have hmb : ((S.map GPixel.pix).map Pix.mb).sum = total := by
    rw [htotal, List.map_map]
    congr 1
    apply List.map_congr_left
    intro q _
    simp only [Function.comp, Pix.mb, GPixel.pix]
    ring
  unfold updateGeometry at h
  have hgl := updateLimited_gain g res (ps.map GPixel.pix) (by rw [hfil]; simpa using h2) (by rw [hfil, hmb]; exact h0)
  simp only [glaciers, hgl] at h
  obtain ⟨-, gm⟩ := mapM_get _ _ _ h
  rw [hfil, hmb] at gm
  simp only [List.length_map] at gm
  obtain ⟨p', hp', e⟩ := gm i (p.write { p.pix with thickness := Glacier.newThickness p.pix (total / S.length) }) (by
    simp [List.getElem?_zipWith, hp, hsel, hg, hthick])
  simp only [Option.map_eq_some_iff] at e
  obtain ⟨l, hl, rfl⟩ := e
  refine ⟨_, hp', ?_⟩
  rw [write_water (by norm_num) p (hps p (List.mem_of_getElem? hp)) _ (le_max_right _ _) od id fd l hl]
  simp only [Glacier.newThickness, Pix.old, GPixel.pix, Glacier.iceDensity]
  have e1 : max (p.iceStart / 917 + (total / S.length - (p.layers.firn.we - p.firnStart)) / 917) 0 * 917 =
      max (p.iceStart + p.firnStart + total / S.length - p.layers.firn.we) 0 := by
    rw [max_mul_of_nonneg _ _ (by norm_num : (0 : K) ≤ 917), zero_mul]
    congr 1
    field_simp
    ring
  rw [e1]
  ring

/-- **C131.** Glaciers that end the year as they began it keep their shape: if ice and firn of all pixels are those of the
start, no pixel changes apart from the liquid water of its ice layer, which is counted twice. -/
theorem C131_balanced (res od id : K) (fd : Bool) (ids : List ℕ) (ps ps' : List (GPixel K))
    (h : updateGeometry res od id fd ids ps = some ps') (hps : ∀ p ∈ ps, Layered 917 p)
    (hb : ∀ p ∈ ps, p.gid ∈ ids → p.layers.ice.we = p.iceStart ∧ p.layers.firn.we = p.firnStart)
    (i : ℕ) (p : GPixel K) (hp : ps[i]? = some p) :
    ∃ p', ps'[i]? = some p' ∧ water p' = water p + p.layers.ice.lwc := by
  have hsame : ∀ (l : List ℕ), (∀ g ∈ l, g ∈ ids) → glaciers res l (ps.map GPixel.pix) = some (ps.map GPixel.pix) := by
    intro l
    induction l with
    | nil => intro _; rfl
    | cons g l ih =>
      intro hl
      have hu : updateLimited g res (ps.map GPixel.pix) = some (ps.map GPixel.pix) := by
        have hz : ∀ q ∈ (ps.map GPixel.pix).filter (toUpdate g), q.mb = 0 := by
          intro q hq
          rw [List.mem_filter, List.mem_map] at hq
          obtain ⟨⟨r, hr, rfl⟩, hq⟩ := hq
          have hgid : r.gid = g := by
            simp only [toUpdate, inGlacier, Bool.and_eq_true, decide_eq_true_eq] at hq
            exact hq.1.1
          obtain ⟨b1, b2⟩ := hb r hr (hgid ▸ hl g (by simp))
          simp only [Pix.mb, GPixel.pix, b1, b2]
          ring
        have hsum : (((ps.map GPixel.pix).filter (toUpdate g)).map Pix.mb).sum = 0 := by
          rw [List.map_congr_left (g := fun _ => (0 : K)) hz]
          simp
        by_cases h2 : 2 ≤ ((ps.map GPixel.pix).filter (toUpdate g)).length
        · rw [updateLimited_gain g res _ h2 (by rw [hsum]), hsum, zero_div]
          congr 1
          conv_rhs => rw [← List.map_id (ps.map GPixel.pix)]
          apply List.map_congr_left
          intro q hq
          rw [List.mem_map] at hq
          obtain ⟨r, hr, rfl⟩ := hq
          simp only [_root_.id]
          split_ifs with hu
          · have hgid : r.gid = g := by
              simp only [toUpdate, inGlacier, Bool.and_eq_true, decide_eq_true_eq] at hu
              exact hu.1.1
            obtain ⟨b1, b2⟩ := hb r hr (hgid ▸ hl g (by simp))
            have hL := hps r hr
            have : Glacier.newThickness r.pix 0 = r.layers.ice.thick := by
              have hm := hL.mass
              have hwe : r.iceStart = 917 * r.layers.ice.thick := by rw [hm, ← b1]; simp [CLayer.we]
              simp only [Glacier.newThickness, Pix.old, GPixel.pix, Glacier.iceDensity, b2, hwe]
              have e1 : 917 * r.layers.ice.thick / 917 + (0 - (r.firnStart - r.firnStart)) / 917 = r.layers.ice.thick := by
                field_simp
                ring
              rw [e1]
              exact max_eq_left hL.thick
            rw [this]
            rfl
          · rfl
        · simp only [updateLimited, updateGlacier]
          rw [if_pos (by omega)]
      simp only [glaciers, hu]
      exact ih fun g' hg' => hl g' (by simp [hg'])
  unfold updateGeometry at h
  simp only [hsame ids fun _ h => h] at h
  obtain ⟨-, gm⟩ := mapM_get _ _ _ h
  obtain ⟨p', hp', e⟩ := gm i (p.write p.pix) (by simp [List.getElem?_zipWith, hp])
  simp only [Option.map_eq_some_iff] at e
  obtain ⟨l, hl, rfl⟩ := e
  have hL := hps p (List.mem_of_getElem? hp)
  refine ⟨_, hp', ?_⟩
  rw [write_water (by norm_num) p hL p.pix hL.thick od id fd l hl]
  have hm := hL.mass
  simp only [GPixel.pix]
  linarith

/-! ## Growth over the years -/

/-- A pixel outside of all glaciers with the mass `m` of ice of density `ρ`. -/
def icePixel (ρ m : K) : GPixel K where
  gid := 0
  elev := 3000
  iceStart := m
  firnStart := 0
  layers := { new := emptyLayer, old := emptyLayer, firn := emptyLayer, albedo := none,
              ice := { thick := m / ρ, ice := m, lwc := 0, cc := 0, dens := some ρ, alb := none } }

theorem glaciers_alone (res : K) (ids : List ℕ) (h0 : 0 ∉ ids) (p : Pix K) (hp : p.gid = 0) :
    glaciers res ids [p] = some [p] := by
  induction ids with
  | nil => rfl
  | cons g gs ih =>
    have hg : ¬ (p.gid = g) := by rw [hp]; rintro rfl; exact h0 (by simp)
    have : updateLimited g res [p] = some [p] := by
      simp [updateLimited, updateGlacier, toUpdate, inGlacier, hg]
    simp only [glaciers, this]
    exact ih fun h => h0 (by simp [h])

theorem updateGeometry_alone (res od ρ m : K) (ids : List ℕ) (h0 : 0 ∉ ids) (hρ : 0 < ρ) (hm : 0 < m) :
    updateGeometry res od ρ false ids [icePixel ρ m] =
      some [{ icePixel ρ (m * (917 / ρ)) with iceStart := m }] := by
  unfold updateGeometry
  simp only [List.map_cons, List.map_nil]
  rw [glaciers_alone res ids h0 _ rfl]
  have hw : ¬ (m / ρ * 917 + 0 ≤ 0) := by
    have : 0 < m / ρ * 917 := by positivity
    linarith
  have e : m / ρ * 917 = m * (917 / ρ) := by ring
  simp only [List.zipWith_cons_cons, List.zipWith_nil_left, List.mapM_cons, List.mapM_nil, Cryo.updateLayers,
    GPixel.write, GPixel.pix, icePixel, refresh, emptyLayer, CLayer.we, Glacier.iceDensity]
  simp only [add_zero, le_refl, if_true, densAtLeast, transition, Bool.false_eq_true, if_false,
    Option.bind_eq_bind, Option.bind_some, Option.pure_def, Option.map_some]
  rw [add_zero, e] at hw
  simp only [e, hw, if_false, hρ.ne', Option.bind_some, Option.map_some]

/-- **C131.** Growth without end: ice on a pixel that belongs to no glacier, left alone by the weather and with the default
density of 900, is multiplied by 917 / 900 every year and exceeds every bound. -/
theorem C131_growth_false [Archimedean K] (res od m : K) (hm : 0 < m) (ids : List ℕ) (h0 : 0 ∉ ids) :
    ∃ P : ℕ → GPixel K, water (P 0) = m ∧
      (∀ k, updateGeometry res od 900 false ids [P k] = some [{ P (k + 1) with iceStart := (P k).iceStart }]) ∧
      (∀ k, Layered 900 (P k) ∧ (P k).iceStart = water (P k)) ∧
      (∀ k, water (P k) = m * (917 / 900) ^ k) ∧ ∀ B, ∃ k, B < water (P k) := by
  have hw : ∀ x : K, water (icePixel 900 x) = x := by
    intro x
    simp [water, icePixel, emptyLayer]
  refine ⟨fun k => icePixel 900 (m * (917 / 900) ^ k), by simp [hw], ?_, ?_, fun k => hw _, ?_⟩
  · intro k
    rw [updateGeometry_alone res od 900 _ ids h0 (by norm_num) (by positivity)]
    simp only [icePixel, pow_succ, mul_assoc]
  · intro k
    have hpos : 0 < m * (917 / 900 : K) ^ k := by positivity
    obtain ⟨x, hx⟩ : ∃ x, m * (917 / 900 : K) ^ k = x := ⟨_, rfl⟩
    simp only [hx]
    rw [hx] at hpos
    have hE : (emptyLayer : CLayer K).Updatable := by
      refine ⟨le_rfl, le_rfl, le_rfl, fun h => ?_⟩
      simp [emptyLayer] at h
    refine ⟨⟨hE, hE, hE, ⟨hpos.le, le_rfl, le_rfl, fun _ => ⟨900, rfl, by norm_num⟩⟩, ?_, fun _ => rfl, ?_, ?_⟩, (hw x).symm⟩
    · simp only [icePixel]; positivity
    · intro h
      simp only [icePixel] at h
      have : 0 < x / 900 := by positivity
      linarith
    · simp only [icePixel]
      ring
  · intro B
    obtain ⟨k, hk⟩ := pow_unbounded_of_one_lt (B / m) (show (1 : K) < 917 / 900 by norm_num)
    refine ⟨k, ?_⟩
    simp only [hw]
    rwa [div_lt_iff₀' hm] at hk

/-! ## Concrete cases -/

/-- A pixel of glacier 1 that has lost 10 % of its ice in a year. -/
def exPixel (elev we : ℚ) : GPixel ℚ where
  gid := 1
  elev := elev
  iceStart := 91700
  firnStart := 0
  layers := { new := emptyLayer, old := emptyLayer, firn := emptyLayer, albedo := none,
              ice := { thick := we / 917, ice := we, lwc := 0, cc := 0, dens := some 917, alb := none } }

theorem exPixel_layered (elev we : ℚ) (h : 0 < we) : Layered 917 (exPixel elev we) := by
  have hE : (emptyLayer : CLayer ℚ).Updatable := by
    refine ⟨le_rfl, le_rfl, le_rfl, fun h => ?_⟩
    simp [emptyLayer] at h
  refine ⟨hE, hE, hE, ⟨h.le, le_rfl, le_rfl, fun _ => ⟨917, rfl, by norm_num⟩⟩, ?_, fun _ => rfl, ?_, ?_⟩
  · simp only [exPixel]; positivity
  · intro h'
    simp only [exPixel] at h'
    have : 0 < we / 917 := by positivity
    linarith
  · simp only [exPixel]
    ring

theorem exCeil : ⌈(2 : ℚ) * (10 / 100)⌉ = 1 := by rw [Int.ceil_eq_iff]; norm_num

theorem exGlaciers : glaciers 100 [1] ([exPixel 2000 80000, exPixel 3000 91000].map GPixel.pix) =
    some [⟨1, 2000, 91700, 0, 80000, 0, 79300 / 917⟩, ⟨1, 3000, 91700, 0, 91000, 0, 100⟩] := by
  norm_num [glaciers, updateLimited, exPixel, GPixel.pix, emptyLayer, CLayer.we, inGlacier, toUpdate, Pix.old, Pix.mb,
    Glacier.iceDensity, List.filter, maxAllowedChange, maxTerminusElev, exCeil, List.insertionSort, List.orderedInsert,
    lmin, lmax, updateGlacier, iceMassChange, unrestricted, restrict, deltaH, writeBack, newThickness]

-- C131_total, C131_kept_partial
example : ∃ ps', updateGeometry 100 200 917 false [1] [exPixel 2000 80000, exPixel 3000 91000] = some ps' ∧
    (ps'.map water).sum = 171000 := by
  have hd : (updateGeometry 100 200 917 false [1] [exPixel 2000 80000, exPixel 3000 91000]).isSome = true := by
    unfold updateGeometry
    rw [exGlaciers]
    norm_num [exPixel, GPixel.write, Cryo.updateLayers, refresh, emptyLayer, CLayer.we, Glacier.iceDensity, transition,
      densAtLeast]
  obtain ⟨ps', h⟩ := Option.isSome_iff_exists.mp hd
  refine ⟨ps', h, ?_⟩
  rw [C131_kept_partial 100 200 917 false [1] (by simp) _ ps' h]
  · norm_num [water, exPixel, emptyLayer]
  · simp only [List.mem_cons, List.not_mem_nil, or_false, forall_eq_or_imp, forall_eq]
    exact ⟨exPixel_layered _ _ (by norm_num), exPixel_layered _ _ (by norm_num)⟩
  · simp [exPixel]
  · intro qs hqs q hq _ _
    rw [exGlaciers] at hqs
    simp only [Option.some.injEq] at hqs
    subst hqs
    simp only [List.mem_cons, List.not_mem_nil, or_false] at hq
    rcases hq with rfl | rfl <;> norm_num

theorem exGlaciersGain : glaciers 100 [1] ([exPixel 2000 91700, exPixel 3000 93700].map GPixel.pix) =
    some [⟨1, 2000, 91700, 0, 91700, 0, 92700 / 917⟩, ⟨1, 3000, 91700, 0, 93700, 0, 92700 / 917⟩] := by
  norm_num [glaciers, updateLimited, exPixel, GPixel.pix, emptyLayer, CLayer.we, inGlacier, toUpdate, Pix.old, Pix.mb,
    Glacier.iceDensity, List.filter, maxAllowedChange, maxTerminusElev, exCeil, List.insertionSort, List.orderedInsert,
    lmin, lmax, updateGlacier, iceMassChange, unrestricted, restrict, deltaH, writeBack, newThickness]

-- C131_gain: one of two pixels gained 2000 kg/m2, both end with half of it
example : ∃ ps' p', updateGeometry 100 200 917 false [1] [exPixel 2000 91700, exPixel 3000 93700] = some ps' ∧
    ps'[0]? = some p' ∧ water p' = 92700 := by
  have hd : (updateGeometry 100 200 917 false [1] [exPixel 2000 91700, exPixel 3000 93700]).isSome = true := by
    unfold updateGeometry
    rw [exGlaciersGain]
    norm_num [exPixel, GPixel.write, Cryo.updateLayers, refresh, emptyLayer, CLayer.we, Glacier.iceDensity, transition,
      densAtLeast]
  obtain ⟨ps', h⟩ := Option.isSome_iff_exists.mp hd
  obtain ⟨p', hp', hw⟩ := C131_gain 100 200 917 false 1 _ ps' h (by
    simp only [List.mem_cons, List.not_mem_nil, or_false, forall_eq_or_imp, forall_eq]
    exact ⟨exPixel_layered _ _ (by norm_num), exPixel_layered _ _ (by norm_num)⟩)
    [exPixel 2000 91700, exPixel 3000 93700] (by norm_num [exPixel]) (by simp) 2000
    (by norm_num [exPixel, emptyLayer, CLayer.we]) (by norm_num) 0 (exPixel 2000 91700) rfl rfl (by norm_num [exPixel])
  refine ⟨ps', p', h, hp', ?_⟩
  rw [hw]
  norm_num [water, exPixel, emptyLayer, CLayer.we]

theorem exGlaciersBalanced : glaciers 100 [1] ([exPixel 2000 91700, exPixel 3000 91700].map GPixel.pix) =
    some [⟨1, 2000, 91700, 0, 91700, 0, 100⟩, ⟨1, 3000, 91700, 0, 91700, 0, 100⟩] := by
  norm_num [glaciers, updateLimited, exPixel, GPixel.pix, emptyLayer, CLayer.we, inGlacier, toUpdate, Pix.old, Pix.mb,
    Glacier.iceDensity, List.filter, maxAllowedChange, maxTerminusElev, exCeil, List.insertionSort, List.orderedInsert,
    lmin, lmax, updateGlacier, iceMassChange, unrestricted, restrict, deltaH, writeBack, newThickness]

-- C131_balanced
example : ∃ ps' p', updateGeometry 100 200 917 false [1] [exPixel 2000 91700, exPixel 3000 91700] = some ps' ∧
    ps'[1]? = some p' ∧ water p' = 91700 := by
  have hd : (updateGeometry 100 200 917 false [1] [exPixel 2000 91700, exPixel 3000 91700]).isSome = true := by
    unfold updateGeometry
    rw [exGlaciersBalanced]
    norm_num [exPixel, GPixel.write, Cryo.updateLayers, refresh, emptyLayer, CLayer.we, Glacier.iceDensity, transition,
      densAtLeast]
  obtain ⟨ps', h⟩ := Option.isSome_iff_exists.mp hd
  obtain ⟨p', hp', hw⟩ := C131_balanced 100 200 917 false [1] _ ps' h (by
    simp only [List.mem_cons, List.not_mem_nil, or_false, forall_eq_or_imp, forall_eq]
    exact ⟨exPixel_layered _ _ (by norm_num), exPixel_layered _ _ (by norm_num)⟩)
    (by simp [exPixel, emptyLayer, CLayer.we]) 1 _ rfl
  refine ⟨ps', p', h, hp', ?_⟩
  rw [hw]
  norm_num [water, exPixel, emptyLayer]

-- C131_untouched: ice without a glacier, first year
example : ∃ p', (updateGeometry 100 200 900 false [1] [icePixel (900 : ℚ) 9000]) = some [p'] ∧ water p' = 9170 := by
  refine ⟨_, updateGeometry_alone 100 200 900 9000 [1] (by simp) (by norm_num) (by norm_num), ?_⟩
  norm_num [water, icePixel, emptyLayer]

end Verif.GlacierMass
