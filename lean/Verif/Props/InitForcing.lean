import Verif.Spec.InitForcing

/-!
# C141: forcing passed in memory is left unchanged and corrected once
-/

namespace Verif.InitForcing

variable {A C : Type*}

/-! ## Arrays -/

theorem alloc_cons (h : Heap A) (x : String × A) (l : List (String × A)) :
    alloc h (x :: l) = ((alloc (h ++ [x.2]) l).1, (x.1, h.length) :: (alloc (h ++ [x.2]) l).2) := by
  simp [alloc, List.zipIdx_cons]

theorem alloc_prefix (h : Heap A) (l : List (String × A)) : h <+: (alloc h l).1 :=
  List.prefix_append _ _

theorem alloc_length (h : Heap A) (l : List (String × A)) : (alloc h l).1.length = h.length + l.length := by
  simp [alloc]

theorem alloc_addr (h : Heap A) (l : List (String × A)) :
    ∀ p ∈ (alloc h l).2, h.length ≤ p.2 ∧ p.2 < (alloc h l).1.length := by
  induction l generalizing h with
  | nil => simp [alloc]
  | cons x l ih =>
    intro p hp
    rw [alloc_length]
    rw [alloc_cons] at hp
    rcases List.mem_cons.1 hp with rfl | hp
    · simp
    · have := ih _ p hp
      rw [alloc_length] at this
      simp only [List.length_append, List.length_cons, List.length_nil] at this ⊢
      omega

/-- Different variables have different arrays. -/
def Sep (l : List (String × ℕ)) : Prop := ∀ p ∈ l, ∀ q ∈ l, p.2 = q.2 → p.1 = q.1

theorem alloc_sep (h : Heap A) (l : List (String × A)) : Sep (alloc h l).2 := by
  induction l generalizing h with
  | nil => simp [alloc, Sep]
  | cons x l ih =>
    rw [alloc_cons]
    intro p hp q hq e
    have key : ∀ r ∈ (alloc (h ++ [x.2]) l).2, h.length + 1 ≤ r.2 := fun r hr => by
      have := (alloc_addr _ _ r hr).1
      simpa using this
    rcases List.mem_cons.1 hp with rfl | hp <;> rcases List.mem_cons.1 hq with rfl | hq
    · rfl
    · have := key q hq
      simp only at e
      omega
    · have := key p hp
      simp only at e
      omega
    · exact ih _ p hp q hq e

theorem alloc_mono (h : Heap A) (l : List (String × A)) (a : ℕ) (ha : a < h.length) : (alloc h l).1[a]? = h[a]? := by
  simp only [alloc]
  rw [List.getElem?_append_left ha]

theorem alloc_val (h : Heap A) (l : List (String × A)) (v : String) :
    (((alloc h l).2.lookup v).bind fun a => (alloc h l).1[a]?) = l.lookup v := by
  induction l generalizing h with
  | nil => simp [alloc]
  | cons x l ih =>
    rw [alloc_cons]
    obtain ⟨n, a⟩ := x
    simp only [List.lookup_cons]
    by_cases hv : (v == n) = true
    · simp only [hv, Option.bind_some]
      rw [alloc_mono _ _ _ (by simp)]
      simp
    · simp only [Bool.not_eq_true] at hv
      simp only [hv]
      exact ih _

theorem lookup_mem {l : List (String × ℕ)} {v : String} {a : ℕ} (h : l.lookup v = some a) : (v, a) ∈ l := by
  induction l with
  | nil => simp at h
  | cons x l ih =>
    obtain ⟨n, b⟩ := x
    rw [List.lookup_cons] at h
    by_cases hv : (v == n) = true
    · simp only [hv, Option.some.injEq] at h
      rw [beq_iff_eq] at hv
      simp [h, hv]
    · simp only [Bool.not_eq_true] at hv
      simp only [hv] at h
      exact List.mem_cons_of_mem _ (ih h)

theorem lookup_isSome_iff (l : List (String × ℕ)) (v : String) :
    (l.lookup v).isSome = true ↔ v ∈ l.map Prod.fst := by
  induction l with
  | nil => simp
  | cons x l ih =>
    obtain ⟨n, b⟩ := x
    rw [List.lookup_cons]
    by_cases hv : (v == n) = true
    · simp only [hv]
      rw [beq_iff_eq] at hv
      simp [hv]
    · simp only [Bool.not_eq_true] at hv
      simp only [hv, ih]
      rw [beq_eq_false_iff_ne] at hv
      simp [hv]

theorem lookup_filter (S : List String) (l : List (String × ℕ)) (v : String) :
    (l.filter fun p => decide (p.1 ∈ S)).lookup v = if v ∈ S then l.lookup v else none := by
  induction l with
  | nil => simp
  | cons x l ih =>
    obtain ⟨n, b⟩ := x
    by_cases hn : n ∈ S
    · rw [List.filter_cons_of_pos (by simpa using hn), List.lookup_cons, List.lookup_cons]
      by_cases hv : (v == n) = true
      · simp only [hv]
        rw [beq_iff_eq] at hv
        simp [hv, hn]
      · simp only [Bool.not_eq_true] at hv
        simp only [hv, ih]
    · rw [List.filter_cons_of_neg (by simpa using hn), ih, List.lookup_cons]
      by_cases hv : (v == n) = true
      · rw [beq_iff_eq] at hv
        simp [hv, hn]
      · simp only [Bool.not_eq_true] at hv
        simp only [hv]

theorem contents_lookup (d : Dataset) (h : Heap A) (hw : Wf d h) (v : String) :
    (contents d h).lookup v = d.val h v := by
  obtain ⟨dims, times, vars⟩ := d
  simp only [Wf] at hw
  simp only [contents, Dataset.val, Dataset.addr?]
  induction vars with
  | nil => simp
  | cons x l ih =>
    obtain ⟨n, b⟩ := x
    have hb : b < h.length := hw (n, b) (by simp)
    have ih := ih fun p hp => hw p (List.mem_cons_of_mem _ hp)
    rw [List.filterMap_cons]
    simp only [List.getElem?_eq_getElem hb, Option.map_some, List.lookup_cons]
    by_cases hv : (v == n) = true
    · simp [hv, List.getElem?_eq_getElem hb]
    · simp only [Bool.not_eq_true] at hv
      simp only [hv]
      exact ih

/-- A dataset whose arrays have been allocated after `n` and are not shared. -/
structure Own (n : ℕ) (d : Dataset) (h : Heap A) : Prop where
  fresh : ∀ p ∈ d.vars, n ≤ p.2 ∧ p.2 < h.length
  sep : Sep d.vars

theorem alloc_own (h : Heap A) (l : List (String × A)) (dims : List String) (times : List ℤ) :
    Own h.length ⟨dims, times, (alloc h l).2⟩ (alloc h l).1 :=
  ⟨alloc_addr h l, alloc_sep h l⟩

/-! ## The selected dataset -/

theorem select_prefix (s : Setup A C) (given : Option Dataset) (h : Heap A) : h <+: (select s given h).1 := by
  unfold select
  split
  · split
    · exact List.prefix_refl _
    · exact alloc_prefix _ _
  · split
    · exact List.prefix_refl _
    · exact alloc_prefix _ _
  · split
    · exact List.prefix_refl _
    · split
      · exact alloc_prefix _ _
      · exact List.prefix_refl _
  · split
    · exact alloc_prefix _ _
    · exact List.prefix_refl _

theorem select_own (s : Setup A C) (given : Option Dataset) (h : Heap A) (d : Dataset)
    (hd : (select s given h).2 = some d) : Own h.length d (select s given h).1 := by
  unfold select at hd ⊢
  split at hd
  · split at hd
    · simp at hd
    · simp only [Option.some.injEq] at hd
      subst hd
      exact alloc_own _ _ _ _
  · split at hd
    · simp at hd
    · simp only [Option.some.injEq] at hd
      subst hd
      exact alloc_own _ _ _ _
  · split at hd
    · simp at hd
    · split at hd
      · rename_i hv
        simp only [Option.some.injEq] at hd
        subst hd
        simp only [hv, if_true]
        exact alloc_own _ _ _ _
      · simp at hd
  · split at hd
    · rename_i hv
      simp only [Option.some.injEq] at hd
      subst hd
      simp only [hv, if_true]
      exact alloc_own _ _ _ _
    · simp at hd

theorem select_val (s : Setup A C) (given : Option Dataset) (h : Heap A) (hw : ∀ g, given = some g → Wf g h)
    (d : Dataset) (hd : (select s given h).2 = some d) (v : String) :
    d.val (select s given h).1 v = origin s given h v := by
  unfold select at hd ⊢
  unfold origin
  split at hd <;> rename_i e
  · split at hd
    · simp at hd
    · rename_i times vars hf
      simp only [Option.some.injEq] at hd
      subst hd
      simp only [e, hf, Option.bind_some]
      exact alloc_val _ _ _
  · split at hd
    · simp at hd
    · rename_i times vars hf
      simp only [Option.some.injEq] at hd
      subst hd
      simp only [e, hf, Option.bind_some]
      exact alloc_val _ _ _
  · split at hd
    · simp at hd
    · rename_i g
      split at hd
      · rename_i hv
        simp only [Option.some.injEq] at hd
        subst hd
        simp only [e, hv, if_true, Option.bind_some]
        rw [← contents_lookup g h (hw g rfl)]
        exact alloc_val _ _ _
      · simp at hd
  · split at hd
    · rename_i hv
      simp only [Option.some.injEq] at hd
      subst hd
      simp only [e, hv, if_true]
      refine (alloc_val _ _ _).trans ?_
      have key : ∀ l : List String, (l.map fun v => (v, s.noStations)).lookup v =
          if v ∈ l then some s.noStations else none := by
        intro l
        induction l with
        | nil => simp
        | cons x l ih =>
          rw [List.map_cons, List.lookup_cons]
          by_cases hx : (v == x) = true
          · simp only [hx]
            rw [beq_iff_eq] at hx
            simp [hx]
          · simp only [Bool.not_eq_true] at hx
            simp only [hx, ih]
            rw [beq_eq_false_iff_ne] at hx
            simp [hx]
      exact key _
    · simp at hd

theorem has_iff (d : Dataset) (v : String) : d.has v = true ↔ v ∈ d.vars.map Prod.fst :=
  lookup_isSome_iff d.vars v

theorem has_val (d : Dataset) (h : Heap A) (hw : Wf d h) (v : String) : d.has v = (d.val h v).isSome := by
  unfold Dataset.has Dataset.val
  cases e : d.addr? v with
  | none => rfl
  | some a =>
    have := hw _ (lookup_mem e)
    simp [List.getElem?_eq_getElem this]

theorem valid_iff (dates : List ℤ) (d : Dataset) :
    valid dates d = true ↔ (∀ x, x ∈ d.dims ↔ x = "station" ∨ x = "time") ∧ d.times = dates ∧
      ∀ v ∈ ["station_name", "lon", "lat", "alt", "temp", "precip", "rel_hum", "sw_in", "wind_speed"],
        v ∈ d.vars.map Prod.fst := by
  unfold valid
  rw [Bool.and_eq_true, Bool.and_eq_true, decide_eq_true_eq, decide_eq_true_eq, List.all_eq_true]
  simp only [has_iff]
  have h1 : (∀ x, x ∈ d.dims ++ ["station", "time"] → x ∈ d.dims ∧ x ∈ ["station", "time"]) ↔
      ∀ x, x ∈ d.dims ↔ x = "station" ∨ x = "time" := by
    simp only [List.mem_append, List.mem_cons, List.not_mem_nil, or_false]
    refine forall_congr' fun x => ?_
    tauto
  rw [h1]
  have h2 : metaVars ++ Forcing.minimumVars =
    ["station_name", "lon", "lat", "alt", "temp", "precip", "rel_hum", "sw_in", "wind_speed"] := rfl
  rw [h2]
  constructor
  · rintro ⟨⟨a, b⟩, c⟩
    exact ⟨a, c.symm, b⟩
  · rintro ⟨a, b, c⟩
    exact ⟨⟨a, c⟩, b.symm⟩

theorem select_isSome (s : Setup A C) (given : Option Dataset) (h : Heap A) :
    (select s given h).2.isSome = true ↔ SourceOk s given := by
  unfold select SourceOk
  cases s.format with
  | csv => cases s.files with
    | none => simp
    | some f => simp
  | netcdf => cases s.files with
    | none => simp
    | some f => simp
  | memory =>
    cases given with
    | none => simp
    | some d =>
      simp only [Option.some.injEq, exists_eq_left']
      rw [← valid_iff]
      by_cases hv : valid s.dates d = true
      · simp [hv]
      · simp [hv]
  | callback =>
    by_cases hv : s.hasCallback = true
    · simp [hv]
    · simp [hv]

/-! ## Coordinates -/

theorem val_mono (d : Dataset) (h h' : Heap A) (hp : h <+: h') (hw : Wf d h) (v : String) :
    d.val h' v = d.val h v := by
  obtain ⟨t, rfl⟩ := hp
  unfold Dataset.val
  cases e : d.addr? v with
  | none => rfl
  | some a =>
    have := hw _ (lookup_mem e)
    simp only [Option.bind_some]
    rw [List.getElem?_append_left this]

theorem prepare_prefix (coords : A → A → String → A) (h : Heap A) (d : Dataset) :
    h <+: (prepare coords h d).1 := by
  unfold prepare
  split
  · exact alloc_prefix _ _
  · exact List.prefix_refl _

theorem prepare_own (coords : A → A → String → A) (h : Heap A) (n : ℕ) (d m : Dataset) (ho : Own n d h)
    (hn : n ≤ h.length) (hm : (prepare coords h d).2 = some m) : Own n m (prepare coords h d).1 := by
  unfold prepare at hm ⊢
  split at hm
  · rename_i lon lat hlon hlat
    simp only at hm
    split at hm
    · simp only [Option.some.injEq] at hm
      subst hm
      have hg := alloc_addr h (gridVars.map fun v => (v, coords lon lat v))
      have hs := alloc_sep h (gridVars.map fun v => (v, coords lon lat v))
      have hl := alloc_length h (gridVars.map fun v => (v, coords lon lat v))
      have hmem : ∀ p ∈ (d.vars.filter fun p => decide (p.1 ∈ metaVars)) ++
          (alloc h (gridVars.map fun v => (v, coords lon lat v))).2 ++
          (d.vars.filter fun p => decide (p.1 ∈ sortedMeteo)),
          p ∈ d.vars ∨ p ∈ (alloc h (gridVars.map fun v => (v, coords lon lat v))).2 := by
        intro p hp
        rcases List.mem_append.1 hp with hp | hp
        · rcases List.mem_append.1 hp with hp | hp
          · exact Or.inl (List.mem_filter.1 hp).1
          · exact Or.inr hp
        · exact Or.inl (List.mem_filter.1 hp).1
      constructor
      · intro p hp
        rcases hmem p hp with hp | hp
        · have := ho.fresh p hp
          simp only
          omega
        · have := hg p hp
          simp only
          omega
      · intro p hp q hq e
        rcases hmem p hp with hp | hp <;> rcases hmem q hq with hq | hq
        · exact ho.sep p hp q hq e
        · have := ho.fresh p hp
          have := hg q hq
          omega
        · have := hg p hp
          have := ho.fresh q hq
          omega
        · exact hs p hp q hq e
    · simp at hm
  · simp at hm

theorem grid_lookup (f : String → A) (v : String) :
    (gridVars.map fun v => (v, f v)).lookup v = if v ∈ gridVars then some (f v) else none := by
  have key : ∀ l : List String, (l.map fun v => (v, f v)).lookup v = if v ∈ l then some (f v) else none := by
    intro l
    induction l with
    | nil => simp
    | cons x l ih =>
      rw [List.map_cons, List.lookup_cons]
      by_cases hx : (v == x) = true
      · simp only [hx]
        rw [beq_iff_eq] at hx
        simp [hx]
      · simp only [Bool.not_eq_true] at hx
        simp only [hx, ih]
        rw [beq_eq_false_iff_ne] at hx
        simp [hx]
  exact key _

theorem prepare_val (coords : A → A → String → A) (h : Heap A) (d m : Dataset) (hw : Wf d h)
    (hm : (prepare coords h d).2 = some m) :
    ∃ lon lat, d.val h "lon" = some lon ∧ d.val h "lat" = some lat ∧ m.times = d.times ∧ ∀ v,
      m.val (prepare coords h d).1 v =
        if v ∈ gridVars then some (coords lon lat v)
        else if v ∈ metaVars ∨ v ∈ sortedMeteo then d.val h v else none := by
  unfold prepare at hm ⊢
  split at hm
  · rename_i lon lat hlon hlat
    refine ⟨lon, lat, hlon, hlat, ?_⟩
    simp only at hm
    split at hm
    · simp only [Option.some.injEq] at hm
      subst hm
      refine ⟨rfl, fun v => ?_⟩
      have hg := alloc_val h (gridVars.map fun v => (v, coords lon lat v)) v
      rw [grid_lookup] at hg
      have hd := val_mono d h _ (alloc_prefix h (gridVars.map fun v => (v, coords lon lat v))) hw v
      simp only [Dataset.val, Dataset.addr?] at hd ⊢
      simp only [List.lookup_append, lookup_filter]
      by_cases h1 : v ∈ gridVars
      · have h2 : v ∉ metaVars := by
          intro h2
          simp only [gridVars, metaVars, List.mem_cons, List.not_mem_nil, or_false] at h1 h2
          rcases h1 with rfl | rfl | rfl | rfl | rfl | rfl <;> simp at h2
        have h3 : v ∉ sortedMeteo := by
          intro h3
          simp only [gridVars, sortedMeteo, List.mem_cons, List.not_mem_nil, or_false] at h1 h3
          rcases h1 with rfl | rfl | rfl | rfl | rfl | rfl <;> simp at h3
        simp only [h2, h3, if_false, Option.or_none, Option.none_or]
        exact hg
      · simp only [h1, if_false] at hg ⊢
        have hno : (alloc h (gridVars.map fun v => (v, coords lon lat v))).2.lookup v = none := by
          cases e : (alloc h (gridVars.map fun v => (v, coords lon lat v))).2.lookup v with
          | none => rfl
          | some a =>
            have := alloc_addr h (gridVars.map fun v => (v, coords lon lat v)) _ (lookup_mem e)
            rw [e, Option.bind_some, List.getElem?_eq_getElem this.2] at hg
            simp at hg
        rw [hno, Option.or_none]
        by_cases h2 : v ∈ metaVars
        · have h3 : v ∉ sortedMeteo := by
            intro h3
            simp only [metaVars, sortedMeteo, List.mem_cons, List.not_mem_nil, or_false] at h2 h3
            rcases h2 with rfl | rfl | rfl | rfl <;> simp at h3
          simp only [h2, h3, if_true, if_false, Option.or_none, true_or]
          exact hd
        · by_cases h3 : v ∈ sortedMeteo
          · simp only [h2, h3, if_true, if_false, Option.none_or, or_true]
            exact hd
          · simp [h2, h3]
    · simp at hm
  · simp at hm

theorem prepare_isSome (coords : A → A → String → A) (h : Heap A) (d : Dataset) (hw : Wf d h) :
    (prepare coords h d).2.isSome = true ↔ ∀ v ∈ metaVars, (d.val h v).isSome = true := by
  unfold prepare
  simp only [has_val d h hw]
  cases h1 : d.val h "lon" with
  | none =>
    simp only [Option.isSome_none, Bool.false_eq_true, false_iff]
    intro hh
    have := hh "lon" (by simp [metaVars])
    simp [h1] at this
  | some lon =>
    cases h2 : d.val h "lat" with
    | none =>
      simp only [Option.isSome_none, Bool.false_eq_true, false_iff]
      intro hh
      have := hh "lat" (by simp [metaVars])
      simp [h2] at this
    | some lat =>
      have hall : ((metaVars.all fun v => (d.val h v).isSome) = true) ↔ ∀ v ∈ metaVars, (d.val h v).isSome = true := by
        rw [List.all_eq_true]
      have hfun : metaVars.all d.has = metaVars.all fun v => (d.val h v).isSome := by
        congr 1
        funext v
        exact has_val d h hw v
      by_cases hc : (metaVars.all fun v => (d.val h v).isSome) = true
      · simp only [hfun, hc, if_true, Option.isSome_some, true_iff]
        exact hall.1 hc
      · simp only [hfun, hc, if_false, Option.isSome_none, Bool.false_eq_true, false_iff]
        exact fun hx => hc (hall.2 hx)

/-! ## Corrections and extension -/

theorem correctLoop_frame (fac : C → List A → A → Option A) (ins : List A) (a : ℕ) (cs : List C) (h : Heap A) :
    (correctLoop fac ins a cs h).1.length = h.length ∧
      ∀ b, b ≠ a → (correctLoop fac ins a cs h).1[b]? = h[b]? := by
  induction cs generalizing h with
  | nil => simp [correctLoop]
  | cons c cs ih =>
    rw [correctLoop]
    split
    · simp
    · split
      · simp
      · rename_i p' _
        obtain ⟨h1, h2⟩ := ih (h.set a p')
        refine ⟨by simpa using h1, fun b hb => ?_⟩
        rw [h2 b hb, List.getElem?_set_ne (Ne.symm hb)]

theorem correctLoop_val (fac : C → List A → A → Option A) (ins : List A) (a : ℕ) (cs : List C) (h : Heap A) (p : A)
    (hp : h[a]? = some p) :
    ((correctLoop fac ins a cs h).2 = true ↔ (cs.foldlM (fun q c => fac c ins q) p).isSome = true) ∧
      ((correctLoop fac ins a cs h).2 = true →
        (correctLoop fac ins a cs h).1[a]? = cs.foldlM (fun q c => fac c ins q) p) := by
  induction cs generalizing h p with
  | nil => simp [correctLoop, hp]
  | cons c cs ih =>
    rw [correctLoop, hp]
    simp only [List.foldlM_cons]
    cases e : fac c ins p with
    | none => simp
    | some p' =>
      have ha : a < h.length := (List.getElem?_eq_some_iff.1 hp).1
      simpa using ih (h.set a p') p' (by simp [ha])

/-- Heaps of the same length that agree except at one address. -/
def Agree (a : Option ℕ) (h h' : Heap A) : Prop :=
  h'.length = h.length ∧ ∀ b, some b ≠ a → h'[b]? = h[b]?

theorem correct_frame (fac : C → List A → A → Option A) (cs : List C) (h : Heap A) (d : Dataset) :
    Agree (d.addr? "precip") h (correct fac cs h d).1 := by
  unfold correct
  split
  · exact ⟨rfl, fun _ _ => rfl⟩
  · split
    · rename_i ins a _ ha
      refine ⟨(correctLoop_frame fac ins a _ h).1, fun b hb => (correctLoop_frame fac ins a _ h).2 b ?_⟩
      rw [ha] at hb
      simpa using hb
    · exact ⟨rfl, fun _ _ => rfl⟩

theorem extend_frame (ext : Option (A → A → A)) (h : Heap A) (d : Dataset) :
    Agree (d.addr? "within_roi") h (extend ext h d) := by
  unfold extend
  split
  · rename_i a ha
    refine ⟨by simp, fun b hb => ?_⟩
    rw [ha] at hb
    rw [List.getElem?_set_ne]
    intro e
    exact hb (by rw [e])
  · exact ⟨rfl, fun _ _ => rfl⟩

theorem agree_prefix (h0 h h' : Heap A) (d : Dataset) (v : String) (hp : h0 <+: h) (ho : Own h0.length d h)
    (ha : Agree (d.addr? v) h h') : h0 <+: h' := by
  rw [List.prefix_iff_getElem?] at hp ⊢
  intro i hi
  rw [ha.2 i, hp i hi]
  intro e
  have := (ho.fresh _ (lookup_mem e.symm)).1
  simp only at this
  omega

theorem agree_val (n : ℕ) (h h' : Heap A) (d : Dataset) (v w : String) (ho : Own n d h)
    (ha : Agree (d.addr? v) h h') (hvw : w ≠ v) : d.val h' w = d.val h w := by
  unfold Dataset.val
  cases e : d.addr? w with
  | none => rfl
  | some a =>
    simp only [Option.bind_some]
    refine ha.2 a fun e' => ?_
    exact hvw (ho.sep _ (lookup_mem e) _ (lookup_mem e'.symm) rfl)

theorem agree_own (n : ℕ) (h h' : Heap A) (d : Dataset) (a : Option ℕ) (ho : Own n d h) (ha : Agree a h h') :
    Own n d h' :=
  ⟨fun p hp => by rw [ha.1]; exact ho.fresh p hp, ho.sep⟩

/-! ## The initialisation -/

/-- An initialisation only appends arrays; those of its dataset are among the new ones. -/
theorem init_frame (s : Setup A C) (given : Option Dataset) (h : Heap A) :
    h <+: (initModel s given h).1 ∧
      ∀ m, (initModel s given h).2 = some m → Own h.length m (initModel s given h).1 := by
  have hp1 := select_prefix s given h
  have ho1 := select_own s given h
  unfold initModel
  rcases hs : select s given h with ⟨h1, _ | d⟩ <;> simp only [hs] at hp1 ho1 ⊢
  · exact ⟨hp1, by simp⟩
  · have ho1 := ho1 d rfl
    split
    · exact ⟨hp1, by simp⟩
    · have hp2 := hp1.trans (prepare_prefix s.coords h1 d)
      have ho2 := fun m hm => prepare_own s.coords h1 h.length d m ho1 hp1.length_le hm
      rcases hq : prepare s.coords h1 d with ⟨h2, _ | m⟩ <;> simp only [hq] at hp2 ho2 ⊢
      · exact ⟨hp2, by simp⟩
      · have ho2 := ho2 m rfl
        have hf := correct_frame s.fac s.corrections h2 m
        rcases hc : correct s.fac s.corrections h2 m with ⟨h3, _ | _⟩ <;> simp only [hc] at hf ⊢
        · exact ⟨agree_prefix h h2 h3 m _ hp2 ho2 hf, by simp⟩
        · have ho3 := agree_own _ _ _ _ _ ho2 hf
          have hp3 := agree_prefix h h2 h3 m _ hp2 ho2 hf
          have hf4 := extend_frame s.ext h3 m
          refine ⟨agree_prefix h h3 _ m _ hp3 ho3 hf4, fun m' hm' => ?_⟩
          simp only [Option.some.injEq] at hm'
          subst hm'
          exact agree_own _ _ _ _ _ ho3 hf4

/-- **C141.** Initialising a model changes no array that exists before, whatever the settings and whether or not it
succeeds: in particular every variable of the dataset that has been passed, and of any other dataset, is as before; and the
forcing of the model shares no array with them. -/
theorem C141_unchanged (s : Setup A C) (given : Option Dataset) (h : Heap A) :
    (∀ a < h.length, (initModel s given h).1[a]? = h[a]?) ∧
    (∀ d, Wf d h → ∀ v, d.val (initModel s given h).1 v = d.val h v) ∧
    (∀ m, (initModel s given h).2 = some m → ∀ d, Wf d h → ∀ p ∈ m.vars, ∀ q ∈ d.vars, p.2 ≠ q.2) := by
  obtain ⟨hp, ho⟩ := init_frame s given h
  refine ⟨fun a ha => ?_, fun d hw v => val_mono d h _ hp hw v, fun m hm d hw p hpm q hq => ?_⟩
  · have := List.prefix_iff_getElem?.1 hp a ha
    rw [this, List.getElem?_eq_getElem ha]
  · have := ((ho m hm).fresh p hpm).1
    have := hw q hq
    omega

theorem bind_isSome_elim {α β : Type*} {x : Option α} {f : α → Option β} (h : (x.bind f).isSome = true) :
    ∃ a, x = some a ∧ (f a).isSome = true := by
  cases x with
  | none => simp at h
  | some a => exact ⟨a, rfl, h⟩

/-- What the corrections do to the forcing after the coordinates have been added. -/
theorem correct_spec (s : Setup A C) (h2 : Heap A) (m : Dataset) (orig : String → Option A)
    (lon lat : A)
    (hv : ∀ v, m.val h2 v = if v ∈ gridVars then some (s.coords lon lat v)
        else if v ∈ metaVars ∨ v ∈ sortedMeteo then orig v else none) :
    ((correct s.fac s.corrections h2 m).2 = true ↔
      (s.corrections = [] ∨ (corrected s orig lon lat).isSome = true)) ∧
    ((correct s.fac s.corrections h2 m).2 = true →
      m.val (correct s.fac s.corrections h2 m).1 "precip" = corrected s orig lon lat) := by
  have hx : m.val h2 "x" = some (s.coords lon lat "x") := by rw [hv]; simp [gridVars]
  have hy : m.val h2 "y" = some (s.coords lon lat "y") := by rw [hv]; simp [gridVars]
  have ho' : ∀ v, v ∈ ["alt", "temp", "rel_hum", "wind_speed", "precip"] → m.val h2 v = orig v := by
    intro v hvm
    rw [hv]
    simp only [List.mem_cons, List.not_mem_nil, or_false] at hvm
    rcases hvm with rfl | rfl | rfl | rfl | rfl <;> simp [gridVars, metaVars, sortedMeteo]
  cases hcs : s.corrections with
  | nil =>
    simp only [correct, corrected, hcs, if_true, true_or, true_iff, forall_const, true_and]
    exact ho' _ (by simp)
  | cons c cs =>
    simp only [correct, corrected, hcs, reduceCtorEq, if_false, false_or]
    simp only [correctionInputs, List.mapM_cons, List.mapM_nil, hx, hy, ho' "alt" (by simp), ho' "temp" (by simp),
      ho' "rel_hum" (by simp), ho' "wind_speed" (by simp), ho' "precip" (by simp)]
    have hpr := ho' "precip" (by simp)
    cases h1 : orig "alt" with
    | none => simp
    | some alt =>
    cases h2' : orig "temp" with
    | none => simp
    | some temp =>
    cases h3 : orig "rel_hum" with
    | none => simp
    | some hum =>
    cases h4 : orig "wind_speed" with
    | none => simp
    | some wind =>
    cases h5 : orig "precip" with
    | none => simp
    | some p =>
      rw [h5] at hpr
      simp only [Dataset.val] at hpr
      cases ha : m.addr? "precip" with
      | none => rw [ha] at hpr; simp at hpr
      | some a =>
        rw [ha, Option.bind_some] at hpr
        have := correctLoop_val s.fac
          [s.coords lon lat "x", s.coords lon lat "y", alt, temp, hum, wind, p] a (c :: cs) h2 p hpr
        simp only [Dataset.val, ha]
        simpa using this

theorem extend_val (ext : Option (A → A → A)) (n : ℕ) (h : Heap A) (m : Dataset) (ho : Own n m h) (e r : A)
    (he : m.val h "within_grid_extent" = some e) (hr : m.val h "within_roi" = some r) :
    m.val (extend ext h m) "within_roi" = match ext with | none => some r | some f => some (f e r) := by
  unfold extend
  rw [he, hr]
  cases ext with
  | none => exact hr
  | some f =>
    cases ha : m.addr? "within_roi" with
    | none => simp [Dataset.val, ha] at hr
    | some a =>
      have := (ho.fresh _ (lookup_mem ha)).2
      simp only [Dataset.val, ha, Option.bind_some]
      simp [this]

/-- **C141.** The forcing of a model: every variable is what the specification makes of the original data. -/
theorem C141_forcing (s : Setup A C) (given : Option Dataset) (h : Heap A) (hw : ∀ g, given = some g → Wf g h)
    (m : Dataset) (hm : (initModel s given h).2 = some m) :
    ∃ lon lat, origin s given h "lon" = some lon ∧ origin s given h "lat" = some lat ∧
      ∀ v, m.val (initModel s given h).1 v = forcing s (origin s given h) lon lat v := by
  have ho1 := select_own s given h
  have hv1 := select_val s given h hw
  have hp1 := select_prefix s given h
  unfold initModel at hm ⊢
  rcases hs : select s given h with ⟨h1, _ | d⟩ <;> simp only [hs] at hp1 ho1 hv1 hm ⊢
  · simp at hm
  · have ho1 := ho1 d rfl
    have hv1 := hv1 d rfl
    split at hm
    · simp at hm
    · rename_i hpc
      have ho2 := fun m hm => prepare_own s.coords h1 h.length d m ho1 hp1.length_le hm
      have hv2 := fun m hm => prepare_val s.coords h1 d m (fun p hp => (ho1.fresh p hp).2) hm
      rcases hq : prepare s.coords h1 d with ⟨h2, _ | m'⟩ <;> simp only [hq] at ho2 hv2 hm ⊢
      · simp at hm
      · have ho2 := ho2 m' rfl
        obtain ⟨lon, lat, hlon, hlat, -, hval⟩ := hv2 m' rfl
        rw [hv1] at hlon hlat
        simp only [hv1] at hval
        have hf := correct_frame s.fac s.corrections h2 m'
        have hc' := correct_spec s h2 m' (origin s given h) lon lat hval
        rcases hc : correct s.fac s.corrections h2 m' with ⟨h3, _ | _⟩ <;> simp only [hc] at hf hc' hm ⊢
        · simp at hm
        · simp only [Option.some.injEq] at hm
          subst hm
          have ho3 := agree_own _ _ _ _ _ ho2 hf
          have hf4 := extend_frame s.ext h3 m'
          refine ⟨lon, lat, hlon, hlat, fun v => ?_⟩
          simp only [hpc, Bool.false_eq_true, if_false]
          by_cases hr : v = "within_roi"
          · subst hr
            have he3 : m'.val h3 "within_grid_extent" = some (s.coords lon lat "within_grid_extent") := by
              rw [agree_val _ _ _ _ _ _ ho2 hf (by decide), hval]
              simp [gridVars]
            have hr3 : m'.val h3 "within_roi" = some (s.coords lon lat "within_roi") := by
              rw [agree_val _ _ _ _ _ _ ho2 hf (by decide), hval]
              simp [gridVars]
            rw [extend_val s.ext h.length h3 m' ho3 _ _ he3 hr3]
            simp only [forcing]
            cases s.ext <;> rfl
          · rw [agree_val _ _ _ _ _ _ ho3 hf4 hr]
            by_cases hpcp : v = "precip"
            · subst hpcp
              rw [hc'.2 trivial]
              simp [forcing]
            · rw [agree_val _ _ _ _ _ _ ho2 hf hpcp, hval]
              unfold forcing
              rw [if_neg hpcp, if_neg hr]
              have e1 : (v ∈ ["x", "y", "col", "row", "within_grid_extent"]) ↔ v ∈ gridVars := by
                simp only [gridVars, List.mem_cons, List.not_mem_nil, or_false]
                tauto
              have e2 : (v ∈ ["station_name", "lon", "lat", "alt", "cloud_fraction", "rel_hum", "sw_in", "temp",
                  "wind_dir", "wind_speed", "wind_speed_gust"]) ↔ v ∈ metaVars ∨ v ∈ sortedMeteo := by
                rw [← List.mem_append, show ["station_name", "lon", "lat", "alt", "cloud_fraction", "rel_hum", "sw_in",
                  "temp", "wind_dir", "wind_speed", "wind_speed_gust"] =
                  (metaVars ++ sortedMeteo).filter (fun w => decide (w ≠ "precip")) from by decide, List.mem_filter]
                simp [hpcp]
              simp only [e1, e2]

/-- **C141.** A model can be initialised exactly if the source of the data is acceptable (for data passed in memory: the two
dimensions, the dates of the model and the required variables), the metadata are there, prescribed cloudiness comes with
cloud data and the corrections can be applied. -/
theorem C141_accept (s : Setup A C) (given : Option Dataset) (h : Heap A) (hw : ∀ g, given = some g → Wf g h) :
    (initModel s given h).2.isSome = true ↔
      SourceOk s given ∧ (s.prescribed = true → (origin s given h "cloud_fraction").isSome = true) ∧
      (∀ v ∈ ["station_name", "lon", "lat", "alt"], (origin s given h v).isSome = true) ∧
      (s.corrections = [] ∨ ∃ lon lat, origin s given h "lon" = some lon ∧ origin s given h "lat" = some lat ∧
        (corrected s (origin s given h) lon lat).isSome = true) := by
  have ho1 := select_own s given h
  have hv1 := select_val s given h hw
  have hp1 := select_prefix s given h
  have hok := select_isSome s given h
  unfold initModel
  rcases hs : select s given h with ⟨h1, _ | d⟩ <;> simp only [hs] at hp1 ho1 hv1 hok ⊢
  · simp only [Option.isSome_none, Bool.false_eq_true, false_iff] at hok ⊢
    exact fun hh => hok hh.1
  · simp only [Option.isSome_some, true_iff] at hok
    have ho1 := ho1 d rfl
    have hv1 := hv1 d rfl
    have hw1 : Wf d h1 := fun p hp => (ho1.fresh p hp).2
    rw [has_val d h1 hw1, hv1]
    by_cases hpc : (s.prescribed && !(origin s given h "cloud_fraction").isSome) = true
    · rw [if_pos hpc]
      simp only [Option.isSome_none, Bool.false_eq_true, false_iff]
      rintro ⟨-, h2, -⟩
      simp only [Bool.and_eq_true, Bool.not_eq_true'] at hpc
      rw [h2 hpc.1] at hpc
      simp at hpc
    · rw [if_neg hpc]
      have hpc' : s.prescribed = true → (origin s given h "cloud_fraction").isSome = true := by
        intro hpr
        rw [hpr, Bool.true_and] at hpc
        cases e : (origin s given h "cloud_fraction").isSome with
        | true => rfl
        | false => exact absurd (by rw [e]; rfl) hpc
      have ho2 := fun m hm => prepare_own s.coords h1 h.length d m ho1 hp1.length_le hm
      have hv2 := fun m hm => prepare_val s.coords h1 d m hw1 hm
      have hi2 := prepare_isSome s.coords h1 d hw1
      simp only [hv1] at hi2
      rcases hq : prepare s.coords h1 d with ⟨h2, _ | m'⟩ <;> simp only [hq] at ho2 hv2 hi2 ⊢
      · simp only [Option.isSome_none, Bool.false_eq_true, false_iff] at hi2 ⊢
        rintro ⟨-, -, h3, -⟩
        exact hi2 h3
      · simp only [Option.isSome_some, true_iff] at hi2
        have ho2 := ho2 m' rfl
        obtain ⟨lon, lat, hlon, hlat, -, hval⟩ := hv2 m' rfl
        rw [hv1] at hlon hlat
        simp only [hv1] at hval
        have hc' := (correct_spec s h2 m' (origin s given h) lon lat hval).1
        have hlast : (s.corrections = [] ∨ ∃ lon lat, origin s given h "lon" = some lon ∧
            origin s given h "lat" = some lat ∧ (corrected s (origin s given h) lon lat).isSome = true) ↔
            (s.corrections = [] ∨ (corrected s (origin s given h) lon lat).isSome = true) := by
          rw [hlon, hlat]
          constructor
          · rintro (h1 | ⟨x, y, hx, hy, h1⟩)
            · exact Or.inl h1
            · simp only [Option.some.injEq] at hx hy
              subst hx hy
              exact Or.inr h1
          · rintro (h1 | h1)
            · exact Or.inl h1
            · exact Or.inr ⟨lon, lat, rfl, rfl, h1⟩
        rw [hlast, ← hc']
        rcases hc : correct s.fac s.corrections h2 m' with ⟨h3, _ | _⟩ <;> simp only []
        · simp
        · simp only [Option.isSome_some, and_true, true_iff]
          exact ⟨hok, hpc', hi2⟩

/-- **C141.** With a callback, prescribed cloudiness is always rejected. -/
theorem C141_callback (s : Setup A C) (given : Option Dataset) (h : Heap A) (hw : ∀ g, given = some g → Wf g h)
    (hf : s.format = .callback) (hp : s.prescribed = true) : (initModel s given h).2 = none := by
  cases e : (initModel s given h).2 with
  | none => rfl
  | some m =>
  exfalso
  have h1 := (C141_accept s given h hw).1 (by rw [e]; rfl)
  have := h1.2.1 hp
  simp [origin, hf] at this

theorem origin_mono (s : Setup A C) (given : Option Dataset) (h h' : Heap A) (hw : ∀ g, given = some g → Wf g h)
    (hp : h <+: h') : origin s given h' = origin s given h := by
  funext v
  unfold origin
  cases s.format with
  | csv => rfl
  | netcdf => rfl
  | callback => rfl
  | memory =>
    cases given with
    | none => rfl
    | some d => exact val_mono d h h' hp (hw d rfl) v

theorem wf_mono (d : Dataset) (h h' : Heap A) (hp : h <+: h') (hw : Wf d h) : Wf d h' := fun p hpm =>
  lt_of_lt_of_le (hw p hpm) hp.length_le

/-- Dependence on the original data only. -/
theorem init_local (s : Setup A C) (given : Option Dataset) (h h' : Heap A) (hw : ∀ g, given = some g → Wf g h)
    (hp : h <+: h') :
    (initModel s given h').2.isSome = (initModel s given h).2.isSome ∧
      ∀ m m', (initModel s given h).2 = some m → (initModel s given h').2 = some m' →
        ∀ v, m'.val (initModel s given h').1 v = m.val (initModel s given h).1 v := by
  have hw' : ∀ g, given = some g → Wf g h' := fun g hg => wf_mono g h h' hp (hw g hg)
  have ho := origin_mono s given h h' hw hp
  constructor
  · rw [Bool.eq_iff_iff, C141_accept s given h' hw', C141_accept s given h hw, ho]
  · intro m m' hm hm' v
    obtain ⟨lon, lat, h1, h2, h3⟩ := C141_forcing s given h hw m hm
    obtain ⟨lon', lat', h1', h2', h3'⟩ := C141_forcing s given h' hw' m' hm'
    rw [ho, h1, Option.some.injEq] at h1'
    rw [ho, h2, Option.some.injEq] at h2'
    rw [h3, h3', ho, h1', h2']

theorem initAll_prefix (given : Option Dataset) (ss : List (Setup A C)) (h : Heap A) :
    h <+: (initAll given ss h).1 := by
  induction ss generalizing h with
  | nil => exact List.prefix_refl _
  | cons s ss ih =>
    rw [initAll]
    exact (init_frame s given h).1.trans (ih _)

/-- **C141.** Any sequence of initialisations with the same dataset and any settings: at the end the dataset is as it was at
the beginning, the same models could be initialised as each alone, and the forcing of every model - as it is at the end - is
the one that a single model obtains from the original data. -/
theorem C141_sessions (given : Option Dataset) (ss : List (Setup A C)) (h : Heap A)
    (hw : ∀ g, given = some g → Wf g h) :
    (∀ g, given = some g → ∀ v, g.val (initAll given ss h).1 v = g.val h v) ∧
    (initAll given ss h).2.length = ss.length ∧
    ∀ (i : ℕ) s r, ss[i]? = some s → (initAll given ss h).2[i]? = some r →
      r.isSome = (initModel s given h).2.isSome ∧
      ∀ m m1 : Dataset, r = some m → (initModel s given h).2 = some m1 →
        ∀ v, m.val (initAll given ss h).1 v = m1.val (initModel s given h).1 v := by
  refine ⟨fun g hg v => val_mono g h _ (initAll_prefix given ss h) (hw g hg) v, ?_, ?_⟩
  · clear hw
    induction ss generalizing h with
    | nil => rfl
    | cons s ss ih =>
      rw [initAll]
      simp only [List.length_cons]
      rw [ih]
  · have key : ∀ (ss : List (Setup A C)) (h' : Heap A), h <+: h' → ∀ (i : ℕ) s r, ss[i]? = some s →
        (initAll given ss h').2[i]? = some r →
        r.isSome = (initModel s given h).2.isSome ∧
        ∀ m m1 : Dataset, r = some m → (initModel s given h).2 = some m1 →
          ∀ v, m.val (initAll given ss h').1 v = m1.val (initModel s given h).1 v := by
      intro ss
      induction ss with
      | nil => intro h' _ i s r hi; simp at hi
      | cons s0 ss ih =>
        intro h' hp i s r hi hr
        rw [initAll] at hr ⊢
        cases i with
        | zero =>
          simp only [List.getElem?_cons_zero, Option.some.injEq] at hi hr
          subst hi hr
          obtain ⟨h1, h2⟩ := init_local s0 given h h' hw hp
          refine ⟨h1, fun m m1 hm hm1 v => ?_⟩
          rw [← h2 m1 m hm1 hm v]
          refine val_mono m _ _ (initAll_prefix given ss _) ?_ v
          exact fun p hp' => (((init_frame s0 given h').2 m hm).fresh p hp').2
        | succ i =>
          simp only [List.getElem?_cons_succ] at hi hr
          exact ih _ (hp.trans (init_frame s0 given h').1) i s r hi hr
    exact key ss h (List.prefix_refl _)

/-! ## Forcing of an initialised model passed on -/

/-- **C141, partial.** If `model.meteo` of an initialised model is passed on to another model, that model applies its
corrections to the precipitation that has been corrected already; so it gets the same precipitation if it corrects nothing.
Missing: corrections applied only once (false, `C141_reuse_false`). -/
theorem C141_reuse_partial (s s2 : Setup A C) (hf2 : s2.format = .memory) (given : Option Dataset) (h : Heap A) (m : Dataset)
    (hm : (initModel s given h).2 = some m) (m2 : Dataset)
    (hm2 : (initModel s2 (some m) (initModel s given h).1).2 = some m2) :
    ∃ lon lat, m.val (initModel s given h).1 "lon" = some lon ∧ m.val (initModel s given h).1 "lat" = some lat ∧
      m2.val (initModel s2 (some m) (initModel s given h).1).1 "precip" =
        corrected s2 (m.val (initModel s given h).1) lon lat ∧
      (s2.corrections = [] → m2.val (initModel s2 (some m) (initModel s given h).1).1 "precip" =
        m.val (initModel s given h).1 "precip") := by
  have hw : ∀ g, some m = some g → Wf g (initModel s given h).1 := by
    intro g hg
    simp only [Option.some.injEq] at hg
    subst hg
    exact fun p hp => (((init_frame s given h).2 m hm).fresh p hp).2
  obtain ⟨lon, lat, h1, h2, h3⟩ := C141_forcing s2 (some m) _ hw m2 hm2
  have ho : origin s2 (some m) (initModel s given h).1 = m.val (initModel s given h).1 := by
    funext v
    simp [origin, hf2]
  rw [ho] at h1 h2
  have h4 := h3 "precip"
  rw [ho] at h4
  simp only [forcing, if_true] at h4
  refine ⟨lon, lat, h1, h2, h4, fun hc => ?_⟩
  rw [h4, corrected, if_pos hc]

/-! ## Examples -/

/-- A dataset with nine arrays, and a tenth variable that shares its array with the temperature. -/
def exData : Dataset :=
  ⟨["time", "station"], [0, 1], [("station_name", 0), ("lon", 1), ("lat", 2), ("alt", 3), ("temp", 4), ("precip", 5),
    ("rel_hum", 6), ("sw_in", 7), ("wind_speed", 8), ("extra", 4)]⟩

/-- Its arrays. -/
def exHeap : Heap ℕ := [10, 11, 12, 13, 14, 3, 16, 17, 18]

/-- Settings with a correction that multiplies precipitation by a factor; it fails for the factor 0. -/
def exSetup (cs : List ℕ) : Setup ℕ ℕ :=
  ⟨.memory, [0, 1], false, none, 0, false, fun a b _ => a + b, cs,
    fun c _ p => if c = 0 then none else some (c * p), some fun e r => e + r⟩

theorem exData_wf : ∀ g, some exData = some g → Wf g exHeap := by
  intro g hg
  simp only [Option.some.injEq] at hg
  subst hg
  simp [Wf, exData, exHeap]

/-- Three models from one dataset, the second of which fails after a correction: precipitation of the dataset and of the
models at the end. -/
example :
    let r := initAll (some exData) [exSetup [2], exSetup [5, 0], exSetup [2, 7]] exHeap
    exData.val r.1 "precip" = some 3 ∧
      r.2.map (fun m => m.map fun m => m.val r.1 "precip") = [some (some 6), none, some (some 42)] ∧
      r.2.map (fun m => m.map fun m => (m.val r.1 "within_roi", m.val r.1 "extra")) =
        [some (some 46, none), none, some (some 46, none)] := by
  decide +kernel

/-- The dataset meets the conditions of acceptance, and prescribed cloudiness is rejected. -/
example : (initModel (exSetup [2]) (some exData) exHeap).2.isSome = true ∧
    (initModel { exSetup [2] with prescribed := true } (some exData) exHeap).2.isSome = false ∧
    (initModel { exSetup [2] with format := .callback, hasCallback := true } none exHeap).2.isSome = true := by
  decide +kernel

/-- **C141.** The last sentence is false: the forcing of an initialised model is accepted by another model with the same
settings, and its precipitation is corrected a second time. -/
theorem C141_reuse_false :
    ¬ ∀ (s : Setup ℕ ℕ) (d m m2 : Dataset) (h : Heap ℕ), Wf d h → s.format = .memory →
      (initModel s (some d) h).2 = some m → (initModel s (some m) (initModel s (some d) h).1).2 = some m2 →
      m2.val (initModel s (some m) (initModel s (some d) h).1).1 "precip" = m.val (initModel s (some d) h).1 "precip" := by
  intro hall
  have hm : ((initModel (exSetup [2]) (some exData) exHeap).2.bind fun m =>
      ((initModel (exSetup [2]) (some m) (initModel (exSetup [2]) (some exData) exHeap).1).2.bind fun m2 =>
        some (m.val (initModel (exSetup [2]) (some exData) exHeap).1 "precip",
          m2.val (initModel (exSetup [2]) (some m) (initModel (exSetup [2]) (some exData) exHeap).1).1 "precip"))) =
      some (some 6, some 12) := by decide +kernel
  rw [Option.bind_eq_some_iff] at hm
  obtain ⟨m, h1, h2⟩ := hm
  rw [Option.bind_eq_some_iff] at h2
  obtain ⟨m2, h3, h4⟩ := h2
  have := hall (exSetup [2]) exData m m2 exHeap (exData_wf exData rfl) rfl h1 h3
  simp only [Option.some.injEq, Prod.mk.injEq] at h4
  rw [h4.1, h4.2] at this
  simp at this

end Verif.InitForcing
