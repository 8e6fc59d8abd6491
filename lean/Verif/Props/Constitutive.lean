import Verif.Model.Constitutive
import Verif.Model.RealInst
import Verif.Spec.History
import Verif.Lemmas.Lits
import Verif.Lemmas.Quadrature

/-! Properties C43, C44, C45, C49: the Buche-Silberstein constitutive models of `src/constitutive`. -/

namespace Polymers.Props

open Polymers.Spec Polymers.constitutive

section hyperelastic
open hyperelastic.buche_silberstein

/-- C43: in equibiaxial tension at stretch `λ` the stress is minus the stress in uniaxial tension at stretch `1/λ²`,
for every model value, and one call panics exactly when the other does. -/
theorem C43_duality (model : BucheSilberstein ℝ) {stretch : ℝ} (h : stretch ≠ 0) :
    model.equibiaxial_tension stretch = (model.uniaxial_tension (1 / stretch ^ 2)).map fun stress => -stress := by
  have e : ∀ z r : ℝ, (z * stretch ^ 2) ^ 2 + (r / stretch) ^ 2 =
      (z / (1 / stretch ^ 2)) ^ 2 + 1 / stretch ^ 2 * r ^ 2 := by
    intro z r; field_simp
  have hs : ∀ (l : List (List ℝ × ℝ)) (g : List ℝ) (W : ℝ → ℝ → ℝ),
      (l.flatMap fun ez => (ez.1.zip g).map fun er => (-er.1) / W ez.2 er.2).sum =
      -(l.flatMap fun ez => (ez.1.zip g).map fun er => er.1 / W ez.2 er.2).sum := by
    intro l g W
    have hm : ∀ (z : ℝ) (l : List (ℝ × ℝ)), (l.map fun er => (-er.1) / W z er.2).sum =
        -(l.map fun er => er.1 / W z er.2).sum := by
      intro z l
      induction l with
      | nil => simp
      | cons x l ih => simp only [List.map_cons, List.sum_cons, ih]; ring
    induction l with
    | nil => simp
    | cons x l ih => simp only [List.flatMap_cons, List.sum_append, ih, hm]; ring
  unfold BucheSilberstein.equibiaxial_tension BucheSilberstein.uniaxial_tension
  unfold hyperelastic.buche_silberstein.equibiaxial_tension hyperelastic.buche_silberstein.uniaxial_tension
  split <;> simp only [Option.map_some, Option.map_none, model_real, e]
  · rw [hs _ _ (fun z r => Real.exp (efjc.thermodynamics.isometric.asymptotic.reduced.legendre.nondimensional_relative_helmholtz_free_energy
      model.number_of_links model.nondimensional_link_stiffness √((z / (1 / stretch ^ 2)) ^ 2 + 1 / stretch ^ 2 * r ^ 2)))]
    rw [neg_div]
  · rw [hs _ _ (fun z r => Real.exp (model.factor * ((z / (1 / stretch ^ 2)) ^ 2 + 1 / stretch ^ 2 * r ^ 2)))]
    rw [neg_div]

/-- C43: the constructor succeeds exactly for methods 2 and 3. -/
theorem C43_init_method (method : ℕ) (κ : ℝ) (N : ℕ) :
    (BucheSilberstein.init method κ N).isSome = true ↔ method = 2 ∨ method = 3 := by
  unfold BucheSilberstein.init hyperelastic.buche_silberstein.init
  rw [Option.isSome_map]
  split <;> simp_all

/-- C43: a constructed model has a stress at every stretch, in both loadings. -/
theorem C43_tension_defined {method : ℕ} {κ : ℝ} {N : ℕ} {model : BucheSilberstein ℝ}
    (h : BucheSilberstein.init method κ N = some model) (stretch : ℝ) :
    (model.uniaxial_tension stretch).isSome = true ∧ (model.equibiaxial_tension stretch).isSome = true := by
  have h1 := (C43_init_method method κ N).1 (by rw [h]; rfl)
  have h2 : model.method = method := by
    unfold BucheSilberstein.init at h
    rw [Option.map_eq_some_iff] at h
    obtain ⟨e, -, rfl⟩ := h
    rfl
  unfold BucheSilberstein.equibiaxial_tension BucheSilberstein.uniaxial_tension
  unfold hyperelastic.buche_silberstein.equibiaxial_tension hyperelastic.buche_silberstein.uniaxial_tension
  rw [h2]
  rcases h1 with rfl | rfl <;> simp

/-- C43, concrete case. -/
example : ∃ model : BucheSilberstein ℝ, BucheSilberstein.init 3 50 8 = some model ∧
    model.equibiaxial_tension 2 = (model.uniaxial_tension (1 / 2 ^ 2)).map fun stress => -stress := by
  obtain ⟨model, h⟩ := Option.isSome_iff_exists.1 ((C43_init_method 3 50 8).2 (Or.inr rfl))
  exact ⟨model, h, C43_duality model (by norm_num)⟩

end hyperelastic

section damage
open hyperelastic_damage.buche_silberstein

/-- The pair of stress and total probability at one stretch, with the largest stretch so far. -/
noncomputable abbrev damagePoint (model : BucheSilberstein ℝ) (stretch largest : ℝ) : Option (ℝ × ℝ) :=
  hyperelastic_damage.buche_silberstein.uniaxial_tension model.element model.factor model.grid model.normalization
    model.method model.nondimensional_critical_extension model.nondimensional_link_stiffness model.number_of_links
    model.swelling_ratio stretch largest

theorem damage_loop (model : BucheSilberstein ℝ) (h : List ℝ) (m : ℝ) (out : List (ℝ × ℝ))
    (ho : model.uniaxial_tension_loop m h = some out) :
    out.length = h.length ∧ ∀ k (hk : k < h.length),
      out[k]? = damagePoint model h[k] ((h.take (k + 1)).foldl max m) := by
  induction h generalizing m out with
  | nil =>
    simp only [BucheSilberstein.uniaxial_tension_loop, Option.some.injEq] at ho
    subst ho
    simp
  | cons s h ih =>
    have e : (if Elem.lt m s then s else m) = max m s := by
      by_cases hms : m < s
      · rw [if_pos ((elem_lt _ _).2 hms), max_eq_right hms.le]
      · rw [if_neg (fun h => hms ((elem_lt _ _).1 h)), max_eq_left (not_lt.1 hms)]
    simp only [BucheSilberstein.uniaxial_tension_loop, e] at ho
    rw [Option.bind_eq_some_iff] at ho
    obtain ⟨o, ho1, ho2⟩ := ho
    rw [Option.map_eq_some_iff] at ho2
    obtain ⟨os, ho2, rfl⟩ := ho2
    obtain ⟨h1, h2⟩ := ih _ _ ho2
    refine ⟨by simp [h1], ?_⟩
    rintro (_ | k) hk
    · simp [ho1]
    · simp only [List.length_cons, Nat.add_lt_add_iff_right] at hk
      simpa using h2 k hk

theorem damage_result {L : ℕ} {model : BucheSilberstein ℝ} {h : List ℝ} {out : List (ℝ × ℝ)}
    (ho : model.uniaxial_tension L h = some out) :
    L ≤ h.length ∧ out.length = L ∧ ∀ k (_ : k < L) (hk' : k < h.length),
      out[k]? = damagePoint model h[k] (runningMax h k) := by
  unfold BucheSilberstein.uniaxial_tension at ho
  split at ho
  · simp at ho
  · rename_i hL
    obtain ⟨h1, h2⟩ := damage_loop _ _ _ _ ho
    have hlen : (h.take L).length = L := by rw [List.length_take]; omega
    refine ⟨by omega, by rw [h1, hlen], fun k hk hk' => ?_⟩
    rw [h2 k (by omega), List.getElem_take, List.take_take, Nat.min_eq_left (by omega)]
    unfold runningMax
    norm_num

/-- C44: two histories with the same stretch at step `j` of one and step `k` of the other and the same largest stretch
so far get the same response there. -/
theorem C44_history_through_maximum {L L' : ℕ} {model : BucheSilberstein ℝ} {h h' : List ℝ} {out out' : List (ℝ × ℝ)}
    (ho : model.uniaxial_tension L h = some out) (ho' : model.uniaxial_tension L' h' = some out')
    {j k : ℕ} (hj : j < L) (hk : k < L') (hs : h[j]? = h'[k]?) (hm : runningMax h j = runningMax h' k) :
    out[j]? = out'[k]? := by
  obtain ⟨a1, a2, a3⟩ := damage_result ho
  obtain ⟨b1, b2, b3⟩ := damage_result ho'
  have hs' : h[j]'(by omega) = h'[k]'(by omega) := by
    rw [List.getElem?_eq_getElem (by omega), List.getElem?_eq_getElem (by omega)] at hs
    exact Option.some.inj hs
  rw [a3 j hj (by omega), b3 k hk (by omega), hs', hm]

/-- C44: the response at step `k` depends only on the stretches up to step `k`. -/
theorem C44_causal {L L' : ℕ} {model : BucheSilberstein ℝ} {h h' : List ℝ} {out out' : List (ℝ × ℝ)}
    (ho : model.uniaxial_tension L h = some out) (ho' : model.uniaxial_tension L' h' = some out')
    {k : ℕ} (hk : k < L) (hk' : k < L') (hs : h.take (k + 1) = h'.take (k + 1)) : out[k]? = out'[k]? := by
  obtain ⟨a1, -⟩ := damage_result ho
  obtain ⟨b1, -⟩ := damage_result ho'
  refine C44_history_through_maximum ho ho' hk hk' ?_ (by rw [runningMax, runningMax, hs])
  have := congrArg (fun l => l[k]?) hs
  simpa [List.getElem?_take] using this

theorem foldl_max_ge (l : List ℝ) (m : ℝ) : m ≤ l.foldl max m ∧ ∀ x ∈ l, x ≤ l.foldl max m := by
  induction l generalizing m with
  | nil => simp
  | cons x l ih =>
    obtain ⟨h1, h2⟩ := ih (max m x)
    refine ⟨(le_max_left _ _).trans h1, ?_⟩
    intro y hy
    rcases List.mem_cons.1 hy with rfl | hy
    · exact (le_max_right _ _).trans h1
    · exact h2 y hy

theorem foldl_max_of_le (l : List ℝ) {m : ℝ} (h : ∀ x ∈ l, x ≤ m) : l.foldl max m = m := by
  induction l with
  | nil => rfl
  | cons x l ih =>
    simp only [List.foldl_cons]
    rw [max_eq_left (h x (by simp))]
    exact ih fun y hy => h y (by simp [hy])

/-- C44: an excursion `e` not exceeding a stretch reached before does not change the response to anything which
follows it. -/
theorem C44_excursion {model : BucheSilberstein ℝ} {h e t : List ℝ} {out out' : List (ℝ × ℝ)} {s : ℝ} (hs : s ∈ h)
    (he : ∀ x ∈ e, x ≤ s)
    (ho : model.uniaxial_tension (h ++ e ++ t).length (h ++ e ++ t) = some out)
    (ho' : model.uniaxial_tension (h ++ t).length (h ++ t) = some out') (k : ℕ) (hk : k < t.length) :
    out[h.length + e.length + k]? = out'[h.length + k]? := by
  refine C44_history_through_maximum ho ho' (by simp; omega) (by simp; omega) ?_ ?_
  · rw [List.getElem?_append_right (by simp), List.getElem?_append_right (by simp)]
    congr 1
    simp
  · unfold runningMax
    have e1 : (h ++ e ++ t).take (h.length + e.length + k + 1) = h ++ e ++ t.take (k + 1) := by
      rw [List.take_append, List.take_of_length_le (by simp; omega)]
      congr 2
      simp; omega
    have e2 : (h ++ t).take (h.length + k + 1) = h ++ t.take (k + 1) := by
      rw [List.take_append, List.take_of_length_le (by omega)]
      congr 2
      omega
    rw [e1, e2, List.foldl_append, List.foldl_append, List.foldl_append,
      foldl_max_of_le e fun x hx => (he x hx).trans ((foldl_max_ge h 1).2 s hs)]

theorem damagePoint_isSome {model : BucheSilberstein ℝ} (hm : model.method = 2 ∨ model.method = 3) (s m : ℝ) :
    (damagePoint model s m).isSome = true ↔ 1 ≤ s := by
  unfold damagePoint hyperelastic_damage.buche_silberstein.uniaxial_tension
  by_cases h : 1 ≤ s
  · have h' : Elem.le (1.0 : ℝ) s = true := (elem_le _ _).2 (by norm_num; exact h)
    simp only [h', if_true, h, iff_true]
    rcases hm with hm | hm <;> rw [hm] <;> rfl
  · have h' : Elem.le (1.0 : ℝ) s = false := by
      rw [Bool.eq_false_iff]; intro h2
      have := (elem_le _ _).1 h2
      norm_num at this; exact h this
    simp [h', h]

/-- C45: the constructor succeeds exactly for methods 2 and 3. -/
theorem C45_init_method (method : ℕ) (c κ : ℝ) (N : ℕ) (J : ℝ) :
    (BucheSilberstein.init method c κ N J).isSome = true ↔ method = 2 ∨ method = 3 := by
  unfold BucheSilberstein.init hyperelastic_damage.buche_silberstein.init
  rw [Option.isSome_map]
  split <;> simp_all

theorem damage_loop_isSome {model : BucheSilberstein ℝ} (hm : model.method = 2 ∨ model.method = 3) (h : List ℝ) (m : ℝ) :
    (model.uniaxial_tension_loop m h).isSome = true ↔ ∀ s ∈ h, 1 ≤ s := by
  induction h generalizing m with
  | nil => simp [BucheSilberstein.uniaxial_tension_loop]
  | cons s h ih =>
    rw [List.forall_mem_cons]
    simp only [BucheSilberstein.uniaxial_tension_loop]
    rw [Option.isSome_bind, Option.any_eq_true]
    simp only [Option.isSome_map]
    rw [← damagePoint_isSome hm s (if Elem.lt m s then s else m)]
    constructor
    · rintro ⟨o, ho, h2⟩
      exact ⟨Option.isSome_iff_exists.2 ⟨o, ho⟩, (ih _).1 h2⟩
    · rintro ⟨h1, h2⟩
      obtain ⟨o, ho⟩ := Option.isSome_iff_exists.1 h1
      exact ⟨o, ho, (ih _).2 h2⟩

/-- C45: a constructed model asked for `L` responses returns a list exactly when at least `L` stretches are given and none
of the first `L` is below one; the list then has one entry per stretch.  Otherwise the call panics. -/
theorem C45_rejects_below_one {method : ℕ} {c κ : ℝ} {N : ℕ} {J : ℝ} {model : BucheSilberstein ℝ}
    (hi : BucheSilberstein.init method c κ N J = some model) (L : ℕ) (h : List ℝ) :
    ((model.uniaxial_tension L h).isSome = true ↔ L ≤ h.length ∧ ∀ s ∈ h.take L, 1 ≤ s) ∧
      ∀ out, model.uniaxial_tension L h = some out → out.length = L := by
  have h1 := (C45_init_method method c κ N J).1 (by rw [hi]; rfl)
  have h2 : model.method = method := by
    unfold BucheSilberstein.init at hi
    rw [Option.map_eq_some_iff] at hi
    obtain ⟨e, -, rfl⟩ := hi
    rfl
  refine ⟨?_, fun out ho => (damage_result ho).2.1⟩
  unfold BucheSilberstein.uniaxial_tension
  split
  · rename_i hl
    simp only [Option.isSome_none, Bool.false_eq_true, false_iff]
    omega
  · rename_i hl
    rw [damage_loop_isSome (h2 ▸ h1)]
    constructor
    · exact fun h => ⟨by omega, h⟩
    · exact fun h => h.2

/-- C44 and C45, concrete case: loading to 3, unloading to 1, and reloading to 2 answers as going back from 3 to 2. -/
example : ∃ (model : BucheSilberstein ℝ) (out out' : List (ℝ × ℝ)), BucheSilberstein.init 3 1 50 8 1 = some model ∧
    model.uniaxial_tension 4 [1, 3, 1, 2] = some out ∧ model.uniaxial_tension 3 [1, 3, 2] = some out' ∧
    out[3]? = out'[2]? := by
  obtain ⟨model, h⟩ := Option.isSome_iff_exists.1 ((C45_init_method 3 1 50 8 1).2 (Or.inr rfl))
  obtain ⟨out, ho⟩ := Option.isSome_iff_exists.1 ((C45_rejects_below_one h 4 [1, 3, 1, 2]).1.2 ⟨by simp, by
    intro s hs; simp at hs; rcases hs with rfl | rfl | rfl | rfl <;> norm_num⟩)
  obtain ⟨out', ho'⟩ := Option.isSome_iff_exists.1 ((C45_rejects_below_one h 3 [1, 3, 2]).1.2 ⟨by simp, by
    intro s hs; simp at hs; rcases hs with rfl | rfl | rfl <;> norm_num⟩)
  refine ⟨model, out, out', h, ho, ho', ?_⟩
  exact C44_excursion (h := [1, 3]) (e := [1]) (t := [2]) (s := 3) (by simp) (by norm_num) ho ho' 0 (by simp)

/-- C49: damage is not monotone in the largest stretch of the past.  On the grid `0.3, 0.97` with critical extension one,
at the reference stretch, the total probability of intact chains is larger after a past stretch of `1.2` than without
any past deformation, for every factor, normalisation, swelling ratio and matrix of elements. -/
theorem C49_damage_can_heal (element : List (List ℝ)) (factor κ : ℝ) (N : ℕ) {normalization J : ℝ}
    (hn : 0 < normalization) (hJ : 0 < J) :
    ∃ before after : ℝ × ℝ,
      hyperelastic_damage.buche_silberstein.uniaxial_tension element factor [3 / 10, 97 / 100] normalization 3 1 κ N J
        1 1 = some before ∧
      hyperelastic_damage.buche_silberstein.uniaxial_tension element factor [3 / 10, 97 / 100] normalization 3 1 κ N J
        1 (6 / 5) = some after ∧
      before.2 < after.2 := by
  have h' : Elem.le (1.0 : ℝ) 1 = true := (elem_le _ _).2 (by norm_num)
  unfold hyperelastic_damage.buche_silberstein.uniaxial_tension
  simp only [h', if_true]
  refine ⟨_, _, rfl, rfl, ?_⟩
  simp only [survives, spacing, List.flatMap_cons, List.flatMap_nil, List.map_cons, List.map_nil, List.append_nil,
    List.cons_append, List.nil_append, model_real, List.sum_cons, List.sum_nil, List.getD_cons_zero,
    List.getD_cons_succ, Real.sqrt_le_one]
  norm_num
  gcongr
  exact lt_add_of_pos_right _ (by positivity)

end damage

end Polymers.Props
