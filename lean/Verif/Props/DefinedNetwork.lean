import Verif.Props.Network
import Verif.Props.DefinedEfjcIsometric
import Verif.Lemmas.NetworkNodes

/-! Property C81: when the constitutive models return numbers. -/

namespace Polymers.Props

open Polymers.Spec Polymers.SReal Polymers.Lemmas Polymers.constitutive

set_option maxHeartbeats 1000000

theorem fsum_map_val (l : List ℝ) : fsum (l.map SReal.val) = SReal.val (fsum l) := by
  have := fsum_val l SReal.val id fun _ _ => rfl
  simpa using this

/-- A double sum whose terms are defined. -/
theorem double_val {E : List (List ℝ)} {g : List ℝ} {F' : SReal → SReal → SReal → SReal} {F : ℝ → ℝ → ℝ → ℝ}
    (h : ∀ e, ∀ z ∈ g, ∀ r ∈ g, F' (.val e) (.val z) (.val r) = .val (F e z r)) :
    fsum (((E.map fun row => row.map SReal.val).zip (g.map SReal.val)).flatMap fun ez =>
      (ez.1.zip (g.map SReal.val)).map fun er => F' er.1 ez.2 er.2) =
      .val (fsum ((E.zip g).flatMap fun ez => (ez.1.zip g).map fun er => F er.1 ez.2 er.2)) := by
  rw [← fsum_map_val, List.zip_map, List.flatMap_map, List.map_flatMap]
  congr 1
  refine List.flatMap_congr fun ez hez => ?_
  simp only [Prod.map, List.zip_map, List.map_map]
  refine List.map_congr_left fun er her => ?_
  exact h er.1 ez.2 (List.of_mem_zip hez).2 er.2 (List.of_mem_zip her).2

/-- A double sum over the grid whose terms are defined. -/
theorem double_grid_val {g : List ℝ} {F' : SReal → SReal → SReal} {F : ℝ → ℝ → ℝ}
    (h : ∀ z ∈ g, ∀ r ∈ g, F' (.val z) (.val r) = .val (F z r)) :
    fsum ((g.map SReal.val).flatMap fun z => (g.map SReal.val).map fun r => F' z r) =
      .val (fsum (g.flatMap fun z => g.map fun r => F z r)) := by
  rw [← fsum_map_val, List.flatMap_map, List.map_flatMap]
  congr 1
  refine List.flatMap_congr fun z hz => ?_
  simp only [List.map_map]
  refine List.map_congr_left fun r hr => ?_
  exact h z hz r hr

theorem chainEnergy_val {N : ℕ} {κ γ : ℝ} (hN : 0 < N) (hκ : 0 < κ) (h0 : 0 < γ) (h1 : γ ≠ 1) :
    Is (efjc.thermodynamics.isometric.asymptotic.reduced.legendre.nondimensional_relative_helmholtz_free_energy N
      (.val κ) (.val γ)) (chainEnergy N κ γ) := by
  have hN' : (0 : ℝ) < N := Nat.cast_pos.2 (by omega)
  have hD : 0 < γ ∧ γ ≠ 1 := ⟨h0, h1⟩
  unfold chainEnergy efjc.thermodynamics.isometric.asymptotic.reduced.legendre.nondimensional_relative_helmholtz_free_energy
  defined [Is.efjc_reduced_energy hN ?_ ?_ ?_ ?_ ?_ ?_ ?_ ?_ ?_ (by first | exact hD | exact efjc_zero_mem)]

theorem element_numerator_val {N : ℕ} {κ z r : ℝ} (hκ : 0 < κ) (hz : 0 < z) (hr : 0 < r) (h1 : z ^ 2 + r ^ 2 ≠ 1) :
    Is (element_numerator (.val κ) N (.val z) (.val r)) (element_numerator κ N z r) := by
  have hp : 0 < √(z ^ 2 + r ^ 2) := by positivity
  have hD : 0 < Elem.sqrt (Elem.powi z 2 + Elem.powi r 2) ∧ Elem.sqrt (Elem.powi z 2 + Elem.powi r 2) ≠ 1 := by
    simp only [model_real]
    exact ⟨hp, by rwa [Ne, Real.sqrt_eq_one]⟩
  have hL : Is (Elem.sqrt (Elem.powi (SReal.val z) 2 + Elem.powi (SReal.val r) 2))
      (Elem.sqrt (Elem.powi z 2 + Elem.powi r 2)) := by
    refine Is.sqrt (.add (.powi_ofNat (.val _)) (.powi_ofNat (.val _))) ?_
    simp only [model_real]; positivity
  unfold element_numerator
  exact .div (.mul (.mul (.mul (.mul (.mul (Is.efjc_reduced_force (.val _) hL hκ hD)
    (.sub (.mul (.lit _ _ _) (.powi_ofNat (.val _))) (.powi_ofNat (.val _)))) (.lit _ _ _)) .pi) (.natCast rfl)) (.val _)) hL hD.1.ne'

theorem method_3_factor_val {N : ℕ} {κ : ℝ} (hκ : 0 < κ) :
    Is (method_3_factor (.val κ) N) (method_3_factor κ N) := by
  unfold method_3_factor
  refine .div (.mul (.mul (.mul (.lit _ _ _) (.natCast rfl)) (.val _)) (.add (.val _) (.lit _ _ _)))
    (.add (.add (.powi_ofNat (.val _)) (.mul (.lit _ _ _) (.val _))) (.lit _ _ _)) ?_
  simp only [model_real]
  positivity

/-- The result is not a number. -/
def NotNumber (x : SReal) : Prop := ∀ r, x ≠ .val r

namespace NotNumber

theorem undef : NotNumber .undef := fun _ h => by cases h

variable {x : SReal} (h : NotNumber x) (y : SReal)
include h

theorem add_left : NotNumber (x + y) := by
  cases x with
  | val r => exact absurd rfl (h r)
  | undef => cases y <;> intro r h' <;> cases h'
  | panic => intro r h'; cases h'

theorem add_right : NotNumber (y + x) := by
  cases x with
  | val r => exact absurd rfl (h r)
  | undef => cases y <;> intro r h' <;> cases h'
  | panic => rw [SReal.add_panic]; intro r h'; cases h'

theorem sub_left : NotNumber (x - y) := by
  cases x with
  | val r => exact absurd rfl (h r)
  | undef => cases y <;> intro r h' <;> cases h'
  | panic => intro r h'; cases h'

theorem mul_left : NotNumber (x * y) := by
  cases x with
  | val r => exact absurd rfl (h r)
  | undef => cases y <;> intro r h' <;> cases h'
  | panic => intro r h'; cases h'

theorem mul_right : NotNumber (y * x) := by
  cases x with
  | val r => exact absurd rfl (h r)
  | undef => cases y <;> intro r h' <;> cases h'
  | panic => rw [SReal.mul_panic]; intro r h'; cases h'

theorem div_left : NotNumber (x / y) := by
  cases x with
  | val r => exact absurd rfl (h r)
  | undef => cases y <;> intro r h' <;> cases h'
  | panic => intro r h'; cases h'

theorem div_right : NotNumber (y / x) := by
  cases x with
  | val r => exact absurd rfl (h r)
  | undef => cases y <;> intro r h' <;> cases h'
  | panic => rw [SReal.div_panic]; intro r h'; cases h'

theorem neg : NotNumber (-x) := by
  cases x with
  | val r => exact absurd rfl (h r)
  | undef => intro r h'; cases h'
  | panic => intro r h'; cases h'

theorem exp : NotNumber (Elem.exp x) := by
  cases x with
  | val r => exact absurd rfl (h r)
  | undef => intro r h'; cases h'
  | panic => intro r h'; cases h'

omit h

theorem foldl {x : SReal} (h : NotNumber x) (l : List SReal) : NotNumber (l.foldl (fun a b => a + b) x) := by
  induction l generalizing x with
  | nil => exact h
  | cons a l ih => exact ih (h.add_left a)

theorem foldl_mem {l : List SReal} {x : SReal} (h : NotNumber x) (hx : x ∈ l) (a : SReal) :
    NotNumber (l.foldl (fun a b => a + b) a) := by
  induction l generalizing a with
  | nil => cases hx
  | cons b l ih =>
    rcases List.mem_cons.1 hx with rfl | hx
    · exact foldl (h.add_right a) l
    · exact ih hx _

theorem fsum {l : List SReal} {x : SReal} (h : NotNumber x) (hx : x ∈ l) : NotNumber (fsum l) := foldl_mem h hx _

/-- A double sum with a term which is not a number. -/
theorem double {ι : Type} {l : List ι} {e : ι → ι → SReal} {x : ι → SReal} {F : SReal → SReal → SReal → SReal} {i j : ι}
    (hi : i ∈ l) (hj : j ∈ l) (h : NotNumber (F (e i j) (x i) (x j))) :
    NotNumber (Polymers.fsum (((l.map fun i => l.map (e i)).zip (l.map x)).flatMap fun ez =>
      (ez.1.zip (l.map x)).map fun er => F er.1 ez.2 er.2)) := by
  refine h.fsum ?_
  rw [List.zip_map', List.flatMap_map, List.mem_flatMap]
  refine ⟨i, hi, ?_⟩
  rw [List.zip_map', List.map_map, List.mem_map]
  exact ⟨j, hj, rfl⟩

end NotNumber

theorem force_not_number {κ : ℝ} (hκ : 0 < κ) {γ : ℝ} (h : γ = 1) :
    NotNumber (efjc.thermodynamics.isometric.asymptotic.reduced.legendre.nondimensional_force (.val κ) (.val γ)) := by
  rw [h, (C26_efjc_full_extension κ hκ).1]
  exact .undef

theorem energy_not_number {N : ℕ} {κ : ℝ} (hκ : 0 < κ) {γ : ℝ} (h : γ = 1) :
    NotNumber (efjc.thermodynamics.isometric.asymptotic.reduced.legendre.nondimensional_relative_helmholtz_free_energy N
      (.val κ) (.val γ)) := by
  unfold efjc.thermodynamics.isometric.asymptotic.reduced.legendre.nondimensional_relative_helmholtz_free_energy
    efjc.thermodynamics.isometric.asymptotic.reduced.legendre.nondimensional_helmholtz_free_energy
    efjc.thermodynamics.isometric.asymptotic.reduced.legendre.nondimensional_helmholtz_free_energy_per_link
  refine .sub_left (.mul_right (.sub_left (.add_right (.mul_left ?_ _) _) _) _) _
  exact force_not_number hκ h

theorem element_numerator_not_number {N : ℕ} {κ z r : ℝ} (hκ : 0 < κ) (h1 : z ^ 2 + r ^ 2 = 1) :
    NotNumber (element_numerator (.val κ) N (.val z) (.val r)) := by
  have hL : Elem.sqrt (Elem.powi (SReal.val z) 2 + Elem.powi (SReal.val r) 2) = .val 1 := by
    rw [powi_val_ofNat, powi_val_ofNat, add_val, h1, sqrt_val (by norm_num), Real.sqrt_one]
  unfold element_numerator
  rw [hL]
  exact .div_left (.mul_left (.mul_left (.mul_left (.mul_left (.mul_left (force_not_number hκ rfl) _) _) _) _) _) _

section hyperelastic
open hyperelastic.buche_silberstein

/-- The model over the reals, with its numbers seen as defined ones. -/
def hyperelasticVal (m : BucheSilberstein ℝ) : BucheSilberstein SReal :=
  { element := m.element.map fun row => row.map SReal.val, factor := .val m.factor, grid := m.grid.map SReal.val,
    method := m.method, normalization := .val m.normalization,
    nondimensional_link_stiffness := .val m.nondimensional_link_stiffness, number_of_links := m.number_of_links }

theorem w_val : (w : List SReal) = (w : List ℝ).map SReal.val := by
  simp only [w, from_fn, List.map_map]
  refine List.map_congr_left fun i _ => ?_
  refine (Is.div (.natCast rfl) (.add (.natCast rfl) (.lit _ _ _)) ?_ : Is _ _)
  norm_num [NUMGRID]

theorem grid_val : (grid : List SReal) = (grid : List ℝ).map SReal.val := by
  simp only [grid, from_fn, List.map_map]
  refine List.map_congr_left fun i hi => ?_
  have hi' : i < 256 := List.mem_range.1 hi
  have e : (w : List ℝ).getD i Elem.panic = ((i : ℝ) + 1) / 257 := by
    rw [hyperelastic_w, List.getD_eq_getElem?_getD, List.getElem?_map, List.getElem?_range hi']
    rfl
  have e' : (w : List SReal).getD i Elem.panic = .val (((i : ℝ) + 1) / 257) := by
    rw [w_val, hyperelastic_w, List.getD_eq_getElem?_getD, List.getElem?_map, List.getElem?_map, List.getElem?_range hi']
    rfl
  simp only [Function.comp, e, e']
  have h0 : (0:ℝ) ≤ ((i : ℝ) + 1) / 257 := by positivity
  have h1 := one_sub_node_pos hi'
  rw [atanh_val (by linarith) (by nlinarith)]
  rfl

theorem dw_val : (dw : SReal) = .val (dw : ℝ) := by
  have h : ∀ i < 256, (w : List SReal).getD i Elem.panic = .val ((w : List ℝ).getD i Elem.panic) := by
    intro i hi
    rw [w_val, hyperelastic_w, List.getD_eq_getElem?_getD, List.getD_eq_getElem?_getD, List.getElem?_map, List.getElem?_map,
      List.getElem?_range hi]
    rfl
  rw [dw, h 1 (by norm_num), h 0 (by norm_num), sub_val]
  rfl

theorem zip_val : (grid : List SReal).zip w = ((grid : List ℝ).zip w).map (Prod.map SReal.val SReal.val) := by
  rw [grid_val, w_val, List.zip_map]

theorem mem_zip {p : ℝ × ℝ} (h : p ∈ (grid : List ℝ).zip w) : ∃ n < 257, 0 < n ∧ p.1 = node n ∧ p.2 = (n : ℝ) / 257 := by
  rw [hyperelastic_grid, hyperelastic_w, List.zip_map', List.mem_map] at h
  obtain ⟨i, hi, rfl⟩ := h
  have := List.mem_range.1 hi
  exact ⟨i + 1, by omega, by omega, by simp [node], by simp⟩

theorem mem_grid {x : ℝ} (h : x ∈ (grid : List ℝ)) : ∃ n < 257, 0 < n ∧ x = node n := by
  rw [hyperelastic_grid, List.mem_map] at h
  obtain ⟨i, hi, rfl⟩ := h
  have := List.mem_range.1 hi
  exact ⟨i + 1, by omega, by omega, by simp [node]⟩

theorem node_pos' {n : ℕ} (h0 : 0 < n) (hn : n < 257) : 0 < node n := by
  have := node_pos (i := n - 1) (by omega)
  have e : ((n - 1 : ℕ) : ℝ) + 1 = n := by
    have : (1:ℕ) ≤ n := h0
    push_cast [Nat.cast_sub this]; ring
  rwa [e] at this

theorem one_sub_pos {n : ℕ} (hn : n < 257) : 0 < 1 - ((n : ℝ) / 257) ^ 2 := by
  have h1 : (n : ℝ) / 257 < 1 := by
    rw [div_lt_one (by norm_num)]
    exact_mod_cast hn
  have h0 : 0 ≤ (n : ℝ) / 257 := by positivity
  nlinarith

theorem element_val {κ : ℝ} (hκ : 0 < κ) (N : ℕ) :
    element (SReal.val κ) N = (element κ N).map fun row => row.map SReal.val := by
  unfold element
  rw [zip_val]
  simp only [List.map_map]
  refine List.map_congr_left fun p hp => ?_
  simp only [Function.comp, List.map_map]
  refine List.map_congr_left fun q hq => ?_
  obtain ⟨n, hn, hn0, ep, ep'⟩ := mem_zip hp
  obtain ⟨m, hm, hm0, eq, eq'⟩ := mem_zip hq
  simp only [Function.comp, Prod.map, ep, ep', eq, eq']
  refine (?_ : Is _ _)
  have := one_sub_pos hn
  have := one_sub_pos hm
  have hz := node_pos' hn0 hn
  have hr := node_pos' hm0 hm
  refine .mul (.div (.div (element_numerator_val hκ hz hr (nodes_ne_one hn hm)) (.sub (.lit _ _ _) (.powi_ofNat (.val _))) ?_)
    (.sub (.lit _ _ _) (.powi_ofNat (.val _))) ?_) (.powi_ofNat dw_val)
  all_goals simp only [model_real]; positivity

theorem normalization_val {A' : SReal → SReal} {A : ℝ → ℝ} (h : ∀ n, 0 < n → n < 257 → Is (A' (.val (node n))) (A (node n))) :
    Is (fsum (((grid : List SReal).zip w).map fun gw =>
        Elem.powi gw.1 2 / (1.0 - Elem.powi gw.2 2) / Elem.exp (A' gw.1)) * 4.0 * (Elem.pi : SReal) * dw)
      (fsum (((grid : List ℝ).zip w).map fun gw =>
        Elem.powi gw.1 2 / (1.0 - Elem.powi gw.2 2) / Elem.exp (A gw.1)) * 4.0 * (Elem.pi : ℝ) * dw) := by
  refine .mul (.mul (.mul ?_ (.lit _ _ _)) .pi) dw_val
  rw [zip_val, List.map_map]
  refine Is.fsum_map fun p hp => ?_
  obtain ⟨n, hn, hn0, ep, ep'⟩ := mem_zip hp
  simp only [Function.comp, Prod.map, ep, ep']
  have := one_sub_pos hn
  refine .div (.div (.powi_ofNat (.val _)) (.sub (.lit _ _ _) (.powi_ofNat (.val _))) ?_) (.exp (h n hn0 hn)) ?_
  · simp only [model_real]; positivity
  · simp only [model_real]; positivity

theorem init_val {method : ℕ} {κ : ℝ} {N : ℕ} (hN : 0 < N) (hκ : 0 < κ) :
    BucheSilberstein.init method (SReal.val κ) N = (BucheSilberstein.init method κ N).map hyperelasticVal := by
  unfold BucheSilberstein.init hyperelastic.buche_silberstein.init
  split
  · rfl
  · have hZ := normalization_val (A := chainEnergy N κ) fun n h0 hn =>
      chainEnergy_val hN hκ (node_pos' h0 hn) (node_ne_one hn)
    rw [Is] at hZ
    simp only [Option.map_some, hyperelasticVal, element_val hκ, hZ]
    rw [← grid_val, show (0.0 : SReal) = .val 0.0 from lit_val _ _ _]
  · have hf := method_3_factor_val (N := N) hκ
    have hZ := normalization_val (A := fun x => method_3_factor κ N * Elem.powi x 2)
      (A' := fun x => method_3_factor (.val κ) N * Elem.powi x 2) fun n h0 hn =>
      .mul hf (.powi_ofNat (.val _))
    rw [Is] at hZ hf
    simp only [Option.map_some, hyperelasticVal, element_val hκ, hZ]
    rw [← grid_val, hf]
  · rfl

theorem init_some {method : ℕ} {κ : ℝ} {N : ℕ} (h : method = 2 ∨ method = 3) :
    ∃ model : BucheSilberstein ℝ, BucheSilberstein.init method κ N = some model :=
  Option.isSome_iff_exists.1 ((C43_init_method method κ N).2 h)

theorem norm_pos {method : ℕ} {κ : ℝ} {N : ℕ} {model : BucheSilberstein ℝ}
    (h : BucheSilberstein.init method κ N = some model) : model.normalization ≠ 0 := by
  have h1 := (C43_init_method method κ N).1 (by rw [h]; rfl)
  unfold BucheSilberstein.init hyperelastic.buche_silberstein.init at h
  have hp : ∀ A : ℝ → ℝ, 0 < 4 * Real.pi * tanhRule fun x => x ^ 2 * Real.exp (-A x) := fun A =>
    mul_pos (by positivity) (tanhRule_pos fun x hx => by positivity)
  rcases h1 with rfl | rfl
  · simp only [Option.map_some, Option.some.injEq] at h
    subst h
    simp only [model_real]
    have := tanh_normalization (chainEnergy N κ) _ fun x => rfl
    exact (this.trans_ne (hp _).ne')
  · simp only [Option.map_some, Option.some.injEq] at h
    subst h
    simp only [model_real]
    have := tanh_normalization (fun x => method_3_factor κ N * x ^ 2) _ fun x => rfl
    exact (this.trans_ne (hp _).ne')

theorem uniaxial_3_val {κ : ℝ} {N : ℕ} {model : BucheSilberstein ℝ} (hκ : 0 < κ)
    (h : BucheSilberstein.init 3 κ N = some model) {s : ℝ} (hs : 0 < s) :
    (hyperelasticVal model).uniaxial_tension (.val s) = (model.uniaxial_tension s).map SReal.val ∧
    (hyperelasticVal model).equibiaxial_tension (.val s) = (model.equibiaxial_tension s).map SReal.val := by
  have hn := norm_pos h
  have hm : model.method = 3 := by
    unfold BucheSilberstein.init hyperelastic.buche_silberstein.init at h
    simp only [Option.map_some, Option.some.injEq] at h
    subst h; rfl
  unfold BucheSilberstein.uniaxial_tension hyperelastic.buche_silberstein.uniaxial_tension
    BucheSilberstein.equibiaxial_tension hyperelastic.buche_silberstein.equibiaxial_tension
  simp only [hyperelasticVal, hm, Option.map_some, Option.some.injEq]
  constructor
  · refine (Is.div (?_ : Is _ _) (.val _) hn : Is _ _)
    refine double_val (F := fun e z r => e / Elem.exp (model.factor * (Elem.powi (z / s) 2 + s * Elem.powi r 2)))
      (F' := fun e z r => e / Elem.exp (.val model.factor * (Elem.powi (z / .val s) 2 + .val s * Elem.powi r 2)))
      fun e z _ r _ => ?_
    refine (?_ : Is _ _)
    refine .div (.val _) (.exp (.mul (.val _) (.add (.powi_ofNat (.div (.val _) (.val _) hs.ne')) (.mul (.val _) (.powi_ofNat (.val _)))))) ?_
    simp only [model_real]; positivity
  · refine (Is.div (?_ : Is _ _) (.val _) hn : Is _ _)
    refine double_val (F := fun e z r => (-e) / Elem.exp (model.factor * (Elem.powi (z * Elem.powi s 2) 2 + Elem.powi (r / s) 2)))
      (F' := fun e z r => (-e) / Elem.exp (.val model.factor * (Elem.powi (z * Elem.powi (.val s) 2) 2 + Elem.powi (r / .val s) 2)))
      fun e z _ r _ => ?_
    refine (?_ : Is _ _)
    refine .div (.neg (.val _)) (.exp (.mul (.val _) (.add (.powi_ofNat (.mul (.val _) (.powi_ofNat (.val _)))) (.powi_ofNat (.div (.val _) (.val _) hs.ne'))))) ?_
    simp only [model_real]; positivity

theorem model_grid {method : ℕ} {κ : ℝ} {N : ℕ} {model : BucheSilberstein ℝ}
    (h : BucheSilberstein.init method κ N = some model) :
    model.grid = grid ∧ model.method = method ∧ model.nondimensional_link_stiffness = κ ∧ model.number_of_links = N := by
  have h1 := (C43_init_method method κ N).1 (by rw [h]; rfl)
  unfold BucheSilberstein.init hyperelastic.buche_silberstein.init at h
  rcases h1 with rfl | rfl <;>
  · simp only [Option.map_some, Option.some.injEq] at h
    subst h; exact ⟨rfl, rfl, rfl, rfl⟩

theorem uniaxial_2_val {κ : ℝ} {N : ℕ} {model : BucheSilberstein ℝ} (hN : 0 < N) (hκ : 0 < κ)
    (h : BucheSilberstein.init 2 κ N = some model) {s : ℝ} (hs : 0 < s)
    (h1 : ∀ n ∈ Finset.Icc 1 256, ∀ m ∈ Finset.Icc 1 256, restLength s (node n) (node m) ≠ 1) :
    (hyperelasticVal model).uniaxial_tension (.val s) = (model.uniaxial_tension s).map SReal.val := by
  have hn := norm_pos h
  obtain ⟨eg, hm, ek, eN⟩ := model_grid h
  unfold BucheSilberstein.uniaxial_tension hyperelastic.buche_silberstein.uniaxial_tension
  simp only [hyperelasticVal, hm, ek, eN, Option.map_some, Option.some.injEq]
  refine (Is.div (?_ : Is _ _) (.val _) hn : Is _ _)
  refine double_val (F := fun e z r => e / Elem.exp (chainEnergy N κ (Elem.sqrt (Elem.powi (z / s) 2 + s * Elem.powi r 2))))
    (F' := fun e z r => e / Elem.exp (efjc.thermodynamics.isometric.asymptotic.reduced.legendre.nondimensional_relative_helmholtz_free_energy
      N (.val κ) (Elem.sqrt (Elem.powi (z / .val s) 2 + .val s * Elem.powi r 2))))
    fun e z hz r hr => ?_
  rw [eg] at hz hr
  obtain ⟨n, hn, hn0, rfl⟩ := mem_grid hz
  obtain ⟨m, hm, hm0, rfl⟩ := mem_grid hr
  have hz := node_pos' hn0 hn
  have hr := node_pos' hm0 hm
  have hL : Is (Elem.sqrt (Elem.powi (.val (node n) / .val s) 2 + .val s * Elem.powi (.val (node m)) 2))
      (Elem.sqrt (Elem.powi (node n / s) 2 + s * Elem.powi (node m) 2)) := by
    refine .sqrt (.add (.powi_ofNat (.div (.val _) (.val _) hs.ne')) (.mul (.val _) (.powi_ofNat (.val _)))) ?_
    simp only [model_real]; positivity
  rw [Is] at hL
  simp only [hL]
  refine (?_ : Is _ _)
  refine .div (.val _) (.exp (chainEnergy_val hN hκ ?_ ?_)) ?_
  · simp only [model_real]; positivity
  · simp only [model_real]; exact h1 n (Finset.mem_Icc.2 (by omega)) m (Finset.mem_Icc.2 (by omega))
  · simp only [model_real]; positivity

theorem equibiaxial_2_val {κ : ℝ} {N : ℕ} {model : BucheSilberstein ℝ} (hN : 0 < N) (hκ : 0 < κ)
    (h : BucheSilberstein.init 2 κ N = some model) {s : ℝ} (hs : 0 < s)
    (h1 : ∀ n ∈ Finset.Icc 1 256, ∀ m ∈ Finset.Icc 1 256, restLength (1 / s ^ 2) (node n) (node m) ≠ 1) :
    (hyperelasticVal model).equibiaxial_tension (.val s) = (model.equibiaxial_tension s).map SReal.val := by
  have hn := norm_pos h
  obtain ⟨eg, hm, ek, eN⟩ := model_grid h
  unfold BucheSilberstein.equibiaxial_tension hyperelastic.buche_silberstein.equibiaxial_tension
  simp only [hyperelasticVal, hm, ek, eN, Option.map_some, Option.some.injEq]
  refine (Is.div (?_ : Is _ _) (.val _) hn : Is _ _)
  refine double_val (F := fun e z r => (-e) / Elem.exp (chainEnergy N κ (Elem.sqrt (Elem.powi (z * Elem.powi s 2) 2 + Elem.powi (r / s) 2))))
    (F' := fun e z r => (-e) / Elem.exp (efjc.thermodynamics.isometric.asymptotic.reduced.legendre.nondimensional_relative_helmholtz_free_energy
      N (.val κ) (Elem.sqrt (Elem.powi (z * Elem.powi (.val s) 2) 2 + Elem.powi (r / .val s) 2))))
    fun e z hz r hr => ?_
  rw [eg] at hz hr
  obtain ⟨n, hn, hn0, rfl⟩ := mem_grid hz
  obtain ⟨m, hm, hm0, rfl⟩ := mem_grid hr
  have hz := node_pos' hn0 hn
  have hr := node_pos' hm0 hm
  have hL : Is (Elem.sqrt (Elem.powi (.val (node n) * Elem.powi (.val s) 2) 2 + Elem.powi (.val (node m) / .val s) 2))
      (Elem.sqrt (Elem.powi (node n * Elem.powi s 2) 2 + Elem.powi (node m / s) 2)) := by
    refine .sqrt (.add (.powi_ofNat (.mul (.val _) (.powi_ofNat (.val _)))) (.powi_ofNat (.div (.val _) (.val _) hs.ne'))) ?_
    simp only [model_real]; positivity
  rw [Is] at hL
  simp only [hL]
  refine (?_ : Is _ _)
  refine .div (.neg (.val _)) (.exp (chainEnergy_val hN hκ ?_ ?_)) ?_
  · simp only [model_real]; positivity
  · simp only [model_real]
    convert h1 n (Finset.mem_Icc.2 (by omega)) m (Finset.mem_Icc.2 (by omega)) using 2
    rw [restLength]
    congr 1
    field_simp
  · simp only [model_real]; positivity

/-- C81: the hyperelastic model with Gaussian chains (method 3) can be made for all parameters, and returns a number, the
stress of the network, at every stretch. -/
theorem C81_hyperelastic_gaussian {κ : ℝ} {N : ℕ} (hN : 0 < N) (hκ : 0 < κ) :
    ∃ model : BucheSilberstein SReal, BucheSilberstein.init 3 (.val κ) N = some model ∧ ∀ s, 0 < s →
      model.uniaxial_tension (.val s) = some (.val (networkStress tanhRule N (chainForce κ) fun z r =>
        density tanhRule (gaussianExponent N (meanSquareLink κ)) (restLength s z r))) ∧
      model.equibiaxial_tension (.val s) = some (.val (-networkStress tanhRule N (chainForce κ) fun z r =>
        density tanhRule (gaussianExponent N (meanSquareLink κ)) √((z * s ^ 2) ^ 2 + (r / s) ^ 2))) := by
  obtain ⟨model, h⟩ := init_some (method := 3) (κ := κ) (N := N) (.inr rfl)
  refine ⟨hyperelasticVal model, by rw [init_val hN hκ, h]; rfl, fun s hs => ?_⟩
  obtain ⟨e1, e2⟩ := uniaxial_3_val hκ h hs
  rw [e1, e2, C78_uniaxial hκ h hs, C78_equibiaxial hκ h hs]
  exact ⟨rfl, rfl⟩

/-- C81, concrete case: chains of eight links at twice the length. -/
example : ∃ model : BucheSilberstein SReal, BucheSilberstein.init 3 (.val 50) 8 = some model ∧
    ∃ r, model.uniaxial_tension (.val 2) = some (.val r) := by
  obtain ⟨model, h, h'⟩ := C81_hyperelastic_gaussian (κ := 50) (N := 8) (by norm_num) (by norm_num)
  exact ⟨model, h, _, (h' 2 (by norm_num)).1⟩

/-- C81: the hyperelastic model with chains of the free energy (method 2) can be made for all parameters, and returns a
number, the stress of the network, at every stretch at which no chain of the grid came from full extension. -/
theorem C81_hyperelastic_energy {κ : ℝ} {N : ℕ} (hN : 0 < N) (hκ : 0 < κ) :
    ∃ model : BucheSilberstein SReal, BucheSilberstein.init 2 (.val κ) N = some model ∧ ∀ s, 0 < s →
      ((∀ n ∈ Finset.Icc 1 256, ∀ m ∈ Finset.Icc 1 256, restLength s (Real.artanh ((n : ℕ) / 257)) (Real.artanh ((m : ℕ) / 257)) ≠ 1) →
        model.uniaxial_tension (.val s) = some (.val (networkStress tanhRule N (chainForce κ) fun z r =>
          density tanhRule (chainEnergy N κ) (restLength s z r)))) ∧
      ((∀ n ∈ Finset.Icc 1 256, ∀ m ∈ Finset.Icc 1 256, restLength (1 / s ^ 2) (Real.artanh ((n : ℕ) / 257)) (Real.artanh ((m : ℕ) / 257)) ≠ 1) →
        model.equibiaxial_tension (.val s) = some (.val (-networkStress tanhRule N (chainForce κ) fun z r =>
          density tanhRule (chainEnergy N κ) √((z * s ^ 2) ^ 2 + (r / s) ^ 2)))) := by
  obtain ⟨model, h⟩ := init_some (method := 2) (κ := κ) (N := N) (.inl rfl)
  refine ⟨hyperelasticVal model, by rw [init_val hN hκ, h]; rfl, fun s hs => ⟨fun h1 => ?_, fun h1 => ?_⟩⟩
  · rw [uniaxial_2_val hN hκ h hs h1, C78_uniaxial hκ h hs]
    rfl
  · rw [equibiaxial_2_val hN hκ h hs h1, C78_equibiaxial hκ h hs]
    rfl

/-- C81, concrete case: the undeformed material is such a stretch. -/
example : ∃ model : BucheSilberstein SReal, BucheSilberstein.init 2 (.val 50) 8 = some model ∧
    ∃ r, model.uniaxial_tension (.val 1) = some (.val r) := by
  obtain ⟨model, h, h'⟩ := C81_hyperelastic_energy (κ := 50) (N := 8) (by norm_num) (by norm_num)
  refine ⟨model, h, _, (h' 1 (by norm_num)).1 fun n hn m hm => ?_⟩
  rw [restLength, div_one, one_mul, Ne, Real.sqrt_eq_one]
  have := Finset.mem_Icc.1 hn
  have := Finset.mem_Icc.1 hm
  exact nodes_ne_one (by omega) (by omega)

/-- C81: where a chain of the grid came from full extension, the stress under method 2 is not a number. -/
theorem C81_hyperelastic_energy_undefined {κ : ℝ} {N : ℕ} (hN : 0 < N) (hκ : 0 < κ) {s : ℝ} (hs : 0 < s)
    (h1 : ∃ n ∈ Finset.Icc 1 256, ∃ m ∈ Finset.Icc 1 256,
      restLength s (Real.artanh ((n : ℕ) / 257)) (Real.artanh ((m : ℕ) / 257)) = 1) :
    ∃ model : BucheSilberstein SReal, BucheSilberstein.init 2 (.val κ) N = some model ∧
      ∃ x, model.uniaxial_tension (.val s) = some x ∧ NotNumber x := by
  obtain ⟨n, hn, m, hm, h1⟩ := h1
  rw [Finset.mem_Icc] at hn hm
  obtain ⟨model, h⟩ := init_some (method := 2) (κ := κ) (N := N) (.inl rfl)
  obtain ⟨eg, hm', ek, eN⟩ := model_grid h
  have ee : model.element = element κ N := by
    unfold BucheSilberstein.init hyperelastic.buche_silberstein.init at h
    simp only [Option.map_some, Option.some.injEq] at h
    subst h; rfl
  refine ⟨hyperelasticVal model, by rw [init_val hN hκ, h]; rfl, ?_⟩
  unfold BucheSilberstein.uniaxial_tension hyperelastic.buche_silberstein.uniaxial_tension
  simp only [hyperelasticVal, hm', ek, eN, Option.some.injEq, exists_eq_left']
  refine .div_left ?_ _
  rw [eg, ee, hyperelastic_element, hyperelastic_grid]
  simp only [List.map_map, Function.comp_def]
  refine NotNumber.double (i := n - 1) (j := m - 1) (F := fun e z r => e / Elem.exp
    (efjc.thermodynamics.isometric.asymptotic.reduced.legendre.nondimensional_relative_helmholtz_free_energy
      N (.val κ) (Elem.sqrt (Elem.powi (z / .val s) 2 + .val s * Elem.powi r 2))))
    (List.mem_range.2 (by omega)) (List.mem_range.2 (by omega)) ?_
  refine .div_right (.exp ?_) _
  have e1 : ∀ n : ℕ, 1 ≤ n → (((n - 1 : ℕ) : ℝ) + 1) = n := fun n hn => by push_cast [Nat.cast_sub hn]; ring
  rw [e1 n hn.1, e1 m hm.1, div_val _ hs.ne', powi_val_ofNat, powi_val_ofNat, mul_val, add_val,
    sqrt_val (add_nonneg (sq_nonneg _) (mul_nonneg hs.le (sq_nonneg _)))]
  exact energy_not_number hκ h1

/-- C81: there is such a stretch between one and two, whatever the parameters. -/
theorem C81_hyperelastic_energy_stretch {κ : ℝ} {N : ℕ} (hN : 0 < N) (hκ : 0 < κ) :
    ∃ s, 1 < s ∧ s < 2 ∧ ∃ model : BucheSilberstein SReal, BucheSilberstein.init 2 (.val κ) N = some model ∧
      ∃ x, model.uniaxial_tension (.val s) = some x ∧ NotNumber x := by
  have hb := node_bounds (n := 150) (by norm_num)
  obtain ⟨s, hs, h⟩ : ∃ s ∈ Set.Ioo (1:ℝ) 2, restLength s (node 150) (node 150) = 1 := by
    have e1 : (nodeLo 150 : ℝ) = 667992099 := by exact_mod_cast (by decide : nodeLo 150 = 667992099)
    have e2 : (nodeUp 150 : ℝ) = 667992251 := by exact_mod_cast (by decide : nodeUp 150 = 667992251)
    rw [e1, e2] at hb
    have hc : ContinuousOn (fun s => restLength s (node 150) (node 150)) (Set.Icc 1 2) := by
      unfold restLength
      refine ContinuousOn.sqrt (.add (.pow (continuousOn_const.div continuousOn_id fun x hx => ?_) 2)
        (continuousOn_id.mul continuousOn_const))
      have := hx.1
      simp only [id]
      linarith
    refine intermediate_value_Ioo (by norm_num) hc ⟨?_, ?_⟩
    · rw [restLength, Real.sqrt_lt' one_pos]
      nlinarith [hb.1, hb.2]
    · rw [restLength, Real.lt_sqrt (by norm_num)]
      nlinarith [hb.1, hb.2]
  have hs0 : 0 < s := by linarith [hs.1]
  exact ⟨s, hs.1, hs.2, C81_hyperelastic_energy_undefined hN hκ hs0
    ⟨150, by decide, 150, by decide, h⟩⟩

end hyperelastic

section damage
open hyperelastic_damage.buche_silberstein

/-- The model over the reals, with its numbers seen as defined ones. -/
def damageVal (m : BucheSilberstein ℝ) : BucheSilberstein SReal :=
  { element := m.element.map fun row => row.map SReal.val, factor := .val m.factor, grid := m.grid.map SReal.val,
    method := m.method, normalization := .val m.normalization,
    nondimensional_critical_extension := .val m.nondimensional_critical_extension,
    nondimensional_link_stiffness := .val m.nondimensional_link_stiffness, number_of_links := m.number_of_links,
    swelling_ratio := .val m.swelling_ratio }

theorem damage_grid_val (c : ℝ) : grid (SReal.val c) = (grid c).map SReal.val := by
  simp only [grid, from_fn, List.map_map]
  refine List.map_congr_left fun i _ => ?_
  refine (Is.div (.mul (.val _) (.natCast rfl)) (.natCast rfl) ?_ : Is _ _)
  norm_num [NUMGRID]

theorem damage_spacing_val (c : ℝ) : Is (spacing ((grid c).map SReal.val)) (spacing (grid c)) := by
  have h : ∀ i < 256, ((grid c).map SReal.val).getD i Elem.panic = .val ((grid c).getD i Elem.panic) := by
    intro i hi
    rw [damage_grid, List.getD_eq_getElem?_getD, List.getD_eq_getElem?_getD, List.getElem?_map, List.getElem?_map,
      List.getElem?_range hi]
    rfl
  rw [spacing, h 1 (by norm_num), h 0 (by norm_num), sub_val]
  rfl

theorem mem_damage_grid {c x : ℝ} (h : x ∈ grid c) : ∃ n ∈ Finset.Icc 1 256, x = c * (n : ℕ) / 256 := by
  rw [damage_grid, List.mem_map] at h
  obtain ⟨i, hi, rfl⟩ := h
  have := List.mem_range.1 hi
  exact ⟨i + 1, Finset.mem_Icc.2 (by omega), by simp⟩

theorem damage_mem_pos {c x : ℝ} (hc : 0 < c) (h : x ∈ grid c) : 0 < x := by
  obtain ⟨n, hn, rfl⟩ := mem_damage_grid h
  have := (Finset.mem_Icc.1 hn).1
  have : (0:ℝ) < n := by exact_mod_cast this
  positivity

theorem damage_element_val {c κ J : ℝ} (hc : 0 < c) (hκ : 0 < κ) (hJ : 0 < J) (N : ℕ)
    (h1 : ∀ n ∈ Finset.Icc 1 256, ∀ m ∈ Finset.Icc 1 256, (c * (n : ℕ) / 256) ^ 2 + (c * (m : ℕ) / 256) ^ 2 ≠ 1) :
    element (SReal.val c) (.val κ) N (.val J) = (element c κ N J).map fun row => row.map SReal.val := by
  unfold element
  rw [damage_grid_val]
  simp only [List.map_map]
  refine List.map_congr_left fun z hz => ?_
  simp only [Function.comp, List.map_map]
  refine List.map_congr_left fun r hr => ?_
  have hz0 := damage_mem_pos hc hz
  have hr0 := damage_mem_pos hc hr
  obtain ⟨n, hn, ez⟩ := mem_damage_grid hz
  obtain ⟨m, hm, er⟩ := mem_damage_grid hr
  refine (?_ : Is _ _)
  refine .div (.mul (element_numerator_val hκ hz0 hr0 ?_) (.powi_ofNat (damage_spacing_val c))) (.powi_ofNat (.val _)) ?_
  · rw [ez, er]; exact h1 n hn m hm
  · simp only [model_real]; positivity

theorem damage_normalization_val {c J : ℝ} (hJ : 0 < J) {A' : SReal → SReal} {A : ℝ → ℝ}
    (h : ∀ x ∈ grid c, Is (A' (.val x)) (A x)) :
    Is (fsum (((grid c).map SReal.val).map fun g => Elem.powi g 2 / Elem.exp (A' g)) * 4.0 * (Elem.pi : SReal)
        * spacing ((grid c).map SReal.val) / .val J)
      (fsum ((grid c).map fun g => Elem.powi g 2 / Elem.exp (A g)) * 4.0 * (Elem.pi : ℝ) * spacing (grid c) / J) := by
  refine .div (.mul (.mul (.mul ?_ (.lit _ _ _)) .pi) (damage_spacing_val c)) (.val _) hJ.ne'
  rw [List.map_map]
  refine Is.fsum_map fun x hx => ?_
  simp only [Function.comp]
  refine .div (.powi_ofNat (.val _)) (.exp (h x hx)) ?_
  simp only [model_real]; positivity

theorem damage_init_val {method : ℕ} {c κ J : ℝ} {N : ℕ} (hc : 0 < c) (hN : 0 < N) (hκ : 0 < κ) (hJ : 0 < J)
    (h1 : ∀ n ∈ Finset.Icc 1 256, ∀ m ∈ Finset.Icc 1 256, (c * (n : ℕ) / 256) ^ 2 + (c * (m : ℕ) / 256) ^ 2 ≠ 1)
    (h2 : method = 2 → ∀ n ∈ Finset.Icc 1 256, c * (n : ℕ) / 256 ≠ 1) :
    BucheSilberstein.init method (SReal.val c) (.val κ) N (.val J) =
      (BucheSilberstein.init method c κ N J).map damageVal := by
  unfold BucheSilberstein.init hyperelastic_damage.buche_silberstein.init
  split
  · rfl
  · have hZ := damage_normalization_val (c := c) hJ (A := chainEnergy N κ) fun x hx =>
      chainEnergy_val hN hκ (damage_mem_pos hc hx) (by
        obtain ⟨n, hn, rfl⟩ := mem_damage_grid hx
        exact h2 rfl n hn)
    rw [Is] at hZ
    simp only [Option.map_some, damageVal, damage_element_val hc hκ hJ N h1, damage_grid_val, hZ]
    rw [show (0.0 : SReal) = .val 0.0 from lit_val _ _ _]
  · have hf := method_3_factor_val (N := N) hκ
    have hZ := damage_normalization_val (c := c) hJ (A := fun x => method_3_factor κ N * Elem.powi x 2)
      (A' := fun x => method_3_factor (.val κ) N * Elem.powi x 2) fun x hx =>
      .mul hf (.powi_ofNat (.val _))
    rw [Is] at hZ hf
    simp only [Option.map_some, damageVal, damage_element_val hc hκ hJ N h1, damage_grid_val, hZ]
    rw [hf]
  · rfl

theorem survives_val {c s m z r : ℝ} (hs : 0 < s) (hm : 0 < m) :
    Is (survives (.val c) (.val s) (.val m) (.val z) (.val r)) (survives c s m z r) := by
  have hL : Is (Elem.sqrt (Elem.powi (SReal.val z * .val m / .val s) 2 + .val s / .val m * Elem.powi (.val r) 2))
      (Elem.sqrt (Elem.powi (z * m / s) 2 + s / m * Elem.powi r 2)) := by
    refine .sqrt (.add (.powi_ofNat (.div (.mul (.val _) (.val _)) (.val _) hs.ne'))
      (.mul (.div (.val _) (.val _) hm.ne') (.powi_ofNat (.val _)))) ?_
    simp only [model_real]; positivity
  rw [Is] at hL
  unfold survives
  rw [hL]
  refine .natCast ?_
  have e : ∀ a : ℝ, (Elem.le (SReal.val a) (.val c) = true) = (Elem.le a c = true) := fun a => by
    rw [SReal.le_val, elem_le]
  simp only [e]

theorem damage_norm_pos {method : ℕ} {c κ J : ℝ} {N : ℕ} {model : BucheSilberstein ℝ} (hc : 0 < c) (hJ : 0 < J)
    (h : BucheSilberstein.init method c κ N J = some model) : model.normalization ≠ 0 := by
  have h1 := (C45_init_method method c κ N J).1 (by rw [h]; rfl)
  unfold BucheSilberstein.init hyperelastic_damage.buche_silberstein.init at h
  have hp : ∀ A : ℝ → ℝ, 0 < 4 * Real.pi * (endRule c fun x => x ^ 2 * Real.exp (-A x)) / J := fun A =>
    div_pos (mul_pos (by positivity) (endRule_pos hc fun x hx => by positivity)) hJ
  rcases h1 with rfl | rfl
  · simp only [Option.map_some, Option.some.injEq] at h
    subst h
    simp only [model_real]
    have := end_normalization c J (chainEnergy N κ) _ fun x => rfl
    exact (this.trans_ne (hp _).ne')
  · simp only [Option.map_some, Option.some.injEq] at h
    subst h
    simp only [model_real]
    have := end_normalization c J (fun x => method_3_factor κ N * x ^ 2) _ fun x => rfl
    exact (this.trans_ne (hp _).ne')

theorem damage_fields {method : ℕ} {c κ J : ℝ} {N : ℕ} {model : BucheSilberstein ℝ}
    (h : BucheSilberstein.init method c κ N J = some model) :
    model.grid = grid c ∧ model.method = method ∧ model.nondimensional_link_stiffness = κ ∧ model.number_of_links = N ∧
      model.swelling_ratio = J ∧ model.nondimensional_critical_extension = c := by
  have h1 := (C45_init_method method c κ N J).1 (by rw [h]; rfl)
  unfold BucheSilberstein.init hyperelastic_damage.buche_silberstein.init at h
  rcases h1 with rfl | rfl <;>
  · simp only [Option.map_some, Option.some.injEq] at h
    subst h; exact ⟨rfl, rfl, rfl, rfl, rfl, rfl⟩

/-- The sums of the code with weights which are numbers. -/
theorem damage_sums_val {c J s m Z : ℝ} {E : List (List ℝ)} (hJ : 0 < J) (hs : 0 < s) (hm : 0 < m) (hZ : Z ≠ 0)
    {W' : SReal → SReal → SReal} {W : ℝ → ℝ → ℝ} (hW : ∀ z ∈ grid c, ∀ r ∈ grid c, Is (W' (.val z) (.val r)) (W z r) ∧ W z r ≠ 0) :
    Is (fsum (((E.map fun row => row.map SReal.val).zip ((grid c).map SReal.val)).flatMap fun ez =>
      (ez.1.zip ((grid c).map SReal.val)).map fun er =>
        er.1 / W' ez.2 er.2 * survives (.val c) (.val s) (.val m) ez.2 er.2) / .val Z)
      (fsum ((E.zip (grid c)).flatMap fun ez =>
      (ez.1.zip (grid c)).map fun er => er.1 / W ez.2 er.2 * survives c s m ez.2 er.2) / Z) ∧
    Is (fsum (((grid c).map SReal.val).flatMap fun z => ((grid c).map SReal.val).map fun r =>
        r / W' z r * survives (.val c) (.val s) (.val m) z r) / .val Z * 4.0 * (Elem.pi : SReal)
        * Elem.powi (spacing ((grid c).map SReal.val) / .val J) 2)
      (fsum ((grid c).flatMap fun z => (grid c).map fun r =>
        r / W z r * survives c s m z r) / Z * 4.0 * (Elem.pi : ℝ) * Elem.powi (spacing (grid c) / J) 2) := by
  constructor
  · refine .div (?_ : Is _ _) (.val _) hZ
    refine double_val (F := fun e z r => e / W z r * survives c s m z r)
      (F' := fun e z r => e / W' z r * survives (.val c) (.val s) (.val m) z r) fun e z hz r hr => ?_
    refine (?_ : Is _ _)
    exact .mul (.div (.val _) (hW z hz r hr).1 (hW z hz r hr).2) (survives_val hs hm)
  · refine .mul (.mul (.mul (.div (?_ : Is _ _) (.val _) hZ) (.lit _ _ _)) .pi) (.powi_ofNat (.div (damage_spacing_val c) (.val _) hJ.ne'))
    refine double_grid_val (F := fun z r => r / W z r * survives c s m z r)
      (F' := fun z r => r / W' z r * survives (.val c) (.val s) (.val m) z r) fun z hz r hr => ?_
    refine (?_ : Is _ _)
    exact .mul (.div (.val _) (hW z hz r hr).1 (hW z hz r hr).2) (survives_val hs hm)

/-- The pair of stress and total probability at one stretch, with the largest stretch so far. -/
noncomputable abbrev damagePointVal (model : BucheSilberstein SReal) (stretch largest : SReal) : Option (SReal × SReal) :=
  hyperelastic_damage.buche_silberstein.uniaxial_tension model.element model.factor model.grid model.normalization
    model.method model.nondimensional_critical_extension model.nondimensional_link_stiffness model.number_of_links
    model.swelling_ratio stretch largest

theorem damage_point_val {method : ℕ} {c κ J : ℝ} {N : ℕ} {model : BucheSilberstein ℝ} (hc : 0 < c) (hN : 0 < N)
    (hκ : 0 < κ) (hJ : 0 < J) (h : BucheSilberstein.init method c κ N J = some model) {s m : ℝ} (hm : 0 < m)
    (h1 : method = 2 → 1 ≤ s → ∀ i ∈ Finset.Icc 1 256, ∀ j ∈ Finset.Icc 1 256,
      restLength s (c * (i : ℕ) / 256) (c * (j : ℕ) / 256) ≠ 1) :
    damagePointVal (damageVal model) (.val s) (.val m) = (damagePoint model s m).map (Prod.map SReal.val SReal.val) := by
  have hn := damage_norm_pos hc hJ h
  obtain ⟨eg, hm', ek, eN, eJ, ec⟩ := damage_fields h
  have hmeth := (C45_init_method method c κ N J).1 (by rw [h]; rfl)
  unfold damagePointVal damagePoint hyperelastic_damage.buche_silberstein.uniaxial_tension
  simp only [damageVal, hm', ek, eN, eg, eJ, ec]
  have e : (Elem.le (1.0 : SReal) (.val s) = true) = (Elem.le (1.0 : ℝ) s = true) := by
    rw [SReal.lit_val, SReal.le_val, elem_le]
  by_cases hs : Elem.le (1.0 : ℝ) s = true
  swap
  · rw [if_neg (e ▸ hs), if_neg hs]; rfl
  rw [if_pos (e ▸ hs), if_pos hs]
  have hs1 : 1 ≤ s := by rw [elem_le] at hs; norm_num at hs; exact hs
  have hs0 : 0 < s := by linarith
  rcases hmeth with rfl | rfl
  · simp only [Option.map_some, Prod.map, Option.some.injEq, Prod.mk.injEq]
    refine damage_sums_val (c := c) (W := fun z r => Elem.exp (chainEnergy N κ (Elem.sqrt (Elem.powi (z / s) 2 + s * Elem.powi r 2))))
      (W' := fun z r => Elem.exp (efjc.thermodynamics.isometric.asymptotic.reduced.legendre.nondimensional_relative_helmholtz_free_energy
      N (.val κ) (Elem.sqrt (Elem.powi (z / .val s) 2 + .val s * Elem.powi r 2)))) hJ hs0 hm hn fun z hz r hr => ⟨?_, ?_⟩
    · have hz0 := damage_mem_pos hc hz
      have hr0 := damage_mem_pos hc hr
      obtain ⟨i, hi, ez⟩ := mem_damage_grid hz
      obtain ⟨j, hj, er⟩ := mem_damage_grid hr
      have hL : Is (Elem.sqrt (Elem.powi (.val z / .val s) 2 + .val s * Elem.powi (.val r) 2))
          (Elem.sqrt (Elem.powi (z / s) 2 + s * Elem.powi r 2)) := by
        refine .sqrt (.add (.powi_ofNat (.div (.val _) (.val _) hs0.ne')) (.mul (.val _) (.powi_ofNat (.val _)))) ?_
        simp only [model_real]; positivity
      rw [Is] at hL
      rw [hL]
      refine .exp (chainEnergy_val hN hκ ?_ ?_)
      · simp only [model_real]; positivity
      · simp only [model_real]; rw [ez, er]; exact h1 rfl hs1 i hi j hj
    · simp only [model_real]; positivity
  · simp only [Option.map_some, Prod.map, Option.some.injEq, Prod.mk.injEq]
    refine damage_sums_val (c := c) (W := fun z r => Elem.exp (model.factor * (Elem.powi (z / s) 2 + s * Elem.powi r 2) /
        Elem.powi (Elem.powf J (1.0 / 3.0)) 2))
      (W' := fun z r => Elem.exp (.val model.factor * (Elem.powi (z / .val s) 2 + .val s * Elem.powi r 2) /
        Elem.powi (Elem.powf (.val J) (1.0 / 3.0)) 2)) hJ hs0 hm hn fun z hz r hr => ⟨?_, ?_⟩
    · have hz0 := damage_mem_pos hc hz
      have hr0 := damage_mem_pos hc hr
      refine .exp (.div (.mul (.val _) (.add (.powi_ofNat (.div (.val _) (.val _) hs0.ne')) (.mul (.val _) (.powi_ofNat (.val _)))))
        (.powi_ofNat (.powf (.val _) (.div (.lit _ _ _) (.lit _ _ _) (by norm_num)) hJ)) ?_)
      simp only [model_real]
      positivity
    · simp only [model_real]; positivity

theorem damage_loop_val {model : BucheSilberstein ℝ} {hist : List ℝ} {m : ℝ} (hm : 0 < m)
    (hp : ∀ s ∈ hist, ∀ m, 0 < m →
      damagePointVal (damageVal model) (.val s) (.val m) = (damagePoint model s m).map (Prod.map SReal.val SReal.val)) :
    (damageVal model).uniaxial_tension_loop (.val m) (hist.map SReal.val) =
      (model.uniaxial_tension_loop m hist).map fun out => out.map (Prod.map SReal.val SReal.val) := by
  induction hist generalizing m with
  | nil => rfl
  | cons s hist ih =>
    rw [List.map_cons, BucheSilberstein.uniaxial_tension_loop, BucheSilberstein.uniaxial_tension_loop]
    have e : (if Elem.lt (SReal.val m) (.val s) = true then SReal.val s else .val m) =
        .val (if Elem.lt m s = true then s else m) := by
      have : (Elem.lt (SReal.val m) (.val s) = true) = (Elem.lt m s = true) := by rw [SReal.lt_val, elem_lt]
      simp only [this]
      split_ifs <;> rfl
    have hm' : 0 < (if Elem.lt m s = true then s else m) := by
      split_ifs with hlt
      · rw [elem_lt] at hlt; linarith
      · exact hm
    simp only [e]
    generalize (if Elem.lt m s = true then s else m) = m' at hm' ⊢
    have h1 := hp s (List.mem_cons_self ..) m' hm'
    unfold damagePointVal damagePoint at h1
    rw [h1]
    rw [ih hm' fun s hs m hm => hp s (List.mem_cons_of_mem _ hs) m hm]
    cases hyperelastic_damage.buche_silberstein.uniaxial_tension model.element model.factor model.grid model.normalization
      model.method model.nondimensional_critical_extension model.nondimensional_link_stiffness model.number_of_links
      model.swelling_ratio s m' with
    | none => rfl
    | some o =>
      cases model.uniaxial_tension_loop m' hist <;> rfl

theorem damage_tension_val {model : BucheSilberstein ℝ} {L : ℕ} {hist : List ℝ}
    (hp : ∀ s ∈ hist.take L, ∀ m, 0 < m →
      damagePointVal (damageVal model) (.val s) (.val m) = (damagePoint model s m).map (Prod.map SReal.val SReal.val)) :
    (damageVal model).uniaxial_tension L (hist.map SReal.val) =
      (model.uniaxial_tension L hist).map fun out => out.map (Prod.map SReal.val SReal.val) := by
  unfold BucheSilberstein.uniaxial_tension
  rw [List.length_map]
  split_ifs
  · rfl
  · rw [← List.map_take, show (1.0 : SReal) = .val 1.0 from lit_val _ _ _]
    exact damage_loop_val (by norm_num) hp

/-- C81: the damage model with Gaussian chains (method 3) can be made for all parameters for which no chain of the grid is
at full extension, and then returns numbers for every history, those of the model over the reals. -/
theorem C81_damage_gaussian {c κ J : ℝ} {N : ℕ} (hc : 0 < c) (hN : 0 < N) (hκ : 0 < κ) (hJ : 0 < J)
    (h1 : ∀ i ∈ Finset.Icc 1 256, ∀ j ∈ Finset.Icc 1 256, (c * (i : ℕ) / 256) ^ 2 + (c * (j : ℕ) / 256) ^ 2 ≠ 1)
    {model : BucheSilberstein ℝ} (h : BucheSilberstein.init 3 c κ N J = some model) :
    ∃ model' : BucheSilberstein SReal, BucheSilberstein.init 3 (.val c) (.val κ) N (.val J) = some model' ∧
      ∀ L (hist : List ℝ), model'.uniaxial_tension L (hist.map SReal.val) =
        (model.uniaxial_tension L hist).map fun out => out.map (Prod.map SReal.val SReal.val) := by
  refine ⟨damageVal model, by rw [damage_init_val hc hN hκ hJ h1 (by norm_num), h]; rfl, fun L hist => ?_⟩
  exact damage_tension_val fun s _ m hm => damage_point_val hc hN hκ hJ h hm (by norm_num)

/-- C81: the damage model with chains of the free energy (method 2) can be made for all parameters for which neither the
chains of the grid nor those of its axis are at full extension, and then returns numbers for every history in which no chain
of the grid came from full extension. -/
theorem C81_damage_energy {c κ J : ℝ} {N : ℕ} (hc : 0 < c) (hN : 0 < N) (hκ : 0 < κ) (hJ : 0 < J)
    (h1 : ∀ i ∈ Finset.Icc 1 256, ∀ j ∈ Finset.Icc 1 256, (c * (i : ℕ) / 256) ^ 2 + (c * (j : ℕ) / 256) ^ 2 ≠ 1)
    (h2 : ∀ i ∈ Finset.Icc 1 256, c * (i : ℕ) / 256 ≠ 1)
    {model : BucheSilberstein ℝ} (h : BucheSilberstein.init 2 c κ N J = some model) :
    ∃ model' : BucheSilberstein SReal, BucheSilberstein.init 2 (.val c) (.val κ) N (.val J) = some model' ∧
      ∀ L (hist : List ℝ), (∀ s ∈ hist.take L, 1 ≤ s → ∀ i ∈ Finset.Icc 1 256, ∀ j ∈ Finset.Icc 1 256,
          restLength s (c * (i : ℕ) / 256) (c * (j : ℕ) / 256) ≠ 1) →
        model'.uniaxial_tension L (hist.map SReal.val) =
          (model.uniaxial_tension L hist).map fun out => out.map (Prod.map SReal.val SReal.val) := by
  refine ⟨damageVal model, by rw [damage_init_val hc hN hκ hJ h1 fun _ => h2, h]; rfl, fun L hist h3 => ?_⟩
  exact damage_tension_val fun s hs m hm => damage_point_val hc hN hκ hJ h hm fun _ => h3 s hs

/-- C81, concrete case: a network with a critical extension of 1.5, with both methods.  Nine times a
sum of squares would be the square of 512, which is no multiple of three. -/
example : ∀ i ∈ Finset.Icc 1 256, ∀ j ∈ Finset.Icc 1 256,
    ((3 / 2 : ℝ) * (i : ℕ) / 256) ^ 2 + ((3 / 2 : ℝ) * (j : ℕ) / 256) ^ 2 ≠ 1 := by
  intro i hi j hj h
  have h' : (9 : ℝ) * (i ^ 2 + j ^ 2) = 512 ^ 2 := by
    field_simp at h
    linarith
  have h'' : 9 * (i ^ 2 + j ^ 2) = 512 ^ 2 := by exact_mod_cast h'
  omega

example : ∀ i ∈ Finset.Icc 1 256, (3 / 2 : ℝ) * (i : ℕ) / 256 ≠ 1 := by
  intro i hi h
  have h' : (3 : ℝ) * i = 512 := by
    field_simp at h
    linarith
  have h'' : 3 * i = 512 := by exact_mod_cast h'
  omega

theorem damage_loop_mem {model : BucheSilberstein SReal} {P : SReal × SReal → Prop}
    (hp : ∀ s m o, damagePointVal model s m = some o → P o) {hist : List SReal} {m : SReal} {out : List (SReal × SReal)}
    (ho : model.uniaxial_tension_loop m hist = some out) : ∀ o ∈ out, P o := by
  induction hist generalizing m out with
  | nil =>
    rw [BucheSilberstein.uniaxial_tension_loop, Option.some.injEq] at ho
    subst ho
    simp
  | cons s hist ih =>
    rw [BucheSilberstein.uniaxial_tension_loop] at ho
    rw [Option.bind_eq_some_iff] at ho
    obtain ⟨o, h1, h2⟩ := ho
    rw [Option.map_eq_some_iff] at h2
    obtain ⟨outs, h3, rfl⟩ := h2
    intro o' ho'
    rcases List.mem_cons.1 ho' with rfl | h4
    · exact hp _ _ _ h1
    · exact ih h3 _ h4

theorem damage_mem {model : BucheSilberstein SReal} {P : SReal × SReal → Prop}
    (hp : ∀ s m o, damagePointVal model s m = some o → P o) {L : ℕ} {hist : List SReal} {out : List (SReal × SReal)}
    (ho : model.uniaxial_tension L hist = some out) : ∀ o ∈ out, P o := by
  unfold BucheSilberstein.uniaxial_tension at ho
  split_ifs at ho
  exact damage_loop_mem hp ho

theorem damage_grid_range (c : ℝ) :
    (grid c).map SReal.val = (List.range 256).map fun (i : ℕ) => SReal.val (c * ((i : ℝ) + 1) / 256) := by
  rw [damage_grid, List.map_map]
  rfl

theorem damage_point_not_number {element : List (List SReal)} {factor : SReal} {grid : List SReal} {Z : SReal} {method : ℕ}
    {c κ : SReal} {N : ℕ} {J s m : SReal} {o : SReal × SReal}
    (ho : hyperelastic_damage.buche_silberstein.uniaxial_tension element factor grid Z method c κ N J s m = some o) :
    (∃ G : SReal → SReal → SReal → SReal, (∀ e z r, NotNumber e → NotNumber (G e z r)) ∧
      o.1 = fsum ((element.zip grid).flatMap fun ez => (ez.1.zip grid).map fun er => G er.1 ez.2 er.2) / Z) ∧
    (NotNumber Z → NotNumber o.1 ∧ NotNumber o.2) := by
  unfold hyperelastic_damage.buche_silberstein.uniaxial_tension at ho
  split_ifs at ho
  split at ho
  · cases ho
  · rw [Option.some.injEq] at ho
    subst ho
    exact ⟨⟨fun e z r => e / Elem.exp
        (efjc.thermodynamics.isometric.asymptotic.reduced.legendre.nondimensional_relative_helmholtz_free_energy
          N κ (Elem.sqrt (Elem.powi (z / s) 2 + s * Elem.powi r 2))) * survives c s m z r,
        fun e z r he => .mul_left (.div_left he _) _, rfl⟩,
      fun hZ => ⟨.div_right hZ _, .mul_left (.mul_left (.mul_left (.div_right hZ _) _) _) _⟩⟩
  · rw [Option.some.injEq] at ho
    subst ho
    exact ⟨⟨fun e z r => e / Elem.exp (factor * (Elem.powi (z / s) 2 + s * Elem.powi r 2) /
          Elem.powi (Elem.powf J (1.0 / 3.0)) 2) * survives c s m z r,
        fun e z r he => .mul_left (.div_left he _) _, rfl⟩,
      fun hZ => ⟨.div_right hZ _, .mul_left (.mul_left (.mul_left (.div_right hZ _) _) _) _⟩⟩
  · cases ho

theorem damage_init_some {method : ℕ} (hm : method = 2 ∨ method = 3) (c κ : SReal) (N : ℕ) (J : SReal) :
    ∃ model, BucheSilberstein.init method c κ N J = some model ∧ model.element = element c κ N J ∧ model.grid = grid c ∧
      model.method = method := by
  rcases hm with rfl | rfl <;> exact ⟨_, rfl, rfl, rfl, rfl⟩

/-- C81: when a chain of the grid is at full extension, no stress is a number, whatever the method and the history. -/
theorem C81_damage_undefined {method : ℕ} (hm : method = 2 ∨ method = 3) {c κ : ℝ} {N : ℕ} {J : SReal} (hκ : 0 < κ)
    (h1 : ∃ i ∈ Finset.Icc 1 256, ∃ j ∈ Finset.Icc 1 256, (c * (i : ℕ) / 256) ^ 2 + (c * (j : ℕ) / 256) ^ 2 = 1) :
    ∃ model : BucheSilberstein SReal, BucheSilberstein.init method (.val c) (.val κ) N J = some model ∧
      ∀ L hist out, model.uniaxial_tension L hist = some out → ∀ o ∈ out, NotNumber o.1 := by
  obtain ⟨i, hi, j, hj, h1⟩ := h1
  rw [Finset.mem_Icc] at hi hj
  have e1 : ∀ n : ℕ, 1 ≤ n → (((n - 1 : ℕ) : ℝ) + 1) = n := fun n hn => by push_cast [Nat.cast_sub hn]; ring
  have key : ∀ (Z : SReal) (G : SReal → SReal → SReal → SReal)
      (_ : ∀ e z r, NotNumber e → NotNumber (G e z r)),
      NotNumber (fsum (((element (.val c) (.val κ) N J).zip (grid (.val c))).flatMap fun ez =>
        (ez.1.zip (grid (.val c))).map fun er => G er.1 ez.2 er.2) / Z) := by
    intro Z G hG
    refine .div_left ?_ _
    rw [element, damage_grid_val, damage_grid_range]
    simp only [List.map_map, Function.comp_def]
    refine NotNumber.double (i := i - 1) (j := j - 1) (F := G) (List.mem_range.2 (by omega)) (List.mem_range.2 (by omega)) ?_
    refine hG _ _ _ (.div_left (.mul_left (element_numerator_not_number hκ ?_) _) _)
    rw [e1 i hi.1, e1 j hj.1, h1]
  obtain ⟨model, hi, he, hg, -⟩ := damage_init_some hm (.val c) (.val κ) N J
  refine ⟨model, hi, fun L hist out ho => damage_mem (P := fun o => NotNumber o.1) (fun s m o hp => ?_) ho⟩
  unfold damagePointVal at hp
  rw [he, hg] at hp
  obtain ⟨⟨G, hG, e⟩, -⟩ := damage_point_not_number hp
  rw [e]
  exact key _ G hG

/-- C81, concrete case: a critical extension of 1.28, by the nodes 120 and 160. -/
example : ∃ i ∈ Finset.Icc 1 256, ∃ j ∈ Finset.Icc 1 256,
    ((1.28 : ℝ) * (i : ℕ) / 256) ^ 2 + ((1.28 : ℝ) * (j : ℕ) / 256) ^ 2 = 1 :=
  ⟨120, by decide, 160, by decide, by norm_num⟩

/-- C81: when a multiple of the grid spacing is full extension, nothing that method 2 returns is a number. -/
theorem C81_damage_energy_undefined {c κ : ℝ} {N : ℕ} {J : SReal} (hκ : 0 < κ)
    (h1 : ∃ i ∈ Finset.Icc 1 256, c * (i : ℕ) / 256 = 1) :
    ∃ model : BucheSilberstein SReal, BucheSilberstein.init 2 (.val c) (.val κ) N J = some model ∧
      ∀ L hist out, model.uniaxial_tension L hist = some out → ∀ o ∈ out, NotNumber o.1 ∧ NotNumber o.2 := by
  obtain ⟨i, hi, h1⟩ := h1
  rw [Finset.mem_Icc] at hi
  have e1 : (((i - 1 : ℕ) : ℝ) + 1) = i := by push_cast [Nat.cast_sub hi.1]; ring
  have hZ : NotNumber (fsum ((grid (SReal.val c)).map fun gamma_i => Elem.powi gamma_i 2 / Elem.exp
      (efjc.thermodynamics.isometric.asymptotic.reduced.legendre.nondimensional_relative_helmholtz_free_energy N
        (.val κ) gamma_i)) * 4.0 * (Elem.pi : SReal) * spacing (grid (.val c)) / J) := by
    refine .div_left (.mul_left (.mul_left (.mul_left ?_ _) _) _) _
    rw [damage_grid_val, damage_grid_range, List.map_map]
    refine .fsum (x := _) (.div_right (.exp (energy_not_number (N := N) hκ h1)) (Elem.powi (SReal.val (c * i / 256)) 2)) ?_
    rw [List.mem_map]
    refine ⟨i - 1, List.mem_range.2 (by omega), ?_⟩
    simp only [Function.comp, e1]
  have hN : ∀ model : BucheSilberstein SReal, BucheSilberstein.init 2 (.val c) (.val κ) N J = some model →
      NotNumber model.normalization := by
    intro model h
    unfold BucheSilberstein.init hyperelastic_damage.buche_silberstein.init at h
    simp only [Option.map_some, Option.some.injEq] at h
    subst h
    exact hZ
  obtain ⟨model, hi, -⟩ := damage_init_some (.inl rfl) (.val c) (.val κ) N J
  refine ⟨model, hi, fun L hist out ho => damage_mem (P := fun o => NotNumber o.1 ∧ NotNumber o.2) (fun s m o hp => ?_) ho⟩
  exact (damage_point_not_number hp).2 (hN model hi)

/-- C81, concrete case: critical extensions of one and of two. -/
example : (∃ i ∈ Finset.Icc 1 256, (1 : ℝ) * (i : ℕ) / 256 = 1) ∧ ∃ i ∈ Finset.Icc 1 256, (2 : ℝ) * (i : ℕ) / 256 = 1 :=
  ⟨⟨256, by decide, by norm_num⟩, ⟨128, by decide, by norm_num⟩⟩

/-- C81: those histories exist: the undeformed material has a result, which is not a number. -/
example : ∃ (model : BucheSilberstein SReal) (out : List (SReal × SReal)),
    BucheSilberstein.init 2 (.val 1) (.val 50) 8 (.val 1) = some model ∧
      model.uniaxial_tension 1 [.val 1] = some out ∧ ∀ o ∈ out, NotNumber o.1 ∧ NotNumber o.2 := by
  obtain ⟨model, h, h'⟩ := C81_damage_energy_undefined (c := 1) (κ := 50) (N := 8) (J := .val 1) (by norm_num)
    ⟨256, by decide, by norm_num⟩
  have hs : (model.uniaxial_tension 1 [.val 1]).isSome := by
    have hm : model.method = 2 := by
      unfold BucheSilberstein.init hyperelastic_damage.buche_silberstein.init at h
      simp only [Option.map_some, Option.some.injEq] at h
      subst h; rfl
    have : Elem.le (1.0 : SReal) (.val 1) = true := by rw [lit_val, SReal.le_val]; norm_num
    rw [BucheSilberstein.uniaxial_tension, if_neg (by simp), List.take_succ_cons, List.take_zero,
      BucheSilberstein.uniaxial_tension_loop]
    simp only [hyperelastic_damage.buche_silberstein.uniaxial_tension, hm, this, if_true]
    rfl
  obtain ⟨out, ho⟩ := Option.isSome_iff_exists.1 hs
  exact ⟨model, out, h, ho, h' _ _ _ ho⟩

end damage

end Polymers.Props
