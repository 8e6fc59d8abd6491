import Verif.Props.Constitutive
import Verif.Spec.Network
import Verif.Lemmas.GaussianMoments

/-! Properties C78 and C79: the stresses of the constitutive models are the sums they stand for. -/

namespace Polymers.Props

open Polymers.Spec Polymers.Lemmas Polymers.constitutive Polymers.math Real

/-- The force of the extensible freely jointed chain which the constitutive models use. -/
noncomputable abbrev chainForce (κ γ : ℝ) : ℝ :=
  efjc.thermodynamics.isometric.asymptotic.reduced.legendre.nondimensional_force κ γ

/-- The free energy of the extensible freely jointed chain which the constitutive models use. -/
noncomputable abbrev chainEnergy (N : ℕ) (κ γ : ℝ) : ℝ :=
  efjc.thermodynamics.isometric.asymptotic.reduced.legendre.nondimensional_relative_helmholtz_free_energy N κ γ

theorem zip_sum (n : ℕ) (x u : ℕ → ℝ) (F : ℝ → ℝ → ℝ) :
    ((((List.range n).map x).zip ((List.range n).map u)).map fun p => F p.1 p.2).sum =
      ∑ i ∈ Finset.range n, F (x i) (u i) := by
  rw [List.zip_map', List.map_map, ← list_sum_map_range]
  rfl

theorem double_sum (n : ℕ) (e : ℕ → ℕ → ℝ) (x : ℕ → ℝ) (F : ℝ → ℝ → ℝ → ℝ) :
    ((((List.range n).map fun i => (List.range n).map (e i)).zip ((List.range n).map x)).flatMap fun ez =>
      (ez.1.zip ((List.range n).map x)).map fun er => F er.1 ez.2 er.2).sum =
      ∑ i ∈ Finset.range n, ∑ j ∈ Finset.range n, F (e i j) (x i) (x j) := by
  rw [List.zip_map', List.flatMap_map]
  simp only [List.zip_map', List.map_map]
  have := fsum_flatMap (List.range n) (List.range n) fun i j => F (e i j) (x i) (x j)
  rw [fsum_eq] at this
  refine Eq.trans ?_ (this.trans ?_)
  · rfl
  · rw [← list_sum_map_range]
    simp only [list_sum_map_range]

section hyperelastic
open hyperelastic.buche_silberstein

theorem hyperelastic_w : (w : List ℝ) = (List.range 256).map fun (i : ℕ) => ((i : ℝ) + 1) / 257 := by
  simp only [w, from_fn, NUMGRID]
  refine List.map_congr_left fun i _ => ?_
  push_cast
  norm_num

theorem hyperelastic_grid : (grid : List ℝ) = (List.range 256).map fun (i : ℕ) => artanh (((i : ℝ) + 1) / 257) := by
  simp only [grid, from_fn, NUMGRID]
  refine List.map_congr_left fun i hi => ?_
  rw [hyperelastic_w, elem_atanh, List.getD_eq_getElem?_getD, List.getElem?_map, List.getElem?_range (List.mem_range.1 hi)]
  rfl

theorem hyperelastic_dw : (dw : ℝ) = 1 / 257 := by
  rw [dw, hyperelastic_w]
  rw [List.getD_eq_getElem?_getD, List.getD_eq_getElem?_getD, List.getElem?_map, List.getElem?_map,
    List.getElem?_range (by norm_num), List.getElem?_range (by norm_num)]
  norm_num

theorem hyperelastic_element (κ : ℝ) (N : ℕ) : element κ N = (List.range 256).map fun (i : ℕ) => (List.range 256).map fun (j : ℕ) =>
    element_numerator κ N (artanh (((i : ℝ) + 1) / 257)) (artanh (((j : ℝ) + 1) / 257))
      / (1 - (((i : ℝ) + 1) / 257) ^ 2) / (1 - (((j : ℝ) + 1) / 257) ^ 2) * (1 / 257) ^ 2 := by
  unfold element
  rw [hyperelastic_grid, hyperelastic_w, List.zip_map', List.map_map]
  refine List.map_congr_left fun i _ => ?_
  simp only [Function.comp, List.map_map]
  refine List.map_congr_left fun j _ => ?_
  simp only [Function.comp, model_real, hyperelastic_dw]

theorem one_sub_node_pos {i : ℕ} (hi : i < 256) : 0 < 1 - (((i : ℝ) + 1) / 257) ^ 2 := by
  have h1 : ((i : ℝ) + 1) / 257 < 1 := by
    rw [div_lt_one (by norm_num)]
    have : (i : ℝ) + 1 ≤ 256 := by exact_mod_cast hi
    linarith
  have h0 : 0 ≤ ((i : ℝ) + 1) / 257 := by positivity
  nlinarith

theorem node_pos {i : ℕ} (hi : i < 256) : 0 < artanh (((i : ℝ) + 1) / 257) := by
  apply artanh_pos
  refine ⟨by positivity, ?_⟩
  rw [div_lt_one (by norm_num)]
  have : (i : ℝ) + 1 ≤ 256 := by exact_mod_cast hi
  linarith

theorem tanhRule_pos {f : ℝ → ℝ} (hf : ∀ x, 0 < x → 0 < f x) : 0 < tanhRule f := by
  refine Finset.sum_pos (fun i hi => ?_) (by simp)
  have h := one_sub_node_pos (Finset.mem_range.1 hi)
  have := hf _ (node_pos (Finset.mem_range.1 hi))
  positivity

theorem endRule_pos {c : ℝ} (hc : 0 < c) {f : ℝ → ℝ} (hf : ∀ x, 0 < x → 0 < f x) : 0 < endRule c f := by
  refine Finset.sum_pos (fun i _ => ?_) (by simp)
  have := hf (c * (i + 1) / 256) (by positivity)
  positivity

theorem tanhRule_div (f : ℝ → ℝ) (a : ℝ) : (tanhRule fun x => f x / a) = tanhRule f / a := by
  unfold tanhRule
  rw [Finset.sum_div]
  exact Finset.sum_congr rfl fun i _ => by ring

theorem endRule_div (c : ℝ) (f : ℝ → ℝ) (a : ℝ) : (endRule c fun x => f x / a) = endRule c f / a := by
  unfold endRule
  rw [Finset.sum_div]
  exact Finset.sum_congr rfl fun i _ => by ring

/-- C78: the distribution of chains is normalised on the grid of the model: the rule finds one chain. -/
theorem C78_normalised (A : ℝ → ℝ) : (4 * π * tanhRule fun x => x ^ 2 * density tanhRule A x) = 1 := by
  have h : 0 < tanhRule fun x => x ^ 2 * exp (-A x) := tanhRule_pos fun x hx => by positivity
  simp only [density, ← mul_div_assoc]
  rw [tanhRule_div]
  field_simp

/-- The sum of the code as a stress of a network. -/
theorem tanh_network {κ : ℝ} {N : ℕ} (A : ℝ → ℝ) (L W : ℝ → ℝ → ℝ) (hW : ∀ z r, W z r = exp (A (L z r))) {Z : ℝ}
    (hZ : Z = 4 * π * tanhRule fun x => x ^ 2 * exp (-A x)) :
    (((element κ N).zip (grid : List ℝ)).flatMap fun ez => (ez.1.zip (grid : List ℝ)).map fun er =>
      er.1 / W ez.2 er.2).sum / Z =
      networkStress tanhRule N (chainForce κ) fun z r => density tanhRule A (L z r) := by
  rw [hyperelastic_element, hyperelastic_grid]
  rw [double_sum 256 _ _ fun e z r => e / W z r]
  rw [networkStress, tanhRule, Finset.sum_div]
  refine Finset.sum_congr rfl fun i hi => ?_
  rw [tanhRule, Finset.sum_mul, Finset.sum_div]
  refine Finset.sum_congr rfl fun j hj => ?_
  rw [density, ← hZ, hW, exp_neg]
  simp only [element_numerator, model_real]
  ring

theorem tanh_normalization (A : ℝ → ℝ) (W : ℝ → ℝ) (hW : ∀ x, W x = exp (A x)) :
    (((grid : List ℝ).zip w).map fun gw => gw.1 ^ 2 / (1 - gw.2 ^ 2) / W gw.1).sum * 4 * π * dw =
      4 * π * tanhRule fun x => x ^ 2 * exp (-A x) := by
  rw [hyperelastic_grid, hyperelastic_w, zip_sum 256 _ _ fun g w => g ^ 2 / (1 - w ^ 2) / W g, tanhRule, hyperelastic_dw]
  rw [mul_assoc, mul_assoc, Finset.sum_mul, Finset.mul_sum]
  refine Finset.sum_congr rfl fun i hi => ?_
  rw [hW, exp_neg]
  ring

/-- The exponent of the distribution of chains by method number: the free energy of the chain for method 2, the Gaussian
with the mean square length of a harmonic link for method 3. -/
noncomputable def exponent (method N : ℕ) (κ γ : ℝ) : ℝ :=
  if method = 2 then chainEnergy N κ γ else gaussianExponent N (meanSquareLink κ) γ

theorem method_3_factor_eq {κ : ℝ} (hκ : 0 < κ) (N : ℕ) (γ : ℝ) :
    method_3_factor κ N * γ ^ 2 = gaussianExponent N (meanSquareLink κ) γ := by
  rw [gaussianExponent, meanSquareLink_eq hκ, method_3_factor]
  simp only [model_real]
  field_simp

/-- C78: in uniaxial tension the model returns the stress of the network of chains of which each has moved with the material
from where the normalised distribution puts it. -/
theorem C78_uniaxial {method : ℕ} {κ : ℝ} {N : ℕ} {model : BucheSilberstein ℝ} (hκ : 0 < κ)
    (h : BucheSilberstein.init method κ N = some model) {stretch : ℝ} (hs : 0 < stretch) :
    model.uniaxial_tension stretch = some (networkStress tanhRule N (chainForce κ) fun z r =>
      density tanhRule (exponent method N κ) (restLength stretch z r)) := by
  have h1 := (C43_init_method method κ N).1 (by rw [h]; rfl)
  unfold BucheSilberstein.init hyperelastic.buche_silberstein.init at h
  unfold BucheSilberstein.uniaxial_tension hyperelastic.buche_silberstein.uniaxial_tension
  rcases h1 with rfl | rfl
  · simp only [Option.map_some, Option.some.injEq] at h
    subst h
    simp only [model_real]
    congr 1
    exact tanh_network _ (restLength stretch) _ (fun z r => rfl) (tanh_normalization _ _ fun x => rfl)
  · simp only [Option.map_some, Option.some.injEq] at h
    subst h
    simp only [model_real]
    congr 1
    refine tanh_network (exponent 3 N κ) (restLength stretch)
      (fun z r => exp (method_3_factor κ N * ((z / stretch) ^ 2 + stretch * r ^ 2))) (fun z r => ?_)
      (tanh_normalization (exponent 3 N κ) (fun x => exp (method_3_factor κ N * x ^ 2)) fun x => ?_)
    · rw [exponent, if_neg (by norm_num), ← method_3_factor_eq hκ, restLength, sq_sqrt (by positivity)]
    · rw [exponent, if_neg (by norm_num), ← method_3_factor_eq hκ]

/-- C78: in equibiaxial tension, with the axis across the plane in which the material is stretched, the model returns the
lateral minus the axial stress of the network. -/
theorem C78_equibiaxial {method : ℕ} {κ : ℝ} {N : ℕ} {model : BucheSilberstein ℝ} (hκ : 0 < κ)
    (h : BucheSilberstein.init method κ N = some model) {stretch : ℝ} (hs : 0 < stretch) :
    model.equibiaxial_tension stretch = some (-networkStress tanhRule N (chainForce κ) fun z r =>
      density tanhRule (exponent method N κ) √((z * stretch ^ 2) ^ 2 + (r / stretch) ^ 2)) := by
  rw [C43_duality _ hs.ne', C78_uniaxial hκ h (by positivity)]
  have e : ∀ z r : ℝ, √((z * stretch ^ 2) ^ 2 + (r / stretch) ^ 2) = restLength (1 / stretch ^ 2) z r := by
    intro z r
    rw [restLength]
    congr 1
    field_simp
  simp only [e, Option.map_some]

/-- C78, concrete case: a network of Gaussian chains of eight links, stretched to twice its length. -/
example : ∃ model : BucheSilberstein ℝ, BucheSilberstein.init 3 50 8 = some model ∧
    model.uniaxial_tension 2 = some (networkStress tanhRule 8 (chainForce 50) fun z r =>
      density tanhRule (exponent 3 8 50) (restLength 2 z r)) := by
  obtain ⟨model, h⟩ := Option.isSome_iff_exists.1 ((C43_init_method 3 50 8).2 (Or.inr rfl))
  exact ⟨model, h, by simpa using C78_uniaxial (by norm_num) h (stretch := 2) (by norm_num)⟩

end hyperelastic

section damage
open hyperelastic_damage.buche_silberstein

theorem damage_grid (c : ℝ) : grid c = (List.range 256).map fun (i : ℕ) => c * ((i : ℝ) + 1) / 256 := by
  simp only [grid, from_fn, NUMGRID]
  refine List.map_congr_left fun i _ => ?_
  push_cast
  ring

theorem damage_spacing (c : ℝ) : spacing (grid c) = c / 256 := by
  rw [spacing, damage_grid, List.getD_eq_getElem?_getD, List.getD_eq_getElem?_getD, List.getElem?_map, List.getElem?_map,
    List.getElem?_range (by norm_num), List.getElem?_range (by norm_num)]
  norm_num
  ring

theorem damage_element (c κ : ℝ) (N : ℕ) (J : ℝ) :
    element c κ N J = (List.range 256).map fun (i : ℕ) => (List.range 256).map fun (j : ℕ) =>
      element_numerator κ N (c * ((i : ℝ) + 1) / 256) (c * ((j : ℝ) + 1) / 256) * (c / 256) ^ 2 / J ^ 3 := by
  unfold element
  rw [damage_spacing, damage_grid, List.map_map]
  refine List.map_congr_left fun i _ => ?_
  simp only [Function.comp, List.map_map]
  refine List.map_congr_left fun j _ => ?_
  simp only [Function.comp, model_real]

/-- C79: the distribution of chains is normalised on the grid of the model: the rule finds one chain. -/
theorem C79_normalised {c : ℝ} (hc : 0 < c) (A : ℝ → ℝ) :
    (4 * π * endRule c fun x => x ^ 2 * density (endRule c) A x) = 1 := by
  have h : 0 < endRule c fun x => x ^ 2 * exp (-A x) := endRule_pos hc fun x hx => by positivity
  simp only [density, ← mul_div_assoc]
  rw [endRule_div]
  field_simp

theorem survives_eq (c s m z r : ℝ) : survives c s m z r = intact c s m z r := by
  have e : √((z * m / s) ^ 2 + s / m * r ^ 2) = restLength (s / m) z r := by
    rw [restLength, div_div_eq_mul_div]
  unfold survives intact
  simp only [model_real, e]
  split_ifs <;> simp_all

/-- The sums of the code as stress and number of chains of a network. -/
theorem end_network {c κ J s m : ℝ} {N : ℕ} (hJ : 0 < J) (A : ℝ → ℝ) (L W : ℝ → ℝ → ℝ)
    (hW : ∀ z r, W z r = exp (A (L z r))) {Z : ℝ} (hZ : Z = 4 * π * (endRule c fun x => x ^ 2 * exp (-A x)) / J) :
    (((element c κ N J).zip (grid c)).flatMap fun ez => (ez.1.zip (grid c)).map fun er =>
      er.1 / W ez.2 er.2 * survives c s m ez.2 er.2).sum / Z =
      networkStress (endRule c) N (chainForce κ) (fun z r => density (endRule c) A (L z r) / J * intact c s m z r) / J ∧
    ((grid c).flatMap fun z_i => (grid c).map fun r_j =>
      r_j / W z_i r_j * survives c s m z_i r_j).sum / Z * 4 * π * (spacing (grid c) / J) ^ 2 =
      networkFraction (endRule c) fun z r => density (endRule c) A (L z r) / J * intact c s m z r := by
  have hZ' : 4 * π * (endRule c fun x => x ^ 2 * exp (-A x)) = Z * J := by rw [hZ]; field_simp
  simp only [survives_eq]
  constructor
  · rw [damage_element, damage_grid]
    rw [double_sum 256 _ _ fun e z r => e / W z r * intact c s m z r]
    rw [networkStress, endRule, Finset.sum_div, Finset.sum_div]
    refine Finset.sum_congr rfl fun i hi => ?_
    rw [endRule, Finset.sum_mul, Finset.sum_div, Finset.sum_div]
    refine Finset.sum_congr rfl fun j hj => ?_
    rw [density, hZ', hW, exp_neg]
    simp only [element_numerator, model_real]
    ring
  · rw [damage_spacing, damage_grid]
    have := fsum_flatMap ((List.range 256).map fun (i : ℕ) => c * ((i : ℝ) + 1) / 256)
      ((List.range 256).map fun (i : ℕ) => c * ((i : ℝ) + 1) / 256) fun z r => r / W z r * intact c s m z r
    rw [fsum_eq] at this
    rw [this]
    simp only [List.map_map]
    rw [list_sum_map_range]
    simp only [Function.comp_apply]
    rw [networkFraction, endRule, mul_assoc, mul_assoc, Finset.sum_div, Finset.sum_mul]
    refine Finset.sum_congr rfl fun i hi => ?_
    simp only [Function.comp_def]
    rw [list_sum_map_range, endRule, Finset.sum_mul, Finset.sum_div, Finset.sum_mul]
    refine Finset.sum_congr rfl fun j hj => ?_
    rw [density, hZ', hW, exp_neg]
    ring

theorem end_normalization (c J : ℝ) (A : ℝ → ℝ) (W : ℝ → ℝ) (hW : ∀ x, W x = exp (A x)) :
    ((grid c).map fun g => g ^ 2 / W g).sum * 4 * π * spacing (grid c) / J =
      4 * π * (endRule c fun x => x ^ 2 * exp (-A x)) / J := by
  rw [damage_spacing, damage_grid, List.map_map, list_sum_map_range, endRule]
  congr 1
  rw [mul_assoc, mul_assoc, Finset.sum_mul, Finset.mul_sum]
  refine Finset.sum_congr rfl fun i hi => ?_
  simp only [Function.comp, hW, exp_neg]
  ring

theorem damage_point {method : ℕ} {c κ : ℝ} {N : ℕ} {J : ℝ} {model : BucheSilberstein ℝ} (hκ : 0 < κ) (hJ : 0 < J)
    (h : BucheSilberstein.init method c κ N J = some model) {s : ℝ} (hs : 1 ≤ s) (m : ℝ) :
    damagePoint model s m =
      some (networkStress (endRule c) N (chainForce κ)
          (network (exponent method N κ) c J (if method = 2 then 1 else J ^ (1 / 3 : ℝ)) s m) / J,
        networkFraction (endRule c)
          (network (exponent method N κ) c J (if method = 2 then 1 else J ^ (1 / 3 : ℝ)) s m)) := by
  have h1 := (C45_init_method method c κ N J).1 (by rw [h]; rfl)
  have h' : Elem.le (1.0 : ℝ) s = true := (elem_le _ _).2 (by norm_num; exact hs)
  unfold BucheSilberstein.init hyperelastic_damage.buche_silberstein.init at h
  unfold damagePoint hyperelastic_damage.buche_silberstein.uniaxial_tension
  simp only [h', if_true]
  have hs0 : 0 < s := by linarith
  rcases h1 with rfl | rfl
  · simp only [Option.map_some, Option.some.injEq] at h
    subst h
    simp only [model_real, if_true]
    obtain ⟨e1, e2⟩ := end_network (c := c) (κ := κ) (N := N) (s := s) (m := m) hJ (exponent 2 N κ)
      (fun z r => restLength s z r / 1) (fun z r => exp (chainEnergy N κ √((z / s) ^ 2 + s * r ^ 2)))
      (fun z r => by rw [div_one]; rfl) (end_normalization c J _ (fun x => exp (chainEnergy N κ x)) fun x => rfl)
    rw [Option.some.injEq, Prod.mk.injEq]
    exact ⟨e1, e2⟩
  · simp only [Option.map_some, Option.some.injEq] at h
    subst h
    simp only [model_real, if_neg (by norm_num : ¬ 3 = 2)]
    have ha : (0:ℝ) < J ^ (1 / 3 : ℝ) := by positivity
    obtain ⟨e1, e2⟩ := end_network (c := c) (κ := κ) (N := N) (s := s) (m := m) hJ (exponent 3 N κ)
      (fun z r => restLength s z r / J ^ (1 / 3 : ℝ))
      (fun z r => exp (method_3_factor κ N * ((z / s) ^ 2 + s * r ^ 2) / (J ^ (1 / 3 : ℝ)) ^ 2))
      (fun z r => by
        rw [exponent, if_neg (by norm_num), ← method_3_factor_eq hκ, restLength, div_pow (√_), sq_sqrt (by positivity)]
        ring_nf)
      (end_normalization c J (exponent 3 N κ) (fun x => exp (method_3_factor κ N * x ^ 2)) fun x => by
        rw [exponent, if_neg (by norm_num), ← method_3_factor_eq hκ])
    rw [Option.some.injEq, Prod.mk.injEq]
    exact ⟨e1, e2⟩

theorem stretch_ge_one {method L : ℕ} {c κ : ℝ} {N : ℕ} {J : ℝ} {model : BucheSilberstein ℝ}
    (h : BucheSilberstein.init method c κ N J = some model) {hist : List ℝ} {out : List (ℝ × ℝ)}
    (ho : model.uniaxial_tension L hist = some out) {k : ℕ} (hk : k < L) (hk' : k < hist.length) : 1 ≤ hist[k] := by
  refine ((C45_rejects_below_one h L hist).1.1 (by rw [ho]; rfl)).2 _ ?_
  rw [List.mem_take_iff_getElem]
  exact ⟨k, by omega, rfl⟩

/-- C79: with the Gaussian distribution (method 3) each entry of the result is the stress of the network per volume after
swelling, and the number of intact chains.  The chains are swollen in all directions before the material is stretched. -/
theorem C79_gaussian {L : ℕ} {c κ : ℝ} {N : ℕ} {J : ℝ} {model : BucheSilberstein ℝ} (hκ : 0 < κ) (hJ : 0 < J)
    (h : BucheSilberstein.init 3 c κ N J = some model) {hist : List ℝ} {out : List (ℝ × ℝ)}
    (ho : model.uniaxial_tension L hist = some out) {k : ℕ} (hk : k < L) (hk' : k < hist.length) :
    out[k]? = some
      (networkStress (endRule c) N (chainForce κ) (network (gaussianExponent N (meanSquareLink κ)) c J (J ^ (1 / 3 : ℝ))
        hist[k] (runningMax hist k)) / J,
      networkFraction (endRule c) (network (gaussianExponent N (meanSquareLink κ)) c J (J ^ (1 / 3 : ℝ))
        hist[k] (runningMax hist k))) := by
  rw [(damage_result ho).2.2 k hk hk', damage_point hκ hJ h (stretch_ge_one h ho hk hk')]
  rfl

/-- C79: with the distribution of the free energy (method 2) the result is that of a network whose chains are not
swollen. -/
theorem C79_energy {L : ℕ} {c κ : ℝ} {N : ℕ} {J : ℝ} {model : BucheSilberstein ℝ} (hκ : 0 < κ) (hJ : 0 < J)
    (h : BucheSilberstein.init 2 c κ N J = some model) {hist : List ℝ} {out : List (ℝ × ℝ)}
    (ho : model.uniaxial_tension L hist = some out) {k : ℕ} (hk : k < L) (hk' : k < hist.length) :
    out[k]? = some
      (networkStress (endRule c) N (chainForce κ) (network (chainEnergy N κ) c J 1 hist[k] (runningMax hist k)) / J,
      networkFraction (endRule c) (network (chainEnergy N κ) c J 1 hist[k] (runningMax hist k))) := by
  rw [(damage_result ho).2.2 k hk hk', damage_point hκ hJ h (stretch_ge_one h ho hk hk')]
  rfl

theorem networkStress_scale (c N : ℝ) (η : ℝ → ℝ) (n : ℝ → ℝ → ℝ) (a : ℝ) :
    networkStress (endRule c) N η (fun z r => n z r / a) = networkStress (endRule c) N η n / a := by
  rw [networkStress, networkStress, ← endRule_div]
  congr 1; funext z
  rw [← endRule_div]
  congr 1; funext r
  ring

theorem networkFraction_scale (c : ℝ) (n : ℝ → ℝ → ℝ) (a : ℝ) :
    networkFraction (endRule c) (fun z r => n z r / a) = networkFraction (endRule c) n / a := by
  rw [networkFraction, networkFraction, ← endRule_div]
  congr 1; funext z
  rw [← endRule_div]
  congr 1; funext r
  ring

/-- C80: under method 2 swelling changes neither which chains are short nor which of them break: for every history the
stresses of the swollen network are those of the dry one divided by the square of the swelling ratio, and the probability
of intact chains, which is that of finding any chain at all before anything is broken, is the dry one divided by the swelling
ratio. -/
theorem C80_method_2_ignores_swelling {L : ℕ} {c κ : ℝ} {N : ℕ} {J : ℝ} {dry swollen : BucheSilberstein ℝ} (hκ : 0 < κ)
    (hJ : 0 < J) (h1 : BucheSilberstein.init 2 c κ N 1 = some dry) (hi : BucheSilberstein.init 2 c κ N J = some swollen)
    (hist : List ℝ) :
    swollen.uniaxial_tension L hist =
      (dry.uniaxial_tension L hist).map fun out => out.map fun o => (o.1 / J ^ 2, o.2 / J) := by
  have hsome : (swollen.uniaxial_tension L hist).isSome = (dry.uniaxial_tension L hist).isSome := by
    rw [Bool.eq_iff_iff, (C45_rejects_below_one hi L hist).1, (C45_rejects_below_one h1 L hist).1]
  rcases hd : dry.uniaxial_tension L hist with _ | out
  · rw [hd] at hsome
    simpa using hsome
  · rw [hd] at hsome
    obtain ⟨out', ho'⟩ := Option.isSome_iff_exists.1 hsome
    rw [ho', Option.map_some, Option.some.injEq]
    obtain ⟨a1, a2, -⟩ := damage_result hd
    obtain ⟨b1, b2, -⟩ := damage_result ho'
    refine List.ext_getElem? fun k => ?_
    by_cases hk : k < L
    · rw [List.getElem?_map, C79_energy hκ one_pos h1 hd hk (by omega), C79_energy hκ hJ hi ho' hk (by omega)]
      have e : network (chainEnergy N κ) c J 1 (hist[k]'(by omega)) (runningMax hist k) =
          fun z r => network (chainEnergy N κ) c 1 1 (hist[k]'(by omega)) (runningMax hist k) z r / J := by
        funext z r
        simp only [network]
        ring
      rw [e, networkStress_scale, networkFraction_scale]
      simp only [Option.map_some, Option.some.injEq, Prod.mk.injEq]
      exact ⟨by field_simp, trivial⟩
    · rw [List.getElem?_eq_none (by omega), List.getElem?_eq_none (by rw [List.length_map]; omega)]

/-- C79 and C80, concrete case. -/
example : ∃ (dry swollen : BucheSilberstein ℝ) (out : List (ℝ × ℝ)), BucheSilberstein.init 2 3 50 8 1 = some dry ∧
    BucheSilberstein.init 2 3 50 8 4 = some swollen ∧ dry.uniaxial_tension 3 [1, 3, 2] = some out ∧
    swollen.uniaxial_tension 3 [1, 3, 2] = some (out.map fun o => (o.1 / 4 ^ 2, o.2 / 4)) := by
  obtain ⟨dry, h⟩ := Option.isSome_iff_exists.1 ((C45_init_method 2 3 50 8 1).2 (Or.inl rfl))
  obtain ⟨swollen, h'⟩ := Option.isSome_iff_exists.1 ((C45_init_method 2 3 50 8 4).2 (Or.inl rfl))
  obtain ⟨out, ho⟩ := Option.isSome_iff_exists.1 ((C45_rejects_below_one h 3 [1, 3, 2]).1.2 ⟨by simp, by
    intro s hs; simp at hs; rcases hs with rfl | rfl | rfl <;> norm_num⟩)
  refine ⟨dry, swollen, out, h, h', ho, ?_⟩
  rw [C80_method_2_ignores_swelling (by norm_num) (by norm_num) h h', ho]
  rfl

end damage

end Polymers.Props
