import Verif.Props.DefinedEfjcIsometric
import Verif.Props.DefinedSwfjc
import Verif.Props.SwfjcNarrow

/-! Definedness (C56) of the square-well chain at fixed extension, for wells at most nine tenths of a link length wide. -/

namespace Polymers.Props

open Polymers.Spec Polymers.SReal Polymers.Lemmas

set_option maxHeartbeats 1000000

section leaves

open swfjc.thermodynamics

variable {x ℓ' w' : SReal} {r ℓ w : ℝ}

theorem sw_code_neg {ℓ w η : ℝ} (hℓ : 0 < ℓ) (hw : 0 < w) (hη : 0 < η) :
    Elem.sinh ((1.0 + w / ℓ) * η) - (1.0 + w / ℓ) * η * Elem.cosh ((1.0 + w / ℓ) * η) - Elem.sinh η + η * Elem.cosh η ≠ 0 := by
  have := sw_code_pos hℓ hw hη
  intro h
  linarith

theorem _root_.Polymers.SReal.Is.swfjc_force (Hℓ : Is ℓ' ℓ) (Hw : Is w' w) (hℓ : 0 < ℓ) (hw : 0 < w) (hw9 : w ≤ 0.9 * ℓ)
    (hx : Is x r) (h : 0 < r ∧ r < 1 + w / ℓ) :
    Is (isometric.legendre.nondimensional_force ℓ' w' x) (isometric.legendre.nondimensional_force ℓ w r) := by
  have hW := one_lt_well hℓ hw
  have hW9 := well_le hℓ hw9
  obtain ⟨z, hz0, hz⟩ := swF_root hW h.1 h.2
  have hW1 : (1.0 : ℝ) + w / ℓ = 1 + w / ℓ := by norm_num
  have hWp : 0 < 1.0 + w / ℓ := by rw [hW1]; linarith
  have e : ∀ W η : ℝ, W * η * Real.cosh (W * η) - Real.sinh (W * η) - η * Real.cosh η + Real.sinh η = swZ W η := by
    intro W η; unfold swZ swG; ring
  have e' : ∀ W η : ℝ, Real.sinh (W * η) - W * η * Real.cosh (W * η) - Real.sinh η + η * Real.cosh η = -swZ W η := by
    intro W η; unfold swZ swG; ring
  refine Is.ite_le hx (Is.lit _ _ _) (fun _ => ?_) (fun _ => ?_)
  · defined [hx, Hℓ, Hw]
  refine Is.newton (S := fun s => 0 < s ∧ s ≤ 1.91 * z) rfl hx h.1.ne'
    (Is.ite_lt (by defined [hx, Hℓ, Hw]) (Is.lit _ _ _) (fun h1 => Is.inverse_langevin (by defined [hx, Hℓ, Hw]) ⟨div_pos h.1 hWp, h1.trans (by norm_num)⟩)
      (fun _ => Is.lit _ _ _)) (Is.lit _ _ _)
    (fun s hs => ?_) (fun s hs => ?_) (fun s hs => ?_) (fun s hs => ?_) ?_
  · have hs0 := hs.1
    have := sw_code_pos hℓ hw hs0
    defined [Hℓ, Hw]
  · have hs0 := hs.1
    have h1 := sw_code_neg hℓ hw hs0
    have h2 : Elem.powi (Elem.sinh ((1.0 + w / ℓ) * s) - (1.0 + w / ℓ) * s * Elem.cosh ((1.0 + w / ℓ) * s) - Elem.sinh s +
        s * Elem.cosh s) 2 ≠ 0 := pow_ne_zero 2 h1
    defined [Hℓ, Hw]
  · have := (tame_swF hW).pos s hs.1
    simp only [swF'] at this
    simp only [model_real, e']
    exact this.ne'
  · have := sw_step_mem hW hz0 hz hs.1 hs.2
    simp only [swF, swF'] at this
    simp only [model_real, e, e']
    exact this
  · have := sw_guess hW hW9 hz0 hz h.1 rfl
    simp only [model_real]
    norm_num at this ⊢
    exact ⟨this.1, this.2.2⟩

theorem _root_.Polymers.SReal.Is.swfjc_energy {N : ℕ} {m T : ℝ} {m' T' : SReal} (hN : 0 < N) (Hℓ : Is ℓ' ℓ) (Hm : Is m' m)
    (Hw : Is w' w) (HT : Is T' T) (hℓ : 0 < ℓ) (hm : 0 < m) (hw : 0 < w) (hT : 0 < T) (hw9 : w ≤ 0.9 * ℓ) (hx : Is x r)
    (h : 0 < r ∧ r < 1 + w / ℓ) :
    Is (isometric.legendre.nondimensional_helmholtz_free_energy_per_link N ℓ' m' w' x T')
      (isometric.legendre.nondimensional_helmholtz_free_energy_per_link N ℓ m w r T) := by
  have hN' : (0 : ℝ) < N := Nat.cast_pos.2 hN
  have hp := (swfjc_narrow_force hℓ hw hw9 h.1 h.2).1
  have := sw_code_pos hℓ hw hp
  defined [hx, Hℓ, Hm, Hw, HT, Is.swfjc_force Hℓ Hw hℓ hw hw9 hx h]

theorem _root_.Polymers.SReal.Is.swfjc_density {N : ℕ} (Hℓ : Is ℓ' ℓ) (Hw : Is w' w) (hℓ : 0 < ℓ) (hw : 0 < w)
    (hw9 : w ≤ 0.9 * ℓ) (hx : Is x r) (h : 0 < r ∧ r < 1 + w / ℓ) {c : SReal} {c' : ℝ} (hc : Is c c') (hc0 : c' ≠ 0) :
    Is (isometric.legendre.nondimensional_equilibrium_distribution N ℓ' w' c x)
      (isometric.legendre.nondimensional_equilibrium_distribution N ℓ w c' r) := by
  have hp := (swfjc_narrow_force hℓ hw hw9 h.1 h.2).1
  defined [hx, Hℓ, Hw, Is.swfjc_force Hℓ Hw hℓ hw hw9 hx h]

theorem swfjc_density_pos {N : ℕ} (hℓ : 0 < ℓ) (hw : 0 < w) (hw9 : w ≤ 0.9 * ℓ) (h : 0 < r ∧ r < 1 + w / ℓ) {c : ℝ}
    (hc : 0 < c) : 0 < isometric.legendre.nondimensional_equilibrium_distribution N ℓ w c r := by
  have hp := (swfjc_narrow_force hℓ hw hw9 h.1 h.2).1
  have hz := sw_code_pos hℓ hw hp
  unfold isometric.legendre.nondimensional_equilibrium_distribution
  refine div_pos (zpow_pos (mul_pos (div_pos hz ?_) (Real.exp_pos _)) _) hc
  exact pow_pos hp 3

theorem sw_grid (hℓ : 0 < ℓ) (hw : 0 < w) : (ZERO : ℝ) < ONE * (1.0 + w / ℓ) := by
  have := one_lt_well hℓ hw
  have h1 : (1.0 : ℝ) + w / ℓ = 1 + w / ℓ := by norm_num
  rw [one_eq', h1, one_mul]
  exact fjc_zero_mem.2.trans this

theorem sw_grid_mem {t : ℝ} (h0 : (ZERO : ℝ) < t) (h1 : t < ONE * (1.0 + w / ℓ)) : 0 < t ∧ t < 1 + w / ℓ := by
  have e : (1.0 : ℝ) + w / ℓ = 1 + w / ℓ := by norm_num
  rw [one_eq', e, one_mul] at h1
  exact ⟨zero_pos'.trans h0, h1⟩

theorem _root_.Polymers.SReal.Is.swfjc_normalization {N : ℕ} (Hℓ : Is ℓ' ℓ) (Hw : Is w' w) (hℓ : 0 < ℓ) (hw : 0 < w)
    (hw9 : w ≤ 0.9 * ℓ) :
    Is (math.integrate_1d (fun γ => isometric.legendre.nondimensional_equilibrium_radial_distribution N ℓ' w' 1.0 γ) (ZERO : SReal)
      (ONE * (1.0 + w' / ℓ')) POINTS)
      (math.integrate_1d (fun γ => isometric.legendre.nondimensional_equilibrium_radial_distribution N ℓ w 1.0 γ) (ZERO : ℝ)
      (ONE * (1.0 + w / ℓ)) POINTS) := by
  refine Is.integrate_Ioo rfl (Is.lit _ _ _) (by defined [Hℓ, Hw]) (by norm_num [POINTS]) (sw_grid hℓ hw) fun t h0 h1 => ?_
  defined [Is.swfjc_density Hℓ Hw hℓ hw hw9 (Is.val _) (sw_grid_mem h0 h1) (Is.lit _ _ _) (by norm_num)]

theorem swfjc_normalization_pos (N : ℕ) (hℓ : 0 < ℓ) (hw : 0 < w) (hw9 : w ≤ 0.9 * ℓ) :
    0 < math.integrate_1d (fun γ => isometric.legendre.nondimensional_equilibrium_radial_distribution N ℓ w 1.0 γ) (ZERO : ℝ)
      (ONE * (1.0 + w / ℓ)) POINTS := by
  refine math.integrate_1d_pos (sw_grid hℓ hw) (by norm_num [POINTS]) fun t ht => ?_
  have h := sw_grid_mem ht.1 ht.2
  have hp := swfjc_density_pos (N := N) hℓ hw hw9 h (c := 1.0) (by norm_num)
  unfold isometric.legendre.nondimensional_equilibrium_radial_distribution
  have h0 := h.1
  side

theorem sw_zero_mem (hℓ : 0 < ℓ) (hw : 0 < w) : 0 < (ZERO : ℝ) ∧ (ZERO : ℝ) < 1 + w / ℓ :=
  ⟨fjc_zero_mem.1, fjc_zero_mem.2.trans (one_lt_well hℓ hw)⟩

theorem sw_back_mem {N : ℕ} (hN : 0 < (N : ℝ)) (hℓ : 0 < ℓ) (hw : 0 < w) :
    0 < (ZERO : ℝ) * N * ℓ / (N * ℓ) ∧ (ZERO : ℝ) * N * ℓ / (N * ℓ) < 1 + w / ℓ := by
  rw [show (ZERO : ℝ) * N * ℓ / (N * ℓ) = ZERO by field_simp]
  exact sw_zero_mem hℓ hw

end leaves

/-- C56: for wells at most nine tenths of a link length wide, every method of the family is defined strictly between zero and
the largest extension. -/
theorem C56_swfjc_isometric_legendre_helmholtz {N : ℕ} (hN : 0 < N) {ℓ m w : ℝ} (hℓ : 0 < ℓ) (hm : 0 < m) (hw : 0 < w) (hw9 : w ≤ 0.9 * ℓ) :
    (ApiS.swfjc_isometric_legendre_helmholtz N ℓ m w).DefinedAs (Api.swfjc_isometric_legendre_helmholtz N ℓ m w) (fun ξ _ => ξ / (N * ℓ))
      (fun y _ => 0 < y ∧ y < 1 + w / ℓ) := by
  have hN' : (0 : ℝ) < N := Nat.cast_pos.2 hN
  constructor <;> intro x T hT hD <;> refine (?_ : Is _ _) <;> defined [Is.swfjc_energy (by first | exact hN | norm_num) ?_ ?_ ?_ ?_ ?_ ?_ ?_ ?_ hw9 ?_ (by first | exact hD | exact sw_zero_mem hℓ hw | exact sw_back_mem hN' hℓ hw)]

example : (ApiS.swfjc_isometric_legendre_helmholtz 8 1 1 (1 / 2)).DefinedAs (Api.swfjc_isometric_legendre_helmholtz 8 1 1 (1 / 2)) (fun ξ _ => ξ / ((8 : ℕ) * 1))
    (fun y _ => 0 < y ∧ y < 1 + 1 / 2 / 1) :=
  C56_swfjc_isometric_legendre_helmholtz (N := 8) (m := 1) (by norm_num) (by norm_num) (by norm_num) (by norm_num) (by norm_num)

/-- C56: for these wells every method of the family is defined strictly between zero and the largest extension. -/
theorem C56_swfjc_isometric_legendre_forces {N : ℕ} (hN : 0 < N) {ℓ m w : ℝ} (hℓ : 0 < ℓ) (hw : 0 < w) (hw9 : w ≤ 0.9 * ℓ) :
    (ApiS.swfjc_isometric_legendre_forces N ℓ m w).DefinedAs (Api.swfjc_isometric_legendre_forces N ℓ m w) (fun ξ _ => ξ / (N * ℓ))
      (fun y _ => 0 < y ∧ y < 1 + w / ℓ) := by
  have hN' : (0 : ℝ) < N := Nat.cast_pos.2 hN
  constructor <;> intro x T hT hD <;> refine (?_ : Is _ _) <;> defined [Is.swfjc_force ?_ ?_ hℓ hw hw9 ?_ hD]

example : (ApiS.swfjc_isometric_legendre_forces 8 1 1 (1 / 2)).DefinedAs (Api.swfjc_isometric_legendre_forces 8 1 1 (1 / 2)) (fun ξ _ => ξ / ((8 : ℕ) * 1))
    (fun y _ => 0 < y ∧ y < 1 + 1 / 2 / 1) :=
  C56_swfjc_isometric_legendre_forces (N := 8) (m := 1) (by norm_num) (by norm_num) (by norm_num) (by norm_num)

/-- C56: for these wells every method of the family is defined strictly between zero and the largest extension. -/
theorem C56_swfjc_isometric_legendre_distribution {N : ℕ} (hN : 0 < N) {ℓ m w : ℝ} (hℓ : 0 < ℓ) (hw : 0 < w) (hw9 : w ≤ 0.9 * ℓ) :
    (ApiS.swfjc_isometric_legendre_distribution N ℓ m w).DefinedAs (Api.swfjc_isometric_legendre_distribution N ℓ m w) (fun ξ => ξ / (N * ℓ))
      (fun y => 0 < y ∧ y < 1 + w / ℓ) := by
  have hN' : (0 : ℝ) < N := Nat.cast_pos.2 hN
  constructor <;> intro x hD <;> refine (?_ : Is _ _) <;> defined [Is.swfjc_density ?_ ?_ hℓ hw hw9 ?_ hD ?_ (swfjc_normalization_pos N hℓ hw hw9).ne', Is.swfjc_normalization ?_ ?_ hℓ hw hw9]

example : (ApiS.swfjc_isometric_legendre_distribution 8 1 1 (1 / 2)).DefinedAs (Api.swfjc_isometric_legendre_distribution 8 1 1 (1 / 2)) (fun ξ => ξ / ((8 : ℕ) * 1))
    (fun y => 0 < y ∧ y < 1 + 1 / 2 / 1) :=
  C56_swfjc_isometric_legendre_distribution (N := 8) (m := 1) (by norm_num) (by norm_num) (by norm_num) (by norm_num)

end Polymers.Props
