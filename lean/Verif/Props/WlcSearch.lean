import Verif.Lemmas.Live
import Verif.Spec.WlcSearch
import Verif.Lemmas.Lits

/-! C35: the isotensional worm-like chain methods panic exactly when their search fails. -/

namespace Polymers.Props

open Polymers.Spec Polymers.wlc.thermodynamics Set SReal

/-- The worm-like chain in arithmetic with failures. -/
noncomputable abbrev wlcS (N : ℕ) (ℓ m p : ℝ) : Polymers.wlc.thermodynamics.WLC SReal :=
  (Polymers.wlc.WLC.init N (val ℓ) (val m) (val p)).thermodynamics

/-- The search of the worm-like chain for the force `η` succeeds. -/
def WlcFinds (N : ℕ) (ℓ m p : ℝ) (η : SReal) : Prop :=
  SearchFinds (fun γ => (wlcS N ℓ m p).isometric.nondimensional_force γ) η

theorem finds_test (x : SReal) : (!(Elem.le (0.0 : SReal) x && Elem.le x (1.0 : SReal))) = false ↔ ∃ r ∈ Icc (0:ℝ) 1, x = val r := by
  cases x with
  | val r =>
    have h0 : Elem.le (0.0 : SReal) (val r) = true ↔ (0:ℝ) ≤ r := by
      rw [show (0.0 : SReal) = val 0.0 from rfl, le_val]; norm_num
    have h1 : Elem.le (val r) (1.0 : SReal) = true ↔ r ≤ 1 := by
      rw [show (1.0 : SReal) = val 1.0 from rfl, le_val]; norm_num
    rw [Bool.not_eq_false', Bool.and_eq_true, h0, h1]
    constructor
    · exact fun h => ⟨r, ⟨h.1, h.2⟩, rfl⟩
    · rintro ⟨s, hs, h⟩
      cases h
      exact ⟨hs.1, hs.2⟩
  | undef =>
    refine iff_of_false ?_ (by rintro ⟨r, _, h⟩; cases h)
    rw [show Elem.le (0.0 : SReal) undef = false from rfl]; simp
  | panic =>
    refine iff_of_false ?_ (by rintro ⟨r, _, h⟩; cases h)
    rw [show Elem.le (0.0 : SReal) panic = false from rfl]; simp

theorem panic_if {c : Bool} {a : SReal} {P : Prop} (hc : c = false ↔ P) (ha : P → Live a) :
    (if c = true then (Elem.panic : SReal) else a) = panic ↔ ¬P := by
  cases c with
  | false =>
    have h := ha (hc.1 rfl)
    simp only [Bool.false_eq_true, if_false, hc.1 rfl, not_true, iff_false]
    exact h
  | true =>
    have : ¬P := fun h => by simpa using hc.2 h
    simp [this]

theorem wlc_length_panic (N : ℕ) {ϖ η : SReal} (hϖ : Live ϖ) (hη : Live η) :
    isotensional.nondimensional_end_to_end_length N ϖ η = panic ↔
      ¬SearchFinds (fun γ => isometric.nondimensional_force N ϖ γ) η := by
  unfold isotensional.nondimensional_end_to_end_length
  refine panic_if (finds_test _) ?_
  rintro ⟨r, _, hr⟩
  have hr' : Live (math.inverse_newton_raphson_powered η (fun γ => isometric.nondimensional_force N ϖ γ)
    (fun γ => (isometric.nondimensional_force N ϖ (γ + 1e-8) - isometric.nondimensional_force N ϖ (γ - 1e-8)) / 2e-8) 0.9999
    1e-5 100 2) := by
    rw [show math.inverse_newton_raphson_powered η (fun γ => isometric.nondimensional_force N ϖ γ)
      (fun γ => (isometric.nondimensional_force N ϖ (γ + 1e-8) - isometric.nondimensional_force N ϖ (γ - 1e-8)) / 2e-8) 0.9999
      1e-5 100 2 = val r from hr]; exact Live.val r
  generalize math.inverse_newton_raphson_powered η (fun γ => isometric.nondimensional_force N ϖ γ)
    (fun γ => (isometric.nondimensional_force N ϖ (γ + 1e-8) - isometric.nondimensional_force N ϖ (γ - 1e-8)) / 2e-8) 0.9999
    1e-5 100 2 = g at *
  extract_lets scale den num
  have hs : Live scale := Live.sub (Live.mul (Live.mul (Live.natCast N) hη) hr') (Live.wlc_relative_helmholtz hϖ hr')
  clear_value scale
  refine Live.div (Live.integrate_1d (fun x hx => ?_) (Live.lit _ _ _) (Live.lit _ _ _) _)
    (Live.integrate_1d (fun x hx => ?_) (Live.lit _ _ _) (Live.lit _ _ _) _)
  · have := Live.wlc_relative_helmholtz hϖ hx
    simp only [num]
    live
  · have := Live.wlc_relative_helmholtz hϖ hx
    simp only [den]
    live

theorem wlc_gibbs_panic (N : ℕ) {ℓ m ϖ η T : SReal} (hℓ : Live ℓ) (hm : Live m) (hϖ : Live ϖ) (hη : Live η) (hT : Live T) :
    isotensional.nondimensional_gibbs_free_energy N ℓ m ϖ η T = panic ↔
      ¬SearchFinds (fun γ => isometric.nondimensional_force N ϖ γ) η := by
  unfold isotensional.nondimensional_gibbs_free_energy
  refine panic_if (finds_test _) ?_
  rintro ⟨r, _, hr⟩
  have hr' : Live (math.inverse_newton_raphson_powered η (fun γ => isometric.nondimensional_force N ϖ γ)
    (fun γ => (isometric.nondimensional_force N ϖ (γ + 1e-8) - isometric.nondimensional_force N ϖ (γ - 1e-8)) / 2e-8) 0.9999
    1e-5 100 2) := by
    rw [show math.inverse_newton_raphson_powered η (fun γ => isometric.nondimensional_force N ϖ γ)
      (fun γ => (isometric.nondimensional_force N ϖ (γ + 1e-8) - isometric.nondimensional_force N ϖ (γ - 1e-8)) / 2e-8) 0.9999
      1e-5 100 2 = val r from hr]; exact Live.val r
  generalize math.inverse_newton_raphson_powered η (fun γ => isometric.nondimensional_force N ϖ γ)
    (fun γ => (isometric.nondimensional_force N ϖ (γ + 1e-8) - isometric.nondimensional_force N ϖ (γ - 1e-8)) / 2e-8) 0.9999
    1e-5 100 2 = g at *
  have hF : ∀ x, Live x → Live (isometric.nondimensional_force N ϖ x) := fun x hx => Live.wlc_force N hϖ hx
  have hB : Live (BOLTZMANN_CONSTANT : SReal) := Live.lit _ _ _
  have hP : Live (PLANCK_CONSTANT : SReal) := Live.lit _ _ _
  have hl : Live (1e-8 : SReal) := Live.lit _ _ _
  have hl2 : Live (2e-8 : SReal) := Live.lit _ _ _
  extract_lets scale integrand li
  have hs : Live scale := Live.sub (Live.mul (Live.mul (Live.natCast N) hη) hr') (Live.wlc_helmholtz N hℓ hm hϖ hr' hT)
  have hli : Live li := by
    refine Live.ite ?_ ?_
    · have hfp : ∀ x, Live x → Live ((isometric.nondimensional_force N ϖ (x + 1e-8) -
          isometric.nondimensional_force N ϖ (x - 1e-8)) / 2e-8) := fun x hx =>
        Live.div (Live.sub (hF _ (Live.add hx hl)) (hF _ (Live.sub hx hl))) hl2
      exact Live.sub (Live.neg (Live.ln (Live.sqrt (Live.div (Live.mul (Live.lit _ _ _) (Live.powi Live.pi _))
        (Live.div (Live.sub (hfp _ (Live.add hr' hl)) (hfp _ (Live.sub hr' hl))) hl2)))))
        (Live.ln (Live.div (Live.mul (Live.mul (Live.lit _ _ _) (Live.natCast N)) hr') hη))
    · refine Live.neg (Live.ln (Live.mul (Live.mul (Live.lit _ _ _) Live.pi)
        (Live.integrate_1d (fun x hx => ?_) (Live.lit _ _ _) (Live.lit _ _ _) _)))
      have := Live.wlc_helmholtz N hℓ hm hϖ hx hT
      simp only [integrand]
      clear_value scale
      live
  clear_value scale li
  live

theorem bin_panic (dom : ℝ → ℝ → Prop) (f : ℝ → ℝ → ℝ) (x y : SReal) :
    SReal.bin dom f x y = panic ↔ x = panic ∨ y = panic := by
  cases x <;> cases y <;> simp [SReal.bin] <;> split_ifs <;> simp

theorem add_panic {x y : SReal} : x + y = panic ↔ x = panic ∨ y = panic := bin_panic _ _ x y
theorem sub_panic {x y : SReal} : x - y = panic ↔ x = panic ∨ y = panic := bin_panic _ _ x y
theorem mul_panic {x y : SReal} : x * y = panic ↔ x = panic ∨ y = panic := bin_panic _ _ x y
theorem div_panic {x y : SReal} : x / y = panic ↔ x = panic ∨ y = panic := bin_panic _ _ x y
theorem val_panic {r : ℝ} : val r = panic ↔ False := by simp
theorem natCast_panic {n : ℕ} : ((n : ℕ) : SReal) = panic ↔ False := by simp
theorem boltzmann_panic : (BOLTZMANN_CONSTANT : SReal) = panic ↔ False := val_panic

theorem persistence_eq (N : ℕ) (ℓ p : ℝ) : val p / ((N : SReal) * val ℓ) = val p / (N : SReal) / val ℓ := by
  rw [natCast_val, mul_val]
  rcases eq_or_ne (N : ℝ) 0 with h | h
  · rw [h, zero_mul, SReal.div_zero]
    rfl
  rcases eq_or_ne ℓ 0 with h' | h'
  · rw [h', mul_zero, SReal.div_zero, SReal.div_val _ h, SReal.div_zero]
  rw [SReal.div_val _ (mul_ne_zero h h'), SReal.div_val _ h, SReal.div_val _ h', div_div]

theorem force_eq (ℓ f : ℝ) {T : ℝ} (hT : 0 < T) :
    val f * val ℓ / (BOLTZMANN_CONSTANT : SReal) / val T = val (ndForce ℓ f T) := by
  have hb : (BOLTZMANN_CONSTANT : ℝ) ≠ 0 := boltzmann_pos.ne'
  rw [show (BOLTZMANN_CONSTANT : SReal) = val BOLTZMANN_CONSTANT from rfl, mul_val, SReal.div_val _ hb, SReal.div_val _ hT.ne']
  congr 1
  unfold ndForce kT
  rw [div_div, show (BOLTZMANN_CONSTANT : ℝ) = 8.314462618 from rfl]

theorem live_persistence (N : ℕ) (ℓ p : ℝ) : Live (val p / (N : SReal) / val ℓ) :=
  Live.div (Live.div (Live.val p) (Live.natCast N)) (Live.val ℓ)

/-- C35: each expected-length method panics exactly when the search for the extension at its force fails. -/
theorem C35_wlc_lengths (N : ℕ) (ℓ m p : ℝ) :
    (∀ η : ℝ, (wlcS N ℓ m p).isotensional.nondimensional_end_to_end_length (val η) = panic ↔ ¬WlcFinds N ℓ m p (val η)) ∧
    (∀ η : ℝ, (wlcS N ℓ m p).isotensional.nondimensional_end_to_end_length_per_link (val η) = panic ↔
      ¬WlcFinds N ℓ m p (val η)) ∧
    (∀ f T : ℝ, 0 < T → ((wlcS N ℓ m p).isotensional.end_to_end_length (val f) (val T) = panic ↔
      ¬WlcFinds N ℓ m p (val (ndForce ℓ f T)))) ∧
    (∀ f T : ℝ, 0 < T → ((wlcS N ℓ m p).isotensional.end_to_end_length_per_link (val f) (val T) = panic ↔
      ¬WlcFinds N ℓ m p (val (ndForce ℓ f T)))) := by
  have key : ∀ η : ℝ, isotensional.nondimensional_end_to_end_length N (val p / (N : SReal) / val ℓ) (val η) = panic ↔
      ¬WlcFinds N ℓ m p (val η) := fun η => wlc_length_panic N (live_persistence N ℓ p) (Live.val η)
  refine ⟨key, fun η => ?_, fun f T hT => ?_, fun f T hT => ?_⟩
  · refine Iff.trans ?_ (key η)
    change isotensional.nondimensional_end_to_end_length N (val p / (N : SReal) / val ℓ) (val η) / (N : SReal) = panic ↔ _
    rw [div_panic, natCast_panic, or_false]
  · refine Iff.trans ?_ (key _)
    change val ℓ * isotensional.nondimensional_end_to_end_length N (val p / ((N : SReal) * val ℓ))
      (val f * val ℓ / (BOLTZMANN_CONSTANT : SReal) / val T) = panic ↔ _
    rw [mul_panic, val_panic, false_or, persistence_eq, force_eq ℓ f hT]
  · refine Iff.trans ?_ (key _)
    change val ℓ * (isotensional.nondimensional_end_to_end_length N (val p / ((N : SReal) * val ℓ))
      (val f * val ℓ / (BOLTZMANN_CONSTANT : SReal) / val T) / (N : SReal)) = panic ↔ _
    rw [mul_panic, val_panic, false_or, div_panic, natCast_panic, or_false, persistence_eq, force_eq ℓ f hT]

/-- C35: each Gibbs-energy method panics exactly when the search for the extension at its force fails; the relative energies
also when the search at the reference force fails. -/
theorem C35_wlc_gibbs (N : ℕ) (ℓ m p : ℝ) :
    (∀ η T : ℝ, (wlcS N ℓ m p).isotensional.nondimensional_gibbs_free_energy (val η) (val T) = panic ↔
      ¬WlcFinds N ℓ m p (val η)) ∧
    (∀ η T : ℝ, (wlcS N ℓ m p).isotensional.nondimensional_gibbs_free_energy_per_link (val η) (val T) = panic ↔
      ¬WlcFinds N ℓ m p (val η)) ∧
    (∀ f T : ℝ, 0 < T → ((wlcS N ℓ m p).isotensional.gibbs_free_energy (val f) (val T) = panic ↔
      ¬WlcFinds N ℓ m p (val (ndForce ℓ f T)))) ∧
    (∀ f T : ℝ, 0 < T → ((wlcS N ℓ m p).isotensional.gibbs_free_energy_per_link (val f) (val T) = panic ↔
      ¬WlcFinds N ℓ m p (val (ndForce ℓ f T)))) ∧
    (∀ η : ℝ, (wlcS N ℓ m p).isotensional.nondimensional_relative_gibbs_free_energy (val η) = panic ↔
      ¬(WlcFinds N ℓ m p (val η) ∧ WlcFinds N ℓ m p (val 1e-6))) ∧
    (∀ η : ℝ, (wlcS N ℓ m p).isotensional.nondimensional_relative_gibbs_free_energy_per_link (val η) = panic ↔
      ¬(WlcFinds N ℓ m p (val η) ∧ WlcFinds N ℓ m p (val 1e-6))) ∧
    (∀ f T : ℝ, 0 < T → ((wlcS N ℓ m p).isotensional.relative_gibbs_free_energy (val f) (val T) = panic ↔
      ¬(WlcFinds N ℓ m p (val (ndForce ℓ f T)) ∧ WlcFinds N ℓ m p (val 1e-6)))) ∧
    (∀ f T : ℝ, 0 < T → ((wlcS N ℓ m p).isotensional.relative_gibbs_free_energy_per_link (val f) (val T) = panic ↔
      ¬(WlcFinds N ℓ m p (val (ndForce ℓ f T)) ∧ WlcFinds N ℓ m p (val 1e-6)))) := by
  have key : ∀ a b η T : ℝ, isotensional.nondimensional_gibbs_free_energy N (val a) (val b) (val p / (N : SReal) / val ℓ) (val η)
      (val T) = panic ↔ ¬WlcFinds N ℓ m p (val η) := fun a b η T =>
    wlc_gibbs_panic N (Live.val a) (Live.val b) (live_persistence N ℓ p) (Live.val η) (Live.val T)
  refine ⟨fun η T => key _ _ η T, fun η T => ?_, fun f T hT => ?_, fun f T hT => ?_, fun η => ?_, fun η => ?_, fun f T hT => ?_,
    fun f T hT => ?_⟩
  · refine Iff.trans ?_ (key ℓ m η T)
    change isotensional.nondimensional_gibbs_free_energy N (val ℓ) (val m) (val p / (N : SReal) / val ℓ) (val η) (val T) /
      (N : SReal) = panic ↔ _
    rw [div_panic, natCast_panic, or_false]
  · refine Iff.trans ?_ (key ℓ m _ T)
    change isotensional.nondimensional_gibbs_free_energy N (val ℓ) (val m) (val p / ((N : SReal) * val ℓ))
      (val f * val ℓ / (BOLTZMANN_CONSTANT : SReal) / val T) (val T) * (BOLTZMANN_CONSTANT : SReal) * val T = panic ↔ _
    rw [mul_panic, mul_panic, val_panic, boltzmann_panic, or_false, or_false, persistence_eq, force_eq ℓ f hT]
  · refine Iff.trans ?_ (key ℓ m _ T)
    change isotensional.nondimensional_gibbs_free_energy N (val ℓ) (val m) (val p / ((N : SReal) * val ℓ))
      (val f * val ℓ / (BOLTZMANN_CONSTANT : SReal) / val T) (val T) / (N : SReal) * (BOLTZMANN_CONSTANT : SReal) * val T =
        panic ↔ _
    rw [mul_panic, mul_panic, div_panic, natCast_panic, val_panic, boltzmann_panic, or_false, or_false, or_false,
      persistence_eq, force_eq ℓ f hT]
  · change isotensional.nondimensional_gibbs_free_energy N (val 1.0) (val 1.0) (val p / (N : SReal) / val ℓ) (val η) (val 300.0) -
      isotensional.nondimensional_gibbs_free_energy N (val 1.0) (val 1.0) (val p / (N : SReal) / val ℓ) (val 1e-6) (val 300.0) =
        panic ↔ _
    rw [sub_panic, key, key, not_and_or]
  · change isotensional.nondimensional_gibbs_free_energy N (val 1.0) (val 1.0) (val p / (N : SReal) / val ℓ) (val η) (val 300.0) /
      (N : SReal) - isotensional.nondimensional_gibbs_free_energy N (val 1.0) (val 1.0) (val p / (N : SReal) / val ℓ) (val 1e-6)
        (val 300.0) / (N : SReal) = panic ↔ _
    rw [sub_panic, div_panic, div_panic, natCast_panic, or_false, or_false, key, key, not_and_or]
  · change (isotensional.nondimensional_gibbs_free_energy N (val 1.0) (val 1.0) (val p / ((N : SReal) * val ℓ))
        (val f * val ℓ / (BOLTZMANN_CONSTANT : SReal) / val T) (val 300.0) -
      isotensional.nondimensional_gibbs_free_energy N (val 1.0) (val 1.0) (val p / ((N : SReal) * val ℓ)) (val 1e-6) (val 300.0)) *
        (BOLTZMANN_CONSTANT : SReal) * val T = panic ↔ _
    rw [mul_panic, mul_panic, val_panic, boltzmann_panic, or_false, or_false, sub_panic, persistence_eq, force_eq ℓ f hT, key,
      key, not_and_or]
  · change (isotensional.nondimensional_gibbs_free_energy N (val 1.0) (val 1.0) (val p / ((N : SReal) * val ℓ))
        (val f * val ℓ / (BOLTZMANN_CONSTANT : SReal) / val T) (val 300.0) / (N : SReal) -
      isotensional.nondimensional_gibbs_free_energy N (val 1.0) (val 1.0) (val p / ((N : SReal) * val ℓ)) (val 1e-6) (val 300.0) /
        (N : SReal)) * (BOLTZMANN_CONSTANT : SReal) * val T = panic ↔ _
    rw [mul_panic, mul_panic, val_panic, boltzmann_panic, or_false, or_false, sub_panic, div_panic, div_panic, natCast_panic,
      or_false, or_false, persistence_eq, force_eq ℓ f hT, key, key, not_and_or]

/-- C35: the Helmholtz-energy methods obtained by Legendre transformation panic in the same cases. -/
theorem C35_wlc_legendre (N : ℕ) (ℓ m p : ℝ) :
    (∀ η T : ℝ, (wlcS N ℓ m p).isotensional.legendre.nondimensional_helmholtz_free_energy (val η) (val T) = panic ↔
      ¬WlcFinds N ℓ m p (val η)) ∧
    (∀ η T : ℝ, (wlcS N ℓ m p).isotensional.legendre.nondimensional_helmholtz_free_energy_per_link (val η) (val T) = panic ↔
      ¬WlcFinds N ℓ m p (val η)) ∧
    (∀ f T : ℝ, 0 < T → ((wlcS N ℓ m p).isotensional.legendre.helmholtz_free_energy (val f) (val T) = panic ↔
      ¬WlcFinds N ℓ m p (val (ndForce ℓ f T)))) ∧
    (∀ f T : ℝ, 0 < T → ((wlcS N ℓ m p).isotensional.legendre.helmholtz_free_energy_per_link (val f) (val T) = panic ↔
      ¬WlcFinds N ℓ m p (val (ndForce ℓ f T)))) ∧
    (∀ η : ℝ, (wlcS N ℓ m p).isotensional.legendre.nondimensional_relative_helmholtz_free_energy (val η) = panic ↔
      ¬(WlcFinds N ℓ m p (val η) ∧ WlcFinds N ℓ m p (val 1e-6))) ∧
    (∀ η : ℝ, (wlcS N ℓ m p).isotensional.legendre.nondimensional_relative_helmholtz_free_energy_per_link (val η) = panic ↔
      ¬(WlcFinds N ℓ m p (val η) ∧ WlcFinds N ℓ m p (val 1e-6))) ∧
    (∀ f T : ℝ, 0 < T → ((wlcS N ℓ m p).isotensional.legendre.relative_helmholtz_free_energy (val f) (val T) = panic ↔
      ¬(WlcFinds N ℓ m p (val (ndForce ℓ f T)) ∧ WlcFinds N ℓ m p (val 1e-6)))) ∧
    (∀ f T : ℝ, 0 < T → ((wlcS N ℓ m p).isotensional.legendre.relative_helmholtz_free_energy_per_link (val f) (val T) = panic ↔
      ¬(WlcFinds N ℓ m p (val (ndForce ℓ f T)) ∧ WlcFinds N ℓ m p (val 1e-6)))) := by
  have key : ∀ a b η T : ℝ, isotensional.legendre.nondimensional_helmholtz_free_energy N (val a) (val b)
      (val p / (N : SReal) / val ℓ) (val η) (val T) = panic ↔ ¬WlcFinds N ℓ m p (val η) := by
    intro a b η T
    have h1 : _ ↔ ¬WlcFinds N ℓ m p (val η) :=
      wlc_gibbs_panic N (Live.val a) (Live.val b) (live_persistence N ℓ p) (Live.val η) (Live.val T)
    have h2 : _ ↔ ¬WlcFinds N ℓ m p (val η) := wlc_length_panic N (live_persistence N ℓ p) (Live.val η)
    unfold isotensional.legendre.nondimensional_helmholtz_free_energy
    rw [add_panic, mul_panic, val_panic, false_or]
    exact (or_congr h1 h2).trans (or_self_iff)
  refine ⟨fun η T => key _ _ η T, fun η T => ?_, fun f T hT => ?_, fun f T hT => ?_, fun η => ?_, fun η => ?_, fun f T hT => ?_,
    fun f T hT => ?_⟩
  · refine Iff.trans ?_ (key ℓ m η T)
    change isotensional.legendre.nondimensional_helmholtz_free_energy N (val ℓ) (val m) (val p / (N : SReal) / val ℓ) (val η)
      (val T) / (N : SReal) = SReal.panic ↔ _
    rw [div_panic, natCast_panic, or_false]
  · refine Iff.trans ?_ (key ℓ m _ T)
    change isotensional.legendre.nondimensional_helmholtz_free_energy N (val ℓ) (val m) (val p / ((N : SReal) * val ℓ))
      (val f * val ℓ / (BOLTZMANN_CONSTANT : SReal) / val T) (val T) * (BOLTZMANN_CONSTANT : SReal) * val T = SReal.panic ↔ _
    rw [mul_panic, mul_panic, val_panic, boltzmann_panic, or_false, or_false, persistence_eq, force_eq ℓ f hT]
  · refine Iff.trans ?_ (key ℓ m _ T)
    change isotensional.legendre.nondimensional_helmholtz_free_energy N (val ℓ) (val m) (val p / ((N : SReal) * val ℓ))
      (val f * val ℓ / (BOLTZMANN_CONSTANT : SReal) / val T) (val T) / (N : SReal) * (BOLTZMANN_CONSTANT : SReal) * val T = SReal.panic ↔ _
    rw [mul_panic, mul_panic, div_panic, natCast_panic, val_panic, boltzmann_panic, or_false, or_false, or_false,
      persistence_eq, force_eq ℓ f hT]
  · change isotensional.legendre.nondimensional_helmholtz_free_energy N (val 1.0) (val 1.0) (val p / (N : SReal) / val ℓ) (val η)
        (val 300.0) - isotensional.legendre.nondimensional_helmholtz_free_energy N (val 1.0) (val 1.0)
          (val p / (N : SReal) / val ℓ) (val 1e-6) (val 300.0) = SReal.panic ↔ _
    rw [sub_panic, key, key, not_and_or]
  · change isotensional.legendre.nondimensional_helmholtz_free_energy N (val 1.0) (val 1.0) (val p / (N : SReal) / val ℓ) (val η)
        (val 300.0) / (N : SReal) - isotensional.legendre.nondimensional_helmholtz_free_energy N (val 1.0) (val 1.0)
          (val p / (N : SReal) / val ℓ) (val 1e-6) (val 300.0) / (N : SReal) = SReal.panic ↔ _
    rw [sub_panic, div_panic, div_panic, natCast_panic, or_false, or_false, key, key, not_and_or]
  · change (isotensional.legendre.nondimensional_helmholtz_free_energy N (val 1.0) (val 1.0) (val p / ((N : SReal) * val ℓ))
        (val f * val ℓ / (BOLTZMANN_CONSTANT : SReal) / val T) (val 300.0) -
      isotensional.legendre.nondimensional_helmholtz_free_energy N (val 1.0) (val 1.0) (val p / ((N : SReal) * val ℓ)) (val 1e-6)
        (val 300.0)) * (BOLTZMANN_CONSTANT : SReal) * val T = SReal.panic ↔ _
    rw [mul_panic, mul_panic, val_panic, boltzmann_panic, or_false, or_false, sub_panic, persistence_eq, force_eq ℓ f hT, key,
      key, not_and_or]
  · change (isotensional.legendre.nondimensional_helmholtz_free_energy N (val 1.0) (val 1.0) (val p / ((N : SReal) * val ℓ))
        (val f * val ℓ / (BOLTZMANN_CONSTANT : SReal) / val T) (val 300.0) / (N : SReal) -
      isotensional.legendre.nondimensional_helmholtz_free_energy N (val 1.0) (val 1.0) (val p / ((N : SReal) * val ℓ)) (val 1e-6)
        (val 300.0) / (N : SReal)) * (BOLTZMANN_CONSTANT : SReal) * val T = SReal.panic ↔ _
    rw [mul_panic, mul_panic, val_panic, boltzmann_panic, or_false, or_false, sub_panic, div_panic, div_panic, natCast_panic,
      or_false, or_false, persistence_eq, force_eq ℓ f hT, key, key, not_and_or]

theorem powered_stop (y : SReal) (f fp : SReal → SReal) (tol : SReal) (k n : ℕ) (x r : SReal) (h : Elem.lt tol r = false) :
    math.inverse_newton_raphson_powered_loop y f fp tol k n x r = x := by
  cases n <;> simp [math.inverse_newton_raphson_powered_loop, h]

theorem powered_succ (y : SReal) (f fp : SReal → SReal) (tol : SReal) (k n : ℕ) (x r : SReal) (h : Elem.lt tol r = true) :
    math.inverse_newton_raphson_powered_loop y f fp tol k (n + 1) x r =
      math.inverse_newton_raphson_powered_loop y f fp tol k n
        (x + -(Elem.powi (f x - y) (k : ℤ)) / Elem.powi (f x - y) ((k : ℤ) - 1) / fp x / (k : SReal)) (Elem.abs ((f x - y) / y)) := by
  simp [math.inverse_newton_raphson_powered_loop, h]

/-- C35: the search fails when the starting extension 0.9999 already has the force that is looked for: the first step
divides zero by zero. -/
theorem C35_wlc_exact_start (N : ℕ) (ℓ m p η : ℝ)
    (h : (wlcS N ℓ m p).isometric.nondimensional_force (val 0.9999) = val η) : ¬WlcFinds N ℓ m p (val η) := by
  rintro ⟨r, _, hr⟩
  rw [wlcSearch, math.inverse_newton_raphson_powered] at hr
  have h1 : Elem.lt (1e-5 : SReal) (1.0 : SReal) = true := by
    rw [show (1e-5 : SReal) = val 1e-5 from rfl, show (1.0 : SReal) = val 1.0 from rfl, lt_val]; norm_num
  rw [show (100 : ℕ) = 99 + 1 from rfl, powered_succ _ _ _ _ _ _ _ _ h1] at hr
  rw [show (0.9999 : SReal) = val 0.9999 from rfl, h, sub_val, sub_self] at hr
  have hp1 : Elem.powi (val 0) ((2 : ℕ) : ℤ) = val 0 := by rw [powi_val_nat]; norm_num
  have hp2 : Elem.powi (val 0) (((2 : ℕ) : ℤ) - 1) = val 0 := by
    rw [show (((2 : ℕ) : ℤ) - 1) = ((1 : ℕ) : ℤ) by norm_num, powi_val_nat]; norm_num
  have hlt : Elem.lt (1e-5 : SReal) (Elem.abs (val 0 / val η)) = false := by
    rcases eq_or_ne η 0 with h0 | h0
    · rw [h0, SReal.div_zero]; rfl
    · rw [SReal.div_val _ h0, zero_div, abs_val, abs_zero, show (1e-5 : SReal) = val 1e-5 from rfl]
      refine Bool.eq_false_iff.2 fun hh => ?_
      rw [lt_val] at hh
      norm_num at hh
  rw [hp1, hp2, neg_val, neg_zero, SReal.div_zero] at hr
  rw [powered_stop _ _ _ _ _ _ _ _ hlt] at hr
  have hno : ∀ a b : SReal, val 0.9999 + undef / a / b ≠ val r := by
    intro a b
    cases a <;> cases b <;> exact fun h => by cases h
  exact hno _ _ hr

end Polymers.Props
