import Verif.Lemmas.Ieee
import Verif.Spec.ApiIeee

/-! C73: overflow of the Gibbs energies at large forces. -/

namespace Polymers.Lemmas

open Polymers.Ieee Polymers.Spec Real

variable {P : Platform} {x y : F64 P}

theorem huge_lt : huge < 2 ^ (1024 : ℕ) := by
  unfold huge
  rw [pow_succ (2 : ℝ) 1023]
  have h1 : (0 : ℝ) < 2 ^ (1023 : ℕ) := by positivity
  have h2 : (0 : ℝ) < 2 ^ (-52 : ℤ) := by positivity
  generalize (2 : ℝ) ^ (1023 : ℕ) = a at *
  generalize (2 : ℝ) ^ (-52 : ℤ) = b at *
  nlinarith

theorem exp_711 {η : ℝ} (h : 711 ≤ η) : 1.5 * 2 ^ (1025 : ℕ) ≤ exp η := by
  have l2 := log_two_lt_d9
  have e1 : (2 : ℝ) ^ (1025 : ℕ) = exp (1025 * log 2) := by
    rw [← rpow_natCast, rpow_def_of_pos (by norm_num)]; norm_num; ring_nf
  have e2 : (1.5 : ℝ) ≤ exp 0.5 := by have := add_one_le_exp (0.5 : ℝ); linarith
  rw [e1]
  calc 1.5 * exp (1025 * log 2) ≤ exp 0.5 * exp (1025 * log 2) := mul_le_mul_of_nonneg_right e2 (exp_pos _).le
    _ = exp (0.5 + 1025 * log 2) := (exp_add _ _).symm
    _ ≤ exp η := exp_le_exp.2 (by linarith)

/-- A function of the library overflows where its exact value is well beyond the range. -/
theorem out_overflow {f : Fn} {v : ℝ} (h3 : 1.4 * 2 ^ (1024 : ℕ) ≤ f.exact v) : (F64.out (P.fn f v) : F64 P) = .inf false := by
  have h0 : 0 < f.exact v := lt_of_lt_of_le (by positivity) h3
  have h4 := P.fn_err f v
  have h5 : (2 : ℝ) ^ (-1022 : ℤ) ≤ 1.4 * 2 ^ (1024 : ℕ) := by
    have a1 : (2 : ℝ) ^ (-1022 : ℤ) ≤ 1 := zpow_le_one_of_nonpos₀ (by norm_num) (by norm_num)
    have a2 : (1 : ℝ) ≤ 2 ^ (1024 : ℕ) := one_le_pow₀ (by norm_num)
    generalize (2 : ℝ) ^ (1024 : ℕ) = a at *
    linarith
  rw [abs_of_pos h0, max_eq_left (h5.trans h3)] at h4
  have h6 := (abs_le.1 h4).1
  have h7 := eps_small P
  have h8 : huge < P.fn f v := by
    have := huge_lt
    have h9 : P.ε * f.exact v ≤ 1e-12 * f.exact v := mul_le_mul_of_nonneg_right h7 h0.le
    generalize (2 : ℝ) ^ (1024 : ℕ) = a at *
    linarith
  have hh : (0 : ℝ) < huge := lt_of_lt_of_le (by positivity) two_pow_1001_le_huge
  unfold F64.out
  rw [if_neg (not_le.2 (h8.trans_le (le_abs_self _)))]
  simp [(hh.trans h8).le]

/-- `exp` overflows from 711 on. -/
theorem exp_overflow {η : ℝ} (h : 711 ≤ η) : (Elem.exp (.fin η) : F64 P) = .inf false := by
  refine out_overflow (f := .exp) ?_
  show _ ≤ exp η
  have h1 := exp_711 h
  rw [pow_succ (2 : ℝ) 1024] at h1
  have : (0 : ℝ) < 2 ^ (1024 : ℕ) := by positivity
  generalize (2 : ℝ) ^ (1024 : ℕ) = a at *
  linarith

/-- `sinh` overflows from 711 on. -/
theorem sinh_overflow {η : ℝ} (h : 711 ≤ η) : (Elem.sinh (.fin η) : F64 P) = .inf false := by
  refine out_overflow (f := .sinh) ?_
  show _ ≤ sinh η
  have h1 := exp_711 h
  have h2 : exp (-η) ≤ 1 := exp_le_one_iff.2 (by linarith)
  rw [sinh_eq]
  rw [pow_succ (2 : ℝ) 1024] at h1
  have : (10 : ℝ) ≤ 2 ^ (1024 : ℕ) := by
    calc (10 : ℝ) ≤ 2 ^ 4 := by norm_num
      _ ≤ 2 ^ 1024 := pow_le_pow_right₀ (by norm_num) (by norm_num)
  generalize (2 : ℝ) ^ (1024 : ℕ) = a at *
  linarith

theorem neverFinite_exp {η : ℝ} (h : 711 ≤ η) : NeverFinite (Elem.exp (.fin η) : F64 P) := by
  rw [exp_overflow h]; rintro v ⟨⟩

theorem neverFinite_sinh {η : ℝ} (h : 711 ≤ η) : NeverFinite (Elem.sinh (.fin η) : F64 P) := by
  rw [sinh_overflow h]; rintro v ⟨⟩

theorem neverFinite_add_left (h : NeverFinite x) : NeverFinite (x + y) := by
  rcases x with x | s | _ | _
  · exact absurd rfl (h x)
  all_goals
    rcases y with y | t | _ | _ <;> intro v <;> show F64.bin _ _ _ _ _ _ ≠ _ <;> simp only [F64.bin] <;> (try split_ifs) <;>
      rintro ⟨⟩

theorem neverFinite_add_right (h : NeverFinite y) : NeverFinite (x + y) := by
  rcases y with y | s | _ | _
  · exact absurd rfl (h y)
  all_goals
    rcases x with x | t | _ | _ <;> intro v <;> show F64.bin _ _ _ _ _ _ ≠ _ <;> simp only [F64.bin] <;> (try split_ifs) <;>
      rintro ⟨⟩

theorem neverFinite_sub_left (h : NeverFinite x) : NeverFinite (x - y) := by
  rcases x with x | s | _ | _
  · exact absurd rfl (h x)
  all_goals
    rcases y with y | t | _ | _ <;> intro v <;> show F64.bin _ _ _ _ _ _ ≠ _ <;> simp only [F64.bin] <;> (try split_ifs) <;>
      rintro ⟨⟩

theorem neverFinite_sub_right (h : NeverFinite y) : NeverFinite (x - y) := by
  rcases y with y | s | _ | _
  · exact absurd rfl (h y)
  all_goals
    rcases x with x | t | _ | _ <;> intro v <;> show F64.bin _ _ _ _ _ _ ≠ _ <;> simp only [F64.bin] <;> (try split_ifs) <;>
      rintro ⟨⟩

theorem neverFinite_mul_left (h : NeverFinite x) : NeverFinite (x * y) := by
  rcases x with x | s | _ | _
  · exact absurd rfl (h x)
  all_goals
    rcases y with y | t | _ | _ <;> intro v <;> show F64.bin _ _ _ _ _ _ ≠ _ <;> simp only [F64.bin] <;> (try split_ifs) <;>
      rintro ⟨⟩

theorem neverFinite_mul_right (h : NeverFinite y) : NeverFinite (x * y) := by
  rcases y with y | s | _ | _
  · exact absurd rfl (h y)
  all_goals
    rcases x with x | t | _ | _ <;> intro v <;> show F64.bin _ _ _ _ _ _ ≠ _ <;> simp only [F64.bin] <;> (try split_ifs) <;>
      rintro ⟨⟩

theorem neverFinite_div_left (h : NeverFinite x) : NeverFinite (x / y) := by
  rcases x with x | s | _ | _
  · exact absurd rfl (h x)
  all_goals
    rcases y with y | t | _ | _ <;> intro v <;> show F64.bin _ _ _ _ _ _ ≠ _ <;> simp only [F64.bin] <;> rintro ⟨⟩

theorem neverFinite_neg (h : NeverFinite x) : NeverFinite (-x) := by
  rcases x with x | (_ | _) | _ | _
  · exact absurd rfl (h x)
  all_goals intro v; show F64.un _ _ _ _ ≠ _; simp only [F64.un]; rintro ⟨⟩

theorem neverFinite_ln (h : NeverFinite x) : NeverFinite (Elem.ln x) := by
  rcases x with x | (_ | _) | _ | _
  · exact absurd rfl (h x)
  all_goals intro v; show F64.un _ _ _ _ ≠ _; simp only [F64.un]; rintro ⟨⟩

/-- Search for an operand which is not finite. -/
syntax "never_finite" : tactic

macro_rules
  | `(tactic| never_finite) => `(tactic| first
    | exact neverFinite_sinh (by assumption)
    | exact neverFinite_exp (by assumption)
    | (apply neverFinite_neg; never_finite)
    | (apply neverFinite_ln; never_finite)
    | (apply neverFinite_add_left; never_finite)
    | (apply neverFinite_add_right; never_finite)
    | (apply neverFinite_sub_left; never_finite)
    | (apply neverFinite_sub_right; never_finite)
    | (apply neverFinite_mul_left; never_finite)
    | (apply neverFinite_mul_right; never_finite)
    | (apply neverFinite_div_left; never_finite))

end Polymers.Lemmas

namespace Polymers.Props

open Polymers.Ieee Polymers.Spec Polymers.Lemmas Polymers.ApiF

/-- None of the nondimensional energies is finite at the argument `y`, whatever the temperature. -/
structure NoneFinite {P : Platform} (e : EnergyMethodsF P) (y : F64 P) : Prop where
  nd_energy : ∀ T, NeverFinite (e.nd_energy y T)
  nd_energy_per_link : ∀ T, NeverFinite (e.nd_energy_per_link y T)
  nd_relative : ∀ T, NeverFinite (e.nd_relative y T)
  nd_relative_per_link : ∀ T, NeverFinite (e.nd_relative_per_link y T)

variable (P : Platform) (N : ℕ) (ℓ m k w ε₀ : F64 P) {η : ℝ}

/-- C73: no Gibbs energy of the freely jointed chain (fjc isotensional) is finite from the nondimensional force 711 on: `sinh` overflows. -/
theorem C73_fjc_isotensional_overflow (hη : 711 ≤ η) : NoneFinite (fjc_isotensional_gibbs N ℓ m ) (.fin η) := by
  constructor <;> intro T <;> never_finite

/-- C73: no Gibbs energy of harmonic links (efjc isotensional asymptotic) is finite from the nondimensional force 711 on: `sinh` overflows. -/
theorem C73_efjc_isotensional_asymptotic_overflow (hη : 711 ≤ η) : NoneFinite (efjc_isotensional_asymptotic_gibbs N ℓ m k) (.fin η) := by
  constructor <;> intro T <;> never_finite

/-- C73: no Gibbs energy of harmonic links (efjc isotensional asymptotic alternative) is finite from the nondimensional force 711 on: `sinh` overflows. -/
theorem C73_efjc_isotensional_asymptotic_alternative_overflow (hη : 711 ≤ η) : NoneFinite (efjc_isotensional_asymptotic_alternative_gibbs N ℓ m k) (.fin η) := by
  constructor <;> intro T <;> never_finite

/-- C73: no Gibbs energy of harmonic links (efjc isotensional asymptotic reduced) is finite from the nondimensional force 711 on: `sinh` overflows. -/
theorem C73_efjc_isotensional_asymptotic_reduced_overflow (hη : 711 ≤ η) : NoneFinite (efjc_isotensional_asymptotic_reduced_gibbs N ℓ m k) (.fin η) := by
  constructor <;> intro T <;> never_finite

/-- C73: no Gibbs energy of harmonic links (efjc isotensional) is finite from the nondimensional force 711 on: `sinh` overflows. -/
theorem C73_efjc_isotensional_overflow (hη : 711 ≤ η) : NoneFinite (efjc_isotensional_gibbs N ℓ m k) (.fin η) := by
  constructor <;> intro T <;> never_finite

/-- C73: no Gibbs energy of the square-well chain (swfjc isotensional) is finite from the nondimensional force 711 on: `sinh` overflows. -/
theorem C73_swfjc_isotensional_overflow (hη : 711 ≤ η) : NoneFinite (swfjc_isotensional_gibbs N ℓ m w) (.fin η) := by
  constructor <;> intro T <;> never_finite

/-- C73: no Gibbs energy of Lennard-Jones links (lennard jones isotensional asymptotic) is finite from the nondimensional force 711 on: `sinh` overflows. -/
theorem C73_lennard_jones_isotensional_asymptotic_overflow (hη : 711 ≤ η) : NoneFinite (lennard_jones_isotensional_asymptotic_gibbs N ℓ m k) (.fin η) := by
  constructor <;> intro T <;> never_finite

/-- C73: no Gibbs energy of Lennard-Jones links (lennard jones isotensional asymptotic reduced) is finite from the nondimensional force 711 on: `sinh` overflows. -/
theorem C73_lennard_jones_isotensional_asymptotic_reduced_overflow (hη : 711 ≤ η) : NoneFinite (lennard_jones_isotensional_asymptotic_reduced_gibbs N ℓ m k) (.fin η) := by
  constructor <;> intro T <;> never_finite

/-- C73: no Gibbs energy of log-squared links (log squared isotensional asymptotic) is finite from the nondimensional force 711 on: `sinh` overflows. -/
theorem C73_log_squared_isotensional_asymptotic_overflow (hη : 711 ≤ η) : NoneFinite (log_squared_isotensional_asymptotic_gibbs N ℓ m k) (.fin η) := by
  constructor <;> intro T <;> never_finite

/-- C73: no Gibbs energy of log-squared links (log squared isotensional asymptotic reduced) is finite from the nondimensional force 711 on: `sinh` overflows. -/
theorem C73_log_squared_isotensional_asymptotic_reduced_overflow (hη : 711 ≤ η) : NoneFinite (log_squared_isotensional_asymptotic_reduced_gibbs N ℓ m k) (.fin η) := by
  constructor <;> intro T <;> never_finite

/-- C73: no Gibbs energy of Morse links (morse isotensional asymptotic) is finite from the nondimensional force 711 on: `sinh` overflows. -/
theorem C73_morse_isotensional_asymptotic_overflow (hη : 711 ≤ η) : NoneFinite (morse_isotensional_asymptotic_gibbs N ℓ m k ε₀) (.fin η) := by
  constructor <;> intro T <;> never_finite

/-- C73: no Gibbs energy of Morse links (morse isotensional asymptotic reduced) is finite from the nondimensional force 711 on: `sinh` overflows. -/
theorem C73_morse_isotensional_asymptotic_reduced_overflow (hη : 711 ≤ η) : NoneFinite (morse_isotensional_asymptotic_reduced_gibbs N ℓ m k ε₀) (.fin η) := by
  constructor <;> intro T <;> never_finite

/-- A force of 800 on a machine with correct rounding. -/
example : NeverFinite ((fjc_isotensional_gibbs 8 (1.0 : F64 correctlyRounded) 1.0).nd_relative_per_link (.fin 800) (.fin 300)) :=
  (C73_fjc_isotensional_overflow correctlyRounded 8 1.0 1.0 (by norm_num)).nd_relative_per_link _

/-! The Helmholtz energies obtained from them by a Legendre transformation. -/

/-- C73: the same for the Helmholtz energy (fjc isotensional, Legendre). -/
theorem C73_fjc_isotensional_legendre_overflow (hη : 711 ≤ η) :
    NoneFinite (fjc_isotensional_legendre_helmholtz N ℓ m ) (.fin η) := by
  constructor <;> intro T <;> never_finite

/-- C73: the same for the Helmholtz energy (efjc isotensional asymptotic, Legendre). -/
theorem C73_efjc_isotensional_asymptotic_legendre_overflow (hη : 711 ≤ η) :
    NoneFinite (efjc_isotensional_asymptotic_legendre_helmholtz N ℓ m k) (.fin η) := by
  constructor <;> intro T <;> never_finite

/-- C73: the same for the Helmholtz energy (efjc isotensional asymptotic alternative, Legendre). -/
theorem C73_efjc_isotensional_asymptotic_alternative_legendre_overflow (hη : 711 ≤ η) :
    NoneFinite (efjc_isotensional_asymptotic_alternative_legendre_helmholtz N ℓ m k) (.fin η) := by
  constructor <;> intro T <;> never_finite

/-- C73: the same for the Helmholtz energy (efjc isotensional asymptotic reduced, Legendre). -/
theorem C73_efjc_isotensional_asymptotic_reduced_legendre_overflow (hη : 711 ≤ η) :
    NoneFinite (efjc_isotensional_asymptotic_reduced_legendre_helmholtz N ℓ m k) (.fin η) := by
  constructor <;> intro T <;> never_finite

/-- C73: the same for the Helmholtz energy (efjc isotensional, Legendre). -/
theorem C73_efjc_isotensional_legendre_overflow (hη : 711 ≤ η) :
    NoneFinite (efjc_isotensional_legendre_helmholtz N ℓ m k) (.fin η) := by
  constructor <;> intro T <;> never_finite

/-- C73: the same for the Helmholtz energy (swfjc isotensional, Legendre). -/
theorem C73_swfjc_isotensional_legendre_overflow (hη : 711 ≤ η) :
    NoneFinite (swfjc_isotensional_legendre_helmholtz N ℓ m w) (.fin η) := by
  constructor <;> intro T <;> never_finite

/-- C73: the same for the Helmholtz energy (lennard jones isotensional asymptotic, Legendre). -/
theorem C73_lennard_jones_isotensional_asymptotic_legendre_overflow (hη : 711 ≤ η) :
    NoneFinite (lennard_jones_isotensional_asymptotic_legendre_helmholtz N ℓ m k) (.fin η) := by
  constructor <;> intro T <;> never_finite

/-- C73: the same for the Helmholtz energy (lennard jones isotensional asymptotic reduced, Legendre). -/
theorem C73_lennard_jones_isotensional_asymptotic_reduced_legendre_overflow (hη : 711 ≤ η) :
    NoneFinite (lennard_jones_isotensional_asymptotic_reduced_legendre_helmholtz N ℓ m k) (.fin η) := by
  constructor <;> intro T <;> never_finite

/-- C73: the same for the Helmholtz energy (log squared isotensional asymptotic, Legendre). -/
theorem C73_log_squared_isotensional_asymptotic_legendre_overflow (hη : 711 ≤ η) :
    NoneFinite (log_squared_isotensional_asymptotic_legendre_helmholtz N ℓ m k) (.fin η) := by
  constructor <;> intro T <;> never_finite

/-- C73: the same for the Helmholtz energy (log squared isotensional asymptotic reduced, Legendre). -/
theorem C73_log_squared_isotensional_asymptotic_reduced_legendre_overflow (hη : 711 ≤ η) :
    NoneFinite (log_squared_isotensional_asymptotic_reduced_legendre_helmholtz N ℓ m k) (.fin η) := by
  constructor <;> intro T <;> never_finite

/-- C73: the same for the Helmholtz energy (morse isotensional asymptotic, Legendre). -/
theorem C73_morse_isotensional_asymptotic_legendre_overflow (hη : 711 ≤ η) :
    NoneFinite (morse_isotensional_asymptotic_legendre_helmholtz N ℓ m k ε₀) (.fin η) := by
  constructor <;> intro T <;> never_finite

/-- C73: the same for the Helmholtz energy (morse isotensional asymptotic reduced, Legendre). -/
theorem C73_morse_isotensional_asymptotic_reduced_legendre_overflow (hη : 711 ≤ η) :
    NoneFinite (morse_isotensional_asymptotic_reduced_legendre_helmholtz N ℓ m k ε₀) (.fin η) := by
  constructor <;> intro T <;> never_finite

/-! Two chains lose their extension as well. -/

/-- C73: the extension of the square-well chain is not finite from the nondimensional force 711 on. -/
theorem C73_swfjc_length_overflow (hη : 711 ≤ η) (T : F64 P) :
    NeverFinite ((swfjc_isotensional_lengths N ℓ m w).nd_length (.fin η) T) ∧
    NeverFinite ((swfjc_isotensional_lengths N ℓ m w).nd_length_per_link (.fin η) T) := by
  constructor <;> never_finite

/-- C73: the exact extension of harmonic links is not finite from the nondimensional force 711 on. -/
theorem C73_efjc_length_overflow (hη : 711 ≤ η) (T : F64 P) :
    NeverFinite ((efjc_isotensional_lengths N ℓ m k).nd_length (.fin η) T) ∧
    NeverFinite ((efjc_isotensional_lengths N ℓ m k).nd_length_per_link (.fin η) T) := by
  constructor <;> never_finite

end Polymers.Props
