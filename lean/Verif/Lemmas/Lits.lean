import Verif.Lemmas.LitsAttr
import Verif.Model.RealInst
import Mathlib.Tactic.NormNum

/-! Decimal literals of the model at `ℝ`. -/

namespace Polymers

attribute [model_real] elem_exp elem_ln elem_log10 elem_sinh elem_cosh elem_tanh elem_sin elem_cos elem_acos elem_atanh
  elem_sqrt elem_abs elem_ceil elem_powi elem_powf elem_pi elem_lt elem_le elem_toNat zpow_ofNat fsum_eq

@[model_real] theorem lit_1_0 : (1.0 : ℝ) = 1 := by norm_num
@[model_real] theorem lit_300_0 : (300.0 : ℝ) = 300 := by norm_num
@[model_real] theorem lit_2_0 : (2.0 : ℝ) = 2 := by norm_num
@[model_real] theorem lit_0_5 : (0.5 : ℝ) = 1 / 2 := by norm_num
@[model_real] theorem lit_8_0 : (8.0 : ℝ) = 8 := by norm_num
@[model_real] theorem lit_1_5 : (1.5 : ℝ) = 3 / 2 := by norm_num
@[model_real] theorem lit_4_0 : (4.0 : ℝ) = 4 := by norm_num
@[model_real] theorem lit_3_0 : (3.0 : ℝ) = 3 := by norm_num
@[model_real] theorem lit_0_0 : (0.0 : ℝ) = 0 := by norm_num
@[model_real] theorem lit_6_0 : (6.0 : ℝ) = 6 := by norm_num
@[model_real] theorem lit_1em6 : (1e-6 : ℝ) = 1 / 1000000 := by norm_num
@[model_real] theorem lit_0_95 : (0.95 : ℝ) = 19 / 20 := by norm_num
@[model_real] theorem lit_72_0 : (72.0 : ℝ) = 72 := by norm_num
@[model_real] theorem lit_7_0 : (7.0 : ℝ) = 7 := by norm_num
@[model_real] theorem lit_23_0 : (23.0 : ℝ) = 23 := by norm_num
@[model_real] theorem lit_13_0 : (13.0 : ℝ) = 13 := by norm_num
@[model_real] theorem lit_0_4 : (0.4 : ℝ) = 2 / 5 := by norm_num
@[model_real] theorem lit_1em8 : (1e-8 : ℝ) = 1 / 100000000 := by norm_num
@[model_real] theorem lit_0_75 : (0.75 : ℝ) = 3 / 4 := by norm_num
@[model_real] theorem lit_0_125 : (0.125 : ℝ) = 1 / 8 := by norm_num
@[model_real] theorem lit_0_111 : (0.111 : ℝ) = 111 / 1000 := by norm_num
@[model_real] theorem lit_5_0 : (5.0 : ℝ) = 5 := by norm_num
@[model_real] theorem lit_6_40 : (6.40 : ℝ) = 32 / 5 := by norm_num
@[model_real] theorem lit_2em8 : (2e-8 : ℝ) = 1 / 50000000 := by norm_num
@[model_real] theorem lit_14_054 : (14.054 : ℝ) = 7027 / 500 := by norm_num
@[model_real] theorem lit_1_0625 : (1.0625 : ℝ) = 17 / 16 := by norm_num
@[model_real] theorem lit_0_783 : (0.783 : ℝ) = 783 / 1000 := by norm_num
@[model_real] theorem lit_0_5625 : (0.5625 : ℝ) = 9 / 16 := by norm_num
@[model_real] theorem lit_0_473 : (0.473 : ℝ) = 473 / 1000 := by norm_num
@[model_real] theorem lit_0_38 : (0.38 : ℝ) = 19 / 50 := by norm_num
@[model_real] theorem lit_0_2 : (0.2 : ℝ) = 1 / 5 := by norm_num
@[model_real] theorem lit_0_177 : (0.177 : ℝ) = 177 / 1000 := by norm_num
@[model_real] theorem lit_7_75 : (7.75 : ℝ) = 31 / 4 := by norm_num
@[model_real] theorem lit_500_0 : (500.0 : ℝ) = 500 := by norm_num
@[model_real] theorem lit_2em6 : (2e-6 : ℝ) = 1 / 500000 := by norm_num
@[model_real] theorem lit_2_5 : (2.5 : ℝ) = 5 / 2 := by norm_num
@[model_real] theorem lit_1em5 : (1e-5 : ℝ) = 1 / 100000 := by norm_num
@[model_real] theorem lit_1em3 : (1e-3 : ℝ) = 1 / 1000 := by norm_num
@[model_real] theorem lit_112_04 : (112.04 : ℝ) = 2801 / 25 := by norm_num
@[model_real] theorem lit_1_25 : (1.25 : ℝ) = 5 / 4 := by norm_num
@[model_real] theorem lit_0_9999 : (0.9999 : ℝ) = 9999 / 10000 := by norm_num
@[model_real] theorem lit_0_25 : (0.25 : ℝ) = 1 / 4 := by norm_num
@[model_real] theorem lit_0_246 : (0.246 : ℝ) = 123 / 500 := by norm_num
@[model_real] theorem lit_50_0 : (50.0 : ℝ) = 50 := by norm_num
@[model_real] theorem lit_4_5 : (4.5 : ℝ) = 9 / 2 := by norm_num
@[model_real] theorem lit_4_22785 : (4.22785 : ℝ) = 84557 / 20000 := by norm_num
@[model_real] theorem lit_2_14234 : (2.14234 : ℝ) = 107117 / 50000 := by norm_num
@[model_real] theorem lit_3_75 : (3.75 : ℝ) = 15 / 4 := by norm_num
@[model_real] theorem lit_26_7 : (26.7 : ℝ) = 267 / 10 := by norm_num
@[model_real] theorem lit_6_1 : (6.1 : ℝ) = 61 / 10 := by norm_num
@[model_real] theorem lit_5e7 : (5e7 : ℝ) = 50000000 := by norm_num
@[model_real] theorem lit_400_0 : (400.0 : ℝ) = 400 := by norm_num
@[model_real] theorem lit_15_0 : (15.0 : ℝ) = 15 := by norm_num
@[model_real] theorem lit_25_0 : (25.0 : ℝ) = 25 := by norm_num
@[model_real] theorem lit_0_71716 : (0.71716 : ℝ) = 17929 / 25000 := by norm_num
@[model_real] theorem lit_0_41103 : (0.41103 : ℝ) = 41103 / 100000 := by norm_num
@[model_real] theorem lit_0_39165 : (0.39165 : ℝ) = 7833 / 20000 := by norm_num

/-- Boltzmann's constant at `ℝ`. -/
theorem boltzmann_eq : (BOLTZMANN_CONSTANT : ℝ) = 8.314462618 := rfl
theorem boltzmann_pos : 0 < (BOLTZMANN_CONSTANT : ℝ) := by rw [boltzmann_eq]; norm_num
theorem planck_pos : 0 < (PLANCK_CONSTANT : ℝ) := by unfold PLANCK_CONSTANT; norm_num
theorem zero_eq : (ZERO : ℝ) = 1e-6 := rfl
theorem zero_pos' : 0 < (ZERO : ℝ) := by rw [zero_eq]; norm_num

end Polymers
