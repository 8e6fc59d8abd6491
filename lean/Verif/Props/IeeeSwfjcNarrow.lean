import Verif.Props.IeeeSwfjcEnergy
import Verif.Props.IeeeOverflow

/-! C99: a square well that is too narrow for the floating-point numbers. -/

namespace Polymers.Props

open Polymers.Ieee Polymers.Spec Polymers.Lemmas
open Polymers.swfjc.thermodynamics.isotensional

variable {P : Platform} {N : ℕ} {ℓ m c T f η W n s t : ℝ} {a b : ℤ} {x y z : F64 P}

/-- The difference of close numbers is exact. -/
theorem sterbenz (hs : s ∈ grid) (ht : t ∈ grid) (h0 : 0 < s) (h1 : s / 2 ≤ t) (h2 : t ≤ 2 * s) : t - s ∈ grid := by
  obtain ⟨k, e, hk, he, rfl⟩ := hs
  obtain ⟨l, d, hl, hd, rfl⟩ := ht
  have cast : ∀ {i : ℤ}, |i| < 2 ^ 53 → (|i| : ℝ) < 2 ^ 53 := fun {i} h => by exact_mod_cast h
  rcases le_total d e with hde | hde
  · obtain ⟨j, rfl⟩ := Int.le.dest hde
    have e1 : (l : ℝ) * 2 ^ d - k * 2 ^ (d + (j : ℤ)) = ((l - k * 2 ^ j : ℤ) : ℝ) * 2 ^ d := by
      rw [zpow_add₀ (by norm_num), zpow_natCast]; push_cast; ring
    refine ⟨l - k * 2 ^ j, d, ?_, hd, e1⟩
    have hp : (0 : ℝ) < 2 ^ d := by positivity
    have h3 : |((l - k * 2 ^ j : ℤ) : ℝ) * 2 ^ d| ≤ |(l : ℝ)| * 2 ^ d := by
      rw [← e1]
      have : (l : ℝ) * 2 ^ d ≤ |(l : ℝ)| * 2 ^ d := mul_le_mul_of_nonneg_right (le_abs_self _) hp.le
      rw [abs_le]; constructor <;> linarith
    rw [abs_mul, abs_of_pos hp] at h3
    have h4 := (le_of_mul_le_mul_right h3 hp).trans_lt (cast hl)
    exact_mod_cast h4
  · obtain ⟨j, rfl⟩ := Int.le.dest hde
    have e1 : (l : ℝ) * 2 ^ (e + (j : ℤ)) - k * 2 ^ e = ((l * 2 ^ j - k : ℤ) : ℝ) * 2 ^ e := by
      rw [zpow_add₀ (by norm_num), zpow_natCast]; push_cast; ring
    refine ⟨l * 2 ^ j - k, e, ?_, he, e1⟩
    have hp : (0 : ℝ) < 2 ^ e := by positivity
    have h3 : |((l * 2 ^ j - k : ℤ) : ℝ) * 2 ^ e| ≤ |(k : ℝ)| * 2 ^ e := by
      rw [← e1]
      have : (k : ℝ) * 2 ^ e ≤ |(k : ℝ)| * 2 ^ e := mul_le_mul_of_nonneg_right (le_abs_self _) hp.le
      rw [abs_le]; constructor <;> linarith
    rw [abs_mul, abs_of_pos hp] at h3
    have h4 := (le_of_mul_le_mul_right h3 hp).trans_lt (cast hk)
    exact_mod_cast h4

/-- The width of a narrow well is lost. -/
theorem narrow_well (hℓ : 0 < ℓ) (hW : 0 ≤ W) (h : W ≤ 2 ^ (-56 : ℤ) * ℓ) : (1.0 : F64 P) + .fin W / .fin ℓ = .fin 1 := by
  have q0 : 0 ≤ W / ℓ := by positivity
  have q1 : W / ℓ ≤ 2 ^ (-56 : ℤ) := by rwa [div_le_iff₀ hℓ]
  have g := grid_zpow (e := -56) (by norm_num)
  have r0 : 0 ≤ P.rnd (W / ℓ) := by rw [← rnd_of_mem P grid_zero]; exact rnd_mono P q0
  have r1 : P.rnd (W / ℓ) ≤ 2 ^ (-56 : ℤ) := by rw [← rnd_of_mem P g]; exact rnd_mono P q1
  have big : (1 : ℝ) ≤ 2 ^ (1010 : ℤ) := one_le_zpow₀ (by norm_num) (by norm_num)
  have small : (2 : ℝ) ^ (-56 : ℤ) < 2 ^ (-55 : ℤ) * 1 := by norm_num
  have e1 : (.fin W / .fin ℓ : F64 P) = .fin (P.rnd (W / ℓ)) := by
    show (if ℓ = 0 then _ else F64.out (P.rnd (W / ℓ))) = _
    rw [if_neg hℓ.ne']
    refine out_of_le ?_
    rw [abs_of_nonneg r0]
    exact (r1.trans (zpow_le_one_of_nonpos₀ (by norm_num) (by norm_num))).trans big
  rw [e1, lit_one]
  show F64.out (P.rnd (1 + P.rnd (W / ℓ))) = _
  rw [rnd_eq_of_close grid_one (zpow_le_one_of_nonpos₀ (by norm_num) (by norm_num)) (by
    rw [add_sub_cancel_left, abs_of_nonneg r0]; exact r1.trans_lt small)]
  exact out_of_le (by rwa [abs_one])

/-- The partition function of a link is then exactly zero. -/
theorem narrow_sum (hG : ∀ f v, P.fn f v ∈ grid) (hη : η ∈ grid) (h0 : 2 ^ (-900 : ℤ) ≤ η) (h1 : η ≤ 1) :
    (.fin 1 : F64 P) * .fin η = .fin η ∧
    (.fin η : F64 P) * Elem.cosh (.fin η) - Elem.sinh (.fin η) - .fin η * Elem.cosh (.fin η) + Elem.sinh (.fin η) = .fin 0 := by
  have hp := eps_pos P
  have hs := eps_small P
  have hη0 : 0 < η := lt_of_lt_of_le (by positivity) h0
  have big : (100 : ℝ) ≤ 2 ^ (1010 : ℤ) := by
    calc (100 : ℝ) ≤ 2 ^ (7 : ℤ) := by norm_num
      _ ≤ _ := two_zpow_mono (by norm_num)
  have tiny : (2 : ℝ) ^ (-1022 : ℤ) ≤ 2 ^ (-900 : ℤ) := two_zpow_mono (by norm_num)
  have tiny' : (2 : ℝ) ^ (-1022 : ℤ) ≤ η / 2 := by
    have : (2 : ℝ) ^ (-1022 : ℤ) * 2 ≤ 2 ^ (-900 : ℤ) := by
      rw [← zpow_add_one₀ (by norm_num)]; exact two_zpow_mono (by norm_num)
    linarith
  have s0 : η ≤ Real.sinh η := Real.self_le_sinh_iff.2 hη0.le
  have sp : 0 < Real.sinh η := by linarith
  have c0 := Real.one_le_cosh η
  have c3 : Real.cosh η ≤ 3 := (cosh_le_exp' hη0.le).trans ((Real.exp_le_exp.2 h1).trans (by linarith [Real.exp_one_lt_d9]))
  have g1 := swG_pos hη0
  have g2 := swG_le_third hη0
  unfold swG at g1 g2
  have g3 : η * Real.cosh η ≤ 4 / 3 * Real.sinh η := by
    have : η ^ 2 * Real.sinh η ≤ 1 * Real.sinh η := mul_le_mul_of_nonneg_right (pow_le_one₀ hη0.le h1) sp.le
    linarith
  have eS := P.fn_err .sinh η
  have eC := P.fn_err .cosh η
  simp only [Fn.exact] at eS eC
  rw [abs_of_pos sp, max_eq_left (by linarith)] at eS
  rw [abs_of_pos (by linarith : (0 : ℝ) < Real.cosh η), max_eq_left (by linarith)] at eC
  set S := P.fn .sinh η with hS
  set C := P.fn .cosh η with hC
  have eS' : |S - Real.sinh η| ≤ 0.01 * Real.sinh η := eS.trans (mul_le_mul_of_nonneg_right (by linarith) sp.le)
  have eC' : |C - Real.cosh η| ≤ 0.01 * Real.cosh η := eC.trans (mul_le_mul_of_nonneg_right (by linarith) (by linarith))
  obtain ⟨S1, S2⟩ := abs_le.1 eS'
  obtain ⟨C1, C2⟩ := abs_le.1 eC'
  have hSb : Real.sinh η ≤ 3 := (Real.sinh_lt_cosh η).le.trans c3
  have hC0 : 0.99 ≤ C := by linarith
  have k1 : η * (0.99 * Real.cosh η) ≤ η * C := mul_le_mul_of_nonneg_left (by linarith) hη0.le
  have k2 : η * C ≤ η * (1.01 * Real.cosh η) := mul_le_mul_of_nonneg_left (by linarith) hη0.le
  have hηC : 0 < η * C := by positivity
  have eA := rnd_err' P (η * C)
  rw [abs_of_pos hηC, max_eq_left (by nlinarith)] at eA
  have eA' : |P.rnd (η * C) - η * C| ≤ 0.01 * (η * C) := eA.trans (mul_le_mul_of_nonneg_right (by linarith) hηC.le)
  obtain ⟨A1, A2⟩ := abs_le.1 eA'
  have mA := P.rnd_mem (η * C)
  set A := P.rnd (η * C) with hA
  have mS : S ∈ grid := hG .sinh η
  have hSpos : 0 < S := by linarith
  have hst := sterbenz mS mA hSpos (by linarith) (by linarith)
  have f1 : (Elem.sinh (.fin η) : F64 P) = .fin S := by
    show F64.out S = _
    refine out_of_le ?_
    rw [abs_of_pos hSpos]; exact le_trans (by linarith) big
  have f2 : (Elem.cosh (.fin η) : F64 P) = .fin C := by
    show F64.out C = _
    refine out_of_le ?_
    rw [abs_of_pos (by linarith)]; exact le_trans (by linarith) big
  have f3 : (.fin η : F64 P) * .fin C = .fin A := by
    show F64.out A = _
    refine out_of_le ?_
    rw [abs_of_pos (by linarith)]; exact le_trans (by linarith) big
  refine ⟨?_, ?_⟩
  · show F64.out (P.rnd (1 * η)) = _
    rw [one_mul, rnd_of_mem P hη]
    refine out_of_le ?_
    rw [abs_of_pos hη0]; exact le_trans (by linarith) big
  · rw [f1, f2, f3]
    have f4 : (.fin A : F64 P) - .fin S = .fin (A - S) := by
      show F64.out (P.rnd (A - S)) = _
      rw [rnd_of_mem P hst]
      refine out_of_le ?_
      exact le_trans (abs_le.2 ⟨by linarith, by linarith⟩) big
    have f5 : (.fin (A - S) : F64 P) - .fin A = .fin (-S) := by
      show F64.out (P.rnd (A - S - A)) = _
      rw [show A - S - A = -S by ring, rnd_of_mem P (grid_neg mS)]
      refine out_of_le ?_
      exact le_trans (abs_le.2 ⟨by linarith, by linarith⟩) big
    rw [f4, f5]
    show F64.out (P.rnd (-S + S)) = _
    rw [neg_add_cancel, rnd_of_mem P grid_zero]
    refine out_of_le ?_
    rw [abs_zero]; positivity

theorem neverFinite_div_zero : NeverFinite (x / .fin 0) := by
  rcases x with x | s | _ | _
  · intro v
    show (if (0 : ℝ) = 0 then (if x = 0 then (F64.nan : F64 P) else .inf _) else _) ≠ _
    rw [if_pos rfl]
    split_ifs <;> rintro ⟨⟩
  all_goals intro v; rintro ⟨⟩

theorem neverFinite_ln_zero : NeverFinite (Elem.ln (.fin 0) : F64 P) := by
  intro v
  show (if (0 : ℝ) < 0 then _ else if (0 : ℝ) = 0 then (F64.inf true : F64 P) else _) ≠ _
  rw [if_neg (lt_irrefl _), if_pos rfl]
  rintro ⟨⟩

theorem narrow_length (hG : ∀ f v, P.fn f v ∈ grid) (hℓ : 0 < ℓ) (hW : 0 ≤ W) (hn : W ≤ 2 ^ (-56 : ℤ) * ℓ) (hη : η ∈ grid) (h0 : 2 ^ (-900 : ℤ) ≤ η) (h1 : η ≤ 1) :
    NeverFinite (nondimensional_end_to_end_length_per_link (.fin ℓ) (.fin W) (.fin η) : F64 P) := by
  obtain ⟨e1, e2⟩ := narrow_sum hG hη h0 h1
  unfold nondimensional_end_to_end_length_per_link
  simp only [narrow_well hℓ hW hn, e1, e2]
  exact neverFinite_sub_left neverFinite_div_zero

theorem narrow_gibbs (hG : ∀ f v, P.fn f v ∈ grid) (hℓ : 0 < ℓ) (hW : 0 ≤ W) (hn : W ≤ 2 ^ (-56 : ℤ) * ℓ) (hη : η ∈ grid) (h0 : 2 ^ (-900 : ℤ) ≤ η) (h1 : η ≤ 1)
    (mF TF : F64 P) : NeverFinite (nondimensional_gibbs_free_energy_per_link (.fin ℓ) mF (.fin W) (.fin η) TF : F64 P) := by
  obtain ⟨e1, e2⟩ := narrow_sum hG hη h0 h1
  unfold nondimensional_gibbs_free_energy_per_link
  simp only [narrow_well hℓ hW hn, e1, e2]
  exact neverFinite_sub_left (neverFinite_sub_right neverFinite_ln_zero)

theorem out_grid {v w : ℝ} (h : (F64.out (P.rnd v) : F64 P) = .fin w) : w ∈ grid := by
  unfold F64.out at h
  split_ifs at h
  cases h
  exact P.rnd_mem v

theorem div_grid {w : ℝ} (h : x / y = .fin w) : w ∈ grid := by
  rcases x with x | s | _ | _ <;> rcases y with y | t | _ | _ <;> try cases h
  · replace h : (if y = 0 then (if x = 0 then (F64.nan : F64 P) else .inf (decide (x < 0))) else F64.out (P.rnd (x / y))) = .fin w := by
      rw [← h]; show _ = F64.bin _ _ _ _ _ _; simp only [F64.bin]
    split_ifs at h
    exact out_grid h
  · exact grid_zero

/-- The force the dimensional energies are relative to. -/
theorem narrow_reference (hℓ : Moderate ℓ) (hℓ0 : 0 < ℓ) (hT : Moderate T) (hT0 : 0 < T) :
    ∃ v : ℝ, (Polymers.ZERO : F64 P) * (Polymers.BOLTZMANN_CONSTANT : F64 P) * .fin T / .fin ℓ * .fin ℓ / (Polymers.BOLTZMANN_CONSTANT : F64 P) / .fin T = .fin v ∧
      v ∈ grid ∧ 2 ^ (-900 : ℤ) ≤ v ∧ v ≤ 1 := by
  have aT := acc_moderate (P := P) hT
  have aℓ := acc_moderate (P := P) hℓ
  have aK := acc_boltzmann (P := P)
  have hk0 := boltzmann_pos
  have h1 := Acc.div (Acc.mul (Acc.mul (zero_lit (P := P)) aK (by norm_num) (by norm_num) (by norm_num)) aT (by norm_num) (by norm_num) (by norm_num)) aℓ
    (by norm_num) (by norm_num) (by norm_num)
  have h2 := Acc.div (Acc.div (Acc.mul h1 aℓ (by norm_num) (by norm_num) (by norm_num)) aK (by norm_num) (by norm_num) (by norm_num)) aT (by norm_num) (by norm_num)
    (by norm_num)
  have e : (Polymers.ZERO : ℝ) * (Polymers.BOLTZMANN_CONSTANT : ℝ) * T / ℓ * ℓ / (Polymers.BOLTZMANN_CONSTANT : ℝ) / T = 1e-6 := by
    unfold Polymers.ZERO; field_simp
  obtain ⟨δ, hδ, hv⟩ := h2.rel
  rw [e] at hv
  have hδ' := abs_le.1 (hδ.trans (units_le_one P (by norm_num)))
  have u : Real.exp δ ≤ 3 := (Real.exp_le_exp.2 hδ'.2).trans (by linarith [Real.exp_one_lt_d9])
  have l : 0.1 ≤ Real.exp δ := by
    refine le_trans ?_ (Real.exp_le_exp.2 hδ'.1)
    rw [Real.exp_neg, le_inv_comm₀ (by norm_num) (Real.exp_pos _)]
    linarith [Real.exp_one_lt_d9]
  have tiny : (2 : ℝ) ^ (-900 : ℤ) ≤ 1e-7 := (two_zpow_mono (show (-900 : ℤ) ≤ -30 by norm_num)).trans (by norm_num)
  exact ⟨_, hv, div_grid hv, tiny.trans (by linarith), by linarith⟩

/-- C99: a well narrower than `2 ^ -56` of the link is lost in the rounding of one plus its relative width.  At forces of at most the thermal energy per link
length the computed partition function of a link is then exactly zero, and neither the nondimensional length nor the nondimensional Gibbs energy is a finite number,
while the exact values are near those of the freely jointed chain. -/
theorem C99_swfjc_narrow_well (P : Platform) (hG : ∀ f v, P.fn f v ∈ grid) (hℓ : 0 < ℓ) (hW : 0 ≤ W) (hn : W ≤ 2 ^ (-56 : ℤ) * ℓ) (hη : η ∈ grid)
    (h0 : 2 ^ (-900 : ℤ) ≤ η) (h1 : η ≤ 1) (N : ℕ) (m T : F64 P) :
    NeverFinite ((ApiF.swfjc_isotensional_lengths N (.fin ℓ) m (.fin W)).nd_length (.fin η) T) ∧
    NeverFinite ((ApiF.swfjc_isotensional_lengths N (.fin ℓ) m (.fin W)).nd_length_per_link (.fin η) T) ∧
    NeverFinite ((ApiF.swfjc_isotensional_gibbs N (.fin ℓ) m (.fin W)).nd_energy (.fin η) T) ∧
    NeverFinite ((ApiF.swfjc_isotensional_gibbs N (.fin ℓ) m (.fin W)).nd_energy_per_link (.fin η) T) := by
  have k1 := narrow_length hG hℓ hW hn hη h0 h1
  have k2 := narrow_gibbs hG hℓ hW hn hη h0 h1 m T
  exact ⟨neverFinite_mul_right k1, k1, neverFinite_mul_right k2, k2⟩

/-- C99: the energies relative to the nearly vanishing force are then not finite at any force. -/
theorem C99_swfjc_narrow_well_relative (P : Platform) (hG : ∀ f v, P.fn f v ∈ grid) (hℓ : Moderate ℓ) (hℓ0 : 0 < ℓ) (hW : 0 ≤ W) (hn : W ≤ 2 ^ (-56 : ℤ) * ℓ)
    (N : ℕ) (m : F64 P) :
    (∀ x T : F64 P, NeverFinite ((ApiF.swfjc_isotensional_gibbs N (.fin ℓ) m (.fin W)).nd_relative x T) ∧
      NeverFinite ((ApiF.swfjc_isotensional_gibbs N (.fin ℓ) m (.fin W)).nd_relative_per_link x T)) ∧
    (∀ (x : F64 P) (T : ℝ), Moderate T → 0 < T → NeverFinite ((ApiF.swfjc_isotensional_gibbs N (.fin ℓ) m (.fin W)).relative x (.fin T)) ∧
      NeverFinite ((ApiF.swfjc_isotensional_gibbs N (.fin ℓ) m (.fin W)).relative_per_link x (.fin T))) := by
  refine ⟨fun x T => ?_, fun x T hT hT0 => ?_⟩
  · obtain ⟨δ, hδ, hv⟩ := (zero_lit (P := P)).rel
    have hδ' := abs_le.1 (hδ.trans (units_le_one P (by norm_num)))
    have u : Real.exp δ ≤ 3 := (Real.exp_le_exp.2 hδ'.2).trans (by linarith [Real.exp_one_lt_d9])
    have l : 0.1 ≤ Real.exp δ := by
      refine le_trans ?_ (Real.exp_le_exp.2 hδ'.1)
      rw [Real.exp_neg, le_inv_comm₀ (by norm_num) (Real.exp_pos _)]
      linarith [Real.exp_one_lt_d9]
    have tiny : (2 : ℝ) ^ (-900 : ℤ) ≤ 1e-7 := (two_zpow_mono (show (-900 : ℤ) ≤ -30 by norm_num)).trans (by norm_num)
    have ez : (Polymers.ZERO : ℝ) = 1e-6 := by unfold Polymers.ZERO; norm_num
    rw [ez] at hv
    have k := narrow_gibbs hG hℓ0 hW hn (out_grid hv) (tiny.trans (by linarith)) (by linarith) 1.0 300.0
    rw [← hv] at k
    exact ⟨neverFinite_sub_right (neverFinite_mul_right k), neverFinite_sub_right k⟩
  · obtain ⟨v, hv, g, lo, hi⟩ := narrow_reference (P := P) hℓ hℓ0 hT hT0
    have k := narrow_gibbs hG hℓ0 hW hn g lo hi 1.0 (.fin T)
    rw [← hv] at k
    exact ⟨neverFinite_sub_right (neverFinite_mul_right k), neverFinite_sub_right (neverFinite_mul_right k)⟩

/-- The library of the machine that rounds correctly returns floating-point numbers. -/
theorem correctlyRounded_fn_mem : ∀ f v, correctlyRounded.fn f v ∈ grid := fun _ _ => nearest_mem _

/-! ### Concrete cases: unit links with a well of the width 1e-17 -/

example := C99_swfjc_narrow_well correctlyRounded correctlyRounded_fn_mem (ℓ := 1) (W := 1e-17) one_pos (by norm_num) (by norm_num) grid_one
  (zpow_le_one_of_nonpos₀ (by norm_num) (by norm_num)) le_rfl 20 (.fin 1) (.fin 300)
example := (C99_swfjc_narrow_well_relative correctlyRounded correctlyRounded_fn_mem (ℓ := 1) (W := 1e-17) moderate_one one_pos (by norm_num) (by norm_num) 20 (.fin 1)).2
  (.fin 5000) 300 moderate_300 (by norm_num)

end Polymers.Props
