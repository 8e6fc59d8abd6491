import Verif.Spec.Temperature
import Verif.Props.Increase
import Verif.Props.WlcIsotensional

/-! What heating does to a chain (C86). -/

namespace Polymers.Props

open Polymers.Spec Polymers.Api Polymers.Lemmas Set

theorem kT_ratio {T T' : ℝ} (hT : 0 < T) : kT T' = T' / T * kT T := by
  unfold kT
  field_simp

theorem _root_.Polymers.Spec.ForceMethods.Entropic.of_nd {p : ForceMethods} {N : ℕ} {ℓ : ℝ} (hs : p.Scales ℓ (ndLength N ℓ))
    (h : ∀ γ T T', p.nd_force γ T' = p.nd_force γ T) : p.Entropic := fun ξ T T' hT hT' => by
  rw [hs ξ T' hT', hs ξ T hT, kT_ratio (T' := T') hT, h _ T T']
  unfold ndLength
  ring

theorem _root_.Polymers.Spec.EnergyMethods.Entropic.of_nd {e : EnergyMethods} {N : ℕ} {ℓ : ℝ} (hs : e.Scales N (ndLength N ℓ))
    (h : ∀ γ T T', e.nd_relative γ T' = e.nd_relative γ T)
    (h' : ∀ γ T T', e.nd_relative_per_link γ T' = e.nd_relative_per_link γ T) : e.Entropic where
  relative ξ T T' hT hT' := by
    rw [hs.relative ξ T' hT', hs.relative ξ T hT, kT_ratio (T' := T') hT, h _ T T']
    unfold ndLength
    ring
  relative_per_link ξ T T' hT hT' := by
    rw [hs.relative_per_link ξ T' hT', hs.relative_per_link ξ T hT, kT_ratio (T' := T') hT, h' _ T T']
    unfold ndLength
    ring

theorem ndForce_ratio {ℓ f T T' : ℝ} (hT : 0 < T) (hT' : 0 < T') : ndForce ℓ f T' = ndForce ℓ (T / T' * f) T := by
  unfold ndForce kT
  field_simp

theorem _root_.Polymers.Spec.LengthMethods.Entropic.of_nd {l : LengthMethods} {N : ℕ} {ℓ : ℝ} (hs : l.Scales N ℓ (ndForce ℓ))
    (h : ∀ η T T', l.nd_length η T' = l.nd_length η T)
    (h' : ∀ η T T', l.nd_length_per_link η T' = l.nd_length_per_link η T) : l.Entropic where
  length f T T' hT hT' := by
    rw [hs.length _ _ hT', hs.length _ _ hT, ndForce_ratio hT hT', h _ T T']
  length_per_link f T T' hT hT' := by
    rw [hs.length_per_link _ _ hT', hs.length_per_link _ _ hT, ndForce_ratio hT hT', h' _ T T']

theorem ndForce_lt {ℓ f T T' : ℝ} (hℓ : 0 < ℓ) (hT : 0 < T) (h : T < T') (hf : 0 < ndForce ℓ f T') :
    ndForce ℓ f T' < ndForce ℓ f T := by
  have hT' := hT.trans h
  have e : ndForce ℓ f T = T' / T * ndForce ℓ f T' := by unfold ndForce kT; field_simp
  rw [e]
  exact lt_mul_of_one_lt_left hf ((one_lt_div hT).2 h)

theorem _root_.Polymers.Spec.LengthMethods.Contracts.of_nd {l : LengthMethods} {N : ℕ} {ℓ : ℝ} {D : ℝ → ℝ → Prop}
    (hs : l.Scales N ℓ (ndForce ℓ)) (hN : 0 < N) (hℓ : 0 < ℓ)
    (h : ∀ f T T', 0 < T → T < T' → D (ndForce ℓ f T) T → D (ndForce ℓ f T') T' →
      l.nd_length_per_link (ndForce ℓ f T') T' < l.nd_length_per_link (ndForce ℓ f T) T) : l.Contracts ℓ D where
  length f T T' hT hTT h1 h2 := by
    have hN' : (0 : ℝ) < N := Nat.cast_pos.2 hN
    rw [hs.length _ _ hT, hs.length _ _ (hT.trans hTT), hs.nd_total _ _ hT, hs.nd_total _ _ (hT.trans hTT)]
    exact mul_lt_mul_of_pos_left (mul_lt_mul_of_pos_left (h f T T' hT hTT h1 h2) hN') hℓ
  length_per_link f T T' hT hTT h1 h2 := by
    rw [hs.length_per_link _ _ hT, hs.length_per_link _ _ (hT.trans hTT)]
    exact mul_lt_mul_of_pos_left (h f T T' hT hTT h1 h2) hℓ

/-- Chains whose nondimensional extension depends on the nondimensional force alone. -/
theorem _root_.Polymers.Spec.LengthMethods.Contracts.of_entropic {l : LengthMethods} {N : ℕ} {ℓ : ℝ} {D : ℝ → ℝ → Prop}
    (hs : l.Scales N ℓ (ndForce ℓ)) (hN : 0 < N) (hℓ : 0 < ℓ) (hD : ∀ η T, D η T → 0 < η)
    (hD' : ∀ η T T', D η T → D η T')
    (h : ∀ η T T', l.nd_length_per_link η T' = l.nd_length_per_link η T) (hi : l.Increases ℓ D) : l.Contracts ℓ D :=
  .of_nd hs hN hℓ fun f T T' hT hTT h1 h2 => by
    rw [h _ T T']
    exact hi.nd_length_per_link _ _ T hT (hD' _ _ _ h2) h1 (ndForce_lt hℓ hT hTT (hD _ _ h2))

/-! At a fixed end-to-end length. -/

/-- C86 for the ideal chain at a fixed length. -/
theorem C86_ideal_force (N : ℕ) (ℓ m : ℝ) (hN : 0 < N) (hℓ : 0 < ℓ) : (ideal_isometric_forces N ℓ m).Entropic :=
  .of_nd (C15_ideal_isometric_forces N ℓ m hN hℓ) fun _ _ _ => rfl

theorem C86_ideal_energy (N : ℕ) (ℓ m : ℝ) (hN : 0 < N) (hℓ : 0 < ℓ) : (ideal_isometric_helmholtz N ℓ m).Entropic :=
  .of_nd (C15_ideal_isometric_helmholtz N ℓ m hN hℓ) (fun _ _ _ => rfl) fun _ _ _ => rfl

/-- C86 for the freely jointed chain at a fixed length. -/
theorem C86_fjc_force (N : ℕ) (ℓ m : ℝ) (hN : 0 < N) (hℓ : 0 < ℓ) : (fjc_isometric_forces N ℓ m).Entropic :=
  .of_nd (C15_fjc_isometric_forces N ℓ m hN hℓ) fun _ _ _ => rfl

theorem C86_fjc_energy (N : ℕ) (ℓ m : ℝ) (hN : 0 < N) (hℓ : 0 < ℓ) : (fjc_isometric_helmholtz N ℓ m).Entropic :=
  .of_nd (C15_fjc_isometric_helmholtz N ℓ m hN hℓ) (fun _ _ _ => rfl) fun _ _ _ => rfl

/-- C86 for the freely jointed chain, Legendre approach, at a fixed length. -/
theorem C86_fjc_legendre_force (N : ℕ) (ℓ m : ℝ) (hN : 0 < N) (hℓ : 0 < ℓ) : (fjc_isometric_legendre_forces N ℓ m).Entropic :=
  .of_nd (C15_fjc_isometric_legendre_forces N ℓ m hN hℓ) fun _ _ _ => rfl

theorem C86_fjc_legendre_energy (N : ℕ) (ℓ m : ℝ) (hN : 0 < N) (hℓ : 0 < ℓ) :
    (fjc_isometric_legendre_helmholtz N ℓ m).Entropic :=
  .of_nd (C15_fjc_isometric_legendre_helmholtz N ℓ m hN hℓ) (fun _ _ _ => rfl) fun _ _ _ => rfl

/-- C86 for the square-well chain, Legendre approach, at a fixed length. -/
theorem C86_swfjc_legendre_force (N : ℕ) (ℓ m w : ℝ) (hN : 0 < N) (hℓ : 0 < ℓ) :
    (swfjc_isometric_legendre_forces N ℓ m w).Entropic :=
  .of_nd (C15_swfjc_isometric_legendre_forces N ℓ m w hN hℓ) fun _ _ _ => rfl

theorem C86_swfjc_legendre_energy (N : ℕ) (ℓ m w : ℝ) (hN : 0 < N) (hℓ : 0 < ℓ) :
    (swfjc_isometric_legendre_helmholtz N ℓ m w).Entropic :=
  .of_nd (C15_swfjc_isometric_legendre_helmholtz N ℓ m w hN hℓ) (fun _ _ _ => rfl) fun _ _ _ => rfl

/-- C86 for the worm-like chain at a fixed length and a fixed persistence length. -/
theorem C86_wlc_force (N : ℕ) (ℓ m p : ℝ) (hN : 0 < N) (hℓ : 0 < ℓ) : (wlc_isometric_forces N ℓ m p).Entropic :=
  .of_nd (C15_wlc_isometric_forces N ℓ m p hN hℓ) fun _ _ _ => rfl

theorem C86_wlc_energy (N : ℕ) (ℓ m p : ℝ) (hN : 0 < N) (hℓ : 0 < ℓ) : (wlc_isometric_helmholtz N ℓ m p).Entropic :=
  .of_nd (C15_wlc_isometric_helmholtz N ℓ m p hN hℓ) (fun _ _ _ => rfl) fun _ _ _ => rfl

/-! At a fixed force. -/

/-- C86 for the ideal chain at a fixed force. -/
theorem C86_ideal_length (N : ℕ) (ℓ m : ℝ) (hN : 0 < N) (hℓ : 0 < ℓ) :
    (ideal_isotensional_lengths N ℓ m).Entropic ∧ (ideal_isotensional_lengths N ℓ m).Contracts ℓ (fun η _ => 0 < η) :=
  ⟨.of_nd (C15_ideal_isotensional_lengths N ℓ m hN hℓ) (fun _ _ _ => rfl) fun _ _ _ => rfl,
    .of_entropic (C15_ideal_isotensional_lengths N ℓ m hN hℓ) hN hℓ (fun _ _ h => h) (fun _ _ _ h => h) (fun _ _ _ => rfl)
      ⟨fun f f' T hT _ _ => (C76_ideal N ℓ m hN hℓ).length f f' T hT trivial trivial,
        fun f f' T hT _ _ => (C76_ideal N ℓ m hN hℓ).length_per_link f f' T hT trivial trivial,
        fun η η' T hT _ _ => (C76_ideal N ℓ m hN hℓ).nd_length η η' T hT trivial trivial,
        fun η η' T hT _ _ => (C76_ideal N ℓ m hN hℓ).nd_length_per_link η η' T hT trivial trivial⟩⟩

/-- C86 for the freely jointed chain at a fixed force. -/
theorem C86_fjc_length (N : ℕ) (ℓ m : ℝ) (hN : 0 < N) (hℓ : 0 < ℓ) :
    (fjc_isotensional_lengths N ℓ m).Entropic ∧ (fjc_isotensional_lengths N ℓ m).Contracts ℓ (fun η _ => 0 < η) :=
  ⟨.of_nd (C15_fjc_isotensional_lengths N ℓ m hN hℓ) (fun _ _ _ => rfl) fun _ _ _ => rfl,
    .of_entropic (C15_fjc_isotensional_lengths N ℓ m hN hℓ) hN hℓ (fun _ _ h => h) (fun _ _ _ h => h) (fun _ _ _ => rfl)
      (C76_fjc N ℓ m hN hℓ)⟩

/-- C86 for the square-well chain at a fixed force. -/
theorem C86_swfjc_length (N : ℕ) (ℓ m w : ℝ) (hN : 0 < N) (hℓ : 0 < ℓ) (hw : 0 < w) :
    (swfjc_isotensional_lengths N ℓ m w).Entropic ∧ (swfjc_isotensional_lengths N ℓ m w).Contracts ℓ (fun η _ => 0 < η) :=
  ⟨.of_nd (C15_swfjc_isotensional_lengths N ℓ m w hN hℓ) (fun _ _ _ => rfl) fun _ _ _ => rfl,
    .of_entropic (C15_swfjc_isotensional_lengths N ℓ m w hN hℓ) hN hℓ (fun _ _ h => h) (fun _ _ _ h => h) (fun _ _ _ => rfl)
      (C76_swfjc N ℓ m w hN hℓ hw)⟩

/-- C86 for the worm-like chain at a fixed force, where the search for the reference succeeds. -/
theorem C86_wlc_length (N : ℕ) (ℓ m p : ℝ) (hN : 0 < N) (hℓ : 0 < ℓ) :
    (wlc_isotensional_lengths N ℓ m p).Entropic ∧ (wlc_isotensional_lengths N ℓ m p).Contracts ℓ
      (fun η _ => 0 < η ∧ SearchSucceeds (wlc_isometric_forces N ℓ m p) η) :=
  ⟨.of_nd (C15_wlc_isotensional_lengths N ℓ m p hN hℓ) (fun _ _ _ => rfl) fun _ _ _ => rfl,
    .of_nd (C15_wlc_isotensional_lengths N ℓ m p hN hℓ) hN hℓ fun _ T _ hT hTT h1 h2 =>
      C34_wlc_monotone N ℓ m p T hN h2 h1 (ndForce_lt hℓ hT hTT h2.1)⟩

/-! Extensible links: in the reduced asymptotic approach the stretch of a link depends on the force alone, so that heating
only turns the links away from the direction of the force. -/

theorem force_over_stiffness {ℓ k f T T' : ℝ} (hℓ : 0 < ℓ) (hk : 0 < k) (hT : 0 < T) (hT' : 0 < T') :
    ndForce ℓ f T' / ndStiffness k ℓ T' = ndForce ℓ f T / ndStiffness k ℓ T := by
  unfold ndForce ndStiffness kT
  field_simp

theorem langevin_cools {ℓ f T T' : ℝ} (hℓ : 0 < ℓ) (hT : 0 < T) (h : T < T') (h2 : 0 < ndForce ℓ f T') (h1 : 0 < ndForce ℓ f T) :
    langevin (ndForce ℓ f T') < langevin (ndForce ℓ f T) :=
  langevin_strictMonoOn h2 h1 (ndForce_lt hℓ hT h h2)

/-- C86 for the extensible chain, reduced asymptotic approach. -/
theorem C86_efjc_reduced_length (N : ℕ) (ℓ m k : ℝ) (hN : 0 < N) (hℓ : 0 < ℓ) (hk : 0 < k) :
    (efjc_isotensional_asymptotic_reduced_lengths N ℓ m k).Contracts ℓ (fun η _ => 0 < η) := by
  refine .of_nd (C15_efjc_isotensional_asymptotic_reduced_lengths N ℓ m k hN hℓ) hN hℓ fun f T T' hT hTT h1 h2 => ?_
  have hT' := hT.trans hTT
  have h := langevin_cools hℓ hT hTT h2 h1
  rw [efjc_reduced_length, efjc_reduced_length, force_over_stiffness hℓ hk hT hT']
  linarith

/-- C86 for Morse links, reduced asymptotic approach. -/
theorem C86_morse_reduced_length (N : ℕ) (ℓ m k ε : ℝ) (hN : 0 < N) (hℓ : 0 < ℓ) (hk : 0 < k) (hε : 0 < ε) :
    (morse_isotensional_asymptotic_reduced_lengths N ℓ m k ε).Contracts ℓ
      (fun η T => 0 < η ∧ η < √(ndEnergy ε T * ndStiffness k ℓ T / 8)) := by
  refine .of_nd (C15_morse_isotensional_asymptotic_reduced_lengths N ℓ m k ε hN hℓ) hN hℓ fun f T T' hT hTT h1 h2 => ?_
  have hT' := hT.trans hTT
  have h := langevin_cools hℓ hT hTT h2.1 h1.1
  rw [morse_reduced_length_eq N hℓ hk hε hT' h2.1, morse_reduced_length_eq N hℓ hk hε hT h1.1]
  have e1 : morseA (ndStiffness k ℓ T') (ndEnergy ε T') = morseA (ndStiffness k ℓ T) (ndEnergy ε T) := by
    unfold morseA
    congr 1
    unfold ndStiffness ndEnergy kT
    field_simp
  have e2 : ndForce ℓ f T' / morseMax (ndStiffness k ℓ T') (ndEnergy ε T') =
      ndForce ℓ f T / morseMax (ndStiffness k ℓ T) (ndEnergy ε T) := by
    have e3 : morseMax (ndStiffness k ℓ T') (ndEnergy ε T') = T / T' * morseMax (ndStiffness k ℓ T) (ndEnergy ε T) := by
      have h0 : 0 ≤ T / T' := by positivity
      unfold morseMax
      rw [← Real.sqrt_sq h0, ← Real.sqrt_mul (sq_nonneg _)]
      congr 1
      unfold ndStiffness ndEnergy kT
      field_simp
    have hm := morseMax_pos (ndStiffness_pos hk hℓ hT) (ndEnergy_pos hε hT)
    have e4 : ndForce ℓ f T' = T / T' * ndForce ℓ f T := by unfold ndForce kT; field_simp
    rw [e3, e4]
    field_simp
  unfold morsePsi
  rw [e1, e2]
  linarith

/-- C86 for log-squared links, reduced asymptotic approach. -/
theorem C86_log_squared_reduced_length (N : ℕ) (ℓ m k : ℝ) (hN : 0 < N) (hℓ : 0 < ℓ) (hk : 0 < k) :
    (log_squared_isotensional_asymptotic_reduced_lengths N ℓ m k).Contracts ℓ
      (fun η T => 0 < η ∧ η < ndStiffness k ℓ T / Real.exp 1) := by
  refine .of_nd (C15_log_squared_isotensional_asymptotic_reduced_lengths N ℓ m k hN hℓ) hN hℓ fun f T T' hT hTT h1 h2 => ?_
  have hT' := hT.trans hTT
  have h := langevin_cools hℓ hT hTT h2.1 h1.1
  rw [log_squared_reduced_length_eq N hℓ hk hT' h2.1, log_squared_reduced_length_eq N hℓ hk hT h1.1]
  have e := force_over_stiffness (f := f) hℓ hk hT hT'
  unfold lsPsi logSquaredStretch
  rw [neg_div, e, neg_div]
  linarith

/-- C86 for Lennard-Jones links, reduced asymptotic approach. -/
theorem C86_lennard_jones_reduced_length (N : ℕ) (ℓ m k : ℝ) (hN : 0 < N) (hℓ : 0 < ℓ) (hk : 0 < k) :
    (lennard_jones_isotensional_asymptotic_reduced_lengths N ℓ m k).Contracts ℓ
      (fun η T => 0 < η ∧ η < deriv (lennardJonesEnergy (ndStiffness k ℓ T)) ((13 / 7) ^ (1 / 6 : ℝ))) := by
  refine .of_nd (C15_lennard_jones_isotensional_asymptotic_reduced_lengths N ℓ m k hN hℓ) hN hℓ fun f T T' hT hTT h1 h2 => ?_
  have hT' := hT.trans hTT
  have h := langevin_cools hℓ hT hTT h2.1 h1.1
  rw [lj_reduced_length, lj_reduced_length]
  have e := force_over_stiffness (f := f) hℓ hk hT hT'
  unfold ljStretch
  rw [mul_div_assoc, e, mul_div_assoc]
  linarith

/-! Heating from 300 to 400. -/

example : (fjc_isometric_forces 8 1 1).force 4 400 = 4 / 3 * (fjc_isometric_forces 8 1 1).force 4 300 := by
  have := C86_fjc_force 8 1 1 (by norm_num) (by norm_num) 4 300 400 (by norm_num) (by norm_num)
  rw [this]
  norm_num

example : (swfjc_isometric_legendre_helmholtz 8 1 1 (1 / 2)).relative 4 400 =
    4 / 3 * (swfjc_isometric_legendre_helmholtz 8 1 1 (1 / 2)).relative 4 300 := by
  have := (C86_swfjc_legendre_energy 8 1 1 (1 / 2) (by norm_num) (by norm_num)).relative 4 300 400 (by norm_num) (by norm_num)
  rw [this]
  norm_num

theorem ndForce_pos {ℓ f T : ℝ} (hℓ : 0 < ℓ) (hf : 0 < f) (hT : 0 < T) : 0 < ndForce ℓ f T := by
  have := kT_pos hT
  unfold ndForce
  positivity

example : (fjc_isotensional_lengths 8 1 1).length 1000 400 < (fjc_isotensional_lengths 8 1 1).length 1000 300 :=
  (C86_fjc_length 8 1 1 (by norm_num) (by norm_num)).2.length 1000 300 400 (by norm_num) (by norm_num)
    (ndForce_pos (by norm_num) (by norm_num) (by norm_num)) (ndForce_pos (by norm_num) (by norm_num) (by norm_num))

example : (wlc_isotensional_lengths 100 1 1 2).length 1000 400 < (wlc_isotensional_lengths 100 1 1 2).length 1000 300 := by
  have h : ∀ T : ℝ, 300 ≤ T → 0 < ndForce 1 1000 T ∧ ndForce 1 1000 T ≤ 10 ^ 5 := fun T hT => by
    refine ⟨ndForce_pos (by norm_num) (by norm_num) (by linarith), ?_⟩
    have := kT_pos (T := T) (by linarith)
    unfold ndForce
    rw [div_le_iff₀ this]
    unfold kT
    norm_num
    linarith
  have hs : ∀ T : ℝ, 300 ≤ T → 0 < ndForce 1 1000 T ∧
      SearchSucceeds (wlc_isometric_forces 100 1 1 2) (ndForce 1 1000 T) := fun T hT => ⟨(h T hT).1,
    wlc_succeeds_flexible 1 1 2 (by norm_num) (by norm_num) (by norm_num) (by norm_num) (by norm_num) (h T hT).1.le (h T hT).2⟩
  exact (C86_wlc_length 100 1 1 2 (by norm_num) (by norm_num)).2.length 1000 300 400 (by norm_num) (by norm_num)
    (hs 300 (by norm_num)) (hs 400 (by norm_num))

example : (efjc_isotensional_asymptotic_reduced_lengths 8 1 1 500).length 1000 400 <
    (efjc_isotensional_asymptotic_reduced_lengths 8 1 1 500).length 1000 300 :=
  (C86_efjc_reduced_length 8 1 1 500 (by norm_num) (by norm_num) (by norm_num)).length 1000 300 400 (by norm_num) (by norm_num)
    (ndForce_pos (by norm_num) (by norm_num) (by norm_num)) (ndForce_pos (by norm_num) (by norm_num) (by norm_num))

example : (log_squared_isotensional_asymptotic_reduced_lengths 8 1 1 5000).length 1000 400 <
    (log_squared_isotensional_asymptotic_reduced_lengths 8 1 1 5000).length 1000 300 := by
  have h : ∀ T : ℝ, 0 < T → 0 < ndForce 1 1000 T ∧ ndForce 1 1000 T < ndStiffness 5000 1 T / Real.exp 1 := fun T hT => by
    refine ⟨ndForce_pos (by norm_num) (by norm_num) hT, ?_⟩
    have := kT_pos hT
    have he := Real.exp_one_lt_d9
    unfold ndForce ndStiffness
    rw [div_div, mul_comm (kT T), ← div_div]
    refine div_lt_div_of_pos_right ?_ this
    rw [lt_div_iff₀ (Real.exp_pos 1)]
    linarith
  exact (C86_log_squared_reduced_length 8 1 1 5000 (by norm_num) (by norm_num) (by norm_num)).length 1000 300 400
    (by norm_num) (by norm_num) (h 300 (by norm_num)) (h 400 (by norm_num))

end Polymers.Props
