import Verif.Props.CEfjc
import Verif.Props.CFjc
import Verif.Props.PythonEfjc
import Verif.Props.PythonFjc
import Verif.Props.JuliaEfjc
import Verif.Props.JuliaFjc
import Verif.Props.JuliaWlc
import Verif.Props.Methods

/-! Properties C58, C59, C60: the methods left out by the generated files, and C61. -/

namespace Polymers.Props

open Polymers.Julia Polymers.Spec

/-! ### The method of the extensible chain whose Rust body is not a call of the free function -/

/-- C58: the exported function against the Rust method, which repeats the formula; over the reals. -/
theorem C58_c_efjc_isotensional_asymptotic_legendre_nd_per_link (N : ℕ) (ℓ m k η T : ℝ) (hℓ : ℓ ≠ 0) :
    C.physics_single_chain_efjc_thermodynamics_isotensional_asymptotic_legendre_nondimensional_helmholtz_free_energy_per_link
        ℓ m (k * ℓ ^ 2 / BOLTZMANN_CONSTANT / T) η T =
      (efjc.EFJC.init N ℓ m k).thermodynamics.isotensional.asymptotic.legendre.nondimensional_helmholtz_free_energy_per_link
        η T :=
  (C38_efjc_isotensional_asymptotic_legendre_nd_per_link N ℓ m k η T hℓ).symm

/-- C59: the Python method against the Rust method, which repeats the formula; over the reals. -/
theorem C59_python_efjc_isotensional_asymptotic_legendre_nd_per_link (N : ℕ) (ℓ m k T : ℝ) (hℓ : ℓ ≠ 0) (xs : NdArray ℝ) :
    (Python.efjc.EFJC.init N ℓ m k).thermodynamics.isotensional.asymptotic.legendre.nondimensional_helmholtz_free_energy_per_link
        xs T =
      ⟨xs.shape, xs.data.map fun η =>
        (efjc.EFJC.init N ℓ m k).thermodynamics.isotensional.asymptotic.legendre.nondimensional_helmholtz_free_energy_per_link
          η T⟩ := by
  refine congrArg (NdArray.mk xs.shape) (List.map_congr_left fun η _ => ?_)
  have h := C38_efjc_isotensional_asymptotic_legendre_nd_per_link N ℓ m k η T hℓ
  have e : Elem.powi ℓ 2 = ℓ ^ 2 := by rw [elem_powi]; exact zpow_ofNat ℓ 2
  rw [h, ← e]
  rfl

/-- C60: the Julia method against the Rust method, which repeats the formula; over the reals. -/
theorem C60_julia_efjc_isotensional_asymptotic_legendre_nd_per_link (other : ℝ → JArr ℝ → Option (JArr ℝ)) (N : ℕ)
    (ℓ m k T : ℝ) (hℓ : ℓ ≠ 0) :
    Elementwise₁
      (fun η => (efjc.EFJC.init N ℓ m k).thermodynamics.isotensional.asymptotic.legendre.nondimensional_helmholtz_free_energy_per_link
        η T)
      fun η => (Julia.Efjc.EFJC.new other N ℓ m k).thermodynamics.isotensional.asymptotic.legendre.nondimensional_helmholtz_free_energy_per_link
        η (JArr.scalar T) := by
  have e : Elem.powi ℓ 2 = ℓ ^ 2 := by rw [elem_powi]; exact zpow_ofNat ℓ 2
  have h : (fun η => (efjc.EFJC.init N ℓ m k).thermodynamics.isotensional.asymptotic.legendre.nondimensional_helmholtz_free_energy_per_link
        η T) = fun η => efjc.thermodynamics.isotensional.asymptotic.legendre.nondimensional_helmholtz_free_energy_per_link
          ℓ m (k * Elem.powi ℓ 2 / BOLTZMANN_CONSTANT / T) η T := by
    funext η
    rw [C38_efjc_isotensional_asymptotic_legendre_nd_per_link N ℓ m k η T hℓ, ← e]
  rw [h]
  exact JArr.elementwise₁_scalar T fun _ => rfl

/-! ### The worm-like chain at fixed extension from Julia -/

section

variable {α : Type} [Add α] [Sub α] [Mul α] [Div α] [Neg α] [OfScientific α] [NatCast α] [Elem α]

set_option linter.unusedSectionVars false

/-- C60: under a calling convention that numbers integers and floating-point numbers separately, the four distributions
of the worm-like chain are those of the Rust methods, although two calls pass one argument too many. -/
theorem C60_julia_wlc_isometric_distribution (old : Registers α) (N : ℕ) (ℓ m p : α) :
    let jl := (Julia.Wlc.WLC.new (separate old) N ℓ m p).thermodynamics.isometric
    let s := (wlc.WLC.init N ℓ m p).thermodynamics.isometric
    Elementwise₁ s.equilibrium_distribution jl.equilibrium_distribution ∧
      Elementwise₁ s.nondimensional_equilibrium_distribution jl.nondimensional_equilibrium_distribution ∧
      Elementwise₁ s.equilibrium_radial_distribution jl.equilibrium_radial_distribution ∧
      Elementwise₁ s.nondimensional_equilibrium_radial_distribution jl.nondimensional_equilibrium_radial_distribution :=
  ⟨JArr.elementwise₁ fun _ => rfl, JArr.elementwise₁ fun _ => rfl, JArr.elementwise₁ fun _ => rfl,
    JArr.elementwise₁ fun _ => rfl⟩

/-- C61: under the Microsoft x64 convention the two nondimensional distributions which the Julia struct of the worm-like
chain returns do not depend on the extension at all, whatever the registers held before the call: numbers, or arrays of the same
size, give the same result. -/
theorem C61_julia_wlc_positional (old : Registers α) (N : ℕ) (ℓ m p : α) :
    let jl := (Julia.Wlc.WLC.new (positional old) N ℓ m p).thermodynamics.isometric
    (∀ γ γ' : JArr α, γ.dims = γ'.dims →
        jl.nondimensional_equilibrium_distribution γ = jl.nondimensional_equilibrium_distribution γ') ∧
      ∀ γ γ' : JArr α, γ.dims = γ'.dims →
        jl.nondimensional_equilibrium_radial_distribution γ = jl.nondimensional_equilibrium_radial_distribution γ' := by
  refine ⟨fun γ γ' h => ?_, fun γ γ' h => ?_⟩ <;>
  · rcases γ with ⟨d, g⟩
    rcases γ' with ⟨d', g'⟩
    simp only at h
    subst h
    rfl

end

example (T : ℝ) : ∃ r, (Julia.Fjc.FJC.new 8 (1 : ℝ) 1).thermodynamics.isotensional.gibbs_free_energy
      ⟨[2], fun i => i.headD 0 + 1⟩ (JArr.scalar T) = some r ∧
    r.dims = [2] ∧ r.get [1] = (fjc.FJC.init 8 (1 : ℝ) 1).thermodynamics.isotensional.gibbs_free_energy 2 T := by
  obtain ⟨r, h1, h2, h3⟩ := (C60_julia_fjc_isotensional (8 : ℕ) (1 : ℝ) 1).2.2.2.2.2.2.2.1.same [2]
    ⟨[2], fun i => i.headD 0 + 1⟩ (JArr.scalar T) (Or.inl rfl) (Or.inr rfl) (Or.inl rfl)
  refine ⟨r, h1, h2, ?_⟩
  rw [h3 [1] ⟨by norm_num, trivial⟩]
  norm_num [pick, JArr.scalar]

example (T : ℝ) : (Python.fjc.FJC.init 8 (1 : ℝ) 1).thermodynamics.isotensional.gibbs_free_energy ⟨[1, 2], [2, 3]⟩ T =
    ⟨[1, 2], [(fjc.FJC.init 8 (1 : ℝ) 1).thermodynamics.isotensional.gibbs_free_energy 2 T,
      (fjc.FJC.init 8 (1 : ℝ) 1).thermodynamics.isotensional.gibbs_free_energy 3 T]⟩ :=
  (C59_python_fjc_isotensional (8 : ℕ) (1 : ℝ) 1).2.2.2.2.2.2.2.1 ⟨[1, 2], [2, 3]⟩ T

/-! ### Vectors of temperatures -/

/-- C91: what the Julia function returns for vectors of nondimensional forces and of temperatures: in row `i` and column `j`
there is the extension under force `i` at the sum of the squares of the temperatures divided by temperature `j`. -/
theorem C91_julia_efjc_values (N : ℕ) (ℓ m k : ℝ) (n : ℕ) (η T : JArr ℝ) (hη : η.dims = [n]) (hT : T.dims = [n]) :
    ∃ r, (Julia.Efjc.EFJC.new pseudoinverse N ℓ m k).thermodynamics.isotensional.asymptotic.nondimensional_end_to_end_length_per_link
        η T = some r ∧
      r.dims = [n, n] ∧
        ∀ i < n, ∀ j < n, r.get [i, j] =
          (efjc.EFJC.init N ℓ m k).thermodynamics.isotensional.asymptotic.nondimensional_end_to_end_length_per_link
            (η.get [i]) ((∑ l ∈ Finset.range n, T.get [l] ^ 2) / T.get [j]) := by
  rcases η with ⟨d, g⟩
  rcases T with ⟨d', t⟩
  simp only at hη hT
  subst hη hT
  set K : ℝ := k * Elem.powi ℓ 2 / BOLTZMANN_CONSTANT with hK
  set q : JArr ℝ := ⟨[1, n], fun i => K * (t [i.tail.headD 0] / ∑ l ∈ Finset.range n, t [l] ^ 2)⟩ with hq
  have h : (Julia.Efjc.EFJC.new pseudoinverse N ℓ m k).thermodynamics.isotensional.asymptotic.nondimensional_end_to_end_length_per_link
      ⟨[n], g⟩ ⟨[n], t⟩ = JArr.ap (JArr.map (fun κ x =>
        efjc.thermodynamics.isotensional.asymptotic.nondimensional_end_to_end_length_per_link κ x) q) ⟨[n], g⟩ := rfl
  rw [h]
  simp only [JArr.ap, JArr.map, Option.bind_some, hq, JArr.shape_row, Option.map_some, JArr.clip_clip]
  refine ⟨_, rfl, rfl, fun i hi j hj => ?_⟩
  have e1 : JArr.clip [1, n] [i, j] = [0, j] := by
    by_cases h : n = 1
    · simp [JArr.clip, h]; omega
    · simp [JArr.clip, h]
  have e2 : JArr.clip [n] [i, j] = [i] := by
    by_cases h : n = 1
    · simp [JArr.clip, h]; omega
    · simp [JArr.clip, h]
  simp only [e1, e2, List.tail_cons, List.headD_cons]
  rw [← mul_div_assoc, ← div_div_eq_mul_div]
  rfl

/-- The hypotheses of C91 hold for the division of `LinearAlgebra`, and vectors of two temperatures are not treated entry by
entry. -/
example : QuotientIsRow pseudoinverse ∧
    ¬ Elementwise₂
      (efjc.EFJC.init 8 (1 : ℝ) 1 500).thermodynamics.isotensional.asymptotic.nondimensional_end_to_end_length_per_link
      (Julia.Efjc.EFJC.new pseudoinverse 8 1 1 500).thermodynamics.isotensional.asymptotic.nondimensional_end_to_end_length_per_link := by
  constructor
  · rintro x ⟨d, g⟩ n h
    simp only at h
    subst h
    exact ⟨_, rfl, rfl⟩
  · intro h
    obtain ⟨r, h1, h2, -⟩ := C91_julia_efjc_values 8 1 1 500 2 ⟨[2], fun _ => 1⟩ ⟨[2], fun _ => 300⟩ rfl rfl
    obtain ⟨r', h3, h4, -⟩ := h.same [2] ⟨[2], fun _ => 1⟩ ⟨[2], fun _ => 300⟩ (Or.inl rfl) (Or.inl rfl) (Or.inl rfl)
    rw [h1, Option.some.injEq] at h3
    rw [h3, h4] at h2
    cases h2

end Polymers.Props
