import Verif.Model.SReal
import Verif.Model.Math
import Verif.Model.Wlc
import Mathlib.Tactic.IntervalCases

/-! Expressions without an explicit panic do not panic. -/

namespace Polymers

/-- The value is not a panic. -/
def SReal.Live (x : SReal) : Prop := x ≠ SReal.panic

namespace SReal.Live

theorem val (r : ℝ) : Live (SReal.val r) := fun h => by cases h
theorem undef : Live SReal.undef := fun h => by cases h
theorem lit (m : ℕ) (s : Bool) (e : ℕ) : Live (OfScientific.ofScientific m s e) := val _
theorem natCast (n : ℕ) : Live ((n : ℕ) : SReal) := val _

theorem bin (dom : ℝ → ℝ → Prop) (f : ℝ → ℝ → ℝ) {x y : SReal} (hx : Live x) (hy : Live y) :
    Live (SReal.bin dom f x y) := by
  cases x <;> cases y <;> simp_all [Live, SReal.bin] <;> split_ifs <;> simp

theorem un (dom : ℝ → Prop) (f : ℝ → ℝ) {x : SReal} (hx : Live x) : Live (SReal.un dom f x) := by
  cases x <;> simp_all [Live, SReal.un] <;> split_ifs <;> simp

variable {x y : SReal} (hx : Live x) (hy : Live y)
include hx
theorem neg : Live (-x) := un _ _ hx
theorem exp : Live (Elem.exp x) := un _ _ hx
theorem ln : Live (Elem.ln x) := un _ _ hx
theorem sin : Live (Elem.sin x) := un _ _ hx
theorem acos : Live (Elem.acos x) := un _ _ hx
theorem sqrt : Live (Elem.sqrt x) := un _ _ hx
theorem abs : Live (Elem.abs x) := un _ _ hx
theorem powi (n : ℤ) : Live (Elem.powi x n) := un _ _ hx
include hy
theorem add : Live (x + y) := bin _ _ hx hy
theorem sub : Live (x - y) := bin _ _ hx hy
theorem mul : Live (x * y) := bin _ _ hx hy
theorem div : Live (x / y) := bin _ _ hx hy
theorem powf : Live (Elem.powf x y) := bin _ _ hx hy
omit hx hy

theorem pi : Live (Elem.pi : SReal) := val _

theorem ite {c : Prop} [Decidable c] {x y : SReal} (hx : Live x) (hy : Live y) : Live (if c then x else y) := by
  split_ifs <;> assumption

theorem foldl (l : List SReal) (h : ∀ x ∈ l, Live x) {a : SReal} (ha : Live a) :
    Live (l.foldl (fun a x => a + x) a) := by
  induction l generalizing a with
  | nil => exact ha
  | cons b l ih =>
    exact ih (fun x hx => h x (List.mem_cons_of_mem _ hx)) (add ha (h b List.mem_cons_self))

theorem fsum {l : List SReal} (h : ∀ x ∈ l, Live x) : Live (Polymers.fsum l) := foldl l h (lit _ _ _)

theorem map {β : Type} {f : β → SReal} {l : List β} (h : ∀ b ∈ l, Live (f b)) : ∀ x ∈ l.map f, Live x := by
  intro x hx
  obtain ⟨b, hb, rfl⟩ := List.mem_map.1 hx
  exact h b hb

theorem integrate_1d {f : SReal → SReal} {a b : SReal} (hf : ∀ x, Live x → Live (f x)) (ha : Live a) (hb : Live b) (n : ℕ) :
    Live (math.integrate_1d f a b n) := by
  have hd : Live ((b - a) / (n : SReal)) := div (sub hb ha) (natCast n)
  refine mul (fsum (map fun i _ => hf _ (add ha (mul (add (lit _ _ _) (natCast i)) hd)))) hd

theorem mapIdx {l : List SReal} {f : ℕ → SReal → SReal} (hl : ∀ c ∈ l, Live c) (h : ∀ i c, Live c → Live (f i c)) :
    ∀ x ∈ l.mapIdx f, Live x := by
  intro x hx
  obtain ⟨i, hi, rfl⟩ := List.mem_mapIdx.1 hx
  exact h _ _ (hl _ (List.getElem_mem _))

theorem power_sum {l : List SReal} {t : SReal} (hl : ∀ c ∈ l, Live c) (ht : Live t) : Live (math.power_sum l t) :=
  fsum (mapIdx hl fun i _ hc => mul hc (powi ht _))

theorem inverse_power_sum {l : List SReal} {t : SReal} (hl : ∀ c ∈ l, Live c) (ht : Live t) :
    Live (math.inverse_power_sum l t) :=
  fsum (mapIdx hl fun i _ hc => div hc (powi ht _))

theorem forall_nil : ∀ c ∈ ([] : List SReal), Live c := by simp
theorem forall_cons {a : SReal} {l : List SReal} (ha : Live a) (hl : ∀ c ∈ l, Live c) : ∀ c ∈ a :: l, Live c := by
  intro c hc
  rcases List.mem_cons.1 hc with rfl | h
  · exact ha
  · exact hl c h

end SReal.Live

open SReal in
/-- Prove that an expression is not a panic. -/
macro "live" : tactic => `(tactic| repeat' (with_reducible first
  | assumption | exact SReal.Live.lit _ _ _ | exact SReal.Live.natCast _ | exact SReal.Live.pi
  | exact SReal.Live.val _ | exact SReal.Live.forall_nil | refine SReal.Live.forall_cons ?_ ?_
  | apply SReal.Live.add | apply SReal.Live.sub | apply SReal.Live.mul | apply SReal.Live.div | apply SReal.Live.neg
  | apply SReal.Live.exp | apply SReal.Live.ln | apply SReal.Live.sin | apply SReal.Live.acos | apply SReal.Live.sqrt
  | apply SReal.Live.abs | apply SReal.Live.powi | apply SReal.Live.powf | apply SReal.Live.ite))

namespace SReal.Live

theorem bessel_i0 {x : SReal} (hx : Live x) : Live (math.bessel_i0 x) := by
  simp only [math.bessel_i0]
  have h1 : ∀ c ∈ (math.bessel_i0_small : List SReal), Live c := by unfold math.bessel_i0_small; live
  have h2 : ∀ c ∈ (math.bessel_i0_medium : List SReal), Live c := by unfold math.bessel_i0_medium; live
  have h3 : ∀ c ∈ (math.bessel_i0_large : List SReal), Live c := by unfold math.bessel_i0_large; live
  have i1 := power_sum h1 (t := 0.25 * Elem.powi x 2) (by live)
  have i2 := inverse_power_sum h2 hx
  have i3 := inverse_power_sum h3 hx
  live

theorem bessel_i1 {x : SReal} (hx : Live x) : Live (math.bessel_i1 x) := by
  simp only [math.bessel_i1]
  have h1 : ∀ c ∈ (math.bessel_i1_small : List SReal), Live c := by unfold math.bessel_i1_small; live
  have h2 : ∀ c ∈ (math.bessel_i1_medium : List SReal), Live c := by unfold math.bessel_i1_medium; live
  have h3 : ∀ c ∈ (math.bessel_i1_large : List SReal), Live c := by unfold math.bessel_i1_large; live
  have i1 := power_sum h1 (t := 0.25 * Elem.powi x 2) (by live)
  have i0 := power_sum (l := [1.0, 0.5, math.power_sum math.bessel_i1_small (0.25 * Elem.powi x 2)])
    (t := 0.25 * Elem.powi x 2) (by live) (by live)
  have i2 := inverse_power_sum h2 hx
  have i3 := inverse_power_sum h3 hx
  live

open Polymers.wlc.thermodynamics

theorem wlc_coefficients {i j : ℕ} (hi : i < 2) (hj : j < 3) :
    Live (([[(-0.75), 0.359375, (-0.109375)], [(-0.5), 1.0625, (-0.5625)]] : List (List SReal)).getD i [] |>.getD j Elem.panic) := by
  interval_cases i <;> interval_cases j <;> simp only [List.getD_cons_zero, List.getD_cons_succ] <;> live

theorem wlc_force (N : ℕ) {ϖ γ : SReal} (h : Live ϖ) (hγ : Live γ) : Live (isometric.nondimensional_force N ϖ γ) := by
  unfold isometric.nondimensional_force
  extract_lets g2 a b c c0 d f h' arg sum dsum
  have hg2 : Live g2 := powi hγ _
  have ha : Live a := lit _ _ _
  have hb : Live b := lit _ _ _
  have hc0 : Live c0 := by simp only [c0]; live
  have hd : Live d := by simp only [d]; live
  have hf : Live f := div (sub (lit _ _ _) (mul hc0 hg2)) (sub (lit _ _ _) hg2)
  have hh : Live h' := div hγ (sub (lit _ _ _) (mul (powi hb _) hg2))
  have harg : Live arg := mul (mul (mul (mul (neg hd) h) ha) (add (lit _ _ _) hb)) hh
  have hsum : Live sum := by
    refine fsum (map fun i hi => fsum (map fun j hj => mul (wlc_coefficients ?_ ?_) (mul (powi h _) (powi hg2 _))))
    · have := (List.mem_range'_1.1 hi).2; omega
    · have := (List.mem_range'_1.1 hj).2; omega
  have hdsum : Live dsum := by
    refine div (mul (fsum (map fun i hi => fsum (map fun j hj => mul (mul (natCast j) (wlc_coefficients ?_ ?_))
      (mul (powi h _) (powi hg2 _))))) (lit _ _ _)) hγ
    · have := (List.mem_range'_1.1 hi).2; omega
    · have := (List.mem_range'_1.1 hj).2; omega
  have i0 : Live (math.bessel_i 0 arg) := bessel_i0 harg
  have i1 : Live (math.bessel_i 1 arg) := bessel_i1 harg
  clear_value g2 a b c c0 d f h' arg sum dsum
  live

theorem wlc_helmholtz (N : ℕ) {ℓ m ϖ γ T : SReal} (hℓ : Live ℓ) (hm : Live m) (h : Live ϖ) (hγ : Live γ) (hT : Live T) :
    Live (isometric.nondimensional_helmholtz_free_energy N ℓ m ϖ γ T) := by
  unfold isometric.nondimensional_helmholtz_free_energy
  extract_lets g2 a b c c0 d e f h' arg sum
  have hg2 : Live g2 := powi hγ _
  have ha : Live a := lit _ _ _
  have hb : Live b := lit _ _ _
  have hc0 : Live c0 := by simp only [c0]; live
  have hd : Live d := by simp only [d]; live
  have he : Live e := by simp only [e]; clear_value a; live
  have hf : Live f := div (sub (lit _ _ _) (mul hc0 hg2)) (sub (lit _ _ _) hg2)
  have hh : Live h' := div hγ (sub (lit _ _ _) (mul (powi hb _) hg2))
  have harg : Live arg := mul (mul (mul (mul (neg hd) h) ha) (add (lit _ _ _) hb)) hh
  have hsum : Live sum := by
    refine fsum (map fun i hi => fsum (map fun j hj => mul (wlc_coefficients ?_ ?_) (mul (powi h _) (powi hg2 _))))
    · have := (List.mem_range'_1.1 hi).2; omega
    · have := (List.mem_range'_1.1 hj).2; omega
  have i0 : Live (math.bessel_i 0 arg) := bessel_i0 harg
  have hB : Live (BOLTZMANN_CONSTANT : SReal) := lit _ _ _
  have hP : Live (PLANCK_CONSTANT : SReal) := lit _ _ _
  clear_value g2 a b c c0 d e f h' arg sum
  live

theorem wlc_relative_helmholtz {ϖ γ : SReal} (h : Live ϖ) (hγ : Live γ) :
    Live (isometric.nondimensional_relative_helmholtz_free_energy ϖ γ) :=
  sub (wlc_helmholtz 8 (lit _ _ _) (lit _ _ _) h hγ (lit _ _ _)) (wlc_helmholtz 8 (lit _ _ _) (lit _ _ _) h (lit _ _ _) (lit _ _ _))

end SReal.Live

end Polymers
