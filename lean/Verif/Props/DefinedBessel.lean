import Verif.Lemmas.Defined
import Verif.Props.Bessel

/-! Definedness (C46) of the modified Bessel functions. -/

namespace Polymers.Props

open Polymers.SReal Polymers.math

theorem is_fsum_mapIdx {l : List SReal} {l' : List ℝ} (h : List.Forall₂ Is l l') {f : ℕ → SReal → SReal} {g : ℕ → ℝ → ℝ}
    (hf : ∀ i a b, Is a b → Is (f i a) (g i b)) : Is (fsum (l.mapIdx f)) (fsum (l'.mapIdx g)) := by
  have e : l = l'.map SReal.val := by
    induction h with
    | nil => rfl
    | cons h _ ih => rw [List.map_cons, ← ih, show _ = SReal.val _ from h]
  subst e
  rw [List.mapIdx_eq_zipIdx_map, List.mapIdx_eq_zipIdx_map, List.zipIdx_map, List.map_map]
  exact Is.fsum_map fun i _ => hf _ _ _ rfl

theorem is_power_sum {l : List SReal} {l' : List ℝ} (h : List.Forall₂ Is l l') {t' : SReal} {t : ℝ} (ht : Is t' t) :
    Is (power_sum l t') (power_sum l' t) :=
  is_fsum_mapIdx h fun _ _ _ hab => .mul hab (.powi_nat ht)

theorem is_inverse_power_sum {l : List SReal} {l' : List ℝ} (h : List.Forall₂ Is l l') {t' : SReal} {t : ℝ} (ht : Is t' t)
    (h0 : 0 < t) : Is (inverse_power_sum l t') (inverse_power_sum l' t) :=
  is_fsum_mapIdx h fun _ _ _ hab => .div hab (.powi_nat ht) (by rw [elem_powi]; positivity)

/-- Two tables of the same literals. -/
macro "table_is" : tactic => `(tactic| repeat (first | exact .nil | refine .cons ?_ ?_ | exact Is.lit _ _ _ | exact (Is.lit _ _ _).neg))

theorem is_bessel_i0 {x' : SReal} {x : ℝ} (hx : Is x' x) : Is (bessel_i0 x') (bessel_i0 x) := by
  have h1 : List.Forall₂ Is (bessel_i0_small : List SReal) (bessel_i0_small : List ℝ) := by unfold bessel_i0_small; table_is
  have h2 : List.Forall₂ Is (bessel_i0_medium : List SReal) (bessel_i0_medium : List ℝ) := by unfold bessel_i0_medium; table_is
  have h3 : List.Forall₂ Is (bessel_i0_large : List SReal) (bessel_i0_large : List ℝ) := by unfold bessel_i0_large; table_is
  refine .ite_lt hx (.lit _ _ _) (fun _ => ?_) fun h => .ite_lt hx (.lit _ _ _) (fun _ => ?_) fun _ => ?_
  · exact .add (.lit _ _ _) (.mul (by defined [hx]) (is_power_sum h1 (by defined [hx])))
  all_goals
    have h0 : 0 < x := by norm_num at h; linarith
    defined [hx, is_inverse_power_sum h2 ?_ ?_, is_inverse_power_sum h3 ?_ ?_]

theorem is_bessel_i1 {x' : SReal} {x : ℝ} (hx : Is x' x) : Is (bessel_i1 x') (bessel_i1 x) := by
  have h1 : List.Forall₂ Is (bessel_i1_small : List SReal) (bessel_i1_small : List ℝ) := by unfold bessel_i1_small; table_is
  have h2 : List.Forall₂ Is (bessel_i1_medium : List SReal) (bessel_i1_medium : List ℝ) := by unfold bessel_i1_medium; table_is
  have h3 : List.Forall₂ Is (bessel_i1_large : List SReal) (bessel_i1_large : List ℝ) := by unfold bessel_i1_large; table_is
  refine .ite_lt hx (.lit _ _ _) (fun _ => ?_) fun h => .ite_lt hx (.lit _ _ _) (fun _ => ?_) fun _ => ?_
  · refine .mul (by defined [hx]) (is_power_sum (.cons (.lit _ _ _) (.cons (.lit _ _ _) (.cons ?_ .nil))) (by defined [hx]))
    exact is_power_sum h1 (by defined [hx])
  all_goals
    have h0 : 0 < x := by norm_num at h; linarith
    defined [hx, is_inverse_power_sum h2 ?_ ?_, is_inverse_power_sum h3 ?_ ?_]

theorem is_bessel {nu : ℕ} {x' : SReal} {x : ℝ} (hx : Is x' x) : Is (bessel_i nu x') (bessel_i nu x) := by
  rw [bessel_i, bessel_i]
  split
  · exact is_bessel_i0 hx
  · split
    · exact is_bessel_i1 hx
    · exact (Is.lit _ _ _).neg

/-- C46: the modified Bessel functions return an ordinary number for every order and argument. -/
theorem C46_bessel_i (nu : ℕ) (x : ℝ) : bessel_i nu (SReal.val x) = SReal.val (bessel_i nu x) := is_bessel rfl

example : bessel_i 1 (SReal.val 3) = SReal.val (bessel_i 1 3) := C46_bessel_i 1 3

end Polymers.Props
