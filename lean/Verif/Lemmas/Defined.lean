import Lean.Elab.Tactic.Basic
import Mathlib.Data.Rat.Cast.OfScientific
import Mathlib.Analysis.SpecialFunctions.Trigonometric.DerivHyp
import Verif.Model.SReal
import Verif.Model.Math
import Verif.Spec.Ensembles
import Verif.Lemmas.Failure
import Verif.Lemmas.Lits
import Verif.Lemmas.Partition

/-! Transfer from the reals to `SReal`: an expression whose divisors are nonzero, whose logarithms are of positive numbers
and so on has over `SReal` the value it has over the reals. -/

namespace Polymers

/-- The `SReal` value is defined and is the given real. -/
def SReal.Is (x : SReal) (r : ℝ) : Prop := x = SReal.val r

namespace SReal.Is

theorem val (r : ℝ) : Is (SReal.val r) r := rfl
theorem lit (m : ℕ) (s : Bool) (e : ℕ) : Is (OfScientific.ofScientific m s e) (OfScientific.ofScientific m s e) := rfl
theorem natCast {n k : ℕ} (h : n = k) : Is ((n : ℕ) : SReal) ((k : ℕ) : ℝ) := by rw [h]; rfl
theorem pi : Is (Elem.pi : SReal) (Elem.pi : ℝ) := rfl

variable {x y : SReal} {r s : ℝ}

theorem add (hx : Is x r) (hy : Is y s) : Is (x + y) (r + s) := by rw [Is] at *; rw [hx, hy, add_val]
theorem sub (hx : Is x r) (hy : Is y s) : Is (x - y) (r - s) := by rw [Is] at *; rw [hx, hy, sub_val]
theorem mul (hx : Is x r) (hy : Is y s) : Is (x * y) (r * s) := by rw [Is] at *; rw [hx, hy, mul_val]
theorem neg (hx : Is x r) : Is (-x) (-r) := by rw [Is] at *; rw [hx, neg_val]
theorem div (hx : Is x r) (hy : Is y s) (h : s ≠ 0) : Is (x / y) (r / s) := by rw [Is] at *; rw [hx, hy, div_val _ h]
theorem exp (hx : Is x r) : Is (Elem.exp x) (Elem.exp r) := by rw [Is] at *; rw [hx, exp_val]; rfl
theorem sinh (hx : Is x r) : Is (Elem.sinh x) (Elem.sinh r) := by rw [Is] at *; rw [hx, sinh_val]; rfl
theorem cosh (hx : Is x r) : Is (Elem.cosh x) (Elem.cosh r) := by rw [Is] at *; rw [hx, cosh_val]; rfl
theorem tanh (hx : Is x r) : Is (Elem.tanh x) (Elem.tanh r) := by rw [Is] at *; rw [hx, tanh_val]; rfl
theorem sin (hx : Is x r) : Is (Elem.sin x) (Elem.sin r) := by rw [Is] at *; rw [hx, sin_val]; rfl
theorem cos (hx : Is x r) : Is (Elem.cos x) (Elem.cos r) := by rw [Is] at *; rw [hx, cos_val]; rfl
theorem abs (hx : Is x r) : Is (Elem.abs x) (Elem.abs r) := by rw [Is] at *; rw [hx, abs_val]; rfl
theorem ln (hx : Is x r) (h : 0 < r) : Is (Elem.ln x) (Elem.ln r) := by rw [Is] at *; rw [hx, ln_val h]; rfl
theorem log10 (hx : Is x r) (h : 0 < r) : Is (Elem.log10 x) (Elem.log10 r) := by rw [Is] at *; rw [hx, log10_val h]; rfl
theorem sqrt (hx : Is x r) (h : 0 ≤ r) : Is (Elem.sqrt x) (Elem.sqrt r) := by rw [Is] at *; rw [hx, sqrt_val h]; rfl
theorem acos (hx : Is x r) (h : -1 ≤ r ∧ r ≤ 1) : Is (Elem.acos x) (Elem.acos r) := by
  rw [Is] at *; rw [hx, acos_val h.1 h.2]; rfl
theorem powi_nat {n : ℕ} (hx : Is x r) : Is (Elem.powi x (n : ℤ)) (Elem.powi r (n : ℤ)) := by
  rw [Is] at *; rw [hx, powi_val_nat, elem_powi, zpow_natCast]
theorem powi_ofNat {n : ℕ} [n.AtLeastTwo] (hx : Is x r) :
    Is (Elem.powi x (OfNat.ofNat n : ℤ)) (Elem.powi r (OfNat.ofNat n : ℤ)) := by
  rw [Is] at *; rw [hx, powi_val_ofNat, elem_powi]; rfl
theorem powi {n k : ℤ} (hx : Is x r) (hk : n = k) (h : r ≠ 0 ∨ 0 ≤ n) : Is (Elem.powi x n) (Elem.powi r k) := by
  subst hk
  rw [Is] at *; rw [hx, powi_val h, elem_powi]
theorem powi_ne {n : ℤ} (hx : Is x r) (h : r ≠ 0) : Is (Elem.powi x n) (Elem.powi r n) := powi hx rfl (.inl h)
theorem powf (hx : Is x r) (hy : Is y s) (h : 0 < r) : Is (Elem.powf x y) (Elem.powf r s) := by
  rw [Is] at *; rw [hx, hy, powf_val_pos _ h]; rfl

theorem ite_lt {u v : SReal} {p q : ℝ} (hx : Is x r) (hy : Is y s) (hu : r < s → Is u p) (hv : ¬r < s → Is v q) :
    Is (if Elem.lt x y = true then u else v) (if Elem.lt r s = true then p else q) := by
  rw [Is] at hx hy; subst hx hy
  by_cases h : r < s
  · rw [if_pos ((lt_val _ _).2 h), if_pos (by rwa [elem_lt])]; exact hu h
  · rw [if_neg (fun hh => h ((lt_val _ _).1 hh)), if_neg (fun hh => h (by rwa [elem_lt] at hh))]; exact hv h

theorem ite_le {u v : SReal} {p q : ℝ} (hx : Is x r) (hy : Is y s) (hu : r ≤ s → Is u p) (hv : ¬r ≤ s → Is v q) :
    Is (if Elem.le x y = true then u else v) (if Elem.le r s = true then p else q) := by
  rw [Is] at hx hy; subst hx hy
  by_cases h : r ≤ s
  · rw [if_pos ((le_val _ _).2 h), if_pos (by rwa [elem_le])]; exact hu h
  · rw [if_neg (fun hh => h ((le_val _ _).1 hh)), if_neg (fun hh => h (by rwa [elem_le] at hh))]; exact hv h

theorem fsum_map {ι : Type} {l : List ι} {f : ι → SReal} {g : ι → ℝ} (h : ∀ i ∈ l, Is (f i) (g i)) :
    Is (fsum (l.map f)) (fsum (l.map g)) := Lemmas.fsum_val l f g h

theorem integrate_1d {f : SReal → SReal} {g : ℝ → ℝ} {n k : ℕ} (hn : n = k) (hx : Is x r) (hy : Is y s) (hn0 : k ≠ 0)
    (h : ∀ i < k, Is (f (SReal.val (r + (0.5 + i) * ((s - r) / k)))) (g (r + (0.5 + i) * ((s - r) / k)))) :
    Is (math.integrate_1d f x y n) (math.integrate_1d g r s k) := by
  subst hn
  have hn' : ((n : ℕ) : ℝ) ≠ 0 := Nat.cast_ne_zero.2 hn0
  have hd : Is ((y - x) / (n : SReal)) ((s - r) / (n : ℝ)) := div (sub hy hx) (natCast rfl) hn'
  refine mul (fsum_map fun i hi => ?_) hd
  have hp : Is (x + (0.5 + (i : SReal)) * ((y - x) / (n : SReal))) (r + (0.5 + (i : ℝ)) * ((s - r) / n)) :=
    add hx (mul (add (lit _ _ _) (natCast rfl)) hd)
  have := h i (List.mem_range.1 hi)
  rw [Is] at hp
  rw [hp]
  exact this

/-- The midpoint rule is defined when the integrand is defined strictly inside the interval. -/
theorem integrate_Ioo {f : SReal → SReal} {g : ℝ → ℝ} {n k : ℕ} (hn : n = k) (hx : Is x r) (hy : Is y s) (hn0 : k ≠ 0)
    (hrs : r < s) (h : ∀ t, r < t → t < s → Is (f (SReal.val t)) (g t)) :
    Is (math.integrate_1d f x y n) (math.integrate_1d g r s k) :=
  integrate_1d hn hx hy hn0 fun i hi => by
    have hm := math.midpoint_mem_Ioo hrs hi
    exact h _ hm.1 hm.2

/-- Newton's iteration is defined when a set containing the starting point is mapped to itself by the step, and the function
and its (nonvanishing) derivative are defined on it. -/
theorem newton {S : ℝ → Prop} {f fp : SReal → SReal} {g gp : ℝ → ℝ} {y guess tol : SReal} {y' guess' tol' : ℝ} {n k : ℕ}
    (hn : n = k) (hy : Is y y') (hy0 : y' ≠ 0) (hg : Is guess guess') (ht : Is tol tol') (hf : ∀ x, S x → Is (f (SReal.val x)) (g x))
    (hfp : ∀ x, S x → Is (fp (SReal.val x)) (gp x)) (hne : ∀ x, S x → gp x ≠ 0)
    (hstep : ∀ x, S x → S (x + (y' - g x) / gp x)) (h0 : S guess') :
    Is (math.inverse_newton_raphson y f fp guess tol n) (math.inverse_newton_raphson y' g gp guess' tol' k) := by
  subst hn
  rw [math.inverse_newton_raphson, math.inverse_newton_raphson]
  have hr : Is (1.0 : SReal) (1.0 : ℝ) := lit _ _ _
  generalize (1.0 : SReal) = r, (1.0 : ℝ) = r' at hr
  induction n generalizing guess guess' r r' with
  | zero => exact hg
  | succ n ih =>
    rw [math.inverse_newton_raphson_loop, math.inverse_newton_raphson_loop]
    rw [Is] at hg
    subst hg
    refine ite_lt ht hr (fun _ => ?_) (fun _ => val _)
    have hstep' := div (sub hy (hf _ h0)) (hfp _ h0) (hne _ h0)
    exact ih (add (val _) hstep') (hstep _ h0) _ _ (abs (div (sub hy (hf _ h0)) hy hy0))

end SReal.Is

open Lean Meta Elab Tactic in
/-- Reduce applications of projections of structures (not classes) to constructor applications. -/
def isReduceProj (e : Expr) : MetaM Expr :=
  Meta.transform e (pre := fun e => do
    let .const c _ := e.getAppFn | return .continue
    let some info ← getProjectionFnInfo? c | return .continue
    if info.fromClass then return .continue
    let args := e.getAppArgs
    let some s := args[info.numParams]? | return .continue
    let s ← whnf s
    unless s.isAppOf info.ctorName do return .continue
    let e' := mkAppN (.proj info.ctorName.getPrefix info.i s) (args.extract (info.numParams + 1) args.size)
    return .visit (← whnfCore e'))

open Lean Meta Elab Tactic in
/-- One unfolding step of an application of a defined constant or of a structure projection. -/
def isUnfoldExpr (e : Expr) : MetaM Expr := do
  let e ← instantiateMVars e
  let e' ← whnfCore e
  if e' != e then return ← isReduceProj e'
  let .const c _ := e.getAppFn | throwError "not an application of a constant"
  if let some info ← getProjectionFnInfo? c then
    if info.fromClass then throwError "cannot unfold"
    let e' ← isReduceProj e
    if e' == e then throwError "cannot unfold"
    return e'
  let some e' ← unfoldDefinition? e | throwError "cannot unfold"
  isReduceProj (← whnfCore e')

open Lean Meta Elab Tactic in
/-- Unfold both sides of `SReal.Is a b` once. -/
elab "is_unfold" : tactic => withMainContext do withTransparency .default do
  let g ← getMainGoal
  let t ← instantiateMVars (← g.getType)
  let t ← whnfR t
  unless t.isAppOfArity ``SReal.Is 2 do throwError "not Is"
  let a ← isUnfoldExpr t.appFn!.appArg!
  let b ← isUnfoldExpr t.appArg!
  let g' ← g.change (mkApp2 (.const ``SReal.Is []) a b)
  replaceMainGoal [g']

theorem pos_of_ndForce {ℓ f T : ℝ} (hℓ : 0 < ℓ) (hT : 0 < T) (h : 0 < Spec.ndForce ℓ f T) : 0 < f := by
  rw [Spec.ndForce, Spec.kT] at h
  by_contra hf
  have : f * ℓ / (8.314462618 * T) ≤ 0 := div_nonpos_of_nonpos_of_nonneg
    (mul_nonpos_of_nonpos_of_nonneg (not_lt.1 hf) hℓ.le) (by positivity)
  linarith

open Lean Meta Elab Tactic in
/-- Apply the transfer lemma for the head symbol of the left side of `SReal.Is a b`. -/
elab "is_step" : tactic => withMainContext do
  let g ← getMainGoal
  let t ← instantiateMVars (← g.getType)
  let t ← whnfR t
  unless t.isAppOfArity ``SReal.Is 2 do throwError "not Is"
  let a := t.appFn!.appArg!
  let .const c _ := a.getAppFn | throwError "no head constant"
  let lem : Name ← match c with
    | ``HAdd.hAdd => pure ``SReal.Is.add
    | ``HSub.hSub => pure ``SReal.Is.sub
    | ``HMul.hMul => pure ``SReal.Is.mul
    | ``HDiv.hDiv => pure ``SReal.Is.div
    | ``Neg.neg => pure ``SReal.Is.neg
    | ``OfScientific.ofScientific => pure ``SReal.Is.lit
    | ``Nat.cast => pure ``SReal.Is.natCast
    | ``SReal.val => pure ``SReal.Is.val
    | ``Elem.pi => pure ``SReal.Is.pi
    | ``Elem.exp => pure ``SReal.Is.exp
    | ``Elem.sinh => pure ``SReal.Is.sinh
    | ``Elem.cosh => pure ``SReal.Is.cosh
    | ``Elem.tanh => pure ``SReal.Is.tanh
    | ``Elem.sin => pure ``SReal.Is.sin
    | ``Elem.cos => pure ``SReal.Is.cos
    | ``Elem.abs => pure ``SReal.Is.abs
    | ``Elem.ln => pure ``SReal.Is.ln
    | ``Elem.log10 => pure ``SReal.Is.log10
    | ``Elem.sqrt => pure ``SReal.Is.sqrt
    | ``Elem.acos => pure ``SReal.Is.acos
    | ``Elem.powf => pure ``SReal.Is.powf
    | ``Elem.powi =>
      let n := a.appArg!
      if n.isAppOf ``OfNat.ofNat then pure ``SReal.Is.powi_ofNat
      else if n.isAppOf ``Nat.cast then pure ``SReal.Is.powi_nat
      else pure ``SReal.Is.powi_ne
    | ``ite =>
      let p := a.getArg! 1
      if (p.find? (·.isConstOf ``Elem.lt)).isSome then pure ``SReal.Is.ite_lt else pure ``SReal.Is.ite_le
    | _ => throwError "no lemma"
  let gs ← withReducible <| g.apply (← mkConstWithFreshMVarLevels lem)
  replaceMainGoal gs

namespace Pos

theorem lit {m : ℕ} {s : Bool} {e : ℕ} (h : m ≠ 0) : (0 : ℝ) < OfScientific.ofScientific m s e := by
  have hm : (0 : ℝ) < m := Nat.cast_pos.2 (Nat.pos_of_ne_zero h)
  rw [Lean.Grind.LawfulOfScientific.ofScientific_def]
  cases s <;> simp only [if_true, Bool.false_eq_true, if_false] <;> positivity
theorem ne {a : ℝ} (h : 0 < a) : a ≠ 0 := h.ne'
theorem le {a : ℝ} (h : 0 < a) : 0 ≤ a := h.le
theorem add {a b : ℝ} (ha : 0 < a) (hb : 0 < b) : 0 < a + b := add_pos ha hb
theorem mul {a b : ℝ} (ha : 0 < a) (hb : 0 < b) : 0 < a * b := mul_pos ha hb
theorem div {a b : ℝ} (ha : 0 < a) (hb : 0 < b) : 0 < a / b := div_pos ha hb
theorem pi : (0 : ℝ) < Elem.pi := Real.pi_pos
theorem exp (x : ℝ) : 0 < Elem.exp x := Real.exp_pos x
theorem cosh (x : ℝ) : 0 < Elem.cosh x := Real.cosh_pos x
theorem sinh {x : ℝ} (h : 0 < x) : 0 < Elem.sinh x := Real.sinh_pos_iff.2 h
theorem tanh {x : ℝ} (h : 0 < x) : 0 < Elem.tanh x := by
  rw [elem_tanh, Real.tanh_eq_sinh_div_cosh]; exact div_pos (Real.sinh_pos_iff.2 h) (Real.cosh_pos x)
theorem sqrt {x : ℝ} (h : 0 < x) : 0 < Elem.sqrt x := Real.sqrt_pos.2 h
theorem powi {x : ℝ} {n : ℤ} (h : 0 < x) : 0 < Elem.powi x n := by rw [elem_powi]; positivity
theorem powf {x y : ℝ} (h : 0 < x) : 0 < Elem.powf x y := Real.rpow_pos_of_pos h y
theorem boltzmann : (0 : ℝ) < BOLTZMANN_CONSTANT := lit (by decide)
theorem planck : (0 : ℝ) < PLANCK_CONSTANT := lit (by decide)
theorem zero : (0 : ℝ) < ZERO := lit (by decide)

end Pos

open Lean Meta Elab Tactic in
/-- One step of a syntactic positivity proof. -/
elab "pos_step" : tactic => withMainContext do
  let g ← getMainGoal
  let t ← instantiateMVars (← g.getType)
  let t := t.consumeMData
  let app (lem : Name) : TacticM Unit := do
    replaceMainGoal (← withReducible <| g.apply (← mkConstWithFreshMVarLevels lem))
  if t.isAppOf ``Ne then app ``Pos.ne else
  if t.isAppOf ``LE.le then app ``Pos.le else
  unless t.isAppOfArity ``LT.lt 4 do throwError "not a positivity goal"
  let a := t.appArg!
  let .const c _ := a.getAppFn | throwError "no head constant"
  match c with
    | ``HAdd.hAdd => app ``Pos.add
    | ``HMul.hMul => app ``Pos.mul
    | ``HDiv.hDiv => app ``Pos.div
    | ``OfScientific.ofScientific =>
      app ``Pos.lit
      evalTactic (← `(tactic| with_reducible decide))
    | ``Elem.pi => app ``Pos.pi
    | ``Elem.exp => app ``Pos.exp
    | ``Elem.cosh => app ``Pos.cosh
    | ``Elem.sinh => app ``Pos.sinh
    | ``Elem.tanh => app ``Pos.tanh
    | ``Elem.sqrt => app ``Pos.sqrt
    | ``Elem.powi => app ``Pos.powi
    | ``Elem.powf => app ``Pos.powf
    | ``BOLTZMANN_CONSTANT => app ``Pos.boltzmann
    | ``PLANCK_CONSTANT => app ``Pos.planck
    | ``ZERO => app ``Pos.zero
    | _ => throwError "no lemma"

/-- Closes simple side conditions over the reals. -/
macro "side" : tactic => `(tactic| first
  | with_reducible assumption
  | (with_reducible rfl)
  | ((repeat' (first | with_reducible assumption | pos_step)); done)
  | positivity
  | (simp only [model_real, BOLTZMANN_CONSTANT, PLANCK_CONSTANT, ZERO, Real.tanh_eq_sinh_div_cosh]; positivity))

/-- Prove `SReal.Is a b` by structural recursion, using the lemmas given; side conditions over the reals that are not closed
remain. -/
syntax "defined" ("[" term,* "]")? : tactic
macro_rules
  | `(tactic| defined) => `(tactic| defined [])
  | `(tactic| defined [$ts,*]) => do
    let mut alts : Array (Lean.TSyntax ``Lean.Parser.Tactic.tacticSeq) := #[]
    for t in ts.getElems do
      alts := alts.push (← `(Lean.Parser.Tactic.tacticSeq| refine $t))
    let user ← if alts.size = 0 then `(tactic| fail) else
      `(tactic| with_reducible first $[| $alts]*)
    `(tactic| repeat' (first
      | $user:tactic
      | is_step
      | is_unfold
      | side))

end Polymers
