import Verif.Model.BindingsConstitutive
import Verif.Model.RealInst
import Mathlib.Data.List.Basic

/-! Properties C59 and C62 for the constitutive models. -/

namespace Polymers.Props

open Polymers

section

variable {α : Type} [Add α] [Sub α] [Mul α] [Div α] [Neg α] [OfScientific α] [NatCast α] [Elem α]

set_option linter.unusedSectionVars false

/-- C59: the Python class of the hyperelastic model is constructed exactly when the Rust model is, holds the inputs, and maps
the Rust method over the array of stretches; the call fails when one of the entries fails. -/
theorem C59_python_hyperelastic (method : ℕ) (κ : α) (N : ℕ) :
    ((Python.constitutive.hyperelastic.buche_silberstein.BucheSilberstein.init method κ N).isSome =
      (constitutive.hyperelastic.buche_silberstein.BucheSilberstein.init method κ N).isSome) ∧
    ∀ py s, Python.constitutive.hyperelastic.buche_silberstein.BucheSilberstein.init method κ N = some py →
      constitutive.hyperelastic.buche_silberstein.BucheSilberstein.init method κ N = some s →
      py.nondimensional_link_stiffness = κ ∧ py.number_of_links = N ∧
        (∀ stretches : NdArray α, py.uniaxial_tension stretches =
          (stretches.data.mapM s.uniaxial_tension).map fun stresses => ⟨stretches.shape, stresses⟩) ∧
        ∀ stretches : NdArray α, py.equibiaxial_tension stretches =
          (stretches.data.mapM s.equibiaxial_tension).map fun stresses => ⟨stretches.shape, stresses⟩ := by
  unfold Python.constitutive.hyperelastic.buche_silberstein.BucheSilberstein.init
    constitutive.hyperelastic.buche_silberstein.BucheSilberstein.init
  cases constitutive.hyperelastic.buche_silberstein.init method κ N with
  | none => simp
  | some e =>
    refine ⟨rfl, fun py s hp hs => ?_⟩
    simp only [Option.map_some, Option.some.injEq] at hp hs
    subst hp; subst hs
    exact ⟨rfl, rfl, fun _ => rfl, fun _ => rfl⟩

theorem python_damage_fold (py : Python.constitutive.hyperelastic_damage.buche_silberstein.BucheSilberstein α)
    (s : constitutive.hyperelastic_damage.buche_silberstein.BucheSilberstein α)
    (h : py.element = s.element ∧ py.factor = s.factor ∧ py.grid = s.grid ∧ py.normalization = s.normalization ∧
      py.method = s.method ∧ py.nondimensional_critical_extension = s.nondimensional_critical_extension ∧
      py.nondimensional_link_stiffness = s.nondimensional_link_stiffness ∧ py.number_of_links = s.number_of_links ∧
      py.swelling_ratio = s.swelling_ratio) (l : List α) (m : α) (acc : List (α × α)) :
    (l.foldl py.step (some (m, acc))).map (fun st => st.2.reverse) =
      (s.uniaxial_tension_loop m l).map fun out => acc.reverse ++ out := by
  induction l generalizing m acc with
  | nil => simp [constitutive.hyperelastic_damage.buche_silberstein.BucheSilberstein.uniaxial_tension_loop]
  | cons x l ih =>
    obtain ⟨h1, h2, h3, h4, h5, h6, h7, h8, h9⟩ := h
    simp only [List.foldl_cons, Python.constitutive.hyperelastic_damage.buche_silberstein.BucheSilberstein.step,
      constitutive.hyperelastic_damage.buche_silberstein.BucheSilberstein.uniaxial_tension_loop, Option.bind_some, h1, h2, h3,
      h4, h5, h6, h7, h8, h9]
    cases constitutive.hyperelastic_damage.buche_silberstein.uniaxial_tension s.element s.factor s.grid s.normalization
        s.method s.nondimensional_critical_extension s.nondimensional_link_stiffness s.number_of_links s.swelling_ratio x
        (if Elem.lt m x then x else m) with
    | none =>
      have hn : ∀ l : List α, l.foldl py.step none = none := by
        intro l
        induction l with
        | nil => rfl
        | cons y l ih => exact ih
      simp only [Option.map_none, Option.bind_none]
      rw [hn]; rfl
    | some out =>
      simp only [Option.map_some, Option.bind_some]
      rw [ih]
      cases s.uniaxial_tension_loop (if Elem.lt m x then x else m) l <;> simp

/-- C59: the Python class of the damage model is constructed exactly when the Rust model is, holds the inputs, and for a
history of any length returns the stresses and the probabilities of the Rust method, or fails with it.  The results are arrays with one dimension, whatever
the shape of the array of stretches. -/
theorem C59_python_hyperelastic_damage (method : ℕ) (c κ : α) (N : ℕ) (J : α) :
    ((Python.constitutive.hyperelastic_damage.buche_silberstein.BucheSilberstein.init method c κ N J).isSome =
      (constitutive.hyperelastic_damage.buche_silberstein.BucheSilberstein.init method c κ N J).isSome) ∧
    ∀ py s, Python.constitutive.hyperelastic_damage.buche_silberstein.BucheSilberstein.init method c κ N J = some py →
      constitutive.hyperelastic_damage.buche_silberstein.BucheSilberstein.init method c κ N J = some s →
      py.nondimensional_critical_extension = c ∧ py.nondimensional_link_stiffness = κ ∧ py.number_of_links = N ∧
        py.swelling_ratio = J ∧
        ∀ stretches : NdArray α, py.uniaxial_tension stretches =
          (s.uniaxial_tension stretches.data.length stretches.data).map fun out =>
            (⟨[out.length], out.map Prod.fst⟩, ⟨[out.length], out.map Prod.snd⟩) := by
  unfold Python.constitutive.hyperelastic_damage.buche_silberstein.BucheSilberstein.init
    constitutive.hyperelastic_damage.buche_silberstein.BucheSilberstein.init
  cases constitutive.hyperelastic_damage.buche_silberstein.init method c κ N J with
  | none => simp
  | some e =>
    refine ⟨rfl, fun py s hp hs => ?_⟩
    simp only [Option.map_some, Option.some.injEq] at hp hs
    subst hp; subst hs
    refine ⟨rfl, rfl, rfl, rfl, fun stretches => ?_⟩
    have h := python_damage_fold
      { element := e.1, factor := e.2.1, grid := e.2.2.1, method := method, normalization := e.2.2.2,
        nondimensional_critical_extension := c, nondimensional_link_stiffness := κ, number_of_links := N,
        swelling_ratio := J }
      { element := e.1, factor := e.2.1, grid := e.2.2.1, method := method, normalization := e.2.2.2,
        nondimensional_critical_extension := c, nondimensional_link_stiffness := κ, number_of_links := N,
        swelling_ratio := J } ⟨rfl, rfl, rfl, rfl, rfl, rfl, rfl, rfl, rfl⟩ stretches.data 1.0 []
    unfold Python.constitutive.hyperelastic_damage.buche_silberstein.BucheSilberstein.uniaxial_tension
      constitutive.hyperelastic_damage.buche_silberstein.BucheSilberstein.uniaxial_tension
    rw [if_neg (lt_irrefl _), List.take_length]
    simp only [List.reverse_nil, List.nil_append, Option.map_id'] at h
    rw [← h, Option.map_map]
    simp only [NdArray.from_vec, List.length_map]
    rfl

/-! ### The C functions -/

theorem rows_flatten (columns : ℕ) (l : List (List α)) (junk : List α) (h : ∀ r ∈ l, r.length = columns) :
    C.rows columns l.length (l.flatten ++ junk) = l := by
  induction l with
  | nil => rfl
  | cons r l ih =>
    have hr : r.length = columns := h r (by simp)
    simp only [List.length_cons, C.rows, List.flatten_cons, List.append_assoc]
    rw [List.take_left' hr, List.drop_left' hr, ih fun x hx => h x (by simp [hx])]

theorem c_hyperelastic_of_lengths {s : constitutive.hyperelastic.buche_silberstein.BucheSilberstein α} {element grid junk junk' : List α}
    (hg : grid = s.grid) (hgl : s.grid.length = 256) (he : element = s.element.flatten) (hel : s.element.length = 256)
    (her : ∀ r ∈ s.element, r.length = 256)
    (hj : 256 * 256 ≤ (grid ++ junk).length) (hj' : 256 ^ 4 ≤ (element ++ junk').length) (stretch : α) :
    C.constitutive_hyperelastic_buche_silberstein_uniaxial_tension (element ++ junk') s.factor (grid ++ junk) s.normalization
        s.method s.nondimensional_link_stiffness s.number_of_links stretch = s.uniaxial_tension stretch ∧
      C.constitutive_hyperelastic_buche_silberstein_equibiaxial_tension (element ++ junk') s.factor (grid ++ junk)
        s.normalization s.method s.nondimensional_link_stiffness s.number_of_links stretch = s.equibiaxial_tension stretch := by
  subst hg; subst he
  have h1 : C.firstOfRawParts (s.grid ++ junk) constitutive.hyperelastic.buche_silberstein.NUMGRID
      constitutive.hyperelastic.buche_silberstein.NUMGRID = some s.grid := by
    unfold C.firstOfRawParts constitutive.hyperelastic.buche_silberstein.NUMGRID
    rw [if_pos hj, List.take_left' hgl]
  have hfl : s.element.flatten.length = 256 * 256 := by
    rw [List.length_flatten]
    have : s.element.map List.length = List.replicate 256 256 := by
      rw [List.eq_replicate_iff]
      exact ⟨by rw [List.length_map, hel], fun x hx => by
        obtain ⟨r, hr, rfl⟩ := List.mem_map.1 hx
        exact her r hr⟩
    rw [this, List.sum_replicate]
    rfl
  have h2 : C.firstOfRawParts (s.element.flatten ++ junk') (constitutive.hyperelastic.buche_silberstein.NUMGRID *
      constitutive.hyperelastic.buche_silberstein.NUMGRID) (constitutive.hyperelastic.buche_silberstein.NUMGRID *
      constitutive.hyperelastic.buche_silberstein.NUMGRID) = some s.element.flatten := by
    unfold C.firstOfRawParts constitutive.hyperelastic.buche_silberstein.NUMGRID
    rw [if_pos (by omega), List.take_left' hfl]
  have h3 : C.rows constitutive.hyperelastic.buche_silberstein.NUMGRID constitutive.hyperelastic.buche_silberstein.NUMGRID
      s.element.flatten = s.element := by
    have := rows_flatten 256 s.element [] her
    rw [hel, List.append_nil] at this
    exact this
  unfold C.constitutive_hyperelastic_buche_silberstein_uniaxial_tension
    C.constitutive_hyperelastic_buche_silberstein_equibiaxial_tension
  rw [h1, h2]
  simp only [Option.bind_some, h3]
  exact ⟨rfl, rfl⟩

/-- Every constructed model has a grid of 256 points and a matrix of 256 rows of 256 elements. -/
theorem hyperelastic_lengths {method : ℕ} {κ : α} {N : ℕ}
    {s : constitutive.hyperelastic.buche_silberstein.BucheSilberstein α}
    (h : constitutive.hyperelastic.buche_silberstein.BucheSilberstein.init method κ N = some s) :
    s.grid.length = 256 ∧ s.element.length = 256 ∧ ∀ r ∈ s.element, r.length = 256 := by
  have hg : (constitutive.hyperelastic.buche_silberstein.grid : List α).length = 256 := by
    simp [constitutive.hyperelastic.buche_silberstein.grid, constitutive.from_fn, constitutive.hyperelastic.buche_silberstein.NUMGRID]
  have hw : (constitutive.hyperelastic.buche_silberstein.w : List α).length = 256 := by
    simp [constitutive.hyperelastic.buche_silberstein.w, constitutive.from_fn, constitutive.hyperelastic.buche_silberstein.NUMGRID]
  have he : (constitutive.hyperelastic.buche_silberstein.element κ N).length = 256 ∧
      ∀ r ∈ constitutive.hyperelastic.buche_silberstein.element κ N, r.length = 256 := by
    unfold constitutive.hyperelastic.buche_silberstein.element
    refine ⟨by simp [hg, hw], fun r hr => ?_⟩
    obtain ⟨x, _, rfl⟩ := List.mem_map.1 hr
    simp [hg, hw]
  have hm : method = 2 ∨ method = 3 := by
    match method, h with
    | 2, _ => exact Or.inl rfl
    | 3, _ => exact Or.inr rfl
  rcases hm with rfl | rfl <;>
  · simp only [constitutive.hyperelastic.buche_silberstein.BucheSilberstein.init,
      constitutive.hyperelastic.buche_silberstein.init, Option.map_some, Option.some.injEq] at h
    subst h
    exact ⟨hg, he.1, he.2⟩

/-- C62: for every hyperelastic model which can be constructed, the C functions give the Rust stress when the buffers of the caller
begin with the grid and with the element matrix of the model and are at least 256 and 65536 times longer than those. -/
theorem C62_c_hyperelastic {method : ℕ} {κ : α} {N : ℕ}
    {s : constitutive.hyperelastic.buche_silberstein.BucheSilberstein α}
    (h : constitutive.hyperelastic.buche_silberstein.BucheSilberstein.init method κ N = some s) {junk junk' : List α}
    (hj : 256 * 256 ≤ (s.grid ++ junk).length) (hj' : 65536 * 65536 ≤ (s.element.flatten ++ junk').length) (stretch : α) :
    C.constitutive_hyperelastic_buche_silberstein_uniaxial_tension (s.element.flatten ++ junk') s.factor (s.grid ++ junk)
        s.normalization method κ N stretch = s.uniaxial_tension stretch ∧
      C.constitutive_hyperelastic_buche_silberstein_equibiaxial_tension (s.element.flatten ++ junk') s.factor
        (s.grid ++ junk) s.normalization method κ N stretch = s.equibiaxial_tension stretch := by
  obtain ⟨h1, h2, h3⟩ := hyperelastic_lengths h
  have h4 : s.method = method ∧ s.nondimensional_link_stiffness = κ ∧ s.number_of_links = N := by
    unfold constitutive.hyperelastic.buche_silberstein.BucheSilberstein.init at h
    cases he : constitutive.hyperelastic.buche_silberstein.init method κ N with
    | none => simp [he] at h
    | some e =>
      simp only [he, Option.map_some, Option.some.injEq] at h
      subst h
      exact ⟨rfl, rfl, rfl⟩
  have := c_hyperelastic_of_lengths rfl h1 rfl h2 h3 hj (le_trans (by norm_num) hj') stretch
  rwa [h4.1, h4.2.1, h4.2.2] at this

/-- C62: with buffers that hold just the grid of the model, or just its element matrix, or anything shorter than 256 and 65536
times those, the call violates the contract of `from_raw_parts`: nothing is guaranteed. -/
theorem C62_c_hyperelastic_short_buffers {raw_grid raw_element : List α}
    (h : raw_grid.length < 256 * 256 ∨ raw_element.length < 65536 * 65536) (factor normalization κ stretch : α) (method N : ℕ) :
    C.constitutive_hyperelastic_buche_silberstein_uniaxial_tension raw_element factor raw_grid normalization method κ N
        stretch = none ∧
      C.constitutive_hyperelastic_buche_silberstein_equibiaxial_tension raw_element factor raw_grid normalization method κ N
        stretch = none := by
  have hb : ∀ (o : Option (List α)) (f : List α → Option α), (o.bind fun _ => (none : Option α)) = none := by
    intro o _; cases o <;> rfl
  unfold C.constitutive_hyperelastic_buche_silberstein_uniaxial_tension
    C.constitutive_hyperelastic_buche_silberstein_equibiaxial_tension C.firstOfRawParts
    constitutive.hyperelastic.buche_silberstein.NUMGRID
  rcases h with h | h
  · rw [if_neg (by omega)]; exact ⟨rfl, rfl⟩
  · rw [if_neg (by omega : ¬ 256 * 256 * (256 * 256) ≤ raw_element.length)]
    simp only [Option.bind_none]
    split <;> exact ⟨rfl, rfl⟩

end

/-- Models with methods 2 and 3 can be constructed, with method 1 they cannot. -/
example : (constitutive.hyperelastic.buche_silberstein.BucheSilberstein.init 2 (88 : ℝ) 8).isSome ∧
    (constitutive.hyperelastic_damage.buche_silberstein.BucheSilberstein.init 3 (1.1 : ℝ) 88 8 1).isSome ∧
    Python.constitutive.hyperelastic.buche_silberstein.BucheSilberstein.init 1 (88 : ℝ) 8 = none := ⟨rfl, rfl, rfl⟩

/-- Buffers which are long enough exist. -/
example (l : List ℝ) : 65536 * 65536 ≤ (l ++ List.replicate (65536 * 65536) 0).length := by
  rw [List.length_append, List.length_replicate]; omega

/-- The buffers of the obvious caller are too short. -/
example {s : constitutive.hyperelastic.buche_silberstein.BucheSilberstein ℝ}
    (h : constitutive.hyperelastic.buche_silberstein.BucheSilberstein.init 2 (88 : ℝ) 8 = some s) :
    C.constitutive_hyperelastic_buche_silberstein_uniaxial_tension s.element.flatten s.factor s.grid s.normalization 2 88 8 1.5 =
      none :=
  (C62_c_hyperelastic_short_buffers (Or.inl (by rw [(hyperelastic_lengths h).1]; norm_num)) _ _ _ _ _ _).1

end Polymers.Props
