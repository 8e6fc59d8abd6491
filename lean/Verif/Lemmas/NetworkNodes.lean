import Mathlib.Analysis.SpecialFunctions.Artanh
import Mathlib.Analysis.SpecialFunctions.Log.Deriv
import Mathlib.Analysis.Calculus.MeanValue
import Mathlib.Tactic.Linarith
import Mathlib.Tactic.FieldSimp

/-! No chain on the grid of the hyperelastic model is exactly at full extension. -/

namespace Polymers.Lemmas

open Real Set

/-- Lower and upper bounds of `10⁹ artanh (n / 257)`, for `n` from 0 to 200. -/
def nodeTable : List (ℕ × ℕ) := [
  (0, 0), (3891070, 3891071), (7782258, 7782260), (11673681, 11673684), (15565458, 15565462), (19457706, 19457711),
  (23350544, 23350550), (27244090, 27244097), (31138462, 31138470), (35033778, 35033787), (38930157, 38930167),
  (42827718, 42827729), (46726580, 46726592), (50626862, 50626875), (54528683, 54528697), (58432164, 58432179),
  (62337424, 62337440), (66244584, 66244601), (70153765, 70153783), (74065088, 74065107), (77978674, 77978694),
  (81894645, 81894666), (85813124, 85813146), (89734234, 89734257), (93658097, 93658121), (97584838, 97584863),
  (101514581, 101514607), (105447452, 105447479), (109383575, 109383603), (113323077, 113323106), (117266085,
  117266115), (121212726, 121212757), (125163128, 125163160), (129117420, 129117453), (133075732, 133075766),
  (137038194, 137038229), (141004937, 141004973), (144976093, 144976130), (148951795, 148951833), (152932177,
  152932216), (156917373, 156917413), (160907519, 160907560), (164902752, 164902794), (168903209, 168903252),
  (172909028, 172909072), (176920349, 176920394), (180937313, 180937359), (184960062, 184960109), (188988738,
  188988786), (193023486, 193023535), (197064452, 197064502), (201111781, 201111832), (205165622, 205165674),
  (209226124, 209226177), (213293438, 213293492), (217367716, 217367771), (221449112, 221449168), (225537780,
  225537837), (229633877, 229633935), (233737561, 233737620), (237848992, 237849052), (241968331, 241968392),
  (246095741, 246095803), (250231387, 250231450), (254375435, 254375499), (258528054, 258528119), (262689414,
  262689480), (266859688, 266859755), (271039049, 271039117), (275227674, 275227743), (279425741, 279425811),
  (283633431, 283633502), (287850926, 287850998), (292078411, 292078484), (296316073, 296316147), (300564102,
  300564177), (304822690, 304822766), (309092031, 309092108), (313372322, 313372400), (317663763, 317663842),
  (321966557, 321966637), (326280908, 326280989), (330607024, 330607106), (334945116, 334945199), (339295398,
  339295482), (343658086, 343658171), (348033401, 348033487), (352421565, 352421652), (356822805, 356822893),
  (361237351, 361237440), (365665436, 365665526), (370107297, 370107388), (374563175, 374563267), (379033314,
  379033407), (383517961, 383518056), (388017369, 388017465), (392531794, 392531891), (397061496, 397061594),
  (401606740, 401606839), (406167795, 406167895), (410744934, 410745035), (415338435, 415338537), (419948581,
  419948684), (424575659, 424575763), (429219962, 429220067), (433881789, 433881895), (438561442, 438561549),
  (443259230, 443259338), (447975467, 447975576), (452710472, 452710583), (457464572, 457464684), (462238099,
  462238212), (467031391, 467031505), (471844793, 471844908), (476678656, 476678772), (481533338, 481533455),
  (486409204, 486409322), (491306626, 491306745), (496225985, 496226105), (501167667, 501167788), (506132068,
  506132190), (511119592, 511119715), (516130650, 516130774), (521165663, 521165788), (526225060, 526225186),
  (531309279, 531309406), (536418768, 536418896), (541553986, 541554115), (546715399, 546715529), (551903486,
  551903617), (557118736, 557118868), (562361649, 562361782), (567632735, 567632869), (572932518, 572932653),
  (578261533, 578261669), (583620328, 583620465), (589009463, 589009601), (594429513, 594429652), (599881065,
  599881205), (605364722, 605364863), (610881101, 610881243), (616430835, 616430978), (622014572, 622014716),
  (627632977, 627633122), (633286731, 633286877), (638976535, 638976682), (644703106, 644703254), (650467181,
  650467330), (656269517, 656269667), (662110890, 662111041), (667992099, 667992251), (673913963, 673914116),
  (679877325, 679877479), (685883052, 685883207), (691932034, 691932190), (698025188, 698025345), (704163458,
  704163616), (710347813, 710347972), (716579254, 716579414), (722858809, 722858970), (729187539, 729187701),
  (735566537, 735566700), (741996930, 741997094), (748479880, 748480045), (755016585, 755016751), (761608283,
  761608450), (768256250, 768256418), (774961806, 774961975), (781726313, 781726483), (788551179, 788551350),
  (795437860, 795438032), (802387862, 802388035), (809402743, 809402917), (816484116, 816484291), (823633652,
  823633828), (830853081, 830853258), (838144197, 838144375), (845508860, 845509039), (852948999, 852949179),
  (860466618, 860466799), (868063796, 868063978), (875742694, 875742877), (883505558, 883505742), (891354725,
  891354910), (899292625, 899292811), (907321789, 907321976), (915444853, 915445041), (923664566, 923664755),
  (931983794, 931983984), (940405528, 940405719), (948932892, 948933084), (957569149, 957569342), (966317712,
  966317906), (975182152, 975182347), (984166208, 984166404), (993273798, 993273995), (1002509031, 1002509229),
  (1011876218, 1011876417), (1021379887, 1021380087), (1031024798, 1031024999), (1040815960, 1040816162)
  ]

/-- The lower bound. -/
def nodeLo (n : ℕ) : ℕ := (nodeTable.getD n (0, 0)).1

/-- The upper bound. -/
def nodeUp (n : ℕ) : ℕ := (nodeTable.getD n (0, 0)).2

/-- The table grows by no more, or no less, than a bound of the difference of successive values. -/
theorem nodeTable_step : ∀ n < 200,
    nodeLo (n + 1) * (3 * (66049 - n * (n + 1)) ^ 3) ≤ nodeLo n * (3 * (66049 - n * (n + 1)) ^ 3) +
      10 ^ 9 * (771 * (66049 - n * (n + 1)) ^ 2 + 257 ^ 3) ∧
    nodeUp n * (12 * (66049 - n * (n + 1)) ^ 5) +
      10 ^ 9 * (3084 * (66049 - n * (n + 1)) ^ 4 + 4 * 257 ^ 3 * (66049 - n * (n + 1)) ^ 2 + 3 * 257 ^ 5) ≤
      nodeUp (n + 1) * (12 * (66049 - n * (n + 1)) ^ 5) := by
  decide +kernel

/-- No two entries of the table can be the legs of a right triangle of hypotenuse one. -/
theorem nodeTable_pairs : ∀ n < 197, ∀ m < 197,
    nodeUp n ^ 2 + nodeUp m ^ 2 < 10 ^ 18 ∨ 10 ^ 18 < nodeLo n ^ 2 + nodeLo m ^ 2 := by
  decide +kernel

theorem nodeTable_last : 10 ^ 9 < nodeLo 196 ∧ nodeUp 195 < 10 ^ 9 := by decide +kernel

/-- Half the logarithm of `(1 + t) / (1 - t)`. -/
noncomputable def halfLog (t : ℝ) : ℝ := (log (1 + t) - log (1 - t)) / 2

theorem hasDerivAt_halfLog {t : ℝ} (h0 : 0 ≤ t) (h1 : t < 1) : HasDerivAt halfLog (1 / (1 - t ^ 2)) t := by
  have a := ((hasDerivAt_id t).const_add 1).log (by simp only [id]; linarith)
  have b := ((hasDerivAt_id t).const_sub 1).log (by simp only [id]; linarith)
  convert! (a.sub b).div_const 2 using 1
  have : 1 - t ≠ 0 := by linarith
  have : 1 + t ≠ 0 := by linarith
  have : 1 - t ^ 2 ≠ 0 := by nlinarith
  simp only [id]
  field_simp
  ring

theorem halfLog_bounds {t : ℝ} (h0 : 0 ≤ t) (h1 : t ≤ 1 / 4) :
    t + t ^ 3 / 3 ≤ halfLog t ∧ halfLog t ≤ t + t ^ 3 / 3 + t ^ 5 / 4 := by
  have hz : halfLog 0 = 0 := by simp [halfLog]
  have hlow : ∀ x ∈ Icc (0:ℝ) (1 / 4), HasDerivAt (fun x => halfLog x - (x + x ^ 3 / 3)) (1 / (1 - x ^ 2) - (1 + x ^ 2)) x := by
    intro x hx
    refine (hasDerivAt_halfLog hx.1 (by linarith [hx.2])).sub ?_
    convert! (hasDerivAt_id x).add ((hasDerivAt_pow 3 x).div_const 3) using 1
    push_cast; ring
  have hup : ∀ x ∈ Icc (0:ℝ) (1 / 4), HasDerivAt (fun x => x + x ^ 3 / 3 + x ^ 5 / 4 - halfLog x)
      (1 + x ^ 2 + 5 * x ^ 4 / 4 - 1 / (1 - x ^ 2)) x := by
    intro x hx
    refine HasDerivAt.sub ?_ (hasDerivAt_halfLog hx.1 (by linarith [hx.2]))
    convert! ((hasDerivAt_id x).add ((hasDerivAt_pow 3 x).div_const 3)).add ((hasDerivAt_pow 5 x).div_const 4) using 1
    push_cast; ring
  have m1 : MonotoneOn (fun x => halfLog x - (x + x ^ 3 / 3)) (Icc 0 (1 / 4)) := by
    refine monotoneOn_of_hasDerivWithinAt_nonneg (convex_Icc _ _)
      (fun x hx => (hlow x hx).continuousAt.continuousWithinAt)
      (fun x hx => (hlow x (interior_subset hx)).hasDerivWithinAt) fun x hx => ?_
    have hx' := interior_subset hx
    have hp : 0 < 1 - x ^ 2 := by nlinarith [hx'.1, hx'.2]
    rw [sub_nonneg, le_div_iff₀ hp]
    nlinarith [sq_nonneg (x ^ 2)]
  have m2 : MonotoneOn (fun x => x + x ^ 3 / 3 + x ^ 5 / 4 - halfLog x) (Icc 0 (1 / 4)) := by
    refine monotoneOn_of_hasDerivWithinAt_nonneg (convex_Icc _ _)
      (fun x hx => (hup x hx).continuousAt.continuousWithinAt)
      (fun x hx => (hup x (interior_subset hx)).hasDerivWithinAt) fun x hx => ?_
    have hx' := interior_subset hx
    have hp : 0 < 1 - x ^ 2 := by nlinarith [hx'.1, hx'.2]
    have h5 : x ^ 2 ≤ 1 / 16 := by nlinarith [hx'.1, hx'.2]
    rw [sub_nonneg, div_le_iff₀ hp]
    have : 0 ≤ x ^ 4 * (1 - 5 * x ^ 2) := mul_nonneg (by positivity) (by linarith)
    nlinarith
  have ht : t ∈ Icc (0:ℝ) (1 / 4) := ⟨h0, h1⟩
  have hl : (0:ℝ) ∈ Icc (0:ℝ) (1 / 4) := ⟨le_rfl, by norm_num⟩
  have r1 := m1 hl ht h0
  have r2 := m2 hl ht h0
  simp only [hz] at r1 r2
  norm_num at r1 r2
  exact ⟨by linarith, by linarith⟩

/-- The node of the grid. -/
noncomputable def node (n : ℕ) : ℝ := artanh ((n : ℝ) / 257)

theorem node_eq {n : ℕ} (hn : n < 257) : node n = (log (257 + n) - log (257 - n)) / 2 := by
  have h : (n : ℝ) < 257 := by exact_mod_cast hn
  have h0 : (0 : ℝ) ≤ n := n.cast_nonneg
  have e : (1 + (n : ℝ) / 257) / (1 - (n : ℝ) / 257) = (257 + n) / (257 - n) := by
    have : 257 - (n : ℝ) ≠ 0 := by linarith
    have : 1 - (n : ℝ) / 257 ≠ 0 := by
      rw [sub_ne_zero]; intro h'; rw [eq_div_iff (by norm_num)] at h'; linarith
    field_simp
  rw [node, artanh_eq_half_log ⟨by have : 0 ≤ (n : ℝ) / 257 := by positivity
                                   linarith, by rw [div_le_one (by norm_num)]; exact h.le⟩, e,
    log_div (by linarith) (by linarith)]
  ring

theorem node_succ {n : ℕ} (hn : n < 200) : node (n + 1) = node n + halfLog (257 / (66049 - n * (n + 1))) := by
  have h : (n : ℝ) + 1 ≤ 200 := by exact_mod_cast hn
  have h0 : (0 : ℝ) ≤ n := n.cast_nonneg
  have hd : (0:ℝ) < 66049 - n * (n + 1) := by nlinarith
  rw [node_eq (by omega), node_eq (by omega), halfLog]
  have e1 : (1:ℝ) + 257 / (66049 - n * (n + 1)) = (257 + (n + 1)) * (257 - n) / (66049 - n * (n + 1)) := by
    field_simp; ring
  have e2 : (1:ℝ) - 257 / (66049 - n * (n + 1)) = (257 + n) * (257 - (n + 1)) / (66049 - n * (n + 1)) := by
    field_simp; ring
  rw [e1, e2, log_div (by apply ne_of_gt; apply mul_pos <;> linarith) hd.ne', log_div (by apply ne_of_gt; apply mul_pos <;> linarith) hd.ne',
    log_mul (by linarith) (by linarith), log_mul (by linarith) (by linarith)]
  push_cast
  ring

theorem node_bounds {n : ℕ} (hn : n ≤ 200) : nodeLo n / 10 ^ 9 ≤ node n ∧ node n ≤ nodeUp n / 10 ^ 9 := by
  induction n with
  | zero =>
    have : nodeLo 0 = 0 ∧ nodeUp 0 = 0 := by decide
    rw [this.1, this.2]
    simp [node]
  | succ n ih =>
    obtain ⟨i1, i2⟩ := ih (by omega)
    obtain ⟨s1, s2⟩ := nodeTable_step n (by omega)
    have h : (n : ℝ) + 1 ≤ 200 := by exact_mod_cast hn
    have h0 : (0 : ℝ) ≤ n := n.cast_nonneg
    have hd' : n * (n + 1) ≤ 66049 := by nlinarith
    have hd : (0:ℝ) < 66049 - n * (n + 1) := by nlinarith
    rw [node_succ (by omega)]
    obtain ⟨b1, b2⟩ := halfLog_bounds (t := 257 / (66049 - n * (n + 1))) (by positivity)
      (by rw [div_le_iff₀ hd]; nlinarith)
    have ec : ((66049 - n * (n + 1) : ℕ) : ℝ) = 66049 - n * (n + 1) := by
      rw [Nat.cast_sub hd']; push_cast; ring
    have s1' := (Nat.cast_le (α := ℝ)).2 s1
    have s2' := (Nat.cast_le (α := ℝ)).2 s2
    push_cast [ec] at s1' s2'
    generalize (66049 - (n : ℝ) * (n + 1)) = d at *
    constructor
    · refine le_trans ?_ (add_le_add i1 b1)
      have e : (nodeLo n : ℝ) / 10 ^ 9 + (257 / d + (257 / d) ^ 3 / 3) =
          (nodeLo n * (3 * d ^ 3) + 10 ^ 9 * (771 * d ^ 2 + 257 ^ 3)) / (10 ^ 9 * (3 * d ^ 3)) := by
        field_simp; ring
      rw [e, div_le_div_iff₀ (by positivity) (by positivity)]
      nlinarith
    · refine (add_le_add i2 b2).trans ?_
      have e : (nodeUp n : ℝ) / 10 ^ 9 + (257 / d + (257 / d) ^ 3 / 3 + (257 / d) ^ 5 / 4) =
          (nodeUp n * (12 * d ^ 5) + 10 ^ 9 * (3084 * d ^ 4 + 4 * 257 ^ 3 * d ^ 2 + 3 * 257 ^ 5)) /
            (10 ^ 9 * (12 * d ^ 5)) := by
        field_simp; ring
      rw [e, div_le_div_iff₀ (by positivity) (by positivity)]
      nlinarith

theorem node_nonneg (n : ℕ) : 0 ≤ node n := artanh_nonneg (by positivity)

theorem one_lt_node {n : ℕ} (h : 196 ≤ n) (hn : n < 257) : 1 < node n := by
  have h1 : 1 < node 196 := by
    refine lt_of_lt_of_le ?_ (node_bounds (by norm_num)).1
    have := nodeTable_last.1
    rw [lt_div_iff₀ (by norm_num), one_mul]
    exact_mod_cast this
  refine h1.trans_le (artanh_le_artanh (by norm_num) ?_ ?_)
  · rw [div_lt_one (by norm_num)]; exact_mod_cast hn
  · gcongr

/-- No node is one. -/
theorem node_ne_one {n : ℕ} (hn : n < 257) : node n ≠ 1 := by
  rcases lt_or_ge n 196 with h | h
  · have h1 : node 195 < 1 := by
      refine lt_of_le_of_lt (node_bounds (by norm_num)).2 ?_
      rw [div_lt_one (by norm_num)]
      exact_mod_cast nodeTable_last.2
    refine (lt_of_le_of_lt (artanh_le_artanh ?_ (by norm_num) ?_) h1).ne
    · have : 0 ≤ (n : ℝ) / 257 := by positivity
      linarith
    · gcongr; exact_mod_cast (by omega : n ≤ 195)
  · exact (one_lt_node h hn).ne'

/-- No chain on the grid is at full extension. -/
theorem nodes_ne_one {n m : ℕ} (hn : n < 257) (hm : m < 257) : node n ^ 2 + node m ^ 2 ≠ 1 := by
  rcases lt_or_ge n 197 with h | h
  · rcases lt_or_ge m 197 with h' | h'
    · obtain ⟨a1, a2⟩ := node_bounds (n := n) (by omega)
      obtain ⟨b1, b2⟩ := node_bounds (n := m) (by omega)
      rcases nodeTable_pairs n h m h' with hp | hp
      · refine ne_of_lt ?_
        have e : ((nodeUp n : ℝ) / 10 ^ 9) ^ 2 + ((nodeUp m : ℝ) / 10 ^ 9) ^ 2 < 1 := by
          have : (nodeUp n : ℝ) ^ 2 + (nodeUp m : ℝ) ^ 2 < 10 ^ 18 := by exact_mod_cast hp
          rw [div_pow, div_pow, ← add_div, div_lt_one (by positivity)]
          calc _ < _ := this
            _ = _ := by norm_num
        have := pow_le_pow_left₀ (node_nonneg n) a2 2
        have := pow_le_pow_left₀ (node_nonneg m) b2 2
        linarith
      · refine ne_of_gt ?_
        have e : 1 < ((nodeLo n : ℝ) / 10 ^ 9) ^ 2 + ((nodeLo m : ℝ) / 10 ^ 9) ^ 2 := by
          have : (10:ℝ) ^ 18 < (nodeLo n : ℝ) ^ 2 + (nodeLo m : ℝ) ^ 2 := by exact_mod_cast hp
          rw [div_pow, div_pow, ← add_div, lt_div_iff₀ (by positivity)]
          calc _ = (10:ℝ) ^ 18 := by norm_num
            _ < _ := this
        have := pow_le_pow_left₀ (by positivity) a1 2
        have := pow_le_pow_left₀ (by positivity) b1 2
        linarith
    · have := one_lt_node (by omega) hm
      exact ne_of_gt (by nlinarith [sq_nonneg (node n)])
  · have := one_lt_node (by omega) hn
    exact ne_of_gt (by nlinarith [sq_nonneg (node m)])

end Polymers.Lemmas
