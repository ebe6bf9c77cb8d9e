import Verif.Model.Distribution
import Verif.Props.Halo
import Verif.Props.HaloPP

/-!
# Property C22: the generic distribution interface
-/

namespace Obscura

open MeasureTheory Set

/-- What a user means by a speed distribution: a probability density on a range of non-negative speeds, with its own
cumulative distribution function. -/
structure Distribution.Proper (d : Distribution) : Prop where
  vMin_nonneg : 0 ≤ d.vMin
  lt : d.vMin < d.vMax
  pdf_nonneg : ∀ v, 0 ≤ d.pdfSpeed v
  integrable : IntervalIntegrable d.pdfSpeed volume d.vMin d.vMax
  norm : ∫ v in d.vMin..d.vMax, d.pdfSpeed v = 1
  cdf : ∀ v ∈ Icc d.vMin d.vMax, d.cdfSpeed v = ∫ u in d.vMin..v, d.pdfSpeed u

/-- C22: the differential flux is `rho/m * v * f(v)` and the total flux is `rho/m` times the mean speed. -/
theorem C22_flux (I : Integrator) (hI : I.Exact) (d : Distribution) (m : ℝ) (_hm : m ≠ 0) :
    (∀ v, d.differentialFlux v m = d.density / m * (v * d.pdfSpeed v)) ∧
    ∃ a, d.averageSpeed I (-1) = .ok a ∧ a = (∫ v in d.vMin..d.vMax, v * d.pdfSpeed v) ∧ d.totalFlux I m = d.density / m * a := by
  refine ⟨fun v => by unfold Distribution.differentialFlux; ring, _, ?_, rfl, ?_⟩
  · unfold Distribution.averageSpeed; rw [if_pos (by norm_num), hI]
  · unfold Distribution.totalFlux Distribution.differentialFlux
    rw [hI, ← intervalIntegral.integral_const_mul]
    congr 1; funext v; ring

theorem weighted_bounds {f : ℝ → ℝ} {a b : ℝ} (hab : a ≤ b) (h0 : ∀ v, 0 ≤ f v) (hi : IntervalIntegrable f volume a b) :
    a * (∫ v in a..b, f v) ≤ (∫ v in a..b, v * f v) ∧ (∫ v in a..b, v * f v) ≤ b * ∫ v in a..b, f v := by
  have hvi : IntervalIntegrable (fun v => v * f v) volume a b := hi.continuousOn_mul continuousOn_id
  constructor
  · rw [← intervalIntegral.integral_const_mul]
    exact intervalIntegral.integral_mono_on hab (hi.const_mul _) hvi fun v hv => mul_le_mul_of_nonneg_right hv.1 (h0 v)
  · rw [← intervalIntegral.integral_const_mul]
    exact intervalIntegral.integral_mono_on hab hvi (hi.const_mul _) fun v hv => mul_le_mul_of_nonneg_right hv.2 (h0 v)

/-- C22: the mean speed over the whole domain lies in the domain. -/
theorem C22_mean_in_domain (I : Integrator) (hI : I.Exact) (d : Distribution) (h : d.Proper) :
    ∃ a, d.averageSpeed I (-1) = .ok a ∧ d.vMin ≤ a ∧ a ≤ d.vMax := by
  have := weighted_bounds h.lt.le h.pdf_nonneg h.integrable
  rw [h.norm] at this
  refine ⟨_, ?_, by simpa using this.1, by simpa using this.2⟩
  unfold Distribution.averageSpeed; rw [if_pos (by norm_num), hI]

/-- C22: above a cut `u` inside the domain the average is that of the distribution conditioned on `v > u`: it is the mean
restricted to `[u, vMax]` divided by the probability left, and it lies in `[u, vMax]`. -/
theorem C22_conditional_mean (I : Integrator) (hI : I.Exact) (d : Distribution) (h : d.Proper) (u : ℝ) (h1 : d.vMin ≤ u)
    (h2 : u < d.vMax) (hp : 0 < ∫ v in u..d.vMax, d.pdfSpeed v) :
    ∃ a, d.averageSpeed I u = .ok a ∧ a = (∫ v in u..d.vMax, v * d.pdfSpeed v) / (∫ v in u..d.vMax, d.pdfSpeed v) ∧
      u ≤ a ∧ a ≤ d.vMax := by
  have hi1 : IntervalIntegrable d.pdfSpeed volume d.vMin u :=
    h.integrable.mono_set (by rw [uIcc_of_le h1, uIcc_of_le h.lt.le]; exact Icc_subset_Icc le_rfl h2.le)
  have hi2 : IntervalIntegrable d.pdfSpeed volume u d.vMax :=
    h.integrable.mono_set (by rw [uIcc_of_le h2.le, uIcc_of_le h.lt.le]; exact Icc_subset_Icc h1 le_rfl)
  have hsum := intervalIntegral.integral_add_adjacent_intervals hi1 hi2
  rw [h.norm, ← h.cdf u ⟨h1, h2.le⟩] at hsum
  have hrest : 1 - d.cdfSpeed u = ∫ v in u..d.vMax, d.pdfSpeed v := by linarith
  have hb := weighted_bounds h2.le h.pdf_nonneg hi2
  refine ⟨_, ?_, rfl, ?_, ?_⟩
  · unfold Distribution.averageSpeed
    rw [if_neg (not_lt.2 (le_trans h.vMin_nonneg h1)), if_neg (by push Not; exact ⟨h1, h2⟩), hI, hrest, fdiv, if_neg hp.ne']
  · rw [le_div_iff₀ hp]; exact hb.1
  · rw [div_le_iff₀ hp]; exact hb.2

/-- C22: a cut outside the domain (and not negative) is rejected. -/
theorem C22_cut_rejected (I : Integrator) (d : Distribution) (u : ℝ) (h0 : 0 ≤ u) (h : u < d.vMin ∨ d.vMax ≤ u) :
    d.averageSpeed I u = .exit := by
  unfold Distribution.averageSpeed; rw [if_neg (not_lt.2 h0), if_pos h]

/-- C22 for any user-defined PDF: the CDF of the base class is 0 below the domain, 1 above it, and in between the integral
of the PDF. -/
theorem C22_cdf (I : Integrator) (hI : I.Exact) (rho a b : ℝ) (f : ℝ → ℝ) (v : ℝ) :
    (v < a → (Distribution.ofPdf I rho a b f).cdfSpeed v = 0) ∧ (a ≤ v → b < v → (Distribution.ofPdf I rho a b f).cdfSpeed v = 1) ∧
    (a ≤ v → v ≤ b → (Distribution.ofPdf I rho a b f).cdfSpeed v = ∫ u in a..v, f u) := by
  refine ⟨fun h => ?_, fun h h' => ?_, fun h h' => ?_⟩ <;> unfold Distribution.ofPdf Distribution.baseCdf <;> simp only
  · rw [if_pos h]
  · rw [if_neg (not_lt.2 h), if_pos h']
  · rw [if_neg (not_lt.2 h), if_neg (not_lt.2 h'), hI]

/-- C22: for a normalised non-negative PDF that CDF never decreases and stays in [0,1]. -/
theorem C22_cdf_monotone (I : Integrator) (hI : I.Exact) (rho a b : ℝ) (f : ℝ → ℝ) (hab : a < b) (h0 : ∀ v, 0 ≤ f v)
    (hi : IntervalIntegrable f volume a b) (hn : ∫ v in a..b, f v = 1) :
    Monotone (Distribution.ofPdf I rho a b f).cdfSpeed ∧
    ∀ v, 0 ≤ (Distribution.ofPdf I rho a b f).cdfSpeed v ∧ (Distribution.ofPdf I rho a b f).cdfSpeed v ≤ 1 := by
  have hc := C22_cdf I hI rho a b f
  have sub : ∀ {x y}, a ≤ x → x ≤ y → y ≤ b → IntervalIntegrable f volume x y := fun {x y} h1 h2 h3 =>
    hi.mono_set (by rw [uIcc_of_le h2, uIcc_of_le hab.le]; exact Icc_subset_Icc h1 h3)
  have hin : ∀ v, a ≤ v → v ≤ b → 0 ≤ (∫ u in a..v, f u) ∧ (∫ u in a..v, f u) ≤ 1 := by
    intro v h1 h2
    have h3 := intervalIntegral.integral_add_adjacent_intervals (sub le_rfl h1 h2) (sub h1 h2 le_rfl)
    rw [hn] at h3
    have h4 := intervalIntegral.integral_nonneg (μ := volume) h1 (fun x _ => h0 x)
    have h5 := intervalIntegral.integral_nonneg (μ := volume) h2 (fun x _ => h0 x)
    exact ⟨h4, by linarith⟩
  have hrange : ∀ v, 0 ≤ (Distribution.ofPdf I rho a b f).cdfSpeed v ∧ (Distribution.ofPdf I rho a b f).cdfSpeed v ≤ 1 := by
    intro v
    rcases lt_or_ge v a with h | h
    · rw [(hc v).1 h]; norm_num
    · rcases lt_or_ge b v with h' | h'
      · rw [(hc v).2.1 h h']; norm_num
      · rw [(hc v).2.2 h h']; exact hin v h h'
  refine ⟨fun x y hxy => ?_, hrange⟩
  rcases lt_or_ge x a with h | h
  · rw [(hc x).1 h]; exact (hrange y).1
  · rcases lt_or_ge b y with h' | h'
    · rw [(hc y).2.1 (h.trans hxy) h']; exact (hrange x).2
    · rw [(hc x).2.2 h (hxy.trans h'), (hc y).2.2 (h.trans hxy) h',
        ← intervalIntegral.integral_add_adjacent_intervals (sub le_rfl h (hxy.trans h')) (sub h hxy h')]
      have := intervalIntegral.integral_nonneg (μ := volume) hxy (fun x _ => h0 x)
      linarith

/-- C22 for any user-defined PDF: eta is rejected below the domain, 0 at and above its end, and in between the integral of
`f(v)/v` up to the maximal speed. -/
theorem C22_eta (I : Integrator) (hI : I.Exact) (rho a b : ℝ) (f : ℝ → ℝ) (v : ℝ) :
    (v < a → (Distribution.ofPdf I rho a b f).eta v = .exit) ∧ (a ≤ v → b ≤ v → (Distribution.ofPdf I rho a b f).eta v = .ok 0) ∧
    (a ≤ v → v < b → (Distribution.ofPdf I rho a b f).eta v = .ok (∫ u in v..b, f u / u)) := by
  refine ⟨fun h => ?_, fun h h' => ?_, fun h h' => ?_⟩ <;> unfold Distribution.ofPdf Distribution.baseEta <;> simp only
  · rw [if_pos h]
  · rw [if_neg (not_lt.2 h), if_pos h']
  · rw [if_neg (not_lt.2 h), if_neg (not_le.2 h'), hI]
    congr 2; funext u; ring

theorem linearSpace_length (a b : ℝ) (n : ℕ) : (linearSpace a b n).length = n := by simp [linearSpace]

theorem linearSpace_sorted {a b : ℝ} (hab : a < b) {n : ℕ} (hn : 2 ≤ n) : (linearSpace a b n).Pairwise (· < ·) := by
  unfold linearSpace
  rw [List.pairwise_map]
  refine (List.pairwise_lt_range (n := n)).imp fun {i j} hij => ?_
  have h1 : (i : ℝ) < j := by exact_mod_cast hij
  have h2 : (2 : ℝ) ≤ n := by exact_mod_cast hn
  have h3 : 0 < (b - a) / ((n : ℝ) - 1) := div_pos (by linarith) (by linarith)
  nlinarith [mul_lt_mul_of_pos_right h1 h3]

/-- C22 for tables: an imported distribution returns the tabulated values at the tabulated speeds and 0 outside the table;
its domain is the range of the table. -/
theorem C22_imported_pdf (I : Integrator) (P : Interpolator) (hP : P.Nodes) (ff : Bool) (rho : ℝ) (xs ys : List ℝ)
    (hl : xs.length = ys.length) (hs : xs.Pairwise (· < ·)) (d : Distribution) (hd : Distribution.imported I P ff rho xs ys = .ok d) :
    (∀ (i : ℕ) (h : i < xs.length) (h' : i < ys.length), d.pdfSpeed xs[i] = ys[i]) ∧
    (∀ v, (∀ x ∈ xs, v < x) → d.pdfSpeed v = 0) ∧ (∀ v, (∀ x ∈ xs, x < v) → d.pdfSpeed v = 0) ∧
    d.density = rho ∧ d.useEta = ff ∧ d.vMin ∈ xs ∧ d.vMax ∈ xs ∧ ∀ x ∈ xs, d.vMin ≤ x ∧ x ≤ d.vMax := by
  unfold Distribution.imported at hd
  cases hh : xs.head? with
  | none => rw [hh] at hd; simp at hd
  | some a =>
    cases hb : xs.getLast? with
    | none => rw [hh, hb] at hd; simp at hd
    | some b =>
      rw [hh, hb] at hd
      simp only [Outcome.ok.injEq] at hd
      subst hd
      simp only
      have ham : a ∈ xs := List.mem_of_mem_head? (by rw [hh]; rfl)
      have hbm : b ∈ xs := List.mem_of_mem_getLast? (by rw [hb]; rfl)
      have hle : ∀ x ∈ xs, a ≤ x ∧ x ≤ b := by
        intro x hx
        constructor
        · cases xs with
          | nil => simp at hx
          | cons c cs =>
            simp only [List.head?_cons, Option.some.injEq] at hh
            subst hh
            rcases List.mem_cons.1 hx with rfl | h
            · exact le_rfl
            · exact ((List.pairwise_cons.1 hs).1 x h).le
        · have hsplit := List.dropLast_append_getLast? b hb
          rw [← hsplit] at hs hx
          rcases List.mem_append.1 hx with h | h
          · exact ((List.pairwise_append.1 hs).2.2 x h b (by simp)).le
          · simp at h; exact h.le
      refine ⟨fun i h h' => ?_, fun v hv => ?_, fun v hv => ?_, trivial, trivial, ham, hbm, hle⟩
      · unfold Distribution.importedPdf
        have := hle xs[i] (List.getElem_mem h)
        rw [if_neg (by push Not; exact this)]
        exact hP xs ys hl hs i h h'
      · unfold Distribution.importedPdf
        rw [if_pos (Or.inl (hv a ham))]
      · unfold Distribution.importedPdf
        rw [if_pos (Or.inr (hv b hbm))]

/-- C22 for tables: below the table eta is rejected, above it eta is 0, and at the 500 equidistant speeds where the table
of eta is filled it is the integral of `f(v)/v` up to the maximal speed. -/
theorem C22_imported_eta (I : Integrator) (hI : I.Exact) (P : Interpolator) (hP : P.Nodes) (ff : Bool) (rho : ℝ) (xs ys : List ℝ)
    (d : Distribution) (hd : Distribution.imported I P ff rho xs ys = .ok d) (hlt : d.vMin < d.vMax) :
    (∀ v < d.vMin, d.eta v = .exit) ∧ (∀ v, d.vMax < v → d.eta v = .ok 0) ∧
    ∀ i < 500, d.eta (d.vMin + (i : ℕ) * ((d.vMax - d.vMin) / 499)) =
      .ok (∫ v in (d.vMin + (i : ℕ) * ((d.vMax - d.vMin) / 499))..d.vMax, d.pdfSpeed v / v) := by
  unfold Distribution.imported at hd
  cases hh : xs.head? with
  | none => rw [hh] at hd; simp at hd
  | some a =>
    cases hb : xs.getLast? with
    | none => rw [hh, hb] at hd; simp at hd
    | some b =>
      rw [hh, hb] at hd
      simp only [Outcome.ok.injEq] at hd
      subst hd
      simp only at hlt ⊢
      refine ⟨fun v hv => ?_, fun v hv => ?_, fun i hi => ?_⟩
      · unfold Distribution.importedEta; rw [if_pos hv]
      · unfold Distribution.importedEta; rw [if_neg (by linarith), if_pos hv]
      · have hpos : 0 < (b - a) / 499 := by apply div_pos <;> linarith
        have hi499 : (i : ℝ) ≤ 499 := by exact_mod_cast Nat.le_of_lt_succ hi
        have hlo : a ≤ a + i * ((b - a) / 499) := by have : (0 : ℝ) ≤ i * ((b - a) / 499) := by positivity
                                                     linarith
        have hhi : a + i * ((b - a) / 499) ≤ b := by
          have := mul_le_mul_of_nonneg_right hi499 hpos.le
          linarith
        unfold Distribution.importedEta
        rw [if_neg (not_lt.2 hlo), if_neg (not_lt.2 hhi)]
        congr 1
        unfold Distribution.importedTable
        have hlen := linearSpace_length a b 500
        have hx : (linearSpace a b 500)[i]'(by rw [hlen]; exact hi) = a + i * ((b - a) / 499) := by
          simp only [linearSpace, List.getElem_map, List.getElem_range]
          norm_num
        have hn := hP (linearSpace a b 500) ((linearSpace a b 500).map fun v =>
          (Distribution.baseEta I (Distribution.importedPdf (P xs ys) a b) a b v).valueOr0) (by simp)
          (linearSpace_sorted hlt (by norm_num)) i (by rw [hlen]; exact hi) (by simp [hlen, hi])
        rw [List.getElem_map, hx] at hn
        rw [hn]
        unfold Distribution.baseEta
        rw [if_neg (not_lt.2 hlo)]
        by_cases hc : b ≤ a + i * ((b - a) / 499)
        · rw [if_pos hc]
          simp only [Outcome.valueOr0]
          rw [le_antisymm hhi hc, intervalIntegral.integral_same]
        · rw [if_neg hc]
          simp only [Outcome.valueOr0]
          rw [hI]
          exact intervalIntegral.integral_congr fun v _ => one_div_mul_eq_div _ _

/-! ### The built-in halo models are proper distributions -/

/-- C22: every standard halo model reached through constructor and setters with physical parameters and an observer not
faster than the escape speed is a proper distribution, so the theorems above apply to it. -/
theorem C22_halo (U : Units) (s : SHM) (h : SHM.Reachable U s) (hp : s.Physical) (hoe : s.vObs ≤ s.vEsc) :
    (Distribution.ofSHM s).Proper := by
  have hw := SHM.WF.of_reachable h hp
  refine ⟨hw.vMin.ge, ?_, C15_nonneg_partial U s h hp hoe, pdf_intervalIntegrable hw hoe _ _, C16_normalised U s h hp hoe, ?_⟩
  · show s.vMin < s.vMax
    rw [hw.vMin, hw.vMax]; linarith [hw.vEsc_pos, hw.vObs_nonneg]
  · intro v _
    show s.cdfSpeed v = ∫ u in s.vMin..v, s.pdfSpeed u
    rw [hw.vMin]; exact cdf_eq_integral hw hoe v

/-- C22: the same for the SHM++. -/
theorem C22_halo_plus_plus (N : Numerics) (hI1 : N.integrate.Exact) (hI : N.integrate2.Exact) (p : HaloPPParams) (h : p.Physical)
    (he : 0 ≤ p.e) (he' : p.e ≤ 1) (ho : vnorm p.vel ≤ p.vesc) : (Distribution.ofSHMpp N (p.fresh N)).Proper := by
  refine ⟨le_rfl, ?_, C59_nonneg N hI p h he he' ho, ?_, C59_normalised N hI1 hI p h ho, ?_⟩
  · show (0 : ℝ) < p.vesc + vnorm p.vel
    linarith [h.2.1, vnorm_nonneg p.vel]
  · exact ((pdf_intervalIntegrable (fresh_wf N p h) ho _ _).const_mul _).add (((pdfSpeedS_props N hI p h).2.1 _ _).const_mul _)
  · intro v _
    exact C59_cdf N hI1 hI p h ho v

/-- Exact numerical routines that meet all contracts. -/
noncomputable def Numerics.exact : Numerics where
  integrate := exactIntegrator
  integrate2 := fun f a b c d => ∫ x in a..b, ∫ y in c..d, f x y
  interpolate := fun xs ys x =>
    open Classical in
    if h : ∃ i, ∃ (_ : i < xs.length) (_ : i < ys.length), xs[i] = x then ys[h.choose]'(h.choose_spec.choose_spec.choose) else 0

theorem Numerics.exact_nodes : Numerics.exact.interpolate.Nodes := by
  intro xs ys hl hs i h h'
  have hex : ∃ j, ∃ (_ : j < xs.length) (_ : j < ys.length), xs[j] = xs[i] := ⟨i, h, h', rfl⟩
  show (if hh : ∃ j, ∃ (_ : j < xs.length) (_ : j < ys.length), xs[j] = xs[i] then ys[hh.choose]'(hh.choose_spec.choose_spec.choose) else 0) = ys[i]
  rw [dif_pos hex]
  have hj := hex.choose_spec.choose_spec.choose_spec
  have hnd : xs.Nodup := hs.imp fun hab => ne_of_lt hab
  have : hex.choose = i := (List.Nodup.getElem_inj_iff hnd).1 hj
  simp only [this]

example : Numerics.exact.integrate.Exact ∧ Numerics.exact.integrate2.Exact ∧ Numerics.exact.interpolate.Nodes :=
  ⟨exactIntegrator_exact, fun _ _ _ _ _ => rfl, Numerics.exact_nodes⟩

example : (Distribution.ofSHM SHM.sample).Proper ∧ (Distribution.ofSHM SHM.sample).vMin ≤ 1 := by
  refine ⟨C22_halo Units.sample _ ⟨_, [], .speed 1 2 3 7 (by norm_num), rfl⟩ ?_ ?_, ?_⟩
  · norm_num [SHM.Physical, SHM.sample, SHM.makeSpeed, SHM.normalize]
  · norm_num [SHM.sample, SHM.makeSpeed, SHM.normalize]
  · norm_num [Distribution.ofSHM, SHM.sample, SHM.makeSpeed, SHM.normalize]

example : ∃ d, Distribution.imported exactIntegrator Numerics.exact.interpolate true 1 [1, 2, 3] [4, 5, 6] = .ok d ∧ d.vMin < d.vMax :=
  ⟨_, rfl, by norm_num⟩

end Obscura
