import Verif.Spec.Configured
import Verif.Lemmas.Configuration
import Verif.Props.HaloAngular
import Verif.Props.Distribution
import Verif.Props.Configuration
import Verif.Props.ExperimentsSample
import Verif.Props.Files

/-!
# C69, C70, C71 — the distribution, the detector and the whole object described by a configuration file
-/

namespace Obscura

open Spec Real Set MeasureTheory

variable {U : Units}

/-! ## The standard halo model is the truncated Maxwell distribution -/

/-- The truncated Maxwell distribution as a function of the squared speed. -/
noncomputable def cutMaxwell (a e q : ℝ) : ℝ := open Classical in if 0 ≤ q ∧ q ≤ e ^ 2 then exp (-q / a ^ 2) else 0

theorem measurable_cutMaxwell (a e : ℝ) : Measurable (cutMaxwell a e) := by
  unfold cutMaxwell
  refine Measurable.ite ?_ (by fun_prop) measurable_const
  exact (measurableSet_le measurable_const measurable_id).inter (measurableSet_le measurable_id measurable_const)

theorem cutMaxwell_bounds (a e q : ℝ) : 0 ≤ cutMaxwell a e q ∧ cutMaxwell a e q ≤ 1 := by
  unfold cutMaxwell
  split_ifs with h
  · refine ⟨(exp_pos _).le, ?_⟩
    rw [exp_le_one_iff, neg_div]
    have := div_nonneg h.1 (sq_nonneg a)
    linarith
  · exact ⟨le_rfl, zero_le_one⟩

theorem maxwell_eq_cut {a e C q : ℝ} (he : 0 < e) (hq : 0 < q) : maxwell a e C q = C * cutMaxwell a e q := by
  unfold maxwell cutMaxwell
  have hs := Real.sqrt_pos.2 hq
  by_cases h : q ≤ e ^ 2
  · have h' : √q ≤ e := by rw [Real.sqrt_le_left he.le]; exact h
    rw [if_neg (by push Not; exact ⟨h', hs⟩), if_pos ⟨hq.le, h⟩]
    congr 2
    rw [div_div, ← pow_two, neg_one_mul]
  · rw [if_pos, if_neg (fun hh => h hh.2), mul_zero]
    left
    rw [Real.lt_sqrt he.le]; exact not_le.1 h

/-- The angular integral of the velocity PDF of a halo model, in terms of the truncated Maxwell distribution. -/
theorem angular_maxwell {s : SHM} (h : s.WF) {v : ℝ} (hv : 0 ≤ v) :
    (∫ c in (-1 : ℝ)..1, ∫ φ in (0 : ℝ)..(2 * π), v * v * s.pdfVelocity (sphericalCoordinates v (arccos c) φ)) =
      1 / s.nEsc * ((s.v0 * √π) ^ 3)⁻¹ * speedShare (truncatedMaxwell s.v0 s.vEsc s.velObs) v := by
  rw [angular_eq h]
  unfold speedShare
  rcases hv.lt_or_eq with hv | rfl
  swap
  · simp
  have ho := h.vObs_nonneg
  have h1 : ∀ c φ, truncatedMaxwell s.v0 s.vEsc s.velObs (sphericalCoordinates v (arccos c) φ) =
      cutMaxwell s.v0 s.vEsc (v ^ 2 + s.vObs ^ 2 + 2 * v * (s.velObs 0 * (sin (arccos c) * cos φ) +
        s.velObs 1 * (sin (arccos c) * sin φ) + s.velObs 2 * cos (arccos c))) := by
    intro c φ
    have hd : (sphericalCoordinates v (arccos c) φ 0 + s.velObs 0) ^ 2 + (sphericalCoordinates v (arccos c) φ 1 + s.velObs 1) ^ 2 +
        (sphericalCoordinates v (arccos c) φ 2 + s.velObs 2) ^ 2 = v ^ 2 + s.vObs ^ 2 + 2 * v * (s.velObs 0 * (sin (arccos c) * cos φ) +
        s.velObs 1 * (sin (arccos c) * sin φ) + s.velObs 2 * cos (arccos c)) := by
      rw [h.vObs_eq, vnorm_sq]
      simp only [dot, sphericalCoordinates, Matrix.cons_val_zero, Matrix.cons_val_one, Matrix.cons_val]
      have e1 := sin_sq_add_cos_sq φ
      have e2 := sin_sq_add_cos_sq (arccos c)
      linear_combination v ^ 2 * sin (arccos c) ^ 2 * e1 + v ^ 2 * e2
    unfold truncatedMaxwell cutMaxwell
    rw [hd]
    congr 1
    rw [← hd]
    exact propext ⟨fun h => ⟨by positivity, h⟩, And.right⟩
  simp_rw [h1, intervalIntegral.integral_const_mul]
  have hz := integral_zonal (fun x => cutMaxwell s.v0 s.vEsc (v ^ 2 + s.vObs ^ 2 + 2 * v * x))
    ((measurable_cutMaxwell _ _).comp (by fun_prop)) (fun _ => (cutMaxwell_bounds _ _ _).1) (fun _ => (cutMaxwell_bounds _ _ _).2)
    (s.velObs 0) (s.velObs 1) (s.velObs 2)
  have hn : √(s.velObs 0 ^ 2 + s.velObs 1 ^ 2 + s.velObs 2 ^ 2) = s.vObs := by
    rw [h.vObs_eq, vnorm, dot]; congr 1; ring
  rw [hn] at hz
  rw [hz]
  have key : ∫ t in (-1 : ℝ)..1, maxwell s.v0 s.vEsc (1 / s.nEsc * ((s.v0 * √π) ^ 3)⁻¹) (v ^ 2 + s.vObs ^ 2 + 2 * v * (s.vObs * t)) =
      1 / s.nEsc * ((s.v0 * √π) ^ 3)⁻¹ * ∫ t in (-1 : ℝ)..1, cutMaxwell s.v0 s.vEsc (v ^ 2 + s.vObs ^ 2 + 2 * v * (s.vObs * t)) := by
    rw [← intervalIntegral.integral_const_mul]
    refine intervalIntegral.integral_congr_ae (Filter.Eventually.of_forall fun t ht => ?_)
    rw [uIoc_of_le (by norm_num)] at ht
    refine maxwell_eq_cut h.vEsc_pos ?_
    have h2 := ht.1
    rcases ho.lt_or_eq with ho | ho
    · have : 0 < 2 * v * s.vObs * (t + 1) := by apply mul_pos (by positivity); linarith
      nlinarith [sq_nonneg (v - s.vObs)]
    · rw [← ho]; simp; positivity
  rw [key]
  ring

/-! ## C69 — the distribution -/

theorem observerVelocity_eq {c : Config} {s : HaloSettings} (hc : DescribesHalo c s) :
    c.observerVelocity U = .ok (s.params U).vel := by
  simp [Config.observerVelocity, Config.lookup, hc.observer, Setting.length, Config.getEntry, Setting.index, Setting.toDouble,
    HaloSettings.params]

theorem haloModel_eq (N : Numerics) {c : Config} {s : HaloSettings} (hc : DescribesHalo c s) :
    c.haloModel U N "SHM" = .ok (.ofSHM (SHM.makeVel (s.params U).rho (s.params U).v0 (s.params U).vel (s.params U).vesc)) := by
  unfold Config.haloModel
  rw [Config.getDouble_eq hc.density, Outcome.bind_ok, Config.getDouble_eq hc.v0, Outcome.bind_ok, observerVelocity_eq hc, Outcome.bind_ok,
    Config.getDouble_eq hc.vesc, Outcome.bind_ok, if_pos rfl]
  rfl

theorem haloModelpp_eq (N : Numerics) {c : Config} {s : HaloSettings} {e b : ℝ} (hc : DescribesHalo c s)
    (he : c "SHMpp_eta" = some (.float e)) (hb : c "SHMpp_beta" = some (.float b)) :
    c.haloModel U N "SHM++" = .ok (.ofSHMpp N ((HaloPPParams.mk (s.params U) e b).fresh N)) := by
  unfold Config.haloModel
  rw [Config.getDouble_eq hc.density, Outcome.bind_ok, Config.getDouble_eq hc.v0, Outcome.bind_ok, observerVelocity_eq hc, Outcome.bind_ok,
    Config.getDouble_eq hc.vesc, Outcome.bind_ok, if_neg (by decide), Config.getDouble_eq he, Outcome.bind_ok, Config.getDouble_eq hb,
    Outcome.bind_ok]
  rfl

theorem kmsec_pos : 0 < U.km / U.sec := div_pos U.km_pos U.sec_pos

/-- The speed of the observer in natural units. -/
theorem params_vnorm (s : HaloSettings) : vnorm (s.params U).vel = √(s.vx ^ 2 + s.vy ^ 2 + s.vz ^ 2) * (U.km / U.sec) := by
  have hk := kmsec_pos (U := U)
  unfold vnorm
  rw [show dot (s.params U).vel (s.params U).vel = (s.vx ^ 2 + s.vy ^ 2 + s.vz ^ 2) * (U.km / U.sec) ^ 2 by
    simp only [dot, HaloSettings.params, Matrix.cons_val_zero, Matrix.cons_val_one, Matrix.cons_val]; ring]
  rw [Real.sqrt_mul (by positivity), Real.sqrt_sq hk.le]

/-- C69. A file that asks for the standard halo model gives the distribution of the speeds, seen by the configured observer, of
particles with the configured density and a Maxwell-Boltzmann distribution with the configured dispersion, cut at the configured escape
velocity. Missing: an observer who is faster than the escape velocity, for whom the PDF of the code is another one (C21). The PDF is normalised on the speeds from 0 to the sum of
escape velocity and observer's speed, the CDF is its integral, and `Eta_Function` is evaluated by its own formula (C17). -/
theorem C69_standard_halo_partial (N : Numerics) (speeds : String → Option (List ℝ × List ℝ)) {c : Config} {s : HaloSettings}
    (hk : c "DM_distribution" = some (.string "SHM")) (hc : DescribesHalo c s) (h0 : 0 < s.v0) (he : 0 < s.vesc)
    (ho : √(s.vx ^ 2 + s.vy ^ 2 + s.vz ^ 2) ≤ s.vesc) :
    ∃ D, c.distribution U N speeds = .ok D ∧ D.density = s.density * U.GeV / U.cm ^ 3 ∧ D.vMin = 0 ∧
      D.vMax = (s.vesc + √(s.vx ^ 2 + s.vy ^ 2 + s.vz ^ 2)) * (U.km / U.sec) ∧ D.useEta = true ∧
      (∃ K > 0, ∀ v, 0 ≤ v → D.pdfSpeed v = K * speedShare (truncatedMaxwell (s.v0 * (U.km / U.sec)) (s.vesc * (U.km / U.sec))
        ![s.vx * (U.km / U.sec), s.vy * (U.km / U.sec), s.vz * (U.km / U.sec)]) v) ∧
      (∫ v in 0..D.vMax, D.pdfSpeed v = 1) ∧ (∀ v, D.cdfSpeed v = ∫ u in 0..v, D.pdfSpeed u) ∧
      (∀ v, 0 ≤ v → v ≤ D.vMax - 1e-8 * (s.v0 * (U.km / U.sec)) →
        (s.vx = 0 ∧ s.vy = 0 ∧ s.vz = 0 ∨ 1e-8 * s.v0 ≤ √(s.vx ^ 2 + s.vy ^ 2 + s.vz ^ 2)) →
        D.eta v = .ok (∫ u in v..D.vMax, D.pdfSpeed u / u)) := by
  have hkm := kmsec_pos (U := U)
  set m := SHM.makeVel (s.params U).rho (s.params U).v0 (s.params U).vel (s.params U).vesc with hm
  have hr : SHM.Reachable U m := ⟨m, [], .vel _ _ _ _, rfl⟩
  have hp : m.Physical := ⟨mul_pos h0 hkm, mul_pos he hkm⟩
  have hvo : m.vObs = √(s.vx ^ 2 + s.vy ^ 2 + s.vz ^ 2) * (U.km / U.sec) := params_vnorm s
  have hoe : m.vObs ≤ m.vEsc := by rw [hvo]; exact mul_le_mul_of_nonneg_right ho hkm.le
  have hw := SHM.WF.of_reachable hr hp
  have hmax : m.vMax = (s.vesc + √(s.vx ^ 2 + s.vy ^ 2 + s.vz ^ 2)) * (U.km / U.sec) := by
    rw [hw.vMax, hvo, add_mul]; rfl
  have hvel : (s.params U).vel = ![s.vx * (U.km / U.sec), s.vy * (U.km / U.sec), s.vz * (U.km / U.sec)] := by
    simp only [HaloSettings.params, mul_div_assoc]
  refine ⟨.ofSHM m, ?_, ?_, rfl, hmax, rfl, ⟨1 / m.nEsc * ((m.v0 * √π) ^ 3)⁻¹, ?_, fun v hv => ?_⟩, ?_, fun v => C16_cdf U m hr hp hoe v,
    fun v hv hv' hobs => ?_⟩
  · unfold Config.distribution
    rw [Config.getString_eq hk, Outcome.bind_ok, if_pos (.inl rfl)]
    exact haloModel_eq N hc
  · show s.density * (U.GeV / U.cm / U.cm / U.cm) = _
    have := U.cm_pos; field_simp
  · have h1 := hw.nEsc_pos; have h2 := hw.v0_pos; have h3 := sqrt_pi_pos; positivity
  · rw [← hvel]
    exact (C21_angular_partial U m hr hp hoe v hv).trans (angular_maxwell hw hv)
  · exact C16_normalised U m hr hp hoe
  · show Outcome.ok (m.eta v) = _
    congr 1
    refine C17_eta_partial U m hr hp hoe ?_ v hv hv'
    rcases hobs with ⟨e1, e2, e3⟩ | hobs
    · left; rw [hvo, e1, e2, e3]; simp
    · right; rw [hvo, show m.v0 = s.v0 * (U.km / U.sec) from rfl, ← mul_assoc]
      exact mul_le_mul_of_nonneg_right hobs hkm.le

/-- C69. A file that asks for the SHM++ gives the object that the constructor of the SHM++ builds from the configured values, to which
C19, C20 and C59 apply. In terms of files: it has the density and the speeds of the standard halo model of the same file, and its speed
PDF and CDF are combinations of the standard halo model of the same file and of the SHM++ of the same file with fraction 1, with the
configured fraction as the weight. -/
theorem C69_halo_plus_plus (N : Numerics) (speeds : String → Option (List ℝ × List ℝ)) {c : Config} {s : HaloSettings} {e b : ℝ}
    (hk : c "DM_distribution" = some (.string "SHM++")) (hc : DescribesHalo c s)
    (he : c "SHMpp_eta" = some (.float e)) (hb : c "SHMpp_beta" = some (.float b)) :
    ∃ D H D₁, c.distribution U N speeds = .ok D ∧
      Config.distribution U N speeds (Function.update c "DM_distribution" (some (.string "SHM"))) = .ok H ∧
      Config.distribution U N speeds (Function.update c "SHMpp_eta" (some (.float 1))) = .ok D₁ ∧
      D = .ofSHMpp N (SHMpp.makeVel N (s.params U).rho (s.params U).v0 (s.params U).vel (s.params U).vesc e b) ∧
      D.density = H.density ∧ D.density = s.density * U.GeV / U.cm ^ 3 ∧ D.vMin = 0 ∧ D.vMax = H.vMax ∧ D.useEta = true ∧
      D.vMax = (s.vesc + √(s.vx ^ 2 + s.vy ^ 2 + s.vz ^ 2)) * (U.km / U.sec) ∧
      (∀ v, D.pdfSpeed v = (1 - e) * H.pdfSpeed v + e * D₁.pdfSpeed v) ∧
      (∀ v, D.cdfSpeed v = (1 - e) * H.cdfSpeed v + e * D₁.cdfSpeed v) ∧
      (0 < s.v0 → ∀ v, 0 ≤ v → ∃ a a₀ a₁, D.eta v = .ok a ∧ H.eta v = .ok a₀ ∧ D₁.eta v = .ok a₁ ∧ a = (1 - e) * a₀ + e * a₁) ∧
      (N.integrate.Exact → N.integrate2.Exact → 0 < s.v0 → 0 < s.vesc → 0 < b → b < 1 → 0 ≤ e → e ≤ 1 →
        √(s.vx ^ 2 + s.vy ^ 2 + s.vz ^ 2) ≤ s.vesc → D.Proper) := by
  have hkm := kmsec_pos (U := U)
  have hc' : DescribesHalo (Function.update c "DM_distribution" (some (.string "SHM"))) s := by
    constructor <;> rw [Function.update_of_ne (by decide)]
    exacts [hc.density, hc.v0, hc.observer, hc.vesc]
  have hc1 : DescribesHalo (Function.update c "SHMpp_eta" (some (.float 1))) s := by
    constructor <;> rw [Function.update_of_ne (by decide)]
    exacts [hc.density, hc.v0, hc.observer, hc.vesc]
  have hmax : (HaloPPParams.mk (s.params U) e b).vesc + vnorm (s.params U).vel =
      (s.vesc + √(s.vx ^ 2 + s.vy ^ 2 + s.vz ^ 2)) * (U.km / U.sec) := by
    rw [params_vnorm, add_mul]; rfl
  obtain ⟨-, k2, k3, k4⟩ := C20_no_sausage N (HaloPPParams.mk (s.params U) 0 b) rfl
  obtain ⟨-, m2, m3, m4⟩ := C20_combination N (HaloPPParams.mk (s.params U) e b)
  dsimp only at k2 k3 k4 m2 m3 m4
  refine ⟨.ofSHMpp N ((HaloPPParams.mk (s.params U) e b).fresh N),
    .ofSHM (SHM.makeVel (s.params U).rho (s.params U).v0 (s.params U).vel (s.params U).vesc),
    .ofSHMpp N ((HaloPPParams.mk (s.params U) 1 b).fresh N), ?_, ?_, ?_, rfl, rfl, ?_, rfl, rfl, rfl, hmax, fun v => ?_, fun v => ?_,
    fun h0 v hv => ?_, fun h1 h2 h3 h4 h5 h6 h7 h8 h9 => ?_⟩
  · unfold Config.distribution
    rw [Config.getString_eq hk, Outcome.bind_ok, if_pos (.inr rfl)]
    exact haloModelpp_eq N hc he hb
  · unfold Config.distribution
    rw [Config.getString_eq (Function.update_self ..), Outcome.bind_ok, if_pos (.inl rfl)]
    exact haloModel_eq N hc'
  · unfold Config.distribution
    rw [Config.getString_eq ((Function.update_of_ne (by decide) _ _).trans hk), Outcome.bind_ok, if_pos (.inr rfl)]
    exact haloModelpp_eq N hc1 (Function.update_self ..) ((Function.update_of_ne (by decide) _ _).trans hb)
  · show s.density * (U.GeV / U.cm / U.cm / U.cm) = _
    have := U.cm_pos; field_simp
  · have := m2 v
    rw [k2] at this
    exact this
  · have := m3 v
    rw [k3] at this
    exact this
  · obtain ⟨a, a0, a1, j1, j2, j3, j4⟩ := m4 v hv
    rw [k4 (mul_pos h0 hkm) v hv] at j2
    exact ⟨a, a0, a1, j1, j2, j3, j4⟩
  · refine C22_halo_plus_plus N h1 h2 _ ⟨mul_pos h3 hkm, mul_pos h4 hkm, h5, h6⟩ h7 h8 ?_
    show vnorm (s.params U).vel ≤ s.vesc * (U.km / U.sec)
    rw [params_vnorm]
    exact mul_le_mul_of_nonneg_right h9 hkm.le

/-- C69. A file that asks for a tabulated distribution gives the one in the named file, with the configured density: the tabulated
values at the tabulated speeds, nothing outside. If there is no such file the program stops. -/
theorem C69_tabulated (N : Numerics) (hP : N.interpolate.Nodes) (speeds : String → Option (List ℝ × List ℝ)) {c : Config}
    {rho : ℝ} {path : String} (hk : c "DM_distribution" = some (.string "File"))
    (hr : c "DM_local_density" = some (.float rho)) (hf : c "file_path" = some (.string path)) :
    (speeds path = none → c.distribution U N speeds = .exit) ∧
    ∀ xs ys, speeds path = some (xs, ys) → xs ≠ [] → xs.length = ys.length → xs.Pairwise (· < ·) →
      ∃ D, c.distribution U N speeds = .ok D ∧ D.density = rho * U.GeV / U.cm ^ 3 ∧ D.useEta = true ∧
        (∀ (i : ℕ) (h : i < xs.length) (h' : i < ys.length), D.pdfSpeed xs[i] = ys[i]) ∧
        (∀ v, (∀ x ∈ xs, v < x) → D.pdfSpeed v = 0) ∧ (∀ v, (∀ x ∈ xs, x < v) → D.pdfSpeed v = 0) ∧
        D.vMin ∈ xs ∧ D.vMax ∈ xs ∧ ∀ x ∈ xs, D.vMin ≤ x ∧ x ≤ D.vMax := by
  have key : c.distribution U N speeds = match speeds path with
      | none => .exit
      | some (xs, ys) => Distribution.imported N.integrate N.interpolate true (rho * (U.GeV / U.cm / U.cm / U.cm)) xs ys := by
    unfold Config.distribution
    rw [Config.getString_eq hk, Outcome.bind_ok, if_neg (by decide), if_pos rfl]
    unfold Config.importedDistribution
    rw [Config.getDouble_eq hr, Outcome.bind_ok, Config.getString_eq hf, Outcome.bind_ok]
    rcases speeds path with _ | ⟨xs, ys⟩ <;> rfl
  refine ⟨fun h => by rw [key, h], fun xs ys h hne hl hs => ?_⟩
  rw [key, h]
  dsimp only
  obtain ⟨D, hD⟩ : ∃ D, Distribution.imported N.integrate N.interpolate true (rho * (U.GeV / U.cm / U.cm / U.cm)) xs ys = .ok D := by
    unfold Distribution.imported
    rw [List.head?_eq_some_head hne, List.getLast?_eq_some_getLast hne]
    exact ⟨_, rfl⟩
  obtain ⟨k1, k2, k3, k4, k5, k6, k7, k8⟩ := C22_imported_pdf _ _ hP _ _ _ _ hl hs D hD
  refine ⟨D, hD, ?_, k5, k1, k2, k3, k6, k7, k8⟩
  rw [k4]; have := U.cm_pos; field_simp

theorem getDouble_cases (c : Config) (n : String) : (∃ x, c n = some (.float x) ∧ c.getDouble n = .ok x) ∨
    (∀ x, c n ≠ some (.float x)) ∧ c.getDouble n = .exit := by
  unfold Config.getDouble Config.lookup
  rcases c n with _ | s
  · exact .inr ⟨by simp, rfl⟩
  · cases s <;> simp [Setting.toDouble]

theorem getString_cases (c : Config) (n : String) : (∃ x, c n = some (.string x) ∧ c.getString n = .ok x) ∨
    (∀ x, c n ≠ some (.string x)) ∧ c.getString n = .exit := by
  unfold Config.getString Config.lookup
  rcases c n with _ | s
  · exact .inr ⟨by simp, rfl⟩
  · cases s <;> simp [Setting.toStr]

theorem getUInt_cases (c : Config) (n : String) : (∃ x, c n = some (.int x) ∧ c.getUInt n = .ok x.toNat) ∨
    (∀ x, c n ≠ some (.int x)) ∧ c.getUInt n = .exit := by
  unfold Config.getUInt Config.lookup
  rcases c n with _ | s
  · exact .inr ⟨by simp, rfl⟩
  · cases s <;> simp [Setting.toUInt]

theorem observerVelocity_cases (c : Config) :
    (∃ x y z, c "SHM_vObserver" = some (.list [.float x, .float y, .float z]) ∧ ∃ v, c.observerVelocity U = .ok v) ∨
      (∀ x y z, c "SHM_vObserver" ≠ some (.list [.float x, .float y, .float z])) ∧ c.observerVelocity U = .exit := by
  unfold Config.observerVelocity Config.getEntry Config.lookup
  rcases c "SHM_vObserver" with _ | s
  · exact .inr ⟨by simp, rfl⟩
  rcases s with _ | _ | _ | _ | l
  iterate 4 exact .inr ⟨by simp, rfl⟩
  rcases l with _ | ⟨a, _ | ⟨b, _ | ⟨d, _ | ⟨e, l⟩⟩⟩⟩
  · exact .inr ⟨by simp, rfl⟩
  · exact .inr ⟨by simp, rfl⟩
  · exact .inr ⟨by simp, rfl⟩
  · simp only [Outcome.bind_ok, Setting.length, Setting.index, List.length_cons, List.length_nil]
    cases a <;> cases b <;> cases d <;> simp [Setting.toDouble]
  · right
    refine ⟨by simp, ?_⟩
    simp [Setting.length]

/-- C69. In all other cases the program stops: unknown kind of distribution, a setting that is missing or has another type (an integer
is not accepted for a real number), an observer's velocity that is not a list of three real numbers. -/
theorem C69_other_files (N : Numerics) (speeds : String → Option (List ℝ × List ℝ)) {c : Config}
    (h1 : c "DM_distribution" = some (.string "SHM") → ∀ s, ¬ DescribesHalo c s)
    (h2 : c "DM_distribution" = some (.string "SHM++") → (∀ s, ¬ DescribesHalo c s) ∨ (∀ e, c "SHMpp_eta" ≠ some (.float e)) ∨
      ∀ b, c "SHMpp_beta" ≠ some (.float b))
    (h3 : c "DM_distribution" = some (.string "File") → (∀ r, c "DM_local_density" ≠ some (.float r)) ∨
      ∀ path, c "file_path" ≠ some (.string path)) :
    c.distribution U N speeds = .exit := by
  have halo : ∀ label, (∀ s, ¬ DescribesHalo c s) → c.haloModel U N label = .exit := by
    intro label hs
    unfold Config.haloModel
    rcases getDouble_cases c "DM_local_density" with ⟨r, hr, k⟩ | ⟨-, k⟩ <;> rw [k]
    swap; · rfl
    rw [Outcome.bind_ok]
    rcases getDouble_cases c "SHM_v0" with ⟨v0, hv0, k⟩ | ⟨-, k⟩ <;> rw [k]
    swap; · rfl
    rw [Outcome.bind_ok]
    rcases observerVelocity_cases (U := U) c with ⟨x, y, z, ho, v, k⟩ | ⟨-, k⟩ <;> rw [k]
    swap; · rfl
    rw [Outcome.bind_ok]
    rcases getDouble_cases c "SHM_vEscape" with ⟨ve, hve, k⟩ | ⟨-, k⟩ <;> rw [k]
    swap; · rfl
    exact absurd ⟨hr, hv0, ho, hve⟩ (hs ⟨r, v0, x, y, z, ve⟩)
  unfold Config.distribution
  rcases getString_cases c "DM_distribution" with ⟨kind, hk, k⟩ | ⟨-, k⟩ <;> rw [k]
  swap; · rfl
  rw [Outcome.bind_ok]
  by_cases e1 : kind = "SHM"
  · subst e1
    rw [if_pos (.inl rfl)]
    exact halo _ (h1 hk)
  by_cases e2 : kind = "SHM++"
  · subst e2
    rw [if_pos (.inr rfl)]
    by_cases hs : ∀ s, ¬ DescribesHalo c s
    · exact halo _ hs
    push Not at hs
    obtain ⟨s, hc⟩ := hs
    unfold Config.haloModel
    rw [Config.getDouble_eq hc.density, Outcome.bind_ok, Config.getDouble_eq hc.v0, Outcome.bind_ok, observerVelocity_eq hc,
      Outcome.bind_ok, Config.getDouble_eq hc.vesc, Outcome.bind_ok, if_neg (by decide)]
    rcases getDouble_cases c "SHMpp_eta" with ⟨e, he, k⟩ | ⟨-, k⟩ <;> rw [k]
    swap; · rfl
    rw [Outcome.bind_ok]
    rcases getDouble_cases c "SHMpp_beta" with ⟨b, hb, k⟩ | ⟨-, k⟩ <;> rw [k]
    swap; · rfl
    rcases h2 hk with h | h | h
    · exact absurd hc (h s)
    · exact absurd he (h e)
    · exact absurd hb (h b)
  rw [if_neg (by rintro (h | h); exacts [e1 h, e2 h])]
  by_cases e3 : kind = "File"
  · subst e3
    rw [if_pos rfl]
    unfold Config.importedDistribution
    rcases getDouble_cases c "DM_local_density" with ⟨r, hr, k⟩ | ⟨-, k⟩ <;> rw [k]
    swap; · rfl
    rw [Outcome.bind_ok]
    rcases getString_cases c "file_path" with ⟨p, hp, k⟩ | ⟨-, k⟩ <;> rw [k]
    swap; · rfl
    rcases h3 hk with h | h
    · exact absurd hr (h r)
    · exact absurd hp (h p)
  · rw [if_neg e3]

/-! ## C70 — user-defined detectors -/

variable {S : Setup} {rows : List NuclearRow} {cache : List Nucleus}

theorem targets_eq (hf : S.files.nuclear = some rows) (hw : WellFormed rows) {c : Config} {comp : List (ℕ × ℝ)}
    (hc : c "DD_targets_nuclear" = some (.list (comp.map fun e => .list [.float e.2, .int e.1])))
    (hZ : ∀ e ∈ comp, 1 ≤ e.1 ∧ e.1 ≤ 92) : ∀ (n j : ℕ) (cache : List Nucleus), j + n = comp.length →
    CacheReachable S.U (some rows) cache → ∃ c', c.targets S j n cache = .ok (c', (comp.drop j).map Prod.snd,
      (comp.drop j).map fun e => element S.U rows e.1) ∧ CacheReachable S.U (some rows) c' := by
  intro n
  induction n with
  | zero =>
    intro j cache hj hcache
    refine ⟨cache, ?_, hcache⟩
    rw [List.drop_of_length_le (by omega)]
    rfl
  | succ n ih =>
    intro j cache hj hcache
    have hlt : j < comp.length := by omega
    have hz := hZ comp[j] (List.getElem_mem hlt)
    obtain ⟨c1, h1⟩ := (C51_get_nucleus (U := S.U) hw hcache comp[j].1).1 hz
    have hu : toUInt32 (comp[j].1 : ℤ) = comp[j].1 := by unfold toUInt32; omega
    obtain ⟨c2, h2, h3⟩ := ih (j + 1) c1 (by omega) (.lookup hcache h1)
    refine ⟨c2, ?_, h3⟩
    unfold Config.targets
    simp only [Config.lookup, hc, Outcome.bind_ok, Setting.index, List.getElem?_map, List.getElem?_eq_getElem hlt, Option.map_some,
      List.getElem?_cons_zero, List.getElem?_cons_succ, Setting.toDouble, Setting.toInt, hu, hf, h1, h2]
    rw [List.drop_eq_getElem_cons hlt]
    rfl

theorem toNat_max (k : ℤ) : ((k.toNat : ℕ) : ℤ) = max k 0 := Int.toNat_eq_max k

/-- C70 (nuclear recoils). A file that describes a nuclear recoil detector gives a detector with the configured exposure, efficiency,
number of events, background, energies and resolution (none unless positive), made of the configured elements. The configured ratios are
numbers of atoms, and give the shares in the mass, if their sum is larger than 1; otherwise they are themselves taken as the shares (the
ambiguity of C39). -/
theorem C70_nuclear (hf : S.files.nuclear = some rows) (hw : WellFormed rows) (hcache : CacheReachable S.U (some rows) cache) {c : Config}
    {s : DetectorSettings} {r : RecoilSettings} (hk : c "DD_experiment" = some (.string "Nuclear recoil")) (hs : DescribesDetector c s)
    (hr : DescribesRecoils c r) (hne : r.composition ≠ []) (hZ : ∀ e ∈ r.composition, 1 ≤ e.1 ∧ e.1 ≤ 92)
    (hm : 1 < (r.composition.map Prod.snd).sum → ∀ e ∈ r.composition, 0 ≤ e.2 ∧ 0 < (element S.U rows e.1).averageMass)
    (hE : r.threshold ≤ r.highest) :
    ∃ c' d x, c.detector S cache = .ok (c', .nuclear d x) ∧ CountsEvents S s "Nuclear recoil" "Nuclei" d ∧
      CacheReachable S.U (some rows) c' ∧ d.usingEnergyThreshold = true ∧ d.energyThreshold = r.threshold * S.U.keV ∧
      d.energyMax = r.highest * S.U.keV ∧ x.nuclei = r.composition.map (fun e => element S.U rows e.1) ∧
      (1 < (r.composition.map Prod.snd).sum → x.fractions = massShares S.U rows r.composition) ∧
      ((r.composition.map Prod.snd).sum ≤ 1 → x.fractions = r.composition.map Prod.snd) ∧
      x.resolution = max (r.resolution * S.U.keV) 0 ∧ x.usingTables = false ∧ x.efficiencies = [] := by
  obtain ⟨c', h1, h2⟩ := targets_eq hf hw hr.composition hZ r.composition.length 0 cache (by omega) hcache
  have hkeV := S.U.keV_pos
  obtain ⟨x, hx, x1, x2, x3, x4, x5⟩ : ∃ x, NuclearDetector.make "Nuclear recoil" (s.exposure * (S.kg * S.M.year))
      (r.composition.map fun e => element S.U rows e.1) (r.composition.map Prod.snd) =
        .ok (Detector.make "Nuclear recoil" (s.exposure * (S.kg * S.M.year)) "Nuclei", x) ∧
      x.nuclei = r.composition.map (fun e => element S.U rows e.1) ∧
      (1 < (r.composition.map Prod.snd).sum → x.fractions = massShares S.U rows r.composition) ∧
      ((r.composition.map Prod.snd).sum ≤ 1 → x.fractions = r.composition.map Prod.snd) ∧ x.resolution = 0 ∧
      x.usingTables = false ∧ x.efficiencies = [] := by
    by_cases hsum : 1 < (r.composition.map Prod.snd).sum
    · exact ⟨_, make_composition _ _ hne (.inr ⟨rfl, hsum⟩) (fun e he => (hm hsum e he).1) (fun e he => (hm hsum e he).2), rfl,
        fun _ => rfl, fun h => absurd hsum (not_lt.2 h), rfl, rfl, rfl⟩
    · obtain ⟨x, k1, k2, k3, k4, k5⟩ := C39_given_fractions "Nuclear recoil" (s.exposure * (S.kg * S.M.year))
        (r.composition.map fun e => element S.U rows e.1) (abund := r.composition.map Prod.snd) (by simpa using hne) (not_lt.1 hsum)
      refine ⟨x, k1, k2, fun h => absurd h hsum, fun _ => k3, k4, k5, ?_⟩
      unfold NuclearDetector.make at k1
      obtain ⟨fr, -, k⟩ := Outcome.bind_eq_ok.1 k1
      cases k; rfl
  have hlt : ¬ r.highest * S.U.keV < r.threshold * S.U.keV := not_lt.2 (mul_le_mul_of_nonneg_right hE hkeV.le)
  refine ⟨c', { Detector.make "Nuclear recoil" (s.exposure * (S.kg * S.M.year)) "Nuclei" with
      flatEfficiency := s.efficiency, usingEnergyThreshold := true, energyThreshold := r.threshold * S.U.keV,
      energyMax := r.highest * S.U.keV, observed := s.observed.toNat, background := s.background },
    Config.configuredResolution x (r.resolution * S.U.keV), ?_, ?_, h2, rfl, rfl, rfl, ?_, ?_, ?_, ?_, ?_, ?_⟩
  · unfold Config.detector
    rw [Config.getString_eq hk, Outcome.bind_ok]
    unfold Config.selectDetector
    rw [if_pos rfl]
    unfold Config.nuclearDetector
    simp only [Config.lookup, hr.composition, Outcome.bind_ok, Setting.length, List.length_map, h1, List.drop_zero,
      Config.getDouble_eq hr.threshold, Config.getDouble_eq hr.highest, Config.getDouble_eq hs.exposure, Config.getDouble_eq hs.efficiency,
      Config.getUInt_eq hs.observed, Config.getDouble_eq hs.background, Config.getDouble_eq hr.resolution, hx,
      Detector.useEnergyThreshold, if_neg hlt, Detector.setObserved, Detector.setBackground, Detector.initializePoisson,
      ne_eq, not_true_eq_false, if_false]
    rfl
  · exact ⟨rfl, rfl, (mul_assoc _ _ _).symm, rfl, rfl, toNat_max _, rfl, rfl, rfl⟩
  all_goals unfold Config.configuredResolution
  · split_ifs <;> exact x1
  · split_ifs <;> exact x2
  · split_ifs <;> exact x3
  · split_ifs with h
    · exact (max_eq_left h.le).symm
    · rw [x4]; exact (max_eq_right (not_lt.1 h)).symm
  · split_ifs <;> exact x5.1
  · split_ifs <;> exact x5.2

theorem targets_bad (hf : S.files.nuclear = some rows) (hw : WellFormed rows) {c : Config} {comp : List (ℕ × ℝ)} {x : ℝ} {Z : ℤ}
    {l : List Setting} (hc : c "DD_targets_nuclear" =
      some (.list ((comp.map fun e => .list [.float e.2, .int e.1]) ++ .list [.float x, .int Z] :: l)))
    (hZ : ∀ e ∈ comp, 1 ≤ e.1 ∧ e.1 ≤ 92) (hbad : Z < 1 ∨ 92 < Z) (hl : -2 ^ 31 ≤ Z) (hu : Z < 2 ^ 31) :
    ∀ (m n j : ℕ) (cache : List Nucleus), j + m = comp.length → CacheReachable S.U (some rows) cache →
      c.targets S j (m + 1 + n) cache = .exit := by
  intro m
  induction m with
  | zero =>
    intro n j cache hj hcache
    have hg : getNucleus S.U S.files.nuclear cache (toUInt32 Z) = .exit := by
      rw [hf]
      refine (C51_get_nucleus (U := S.U) hw hcache _).2 ?_
      unfold toUInt32; omega
    have hj : j = comp.length := by omega
    subst hj
    rw [show 0 + 1 + n = n + 1 by omega, Config.targets]
    simp [Config.lookup, hc, Setting.index, Setting.toDouble, Setting.toInt, hg]
  | succ m ih =>
    intro n j cache hj hcache
    have hlt : j < comp.length := by omega
    obtain ⟨c1, h1⟩ := (C51_get_nucleus (U := S.U) hw hcache comp[j].1).1 (hZ comp[j] (List.getElem_mem hlt))
    have hu : toUInt32 (comp[j].1 : ℤ) = comp[j].1 := by
      have := hZ comp[j] (List.getElem_mem hlt)
      unfold toUInt32; omega
    have h2 := ih n (j + 1) c1 (by omega) (.lookup hcache h1)
    rw [show m + 1 + 1 + n = m + 1 + n + 1 by omega, Config.targets]
    have hget : ((comp.map fun e => Setting.list [.float e.2, .int e.1]) ++ .list [.float x, .int Z] :: l)[j]? =
        some (.list [.float comp[j].2, .int comp[j].1]) := by
      rw [List.getElem?_append_left (by simpa using hlt)]
      simp [hlt]
    simp only [Config.lookup, hc, Outcome.bind_ok, Setting.index, hget,
      List.getElem?_cons_zero, List.getElem?_cons_succ, Setting.toDouble, Setting.toInt, hu, hf, h1, h2]
    rfl

/-- C70 (nuclear recoils, error cases). The program stops if the highest energy is below the threshold, or if there is an element that
does not exist, wherever it stands in the list. Partial: an empty list of targets, or a setting that is not a list, does not stop it
(`C70_fails_no_targets`). -/
theorem C70_nuclear_invalid_partial (hf : S.files.nuclear = some rows) (hw : WellFormed rows) (hcache : CacheReachable S.U (some rows) cache)
    {c : Config} (hk : c "DD_experiment" = some (.string "Nuclear recoil")) :
    (∀ s r, DescribesDetector c s → DescribesRecoils c r → r.composition ≠ [] → (∀ e ∈ r.composition, 1 ≤ e.1 ∧ e.1 ≤ 92) →
      (1 < (r.composition.map Prod.snd).sum → ∀ e ∈ r.composition, 0 ≤ e.2 ∧ 0 < (element S.U rows e.1).averageMass) →
      r.highest < r.threshold → c.detector S cache = .exit) ∧
    (∀ (comp : List (ℕ × ℝ)) l x Z, c "DD_targets_nuclear" =
        some (.list ((comp.map fun e => .list [.float e.2, .int e.1]) ++ .list [.float x, .int Z] :: l)) →
      (∀ e ∈ comp, 1 ≤ e.1 ∧ e.1 ≤ 92) → Z < 1 ∨ 92 < Z → -2 ^ 31 ≤ Z → Z < 2 ^ 31 → c.detector S cache = .exit) := by
  have start : c.detector S cache = c.nuclearDetector S cache := by
    unfold Config.detector
    rw [Config.getString_eq hk, Outcome.bind_ok]
    unfold Config.selectDetector
    rw [if_pos rfl]
  constructor
  · intro s r hs hr hne hZ hm hE
    obtain ⟨c', h1, -⟩ := targets_eq hf hw hr.composition hZ r.composition.length 0 cache (by omega) hcache
    obtain ⟨x, hx⟩ : ∃ x, NuclearDetector.make "Nuclear recoil" (s.exposure * (S.kg * S.M.year))
        (r.composition.map fun e => element S.U rows e.1) (r.composition.map Prod.snd) =
          .ok (Detector.make "Nuclear recoil" (s.exposure * (S.kg * S.M.year)) "Nuclei", x) := by
      by_cases hsum : 1 < (r.composition.map Prod.snd).sum
      · exact ⟨_, make_composition _ _ hne (.inr ⟨rfl, hsum⟩) (fun e he => (hm hsum e he).1) (fun e he => (hm hsum e he).2)⟩
      · obtain ⟨x, k1, -⟩ := C39_given_fractions "Nuclear recoil" (s.exposure * (S.kg * S.M.year))
          (r.composition.map fun e => element S.U rows e.1) (abund := r.composition.map Prod.snd) (by simpa using hne) (not_lt.1 hsum)
        exact ⟨x, k1⟩
    have hlt : r.highest * S.U.keV < r.threshold * S.U.keV := mul_lt_mul_of_pos_right hE S.U.keV_pos
    rw [start]
    unfold Config.nuclearDetector
    simp only [Config.lookup, hr.composition, Outcome.bind_ok, Setting.length, List.length_map, h1, List.drop_zero,
      Config.getDouble_eq hr.threshold, Config.getDouble_eq hr.highest, Config.getDouble_eq hs.exposure, Config.getDouble_eq hs.efficiency,
      Config.getUInt_eq hs.observed, Config.getDouble_eq hs.background, Config.getDouble_eq hr.resolution, hx,
      Detector.useEnergyThreshold, if_pos hlt]
    rfl
  · intro comp l x Z hc hcomp hZ h1 h2
    have hb := targets_bad hf hw hc hcomp hZ h1 h2 comp.length l.length 0 cache (by omega) hcache
    rw [start]
    unfold Config.nuclearDetector
    simp only [Config.lookup, hc, Outcome.bind_ok, Setting.length, List.length_append, List.length_map, List.length_cons]
    rw [show comp.length + (l.length + 1) = comp.length + 1 + l.length by omega, hb]
    rfl

/-- C70 (ionization). A file that describes an ionization detector, for electron recoils or the Migdal effect, gives a detector of the
configured atoms that counts events with the configured number of electrons or more, up to 100. -/
theorem C70_ionization (hI : Installed S rows) (hcache : CacheReachable S.U (some rows) cache) {c : Config} {kind : String}
    {s : DetectorSettings} {atom : String} {thr : ℤ} (hk : c "DD_experiment" = some (.string kind))
    (hkind : kind = "Electron recoil" ∨ kind = "Migdal") (hs : DescribesDetector c s) (he : DescribesElectrons c atom thr)
    (ha : atom = "Xe" ∨ atom = "Ar") :
    (thr ≤ 100 → ∃ c' d x a, (kind = "Electron recoil" → c.detector S cache = .ok (c', .electronRecoil d x) ∧
          CountsEvents S s kind "Electrons" d) ∧
        (kind = "Migdal" → c.detector S cache = .ok (c', .migdal d x) ∧ CountsEvents S s kind "Nuclei" d) ∧
        d.usingEnergyThreshold = false ∧ x.usingElectronThreshold = true ∧ x.usingElectronBins = false ∧ x.usingS2Threshold = false ∧
        x.usingS2Bins = false ∧ (x.neThreshold : ℤ) = max thr 0 ∧ x.neMax = 100 ∧
        x.atoms = [a] ∧ x.fractions = [1] ∧ a.nucleus = element S.U rows (atomData atom).1 ∧ a.W = (atomData atom).2.1 * S.U.eV ∧
        a.electrons.map (fun s => (s.name, s.binding, s.secondaries)) =
          (atomData atom).2.2.map (fun s => (s.1, s.2.1 * S.U.eV, s.2.2)) ∧ BuiltAtom S.U a ∧
        Atom.make S.U S.P S.files.response S.files.nuclear cache atom = .ok (c', a)) ∧
    (100 < thr → c.detector S cache = .exit) := by
  have start : c.detector S cache = c.ionizationDetector S kind cache := by
    unfold Config.detector
    rw [Config.getString_eq hk, Outcome.bind_ok]
    unfold Config.selectDetector
    rw [if_neg (by rcases hkind with rfl | rfl <;> decide), if_pos hkind]
  rw [start]
  obtain ⟨c', a, h1, hbuilt, h3, h4, h5⟩ := makeIonization_ok hI hcache ha kind (s.exposure * (S.kg * S.M.year))
    (if kind = "Electron recoil" then "Electrons" else "Nuclei")
  have key : c.ionizationDetector S kind cache =
      (IonizationDetector.useElectronThreshold ((Detector.make kind (s.exposure * (S.kg * S.M.year))
        (if kind = "Electron recoil" then "Electrons" else "Nuclei")).setFlatEfficiency s.efficiency)
        (IonizationDetector.initial [a] [1]) thr.toNat 0 >>= fun r => r.1.setObserved s.observed.toNat >>= fun d =>
          d.setBackground s.background >>= fun d =>
          .ok (c', if kind = "Electron recoil" then .electronRecoil d r.2 else .migdal d r.2)) := by
    unfold Config.ionizationDetector
    simp only [Config.getString_eq he.target, Config.getUInt_eq he.threshold, Config.getDouble_eq hs.exposure,
      Config.getDouble_eq hs.efficiency, Config.getUInt_eq hs.observed, Config.getDouble_eq hs.background, Outcome.bind_ok, h1]
  constructor
  · intro hthr
    have hle : ¬ (100 < thr.toNat) := by omega
    refine ⟨c', { Detector.make kind (s.exposure * (S.kg * S.M.year)) (if kind = "Electron recoil" then "Electrons" else "Nuclei") with
        flatEfficiency := s.efficiency, usingEnergyThreshold := false, observed := s.observed.toNat, background := s.background },
      { IonizationDetector.initial [a] [1] with usingElectronThreshold := true, usingS2Threshold := false, neThreshold := thr.toNat,
                                                neMax := 100 }, a, fun hER => ⟨?_, ?_⟩, fun hM => ⟨?_, ?_⟩, rfl, rfl, rfl, rfl, rfl,
      toNat_max _, rfl, rfl, rfl, h3, h4, h5, hbuilt, makeIonization_atom h1⟩
    · rw [key]
      simp only [IonizationDetector.useElectronThreshold, lt_irrefl, false_and, if_false, if_neg hle, Outcome.bind_ok,
        Detector.setObserved, Detector.setBackground, Detector.initializePoisson, Detector.setFlatEfficiency, ne_eq, not_true_eq_false,
        if_pos hER]
      rfl
    · exact ⟨rfl, if_pos hER, (mul_assoc _ _ _).symm, rfl, rfl, toNat_max _, rfl, rfl, rfl⟩
    · have hER : ¬ kind = "Electron recoil" := by rw [hM]; decide
      rw [key]
      simp only [IonizationDetector.useElectronThreshold, lt_irrefl, false_and, if_false, if_neg hle, Outcome.bind_ok,
        Detector.setObserved, Detector.setBackground, Detector.initializePoisson, Detector.setFlatEfficiency, ne_eq, not_true_eq_false,
        if_neg hER]
      rfl
    · have hER : ¬ kind = "Electron recoil" := by rw [hM]; decide
      exact ⟨rfl, if_neg hER, (mul_assoc _ _ _).symm, rfl, rfl, toNat_max _, rfl, rfl, rfl⟩
  · intro hthr
    have hlt : 100 < thr.toNat := by omega
    rw [key]
    simp only [IonizationDetector.useElectronThreshold, lt_irrefl, false_and, if_false, if_pos hlt]
    rfl

/-- C70 (ionization). For every other target the program stops, as it does for the spellings "Xenon" and "Argon". -/
theorem C70_ionization_unknown (hI : Installed S rows) (hcache : CacheReachable S.U (some rows) cache) {c : Config} {kind : String}
    {s : DetectorSettings} {atom : String} {thr : ℤ} (hk : c "DD_experiment" = some (.string kind))
    (hkind : kind = "Electron recoil" ∨ kind = "Migdal") (hs : DescribesDetector c s) (he : DescribesElectrons c atom thr)
    (h1 : atom ≠ "Xe") (h2 : atom ≠ "Ar") : c.detector S cache = .exit := by
  unfold Config.detector
  rw [Config.getString_eq hk, Outcome.bind_ok]
  unfold Config.selectDetector
  rw [if_neg (by rcases hkind with rfl | rfl <;> decide), if_pos hkind]
  unfold Config.ionizationDetector
  simp only [Config.getString_eq he.target, Config.getUInt_eq he.threshold, Config.getDouble_eq hs.exposure,
    Config.getDouble_eq hs.efficiency, Config.getUInt_eq hs.observed, Config.getDouble_eq hs.background, Outcome.bind_ok]
  unfold Setup.makeIonization IonizationDetector.makeOne
  rw [C52_other_names h1 h2 hI.complete hI.nuclear hcache]
  rfl

/-- C70 (semiconductors). A file that describes a semiconductor detector gives a detector of the configured crystal that counts events
with the configured number of electron hole pairs or more: these are the predicted signals. -/
theorem C70_semiconductor {c : Config} {s : DetectorSettings} {target : String} {thr : ℤ}
    (hk : c "DD_experiment" = some (.string "Semiconductor")) (hs : DescribesDetector c s) (he : DescribesElectrons c target thr) :
    ((target = "Si" ∨ target = "Ge") → ∀ l, S.files.crystal target = some l → 500 * 900 ≤ l.length →
      ∃ d x, c.detector S cache = .ok (cache, .crystal d x) ∧ CountsEvents S s "Semiconductor" "Electrons" d ∧
        d.usingEnergyThreshold = false ∧ x.crystal.name = target ∧ BuiltCrystal S.U x.crystal ∧ x.usingQThreshold = some true ∧
        x.qThreshold = some thr.toNat ∧ Crystal.make S.U S.P (fun _ => l) target = .ok x.crystal ∧
        (1 ≤ thr → thr < 2 ^ 31 → d.energyThreshold = x.crystal.gap + (thr - 1) * x.crystal.epsilon ∧
          ∀ T p h, x.signalsTotal S.U T d p h = do
            let r ← rTotalCrystal S.U T.integrate thr p h x.crystal
            .ok (d.exposure * d.flatEfficiency * r))) ∧
    (¬(target = "Si" ∨ target = "Ge") → c.detector S cache = .exit) ∧
    (S.files.crystal target = none → c.detector S cache = .exit) := by
  have start : c.detector S cache = (c.crystalDetector S >>= fun d => .ok (cache, d)) := by
    unfold Config.detector
    rw [Config.getString_eq hk, Outcome.bind_ok]
    unfold Config.selectDetector
    rw [if_neg (by decide), if_neg (by decide), if_pos rfl]
  have key : c.crystalDetector S = (S.makeCrystal "Semiconductor" (s.exposure * (S.kg * S.M.year)) target >>= fun r =>
      (CrystalDetector.useQThreshold (r.1.setFlatEfficiency s.efficiency) r.2 thr.toNat).1.setObserved s.observed.toNat >>= fun d =>
        d.setBackground s.background >>= fun d =>
        .ok (.crystal d (CrystalDetector.useQThreshold (r.1.setFlatEfficiency s.efficiency) r.2 thr.toNat).2)) := by
    unfold Config.crystalDetector
    simp only [Config.getString_eq he.target, Config.getUInt_eq he.threshold, Config.getDouble_eq hs.exposure,
      Config.getDouble_eq hs.efficiency, Config.getUInt_eq hs.observed, Config.getDouble_eq hs.background, Outcome.bind_ok]
  rw [start, key]
  refine ⟨fun ht l hl hlen => ?_, fun ht => ?_, fun hn => ?_⟩
  · obtain ⟨cr, h3, h4⟩ := (C57_construction (U := S.U) S.P (fun _ => l) target).1 ht hlen
    have hmake : S.makeCrystal "Semiconductor" (s.exposure * (S.kg * S.M.year)) target =
        .ok (Detector.make "Semiconductor" (s.exposure * (S.kg * S.M.year)) "Electrons",
          { crystal := cr, qThreshold := none, usingQThreshold := none, usingQBins := none }) := by
      unfold Setup.makeCrystal CrystalDetector.make
      rw [hl]
      dsimp only
      rw [h3, Outcome.bind_ok]
    rw [hmake]
    refine ⟨{ Detector.make "Semiconductor" (s.exposure * (S.kg * S.M.year)) "Electrons" with
        flatEfficiency := s.efficiency, observed := s.observed.toNat, background := s.background,
        energyThreshold := cr.minimumElectronEnergy (toInt32 thr.toNat),
        energyMax := cr.minimumElectronEnergy (toInt32 cr.pairsMax) },
      { crystal := cr, qThreshold := some thr.toNat, usingQThreshold := some true, usingQBins := none }, ?_, ?_, rfl, h4, ⟨_, _, _, h3⟩,
      rfl, rfl, h3, fun h5 h6 => ?_⟩
    · simp only [CrystalDetector.useQThreshold, Outcome.bind_ok, Detector.setObserved, Detector.setBackground,
        Detector.initializePoisson, Detector.setFlatEfficiency, ne_eq, not_true_eq_false, if_false]
      rfl
    · exact ⟨rfl, rfl, (mul_assoc _ _ _).symm, rfl, rfl, toNat_max _, rfl, rfl, rfl⟩
    · have h7 : toInt32 thr.toNat = thr := by unfold toInt32; omega
      constructor
      · show cr.minimumElectronEnergy (toInt32 thr.toNat) = _
        rw [h7]
        unfold Crystal.minimumElectronEnergy
        push_cast; ring
      · intro T p h
        have h8 : ((thr.toNat : ℕ) : ℤ) = thr := by omega
        unfold CrystalDetector.signalsTotal
        simp only [Detector.make, reduceCtorEq, if_false, Bool.false_eq_true, or_self, readMember, Outcome.bind_ok, h7, if_true]
  · have hmake : S.makeCrystal "Semiconductor" (s.exposure * (S.kg * S.M.year)) target = .exit := by
      unfold Setup.makeCrystal CrystalDetector.make
      rcases S.files.crystal target with _ | l
      · rfl
      · dsimp only
        rw [(C57_construction (U := S.U) S.P (fun _ => l) target).2.2 ht]; rfl
    rw [hmake]; rfl
  · unfold Setup.makeCrystal
    rw [hn]; rfl

/-- C70 (missing settings). Without one of the settings that it needs no user-defined detector is built; for the detectors of
electrons the program stops. -/
theorem C70_missing_setting {c : Config} {n : String} (h : c n = none) :
    (c "DD_experiment" = some (.string "Nuclear recoil") → n ∈ recoilKeys → ∀ r, c.detector S cache ≠ .ok r) ∧
    (c "DD_experiment" = some (.string "Electron recoil") ∨ c "DD_experiment" = some (.string "Migdal") ∨
      c "DD_experiment" = some (.string "Semiconductor") → n ∈ electronKeys → c.detector S cache = .exit) := by
  have kd : c.getDouble n = .exit := by simp [Config.getDouble, Config.lookup, h]
  have ku : c.getUInt n = .exit := by simp [Config.getUInt, Config.lookup, h]
  have ks : c.getString n = .exit := by simp [Config.getString, Config.lookup, h]
  have kl : c.lookup n = .exit := by simp [Config.lookup, h]
  constructor
  · intro hk hn r hr
    unfold Config.detector at hr
    rw [Config.getString_eq hk, Outcome.bind_ok] at hr
    unfold Config.selectDetector at hr
    rw [if_pos rfl] at hr
    unfold Config.nuclearDetector at hr
    obtain ⟨l, e1, hr⟩ := Outcome.bind_eq_ok.1 hr
    obtain ⟨q, -, hr⟩ := Outcome.bind_eq_ok.1 hr
    obtain ⟨_, e2, hr⟩ := Outcome.bind_eq_ok.1 hr
    obtain ⟨_, e3, hr⟩ := Outcome.bind_eq_ok.1 hr
    obtain ⟨_, e4, hr⟩ := Outcome.bind_eq_ok.1 hr
    obtain ⟨_, e5, hr⟩ := Outcome.bind_eq_ok.1 hr
    obtain ⟨_, e6, hr⟩ := Outcome.bind_eq_ok.1 hr
    obtain ⟨_, e7, hr⟩ := Outcome.bind_eq_ok.1 hr
    obtain ⟨_, e8, hr⟩ := Outcome.bind_eq_ok.1 hr
    simp only [recoilKeys, detectorKeys, List.cons_append, List.nil_append, List.mem_cons, List.not_mem_nil, or_false] at hn
    rcases hn with rfl | rfl | rfl | rfl | rfl | rfl | rfl | rfl
    · rw [kd] at e4; cases e4
    · rw [kd] at e5; cases e5
    · rw [ku] at e6; cases e6
    · rw [kd] at e7; cases e7
    · rw [kl] at e1; cases e1
    · rw [kd] at e2; cases e2
    · rw [kd] at e3; cases e3
    · rw [kd] at e8; cases e8
  · intro hk hn
    have chain : ∀ {α : Type} (f : String → ℕ → ℝ → ℝ → ℕ → ℝ → Outcome α),
        (c.getString "DD_target_electron" >>= fun a => c.getUInt "DD_threshold_electron" >>= fun b => c.getDouble "DD_exposure" >>= fun e =>
          c.getDouble "DD_efficiency" >>= fun g => c.getUInt "DD_observed_events" >>= fun i =>
          c.getDouble "DD_expected_background" >>= fun j => f a b e g i j) = .exit := by
      intro α f
      rcases getString_cases c "DD_target_electron" with ⟨a, a1, k⟩ | ⟨-, k⟩ <;> rw [k]
      swap; · rfl
      rw [Outcome.bind_ok]
      rcases getUInt_cases c "DD_threshold_electron" with ⟨b, b1, k⟩ | ⟨-, k⟩ <;> rw [k]
      swap; · rfl
      rw [Outcome.bind_ok]
      rcases getDouble_cases c "DD_exposure" with ⟨e, c1, k⟩ | ⟨-, k⟩ <;> rw [k]
      swap; · rfl
      rw [Outcome.bind_ok]
      rcases getDouble_cases c "DD_efficiency" with ⟨g, d1, k⟩ | ⟨-, k⟩ <;> rw [k]
      swap; · rfl
      rw [Outcome.bind_ok]
      rcases getUInt_cases c "DD_observed_events" with ⟨i, e1, k⟩ | ⟨-, k⟩ <;> rw [k]
      swap; · rfl
      rw [Outcome.bind_ok]
      rcases getDouble_cases c "DD_expected_background" with ⟨j, f1, k⟩ | ⟨-, k⟩ <;> rw [k]
      swap; · rfl
      simp only [electronKeys, detectorKeys, List.cons_append, List.nil_append, List.mem_cons, List.not_mem_nil, or_false] at hn
      rcases hn with rfl | rfl | rfl | rfl | rfl | rfl <;> simp_all
    unfold Config.detector
    rcases hk with hk | hk | hk
    · rw [Config.getString_eq hk, Outcome.bind_ok]
      unfold Config.selectDetector
      rw [if_neg (by decide), if_pos (.inl rfl)]
      exact chain _
    · rw [Config.getString_eq hk, Outcome.bind_ok]
      unfold Config.selectDetector
      rw [if_neg (by decide), if_pos (.inr rfl)]
      exact chain _
    · rw [Config.getString_eq hk, Outcome.bind_ok]
      unfold Config.selectDetector
      rw [if_neg (by decide), if_neg (by decide), if_pos rfl]
      have : c.crystalDetector S = .exit := chain _
      rw [this]; rfl

/-! ## C71 — exclusion limits and the whole object -/

/-- C71 (parameters of exclusion limits). They are taken as they are, masses in GeV, a negative number of masses as 0; if one is missing
or has another type the program stops. -/
theorem C71_parameters (c : Config) :
    (∀ p lo hi n, DescribesLimits c p lo hi n → Configuration.parameters c = .ok (p, lo, hi, n.toNat)) ∧
    ((¬ ∃ p lo hi n, DescribesLimits c p lo hi n) → Configuration.parameters c = .exit) := by
  constructor
  · intro p lo hi n h
    unfold Configuration.parameters
    simp only [Config.getDouble_eq h.certainty, Config.getDouble_eq h.lowest, Config.getDouble_eq h.highest, Config.getUInt_eq h.masses,
      Outcome.bind_ok]
  · intro h
    unfold Configuration.parameters
    rcases getDouble_cases c "constraints_certainty" with ⟨p, a1, k⟩ | ⟨-, k⟩ <;> rw [k]
    swap; · rfl
    rw [Outcome.bind_ok]
    rcases getDouble_cases c "constraints_mass_min" with ⟨lo, a2, k⟩ | ⟨-, k⟩ <;> rw [k]
    swap; · rfl
    rw [Outcome.bind_ok]
    rcases getDouble_cases c "constraints_mass_max" with ⟨hi, a3, k⟩ | ⟨-, k⟩ <;> rw [k]
    swap; · rfl
    rw [Outcome.bind_ok]
    rcases getUInt_cases c "constraints_masses" with ⟨n, a4, k⟩ | ⟨-, k⟩ <;> rw [k]
    swap; · rfl
    exact absurd ⟨p, lo, hi, n, a1, a2, a3, a4⟩ h

/-- C71 (the object). The constructor succeeds with an object if and only if the file can be read and parsed and contains an ID, the
particle, the distribution, the detector and the parameters of exclusion limits; the object consists of these, of the name of the file,
and of the path `results/<ID>/` below the installation. -/
theorem C71_object (R : Installation) (S : Setup) (N : Numerics) (speeds : String → Option (List ℝ × List ℝ))
    (parse : List Char → Option Config) (fs : FileSystem) (cache c' : List Nucleus) (cfgFile : Name) (rank : ℤ) (o : Configuration) :
    (Configuration.make R S N speeds parse fs cache cfgFile rank).2 = .ok (c', o) ↔
      ∃ text c ID, fs.read R.cwd cfgFile = some text ∧ parse text = some c ∧ c "ID" = some (.string ID) ∧
        c.particle S.U = .ok o.particle ∧ c.distribution S.U N speeds = .ok o.distribution ∧
        c.detector S cache = .ok (c', o.detector) ∧
        (∃ n, DescribesLimits c o.certainty o.massMin o.massMax n ∧ o.masses = n.toNat) ∧
        o.cfgFile = cfgFile ∧ o.ID = ID.toList ∧
        o.resultsPath = R.top ++ ("results/" ++ ID ++ "/").toList := by
  have hbuild : ∀ (c : Config) (ID : Name), Configuration.build R S N speeds c cache cfgFile ID = .ok (c', o) ↔
      c.particle S.U = .ok o.particle ∧ c.distribution S.U N speeds = .ok o.distribution ∧
        c.detector S cache = .ok (c', o.detector) ∧
        (∃ n, DescribesLimits c o.certainty o.massMin o.massMax n ∧ o.masses = n.toNat) ∧
        o.cfgFile = cfgFile ∧ o.ID = ID ∧ o.resultsPath = R.top ++ "results/".toList ++ ID ++ "/".toList := by
    intro c ID
    unfold Configuration.build
    constructor
    · intro h
      obtain ⟨p, h1, h⟩ := Outcome.bind_eq_ok.1 h
      obtain ⟨D, h2, h⟩ := Outcome.bind_eq_ok.1 h
      obtain ⟨⟨c1, d⟩, h3, h⟩ := Outcome.bind_eq_ok.1 h
      obtain ⟨⟨q1, q2, q3, q4⟩, h4, h⟩ := Outcome.bind_eq_ok.1 h
      dsimp only at h
      cases h
      refine ⟨h1, h2, h3, ?_, rfl, rfl, rfl⟩
      by_cases hd : ∃ p lo hi n, DescribesLimits c p lo hi n
      · obtain ⟨p, lo, hi, n, hd⟩ := hd
        rw [(C71_parameters c).1 p lo hi n hd] at h4
        cases h4
        exact ⟨n, hd, rfl⟩
      · rw [(C71_parameters c).2 hd] at h4
        cases h4
    · rintro ⟨h1, h2, h3, ⟨n, h4, h5⟩, h6, h7, h8⟩
      rw [h1, Outcome.bind_ok, h2, Outcome.bind_ok, h3, Outcome.bind_ok]
      dsimp only
      rw [(C71_parameters c).1 _ _ _ n h4, Outcome.bind_ok, ← h5]
      dsimp only
      rw [← h6, ← h7]
      rw [← h7] at h8
      rw [← h8]
  have hpath : ∀ ID : String, R.top ++ ("results/" ++ ID ++ "/").toList = R.top ++ "results/".toList ++ ID.toList ++ "/".toList := by
    intro ID; simp
  unfold Configuration.make
  cases hread : fs.read R.cwd cfgFile with
  | none => simp
  | some text =>
    cases hparse : parse text with
    | none => simp [hparse]
    | some c =>
      simp only [Option.bind_some, hparse]
      rcases getString_cases c "ID" with ⟨ID, hID, k⟩ | ⟨hno, k⟩
      · simp only [Configuration.initializeResultFolder, k]
        rw [hbuild]
        constructor
        · rintro ⟨h1, h2, h3, h4, h5, h6, h7⟩
          exact ⟨text, c, ID, rfl, hparse, hID, h1, h2, h3, h4, h5, h6, by rw [hpath]; exact h7⟩
        · rintro ⟨text', c2, ID2, e1, e2, e3, h1, h2, h3, h4, h5, h6, h7⟩
          cases e1
          rw [hparse] at e2; cases e2
          rw [hID] at e3; cases e3
          exact ⟨h1, h2, h3, h4, h5, h6, by rw [← hpath]; exact h7⟩
      · simp only [Configuration.initializeResultFolder, k]
        constructor
        · intro h; cases h
        · rintro ⟨text', c2, ID2, e1, e2, e3, -⟩
          cases e1
          rw [hparse] at e2; cases e2
          exact absurd e3 (hno _)

/-! ## The example file `bin/config.cfg` -/

/-- The settings of `bin/config.cfg` (lines 1-73). -/
noncomputable def exampleConfig : Config := fun n =>
  if n = "ID" then some (.string "test")
  else if n = "DM_mass" then some (.float 0.1) else if n = "DM_spin" then some (.float 0.5)
  else if n = "DM_fraction" then some (.float 1) else if n = "DM_light" then some (.bool false)
  else if n = "DM_interaction" then some (.string "SI") else if n = "DM_isospin_conserved" then some (.bool true)
  else if n = "DM_relative_couplings" then some (.list [.float 1, .float 0])
  else if n = "DM_cross_section_nucleon" then some (.float 1e-36)
  else if n = "DM_cross_section_electron" then some (.float 1e-36)
  else if n = "DM_form_factor" then some (.string "Contact") else if n = "DM_mediator_mass" then some (.float 0)
  else if n = "DM_distribution" then some (.string "SHM") else if n = "DM_local_density" then some (.float 0.4)
  else if n = "SHM_v0" then some (.float 220) else if n = "SHM_vObserver" then some (.list [.float 0, .float 232, .float 0])
  else if n = "SHM_vEscape" then some (.float 544) else if n = "SHMpp_eta" then some (.float 0.2)
  else if n = "SHMpp_beta" then some (.float 0.9) else if n = "file_path" then some (.string "DM_Speed_PDF.txt")
  else if n = "DD_experiment" then some (.string "Electron recoil") else if n = "DD_exposure" then some (.float 1)
  else if n = "DD_efficiency" then some (.float 1) else if n = "DD_observed_events" then some (.int 0)
  else if n = "DD_expected_background" then some (.float 0)
  else if n = "DD_targets_nuclear" then
    some (.list [.list [.float 4, .int 8], .list [.float 1, .int 20], .list [.float 1, .int 74]])
  else if n = "DD_threshold_nuclear" then some (.float 4) else if n = "DD_Emax_nuclear" then some (.float 40)
  else if n = "DD_energy_resolution" then some (.float 0) else if n = "DD_target_electron" then some (.string "Xe")
  else if n = "DD_threshold_electron" then some (.int 4) else if n = "constraints_certainty" then some (.float 0.95)
  else if n = "constraints_mass_min" then some (.float 0.02) else if n = "constraints_mass_max" then some (.float 1)
  else if n = "constraints_masses" then some (.int 10) else none

/-- The example file with another value. -/
noncomputable abbrev exampleWith (n v : String) : Config := Function.update exampleConfig n (some (.string v))

theorem example_halo : DescribesHalo exampleConfig ⟨0.4, 220, 0, 232, 0, 544⟩ := by constructor <;> simp [exampleConfig]

theorem example_detector (v : String) : DescribesDetector (exampleWith "DD_experiment" v) ⟨1, 1, 0, 0⟩ := by
  constructor <;> simp [exampleConfig, exampleWith, Function.update]

theorem example_recoils (v : String) :
    DescribesRecoils (exampleWith "DD_experiment" v) ⟨[(8, 4), (20, 1), (74, 1)], 4, 40, 0⟩ := by
  constructor <;> simp [exampleConfig, exampleWith, Function.update]

theorem example_electrons (v : String) : DescribesElectrons (exampleWith "DD_experiment" v) "Xe" 4 := by
  constructor <;> simp [exampleConfig, exampleWith, Function.update]

theorem example_limits : DescribesLimits exampleConfig 0.95 0.02 1 10 := by constructor <;> simp [exampleConfig]

theorem example_particle : DescribesParticle exampleConfig
    { mass := 0.1, spin := 0.5, fraction := 1, light := false, interaction := "SI", formFactor := "Contact", mediator := 0, fp := 1,
      fn := 1, sigmaNucleon := 1e-36, sigmaElectron := 1e-36 } := by
  constructor <;> simp [exampleConfig]

/-- Non-vacuity of `C69_standard_halo_partial`: the example file. -/
example (N : Numerics) (speeds) : ∃ D, exampleConfig.distribution U N speeds = .ok D ∧ D.vMax = (544 + 232) * (U.km / U.sec) ∧
    ∫ v in 0..D.vMax, D.pdfSpeed v = 1 := by
  have hs : √((0 : ℝ) ^ 2 + 232 ^ 2 + 0 ^ 2) = 232 := by
    rw [show (0 : ℝ) ^ 2 + 232 ^ 2 + 0 ^ 2 = 232 ^ 2 by norm_num]; exact Real.sqrt_sq (by norm_num)
  obtain ⟨D, h1, -, -, h2, -, -, h3, -⟩ := C69_standard_halo_partial (U := U) N speeds (by simp [exampleConfig]) example_halo (by norm_num)
    (by norm_num) (by rw [hs]; norm_num)
  exact ⟨D, h1, by rw [h2, hs], h3⟩

/-- Non-vacuity of `C69_halo_plus_plus`: the example file with "SHM++". -/
example (speeds) : ∃ D, (exampleWith "DM_distribution" "SHM++").distribution U Numerics.exact speeds = .ok D ∧ D.Proper := by
  have hs : √((0 : ℝ) ^ 2 + 232 ^ 2 + 0 ^ 2) = 232 := by
    rw [show (0 : ℝ) ^ 2 + 232 ^ 2 + 0 ^ 2 = 232 ^ 2 by norm_num]; exact Real.sqrt_sq (by norm_num)
  obtain ⟨D, _, _, h1, -, -, -, -, -, -, -, -, -, -, -, -, h2⟩ := C69_halo_plus_plus (U := U) Numerics.exact speeds
    (c := exampleWith "DM_distribution" "SHM++") (s := ⟨0.4, 220, 0, 232, 0, 544⟩) (e := 0.2) (b := 0.9) (by simp [exampleWith])
    (by constructor <;> simp [exampleConfig, exampleWith, Function.update]) (by simp [exampleConfig, exampleWith, Function.update])
    (by simp [exampleConfig, exampleWith, Function.update])
  exact ⟨D, h1, h2 exactIntegrator_exact (fun _ _ _ _ _ => rfl) (by norm_num) (by norm_num) (by norm_num) (by norm_num) (by norm_num)
    (by norm_num) (by rw [hs]; norm_num)⟩

/-- Non-vacuity of `C69_tabulated`: the example file with "File" and a table of three speeds. -/
example : ∃ D, (exampleWith "DM_distribution" "File").distribution U Numerics.exact
    (fun p => if p = "DM_Speed_PDF.txt" then some ([1, 2, 3], [0, 1, 0]) else none) = .ok D ∧ D.pdfSpeed 2 = 1 := by
  obtain ⟨D, h1, -, -, h2, -⟩ := (C69_tabulated (U := U) Numerics.exact Numerics.exact_nodes
    (fun p => if p = "DM_Speed_PDF.txt" then some ([1, 2, 3], [0, 1, 0]) else none) (c := exampleWith "DM_distribution" "File")
    (rho := 0.4) (path := "DM_Speed_PDF.txt") (by simp [exampleWith]) (by simp [exampleConfig, exampleWith, Function.update])
    (by simp [exampleConfig, exampleWith, Function.update])).2 [1, 2, 3] [0, 1, 0] (by simp) (by simp) rfl (by norm_num)
  exact ⟨D, h1, h2 1 (by simp) (by simp)⟩

/-- Non-vacuity of `C69_other_files`: a misspelt distribution. -/
example (N : Numerics) (speeds) : (exampleWith "DM_distribution" "shm").distribution U N speeds = .exit :=
  C69_other_files N speeds (by simp [exampleWith]) (by simp [exampleWith]) (by simp [exampleWith])

/-- Non-vacuity of `C70_nuclear`: the example file with "Nuclear recoil", a CaWO₄ detector. -/
example : ∃ c' d x, (exampleWith "DD_experiment" "Nuclear recoil").detector sampleSetup [] = .ok (c', .nuclear d x) ∧
    x.nuclei.length = 3 ∧ d.energyMax = 40 * sampleSetup.U.keV := by
  have hI := sampleSetup_installed
  obtain ⟨c', d, x, h1, -, -, -, -, h2, h3, -⟩ := C70_nuclear hI.nuclear hI.complete .start (c := exampleWith "DD_experiment" "Nuclear recoil")
    (by simp [exampleWith]) (example_detector _) (example_recoils _) (by simp) (by simp)
    (fun _ e he => by
      simp only [List.mem_cons, List.not_mem_nil, or_false] at he
      rcases he with rfl | rfl | rfl
      · exact ⟨by norm_num, hI.masses 8 (by simp)⟩
      · exact ⟨by norm_num, hI.masses 20 (by simp)⟩
      · exact ⟨by norm_num, hI.masses 74 (by simp)⟩) (by norm_num)
  exact ⟨c', d, x, h1, by rw [h3]; rfl, h2⟩

/-- Non-vacuity of `C70_nuclear_invalid_partial`: oxygen and then element 0. -/
example : Config.detector sampleSetup (Function.update (exampleWith "DD_experiment" "Nuclear recoil") "DD_targets_nuclear"
    (some (.list [.list [.float 1, .int 8], .list [.float 1, .int 0]]))) [] = .exit :=
  (C70_nuclear_invalid_partial sampleSetup_installed.nuclear sampleSetup_installed.complete .start (by simp [exampleWith, Function.update])).2
    [(8, 1)] [] 1 0 (by simp) (by simp) (by simp) (by norm_num) (by norm_num)

/-- Non-vacuity of `C70_ionization`: the example file. -/
example : ∃ c' d x, exampleConfig.detector sampleSetup [] = .ok (c', .electronRecoil d x) ∧ x.neThreshold = 4 ∧
    d.targets = "Electrons" := by
  have he : exampleConfig = exampleWith "DD_experiment" "Electron recoil" := by
    refine (Function.update_eq_self_iff.2 ?_).symm; simp [exampleConfig]
  rw [he]
  obtain ⟨c', d, x, a, h1, -, -, -, -, -, -, h2, -⟩ := (C70_ionization sampleSetup_installed .start (kind := "Electron recoil")
    (c := exampleWith "DD_experiment" "Electron recoil") (by simp [exampleWith]) (.inl rfl) (example_detector _) (example_electrons _) (.inl rfl)).1 (by norm_num)
  obtain ⟨h3, h4⟩ := h1 rfl
  exact ⟨c', d, x, h3, by exact_mod_cast h2, h4.targets⟩

/-- Non-vacuity of `C70_semiconductor`: the example file with "Semiconductor" and silicon. -/
example : ∃ d x, Config.detector sampleSetup (Function.update (exampleWith "DD_experiment" "Semiconductor") "DD_target_electron"
    (some (.string "Si"))) [] = .ok ([], .crystal d x) ∧ x.qThreshold = some 4 := by
  obtain ⟨l, hl, hlen⟩ := sampleSetup_installed.silicon
  obtain ⟨d, x, h1, -, -, -, -, -, h2, -⟩ := (C70_semiconductor (S := sampleSetup) (cache := [])
    (c := Function.update (exampleWith "DD_experiment" "Semiconductor") "DD_target_electron" (some (.string "Si")))
    (s := ⟨1, 1, 0, 0⟩) (target := "Si") (thr := 4) (by simp [exampleWith, Function.update])
    (by constructor <;> simp [exampleConfig, exampleWith, Function.update])
    (by constructor <;> simp [exampleConfig, exampleWith, Function.update])).1 (.inl rfl) l hl hlen
  exact ⟨d, x, h1, h2⟩

/-- Non-vacuity of `C70_missing_setting`: the example file without exposure. -/
example : Config.detector sampleSetup (Function.update exampleConfig "DD_exposure" none) [] = .exit :=
  (C70_missing_setting (n := "DD_exposure") (by simp)).2 (.inl (by simp [exampleConfig, Function.update])) (by simp [electronKeys, detectorKeys])

/-- Non-vacuity of `C71_object`: the constructor succeeds for the example file. -/
example (N : Numerics) (speeds) : ∃ c' o,
    (Configuration.make sampleInstallation sampleSetup N speeds (fun _ => some exampleConfig) sampleFiles [] ['a'] 0).2 = .ok (c', o) ∧
      o.resultsPath = "/o/results/test/".toList ∧ o.masses = 10 := by
  obtain ⟨p, hp, -⟩ := C53_particle_partial (U := sampleSetup.U) example_particle (.inr ⟨rfl, by simp, by simp⟩) (by norm_num)
    (by norm_num) (by norm_num)
  have hs : √((0 : ℝ) ^ 2 + 232 ^ 2 + 0 ^ 2) = 232 := by
    rw [show (0 : ℝ) ^ 2 + 232 ^ 2 + 0 ^ 2 = 232 ^ 2 by norm_num]; exact Real.sqrt_sq (by norm_num)
  obtain ⟨D, hD, -⟩ := C69_standard_halo_partial (U := sampleSetup.U) N speeds (by simp [exampleConfig]) example_halo (by norm_num)
    (by norm_num) (by rw [hs]; norm_num)
  have he : exampleConfig = exampleWith "DD_experiment" "Electron recoil" := by
    refine (Function.update_eq_self_iff.2 ?_).symm; simp [exampleConfig]
  obtain ⟨c', d, x, a, h1, -⟩ := (C70_ionization sampleSetup_installed .start (kind := "Electron recoil")
    (c := exampleWith "DD_experiment" "Electron recoil") (by simp [exampleWith]) (.inl rfl) (example_detector _) (example_electrons _) (.inl rfl)).1 (by norm_num)
  have h3 := (h1 rfl).1
  rw [← he] at h3
  refine ⟨c', ⟨['a'], "test".toList, "/o/results/test/".toList, p, D, .electronRecoil d x, 0.95, 0.02, 1, 10⟩,
    (C71_object _ _ _ _ _ _ _ _ _ _ _).2 ⟨['x'], exampleConfig, "test", by decide, rfl, by simp [exampleConfig], hp, hD, h3,
      ⟨10, example_limits, rfl⟩, rfl, rfl, by dsimp only; decide⟩, rfl, rfl⟩

end Obscura
