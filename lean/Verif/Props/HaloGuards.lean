import Verif.Props.Configured

/-!
# C17, C69 — the guards of the partial theorems are needed

`C17_eta_partial` leaves out two numerical windows, `C69_standard_halo_partial` observers faster than the escape speed. Inside them
the full statements are false.
-/

namespace Obscura

open Spec Real

variable {U : Units}

/-- C17 fails in the last `1e-8 v_0` below the maximal speed, for every moving observer: the integral of `f(v)/v` is positive and
`Eta_Function` is 0. -/
theorem C17_fails_window (U : Units) (s : SHM) (h : SHM.Reachable U s) (hp : s.Physical) (hoe : s.vObs ≤ s.vEsc)
    (ho : 0 < s.vObs) (v : ℝ) (hv : 0 ≤ v) (hv1 : s.vMax - 1e-8 * s.v0 < v) (hv2 : v < s.vMax) :
    s.eta v = 0 ∧ 0 < ∫ x in v..s.vMax, s.pdfSpeed x / x := by
  have hw := SHM.WF.of_reachable h hp
  refine ⟨(C17_window U s h hp hoe ho v hv hv1 hv2.le).1, ?_⟩
  refine intervalIntegral.intervalIntegral_pos_of_pos_on (integral_eta_moving hw ho hoe hv hv2.le).1 (fun x hx => ?_) hv2
  have hx0 : 0 < x := lt_of_le_of_lt hv hx.1
  exact div_pos (C15_pos_partial U s h hp hoe x hx0 (by rw [← hw.vMax]; exact hx.2)) hx0

example : ∃ v, 0 ≤ v ∧ SHM.sample.vMax - 1e-8 * SHM.sample.v0 < v ∧ v < SHM.sample.vMax ∧ 0 < SHM.sample.vObs :=
  ⟨SHM.sample.vMax - 1e-9 * SHM.sample.v0, by norm_num [SHM.sample, SHM.makeSpeed, SHM.normalize],
    by norm_num [SHM.sample, SHM.makeSpeed, SHM.normalize], by norm_num [SHM.sample, SHM.makeSpeed, SHM.normalize],
    by norm_num [SHM.sample, SHM.makeSpeed, SHM.normalize]⟩

/-- The error function lies strictly below its tangent at 0. -/
theorem erf_lt_tangent {x : ℝ} (hx : 0 < x) : erf x < 2 / √π * x := by
  have hπ := sqrt_pi_pos
  unfold erf
  refine mul_lt_mul_of_pos_left ?_ (by positivity)
  have h1 : ∫ t in (0 : ℝ)..x, exp (-t ^ 2) < ∫ t in (0 : ℝ)..x, (1 : ℝ) := by
    refine intervalIntegral.integral_lt_integral_of_continuousOn_of_le_of_exists_lt hx (by fun_prop) (by fun_prop) (fun t _ => ?_)
      ⟨x, ⟨hx.le, le_rfl⟩, ?_⟩
    · exact exp_le_one_iff.2 (by nlinarith [sq_nonneg t])
    · rw [← exp_zero]; exact exp_lt_exp.2 (by nlinarith [sq_pos_of_pos hx])
  simpa using h1

/-- C17 fails for an observer who moves with less than `1e-8 v_0`: at minimal speed 0 the code, which uses the formula for an observer
at rest, returns more than the integral of `f(v)/v`. -/
theorem C17_fails_slow_observer (U : Units) (s : SHM) (h : SHM.Reachable U s) (hp : s.Physical) (ho : 0 < s.vObs)
    (ho' : s.vObs < 1e-8 * s.v0) (he : s.v0 ≤ s.vEsc) : ∫ x in 0..s.vMax, s.pdfSpeed x / x < s.eta 0 := by
  have hw := SHM.WF.of_reachable h hp
  have ha := hw.v0_pos
  have hN := hw.nEsc_pos
  have hπ := sqrt_pi_pos
  have hoe : s.vObs ≤ s.vEsc := by linarith
  have hr : s.vObs / s.v0 < 1e-8 := by rwa [div_lt_iff₀ ha]
  have h1 : 1 ≤ s.vEsc / s.v0 := by rwa [le_div_iff₀ ha, one_mul]
  have h2 : 0 < s.vObs / s.v0 := div_pos ho ha
  have hm : 0 ≤ s.vMax := by rw [hw.vMax]; linarith
  rw [(integral_eta_moving hw ho hoe le_rfl hm).2, if_neg (by linarith), eta_rest hw hr (by norm_num at hr ⊢; linarith)]
  have h3 := erf_lt_tangent h2
  have hneg : erf ((0 + -s.vObs) / s.v0) = -erf (s.vObs / s.v0) := by rw [← erf_neg]; congr 1; ring
  have hg : gauss s.v0 0 = 1 := by simp [gauss]
  have e : 2 / s.nEsc / √π / s.v0 * (gauss s.v0 0 - gauss s.v0 s.vEsc) - eta2 s.nEsc s.v0 s.vObs s.vEsc 0 =
      1 / s.nEsc / s.vObs * (2 / √π * (s.vObs / s.v0) - erf (s.vObs / s.v0)) := by
    unfold eta2
    rw [hneg, hg, zero_add]
    field_simp
    ring
  have : 0 < 1 / s.nEsc / s.vObs * (2 / √π * (s.vObs / s.v0) - erf (s.vObs / s.v0)) :=
    mul_pos (by positivity) (sub_pos.2 h3)
  linarith

example : ∃ s, SHM.Reachable Units.sample s ∧ s.Physical ∧ 0 < s.vObs ∧ s.vObs < 1e-8 * s.v0 ∧ s.v0 ≤ s.vEsc :=
  ⟨SHM.makeSpeed 1 2 1e-9 7, ⟨_, [], .speed 1 2 1e-9 7 (by norm_num), rfl⟩, by norm_num [SHM.Physical, SHM.makeSpeed, SHM.normalize],
    by norm_num [SHM.makeSpeed, SHM.normalize], by norm_num [SHM.makeSpeed, SHM.normalize], by norm_num [SHM.makeSpeed, SHM.normalize]⟩

theorem speedShare_nonneg (v0 vesc : ℝ) (vel : Vec) (v : ℝ) : 0 ≤ speedShare (truncatedMaxwell v0 vesc vel) v := by
  unfold speedShare
  refine intervalIntegral.integral_nonneg (by norm_num) fun c _ => intervalIntegral.integral_nonneg (by positivity) fun φ _ => ?_
  refine mul_nonneg (sq_nonneg _) ?_
  unfold truncatedMaxwell
  split_ifs
  · exact (exp_pos _).le
  · exact le_rfl

/-- C69 fails for an observer faster than the escape velocity: the distribution of the configured halo model is negative for small
speeds, so it is not the distribution of any speeds, with whatever normalisation. -/
theorem C69_fails_fast_observer (N : Numerics) (speeds : String → Option (List ℝ × List ℝ)) {c : Config} {s : HaloSettings}
    (hk : c "DM_distribution" = some (.string "SHM")) (hc : DescribesHalo c s) (h0 : 0 < s.v0) (he : 0 < s.vesc)
    (ho : s.vesc < √(s.vx ^ 2 + s.vy ^ 2 + s.vz ^ 2)) :
    ∃ D, c.distribution U N speeds = .ok D ∧
      (∀ v, 0 < v → v < (√(s.vx ^ 2 + s.vy ^ 2 + s.vz ^ 2) - s.vesc) * (U.km / U.sec) → D.pdfSpeed v < 0) ∧
      ¬ ∃ K > 0, ∀ v, 0 ≤ v → D.pdfSpeed v = K * speedShare (truncatedMaxwell (s.v0 * (U.km / U.sec)) (s.vesc * (U.km / U.sec))
        ![s.vx * (U.km / U.sec), s.vy * (U.km / U.sec), s.vz * (U.km / U.sec)]) v := by
  have hkm := kmsec_pos (U := U)
  set m := SHM.makeVel (s.params U).rho (s.params U).v0 (s.params U).vel (s.params U).vesc with hm
  have hr : SHM.Reachable U m := ⟨m, [], .vel _ _ _ _, rfl⟩
  have hp : m.Physical := ⟨mul_pos h0 hkm, mul_pos he hkm⟩
  have hvo : m.vObs = √(s.vx ^ 2 + s.vy ^ 2 + s.vz ^ 2) * (U.km / U.sec) := params_vnorm s
  have hve : m.vEsc = s.vesc * (U.km / U.sec) := rfl
  have hneg : ∀ v, 0 < v → v < (√(s.vx ^ 2 + s.vy ^ 2 + s.vz ^ 2) - s.vesc) * (U.km / U.sec) → m.pdfSpeed v < 0 :=
    fun v hv hv' => C15_fails U m hr hp v hv (by rw [hvo, hve, ← sub_mul]; exact hv')
  refine ⟨.ofSHM m, ?_, hneg, ?_⟩
  · unfold Config.distribution
    rw [Config.getString_eq hk, Outcome.bind_ok, if_pos (.inl rfl)]
    exact haloModel_eq N hc
  · rintro ⟨K, hK, hs⟩
    have hd : 0 < (√(s.vx ^ 2 + s.vy ^ 2 + s.vz ^ 2) - s.vesc) * (U.km / U.sec) := mul_pos (sub_pos.2 ho) hkm
    have h1 := hneg _ (half_pos hd) (half_lt_self hd)
    have h2 := hs _ (half_pos hd).le
    have h3 := mul_nonneg hK.le (speedShare_nonneg (s.v0 * (U.km / U.sec)) (s.vesc * (U.km / U.sec))
      ![s.vx * (U.km / U.sec), s.vy * (U.km / U.sec), s.vz * (U.km / U.sec)]
      ((√(s.vx ^ 2 + s.vy ^ 2 + s.vz ^ 2) - s.vesc) * (U.km / U.sec) / 2))
    rw [← h2] at h3
    exact absurd h1 (not_lt.2 h3)

/-- Such a file: the shipped configuration with an observer at 600 km/s. -/
example (N : Numerics) (speeds : String → Option (List ℝ × List ℝ)) :
    ∃ D, Config.distribution U N speeds (Function.update exampleConfig "SHM_vObserver" (some (.list [.float 0, .float 600, .float 0]))) = .ok D ∧
      D.pdfSpeed (U.km / U.sec) < 0 := by
  obtain ⟨D, h1, h2, -⟩ := C69_fails_fast_observer (U := U) N speeds
    (c := Function.update exampleConfig "SHM_vObserver" (some (.list [.float 0, .float 600, .float 0]))) (s := ⟨0.4, 220, 0, 600, 0, 544⟩)
    (by simp [exampleConfig]) (by constructor <;> simp [exampleConfig, Function.update_apply]) (by norm_num) (by norm_num)
    (by rw [Real.lt_sqrt (by norm_num)]; norm_num)
  refine ⟨D, h1, h2 _ (kmsec_pos) ?_⟩
  have : √((0 : ℝ) ^ 2 + 600 ^ 2 + 0 ^ 2) = 600 := by rw [show (0 : ℝ) ^ 2 + 600 ^ 2 + 0 ^ 2 = 600 ^ 2 by norm_num, Real.sqrt_sq (by norm_num)]
  rw [this]
  have := kmsec_pos (U := U)
  nlinarith

end Obscura
