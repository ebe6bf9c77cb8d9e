import Verif.Props.Astronomy
import Mathlib.Analysis.Real.Pi.Bounds
import Mathlib.Analysis.SpecialFunctions.Trigonometric.Bounds

/-!
# The motion of the Sun in ecliptic coordinates
-/

namespace Obscura

open Real

theorem deg_bounds : 0.01745328 ≤ deg ∧ deg ≤ 0.0174533 := by
  have h1 := Real.pi_gt_d6
  have h2 := Real.pi_lt_d6
  unfold deg
  constructor <;> linarith

/-- Bounds of sine and cosine by those of the angle, with half the angles expanded to third order. -/
theorem trig_between {x lo hi s1 s2 c1 c2 : ℝ} (h0 : 0 ≤ lo) (h1 : lo ≤ x) (h2 : x ≤ hi) (h3 : hi ≤ 1)
    (hs1 : s1 ≤ 2 * (lo / 2 - (lo / 2) ^ 3 / 6 - (lo / 2) ^ 5 / 100) * (1 - (lo / 2) ^ 2 / 2 - (lo / 2) ^ 4 * (5 / 96)))
    (hs2 : 2 * (hi / 2 - (hi / 2) ^ 3 / 6 + (hi / 2) ^ 5 / 100) * (1 - (hi / 2) ^ 2 / 2 + (hi / 2) ^ 4 * (5 / 96)) ≤ s2)
    (hc1 : c1 ≤ 2 * (1 - (hi / 2) ^ 2 / 2 - (hi / 2) ^ 4 * (5 / 96)) ^ 2 - 1)
    (hc2 : 2 * (1 - (lo / 2) ^ 2 / 2 + (lo / 2) ^ 4 * (5 / 96)) ^ 2 - 1 ≤ c2) :
    (s1 ≤ sin x ∧ sin x ≤ s2) ∧ c1 ≤ cos x ∧ cos x ≤ c2 := by
  have hpi := Real.pi_gt_three
  have key : ∀ y : ℝ, 0 ≤ y → y ≤ 1 →
      (0 ≤ y / 2 - (y / 2) ^ 3 / 6 - (y / 2) ^ 5 / 100 ∧ y / 2 - (y / 2) ^ 3 / 6 - (y / 2) ^ 5 / 100 ≤ sin (y / 2) ∧
        sin (y / 2) ≤ y / 2 - (y / 2) ^ 3 / 6 + (y / 2) ^ 5 / 100) ∧
      (0 ≤ 1 - (y / 2) ^ 2 / 2 - (y / 2) ^ 4 * (5 / 96) ∧ 1 - (y / 2) ^ 2 / 2 - (y / 2) ^ 4 * (5 / 96) ≤ cos (y / 2) ∧
        cos (y / 2) ≤ 1 - (y / 2) ^ 2 / 2 + (y / 2) ^ 4 * (5 / 96)) := by
    intro y hy hy1
    have ha : |y / 2| ≤ 1 := by rw [abs_of_nonneg (by linarith)]; linarith
    have a1 := abs_le.1 (Real.sin_bound ha)
    have a2 := abs_le.1 (Real.cos_bound ha)
    rw [abs_of_nonneg (by linarith : 0 ≤ y / 2)] at a1 a2
    have b0 : 0 ≤ y / 2 := by linarith
    have b1 : (y / 2) ^ 2 ≤ 1 / 4 := by nlinarith
    have b3 : (y / 2) ^ 3 ≤ y / 2 * (1 / 4) := by nlinarith [mul_le_mul_of_nonneg_left b1 b0]
    have b4 : (y / 2) ^ 4 ≤ y / 2 * (1 / 8) := by nlinarith [mul_le_mul_of_nonneg_left b3 b0]
    have b5 : (y / 2) ^ 5 ≤ y / 2 * (1 / 16) := by nlinarith [mul_le_mul_of_nonneg_left b4 b0]
    refine ⟨⟨?_, ?_, ?_⟩, ?_, ?_, ?_⟩ <;> linarith [a1.1, a1.2, a2.1, a2.2]
  obtain ⟨⟨p1, p2, p3⟩, q1, q2, q3⟩ := key lo h0 (by linarith)
  obtain ⟨⟨r1, r2, r3⟩, t1, t2, t3⟩ := key hi (by linarith) h3
  have e1 : sin lo = 2 * sin (lo / 2) * cos (lo / 2) := by rw [← Real.sin_two_mul]; congr 1; ring
  have e2 : sin hi = 2 * sin (hi / 2) * cos (hi / 2) := by rw [← Real.sin_two_mul]; congr 1; ring
  have e3 : cos hi = 2 * cos (hi / 2) ^ 2 - 1 := by rw [← Real.cos_two_mul]; congr 1; ring
  have e4 : cos lo = 2 * cos (lo / 2) ^ 2 - 1 := by rw [← Real.cos_two_mul]; congr 1; ring
  have m1 : sin lo ≤ sin x := Real.sin_le_sin_of_le_of_le_pi_div_two (by linarith) (by linarith) h1
  have m2 : sin x ≤ sin hi := Real.sin_le_sin_of_le_of_le_pi_div_two (by linarith) (by linarith) h2
  have m3 : cos hi ≤ cos x := Real.cos_le_cos_of_nonneg_of_le_pi (by linarith) (by linarith) h2
  have m4 : cos x ≤ cos lo := Real.cos_le_cos_of_nonneg_of_le_pi (by linarith) (by linarith) h1
  clear key
  generalize lo / 2 - (lo / 2) ^ 3 / 6 - (lo / 2) ^ 5 / 100 = u1 at *
  generalize lo / 2 - (lo / 2) ^ 3 / 6 + (lo / 2) ^ 5 / 100 = u2 at *
  generalize 1 - (lo / 2) ^ 2 / 2 - (lo / 2) ^ 4 * (5 / 96) = u3 at *
  generalize 1 - (lo / 2) ^ 2 / 2 + (lo / 2) ^ 4 * (5 / 96) = u4 at *
  generalize hi / 2 - (hi / 2) ^ 3 / 6 - (hi / 2) ^ 5 / 100 = v1 at *
  generalize hi / 2 - (hi / 2) ^ 3 / 6 + (hi / 2) ^ 5 / 100 = v2 at *
  generalize 1 - (hi / 2) ^ 2 / 2 - (hi / 2) ^ 4 * (5 / 96) = v3 at *
  generalize 1 - (hi / 2) ^ 2 / 2 + (hi / 2) ^ 4 * (5 / 96) = v4 at *
  refine ⟨⟨?_, ?_⟩, ?_, ?_⟩
  · have := mul_le_mul p2 q2 q1 (p1.trans p2)
    linarith
  · have := mul_le_mul r3 t3 (t1.trans t2) ((r1.trans r2).trans r3)
    linarith
  · have := pow_le_pow_left₀ t1 t2 2
    linarith
  · have := pow_le_pow_left₀ (q1.trans q2) q3 2
    linarith

theorem dot_mulVec_transpose (A : Mat) (v w : Vec) : dot v (A.mulVec w) = dot (A.transpose.mulVec v) w := by
  rw [dot_eq, dot_eq, Matrix.dotProduct_mulVec, Matrix.mulVec_transpose]

/-- Scalar products with heliocentric ecliptic directions. -/
theorem dot_helEcl (v w : Vec) (T : ℝ) :
    dot v (transformHelEclToGal w T) =
      -dot ((transformationMatrixP T).mulVec (transformationMatrixM.transpose.mulVec v)) ((transformationMatrixR T).mulVec w) := by
  have hinv : (transformationMatrixP T)⁻¹ = (transformationMatrixP T).transpose := Matrix.inv_eq_left_inv (isRotation_P T).1
  rw [helEcl_eq]
  have hn : ∀ x : Vec, dot v (-x) = -dot v x := fun x => by simp [dot]; ring
  rw [hn]
  congr 1
  unfold transformGeoEclToGal
  rw [hinv, ← Matrix.mulVec_mulVec, ← Matrix.mulVec_mulVec, dot_mulVec_transpose, dot_mulVec_transpose, Matrix.transpose_transpose]

/-- The velocity of the Sun (in km/s) in equatorial coordinates. -/
theorem sun_equatorial : ∃ w : Vec, transformationMatrixM.transpose.mulVec ![11.1, 232.2, 7.3] = w ∧
    106 ≤ w 0 ∧ w 0 ≤ 110 ∧ -117 ≤ w 1 ∧ w 1 ≤ -112 ∧ 169 ≤ w 2 ∧ w 2 ≤ 174 := by
  obtain ⟨d1, d2⟩ := deg_bounds
  have el : sin (122.932 * deg) = cos (32.932 * deg) ∧ cos (122.932 * deg) = -sin (32.932 * deg) := by
    have : (122.932 * deg : ℝ) = 32.932 * deg + π / 2 := by unfold deg; ring
    rw [this, Real.sin_add_pi_div_two, Real.cos_add_pi_div_two]
    exact ⟨rfl, rfl⟩
  have ea : sin (192.85948 * deg) = -sin (12.85948 * deg) ∧ cos (192.85948 * deg) = -cos (12.85948 * deg) := by
    have : (192.85948 * deg : ℝ) = 12.85948 * deg + π := by unfold deg; ring
    rw [this, Real.sin_add_pi, Real.cos_add_pi]
    exact ⟨rfl, rfl⟩
  obtain ⟨⟨l1, l2⟩, l3, l4⟩ := trig_between (x := 32.932 * deg) (lo := 0.5747) (hi := 0.5748) (s1 := 0.543) (s2 := 0.5443) (c1 := 0.8368)
    (c2 := 0.8397) (by norm_num) (by linarith) (by linarith) (by norm_num) (by norm_num) (by norm_num) (by norm_num) (by norm_num)
  obtain ⟨⟨a1, a2⟩, a3, a4⟩ := trig_between (x := 12.85948 * deg) (lo := 0.2244) (hi := 0.2245) (s1 := 0.2225) (s2 := 0.2227) (c1 := 0.9748)
    (c2 := 0.975) (by norm_num) (by linarith) (by linarith) (by norm_num) (by norm_num) (by norm_num) (by norm_num) (by norm_num)
  obtain ⟨⟨D1, D2⟩, D3, D4⟩ := trig_between (x := 27.12825 * deg) (lo := 0.4734) (hi := 0.4735) (s1 := 0.4557) (s2 := 0.4563) (c1 := 0.8888)
    (c2 := 0.8902) (by norm_num) (by linarith) (by linarith) (by norm_num) (by norm_num) (by norm_num) (by norm_num) (by norm_num)
  refine ⟨_, rfl, ?_⟩
  simp only [transformationMatrixM, galacticMatrix, el, ea, Matrix.mulVec, dotProduct, Fin.sum_univ_three, Matrix.transpose_apply]
  simp
  generalize sin (32.932 * deg) = cl at *
  generalize cos (32.932 * deg) = sl at *
  generalize sin (12.85948 * deg) = sa at *
  generalize cos (12.85948 * deg) = ca at *
  generalize sin (27.12825 * deg) = sD at *
  generalize cos (27.12825 * deg) = cD at *
  clear el ea d1 d2
  have f1 : 0.543 * 0.2225 ≤ cl * sa ∧ cl * sa ≤ 0.5443 * 0.2227 := ⟨by gcongr, by gcongr⟩
  have f2 : 0.8368 * 0.9748 ≤ sl * ca ∧ sl * ca ≤ 0.8397 * 0.975 := ⟨by gcongr, by gcongr⟩
  have f3 : 0.543 * 0.9748 ≤ cl * ca ∧ cl * ca ≤ 0.5443 * 0.975 := ⟨by gcongr, by gcongr⟩
  have f4 : 0.8368 * 0.2225 ≤ sl * sa ∧ sl * sa ≤ 0.8397 * 0.2227 := ⟨by gcongr, by gcongr⟩
  have f5 : 0.8368 * 0.9748 * 0.4557 ≤ sl * ca * sD ∧ sl * ca * sD ≤ 0.8397 * 0.975 * 0.4563 := ⟨by gcongr, by gcongr⟩
  have f6 : 0.543 * 0.9748 * 0.4557 ≤ cl * ca * sD ∧ cl * ca * sD ≤ 0.5443 * 0.975 * 0.4563 := ⟨by gcongr, by gcongr⟩
  have f7 : 0.543 * 0.2225 * 0.4557 ≤ cl * sa * sD ∧ cl * sa * sD ≤ 0.5443 * 0.2227 * 0.4563 := ⟨by gcongr, by gcongr⟩
  have f8 : 0.8368 * 0.2225 * 0.4557 ≤ sl * sa * sD ∧ sl * sa * sD ≤ 0.8397 * 0.2227 * 0.4563 := ⟨by gcongr, by gcongr⟩
  have f9 : 0.9748 * 0.8888 ≤ ca * cD ∧ ca * cD ≤ 0.975 * 0.8902 := ⟨by gcongr, by gcongr⟩
  have f10 : 0.2225 * 0.8888 ≤ sa * cD ∧ sa * cD ≤ 0.2227 * 0.8902 := ⟨by gcongr, by gcongr⟩
  have f11 : 0.543 * 0.8888 ≤ cl * cD ∧ cl * cD ≤ 0.5443 * 0.8902 := ⟨by gcongr, by gcongr⟩
  have f12 : 0.8368 * 0.8888 ≤ sl * cD ∧ sl * cD ≤ 0.8397 * 0.8902 := ⟨by gcongr, by gcongr⟩
  refine ⟨?_, ?_, ?_, ?_, ?_, ?_⟩ <;> linarith [f1.1, f1.2, f2.1, f2.2, f3.1, f3.2, f4.1, f4.2, f5.1, f5.2, f6.1, f6.2, f7.1, f7.2, f8.1,
    f8.2, f9.1, f9.2, f10.1, f10.2, f11.1, f11.2, f12.1, f12.2]

theorem abs_mul_le {x y a b : ℝ} (hx : |x| ≤ a) (hy : |y| ≤ b) : |x * y| ≤ a * b := by
  rw [abs_mul]
  exact mul_le_mul hx hy (abs_nonneg y) ((abs_nonneg x).trans hx)

/-- Small angles. -/
theorem small_angle {x a : ℝ} (hx : |x| ≤ a) (ha : a ≤ 0.0112) : |sin x| ≤ a ∧ 0.9999 ≤ cos x ∧ cos x ≤ 1 := by
  refine ⟨Real.abs_sin_le_abs.trans hx, ?_, Real.cos_le_one x⟩
  have h1 := Real.one_sub_sq_div_two_le_cos (x := x)
  have h2 := (sq_le_sq₀ (abs_nonneg x) (by norm_num)).2 (hx.trans ha)
  rw [sq_abs] at h2
  norm_num at h2
  linarith

/-- The velocity of the Sun (in km/s) along the axes of heliocentric ecliptic coordinates, within a century of the epoch. -/
theorem sun_ecliptic {T : ℝ} (hT : |T| ≤ 1) :
    (-115 ≤ dot ![11.1, 232.2, 7.3] (transformHelEclToGal ![1, 0, 0] T) ∧ dot ![11.1, 232.2, 7.3] (transformHelEclToGal ![1, 0, 0] T) ≤ -101) ∧
    (0 ≤ dot ![11.1, 232.2, 7.3] (transformHelEclToGal ![0, 1, 0] T) ∧ dot ![11.1, 232.2, 7.3] (transformHelEclToGal ![0, 1, 0] T) ≤ 50) := by
  obtain ⟨d1, d2⟩ := deg_bounds
  obtain ⟨w, hw, w1, w2, w3, w4, w5, w6⟩ := sun_equatorial
  have hTT : |T * T| ≤ 1 := by simpa using abs_mul_le hT hT
  obtain ⟨t1, t2⟩ := abs_le.1 hT
  obtain ⟨t3, t4⟩ := abs_le.1 hTT
  have has : arcsec = deg / 3600 := rfl
  have hab : ∀ A B : ℝ, A * arcsec * T + B * arcsec * T * T = arcsec * (A * T + B * (T * T)) := fun A B => by ring
  have hab' : ∀ A B : ℝ, A * arcsec * T - B * arcsec * T * T = arcsec * (A * T - B * (T * T)) := fun A B => by ring
  have hang : ∀ X C : ℝ, |X| ≤ C → C ≤ 2308 → |arcsec * X| ≤ 0.0174533 / 3600 * C := by
    intro X C hX _
    refine abs_mul_le ?_ hX
    rw [has, abs_of_nonneg (by linarith)]
    linarith
  obtain ⟨z1, z2, z3⟩ := small_angle (a := 0.0112) ((hang (2306.083227 * T + 0.298850 * (T * T)) 2307
    (abs_le.2 ⟨by linarith, by linarith⟩) (by norm_num)).trans (by norm_num)) (by norm_num)
  obtain ⟨y1, y2, y3⟩ := small_angle (a := 0.0112) ((hang (2306.077181 * T + 1.092735 * (T * T)) 2308
    (abs_le.2 ⟨by linarith, by linarith⟩) (by norm_num)).trans (by norm_num)) (by norm_num)
  obtain ⟨x1, x2, x3⟩ := small_angle (a := 0.0098) ((hang (2004.191903 * T - 0.429493 * (T * T)) 2005
    (abs_le.2 ⟨by linarith, by linarith⟩) (by norm_num)).trans (by norm_num)) (by norm_num)
  obtain ⟨⟨e1, e2⟩, e3, e4⟩ := trig_between (x := 23.4393 * deg - 0.0130 * deg * T) (lo := 0.4088) (hi := 0.4094) (s1 := 0.397) (s2 := 0.399)
    (c1 := 0.916) (c2 := 0.918) (by norm_num) (by nlinarith) (by nlinarith) (by norm_num) (by norm_num) (by norm_num) (by norm_num) (by norm_num)
  rw [dot_helEcl, dot_helEcl, hw]
  simp only [transformationMatrixP, transformationMatrixR, rotationX, precessionMatrix, hab, hab', Matrix.mulVec, dotProduct, Fin.sum_univ_three, dot]
  simp
  generalize sin (arcsec * (2306.083227 * T + 0.298850 * (T * T))) = sz at *
  generalize cos (arcsec * (2306.083227 * T + 0.298850 * (T * T))) = cz at *
  generalize sin (arcsec * (2306.077181 * T + 1.092735 * (T * T))) = sy at *
  generalize cos (arcsec * (2306.077181 * T + 1.092735 * (T * T))) = cy at *
  generalize sin (arcsec * (2004.191903 * T - 0.429493 * (T * T))) = sx at *
  generalize cos (arcsec * (2004.191903 * T - 0.429493 * (T * T))) = cx at *
  generalize sin (23.4393 * deg - 0.0130 * deg * T) = se at *
  generalize cos (23.4393 * deg - 0.0130 * deg * T) = ce at *
  generalize w 0 = p at *
  generalize w 1 = q at *
  generalize w 2 = r at *
  clear hw hab hab' hang has hT hTT t1 t2 t3 t4 d1 d2
  have az : |cz| ≤ 1 := abs_le.2 ⟨by linarith, z3⟩
  have ay : |cy| ≤ 1 := abs_le.2 ⟨by linarith, y3⟩
  have ax : |cx| ≤ 1 := abs_le.2 ⟨by linarith, x3⟩
  have ap : |p| ≤ 110 := abs_le.2 ⟨by linarith, w2⟩
  have aq : |q| ≤ 117 := abs_le.2 ⟨w3, by linarith⟩
  have ar : |r| ≤ 174 := abs_le.2 ⟨by linarith, w6⟩
  have g1 : 0.9999 * 0.9999 * 0.9999 ≤ cz * cx * cy ∧ cz * cx * cy ≤ 1 * 1 * 1 := ⟨by gcongr, by gcongr⟩
  have g2 : 0.9999 * 0.9999 ≤ cz * cy ∧ cz * cy ≤ 1 * 1 := ⟨by gcongr, by gcongr⟩
  have g3 : 0.9999 * 169 ≤ cx * r ∧ cx * r ≤ 1 * 174 := ⟨by gcongr, by gcongr⟩
  have b1 := abs_le.1 (abs_mul_le (abs_mul_le x1 ay) ar)
  have b2 := abs_le.1 (abs_mul_le (abs_mul_le (abs_mul_le z1 ax) ay) aq)
  have b3 := abs_le.1 (abs_mul_le (abs_mul_le az y1) aq)
  have b4 := abs_le.1 (abs_mul_le (abs_mul_le z1 y1) ap)
  have b5 := abs_le.1 (abs_mul_le (abs_mul_le (abs_mul_le az ax) y1) ap)
  have b6 := abs_le.1 (abs_mul_le (abs_mul_le z1 ay) ap)
  have b7 := abs_le.1 (abs_mul_le (abs_mul_le (abs_mul_le z1 ax) y1) aq)
  have b8 := abs_le.1 (abs_mul_le (abs_mul_le x1 y1) ar)
  have b9 := abs_le.1 (abs_mul_le (abs_mul_le az x1) ap)
  have b10 := abs_le.1 (abs_mul_le (abs_mul_le z1 x1) aq)
  have c1 : 0.9999 * 0.9999 * 0.9999 * 106 ≤ cz * cx * cy * p ∧ cz * cx * cy * p ≤ 1 * 1 * 1 * 110 := by
    obtain ⟨g, g'⟩ := g1
    generalize cz * cx * cy = k at *
    exact ⟨by gcongr, by gcongr⟩
  have c2 : -(1 * 1 * 117) ≤ cz * cy * q ∧ cz * cy * q ≤ -(0.9999 * 0.9999 * 112) := by
    obtain ⟨g, g'⟩ := g2
    generalize cz * cy = k at *
    have h1 : 0.9999 * 0.9999 * 112 ≤ k * -q := by gcongr; linarith
    have h2 : k * -q ≤ 1 * 1 * 117 := by
      have : -q ≤ 117 := by linarith
      have : 0 ≤ -q := by linarith
      gcongr
    constructor <;> linarith
  refine ⟨⟨?_, ?_⟩, ?_⟩
  · linarith [b1.1, b2.1, b2.2, b3.1, b3.2, b4.1, b4.2, c1.2]
  · linarith [b1.2, b2.1, b2.2, b3.1, b3.2, b4.1, b4.2, c1.1]
  · obtain ⟨Y, hY⟩ : ∃ Y, (cz * cx * sy + sz * cy) * p + (-(sz * cx * sy) + cz * cy) * q + -(sx * sy * r) = Y := ⟨_, rfl⟩
    obtain ⟨Z, hZ⟩ : ∃ Z, cz * sx * p + -(sz * sx * q) + cx * r = Z := ⟨_, rfl⟩
    rw [hY, hZ]
    have hY1 : -120 ≤ Y ∧ Y ≤ -109 := by
      constructor <;> linarith [b5.1, b5.2, b6.1, b6.2, b7.1, b7.2, b8.1, b8.2, c2.1, c2.2]
    have hZ1 : 167 ≤ Z ∧ Z ≤ 176 := by
      constructor <;> linarith [b9.1, b9.2, b10.1, b10.2, g3.1, g3.2]
    obtain ⟨i1, i2⟩ := hY1
    obtain ⟨i3, i4⟩ := hZ1
    have j1 : 109 ≤ -Y := by linarith
    have j2 : -Y ≤ 120 := by linarith
    have i5 : 109 * 0.916 ≤ -Y * ce := mul_le_mul j1 e3 (by norm_num) (by linarith)
    have i6 : -Y * ce ≤ 120 * 0.918 := mul_le_mul j2 e4 (by linarith) (by norm_num)
    have i7 : 167 * 0.397 ≤ Z * se := by gcongr
    have i8 : Z * se ≤ 176 * 0.399 := by gcongr
    constructor <;> linarith

/-- The velocity of the Earth with angles that are not reduced. -/
theorem earthVelocity_orbit (U : Units) (n : ℝ) :
    earthVelocity U n = sunVelocity U +
      ((-(29.79 * U.km / U.sec) * (sin ((280.46 + 0.9856474 * n) * deg) +
          0.01671 * sin (2 * ((280.46 + 0.9856474 * n) * deg) - (282.932 + 0.0000471 * n) * deg))) • transformHelEclToGal ![1, 0, 0] (n / 36525) +
        (29.79 * U.km / U.sec * (cos ((280.46 + 0.9856474 * n) * deg) +
          0.01671 * cos (2 * ((280.46 + 0.9856474 * n) * deg) - (282.932 + 0.0000471 * n) * deg))) • transformHelEclToGal ![0, 1, 0] (n / 36525)) := by
  set L := (280.46 + 0.9856474 * n) * deg with hL
  set w := (282.932 + 0.0000471 * n) * deg with hw
  obtain ⟨k1, hk1⟩ := cfmod_congr (280.46 * deg + n * 0.9856474 * deg) (2 * Real.pi)
  obtain ⟨k2, hk2⟩ := cfmod_congr (282.932 * deg + n * 0.0000471 * deg) (2 * Real.pi)
  have eL : cfmod (280.46 * deg + n * 0.9856474 * deg) (2 * Real.pi) = L - k1 * (2 * Real.pi) := by
    rw [hk1, hL]; ring
  have ew : cfmod (282.932 * deg + n * 0.0000471 * deg) (2 * Real.pi) = w - k2 * (2 * Real.pi) := by
    rw [hk2, hw]; ring
  have e2 : 2 * (L - k1 * (2 * Real.pi)) - (w - k2 * (2 * Real.pi)) = 2 * L - w - ((2 * k1 - k2 : ℤ) : ℝ) * (2 * Real.pi) := by
    push_cast; ring
  simp only [earthVelocity]
  rw [eL, ew, e2, Real.sin_sub_int_mul_two_pi, Real.cos_sub_int_mul_two_pi, Real.sin_sub_int_mul_two_pi, Real.cos_sub_int_mul_two_pi]

/-- The speed of the Earth from its orbital speed and the motion of the Sun along the ecliptic axes. -/
theorem earth_speed_sq (U : Units) {n : ℝ} (hn : |n| ≤ 36525) :
    ∃ a b o e1 e2 : ℝ, (-115 ≤ a ∧ a ≤ -101) ∧ (0 ≤ b ∧ b ≤ 50) ∧ (857 ≤ o ∧ o ≤ 919) ∧ |e1| ≤ 1 ∧ |e2| ≤ 1 ∧
      dot (earthVelocity U n) (earthVelocity U n) = (U.km / U.sec) ^ 2 * (54093.34 + o + 2 * 29.79 *
        (-(sin ((280.46 + 0.9856474 * n) * deg) + 0.01671 * e1) * a + (cos ((280.46 + 0.9856474 * n) * deg) + 0.01671 * e2) * b)) := by
  have hk : 0 < U.km / U.sec := div_pos U.km_pos U.sec_pos
  have hT : |n / 36525| ≤ 1 := by rw [abs_div, div_le_one (by norm_num)]; rwa [abs_of_nonneg (by norm_num : (0 : ℝ) ≤ 36525)]
  obtain ⟨ha, hb⟩ := sun_ecliptic hT
  obtain ⟨o1, o2⟩ := C26_orbital_speed U n
  have hv : earthVelocity U n = sunVelocity U + (earthVelocity U n - sunVelocity U) := by abel
  have ho := earthVelocity_orbit U n
  have hu := sub_eq_of_eq_add' ho
  have hs : sunVelocity U = (U.km / U.sec) • ![11.1, 232.2, 7.3] := by
    rw [C26_sun]
    ext i
    fin_cases i <;> simp <;> ring
  have hnn : 0 ≤ dot (earthVelocity U n - sunVelocity U) (earthVelocity U n - sunVelocity U) := by
    simp only [dot]; nlinarith [mul_self_nonneg ((earthVelocity U n - sunVelocity U) 0), mul_self_nonneg ((earthVelocity U n - sunVelocity U) 1),
      mul_self_nonneg ((earthVelocity U n - sunVelocity U) 2)]
  have hsq : vnorm (earthVelocity U n - sunVelocity U) ^ 2 = dot (earthVelocity U n - sunVelocity U) (earthVelocity U n - sunVelocity U) :=
    Real.sq_sqrt hnn
  have hexp : dot (earthVelocity U n) (earthVelocity U n) = dot (sunVelocity U) (sunVelocity U) +
      dot (earthVelocity U n - sunVelocity U) (earthVelocity U n - sunVelocity U) + 2 * dot (sunVelocity U) (earthVelocity U n - sunVelocity U) := by
    simp [dot]; ring
  refine ⟨_, _, vnorm (earthVelocity U n - sunVelocity U) ^ 2 / (U.km / U.sec) ^ 2, _, _, ha, hb, ⟨?_, ?_⟩,
    Real.abs_sin_le_one (2 * ((280.46 + 0.9856474 * n) * deg) - (282.932 + 0.0000471 * n) * deg),
    Real.abs_cos_le_one (2 * ((280.46 + 0.9856474 * n) * deg) - (282.932 + 0.0000471 * n) * deg), ?_⟩
  · rw [le_div_iff₀ (by positivity)]
    have h1 : 29.29 * (U.km / U.sec) ≤ vnorm (earthVelocity U n - sunVelocity U) := by
      refine le_trans ?_ o1
      rw [mul_div_assoc, mul_right_comm]
      exact mul_le_mul_of_nonneg_right (by norm_num) hk.le
    have := pow_le_pow_left₀ (by positivity) h1 2
    nlinarith
  · rw [div_le_iff₀ (by positivity)]
    have h1 : vnorm (earthVelocity U n - sunVelocity U) ≤ 30.3 * (U.km / U.sec) := by
      refine o2.trans ?_
      rw [mul_div_assoc, mul_right_comm]
      exact mul_le_mul_of_nonneg_right (by norm_num) hk.le
    have := pow_le_pow_left₀ (Real.sqrt_nonneg _) h1 2
    nlinarith
  · rw [mul_add, mul_add, mul_div_cancel₀ _ (by positivity), hexp, hsq]
    have hlin : ∀ (x y : ℝ) (v w : Vec), dot (sunVelocity U) (x • v + y • w) = (U.km / U.sec) *
        (x * dot ![11.1, 232.2, 7.3] v + y * dot ![11.1, 232.2, 7.3] w) := by
      intro x y v w
      rw [hs]
      simp [dot]; ring
    have hss : dot (sunVelocity U) (sunVelocity U) = (U.km / U.sec) ^ 2 * 54093.34 := by
      rw [hs]
      simp [dot]; ring
    have hd := (congrArg (dot (sunVelocity U)) hu).trans (hlin _ _ _ _)
    rw [hd, hss]
    ring

end Obscura
