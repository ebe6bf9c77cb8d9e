import Verif.Model.Export
import Verif.Props.Distribution
import Verif.Lemmas.Detector

/-!
# Property C73: exported tables
-/

namespace Obscura

open Real

/-- The `i`-th of `n` equidistant speeds of a domain. -/
noncomputable def evenly (lo hi : ℝ) (n i : ℕ) : ℝ := lo + i * ((hi - lo) / (n - 1))

/-- The `i`-th of `n` speeds of a domain whose successive ratios are equal. -/
noncomputable def geometrically (lo hi : ℝ) (n i : ℕ) : ℝ := lo * (hi / lo) ^ ((i : ℝ) / (n - 1))

theorem evenly_ends {lo hi : ℝ} {n : ℕ} (hn : 2 ≤ n) : evenly lo hi n 0 = lo ∧ evenly lo hi n (n - 1) = hi := by
  have h2 : (2 : ℝ) ≤ n := by exact_mod_cast hn
  have h1 : (n : ℝ) - 1 ≠ 0 := by linarith
  refine ⟨by simp [evenly], ?_⟩
  unfold evenly
  rw [Nat.cast_sub (by omega), Nat.cast_one, mul_div_cancel₀ _ h1]; ring

theorem linearSpace_evenly (a b : ℝ) (n : ℕ) : linearSpace a b n = (List.range n).map (evenly a b n) := by
  simp [linearSpace, evenly]

variable {U : Units}

/-- C73: `Export_PDF_Speed` with `n ≥ 2` points on the linear scale writes `n` rows, with the equidistant speeds from the lower to the
upper end of the domain in km/sec and the values of `PDF_Speed` there in sec/km. -/
theorem C73_pdf_rows (d : Distribution) (n : ℕ) (_hn : 2 ≤ n) :
    d.exportPdfSpeed U n false = .ok ((List.range n).map fun i =>
      (evenly d.vMin d.vMax n i / (U.km / U.sec), d.pdfSpeed (evenly d.vMin d.vMax n i) * (U.km / U.sec))) := by
  unfold Distribution.exportPdfSpeed Distribution.exportGrid exportFunction
  simp only [Bool.false_eq_true, if_false, Outcome.bind_ok]
  rw [collect_ok (g := fun x => (x / (U.km / U.sec), d.pdfSpeed x / (U.sec / U.km))) (fun _ _ => rfl), linearSpace_evenly, List.map_map]
  congr 1
  refine List.map_congr_left fun i _ => ?_
  simp only [Function.comp]
  rw [div_div_eq_mul_div (d.pdfSpeed _), mul_div_assoc (d.pdfSpeed _)]

/-- C73: the same for `Export_Eta_Function`, provided that `Eta_Function` accepts the speeds of the domain. -/
theorem C73_eta_rows (d : Distribution) (n : ℕ) (_hn : 2 ≤ n) (eta : ℝ → ℝ) (he : ∀ i < n, d.eta (evenly d.vMin d.vMax n i) = .ok (eta (evenly d.vMin d.vMax n i))) :
    d.exportEta U n false = .ok ((List.range n).map fun i =>
      (evenly d.vMin d.vMax n i / (U.km / U.sec), eta (evenly d.vMin d.vMax n i) * (U.km / U.sec))) := by
  unfold Distribution.exportEta Distribution.exportGrid exportFunction
  simp only [Bool.false_eq_true, if_false, Outcome.bind_ok]
  rw [collect_ok (g := fun x => (x / (U.km / U.sec), eta x / (U.sec / U.km))), linearSpace_evenly, List.map_map]
  · congr 1
    refine List.map_congr_left fun i _ => ?_
    simp only [Function.comp]
    rw [div_div_eq_mul_div (eta _), mul_div_assoc (eta _)]
  · intro x hx
    rw [linearSpace_evenly] at hx
    obtain ⟨i, hi, rfl⟩ := List.mem_map.1 hx
    rw [he i (List.mem_range.1 hi)]; rfl

/-- C73: on the logarithmic scale, for a domain of positive speeds: the same at speeds with equal ratios. -/
theorem C73_log_rows_partial (d : Distribution) (n : ℕ) (_hn : 2 ≤ n) (h0 : 0 < d.vMin) (h1 : d.vMin ≤ d.vMax) :
    d.exportPdfSpeed U n true = .ok ((List.range n).map fun i =>
      (geometrically d.vMin d.vMax n i / (U.km / U.sec), d.pdfSpeed (geometrically d.vMin d.vMax n i) * (U.km / U.sec))) := by
  unfold Distribution.exportPdfSpeed Distribution.exportGrid exportFunction
  simp only [if_true]
  rw [if_pos ⟨h0, by linarith⟩]
  simp only [Outcome.bind_ok]
  rw [collect_ok (g := fun x => (x / (U.km / U.sec), d.pdfSpeed x / (U.sec / U.km))) (fun _ _ => rfl)]
  unfold logSpace
  rw [List.map_map]
  congr 1
  refine List.map_congr_left fun i _ => ?_
  simp only [Function.comp]
  rw [div_div_eq_mul_div (d.pdfSpeed _), mul_div_assoc (d.pdfSpeed _)]
  rfl

/-- C73: the same for `Export_Eta_Function`. -/
theorem C73_log_eta_rows_partial (d : Distribution) (n : ℕ) (_hn : 2 ≤ n) (h0 : 0 < d.vMin) (h1 : d.vMin ≤ d.vMax) (eta : ℝ → ℝ)
    (he : ∀ i < n, d.eta (geometrically d.vMin d.vMax n i) = .ok (eta (geometrically d.vMin d.vMax n i))) :
    d.exportEta U n true = .ok ((List.range n).map fun i =>
      (geometrically d.vMin d.vMax n i / (U.km / U.sec), eta (geometrically d.vMin d.vMax n i) * (U.km / U.sec))) := by
  unfold Distribution.exportEta Distribution.exportGrid exportFunction
  simp only [if_true]
  rw [if_pos ⟨h0, by linarith⟩]
  simp only [Outcome.bind_ok]
  unfold logSpace
  rw [collect_ok (g := fun x => (x / (U.km / U.sec), eta x / (U.sec / U.km))), List.map_map]
  · congr 1
    refine List.map_congr_left fun i _ => ?_
    simp only [Function.comp]
    rw [div_div_eq_mul_div (eta _), mul_div_assoc (eta _)]
    rfl
  · intro x hx
    obtain ⟨i, hi, rfl⟩ := List.mem_map.1 hx
    have := he i (List.mem_range.1 hi)
    unfold geometrically at this
    rw [this]; rfl

/-- C73: the first and the last speed on the logarithmic scale are the ends of the domain, and the ratio of successive speeds is the
same everywhere. -/
theorem C73_log_grid (lo hi : ℝ) (n : ℕ) (hn : 2 ≤ n) (h0 : 0 < lo) (h1 : lo ≤ hi) :
    geometrically lo hi n 0 = lo ∧ geometrically lo hi n (n - 1) = hi ∧
    ∀ i j, geometrically lo hi n (i + 1) * geometrically lo hi n j = geometrically lo hi n (j + 1) * geometrically lo hi n i := by
  have h2 : (2 : ℝ) ≤ n := by exact_mod_cast hn
  have h3 : (n : ℝ) - 1 ≠ 0 := by linarith
  have hq : 0 < hi / lo := div_pos (by linarith) h0
  refine ⟨by simp [geometrically], ?_, fun i j => ?_⟩
  · unfold geometrically
    rw [Nat.cast_sub (by omega), Nat.cast_one, div_self h3, rpow_one, mul_div_cancel₀ _ h0.ne']
  · unfold geometrically
    have key : ∀ a b : ℕ, lo * (hi / lo) ^ ((a : ℝ) / (n - 1)) * (lo * (hi / lo) ^ ((b : ℝ) / (n - 1))) =
        lo * lo * (hi / lo) ^ (((a + b : ℕ) : ℝ) / (n - 1)) := by
      intro a b
      rw [Nat.cast_add, add_div, rpow_add hq]; ring
    rw [key, key]
    congr 3
    norm_cast
    ring

/-- C73 fails on the logarithmic scale for a domain that starts at speed 0, as that of every standard halo model does: no table of
numbers is written, neither of the PDF nor of eta. -/
theorem C73_fails_log_scale (s : SHM) (h : SHM.Reachable U s) (n : ℕ) :
    (Distribution.ofSHM s).exportPdfSpeed U n true = .nonfinite ∧ (Distribution.ofSHM s).exportEta U n true = .nonfinite := by
  have h0 : (Distribution.ofSHM s).vMin = 0 := by
    rw [reachable_eq h]
    rfl
  unfold Distribution.exportPdfSpeed Distribution.exportEta Distribution.exportGrid
  simp only [if_true]
  rw [if_neg (by rw [h0]; exact fun hc => lt_irrefl _ hc.1)]
  exact ⟨rfl, rfl⟩

/-- C73, import: a distribution read from a file with the rows `(vᵢ, fᵢ)`, at increasing speeds, has the given density, its domain
reaches from the first to the last speed in km/sec, its PDF at these speeds has the values in the file in sec/km, and it is evaluated
with its eta function. -/
theorem C73_import (I : Integrator) (P : Interpolator) (hP : P.Nodes) (rho : ℝ) (rows : List (ℝ × ℝ)) (hne : rows ≠ [])
    (hs : rows.Pairwise fun r r' => r.1 < r'.1) :
    ∃ d, Distribution.importFile U I P rho rows = .ok d ∧ d.density = rho ∧ d.useEta = true ∧
      d.vMin = (rows.head hne).1 * (U.km / U.sec) ∧ d.vMax = (rows.getLast hne).1 * (U.km / U.sec) ∧
      ∀ r ∈ rows, d.pdfSpeed (r.1 * (U.km / U.sec)) = r.2 / (U.km / U.sec) := by
  have hk : 0 < U.km / U.sec := div_pos U.km_pos U.sec_pos
  have hok : ∃ d, Distribution.importFile U I P rho rows = .ok d ∧
      d.vMin = (rows.head hne).1 * (U.km / U.sec) ∧ d.vMax = (rows.getLast hne).1 * (U.km / U.sec) := by
    unfold Distribution.importFile Distribution.imported importTable
    simp only [List.head?_map, List.getLast?_map]
    rw [List.head?_eq_some_head hne, List.getLast?_eq_some_getLast hne]
    exact ⟨_, rfl, rfl, rfl⟩
  obtain ⟨d, hd, e1, e2⟩ := hok
  have hsort : (importTable rows (U.km / U.sec) (U.sec / U.km)).1.Pairwise (· < ·) := by
    unfold importTable
    rw [List.pairwise_map]
    exact hs.imp fun h => mul_lt_mul_of_pos_right h hk
  obtain ⟨g1, _, _, g4, g5, _⟩ := C22_imported_pdf I P hP true rho _ _ (by simp [importTable]) hsort d hd
  refine ⟨d, hd, g4, g5, e1, e2, fun r hr => ?_⟩
  obtain ⟨i, hi, rfl⟩ := List.mem_iff_getElem.1 hr
  have := g1 i (by simpa [importTable] using hi) (by simpa [importTable] using hi)
  simp only [importTable, List.getElem_map] at this
  rw [this, ← inv_div, ← div_eq_mul_inv]

/-- An empty file is undefined behaviour. -/
theorem C73_import_empty (I : Integrator) (P : Interpolator) (rho : ℝ) : Distribution.importFile U I P rho [] = .ub := rfl

/-- C73, round trip: a distribution imported from a file that `Export_PDF_Speed` has written with `n ≥ 2` points has the domain of the
exported one and the same `PDF_Speed` at the `n` speeds (whatever interpolation is used, as long as it passes through the points). -/
theorem C73_round_trip (I : Integrator) (P : Interpolator) (hP : P.Nodes) (rho : ℝ) (d : Distribution) (hd : d.vMin < d.vMax) (n : ℕ)
    (hn : 2 ≤ n) (rows : List (ℝ × ℝ)) (hrows : d.exportPdfSpeed U n false = .ok rows) :
    ∃ d', Distribution.importFile U I P rho rows = .ok d' ∧ d'.density = rho ∧ d'.useEta = true ∧ d'.vMin = d.vMin ∧ d'.vMax = d.vMax ∧
      ∀ i < n, d'.pdfSpeed (evenly d.vMin d.vMax n i) = d.pdfSpeed (evenly d.vMin d.vMax n i) := by
  rw [C73_pdf_rows d n hn, Outcome.ok.injEq] at hrows
  subst hrows
  have hk : U.km / U.sec ≠ 0 := (div_pos U.km_pos U.sec_pos).ne'
  set xs := linearSpace d.vMin d.vMax n with hxs
  have hx : (importTable ((List.range n).map fun i =>
      (evenly d.vMin d.vMax n i / (U.km / U.sec), d.pdfSpeed (evenly d.vMin d.vMax n i) * (U.km / U.sec))) (U.km / U.sec) (U.sec / U.km)).1 = xs := by
    rw [hxs, linearSpace_evenly]
    simp only [importTable, List.map_map]
    refine List.map_congr_left fun i _ => ?_
    simp only [Function.comp]
    rw [div_mul_cancel₀ _ hk]
  have hy : (importTable ((List.range n).map fun i =>
      (evenly d.vMin d.vMax n i / (U.km / U.sec), d.pdfSpeed (evenly d.vMin d.vMax n i) * (U.km / U.sec))) (U.km / U.sec) (U.sec / U.km)).2 =
      xs.map d.pdfSpeed := by
    rw [hxs, linearSpace_evenly]
    simp only [importTable, List.map_map]
    refine List.map_congr_left fun i _ => ?_
    simp only [Function.comp]
    have h1 := U.km_pos.ne'
    have h2 := U.sec_pos.ne'
    field_simp
  unfold Distribution.importFile
  rw [hx, hy]
  have hlen : xs.length = n := linearSpace_length _ _ _
  have hget : ∀ i (hi : i < xs.length), xs[i] = evenly d.vMin d.vMax n i := by
    intro i hi
    simp only [hxs, linearSpace_evenly, List.getElem_map, List.getElem_range]
  have hends := evenly_ends (lo := d.vMin) (hi := d.vMax) hn
  have hhead : xs.head? = some d.vMin := by
    rw [List.head?_eq_getElem?, List.getElem?_eq_getElem (by omega), hget, hends.1]
  have hlast : xs.getLast? = some d.vMax := by
    rw [List.getLast?_eq_getElem?, List.getElem?_eq_getElem (by omega), hget, hlen, hends.2]
  have hok : ∃ d', Distribution.imported I P true rho xs (xs.map d.pdfSpeed) = .ok d' ∧ d'.vMin = d.vMin ∧ d'.vMax = d.vMax := by
    unfold Distribution.imported
    rw [hhead, hlast]
    exact ⟨_, rfl, rfl, rfl⟩
  obtain ⟨d', hd', e1, e2⟩ := hok
  obtain ⟨g1, _, _, g4, g5, _⟩ := C22_imported_pdf I P hP true rho xs (xs.map d.pdfSpeed) (by simp) (linearSpace_sorted hd hn) d' hd'
  refine ⟨d', hd', g4, g5, e1, e2, fun i hi => ?_⟩
  have := g1 i (by omega) (by simp; omega)
  rw [List.getElem_map, hget] at this
  exact this

/-- The hypotheses hold for a halo model. -/
example : (Distribution.ofSHM (SHM.makeSpeed 1 2 3 7)).vMin < (Distribution.ofSHM (SHM.makeSpeed 1 2 3 7)).vMax ∧
    (∃ rows, (Distribution.ofSHM (SHM.makeSpeed 1 2 3 7)).exportPdfSpeed U 3 false = .ok rows) ∧ SHM.Reachable U (SHM.makeSpeed 1 2 3 7) := by
  refine ⟨?_, ⟨_, C73_pdf_rows _ 3 (by norm_num)⟩, ⟨_, [], .speed 1 2 3 7 (by norm_num), rfl⟩⟩
  show (0 : ℝ) < 7 + 3
  norm_num

end Obscura
