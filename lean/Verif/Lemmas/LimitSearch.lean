import Verif.Lemmas.Limits
import Mathlib.Topology.Order.IntermediateValue

/-!
# Helper lemmas: the limit search
-/

namespace Obscura

open Spec DMParticle Detector

variable {U : Units} {T : Tools} {C : DetectorClass}

/-- `q` is `p` or `p` with another interaction parameter. -/
def Along (U : Units) (t : String) (p q : DMParticle) : Prop := q = p ∨ ∃ c, q = withParam U p t c

theorem Along.base {t : String} {p q : DMParticle} (h : Along U t p q) (hb : BaseInv p) : BaseInv q := by
  rcases h with rfl | ⟨c, rfl⟩
  · exact hb
  · exact withParam_base hb t c

theorem Along.good {t : String} {p q : DMParticle} (h : Along U t p q) (hb : Good p) : Good q := by
  rcases h with rfl | ⟨c, rfl⟩
  · exact hb
  · exact withParam_good hb t c

theorem Along.withParam {t : String} {p q : DMParticle} (h : Along U t p q) (c : ℝ) :
    Obscura.withParam U q t c = Obscura.withParam U p t c := by
  rcases h with rfl | ⟨c', rfl⟩
  · rfl
  · exact withParam_withParam p t c' c

theorem Along.set {t : String} {p q : DMParticle} (h : Along U t p q) (hb : BaseInv p) (ht : t = "Nuclei" ∨ t = "Electrons") {c : ℝ}
    (hc : t = "Nuclei" → 0 ≤ c) : q.setInteractionParameter U c t = .ok (Obscura.withParam U p t c) := by
  rw [setParam_ok (h.base hb) ht hc, h.withParam]

theorem ten_pow_pos (l : ℝ) : (0 : ℝ) < (10 : ℝ) ^ l := Real.rpow_pos_of_pos (by norm_num) l

theorem limitFunction_along {d : Detector} {cert : ℝ} {p q q' : DMParticle} {l x : ℝ} (hb : BaseInv p)
    (ht : d.targets = "Nuclei" ∨ d.targets = "Electrons") (h : Along U d.targets p q)
    (hl : d.limitFunction U T C cert q l = .ok (q', x)) : Along U d.targets p q' := by
  unfold limitFunction at hl
  rw [h.set hb ht (fun _ => (ten_pow_pos l).le)] at hl
  simp only [Outcome.bind_ok] at hl
  obtain ⟨y, hy, h2⟩ := Outcome.bind_eq_ok.1 hl
  cases h2
  exact .inr ⟨_, rfl⟩

theorem search_along {d : Detector} {cert : ℝ} {p : DMParticle} (hb : BaseInv p)
    (ht : d.targets = "Nuclei" ∨ d.targets = "Electrons") : ∀ (ls : List ℝ) {q q' : DMParticle}, Along U d.targets p q →
    d.search U T C cert ls q = .ok q' → Along U d.targets p q'
  | [], q, q', h, hs => by cases hs; exact h
  | l :: ls, q, q', h, hs => by
    unfold search at hs
    obtain ⟨⟨q1, x⟩, h1, h2⟩ := Outcome.bind_eq_ok.1 hs
    exact search_along hb ht ls (limitFunction_along hb ht h h1) h2

theorem setFiducial_shape {d d' : Detector} {c0 : ℝ} {p : DMParticle} (h : d.setFiducial C c0 p = .ok d') :
    ∃ u c s ss, d' = { d with usingFiducial := u, fiducialCoupling := c, fiducialSignals := s, fiducialSpectrum := ss } ∧
      (d.analysis = .maximumGap → d' = d) := by
  unfold setFiducial at h
  split at h
  · obtain ⟨s, h1, h2⟩ := Outcome.bind_eq_ok.1 h
    cases h2
    exact ⟨_, _, _, _, rfl, fun h => by simp_all⟩
  · obtain ⟨s, h1, h2⟩ := Outcome.bind_eq_ok.1 h
    cases h2
    exact ⟨_, _, _, _, rfl, fun h => by simp_all⟩
  · cases h
    exact ⟨_, _, _, _, rfl, fun _ => rfl⟩

/-- Saving and resetting the fiducial values leaves the detector as it was. -/
theorem reset_setFiducial {d d' : Detector} {c0 : ℝ} {p : DMParticle} (hi : d.Sound) (h : d.setFiducial C c0 p = .ok d') :
    d'.resetFiducial = d := by
  obtain ⟨u, c, s, ss, rfl, hm⟩ := setFiducial_shape h
  obtain ⟨h1, h2, h3, h4⟩ := hi.fiducial
  cases d
  simp only at h1 h2 h3 h4
  subst h1 h2 h3 h4
  rename_i a _ _ _ _ _ _ _ _ _ _ _ _
  cases a
  · rfl
  · rfl
  · exact hm rfl

/-- What `Upper_Limit` leaves behind. -/
theorem upperLimit_after {d d' : Detector} {p p' : DMParticle} {cert x : ℝ} (hi : d.Sound) (hb : BaseInv p)
    (h : d.upperLimit U T C p cert = .ok (d', p', x)) :
    d' = d ∧ ∃ c0, p.getInteractionParameter U d.targets = .ok c0 ∧ p' = withParam U p d.targets c0 := by
  unfold upperLimit at h
  obtain ⟨c0, hc0, h⟩ := Outcome.bind_eq_ok.1 h
  obtain ⟨d1, hd1, h⟩ := Outcome.bind_eq_ok.1 h
  have ht := target_of_get hc0
  obtain ⟨u, c, s, ss, hd1', _⟩ := setFiducial_shape hd1
  have htd : d1.targets = d.targets := by rw [hd1']
  have ht1 : d1.targets = "Nuclei" ∨ d1.targets = "Electrons" := htd ▸ ht
  obtain ⟨⟨p1, fa⟩, h1, h⟩ := Outcome.bind_eq_ok.1 h
  obtain ⟨⟨p2, fb⟩, h2, h⟩ := Outcome.bind_eq_ok.1 h
  have a1 := limitFunction_along hb ht1 (.inl rfl) h1
  have a2 := limitFunction_along hb ht1 a1 h2
  have fin : ∀ p3 r, Along U d1.targets p p3 →
      (p3.setInteractionParameter U c0 d1.targets >>= fun p => Outcome.ok (d1.resetFiducial, p, r)) = .ok (d', p', x) →
      d' = d ∧ ∃ c0, p.getInteractionParameter U d.targets = .ok c0 ∧ p' = withParam U p d.targets c0 := by
    intro p3 r a3 h
    rw [a3.set hb ht1 (htd ▸ get_nonneg hb hc0)] at h
    simp only [Outcome.bind_ok] at h
    cases h
    exact ⟨reset_setFiducial hi hd1, c0, hc0, by rw [htd]⟩
  dsimp only at h
  split_ifs at h
  · simp only [Outcome.bind_ok] at h
    exact fin _ _ a2 h
  · obtain ⟨p4, h4, h⟩ := Outcome.bind_eq_ok.1 h
    simp only [Outcome.bind_ok] at h
    exact fin _ _ (search_along hb ht1 _ a2 h4) h

/-- The value of `Upper_Limit`, when every p-value along the way exists. -/
theorem upperLimit_value {d d' : Detector} {p : DMParticle} {cert c0 : ℝ} {F : ℝ → ℝ} (hi : d.Sound) (hb : BaseInv p)
    (hc0 : p.getInteractionParameter U d.targets = .ok c0) (hd : d.setFiducial C c0 p = .ok d')
    (hF : ∀ c, 0 < c → d'.pValue U T C (withParam U p d.targets c) = .ok (F c)) :
    ∃ p', d.upperLimit U T C p cert = .ok (d, p',
      if 0 < (F ((10 : ℝ) ^ (-30 : ℝ)) - (1 - cert)) * (F ((10 : ℝ) ^ (10 : ℝ)) - (1 - cert)) then -1
      else (10 : ℝ) ^ T.findRoot (fun l => F ((10 : ℝ) ^ l) - (1 - cert)) (-30) 10) := by
  have ht := target_of_get hc0
  obtain ⟨u, c, s, ss, hd1', _⟩ := setFiducial_shape hd
  have htd : d'.targets = d.targets := by rw [hd1']
  have lim : ∀ q l, Along U d.targets p q → d'.limitFunction U T C cert q l =
      .ok (withParam U p d.targets ((10 : ℝ) ^ l), F ((10 : ℝ) ^ l) - (1 - cert)) := by
    intro q l hq
    unfold limitFunction
    rw [htd, hq.set hb ht (fun _ => (ten_pow_pos l).le)]
    simp only [Outcome.bind_ok, hF _ (ten_pow_pos l)]
  have srch : ∀ (ls : List ℝ) q, Along U d.targets p q → ∃ q', d'.search U T C cert ls q = .ok q' ∧ Along U d.targets p q' := by
    intro ls
    induction ls with
    | nil => exact fun q hq => ⟨q, rfl, hq⟩
    | cons l ls ih =>
      intro q hq
      unfold search
      rw [lim q l hq]
      exact ih _ (.inr ⟨_, rfl⟩)
  have val : ∀ q, Along U d.targets p q → d'.limitValue U T C cert q = fun l => F ((10 : ℝ) ^ l) - (1 - cert) := by
    intro q hq
    funext l
    unfold limitValue
    rw [lim q l hq]
  unfold upperLimit
  rw [hc0]
  simp only [Outcome.bind_ok]
  rw [hd]
  simp only [Outcome.bind_ok]
  rw [lim p (-30) (.inl rfl)]
  simp only [Outcome.bind_ok]
  rw [lim _ 10 (.inr ⟨_, rfl⟩)]
  simp only [Outcome.bind_ok]
  rw [reset_setFiducial hi hd, htd]
  split_ifs with h
  · rw [Along.set (.inr ⟨_, rfl⟩) hb ht (get_nonneg hb hc0)]
    exact ⟨_, rfl⟩
  · rw [val _ (.inr ⟨_, rfl⟩)]
    obtain ⟨q', h1, h2⟩ := srch (T.searchPoints (fun l => F ((10 : ℝ) ^ l) - (1 - cert)) (-30) 10) _ (.inr ⟨(10 : ℝ) ^ (10 : ℝ), rfl⟩)
    rw [h1]
    simp only [Outcome.bind_ok]
    rw [h2.set hb ht (get_nonneg hb hc0)]
    exact ⟨_, rfl⟩

/-- The analytic core of C30. -/
theorem limit_separates {F : ℝ → ℝ} {L : ℝ} {R : RootFinder} (hR : R.Exact) (hc : ContinuousOn F (Set.Ici 0))
    (ha : AntitoneOn F (Set.Ici 0))
    (hs : ∀ x c, 0 ≤ x → 0 ≤ c → F x = L → (c < x → L < F c) ∧ (x < c → F c < L)) :
    let x := if 0 < (F ((10 : ℝ) ^ (-30 : ℝ)) - L) * (F ((10 : ℝ) ^ (10 : ℝ)) - L) then -1
      else (10 : ℝ) ^ R (fun l => F ((10 : ℝ) ^ l) - L) (-30) 10
    (x = -1 ∧ ∀ c, (10 : ℝ) ^ (-30 : ℝ) ≤ c → c ≤ (10 : ℝ) ^ (10 : ℝ) → F c ≠ L) ∨
    ((10 : ℝ) ^ (-30 : ℝ) ≤ x ∧ x ≤ (10 : ℝ) ^ (10 : ℝ) ∧ F x = L ∧
      ∀ c, 0 ≤ c → (c < x → L < F c) ∧ (x < c → F c < L)) := by
  intro x
  have h0 : (0 : ℝ) < (10 : ℝ) ^ (-30 : ℝ) := ten_pow_pos _
  have h1 : (0 : ℝ) < (10 : ℝ) ^ (10 : ℝ) := ten_pow_pos _
  by_cases h : 0 < (F ((10 : ℝ) ^ (-30 : ℝ)) - L) * (F ((10 : ℝ) ^ (10 : ℝ)) - L)
  · left
    refine ⟨if_pos h, fun c hc1 hc2 => ?_⟩
    have hc0 : 0 < c := h0.trans_le hc1
    have e1 := ha (Set.mem_Ici.2 h0.le) (Set.mem_Ici.2 hc0.le) hc1
    have e2 := ha (Set.mem_Ici.2 hc0.le) (Set.mem_Ici.2 h1.le) hc2
    intro he
    rcases (mul_pos_iff.1 h) with ⟨g1, g2⟩ | ⟨g1, g2⟩ <;> linarith
  · right
    have hx : x = (10 : ℝ) ^ R (fun l => F ((10 : ℝ) ^ l) - L) (-30) 10 := if_neg h
    have hcont : ContinuousOn (fun l : ℝ => F ((10 : ℝ) ^ l) - L) (Set.Icc (-30) 10) := by
      refine ContinuousOn.sub ?_ continuousOn_const
      refine hc.comp (Continuous.continuousOn ?_) fun l _ => Set.mem_Ici.2 (ten_pow_pos l).le
      exact Real.continuous_const_rpow (by norm_num)
    obtain ⟨⟨r1, r2⟩, r3⟩ := hR (fun l : ℝ => F ((10 : ℝ) ^ l) - L) (-30) 10 (by norm_num) (not_lt.1 h) hcont
    have hFx : F x = L := by rw [hx]; exact sub_eq_zero.1 r3
    refine ⟨?_, ?_, hFx, fun c hc => hs x c ?_ hc hFx⟩
    · rw [hx]; exact Real.rpow_le_rpow_of_exponent_le (by norm_num) r1
    · rw [hx]; exact Real.rpow_le_rpow_of_exponent_le (by norm_num) r2
    · rw [hx]; exact (ten_pow_pos _).le

end Obscura
