import Verif.Spec.Pieces
import Verif.Props.Limits
import Verif.Model.Configuration

/-!
# C102 — a computation can be split, reordered and repeated
-/

namespace Obscura

open Spec DMParticle Detector

variable {U : Units} {T : Tools} {C : DetectorClass} {d d' : Detector} {p p' : DMParticle} {cert : ℝ}

/-- The row of the curve for one mass. -/
noncomputable def curveRow (U : Units) (T : Tools) (C : DetectorClass) (d : Detector) (p : DMParticle) (cert low m : ℝ) : Option (ℝ × ℝ) :=
  open Classical in
  if low ≤ m then
    match upperLimitAt U T C d p cert m with
    | .ok x => if 0 < x then some (m, x) else none
    | _ => none
  else none

theorem curve_iff {masses : List ℝ} {rows : List (ℝ × ℝ)} (hr : ReachableDetector d) (hp : Reachable U p) (hm : ∀ m ∈ masses, 0 < m) :
    d.upperLimitCurve U T C p masses cert = .ok (d', p', rows) ↔
      d' = d ∧ p.setMass U p.mass = .ok p' ∧ ∃ low, C.minimumDMMass d p = .ok low ∧
        (∀ m ∈ masses, low ≤ m → ∃ x, upperLimitAt U T C d p cert m = .ok x) ∧
        rows = masses.filterMap (curveRow U T C d p cert low) := by
  have fwd : ∀ {d' p' rows}, d.upperLimitCurve U T C p masses cert = .ok (d', p', rows) →
      d' = d ∧ p.setMass U p.mass = .ok p' ∧ ∃ low, C.minimumDMMass d p = .ok low ∧
        (∀ m ∈ masses, low ≤ m → ∃ x, upperLimitAt U T C d p cert m = .ok x) ∧
        rows = masses.filterMap (curveRow U T C d p cert low) := by
    intro d' p' rows h
    obtain ⟨g1, g2⟩ := C31_curve_trace hr hp hm h
    obtain ⟨low, lim, e0, e1, e2⟩ := C33_curve hr hp hm h
    refine ⟨g1, g2, low, e0, fun m h1 h2 => ⟨_, e1 m h1 h2⟩, ?_⟩
    rw [e2]
    refine List.filterMap_congr fun m h1 => ?_
    unfold curveRow
    by_cases h2 : low ≤ m
    · rw [if_pos h2, e1 m h1 h2]
      simp [h2]
    · simp [h2]
  refine ⟨fwd, fun ⟨g1, g2, low, e0, e1, e2⟩ => ?_⟩
  obtain ⟨q, rows', h⟩ := C33_curve_exists hr hp hm e0 e1
  obtain ⟨-, k2, low', k0, -, k3⟩ := fwd h
  obtain rfl := Outcome.ok.inj (e0.symm.trans k0)
  obtain rfl := Outcome.ok.inj (g2.symm.trans k2)
  rw [h, g1, e2, k3]

/-- C102 (split). A limit curve can be computed in pieces, each starting from a copy of the same detector and the same particle, for
example by different processes: the curve for all masses is defined if and only if the curves for all pieces are, and it consists of
their rows, in order. Detector and particle are left in the same state by all of them. -/
theorem C102_pieces {pieces : List (List ℝ)} {rows : List (ℝ × ℝ)} (hr : ReachableDetector d) (hp : Reachable U p)
    (hm : ∀ ms ∈ pieces, ∀ m ∈ ms, 0 < m) (hne : pieces ≠ []) :
    d.upperLimitCurve U T C p pieces.flatten cert = .ok (d', p', rows) ↔
      ∃ parts, List.Forall₂ (fun ms part => d.upperLimitCurve U T C p ms cert = .ok (d', p', part)) pieces parts ∧ rows = parts.flatten := by
  have hm' : ∀ m ∈ pieces.flatten, 0 < m := fun m hm0 => by
    obtain ⟨ms, h1, h2⟩ := List.mem_flatten.1 hm0
    exact hm ms h1 m h2
  constructor
  · intro h
    obtain ⟨g1, g2, low, e0, e1, e2⟩ := (curve_iff hr hp hm').1 h
    refine ⟨pieces.map fun ms => ms.filterMap (curveRow U T C d p cert low), ?_, ?_⟩
    · rw [List.forall₂_map_right_iff]
      exact List.forall₂_same.2 fun ms hms => (curve_iff hr hp (hm ms hms)).2
        ⟨g1, g2, low, e0, fun m h1 h2 => e1 m (List.mem_flatten.2 ⟨ms, hms, h1⟩) h2, rfl⟩
    · rw [e2, List.filterMap_flatten]
  · rintro ⟨parts, h, rfl⟩
    have key : ∀ (pieces : List (List ℝ)) (parts : List (List (ℝ × ℝ))), (∀ ms ∈ pieces, ∀ m ∈ ms, 0 < m) →
        List.Forall₂ (fun ms part => d.upperLimitCurve U T C p ms cert = .ok (d', p', part)) pieces parts → ∀ low, C.minimumDMMass d p = .ok low →
        (∀ ms ∈ pieces, ∀ m ∈ ms, low ≤ m → ∃ x, upperLimitAt U T C d p cert m = .ok x) ∧
        parts = pieces.map fun ms => ms.filterMap (curveRow U T C d p cert low) := by
      intro pieces parts hm h low hlow
      induction h with
      | nil => simp
      | cons h1 h2 ih =>
        obtain ⟨ih1, ih2⟩ := ih fun ms hms => hm ms (List.mem_cons_of_mem _ hms)
        obtain ⟨-, -, low', e0, e1, e2⟩ := (curve_iff hr hp (hm _ List.mem_cons_self)).1 h1
        obtain rfl := Outcome.ok.inj (hlow.symm.trans e0)
        refine ⟨fun ms hms => ?_, by rw [List.map_cons, ← ih2, ← e2]⟩
        rcases List.mem_cons.1 hms with rfl | hms
        · exact e1
        · exact ih1 ms hms
    obtain ⟨g1, g2, low, e0⟩ : d' = d ∧ p.setMass U p.mass = .ok p' ∧ ∃ low, C.minimumDMMass d p = .ok low := by
      cases h with
      | nil => exact absurd rfl hne
      | cons h1 _ =>
        obtain ⟨g1, g2, low, e0, -⟩ := (curve_iff hr hp (hm _ List.mem_cons_self)).1 h1
        exact ⟨g1, g2, low, e0⟩
    obtain ⟨k1, rfl⟩ := key pieces parts hm h low e0
    refine (curve_iff hr hp hm').2 ⟨g1, g2, low, e0, fun m h1 h2 => ?_, by rw [List.filterMap_flatten]⟩
    obtain ⟨ms, h3, h4⟩ := List.mem_flatten.1 h1
    exact k1 ms h3 m h4 h2

/-- C102 (order). The order of the masses only determines the order of the rows. -/
theorem C102_order {masses masses' : List ℝ} {rows : List (ℝ × ℝ)} (hr : ReachableDetector d) (hp : Reachable U p) (hm : ∀ m ∈ masses, 0 < m)
    (hperm : masses.Perm masses') (h : d.upperLimitCurve U T C p masses cert = .ok (d', p', rows)) :
    ∃ rows', rows.Perm rows' ∧ d.upperLimitCurve U T C p masses' cert = .ok (d', p', rows') := by
  obtain ⟨g1, g2, low, e0, e1, e2⟩ := (curve_iff hr hp hm).1 h
  refine ⟨masses'.filterMap (curveRow U T C d p cert low), e2 ▸ hperm.filterMap _, (curve_iff hr hp fun m hm' => hm m (hperm.mem_iff.2 hm')).2
    ⟨g1, g2, low, e0, fun m h1 h2 => e1 m (hperm.mem_iff.2 h1) h2, rfl⟩⟩

/-- One more call. -/
theorem reachable_step {q : DMParticle} {op : DMParticle.Op} (hp : Reachable U p) (hop : ValidOp op) (h : p.step U op = .ok q) : Reachable U q := by
  obtain ⟨p₀, ops, h1, h2, h3⟩ := hp
  refine ⟨p₀, ops ++ [op], h1, fun o ho => ?_, ?_⟩
  · rcases List.mem_append.1 ho with ho | ho
    · exact h2 o ho
    · rw [List.mem_singleton] at ho
      exact ho ▸ hop
  · clear h1 h2
    induction ops generalizing p₀ with
    | nil =>
      obtain rfl := Outcome.ok.inj h3
      show (p₀.step U op >>= fun p' => DMParticle.run U p' []) = _
      rw [h]
      rfl
    | cons o ops ih =>
      obtain ⟨p₁, e1, e2⟩ := Outcome.bind_eq_ok.1 h3
      show (p₀.step U o >>= fun p' => DMParticle.run U p' (ops ++ [op])) = _
      rw [e1]
      exact ih p₁ e2

/-- Writing back the mass once is enough. -/
theorem settled (hp : Reachable U p) (h : p.setMass U p.mass = .ok p') :
    Reachable U p' ∧ p'.setMass U p'.mass = .ok p' ∧ ∀ m, 0 < m → p'.setMass U m = p.setMass U m := by
  have hb := reachable_inv hp
  have h' := h
  rw [setMass_ok hb hb.mass] at h'
  obtain rfl := Outcome.ok.inj h'
  have hmass : (withMass U p p.mass).mass = p.mass := by
    obtain ⟨x, y, hsh⟩ := withMass_shape (U := U) p p.mass
    rw [hsh]
  have hb' := withMass_base (U := U) hb hb.mass
  have hsame : ∀ m, 0 < m → (withMass U p p.mass).setMass U m = p.setMass U m := fun m hm => by
    rw [setMass_ok hb' hm, setMass_ok hb hm, withMass_withMass hb hb.mass]
  refine ⟨?_, by rw [hmass, hsame _ hb.mass, h], hsame⟩
  exact reachable_step hp (op := .setMass p.mass) hb.mass h

/-- C102 (one after the other). If the minimal mass of the detector does not depend on the particle's mass having been written back, a
curve can be computed piece by piece on the same detector and the same particle, with the rows and the final state of the single
computation. -/
theorem C102_sequence {pieces : List (List ℝ)} {rows : List (ℝ × ℝ)} (hr : ReachableDetector d) (hp : Reachable U p)
    (hm : ∀ ms ∈ pieces, ∀ m ∈ ms, 0 < m) (hne : pieces ≠ [])
    (hmin : ∀ q, p.setMass U p.mass = .ok q → C.minimumDMMass d q = C.minimumDMMass d p)
    (hcurve : d.upperLimitCurve U T C p pieces.flatten cert = .ok (d', p', rows)) :
    ∃ parts, curves U T C cert pieces d p = .ok (d', p', parts) ∧ rows = parts.flatten := by
  obtain ⟨parts, h, rfl⟩ := (C102_pieces hr hp hm hne).1 hcurve
  clear hcurve
  refine ⟨parts, ?_, rfl⟩
  obtain ⟨hd, hset⟩ : d' = d ∧ p.setMass U p.mass = .ok p' := by
    cases h with
    | nil => exact absurd rfl hne
    | cons h1 _ => exact C31_curve_trace hr hp (hm _ List.mem_cons_self) h1
  subst hd
  obtain ⟨hp', hset', hsame⟩ := settled hp hset
  have hat : ∀ m, 0 < m → upperLimitAt U T C d' p' cert m = upperLimitAt U T C d' p cert m := fun m hm0 => by
    unfold upperLimitAt
    rw [hsame m hm0]
  have hstep : ∀ ms part, (∀ m ∈ ms, 0 < m) → d'.upperLimitCurve U T C p ms cert = .ok (d', p', part) →
      d'.upperLimitCurve U T C p' ms cert = .ok (d', p', part) := by
    intro ms part hms h1
    obtain ⟨-, -, low, e0, e1, e2⟩ := (curve_iff hr hp hms).1 h1
    refine (curve_iff hr hp' hms).2 ⟨rfl, hset', low, by rw [hmin _ hset, e0], fun m k1 k2 => by rw [hat m (hms m k1)]; exact e1 m k1 k2, ?_⟩
    rw [e2]
    exact List.filterMap_congr fun m k1 => by unfold curveRow; rw [hat m (hms m k1)]
  have hrest : ∀ (pieces : List (List ℝ)) (parts : List (List (ℝ × ℝ))), (∀ ms ∈ pieces, ∀ m ∈ ms, 0 < m) →
      List.Forall₂ (fun ms part => d'.upperLimitCurve U T C p ms cert = .ok (d', p', part)) pieces parts →
      curves U T C cert pieces d' p' = .ok (d', p', parts) := by
    intro pieces parts hm h
    induction h with
    | nil => rfl
    | cons h1 _ ih =>
      simp only [curves]
      rw [hstep _ _ (hm _ List.mem_cons_self) h1, Outcome.bind_ok]
      dsimp only
      rw [ih fun ms hms => hm ms (List.mem_cons_of_mem _ hms)]
      rfl
  cases h with
  | nil => exact absurd rfl hne
  | cons h1 h2 =>
    simp only [curves]
    rw [h1, Outcome.bind_ok]
    dsimp only
    rw [hrest _ _ (fun ms hms => hm ms (List.mem_cons_of_mem _ hms)) h2]
    rfl

/-- C102 (one after the other, for the detectors of the library). Searches for scatterings with electrons never ask the particle for the
minimal mass; detectors of nuclear recoils do, but for couplings tied to each other or of equal sign writing back the mass makes no
difference. -/
theorem C102_detectors {D : AnyDetector} {h : Distribution} {pieces : List (List ℝ)} {rows : List (ℝ × ℝ)} (hr : ReachableDetector D.base)
    (hp : Reachable U p) (hreg : ∀ d x, D = .nuclear d x → Regular U p) (hm : ∀ ms ∈ pieces, ∀ m ∈ ms, 0 < m) (hne : pieces ≠ [])
    (hc : D.base.upperLimitCurve U T (D.toClass U T h) p pieces.flatten cert = .ok (d', p', rows)) :
    ∃ parts, curves U T (D.toClass U T h) cert pieces D.base p = .ok (d', p', parts) ∧ rows = parts.flatten := by
  refine C102_sequence hr hp hm hne (fun q hq => ?_) hc
  cases D with
  | electronRecoil d x => rfl
  | migdal d x => rfl
  | crystal d x => rfl
  | nuclear d x =>
    have hg := (hreg d x rfl).good
    rw [setMass_ok hg.base hg.base.mass] at hq
    obtain rfl := Outcome.ok.inj hq
    have hso := sameObservables_withMass (U := U) hg
    have hloop : ∀ (E v : ℝ) (l : List Isotope), NuclearDetector.massLoop U T.integrate (withMass U p p.mass) E v l =
        NuclearDetector.massLoop U T.integrate p E v l := by
      intro E v l
      induction l with
      | nil => rfl
      | cons iso l ih =>
        simp only [NuclearDetector.massLoop]
        rw [hso.totN, ih]
    show NuclearDetector.minimumDMMass U T.integrate x d _ h = NuclearDetector.minimumDMMass U T.integrate x d _ h
    unfold NuclearDetector.minimumDMMass
    rw [hloop]

/-! ## Likelihood scans -/

/-- The row of the scan for one mass and one coupling. -/
noncomputable def scanRow (U : Units) (T : Tools) (C : DetectorClass) (d : Detector) (p : DMParticle) (m c : ℝ) : ℝ × ℝ × ℝ :=
  (m, c, match logLikelihoodAt U T C d p m c with
    | .ok x => x
    | _ => 0)

theorem flatMap_flatten' {α β : Type} (f : α → List β) (l : List (List α)) : l.flatten.flatMap f = (l.map fun x => x.flatMap f).flatten := by
  induction l with
  | nil => rfl
  | cons a l ih => simp [List.flatMap_append, ih]

theorem scan_iff {masses couplings : List ℝ} {rows : List (ℝ × ℝ × ℝ)} (hp : Reachable U p) (hm : ∀ m ∈ masses, 0 < m) (hc : ∀ c ∈ couplings, 0 ≤ c) :
    d.logLikelihoodScan U T C p masses couplings = .ok (p', rows) ↔
      ∃ c p1, p.getInteractionParameter U d.targets = .ok c ∧ (p.setMass U p.mass = .ok p1 ∧ p1.setInteractionParameter U c d.targets = .ok p') ∧
        (∀ m ∈ masses, ∀ c ∈ couplings, ∃ x, logLikelihoodAt U T C d p m c = .ok x) ∧
        rows = masses.flatMap fun m => couplings.map fun c => scanRow U T C d p m c := by
  have fwd : ∀ {p' rows}, d.logLikelihoodScan U T C p masses couplings = .ok (p', rows) →
      ∃ c p1, p.getInteractionParameter U d.targets = .ok c ∧ (p.setMass U p.mass = .ok p1 ∧ p1.setInteractionParameter U c d.targets = .ok p') ∧
        (∀ m ∈ masses, ∀ c ∈ couplings, ∃ x, logLikelihoodAt U T C d p m c = .ok x) ∧
        rows = masses.flatMap fun m => couplings.map fun c => scanRow U T C d p m c := by
    intro p' rows h
    obtain ⟨c, p1, g1, g2, g3⟩ := C31_scan_trace hp hm hc h
    obtain ⟨ll, e1, e2⟩ := C35_scan hp hm hc h
    refine ⟨c, p1, g1, ⟨g2, g3⟩, fun m h1 c h2 => ⟨_, e1 m h1 c h2⟩, ?_⟩
    rw [e2]
    refine List.flatMap_congr fun m h1 => List.map_congr_left fun c h2 => ?_
    unfold scanRow
    rw [e1 m h1 c h2]
  refine ⟨fwd, fun ⟨c, p1, g1, ⟨g2, g3⟩, e1, e2⟩ => ?_⟩
  obtain ⟨q, rows', h⟩ := C35_scan_exists (T := T) (C := C) hp (target_of_get g1) hm hc e1
  obtain ⟨c', p1', k1, ⟨k2, k3⟩, -, k4⟩ := fwd h
  obtain rfl := Outcome.ok.inj (g1.symm.trans k1)
  obtain rfl := Outcome.ok.inj (g2.symm.trans k2)
  obtain rfl := Outcome.ok.inj (g3.symm.trans k3)
  rw [h, e2, k4]

/-- C102 (scan, order). The order of the masses and of the couplings only determines the order of the rows. -/
theorem C102_scan_order {masses masses' couplings couplings' : List ℝ} {rows : List (ℝ × ℝ × ℝ)} (hp : Reachable U p) (hm : ∀ m ∈ masses, 0 < m)
    (hc : ∀ c ∈ couplings, 0 ≤ c) (h1 : masses.Perm masses') (h2 : couplings.Perm couplings')
    (h : d.logLikelihoodScan U T C p masses couplings = .ok (p', rows)) :
    ∃ rows', rows.Perm rows' ∧ d.logLikelihoodScan U T C p masses' couplings' = .ok (p', rows') := by
  obtain ⟨c0, p1, g1, g2, g3⟩ := C31_scan_trace hp hm hc h
  obtain ⟨ll, e1, e2⟩ := C35_scan hp hm hc h
  have hm' : ∀ m ∈ masses', 0 < m := fun m k => hm m (h1.mem_iff.2 k)
  have hc' : ∀ c ∈ couplings', 0 ≤ c := fun c k => hc c (h2.mem_iff.2 k)
  obtain ⟨q, rows', k⟩ := C35_scan_exists (T := T) (C := C) hp (target_of_get g1) hm' hc' fun m k1 c k2 => ⟨_, e1 m (h1.mem_iff.2 k1) c (h2.mem_iff.2 k2)⟩
  obtain ⟨c0', p1', g1', g2', g3'⟩ := C31_scan_trace hp hm' hc' k
  obtain rfl := Outcome.ok.inj (g1.symm.trans g1')
  obtain rfl := Outcome.ok.inj (g2.symm.trans g2')
  obtain rfl := Outcome.ok.inj (g3.symm.trans g3')
  obtain ⟨ll', e1', e2'⟩ := C35_scan hp hm' hc' k
  refine ⟨rows', ?_, k⟩
  have : rows' = masses'.flatMap fun m => couplings'.map fun c => (m, c, ll m c) := by
    rw [e2']
    refine List.flatMap_congr fun m k1 => List.map_congr_left fun c k2 => ?_
    have := (e1' m k1 c k2).symm.trans (e1 m (h1.mem_iff.2 k1) c (h2.mem_iff.2 k2))
    rw [Outcome.ok.inj this]
  rw [this, e2]
  exact h1.flatMap fun m _ => h2.map _

/-- C102 (scan, split). A scan over many masses consists of the rows of scans over fewer masses, each made with a copy of the same
particle. -/
theorem C102_scan_pieces {pieces : List (List ℝ)} {couplings : List ℝ} {rows : List (ℝ × ℝ × ℝ)} (hp : Reachable U p)
    (hm : ∀ ms ∈ pieces, ∀ m ∈ ms, 0 < m) (hc : ∀ c ∈ couplings, 0 ≤ c) (hne : pieces ≠ []) :
    d.logLikelihoodScan U T C p pieces.flatten couplings = .ok (p', rows) ↔
      ∃ parts, List.Forall₂ (fun ms part => d.logLikelihoodScan U T C p ms couplings = .ok (p', part)) pieces parts ∧ rows = parts.flatten := by
  have hm' : ∀ m ∈ pieces.flatten, 0 < m := fun m hm0 => by
    obtain ⟨ms, h1, h2⟩ := List.mem_flatten.1 hm0
    exact hm ms h1 m h2
  constructor
  · intro h
    obtain ⟨g1, g2, low, e0, e1, e2⟩ := (scan_iff hp hm' hc).1 h
    refine ⟨pieces.map fun ms => ms.flatMap fun m => couplings.map fun c => scanRow U T C d p m c, ?_, ?_⟩
    · rw [List.forall₂_map_right_iff]
      exact List.forall₂_same.2 fun ms hms => (scan_iff hp (hm ms hms) hc).2
        ⟨g1, g2, low, e0, fun m h1 c h2 => e1 m (List.mem_flatten.2 ⟨ms, hms, h1⟩) c h2, rfl⟩
    · rw [e2, flatMap_flatten']
  · rintro ⟨parts, h, rfl⟩
    obtain ⟨c0, p1, g1, g2, g3⟩ : ∃ c p1, p.getInteractionParameter U d.targets = .ok c ∧ p.setMass U p.mass = .ok p1 ∧
        p1.setInteractionParameter U c d.targets = .ok p' := by
      cases h with
      | nil => exact absurd rfl hne
      | cons h1 _ => exact C31_scan_trace hp (hm _ List.mem_cons_self) hc h1
    have key : (∀ ms ∈ pieces, ∀ m ∈ ms, ∀ c ∈ couplings, ∃ x, logLikelihoodAt U T C d p m c = .ok x) ∧
        parts = pieces.map fun ms => ms.flatMap fun m => couplings.map fun c => scanRow U T C d p m c := by
      clear hm' hne
      induction h with
      | nil => simp
      | cons h1 _ ih =>
        obtain ⟨ih1, ih2⟩ := ih fun ms hms => hm ms (List.mem_cons_of_mem _ hms)
        obtain ⟨-, -, -, -, e1, e2⟩ := (scan_iff hp (hm _ List.mem_cons_self) hc).1 h1
        refine ⟨fun ms hms => ?_, by rw [List.map_cons, ← ih2, ← e2]⟩
        rcases List.mem_cons.1 hms with rfl | hms
        · exact e1
        · exact ih1 ms hms
    obtain ⟨k1, rfl⟩ := key
    refine (scan_iff hp hm' hc).2 ⟨c0, p1, g1, ⟨g2, g3⟩, fun m h1 c h2 => ?_, by rw [flatMap_flatten']⟩
    obtain ⟨ms, h3, h4⟩ := List.mem_flatten.1 h1
    exact k1 ms h3 m h4 c h2

/-- C102 (scan, one after the other). The pieces of a scan can also be made one after the other with the same particle. -/
theorem C102_scan_sequence {pieces : List (List ℝ)} {couplings : List ℝ} {rows : List (ℝ × ℝ × ℝ)} (hp : Reachable U p)
    (hm : ∀ ms ∈ pieces, ∀ m ∈ ms, 0 < m) (hc : ∀ c ∈ couplings, 0 ≤ c) (hne : pieces ≠ [])
    (hscan : d.logLikelihoodScan U T C p pieces.flatten couplings = .ok (p', rows)) :
    ∃ parts, scans U T C d couplings pieces p = .ok (p', parts) ∧ rows = parts.flatten := by
  obtain ⟨parts, h, rfl⟩ := (C102_scan_pieces hp hm hc hne).1 hscan
  clear hscan
  refine ⟨parts, ?_, rfl⟩
  obtain ⟨c0, p1, g1, g2, g3⟩ : ∃ c p1, p.getInteractionParameter U d.targets = .ok c ∧ p.setMass U p.mass = .ok p1 ∧
      p1.setInteractionParameter U c d.targets = .ok p' := by
    cases h with
    | nil => exact absurd rfl hne
    | cons h1 _ => exact C31_scan_trace hp (hm _ List.mem_cons_self) hc h1
  have hb := reachable_inv hp
  have hp' : Reachable U p' := reachable_step (op := .setInteractionParameter c0 d.targets) (reachable_step hp (op := .setMass p.mass) hb.mass g2) trivial g3
  have hb' := reachable_inv hp'
  have ht := target_of_get g1
  have hc0 := get_nonneg hb g1
  have hbm := withMass_base (U := U) hb hb.mass
  rw [setMass_ok hb hb.mass] at g2
  obtain rfl := Outcome.ok.inj g2
  rw [setParam_ok hbm ht hc0] at g3
  obtain rfl := Outcome.ok.inj g3
  have hmass : (withParam U (withMass U p p.mass) d.targets c0).mass = p.mass := by
    obtain ⟨x, y, z, e1⟩ := withParam_shape (U := U) (withMass U p p.mass) d.targets c0
    obtain ⟨x', y', e2⟩ := withMass_shape (U := U) p p.mass
    rw [e1, e2]
  set Q := withParam U (withMass U p p.mass) d.targets c0 with hQ
  have hbQ : ∀ m, 0 < m → BaseInv (withMass U Q m) := fun m hm0 => withMass_base hb' hm0
  have hsame : ∀ m c, withParam U (withMass U Q m) d.targets c = withParam U (withMass U p m) d.targets c := fun m c => by
    rw [hQ, withParam_withMass_withParam, withMass_withMass hb hb.mass]
  have hat : ∀ m c, 0 < m → 0 ≤ c → logLikelihoodAt U T C d Q m c = logLikelihoodAt U T C d p m c := fun m c hm0 hc0 => by
    unfold logLikelihoodAt
    rw [setMass_ok hb' hm0, setMass_ok hb hm0, Outcome.bind_ok, Outcome.bind_ok, setParam_ok (hbQ m hm0) ht fun _ => hc0,
      setParam_ok (withMass_base hb hm0) ht fun _ => hc0, hsame]
  have hstep : ∀ ms part, (∀ m ∈ ms, 0 < m) → d.logLikelihoodScan U T C p ms couplings = .ok (Q, part) →
      d.logLikelihoodScan U T C Q ms couplings = .ok (Q, part) := by
    intro ms part hms h1
    obtain ⟨_, _, -, -, e1, e2⟩ := (scan_iff hp hms hc).1 h1
    refine (scan_iff hp' hms hc).2 ⟨c0, withMass U Q p.mass, withParam_get hbm ht hc0, ⟨by rw [hmass, setMass_ok hb' hb.mass],
      by rw [setParam_ok (hbQ _ hb.mass) ht hc0, hsame]⟩, fun m k1 c k2 => by rw [hat m c (hms m k1) (hc c k2)]; exact e1 m k1 c k2, ?_⟩
    rw [e2]
    exact List.flatMap_congr fun m k1 => List.map_congr_left fun c k2 => by unfold scanRow; rw [hat m c (hms m k1) (hc c k2)]
  have hrest : ∀ (pieces : List (List ℝ)) (parts : List (List (ℝ × ℝ × ℝ))), (∀ ms ∈ pieces, ∀ m ∈ ms, 0 < m) →
      List.Forall₂ (fun ms part => d.logLikelihoodScan U T C p ms couplings = .ok (Q, part)) pieces parts →
      scans U T C d couplings pieces Q = .ok (Q, parts) := by
    intro pieces parts hm h
    induction h with
    | nil => rfl
    | cons h1 _ ih =>
      simp only [scans]
      rw [hstep _ _ (hm _ List.mem_cons_self) h1, Outcome.bind_ok]
      dsimp only
      rw [ih fun ms hms => hm ms (List.mem_cons_of_mem _ hms)]
      rfl
  cases h with
  | nil => exact absurd rfl hne
  | cons h1 h2 =>
    simp only [scans]
    rw [h1, Outcome.bind_ok]
    dsimp only
    rw [hrest _ _ (fun ms hms => hm ms (List.mem_cons_of_mem _ hms)) h2]
    rfl

/-! ## Events -/

/-- C102 (events). The order in which the energies of observed events are given to `Use_Maximum_Gap` is irrelevant. -/
theorem C102_events {es es' : List ℝ} (h : es.Perm es') : d.useMaximumGap es = d.useMaximumGap es' := by
  have : es.insertionSort (· ≤ ·) = es'.insertionSort (· ≤ ·) :=
    List.Perm.eq_of_pairwise (le := (· ≤ ·)) (fun a b _ _ h1 h2 => le_antisymm h1 h2) (List.pairwise_insertionSort _ _) (List.pairwise_insertionSort _ _)
      ((List.perm_insertionSort _ _).trans (h.trans (List.perm_insertionSort _ _).symm))
  unfold useMaximumGap
  rw [this]

/-! ## Examples -/

/-- A curve. -/
theorem curve_example (T : Tools) : ∃ (C : DetectorClass) (d : Detector) (p p' : DMParticle) (rows : List (ℝ × ℝ)), ReachableDetector d ∧
    Regular U p ∧ d.upperLimitCurve U T C p [1, 3, 2] (9 / 10) = .ok (d, p', rows) ∧ (∀ q, C.minimumDMMass d q = C.minimumDMMass d p) := by
  obtain ⟨p, hp, h1, h2, h3⟩ := regular_example (U := U) (m := 1) (s := 1) one_pos one_pos
  have hr : ReachableDetector { Detector.make "x" 1 "Nuclei" with observed := 2, background := 1 } :=
    .inl ⟨_, [.setObserved 2, .setBackground 1], ⟨"x", 1, "Nuclei", rfl⟩,
      by simp [Detector.run, Detector.step, setObserved, setBackground, make]⟩
  have hm : ∀ m ∈ [(1 : ℝ), 3, 2], 0 < m := by simp
  obtain ⟨p', rows, h⟩ := C33_curve_exists (T := T) (C := countingClass U (Isotope.default U) 1 1) (cert := 9 / 10) (lowest := 0)
    hr h1.reachable hm rfl fun m hmm _ => by
      have hb := reachable_inv h1.reachable
      have hm0 := hm m hmm
      have hget : (withMass U p m).getInteractionParameter U "Nuclei" = .ok 1 := by
        rw [← h3]
        obtain ⟨e1, e2⟩ := withMass_sigma (U := U) hb h1.good.rel hm0
        obtain ⟨x, y, hsh⟩ := withMass_shape (U := U) p m
        have hrel : (withMass U p m).fpRel = p.fpRel := by rw [hsh]
        unfold getInteractionParameter
        rw [hrel, e1, e2]
        rfl
      obtain ⟨q, x, hx⟩ := upperLimit_defined (T := T) (Detector.reachable_sound hr) (withMass_base hb hm0)
        (countingClass_linear U (Isotope.default U) 1 1) hget one_ne_zero rfl rfl (9 / 10)
      refine ⟨x, ?_⟩
      unfold upperLimitAt
      rw [setMass_ok hb hm0, Outcome.bind_ok, hx]
      rfl
  exact ⟨_, _, _, _, _, hr, h1, h, fun _ => rfl⟩

/-- A scan. -/
theorem scan_example (T : Tools) : ∃ (C : DetectorClass) (d : Detector) (p p' : DMParticle) (rows : List (ℝ × ℝ × ℝ)), Regular U p ∧
    d.logLikelihoodScan U T C p [3, 2] [0, 1, 2] = .ok (p', rows) := by
  obtain ⟨p, hp, h1, h2, h3⟩ := regular_example (U := U) (m := 1) (s := 1) one_pos one_pos
  have hm : ∀ m ∈ [(3 : ℝ), 2], 0 < m := by simp
  have hc : ∀ c ∈ [(0 : ℝ), 1, 2], 0 ≤ c := by simp
  have hi : ∃ ff a b, p.interaction = .SI ff a b := by
    obtain ⟨f, _, _, h, _⟩ := makeSI_eq (U := U) (m := 1) (s := 1) one_pos one_pos.le
    rw [h] at hp
    cases hp
    exact ⟨_, _, _, rfl⟩
  obtain ⟨ff, a, b, hi⟩ := hi
  obtain ⟨d, e1, e2, e3, e4⟩ : ∃ d : Detector, d.targets = "Nuclei" ∧ d.analysis = .poisson ∧ d.observed = 2 ∧ d.background = 1 :=
    ⟨{ Detector.make "x" 1 "Nuclei" with observed := 2, background := 1 }, rfl, rfl, rfl, rfl⟩
  obtain ⟨p', rows, h⟩ := C35_scan_exists (T := T) (C := countingClass U (Isotope.default U) 1 1)
    (d := d) h1.reachable (.inl e1) hm hc
    fun m hmm c hcc => by
      have hb := reachable_inv h1.reachable
      have hm0 := hm m hmm
      unfold logLikelihoodAt
      rw [setMass_ok hb hm0, Outcome.bind_ok, setParam_ok (withMass_base hb hm0) (.inl e1) (fun _ => hc c hcc), Outcome.bind_ok, e1]
      generalize hq : withParam U (withMass U p m) _ c = q
      have hi' : q.interaction = .SI ff a b := by
        rw [← hq]
        obtain ⟨x, y, z, hsh⟩ := withParam_shape (U := U) (withMass U p m) "Nuclei" c
        obtain ⟨x', y', hsh'⟩ := withMass_shape (U := U) p m
        show (withParam U (withMass U p m) "Nuclei" c).interaction = _
        rw [hsh, hsh']
        exact hi
      have h0 : 0 ≤ q.dSigmadq2Nucleus U 1 (Isotope.default U) 1 := by
        simp only [dSigmadq2Nucleus, hi', formFactor2]
        have := Real.pi_pos
        generalize (if q.lowMass = true then (1 : ℝ) else _) = z
        have hz : ∀ y w : ℝ, 0 ≤ 1 / 4 / Real.pi / 1 / 1 * y ^ 2 * (w * w) * z * z := by
          intro y w
          have : 1 / 4 / Real.pi / 1 / 1 * y ^ 2 * (w * w) * z * z = 1 / 4 / Real.pi * (y * w * z) ^ 2 := by ring
          rw [this]; positivity
        exact hz _ _
      refine ⟨logLikelihoodPoisson (q.dSigmadq2Nucleus U 1 (Isotope.default U) 1) 2
        (profiledBackground (q.dSigmadq2Nucleus U 1 (Isotope.default U) 1) 2 1), ?_⟩
      simp only [Detector.logLikelihood, e2, countingClass, e1, if_true, Outcome.bind_ok, e3, e4]
      unfold flogLikelihood
      rw [if_neg]
      have : profiledBackground (q.dSigmadq2Nucleus U 1 (Isotope.default U) 1) 2 1 = 1 := by
        unfold profiledBackground
        rw [if_neg]
        norm_num
      rw [this]
      linarith
  exact ⟨_, _, _, _, _, h1, h⟩

/-- Non-vacuity: three masses, first one and then two of them, or in another order. -/
example (T : Tools) : ∃ (C : DetectorClass) (d : Detector) (p p' : DMParticle) (rows r₁ r₂ rows' : List (ℝ × ℝ)),
    d.upperLimitCurve U T C p [1, 3, 2] (9 / 10) = .ok (d, p', rows) ∧ curves U T C (9 / 10) [[1], [3, 2]] d p = .ok (d, p', [r₁, r₂]) ∧
    rows = r₁ ++ r₂ ∧ rows.Perm rows' ∧ d.upperLimitCurve U T C p [2, 3, 1] (9 / 10) = .ok (d, p', rows') := by
  obtain ⟨C, d, p, p', rows, hr, hp, h, hmin⟩ := curve_example (U := U) T
  have hpos : ∀ ms ∈ [[(1 : ℝ)], [3, 2]], ∀ m ∈ ms, 0 < m := by simp
  have hpos' : ∀ m ∈ [(1 : ℝ), 3, 2], 0 < m := by simp
  obtain ⟨parts, k1, k2⟩ := (C102_pieces hr hp.reachable hpos (by simp)).1 h
  obtain ⟨parts', k3, k4⟩ := C102_sequence hr hp.reachable hpos (by simp) (fun q _ => hmin q) h
  obtain ⟨rows', k5, k6⟩ := C102_order (masses' := [2, 3, 1]) hr hp.reachable hpos'
    (((List.Perm.swap 3 1 [2]).trans ((List.Perm.swap 2 1 []).cons 3)).trans (List.Perm.swap 2 3 [1])) h
  match parts', k3, k4 with
  | [r₁, r₂], k3, k4 => exact ⟨C, d, p, p', rows, r₁, r₂, rows', h, k3, by simpa using k4, k5, k6⟩
  | [], k3, _ | [_], k3, _ | _ :: _ :: _ :: _, k3, _ =>
    exfalso
    simp only [curves] at k3
    obtain ⟨⟨_, _, _⟩, -, k3⟩ := Outcome.bind_eq_ok.1 k3
    obtain ⟨⟨_, _, _⟩, k7, k3⟩ := Outcome.bind_eq_ok.1 k3
    obtain ⟨⟨_, _, _⟩, -, k7⟩ := Outcome.bind_eq_ok.1 k7
    simp at k3 k7
    try simp_all

/-- Non-vacuity: a grid of two masses and three couplings. -/
example (T : Tools) : ∃ (C : DetectorClass) (d : Detector) (p p' : DMParticle) (rows rows' : List (ℝ × ℝ × ℝ)) (parts : List (List (ℝ × ℝ × ℝ))),
    d.logLikelihoodScan U T C p [3, 2] [0, 1, 2] = .ok (p', rows) ∧ scans U T C d [0, 1, 2] [[3], [2]] p = .ok (p', parts) ∧
    rows = parts.flatten ∧ rows.Perm rows' ∧ d.logLikelihoodScan U T C p [2, 3] [1, 0, 2] = .ok (p', rows') := by
  obtain ⟨C, d, p, p', rows, hp, h⟩ := scan_example (U := U) T
  have hpos : ∀ ms ∈ [[(3 : ℝ)], [2]], ∀ m ∈ ms, 0 < m := by simp
  have hpos' : ∀ m ∈ [(3 : ℝ), 2], 0 < m := by simp
  have hc : ∀ c ∈ [(0 : ℝ), 1, 2], 0 ≤ c := by simp
  obtain ⟨parts, k1, k2⟩ := C102_scan_sequence (pieces := [[3], [2]]) hp.reachable hpos hc (by simp) h
  obtain ⟨rows', k3, k4⟩ := C102_scan_order (masses' := [2, 3]) (couplings' := [1, 0, 2]) hp.reachable hpos' hc (List.Perm.swap 2 3 [])
    (List.Perm.swap 1 0 [2]) h
  exact ⟨C, d, p, p', rows, rows', parts, h, k1, k2, k3, k4⟩

/-- Non-vacuity: three events in two orders. -/
example (d : Detector) : d.useMaximumGap [3, 1, 2] = d.useMaximumGap [1, 3, 2] := C102_events (List.Perm.swap 1 3 [2])

end Obscura
