import Verif.Lemmas.Main
import Verif.Lemmas.Summary
import Verif.Props.Files
import Verif.Props.Configured
import Verif.Props.ExperimentsDefined

/-!
# C74 — what the program writes
-/

namespace Obscura

open Spec FileSystem

variable {E : Platform} {fs : FileSystem} {f : Name} {args : List Name} {text : List Char} {c : Config} {ID : String} {top : List Name}

/-! ## The two ways a run can end -/

theorem main_cases (E : Platform) (f : Name) (args : List Name) (fs : FileSystem) :
    ((Program.main E (f :: args) fs).2 = .ok () ∧ ∃ c' o rows cl,
      (Configuration.make E.R E.S E.N E.speeds E.parse fs [] f 0).2 = .ok (c', o) ∧ Program.limits E o = .ok (rows, cl) ∧
      (Program.main E (f :: args) fs).1 =
        Program.exportLimits E (Configuration.make E.R E.S E.N E.speeds E.parse fs [] f 0).1 (Program.limitsFile E o.ID cl) rows) ∨
    ((Program.main E (f :: args) fs).2 ≠ .ok () ∧
      (Program.main E (f :: args) fs).1 = (Configuration.make E.R E.S E.N E.speeds E.parse fs [] f 0).1) := by
  simp only [Program.main]
  generalize hm : Configuration.make E.R E.S E.N E.speeds E.parse fs [] f 0 = r
  obtain ⟨g, r⟩ := r
  cases r with
  | ok q =>
    obtain ⟨c', o⟩ := q
    dsimp only
    cases o.printSummary E.S [] 0 with
    | ok _ =>
      dsimp only
      cases hl : Program.limits E o with
      | ok q =>
        obtain ⟨rows, cl⟩ := q
        exact .inl ⟨rfl, c', o, rows, cl, rfl, hl, rfl⟩
      | _ => exact .inr ⟨by simp, rfl⟩
    | _ => exact .inr ⟨by simp, rfl⟩
  | _ => exact .inr ⟨by simp, rfl⟩

theorem percentage_eq {cert : ℝ} {k : ℤ} (h : Program.percentage cert = .ok k) : k = cround (100 * cert) := by
  unfold Program.percentage at h
  rw [toIntConv_int] at h
  split_ifs at h
  cases h; rfl

/-! ## C74 — arguments -/

/-- C74 (no argument). Started without the name of a configuration file, the program makes a string of a null pointer. -/
theorem C74_fails_no_argument (fs : FileSystem) : Program.main E [] fs = (fs, .ub) := rfl

/-- C74 (further arguments) are ignored. -/
theorem C74_first_argument (args : List Name) (fs : FileSystem) : Program.main E (f :: args) fs = Program.main E [f] fs := rfl

/-- C74 (unusable files). If the file cannot be read, cannot be parsed or has no ID, nothing is written and the program stops. -/
theorem C74_unusable_file
    (h : fs.read E.R.cwd f = none ∨ ∃ t, fs.read E.R.cwd f = some t ∧ (E.parse t = none ∨ ∃ c, E.parse t = some c ∧ c "ID" = none)) :
    Program.main E (f :: args) fs = (fs, .exit) := by
  simp only [Program.main, C54_unusable_file h]

/-! ## C74 — the percentage in the name of the file -/

/-- C74 (percentage). For a probability the name contains the nearest whole percentage. -/
theorem C74_percentage {cert : ℝ} (h0 : 0 ≤ cert) (h1 : cert ≤ 1) :
    ∃ k, Program.percentage cert = .ok k ∧ NearestPercent cert k ∧ 0 ≤ k ∧ k ≤ 100 := by
  have hn := cround_near (100 * cert)
  have e : 0 ≤ cround (100 * cert) ∧ cround (100 * cert) ≤ 100 := by
    rw [abs_le] at hn
    constructor
    · have : (-1 : ℝ) < cround (100 * cert) := by linarith
      have : -1 < cround (100 * cert) := by exact_mod_cast this
      omega
    · have : (cround (100 * cert) : ℝ) < 101 := by linarith
      have : cround (100 * cert) < 101 := by exact_mod_cast this
      omega
  refine ⟨cround (100 * cert), ?_, hn, e.1, e.2⟩
  unfold Program.percentage
  rw [toIntConv_int, if_pos]
  obtain ⟨e1, e2⟩ := e
  constructor <;> omega

/-- C74 (absurd certainties). A certainty whose percentage does not fit into an `int` is converted with undefined behaviour. -/
theorem C74_fails_percentage {cert : ℝ} (h : 2 ^ 31 ≤ 100 * cert) : Program.percentage cert = .ub := by
  unfold Program.percentage
  rw [toIntConv_int, if_neg]
  have h0 : (0 : ℝ) ≤ 100 * cert := le_trans (by positivity) h
  intro hk
  have : (2 : ℤ) ^ 31 ≤ cround (100 * cert) := by
    unfold cround
    rw [if_pos h0, Int.le_floor]
    push_cast
    linarith
  omega

/-- C74 (different files). Two limits share a file only if the IDs agree and the certainties differ by at most one percentage point. -/
theorem C74_different_files {ID ID' : Name} {a b : ℝ} {j k : ℤ} (ha : NearestPercent a j) (hb : NearestPercent b k)
    (h : constraintsPlace top ID j = constraintsPlace top ID' k) : ID = ID' ∧ |a - b| ≤ 1 / 100 := by
  unfold constraintsPlace runPlace at h
  simp only [List.cons.injEq, and_true] at h
  obtain ⟨h1, h2⟩ := h
  have := constraintsName_inj h1
  subst this
  refine ⟨h2, ?_⟩
  unfold NearestPercent at ha hb
  rw [abs_le] at ha hb ⊢
  constructor <;> linarith

example : constraintsPlace top ['a'] 95 ≠ constraintsPlace top ['a'] 90 := fun h => by
  have := (C74_different_files (a := 0.95) (b := 0.9) (by norm_num [NearestPercent]) (by norm_num [NearestPercent]) h).2
  norm_num [abs_le] at this

/-! ## C74 — regular ends -/

/-- C74 (regular ends). The run ends regularly if the file describes a particle of positive mass with a cross section on the targets, a
distribution, an unbinned Poisson detector that is not a predefined semiconductor experiment and a grid of positive masses with a probability as certainty, and if the expected signals
are defined for the particle at every mass. -/
theorem C74_regular_end (hr : fs.read E.R.cwd f = some text) (hp : E.parse text = some c) (hID : c "ID" = some (.string ID))
    {cert lo hi : ℝ} {n : ℤ} (hL : DescribesLimits c cert lo hi n)
    (hlo : 0 < lo) (hhi : 0 < hi) (hn2 : 2 ≤ n) (hcert : 0 ≤ cert ∧ cert ≤ 1) (hmass : ∀ m, c "DM_mass" = some (.float m) → 0 < m)
    (hI : E.T.integrate.Homogeneous)
    (hP : ∀ k xs (ys : List ℝ) x y, E.T.interpolationIntegral xs (ys.map fun z => k * z) x y = k * E.T.interpolationIntegral xs ys x y)
    {p : DMParticle} {h : Distribution} {c' : List Nucleus} {D : AnyDetector} {c0 lowest : ℝ}
    (hp1 : c.particle E.S.U = .ok p) (hd1 : c.distribution E.S.U E.N E.speeds = .ok h) (hD1 : c.detector E.S [] = .ok (c', D))
    (hc0 : p.getInteractionParameter E.S.U D.base.targets = .ok c0) (h0 : c0 ≠ 0) (ha : D.base.analysis = .poisson)
    (hlow : (D.toClass E.S.U E.T h).minimumDMMass D.base p = .ok lowest)
    (hs : ∀ m p', 0 < m → p.setMass E.S.U m = .ok p' → ∃ s, (D.toClass E.S.U E.T h).signalsTotal D.base p' = .ok s)
    (hx : ∀ name, c "DD_experiment" = some (.string name) → name ∉ semiconductorExperiments) :
    (Program.main E (f :: args) fs).2 = .ok () := by
  have hD := configured_detector hD1
  obtain ⟨hreg, -⟩ := configured_particle hp1 hmass
  have hmake := (C71_object E.R E.S E.N E.speeds E.parse fs [] c' f 0
    ⟨f, ID.toList, E.R.top ++ ("results/" ++ ID ++ "/").toList, p, h, D, cert, lo, hi, n.toNat⟩).2
    ⟨text, c, ID, hr, hp, hID, hp1, hd1, hD1, ⟨n, hL, rfl⟩, rfl, rfl, rfl⟩
  obtain ⟨k, hk, -⟩ := C74_percentage hcert.1 hcert.2
  obtain ⟨r, hcurve⟩ := curve_defined (T := E.T) (cert := cert) hD.1 hreg (hD.linear hI hP h) hc0 h0 ha hlow
    (fun m hm => logSpace_mem_pos hlo hhi (n := n.toNat) hm) hs
  simp only [Program.main]
  generalize Configuration.make E.R E.S E.N E.speeds E.parse fs [] f 0 = r' at hmake
  obtain ⟨g, r'⟩ := r'
  dsimp only at hmake
  subst hmake
  have hl : ∃ q, Program.limits E ⟨f, ID.toList, E.R.top ++ ("results/" ++ ID ++ "/").toList, p, h, D, cert, lo, hi, n.toNat⟩ = .ok q := by
    unfold Program.limits Program.masses
    dsimp only
    rw [if_pos ⟨hlo, hhi, by omega⟩, Outcome.bind_ok, hcurve, Outcome.bind_ok, hk]
    exact ⟨_, rfl⟩
  obtain ⟨⟨rows, cl⟩, hq⟩ := hl
  obtain ⟨out, ho⟩ := configuration_summary (S := E.S) (halo := [])
    (o := ⟨f, ID.toList, E.R.top ++ ("results/" ++ ID ++ "/").toList, p, h, D, cert, lo, hi, n.toNat⟩) (configured_summary hD1 hx)
  dsimp only
  rw [ho]
  dsimp only
  rw [hq]

/-! ## C74 — places -/

section Places

variable (hr : fs.read E.R.cwd f = some text) (hp : E.parse text = some c) (hID : c "ID" = some (.string ID))
  (hn : PlainName ID.toList) (ht : TopAt E.R fs top)

include hr hp hID hn ht

/-- C74 (places that are written). If the ID is a plain name, nothing changes but the folders `results` and `results/ID`, the copy of the
configuration and, if the run ends regularly, `results/ID/DD_Constraints_k.txt` with `k` the nearest percentage of the certainty; no
folder is removed or replaced. -/
theorem C74_written_places_partial :
    (∀ place, place ≠ resultsPlace top → place ≠ runPlace top ID.toList → place ≠ copyPlace top ID.toList →
      ((Program.main E (f :: args) fs).2 = .ok () → ∀ cert k, c "constraints_certainty" = some (.float cert) → NearestPercent cert k →
        place ≠ constraintsPlace top ID.toList k) →
      (Program.main E (f :: args) fs).1 place = fs place) ∧
    ∀ place, fs place = some .dir → (Program.main E (f :: args) fs).1 place = some .dir := by
  obtain ⟨m1, m2⟩ := C54_written_places_partial (S := E.S) (N := E.N) (speeds := E.speeds) (cache := []) (rank := 0) hr hp hID hn ht
  have hm : ∀ q, fs.isDir q = true → (Configuration.make E.R E.S E.N E.speeds E.parse fs [] f 0).1.isDir q = true := by
    intro q hq
    by_cases he : q = []
    · simp [isDir, he]
    · simp only [isDir, Bool.or_eq_true, beq_iff_eq, he, false_or] at hq ⊢
      exact m2 q hq
  rcases main_cases E f args fs with ⟨h1, c', o, rows, cl, h2, h3, h4⟩ | ⟨h1, h2⟩
  · obtain ⟨t, c₁, ID₁, a1, a2, a3, -, -, -, ⟨n, a4, -⟩, -, a5, -⟩ := (C71_object E.R E.S E.N E.speeds E.parse fs [] c' f 0 o).1 h2
    rw [hr] at a1; cases a1
    rw [hp] at a2; cases a2
    rw [hID] at a3; cases a3
    obtain ⟨ms, -, h3⟩ := Outcome.bind_eq_ok.1 h3
    obtain ⟨⟨_, _, rows'⟩, -, h3⟩ := Outcome.bind_eq_ok.1 h3
    obtain ⟨cl', hcl, h3⟩ := Outcome.bind_eq_ok.1 h3
    cases h3
    have hnear : NearestPercent o.certainty cl := by rw [percentage_eq hcl]; exact cround_near _
    rw [h4, a5]
    unfold Program.exportLimits FileSystem.write
    rw [locate_limitsFile ht hn hm]
    constructor
    · intro place p1 p2 p3 p4
      rw [← m1 place p1 p2 p3]
      split_ifs with hd
      · dsimp only
        split_ifs
        · rfl
        · rw [Function.update_of_ne (p4 h1 _ _ a4.certainty hnear)]
      · rfl
    · intro place hd
      have hd' := m2 place hd
      split_ifs with hx
      · dsimp only
        split_ifs with hy
        · exact hd'
        · rw [Function.update_of_ne]
          · exact hd'
          · rintro rfl; exact hy hd'
      · exact hd'
  · rw [h2]
    exact ⟨fun place p1 p2 p3 _ => m1 place p1 p2 p3, m2⟩

/-- C74 (failed runs). A run that does not end regularly writes no limits: nothing but the folders and the copy changes. -/
theorem C74_failed_run_partial (h : (Program.main E (f :: args) fs).2 ≠ .ok ()) {place : List Name} (h1 : place ≠ resultsPlace top)
    (h2 : place ≠ runPlace top ID.toList) (h3 : place ≠ copyPlace top ID.toList) :
    (Program.main E (f :: args) fs).1 place = fs place :=
  (C74_written_places_partial hr hp hID hn ht).1 place h1 h2 h3 fun h' => absurd h' h

/-- C74 (outside). What is not in the folder `results` stays as it is. -/
theorem C74_outside_results_partial {place : List Name} (h : ¬ Below place (resultsPlace top)) :
    (Program.main E (f :: args) fs).1 place = fs place := by
  refine (C74_written_places_partial hr hp hID hn ht).1 place ?_ ?_ ?_ fun _ _ k _ _ => ?_
  · rintro rfl; exact h (List.suffix_refl _)
  · rintro rfl; exact h ⟨[ID.toList], rfl⟩
  · rintro rfl; exact h ⟨[ID.toList ++ ".cfg".toList, ID.toList], rfl⟩
  · rintro rfl; exact h ⟨[("DD_Constraints_" ++ toString k ++ ".txt").toList, ID.toList], rfl⟩

/-- C74 (other runs). The folder of a run with another ID, and everything in it, stays as it is. -/
theorem C74_other_runs_partial {ID' : Name} (hne : ID' ≠ ID.toList) {place : List Name} (h : Below place (runPlace top ID')) :
    (Program.main E (f :: args) fs).1 place = fs place := by
  obtain ⟨t, rfl⟩ := h
  have key : ∀ (s : List Name), t ++ runPlace top ID' = s ++ runPlace top ID.toList → False := by
    intro s hs
    have hl : t.length = s.length := by
      have := congrArg List.length hs
      simp [runPlace] at this
      omega
    obtain ⟨-, h2⟩ := List.append_inj hs hl
    unfold runPlace at h2
    exact hne (List.cons.inj h2).1
  refine (C74_written_places_partial hr hp hID hn ht).1 _ ?_ (fun h => key [] h) (fun h => key [_] h) (fun _ _ k _ _ h => key [_] h)
  intro h
  have := congrArg List.length h
  simp [runPlace] at this
  omega

/-- What is in the file after a regular run. -/
theorem main_writes (hf : FreeToWrite fs top ID.toList) (hfree : ∀ k, fs (constraintsPlace top ID.toList k) ≠ some .dir)
    (hok : (Program.main E (f :: args) fs).2 = .ok ()) :
    ∃ c' o rows cl, (Configuration.make E.R E.S E.N E.speeds E.parse fs [] f 0).2 = .ok (c', o) ∧ Program.limits E o = .ok (rows, cl) ∧
      (Program.main E (f :: args) fs).1 (constraintsPlace top ID.toList cl) =
        some (.file (E.format (rows.map fun r => (r.1 / E.S.U.GeV, r.2 / (E.S.U.cm * E.S.U.cm))))) := by
  rcases main_cases E f args fs with ⟨h1, c', o, rows, cl, h2, h3, h4⟩ | ⟨h1, h2⟩
  swap; · exact absurd hok h1
  refine ⟨c', o, rows, cl, h2, h3, ?_⟩
  obtain ⟨m1, m2⟩ := C54_written_places_partial (S := E.S) (N := E.N) (speeds := E.speeds) (cache := []) (rank := 0) hr hp hID hn ht
  have hm : ∀ q, fs.isDir q = true → (Configuration.make E.R E.S E.N E.speeds E.parse fs [] f 0).1.isDir q = true := by
    intro q hq
    by_cases he : q = []
    · simp [isDir, he]
    · simp only [isDir, Bool.or_eq_true, beq_iff_eq, he, false_or] at hq ⊢
      exact m2 q hq
  obtain ⟨t, c₁, ID₁, a1, a2, a3, -, -, -, -, -, a5, -⟩ := (C71_object E.R E.S E.N E.speeds E.parse fs [] c' f 0 o).1 h2
  rw [hr] at a1; cases a1
  rw [hp] at a2; cases a2
  rw [hID] at a3; cases a3
  -- the folders are there
  have hfold : (Configuration.make E.R E.S E.N E.speeds E.parse fs [] f 0).1 (resultsPlace top) = some .dir ∧
      (Configuration.make E.R E.S E.N E.speeds E.parse fs [] f 0).1 (runPlace top ID.toList) = some .dir := by
    rw [make_files hr hp hID]
    obtain ⟨d1, d2, d3⟩ := createResultFolder_eq ht hn
    obtain ⟨d4, d5⟩ := d3 hf.1 hf.2.1
    obtain ⟨k1, k2⟩ := copyConfigFile_other ht hn d1 f
    have w1 : resultsPlace top ≠ copyPlace top ID.toList := by
      intro h; have := congrArg List.length h; simp [copyPlace, runPlace] at this; omega
    have w2 : runPlace top ID.toList ≠ copyPlace top ID.toList := by
      intro h; have := congrArg List.length h; simp [copyPlace] at this
    exact ⟨by rw [k2 _ w1, d4], by rw [k2 _ w2, d5]⟩
  rw [h4, a5]
  unfold Program.exportLimits FileSystem.write
  rw [locate_limitsFile ht hn hm, if_pos hfold]
  dsimp only
  have w3 : (Configuration.make E.R E.S E.N E.speeds E.parse fs [] f 0).1 (constraintsPlace top ID.toList cl) ≠ some .dir := by
    by_cases hx : constraintsPlace top ID.toList cl = copyPlace top ID.toList
    · rw [hx, make_files hr hp hID]
      obtain ⟨d1, d2, d3⟩ := createResultFolder_eq ht hn
      obtain ⟨d4, d5⟩ := d3 hf.1 hf.2.1
      have n1 : copyPlace top ID.toList ≠ resultsPlace top := by
        intro h; have := congrArg List.length h; simp [copyPlace, runPlace] at this; omega
      have n2 : copyPlace top ID.toList ≠ runPlace top ID.toList := by
        intro h; have := congrArg List.length h; simp [copyPlace] at this
      rw [copyConfigFile_copy ht hn d1 d4 d5 (by rw [d2 _ n1 n2]; exact hf.2.2)]
      simp
    · rw [m1 _ _ _ hx]
      · exact hfree cl
      · intro h; have := congrArg List.length h; simp [constraintsPlace, runPlace] at this; omega
      · intro h; have := congrArg List.length h; simp [constraintsPlace] at this
  rw [if_neg w3, Function.update_self]

/-- C74 (the constraints). If nothing is in the way and the run ends regularly, `DD_Constraints_k.txt` is the text of a table for the
particle, the distribution and the detector of the configuration: the masses are those of a geometric grid with the ends and the number
of points that the file gives which are not below the smallest mass the detector is sensitive to and have a positive limit; the limit is
that of `Upper_Limit` for the particle at this mass. Masses are in GeV and limits in cm². (Partial: a plain ID; a grid of at least two
positive masses; a positive `DM_mass`.) -/
theorem C74_constraints_partial (hf : FreeToWrite fs top ID.toList) {cert lo hi : ℝ} {n : ℤ} (hL : DescribesLimits c cert lo hi n)
    (hlo : 0 < lo) (hhi : 0 < hi) (hn2 : 2 ≤ n) (hmass : ∀ m, c "DM_mass" = some (.float m) → 0 < m)
    (hfree : ∀ k, fs (constraintsPlace top ID.toList k) ≠ some .dir) (hok : (Program.main E (f :: args) fs).2 = .ok ()) :
    ∃ p h c' D k ms lowest, ∃ lim : ℝ → ℝ, c.particle E.S.U = .ok p ∧ c.distribution E.S.U E.N E.speeds = .ok h ∧ c.detector E.S [] = .ok (c', D) ∧
      NearestPercent cert k ∧ GeometricGrid ms lo hi n.toNat ∧ (D.toClass E.S.U E.T h).minimumDMMass D.base p = .ok lowest ∧
      (∀ m ∈ ms, lowest ≤ m → upperLimitAt E.S.U E.T (D.toClass E.S.U E.T h) D.base p cert m = .ok (lim m)) ∧
      (Program.main E (f :: args) fs).1 (constraintsPlace top ID.toList k) = some (.file (E.format (ms.filterMap fun m =>
        if lowest ≤ m ∧ 0 < lim m then some (m / E.S.U.GeV, lim m / E.S.U.cm ^ 2) else none))) := by
  obtain ⟨c', o, rows, cl, h2, h3, hfile⟩ := main_writes hr hp hID hn ht hf hfree hok
  obtain ⟨t, c₁, ID₁, a1, a2, a3, hp1, hd1, hD1, ⟨n', a4, hn'⟩, -, a5, -⟩ := (C71_object E.R E.S E.N E.speeds E.parse fs [] c' f 0 o).1 h2
  rw [hr] at a1; cases a1
  rw [hp] at a2; cases a2
  rw [hID] at a3; cases a3
  have e1 : cert = o.certainty := by have := hL.certainty.symm.trans a4.certainty; simpa using this
  have e2 : lo = o.massMin := by have := hL.lowest.symm.trans a4.lowest; simpa using this
  have e3 : hi = o.massMax := by have := hL.highest.symm.trans a4.highest; simpa using this
  have e4 : n = n' := by have := hL.masses.symm.trans a4.masses; simpa using this
  have hnum : 2 ≤ o.masses := by rw [hn', ← e4]; omega
  obtain ⟨ms, hms, h3⟩ := Outcome.bind_eq_ok.1 h3
  obtain ⟨⟨_, _, rows'⟩, hcurve, h3⟩ := Outcome.bind_eq_ok.1 h3
  obtain ⟨cl', hcl, h3⟩ := Outcome.bind_eq_ok.1 h3
  cases h3
  rw [e2] at hlo
  rw [e3] at hhi
  unfold Program.masses at hms
  rw [if_pos ⟨hlo, hhi, hnum⟩] at hms
  cases hms
  have hD := configured_detector hD1
  obtain ⟨hreg, -⟩ := configured_particle hp1 hmass
  obtain ⟨lowest, lim, c1, c2, c3⟩ := C33_curve hD.1 hreg.reachable (fun m h => logSpace_mem_pos hlo hhi h) hcurve
  have hnear : NearestPercent o.certainty cl := by rw [percentage_eq hcl]; exact cround_near _
  refine ⟨o.particle, o.distribution, c', o.detector, cl, logSpace o.massMin o.massMax o.masses, lowest, lim, hp1, hd1, hD1, e1 ▸ hnear, ?_, c1, ?_, ?_⟩
  · rw [e2, e3, e4, ← hn']; exact logSpace_grid hlo hhi hnum
  · rw [e1]; exact c2
  · rw [hfile, c3, List.map_filterMap]
    congr 4
    funext m
    split_ifs <;> simp [sq]

/-- C74 (shared file). All certainties from 99.5 % to 100 % write to the same file, so that of two such runs with one ID — say 3σ and
99.9 % — only the limits of the later one remain. -/
theorem C74_fails_shared_name {cert : ℝ} (hf : FreeToWrite fs top ID.toList) {lo hi : ℝ} {n : ℤ} (hL : DescribesLimits c cert lo hi n)
    (hlo : 0 < lo) (hhi : 0 < hi) (hn2 : 2 ≤ n) (hmass : ∀ m, c "DM_mass" = some (.float m) → 0 < m)
    (hfree : ∀ k, fs (constraintsPlace top ID.toList k) ≠ some .dir) (hok : (Program.main E (f :: args) fs).2 = .ok ())
    (hc : 0.995 < cert) (hc1 : cert ≤ 1) :
    ∃ rows, (Program.main E (f :: args) fs).1 (constraintsPlace top ID.toList 100) = some (.file (E.format rows)) := by
  obtain ⟨p, h, c', D, k, ms, lowest, lim, -, -, -, h1, -, -, -, h2⟩ :=
    C74_constraints_partial hr hp hID hn ht hf hL hlo hhi hn2 hmass hfree hok
  have : k = 100 := by
    unfold NearestPercent at h1
    rw [abs_le] at h1
    have a1 : (99 : ℝ) < k := by linarith
    have a2 : (k : ℝ) < 101 := by linarith
    have b1 : 99 < k := by exact_mod_cast a1
    have b2 : k < 101 := by exact_mod_cast a2
    omega
  subst this
  exact ⟨_, h2⟩

/-- C74 (the limits exclude). For a detector with the unbinned Poisson analysis and exact numerical routines, every limit in the file is
a coupling for which the p-value is `1 - CL`, below which it is larger and above which it is smaller. (Partial: as in
`C74_constraints_partial` and C30.) -/
theorem C74_limits_partial (hf : FreeToWrite fs top ID.toList) {cert lo hi : ℝ} {n : ℤ} (hL : DescribesLimits c cert lo hi n)
    (hlo : 0 < lo) (hhi : 0 < hi) (hn2 : 2 ≤ n) (hmass : ∀ m, c "DM_mass" = some (.float m) → 0 < m)
    (hfree : ∀ k, fs (constraintsPlace top ID.toList k) ≠ some .dir) (hok : (Program.main E (f :: args) fs).2 = .ok ())
    (hI : E.T.integrate.Homogeneous)
    (hP : ∀ k xs (ys : List ℝ) x y, E.T.interpolationIntegral xs (ys.map fun z => k * z) x y = k * E.T.interpolationIntegral xs ys x y)
    (hR : E.T.findRoot.Exact) {p : DMParticle} {h : Distribution} {c' : List Nucleus} {D : AnyDetector} {c0 : ℝ}
    (hp1 : c.particle E.S.U = .ok p) (hd1 : c.distribution E.S.U E.N E.speeds = .ok h) (hD1 : c.detector E.S [] = .ok (c', D))
    (hc0 : p.getInteractionParameter E.S.U D.base.targets = .ok c0) (h0 : 0 < c0) (ha : D.base.analysis = .poisson)
    (hs0 : ∀ m p' s, 0 < m → p.setMass E.S.U m = .ok p' → (D.toClass E.S.U E.T h).signalsTotal D.base p' = .ok s → 0 ≤ s) (hb : 0 ≤ D.base.background)
    (hbkg : probAtMost D.base.background D.base.observed ≠ 1 - cert) :
    ∃ (k : ℤ) (rows : List (ℝ × ℝ)), NearestPercent cert k ∧
      (Program.main E (f :: args) fs).1 (constraintsPlace top ID.toList k) = some (.file (E.format rows)) ∧
      ∀ r ∈ rows, ∃ m x p', r = (m / E.S.U.GeV, x / E.S.U.cm ^ 2) ∧ p.setMass E.S.U m = .ok p' ∧ 0 < x ∧
        ∀ σ, 0 ≤ σ → ∃ y, pValueAt E.S.U E.T (D.toClass E.S.U E.T h) D.base p' σ = .ok y ∧
          (σ < x → 1 - cert < y) ∧ (x < σ → y < 1 - cert) ∧ (σ = x → y = 1 - cert) := by
  obtain ⟨p₁, h₁, c₁, D₁, k, ms, lowest, lim, b1, b2, b3, b4, b5, -, b6, b7⟩ :=
    C74_constraints_partial hr hp hID hn ht hf hL hlo hhi hn2 hmass hfree hok
  rw [hp1] at b1; cases b1
  rw [hd1] at b2; cases b2
  rw [hD1] at b3; cases b3
  refine ⟨k, _, b4, b7, fun r hrow => ?_⟩
  obtain ⟨m, hm, hrow⟩ := List.mem_filterMap.1 hrow
  split_ifs at hrow with hx
  cases hrow
  have hD := configured_detector hD1
  obtain ⟨hreg, hfix⟩ := configured_particle hp1 hmass
  have hm0 : 0 < m := by
    obtain ⟨i, hi', rfl⟩ := List.getElem_of_mem hm
    obtain ⟨q, hq, hstep⟩ := b5.ratio
    clear hm hx hrow
    induction i with
    | zero =>
      have := b5.first
      rw [List.head?_eq_getElem?, List.getElem?_eq_getElem hi'] at this
      cases this; exact hlo
    | succ i ih =>
      have := ih (by omega)
      rw [hstep i _ _ (List.getElem?_eq_getElem (by omega)) (List.getElem?_eq_getElem hi')]
      exact mul_pos hq this
  obtain ⟨p', g1, g2⟩ := limitAt_correct hD.1 hreg hfix (hD.linear hI hP h) hR hc0 h0 ha hm0 (fun p' s => hs0 m p' s hm0) hb hbkg (b6 m hm hx.1)
  refine ⟨m, lim m, p', rfl, g1, hx.2, ?_⟩
  rcases g2 with ⟨g2, -⟩ | ⟨-, -, g2⟩
  · have := hx.2; rw [g2] at this; norm_num at this
  · exact g2

end Places

/-! ## A concrete run -/

/-- The example configuration with the Migdal effect. -/
noncomputable abbrev migdalConfig : Config := exampleWith "DD_experiment" "Migdal"

/-- A platform. The file system is that of `sampleFiles`; all files are parsed as `migdalConfig`. -/
noncomputable def samplePlatform (T : Tools) : Platform where
  R := sampleInstallation
  S := sampleSetup
  N := Numerics.exact
  T := T
  speeds := fun _ => none
  parse := fun _ => some migdalConfig
  format := fun rows => (toString rows.length).toList
  otherSpace := fun _ _ _ => .exit

theorem migdal_particle : ∃ p, migdalConfig.particle sampleSetup.U = .ok p ∧
    ∃ c0, p.getInteractionParameter sampleSetup.U "Nuclei" = .ok c0 ∧ 0 < c0 := by
  have hc : DescribesParticle migdalConfig
      { mass := 0.1, spin := 0.5, fraction := 1, light := false, interaction := "SI", formFactor := "Contact", mediator := 0, fp := 1,
        fn := 1, sigmaNucleon := 1e-36, sigmaElectron := 1e-36 } := by
    constructor <;> simp [exampleConfig]
  obtain ⟨p, hp, h1, -, -, -, -, h2, -, h3, -⟩ := C53_particle_partial (U := sampleSetup.U) hc (.inr ⟨rfl, by simp, by simp⟩) (by norm_num)
    (by norm_num) (by norm_num)
  refine ⟨p, hp, ?_⟩
  have hcm := sampleSetup.U.cm_pos
  have h2 := h2 (by norm_num)
  have hpos : 0 < p.sigmaProton sampleSetup.U := by rw [h2]; positivity
  unfold DMParticle.getInteractionParameter
  rw [if_pos rfl]
  split_ifs with hrel
  · exact ⟨_, rfl, hpos⟩
  · refine ⟨_, rfl, ?_⟩
    simp only [mul_one] at h3
    unfold DMParticle.sigmaNeutron
    rw [← h3]
    exact hpos

theorem migdal_halo : ∃ h, migdalConfig.distribution sampleSetup.U Numerics.exact (fun _ => none) = .ok h ∧ 0 < h.vMax := by
  have hs : √((0 : ℝ) ^ 2 + 232 ^ 2 + 0 ^ 2) = 232 := by
    rw [show (0 : ℝ) ^ 2 + 232 ^ 2 + 0 ^ 2 = 232 ^ 2 by norm_num]; exact Real.sqrt_sq (by norm_num)
  have hc : DescribesHalo migdalConfig ⟨0.4, 220, 0, 232, 0, 544⟩ := by constructor <;> simp [exampleConfig]
  obtain ⟨D, h1, -, -, h2, -⟩ := C69_standard_halo_partial (U := sampleSetup.U) Numerics.exact (fun _ => none) (by simp [exampleConfig]) hc
    (by norm_num) (by norm_num) (by rw [hs]; norm_num)
  refine ⟨D, h1, ?_⟩
  rw [h2]
  have := sampleSetup.U.km_pos
  have := sampleSetup.U.sec_pos
  positivity

theorem migdal_detector : ∃ c' d x, migdalConfig.detector sampleSetup [] = .ok (c', .migdal d x) ∧ d.analysis = .poisson ∧
    d.targets = "Nuclei" ∧ d.background = 0 ∧ d.observed = 0 ∧
    ∀ T h p, ∃ s, (x.toClass sampleSetup.U (shellRateMigdal sampleSetup.U T.integrate h) T h).signalsTotal d p = .ok s := by
  obtain ⟨c', d, x, a, -, h1, -, h2, h3, h4, h5, h6, h7, h8, h9, -, -, -, hb, -⟩ := (C70_ionization sampleSetup_installed .start (kind := "Migdal")
    (c := migdalConfig) (by simp) (.inr rfl) (example_detector _) (example_electrons _) (.inl rfl)).1 (by norm_num)
  obtain ⟨h1, hk⟩ := h1 rfl
  refine ⟨c', d, x, h1, hk.analysis, hk.targets, hk.background, by simpa using hk.observed, fun T h p => ?_⟩
  show ∃ s, x.signalsTotal _ _ _ _ _ _ = _
  unfold IonizationDetector.signalsTotal
  rw [if_neg (by rw [hk.analysis]; simp), if_pos h2]
  refine sumOver_defined fun ne _ => ?_
  obtain ⟨r, hr⟩ := rNe_defined (U := sampleSetup.U) (d := d) (p := p) (R := shellRateMigdal sampleSetup.U T.integrate h) (x := x)
    (by norm_num [sampleSetup, Units.sample, Units.keV]) (by rw [h8, h9]; rfl) (by rw [h8]; simpa using hb) (fun _ _ _ => ⟨_, rfl⟩) ne
  rw [hr]
  exact ⟨_, rfl⟩

theorem migdal_regular {T : Tools} (hI : T.integrate.Homogeneous)
    (hP : ∀ k xs (ys : List ℝ) x y, T.interpolationIntegral xs (ys.map fun z => k * z) x y = k * T.interpolationIntegral xs ys x y) :
    (Program.main (samplePlatform T) [['a']] sampleFiles).2 = .ok () := by
  obtain ⟨p, hp, c0, hc0, h0⟩ := migdal_particle
  obtain ⟨h, hh, hv⟩ := migdal_halo
  obtain ⟨c', d, x, hD, h1, h2, -, -, h3⟩ := migdal_detector
  obtain ⟨lowest, hl⟩ : ∃ l, x.minimumDMMass d h = .ok l := ⟨_, fdiv_ok (by positivity)⟩
  refine C74_regular_end (text := ['x']) (c := migdalConfig) (ID := "test") (cert := 0.95) (lo := 0.02) (hi := 1) (n := 10)
    (by show sampleFiles.read sampleInstallation.cwd ['a'] = _; decide) rfl (by simp [exampleConfig])
    (by constructor <;> simp [exampleConfig]) (by norm_num) (by norm_num) (by norm_num) (by norm_num) (fun m hm => ?_) hI hP hp hh hD
    (c0 := c0) ?_ h0.ne' h1 (lowest := lowest) hl (fun m p' _ _ => h3 T h p')
    (fun name hx => by cases (show some (Setting.string "Migdal") = some (.string name) from hx); decide)
  · simp [exampleConfig] at hm
    rw [← hm]; norm_num
  · rw [show (AnyDetector.migdal d x).base.targets = "Nuclei" from h2]; exact hc0

/-- Non-vacuity of the theorems on regular runs: started in `/o` with the configuration file `a`, the program writes ten limits or fewer
to `/o/results/test/DD_Constraints_95.txt`, for all tools that are linear. -/
example {T : Tools} (hI : T.integrate.Homogeneous)
    (hP : ∀ k xs (ys : List ℝ) x y, T.interpolationIntegral xs (ys.map fun z => k * z) x y = k * T.interpolationIntegral xs ys x y) :
    ∃ rows, (Program.main (samplePlatform T) [['a']] sampleFiles).1
      ["DD_Constraints_95.txt".toList, "test".toList, "results".toList, ['o']] = some (.file (toString (List.length rows)).toList) ∧
      (rows : List (ℝ × ℝ)).length ≤ 10 := by
  obtain ⟨p, h, c', D, k, ms, lowest, lim, -, -, -, h1, h2, -, -, h3⟩ := C74_constraints_partial (E := samplePlatform T) (text := ['x'])
    (c := migdalConfig) (ID := "test") (cert := 0.95) (lo := 0.02) (hi := 1) (n := 10) (args := [])
    (by show sampleFiles.read sampleInstallation.cwd ['a'] = _; decide) rfl (by simp [exampleConfig]) (by unfold PlainName; decide)
    sampleTop ⟨by decide, by decide, by decide⟩
    (by constructor <;> simp [exampleConfig]) (by norm_num) (by norm_num) (by norm_num) (fun m hm => by
      simp [exampleConfig] at hm
      rw [← hm]; norm_num) (fun k => by
      show sampleFiles _ ≠ _
      unfold sampleFiles constraintsPlace runPlace resultsPlace
      simp) (migdal_regular hI hP)
  have hk : k = 95 := by
    unfold NearestPercent at h1
    rw [abs_le] at h1
    have a1 : (94 : ℝ) < k := by linarith
    have a2 : (k : ℝ) < 96 := by linarith
    have b1 : 94 < k := by exact_mod_cast a1
    have b2 : k < 96 := by exact_mod_cast a2
    omega
  subst hk
  refine ⟨_, h3, ?_⟩
  have := List.length_filterMap_le (fun m => if lowest ≤ m ∧ 0 < lim m then
    some (m / (samplePlatform T).S.U.GeV, lim m / (samplePlatform T).S.U.cm ^ 2) else none) ms
  rw [h2.length] at this
  exact this

end Obscura
