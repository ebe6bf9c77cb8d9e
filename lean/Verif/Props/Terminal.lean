import Verif.Model.Terminal
import Verif.Spec.Terminal
import Verif.Props.Main

/-!
# C103 — the program prints the limits it writes
-/

namespace Obscura

open Spec FileSystem

variable {E : Platform} {fs : FileSystem} {f : Name} {args : List Name} {text : List Char} {c : Config} {ID : String} {top : List Name}

theorem limitLine_says (U : Units) (n i : ℕ) (m x : ℝ) : LimitLine U (i + 1) n m x (Program.limitLine U n i (m, x)) := by
  have he := U.eV_pos
  have hc := U.cm_pos
  unfold Program.limitLine LimitLine
  by_cases h : m < U.GeV
  · refine ⟨_, _, _, 10 ^ 6 * U.eV, rfl, by simp [h], ?_, ?_, fun _ => ?_, ?_⟩
    · simp only [if_pos h, Units.MeV]; field_simp; norm_num
    · field_simp
    · simp only [if_pos h, Units.MeV]
      rw [div_lt_iff₀ (by positivity)]
      simp only [Units.GeV] at h
      linarith
    · simp [h]
  · refine ⟨_, _, _, 10 ^ 9 * U.eV, rfl, by simp [h], ?_, ?_, ?_, fun _ => ?_⟩
    · rw [if_neg h]; simp only [Units.GeV]; field_simp; norm_num
    · field_simp
    · simp [h]
    · simp only [if_neg h]
      rw [le_div_iff₀ U.GeV_pos]
      linarith [not_lt.1 h]

theorem limitLoop_reports (U : Units) (rows : List (ℝ × ℝ)) : Reports U rows (Program.limitLoop U rows.length 0 rows) := by
  have key : ∀ (n : ℕ) (rows : List (ℝ × ℝ)) (j : ℕ), ∃ lines : List (List Printed), Program.limitLoop U n j rows = lines.flatten ∧
      lines.length = rows.length ∧ ∀ i m x line, rows[i]? = some (m, x) → lines[i]? = some line → LimitLine U (j + i + 1) n m x line := by
    intro n rows
    induction rows with
    | nil => exact fun j => ⟨[], rfl, rfl, by simp⟩
    | cons r rows ih =>
      intro j
      obtain ⟨lines, h1, h2, h3⟩ := ih (j + 1)
      refine ⟨Program.limitLine U n j r :: lines, by rw [Program.limitLoop, h1, List.flatten_cons], by simp [h2], fun i m x line k1 k2 => ?_⟩
      cases i with
      | zero =>
        simp only [List.getElem?_cons_zero, Option.some.injEq] at k1 k2
        subst k1 k2
        exact limitLine_says U n j m x
      | succ i =>
        simp only [List.getElem?_cons_succ] at k1 k2
        have := h3 i m x line k1 k2
        rwa [show j + 1 + i + 1 = j + (i + 1) + 1 by omega] at this
  obtain ⟨lines, h1, h2, h3⟩ := key rows.length rows 0
  exact ⟨lines, h1, h2, fun i m x line k1 k2 => by simpa using h3 i m x line k1 k2⟩

theorem report_eq {c' : List Nucleus} {o : Configuration} {rows : List (ℝ × ℝ)} {cl : ℤ}
    (hm : (Configuration.make E.R E.S E.N E.speeds E.parse fs [] f 0).2 = .ok (c', o)) (hl : Program.limits E o = .ok (rows, cl))
    (hok : (Program.main E (f :: args) fs).2 = .ok ()) : Program.report E (f :: args) fs = Program.limitLoop E.S.U rows.length 0 rows := by
  have hs : ∃ out, o.printSummary E.S [] 0 = .ok out := by
    simp only [Program.main] at hok
    generalize Configuration.make E.R E.S E.N E.speeds E.parse fs [] f 0 = r at hm hok
    obtain ⟨g, r⟩ := r
    dsimp only at hm
    subst hm
    dsimp only at hok
    cases h : o.printSummary E.S [] 0 with
    | ok out => exact ⟨out, rfl⟩
    | exit => simp [h] at hok
    | ub => simp [h] at hok
    | nonfinite => simp [h] at hok
  obtain ⟨out, hs⟩ := hs
  obtain ⟨ms, h1, hl⟩ := Outcome.bind_eq_ok.1 hl
  obtain ⟨⟨_, _, rows'⟩, h2, hl⟩ := Outcome.bind_eq_ok.1 hl
  obtain ⟨cl', h3, hl⟩ := Outcome.bind_eq_ok.1 hl
  cases hl
  unfold Program.report
  dsimp only
  rw [hm]
  dsimp only
  rw [hs]
  dsimp only
  rw [h1, Outcome.bind_ok, h2]
  rfl

theorem back_to_natural (U : Units) :
    ((fun r : ℝ × ℝ => (r.1 * (10 ^ 9 * U.eV), r.2 * U.cm ^ 2)) ∘ fun r => (r.1 / U.GeV, r.2 / (U.cm * U.cm))) = id := by
  have he := U.eV_pos
  have hc := U.cm_pos
  funext r
  refine Prod.ext ?_ ?_
  · simp only [Function.comp, Units.GeV, id]; field_simp; norm_num
  · simp only [Function.comp, id]; field_simp

/-- C103. After a regular run, the limits on the terminal are those that are written: every place is either as the construction of the
configuration left it, or holds a table with one row for every line, in the same order, with the same mass and the same limit. -/
theorem C103_report (hok : (Program.main E (f :: args) fs).2 = .ok ()) :
    ∃ table : List (ℝ × ℝ), Reports E.S.U (table.map fun r => (r.1 * (10 ^ 9 * E.S.U.eV), r.2 * E.S.U.cm ^ 2)) (Program.report E (f :: args) fs) ∧
      ∀ place, (Program.main E (f :: args) fs).1 place = (Configuration.make E.R E.S E.N E.speeds E.parse fs [] f 0).1 place ∨
        (Program.main E (f :: args) fs).1 place = some (.file (E.format table)) := by
  rcases main_cases E f args fs with ⟨-, c', o, rows, cl, h2, h3, h4⟩ | ⟨h1, -⟩
  swap; · exact absurd hok h1
  refine ⟨rows.map fun r => (r.1 / E.S.U.GeV, r.2 / (E.S.U.cm * E.S.U.cm)), ?_, fun place => ?_⟩
  · rw [report_eq h2 h3 hok, List.map_map, back_to_natural, List.map_id]
    exact limitLoop_reports _ _
  · rw [h4]
    unfold Program.exportLimits FileSystem.write
    generalize (Configuration.make E.R E.S E.N E.speeds E.parse fs [] f 0).1 = g
    cases g.locate E.R.cwd (Program.limitsFile E o.ID cl) with
    | none => exact .inl rfl
    | some q =>
      dsimp only
      by_cases hd : g q = some .dir
      · rw [if_pos hd]; exact .inl rfl
      · rw [if_neg hd]
        by_cases hq : place = q
        · subst hq
          exact .inr (Function.update_self ..)
        · exact .inl (Function.update_of_ne hq ..)

/-- C103 (the file). If the ID is a plain name and nothing is in the way, the file is `DD_Constraints_k.txt`. -/
theorem C103_file (hr : fs.read E.R.cwd f = some text) (hp : E.parse text = some c) (hID : c "ID" = some (.string ID))
    (hn : PlainName ID.toList) (ht : TopAt E.R fs top) (hf : FreeToWrite fs top ID.toList)
    (hfree : ∀ k, fs (constraintsPlace top ID.toList k) ≠ some .dir) (hok : (Program.main E (f :: args) fs).2 = .ok ()) :
    ∃ (k : ℤ) (table : List (ℝ × ℝ)),
      (Program.main E (f :: args) fs).1 (constraintsPlace top ID.toList k) = some (.file (E.format table)) ∧
      Reports E.S.U (table.map fun r => (r.1 * (10 ^ 9 * E.S.U.eV), r.2 * E.S.U.cm ^ 2)) (Program.report E (f :: args) fs) := by
  obtain ⟨c', o, rows, cl, h1, h2, h3⟩ := main_writes hr hp hID hn ht hf hfree hok
  refine ⟨cl, _, h3, ?_⟩
  rw [report_eq h1 h2 hok, List.map_map, back_to_natural, List.map_id]
  exact limitLoop_reports _ _

/-- C103 (any ID). Wherever the file ends up, the lines on the terminal are the limit curve of the configured objects on the grid of the
configuration. -/
theorem C103_limits (hr : fs.read E.R.cwd f = some text) (hp : E.parse text = some c) {cert lo hi : ℝ} {n : ℤ} (hL : DescribesLimits c cert lo hi n)
    (hlo : 0 < lo) (hhi : 0 < hi) (hn2 : 2 ≤ n) (hmass : ∀ m, c "DM_mass" = some (.float m) → 0 < m)
    (hok : (Program.main E (f :: args) fs).2 = .ok ()) :
    ∃ p h c' D ms lowest, ∃ lim : ℝ → ℝ, c.particle E.S.U = .ok p ∧ c.distribution E.S.U E.N E.speeds = .ok h ∧ c.detector E.S [] = .ok (c', D) ∧
      GeometricGrid ms lo hi n.toNat ∧ (D.toClass E.S.U E.T h).minimumDMMass D.base p = .ok lowest ∧
      (∀ m ∈ ms, lowest ≤ m → upperLimitAt E.S.U E.T (D.toClass E.S.U E.T h) D.base p cert m = .ok (lim m)) ∧
      Reports E.S.U (ms.filterMap fun m => if lowest ≤ m ∧ 0 < lim m then some (m, lim m) else none) (Program.report E (f :: args) fs) := by
  rcases main_cases E f args fs with ⟨h1, c', o, rows, cl, h2, h3, h4⟩ | ⟨h1, h2⟩
  swap; · exact absurd hok h1
  have hrep := report_eq (args := args) h2 h3 hok
  obtain ⟨t, c₁, ID₁, a1, a2, a3, hp1, hd1, hD1, ⟨n', a4, hn'⟩, -, a5, -⟩ := (C71_object E.R E.S E.N E.speeds E.parse fs [] c' f 0 o).1 h2
  rw [hr] at a1; cases a1
  rw [hp] at a2; cases a2
  have e1 : cert = o.certainty := by have := hL.certainty.symm.trans a4.certainty; simpa using this
  have e2 : lo = o.massMin := by have := hL.lowest.symm.trans a4.lowest; simpa using this
  have e3 : hi = o.massMax := by have := hL.highest.symm.trans a4.highest; simpa using this
  have e4 : n = n' := by have := hL.masses.symm.trans a4.masses; simpa using this
  have hnum : 2 ≤ o.masses := by rw [hn', ← e4]; omega
  obtain ⟨ms, hms, h3⟩ := Outcome.bind_eq_ok.1 h3
  obtain ⟨⟨_, _, rows'⟩, hcurve, h3⟩ := Outcome.bind_eq_ok.1 h3
  obtain ⟨cl', hcl, h3⟩ := Outcome.bind_eq_ok.1 h3
  cases h3
  rw [e2] at hlo
  rw [e3] at hhi
  unfold Program.masses at hms
  rw [if_pos ⟨hlo, hhi, hnum⟩] at hms
  cases hms
  have hD := configured_detector hD1
  obtain ⟨hreg, -⟩ := configured_particle hp1 hmass
  obtain ⟨lowest, lim, c1, c2, c3⟩ := C33_curve hD.1 hreg.reachable (fun m h => logSpace_mem_pos hlo hhi h) hcurve
  refine ⟨o.particle, o.distribution, c', o.detector, logSpace o.massMin o.massMax o.masses, lowest, lim, hp1, hd1, hD1, ?_, c1, ?_, ?_⟩
  · rw [e2, e3, e4, ← hn']; exact logSpace_grid hlo hhi hnum
  · rw [e1]; exact c2
  · rw [hrep, ← c3]
    exact limitLoop_reports _ _

/-- C103 (failed runs). If there is no usable configuration, or no file is given, no limit is printed. -/
theorem C103_nothing (h : ∀ c' o, (Configuration.make E.R E.S E.N E.speeds E.parse fs [] f 0).2 ≠ .ok (c', o)) :
    Program.report E (f :: args) fs = [] ∧ Program.report E [] fs = [] := by
  refine ⟨?_, rfl⟩
  unfold Program.report
  dsimp only
  cases hm : (Configuration.make E.R E.S E.N E.speeds E.parse fs [] f 0).2 with
  | ok q => exact absurd hm (h q.1 q.2)
  | _ => rfl

/-- Non-vacuity: the run of `Props/Main` in `/o` with the configuration file `a`. -/
example {T : Tools} (hI : T.integrate.Homogeneous)
    (hP : ∀ k xs (ys : List ℝ) x y, T.interpolationIntegral xs (ys.map fun z => k * z) x y = k * T.interpolationIntegral xs ys x y) :
    ∃ k table, (Program.main (samplePlatform T) [['a']] sampleFiles).1 (constraintsPlace [['o']] "test".toList k) =
        some (.file ((samplePlatform T).format table)) ∧
      Reports (samplePlatform T).S.U (table.map fun r => (r.1 * (10 ^ 9 * (samplePlatform T).S.U.eV), r.2 * (samplePlatform T).S.U.cm ^ 2))
        (Program.report (samplePlatform T) [['a']] sampleFiles) := by
  exact C103_file (E := samplePlatform T) (text := ['x'])
    (c := migdalConfig) (ID := "test") (args := [])
    (by show sampleFiles.read sampleInstallation.cwd ['a'] = _; decide) rfl (by simp [exampleConfig]) (by unfold PlainName; decide)
    sampleTop ⟨by decide, by decide, by decide⟩ (fun k => by
      show sampleFiles _ ≠ _
      unfold sampleFiles constraintsPlace runPlace resultsPlace
      simp) (migdal_regular hI hP)

/-- Two lines. -/
example (U : Units) : Program.limitLoop U 2 0 [(U.GeV / 2, U.cm ^ 2), (3 * U.GeV, 2 * U.cm ^ 2)] =
    [.nat 1, .text "/", .nat 2, .text "\tmDM = ", .rounded 500, .text " MeV", .text "\tUpper Bound:\t", .rounded 1, .text "\n",
     .nat 2, .text "/", .nat 2, .text "\tmDM = ", .rounded 3, .text " GeV", .text "\tUpper Bound:\t", .rounded 2, .text "\n"] := by
  have he := U.eV_pos
  have hc := U.cm_pos
  have hg := U.GeV_pos
  have h1 : U.GeV / 2 < U.GeV := by linarith
  have h2 : ¬ 3 * U.GeV < U.GeV := by linarith
  have e1 : U.GeV / 2 / U.MeV = 500 := by simp only [Units.GeV, Units.MeV]; field_simp; norm_num
  have e2 : 3 * U.GeV / U.GeV = 3 := by field_simp
  have e3 : U.cm ^ 2 / (U.cm * U.cm) = 1 := by field_simp
  have e4 : 2 * U.cm ^ 2 / (U.cm * U.cm) = 2 := by field_simp
  simp [Program.limitLoop, Program.limitLine, h1, h2, e1, e2, e3, e4]

end Obscura
